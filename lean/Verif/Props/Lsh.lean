import Verif.Proofs.Lsh
import Verif.Proofs.LshIndex
/-
Properties C06–C11 and C13 (lsh/lsh.go). C12 is in `Props/Wta.lean`.
-/
namespace Goslide.Props
open Spec

/-- C06. After any history of Add/AddSingle/Clear on new tables that did not panic, `RetrieveRaw`
returns `l` slices; slice `t` is the ring layout of the ids added to cell `(t, indices[t])` since the
last Clear (`cellHistory`, computed from the history alone): nothing else. -/
theorem C06_retrieveRaw_refines (k l rangePow : Nat) (hrp : rangePow < 63) (r r' : Rng)
    (s0 s : Lsh.LSH) (ops : List Lsh.Op)
    (hnew : Lsh.new k l rangePow r = .ok (s0, r')) (hrun : Lsh.run s0 ops = .ok s)
    (indices : List Int)
    (hv : ∀ t, t < l → ∃ v : Int, indices[t]? = some v ∧ 0 ≤ v ∧ v < ((2 ^ rangePow : Nat) : Int)) :
    ∃ raw, Lsh.retrieveRaw s indices = .ok raw ∧ raw.length = l ∧
      ∀ t j : Nat, t < l → indices[t]? = some (j : Int) →
        ∃ xs, raw[t]? = some xs ∧ IsRing (cellHistory ops t j) xs ∧
          xs.Perm (newest128 (cellHistory ops t j)) := by
  obtain ⟨s1, r1, h1, hk, hl, -, -, hrep⟩ := Lsh.new_ok k l rangePow r hrp
  rw [hnew] at h1
  simp only [Except.ok.injEq, Prod.mk.injEq] at h1
  obtain ⟨rfl, rfl⟩ := h1
  obtain ⟨hrep', hl', -⟩ := hrep.run ops s hrun
  have hls : s.l = l := by rw [hl', hl]
  subst hls
  obtain ⟨raw, hraw, hlen, hcell⟩ := Lsh.retrieveRaw_ok hrep'.wf indices
    ((Lsh.validFrom_zero_iff _ _ _).mpr hv)
  refine ⟨raw, hraw, hlen, ?_⟩
  intro t j ht hj
  obtain ⟨b, hb, hx⟩ := hcell t j ht hj
  have := (hrep'.cells t j b hb).isRing
  exact ⟨_, hx, this, Fifo.IsRing.perm this⟩

/-- C06. `Retrieve(t, j, slot)` on a valid cell: -1 from slot 128 on, 0 for a slot never filled since
the last Clear, otherwise the newest id of that cell whose position is congruent to the slot. -/
theorem C06_retrieve_refines (k l rangePow : Nat) (hrp : rangePow < 63) (r r' : Rng)
    (s0 s : Lsh.LSH) (ops : List Lsh.Op)
    (hnew : Lsh.new k l rangePow r = .ok (s0, r')) (hrun : Lsh.run s0 ops = .ok s)
    (t j i : Nat) (ht : t < l) (hj : j < 2 ^ rangePow) :
    (128 ≤ i → Lsh.retrieve s t j i = .ok (-1)) ∧
    (i < 128 → (cellHistory ops t j).length ≤ i → Lsh.retrieve s t j i = .ok 0) ∧
    (∀ p v, i < 128 → p % 128 = i → (cellHistory ops t j)[p]? = some v →
      (cellHistory ops t j).length ≤ p + 128 → Lsh.retrieve s t j i = .ok v) := by
  obtain ⟨s1, r1, h1, hk, hl, -, -, hrep⟩ := Lsh.new_ok k l rangePow r hrp
  rw [hnew] at h1
  simp only [Except.ok.injEq, Prod.mk.injEq] at h1
  obtain ⟨rfl, rfl⟩ := h1
  obtain ⟨hrep', hl', -⟩ := hrep.run ops s hrun
  have hls : s.l = l := by rw [hl', hl]
  subst hls
  have hsome := (hrep'.wf.bucketAt_isSome t j).mpr ⟨ht, hj⟩
  obtain ⟨b, hb⟩ := Option.isSome_iff_exists.mp hsome
  have hr : Fifo.Rep b (cellHistory ops t j) := hrep'.cells t j b hb
  have hred : Lsh.retrieve s t j i = Fifo.retrieve b i := by
    unfold Lsh.bucketAt at hb
    cases hbs : s.buckets[t]? with
    | none => rw [hbs] at hb; simp at hb
    | some bs =>
      rw [hbs] at hb
      simp only [Option.bind_some] at hb
      unfold Lsh.retrieve
      rw [goGet_ofNat, hbs, ok_bind, goGet_ofNat, hb, ok_bind]
  rw [hred]
  have hlen := hr.len_eq
  refine ⟨?_, ?_, ?_⟩
  · intro h
    unfold Fifo.retrieve Fifo.bucketSize
    rw [if_pos (by omega)]
  · intro h1 h2
    unfold Fifo.retrieve Fifo.bucketSize
    rw [if_neg (by omega), if_pos (by omega)]
  · intro p v h1 h2 h3 h4
    have hp : p < (cellHistory ops t j).length := by
      rcases Nat.lt_or_ge p (cellHistory ops t j).length with h | h
      · exact h
      · rw [List.getElem?_eq_none h] at h3; simp at h3
    have hv := hr.isRing.2 p hp h4
    rw [h2, h3] at hv
    have hi : i < b.len := by
      rcases Nat.lt_or_ge i b.len with h | h
      · exact h
      · rw [List.getElem?_eq_none (by simp [Fifo.content]; omega)] at hv; simp at hv
    unfold Fifo.retrieve Fifo.bucketSize
    rw [if_neg (by omega), if_neg (by omega), goGet_ofNat, hv]

/-- C06. `Add` returns, for every table, the slot of the new id: the number of ids that were added
to the cell since the last Clear, modulo 128. -/
theorem C06_add_slots (k l rangePow : Nat) (hrp : rangePow < 63) (r r' : Rng)
    (s0 s s' : Lsh.LSH) (ops : List Lsh.Op)
    (hnew : Lsh.new k l rangePow r = .ok (s0, r')) (hrun : Lsh.run s0 ops = .ok s)
    (indices slots : List Int) (id : Int) (hadd : Lsh.add s indices id = .ok (slots, s')) :
    slots.length = l ∧ ∀ t j : Nat, t < l → indices[t]? = some (j : Int) →
      slots[t]? = some (((cellHistory ops t j).length % 128 : Nat) : Int) := by
  obtain ⟨s1, r1, h1, hk, hl, -, -, hrep⟩ := Lsh.new_ok k l rangePow r hrp
  rw [hnew] at h1
  simp only [Except.ok.injEq, Prod.mk.injEq] at h1
  obtain ⟨rfl, rfl⟩ := h1
  obtain ⟨hrep', hl', -⟩ := hrep.run ops s hrun
  have hls : s.l = l := by rw [hl', hl]
  subst hls
  have hvalid : Lsh.ValidFrom indices (2 ^ rangePow) 0 s.l := by
    apply Classical.byContradiction
    intro hn
    rw [Lsh.add_error hrep'.wf indices id hn] at hadd
    simp at hadd
  obtain ⟨slots', s'', h1, h2, -, -, -, -, -, -, h3⟩ := Lsh.add_ok hrep'.wf indices id hvalid
  rw [hadd] at h1
  simp only [Except.ok.injEq, Prod.mk.injEq] at h1
  obtain ⟨rfl, rfl⟩ := h1
  refine ⟨h2, ?_⟩
  intro t j ht hj
  rw [h3 t j ht hj]
  obtain ⟨v, hv, hv0, hvn⟩ := hvalid t (by omega) (by omega)
  rw [hj] at hv
  simp only [Option.some.injEq] at hv
  subst hv
  have hsome := (hrep'.wf.bucketAt_isSome t j).mpr ⟨ht, by omega⟩
  obtain ⟨b, hb⟩ := Option.isSome_iff_exists.mp hsome
  rw [hb, Option.map_some]
  exact congrArg some ((hrep'.cells t j b hb).add id).2

/-- C06, C07 for `AddSingle`: it succeeds exactly on existing cells, and returns the slot of the new id. -/
theorem C06_addSingle_slot (k l rangePow : Nat) (hrp : rangePow < 63) (r r' : Rng)
    (s0 s : Lsh.LSH) (ops : List Lsh.Op)
    (hnew : Lsh.new k l rangePow r = .ok (s0, r')) (hrun : Lsh.run s0 ops = .ok s) (t j id : Int) :
    (¬ (0 ≤ t ∧ t < l ∧ 0 ≤ j ∧ j < ((2 ^ rangePow : Nat) : Int)) → Lsh.addSingle s t j id = .error .index) ∧
    (∀ t' j' : Nat, t = t' → j = j' → t' < l → j' < 2 ^ rangePow →
      ∃ s', Lsh.addSingle s t j id = .ok ((((cellHistory ops t' j').length % 128 : Nat) : Int), s')) := by
  obtain ⟨s1, r1, h1, hk, hl, -, -, hrep⟩ := Lsh.new_ok k l rangePow r hrp
  rw [hnew] at h1
  simp only [Except.ok.injEq, Prod.mk.injEq] at h1
  obtain ⟨rfl, rfl⟩ := h1
  obtain ⟨hrep', hl', -⟩ := hrep.run ops s hrun
  have hls : s.l = l := by rw [hl', hl]
  subst hls
  refine ⟨fun h => Lsh.addSingle_error hrep'.wf t j id h, ?_⟩
  rintro t' j' rfl rfl ht hj
  obtain ⟨b, s', hb, h1, -⟩ := Lsh.addSingle_spec hrep'.wf t' j' id ht hj
  refine ⟨s', ?_⟩
  rw [h1]
  congr 2
  exact ((hrep'.cells t' j' b hb).add id).2

-- two tables of 4 cells; ids of one cell do not leak into another
example : (do
    let (s0, _) ← Lsh.new 1 2 2 (fun _ => 0)
    let s ← Lsh.run s0 [.add [1, 3] 7, .addSingle 0 3 9, .add [1, 0] 8]
    Lsh.retrieveRaw s [1, 3]) = .ok [[7, 8], [7]] := by decide +kernel

/-- C07. `Add` on any reachable tables succeeds when the first `l` indices exist and lie in
`[0, 2^rangePow)`; otherwise it panics with an index error. Same for `RetrieveRaw`. -/
theorem C07_add_retrieve_ok_iff (k l rangePow : Nat) (hrp : rangePow < 63) (r r' : Rng)
    (s0 s : Lsh.LSH) (ops : List Lsh.Op)
    (hnew : Lsh.new k l rangePow r = .ok (s0, r')) (hrun : Lsh.run s0 ops = .ok s)
    (indices : List Int) (id : Int) :
    ((∀ t, t < l → ∃ v : Int, indices[t]? = some v ∧ 0 ≤ v ∧ v < ((2 ^ rangePow : Nat) : Int)) →
      (∃ res, Lsh.add s indices id = .ok res) ∧ ∃ raw, Lsh.retrieveRaw s indices = .ok raw) ∧
    (¬ (∀ t, t < l → ∃ v : Int, indices[t]? = some v ∧ 0 ≤ v ∧ v < ((2 ^ rangePow : Nat) : Int)) →
      Lsh.add s indices id = .error .index ∧ Lsh.retrieveRaw s indices = .error .index) := by
  obtain ⟨s1, r1, h1, hk, hl, -, -, hrep⟩ := Lsh.new_ok k l rangePow r hrp
  rw [hnew] at h1
  simp only [Except.ok.injEq, Prod.mk.injEq] at h1
  obtain ⟨rfl, rfl⟩ := h1
  obtain ⟨hrep', hl', -⟩ := hrep.run ops s hrun
  have hls : s.l = l := by rw [hl', hl]
  subst hls
  rw [← Lsh.validFrom_zero_iff]
  refine ⟨fun hv => ⟨?_, ?_⟩, fun hv => ⟨?_, ?_⟩⟩
  · obtain ⟨slots, s', h, -⟩ := Lsh.add_ok hrep'.wf indices id hv; exact ⟨_, h⟩
  · obtain ⟨raw, h, -⟩ := Lsh.retrieveRaw_ok hrep'.wf indices hv; exact ⟨_, h⟩
  · exact Lsh.add_error hrep'.wf indices id hv
  · exact Lsh.retrieveRaw_error hrep'.wf indices hv

/-- C07. What happens with larger ranges: `1<<63` is negative and `make` panics; larger shifts give 0, so the tables have no cells at all. -/
theorem C07_range_too_large (k l rangePow : Nat) (hl : 0 < l) (r : Rng) :
    Lsh.new k l 63 r = .error .makeLen ∧
    (63 < rangePow → ∃ s r', Lsh.new k l rangePow r = .ok (s, r') ∧ (∀ indices id, Lsh.add s indices id = .error .index) ∧
      (∀ indices, Lsh.retrieveRaw s indices = .error .index) ∧ (∀ t i id, Lsh.addSingle s t i id = .error .index) ∧
      (∀ t i j, Lsh.retrieve s t i j = .error .index) ∧ Lsh.clear s = s) := by
  obtain ⟨m, rfl⟩ : ∃ m, l = m + 1 := ⟨l - 1, by omega⟩
  have hnone : ∀ (i : Int), goGet ([] : List Fifo.FifoBucket) i = .error .index := fun i => by
    unfold goGet
    split <;> simp
  have htab : ∀ (t : Int) (x : List Fifo.FifoBucket), goGet (List.replicate (m + 1) ([] : List Fifo.FifoBucket)) t = .ok x → x = [] := fun t x h => by
    rw [goGet_ok_iff] at h
    exact List.eq_of_mem_replicate (List.mem_of_getElem? h.2)
  have herr : ∀ (t : Int) (e : Panic), goGet (List.replicate (m + 1) ([] : List Fifo.FifoBucket)) t = .error e → e = .index := fun t e h => by
    unfold goGet at h
    split at h
    · cases h; rfl
    · split at h <;> cases h; rfl
  have hidx : ∀ (l : List Int) (t : Int) (e : Panic), goGet l t = .error e → e = .index := fun l t e h => by
    unfold goGet at h
    split at h
    · cases h; rfl
    · split at h <;> cases h; rfl
  refine ⟨by simp [Lsh.new, Lsh.numBuckets, bind, Except.bind], fun h => ?_⟩
  have hn : Lsh.new k (m + 1) rangePow r = .ok ({ buckets := List.replicate (m + 1) [], k, l := m + 1, rangePow, rand1 := (Lsh.drawMultipliers (k * (m + 1)) r).1 },
      (Lsh.drawMultipliers (k * (m + 1)) r).2) := by
    unfold Lsh.new Lsh.numBuckets
    rw [if_neg (by omega), if_neg (by omega), if_neg (by omega)]
    rfl
  have hsingle : ∀ (s : Lsh.LSH), s.buckets = List.replicate (m + 1) [] → ∀ t i id, Lsh.addSingle s t i id = .error .index := fun s hs t i id => by
    unfold Lsh.addSingle
    rw [hs]
    cases ht : goGet (List.replicate (m + 1) ([] : List Fifo.FifoBucket)) t with
    | error e => rw [herr t e ht]; rfl
    | ok x => rw [htab t x ht, ok_bind, hnone]; rfl
  refine ⟨_, _, hn, fun indices id => ?_, fun indices => ?_, hsingle _ rfl, fun t i j => ?_, ?_⟩
  · unfold Lsh.add
    dsimp only
    rw [Lsh.addLoop]
    cases ht : goGet indices ((0 : Nat) : Int) with
    | error e => rw [hidx _ _ e ht]; rfl
    | ok x => rw [ok_bind, hsingle _ rfl]; rfl
  · unfold Lsh.retrieveRaw
    dsimp only
    rw [List.range_succ_eq_map, List.mapM_cons]
    have h0 : goGet (List.replicate (m + 1) ([] : List Fifo.FifoBucket)) ((0 : Nat) : Int) = .ok [] := by
      rw [goGet_ok_iff]; simp
    rw [h0, ok_bind]
    cases ht : goGet indices ((0 : Nat) : Int) with
    | error e => rw [hidx _ _ e ht]; rfl
    | ok x => rw [ok_bind, hnone]; rfl
  · unfold Lsh.retrieve
    dsimp only
    cases ht : goGet (List.replicate (m + 1) ([] : List Fifo.FifoBucket)) t with
    | error e => rw [herr t e ht]; rfl
    | ok x => rw [htab t x ht, ok_bind, hnone]; rfl
  · simp [Lsh.clear]

/-- C07. Adding to one cell leaves what every other cell returns unchanged. -/
theorem C07_addSingle_other_cells (k l rangePow : Nat) (hrp : rangePow < 63) (r r' : Rng)
    (s0 s s' : Lsh.LSH) (ops : List Lsh.Op)
    (hnew : Lsh.new k l rangePow r = .ok (s0, r')) (hrun : Lsh.run s0 ops = .ok s)
    (t j id slot : Int) (hadd : Lsh.addSingle s t j id = .ok (slot, s'))
    (t' j' i : Int) (hne : ¬ (t' = t ∧ j' = j)) :
    Lsh.retrieve s' t' j' i = Lsh.retrieve s t' j' i := by
  obtain ⟨s1, r1, h1, hk, hl, -, -, hrep⟩ := Lsh.new_ok k l rangePow r hrp
  rw [hnew] at h1
  simp only [Except.ok.injEq, Prod.mk.injEq] at h1
  obtain ⟨rfl, rfl⟩ := h1
  obtain ⟨hrep', -⟩ := hrep.run ops s hrun
  unfold Lsh.addSingle at hadd
  rw [bind_ok_iff] at hadd
  obtain ⟨table, h1, hadd⟩ := hadd
  rw [bind_ok_iff] at hadd
  obtain ⟨bucket, h2, hadd⟩ := hadd
  simp only [pure, Except.pure, Except.ok.injEq, Prod.mk.injEq] at hadd
  obtain ⟨-, rfl⟩ := hadd
  rw [goGet_ok_iff] at h1 h2
  unfold Lsh.retrieve
  simp only [goGet]
  by_cases ht' : t' < 0
  · simp [ht']
  · simp only [if_neg ht']
    by_cases htt : t' = t
    · subst htt
      have hjj : j' ≠ j := fun h => hne ⟨rfl, h⟩
      have hlt : t'.toNat < s.buckets.length := by
        rcases Nat.lt_or_ge t'.toNat s.buckets.length with h | h
        · exact h
        · rw [List.getElem?_eq_none h] at h1; simp at h1
      rw [List.getElem?_set_self hlt, h1.2]
      simp only [ok_bind]
      by_cases hj' : j' < 0
      · simp [hj']
      · simp only [if_neg hj']
        rw [List.getElem?_set_ne (by omega)]
    · rw [List.getElem?_set_ne (by omega)]

example : ∃ s0 r', Lsh.new 2 3 5 (fun _ => 0) = .ok (s0, r') ∧
    Lsh.add s0 [0, 31, 32] 1 = .error .index ∧ Lsh.add s0 [0, 31] 1 = .error .index := by
  exact ⟨_, _, rfl, by decide +kernel, by decide +kernel⟩

/-- C08. With DensifiedMinhash, whatever the hash codes (any values, at least `k*l` of them) and
the random multipliers, `HashesToIndex` returns `l` indices in `[0, 2^rangePow)`; hence `Add` and
`RetrieveRaw` on these indices do not panic. -/
theorem C08_minhash_index_valid (k l rangePow : Nat) (hrp : rangePow < 63) (r r' : Rng)
    (s0 s : Lsh.LSH) (ops : List Lsh.Op)
    (hnew : Lsh.new k l rangePow r = .ok (s0, r')) (hrun : Lsh.run s0 ops = .ok s)
    (hashes : List Int) (hlen : k * l ≤ hashes.length) (id : Int) :
    ∃ indices, Lsh.hashesToIndex .densifiedMinhash s hashes = .ok indices ∧
      indices.length = l ∧ (∀ v ∈ indices, 0 ≤ v ∧ v < ((2 ^ rangePow : Nat) : Int)) ∧
      (∃ res, Lsh.add s indices id = .ok res) ∧ ∃ raw, Lsh.retrieveRaw s indices = .ok raw := by
  obtain ⟨s1, r1, h1, hk, hl, hrp', hrand, hrep⟩ := Lsh.new_ok k l rangePow r hrp
  have hnew' := hnew
  rw [hnew] at h1
  simp only [Except.ok.injEq, Prod.mk.injEq] at h1
  obtain ⟨rfl, rfl⟩ := h1
  obtain ⟨hrep', hl', hk', hrps, hrs⟩ := hrep.run ops s hrun
  have hrl : s.rand1.length = k * l := by rw [hrs, hrand]; simp [Lsh.drawMultipliers]
  obtain ⟨indices, hi1, hi2, hi3⟩ := Lsh.hashesToIndex_minhash s hashes
    (by rw [hk', hk, hl', hl]; exact hlen) (by rw [hrl, hk', hk, hl', hl]; exact Nat.le_refl _)
    (by rw [hrps, hrp']; exact hrp)
  rw [hl', hl] at hi2
  rw [hrps, hrp'] at hi3
  have hv : ∀ t, t < l → ∃ v : Int, indices[t]? = some v ∧ 0 ≤ v ∧ v < ((2 ^ rangePow : Nat) : Int) := by
    intro t ht
    have htl : t < indices.length := by omega
    exact ⟨indices[t], List.getElem?_eq_getElem htl, hi3 _ (List.getElem_mem htl)⟩
  obtain ⟨h1, h2⟩ := (C07_add_retrieve_ok_iff k l rangePow hrp r r' s0 s ops hnew' hrun indices id).1 hv
  exact ⟨indices, hi1, hi2, hi3, h1, h2⟩

example : ∃ s0 r', Lsh.new 2 1 3 (fun n => n + 2) = .ok (s0, r') ∧
    Lsh.hashesToIndex .densifiedMinhash s0 [minInt64, 5] = .ok [2] := by
  exact ⟨_, _, rfl, by decide +kernel⟩

/-- C09. With SparseRandomProjection and 0/1 codes, `k ≤ 62`, the index of table `i` is the binary
number spelled by group `i` of the codes; it lies in `[0, 2^k)`. -/
theorem C09_srp_index (s : Lsh.LSH) (hashes : List Int) (hk : s.k ≤ 62)
    (hlen : s.k * s.l ≤ hashes.length) (hbits : ∀ c ∈ hashes, c = 0 ∨ c = 1) :
    Lsh.hashesToIndex .sparseRandomProjection s hashes =
      .ok ((List.range s.l).map (fun i => positional 2 (group s.k hashes i))) ∧
    ∀ i, i < s.l → 0 ≤ positional 2 (group s.k hashes i) ∧
      positional 2 (group s.k hashes i) < 2 ^ s.k := by
  have hmem : ∀ i, ∀ c ∈ group s.k hashes i, 0 ≤ c ∧ c < 2 := by
    intro i c hc
    have := hbits c (List.mem_of_mem_drop (List.mem_of_mem_take hc))
    omega
  have hb : ∀ i, i < s.l → 0 ≤ positional 2 (group s.k hashes i) ∧
      positional 2 (group s.k hashes i) < 2 ^ s.k := by
    intro i hi
    refine ⟨Lsh.positional_nonneg 2 (by omega) _ (fun c hc => (hmem i c hc).1), ?_⟩
    have := Lsh.positional_lt 2 (by omega) (group s.k hashes i) (fun c hc => (hmem i c hc).2)
    rwa [Lsh.group_length _ _ _ (Lsh.mul_add_le _ _ _ _ hi hlen)] at this
  refine ⟨?_, hb⟩
  apply Lsh.hashesToIndex_positional .sparseRandomProjection 1 rfl s hashes hlen
  intro i hi
  refine ⟨(hb i hi).1, ?_⟩
  have h1 : (2:Int) ^ s.k ≤ 2 ^ 62 := by
    exact_mod_cast Nat.pow_le_pow_right (by omega : 2 > 0) hk
  have h2 := (hb i hi).2
  have h3 : (2:Int) ^ 62 = 4611686018427387904 := rfl
  have h4 : (2:Int) ^ 63 = 9223372036854775808 := rfl
  have h5 : (2:Int) ^ 1 = 2 := rfl
  rw [h5]
  omega

/-- C09. Two 0/1 code vectors get the same index in table `i` exactly when their groups `i` are
equal. -/
theorem C09_srp_index_injective (s : Lsh.LSH) (hashes hashes' : List Int) (hk : s.k ≤ 62)
    (hlen : s.k * s.l ≤ hashes.length) (hlen' : s.k * s.l ≤ hashes'.length)
    (hbits : ∀ c ∈ hashes, c = 0 ∨ c = 1) (hbits' : ∀ c ∈ hashes', c = 0 ∨ c = 1)
    (xs ys : List Int) (hx : Lsh.hashesToIndex .sparseRandomProjection s hashes = .ok xs)
    (hy : Lsh.hashesToIndex .sparseRandomProjection s hashes' = .ok ys) (i : Nat) (hi : i < s.l) :
    xs[i]? = ys[i]? ↔ group s.k hashes i = group s.k hashes' i := by
  rw [(C09_srp_index s hashes hk hlen hbits).1] at hx
  rw [(C09_srp_index s hashes' hk hlen' hbits').1] at hy
  simp only [Except.ok.injEq] at hx hy
  subst hx hy
  simp only [List.getElem?_map, List.getElem?_range hi, Option.map_some, Option.some.injEq]
  constructor
  · intro h
    apply Lsh.positional_inj 2 (by omega) _ _ _ _ _ h
    · rw [Lsh.group_length _ _ _ (Lsh.mul_add_le _ _ _ _ hi hlen),
        Lsh.group_length _ _ _ (Lsh.mul_add_le _ _ _ _ hi hlen')]
    · intro c hc
      have := hbits c (List.mem_of_mem_drop (List.mem_of_mem_take hc)); omega
    · intro c hc
      have := hbits' c (List.mem_of_mem_drop (List.mem_of_mem_take hc)); omega
  · intro h; rw [h]

example : Lsh.hashesToIndex .sparseRandomProjection
    { buckets := [], k := 3, l := 2, rangePow := 3, rand1 := [] } [1, 0, 1, 0, 1, 1] = .ok [5, 3] := by
  decide +kernel

/-- C10 is false of the code: with `logBinSize = 2` the groups (0,4) and (1,0) collide. -/
theorem C10_index_not_injective :
    ¬ ∀ (hf : HashFunction) (s : Lsh.LSH) (hashes hashes' : List Int) (xs : List Int),
      hf = .wta ∨ hf = .densifiedWta →
      hashes.length = s.k * s.l → hashes'.length = s.k * s.l →
      (∀ c ∈ hashes, 0 ≤ c ∧ c < 8) → (∀ c ∈ hashes', 0 ≤ c ∧ c < 8) →
      Lsh.hashesToIndex hf s hashes = .ok xs → Lsh.hashesToIndex hf s hashes' = .ok xs →
      hashes = hashes' := by
  intro h
  have := h .densifiedWta { buckets := [], k := 2, l := 1, rangePow := 6, rand1 := [] } [0, 4] [1, 0] [4]
    (Or.inr rfl) rfl rfl (by decide) (by decide) (by decide +kernel) (by decide +kernel)
  exact absurd this (by decide)

/-- C10 (exact description of the collisions). For nonnegative codes in `[0,8)` and `k ≤ 30`, the
index of a group is its base-4 value, so two groups collide exactly when their base-4 values agree.
Missing from the full property: separation of codes from 4 to 7. -/
theorem C10_index_value_partial (hf : HashFunction) (hhf : hf = .wta ∨ hf = .densifiedWta)
    (s : Lsh.LSH) (hashes : List Int) (hk : s.k ≤ 30)
    (hlen : s.k * s.l ≤ hashes.length) (hcodes : ∀ c ∈ hashes, 0 ≤ c ∧ c < 8) :
    Lsh.hashesToIndex hf s hashes =
      .ok ((List.range s.l).map (fun i => positional 4 (group s.k hashes i))) := by
  have hcb : Lsh.codeBits hf = some 2 := by rcases hhf with rfl | rfl <;> rfl
  apply Lsh.hashesToIndex_positional hf 2 hcb s hashes hlen
  intro i hi
  have hmem : ∀ c ∈ group s.k hashes i, 0 ≤ c ∧ c < 8 := fun c hc =>
    hcodes c (List.mem_of_mem_drop (List.mem_of_mem_take hc))
  have e : ((2:Int) ^ 2) = 4 := rfl
  rw [e]
  refine ⟨Lsh.positional_nonneg 4 (by omega) _ (fun c hc => (hmem c hc).1), ?_⟩
  have h1 := Lsh.positional_le 4 7 (by omega) (group s.k hashes i)
    (fun c hc => by have := (hmem c hc).2; omega) (by omega)
  rw [Lsh.group_length _ _ _ (Lsh.mul_add_le _ _ _ _ hi hlen)] at h1
  have h2 : (4:Int) ^ s.k ≤ 4 ^ 30 := by
    exact_mod_cast Nat.pow_le_pow_right (by omega : 4 > 0) hk
  have h3 : (4:Int) ^ 30 = 1152921504606846976 := rfl
  have h4 : (2:Int) ^ 63 = 9223372036854775808 := rfl
  omega

/-- C10 (what does hold). Groups whose codes are all below 4 are separated. Missing from the full
property: codes from 4 to 7. -/
theorem C10_index_injective_partial (hf : HashFunction) (hhf : hf = .wta ∨ hf = .densifiedWta)
    (s : Lsh.LSH) (hashes hashes' : List Int) (hk : s.k ≤ 30)
    (hlen : s.k * s.l ≤ hashes.length) (hlen' : s.k * s.l ≤ hashes'.length)
    (hc : ∀ c ∈ hashes, 0 ≤ c ∧ c < 4) (hc' : ∀ c ∈ hashes', 0 ≤ c ∧ c < 4)
    (xs ys : List Int) (hx : Lsh.hashesToIndex hf s hashes = .ok xs)
    (hy : Lsh.hashesToIndex hf s hashes' = .ok ys) (i : Nat) (hi : i < s.l) :
    xs[i]? = ys[i]? ↔ group s.k hashes i = group s.k hashes' i := by
  rw [C10_index_value_partial hf hhf s hashes hk hlen
    (fun c h => ⟨(hc c h).1, by have := (hc c h).2; omega⟩)] at hx
  rw [C10_index_value_partial hf hhf s hashes' hk hlen'
    (fun c h => ⟨(hc' c h).1, by have := (hc' c h).2; omega⟩)] at hy
  simp only [Except.ok.injEq] at hx hy
  subst hx hy
  simp only [List.getElem?_map, List.getElem?_range hi, Option.map_some, Option.some.injEq]
  constructor
  · intro h
    apply Lsh.positional_inj 4 (by omega) _ _ _ _ _ h
    · rw [Lsh.group_length _ _ _ (Lsh.mul_add_le _ _ _ _ hi hlen),
        Lsh.group_length _ _ _ (Lsh.mul_add_le _ _ _ _ hi hlen')]
    · intro c h; exact hc c (List.mem_of_mem_drop (List.mem_of_mem_take h))
    · intro c h; exact hc' c (List.mem_of_mem_drop (List.mem_of_mem_take h))
  · intro h; rw [h]

/-- C11. DWTA codes in `[0,8)`, `k ≤ 30`: all indices are between 0 and `7*(4^k-1)/3`. -/
theorem C11_dwta_index_bound (s : Lsh.LSH) (hashes : List Int) (hk : s.k ≤ 30)
    (hlen : s.k * s.l ≤ hashes.length) (hcodes : ∀ c ∈ hashes, 0 ≤ c ∧ c < 8) :
    ∃ xs, Lsh.hashesToIndex .densifiedWta s hashes = .ok xs ∧ xs.length = s.l ∧
      ∀ v ∈ xs, 0 ≤ v ∧ v ≤ 7 * (4 ^ s.k - 1) / 3 := by
  refine ⟨_, C10_index_value_partial _ (Or.inr rfl) s hashes hk hlen hcodes, by simp, ?_⟩
  intro v hv
  rw [List.mem_map] at hv
  obtain ⟨i, hi, rfl⟩ := hv
  rw [List.mem_range] at hi
  have hmem : ∀ c ∈ group s.k hashes i, 0 ≤ c ∧ c < 8 := fun c hc =>
    hcodes c (List.mem_of_mem_drop (List.mem_of_mem_take hc))
  refine ⟨Lsh.positional_nonneg 4 (by omega) _ (fun c hc => (hmem c hc).1), ?_⟩
  have h1 := Lsh.positional_le 4 7 (by omega) (group s.k hashes i)
    (fun c hc => by have := (hmem c hc).2; omega) (by omega)
  rw [Lsh.group_length _ _ _ (Lsh.mul_add_le _ _ _ _ hi hlen)] at h1
  omega

/-- C11. The bound is attained: all codes 7. -/
theorem C11_dwta_index_bound_attained (s : Lsh.LSH) (hk : s.k ≤ 30) :
    Lsh.hashesToIndex .densifiedWta s (List.replicate (s.k * s.l) 7) =
      .ok (List.replicate s.l (7 * (4 ^ s.k - 1) / 3)) := by
  rw [C10_index_value_partial _ (Or.inr rfl) s _ hk (by simp) (by
    intro c hc; rw [(List.mem_replicate.mp hc).2]; omega)]
  congr 1
  apply List.ext_getElem?
  intro i
  by_cases hi : i < s.l
  · have hg : group s.k (List.replicate (s.k * s.l) (7:Int)) i = List.replicate s.k 7 := by
      have := Lsh.mul_add_le s.k s.l i (s.k * s.l) hi (Nat.le_refl _)
      unfold group
      rw [List.drop_replicate, List.take_replicate]
      congr 1; omega
    have hp : ∀ k : Nat, 3 * positional 4 (List.replicate k 7) = 7 * (4 ^ k - 1) := by
      intro k
      induction k with
      | zero => simp [positional]
      | succ k ih =>
        rw [List.replicate_succ, Lsh.positional_cons, List.length_replicate, Int.pow_succ]
        omega
    simp only [List.getElem?_map, List.getElem?_range hi, Option.map_some,
      List.getElem?_replicate, if_pos hi, hg]
    have := hp s.k
    congr 1; omega
  · rw [List.getElem?_eq_none (by simp; omega), List.getElem?_eq_none (by simp; omega)]

theorem C11_pow_bounds (k : Nat) : (7 * (4 ^ k - 1) / 3 : Int) < 2 ^ (2 * k + 2) ∧
    (2 ≤ k → (2:Int) ^ (2 * k + 1) ≤ 7 * (4 ^ k - 1) / 3) := by
  have e1 : (2:Int) ^ (2 * k + 2) = 4 * 4 ^ k := by
    rw [Int.pow_add, Int.pow_mul]; have : (2:Int) ^ 2 = 4 := rfl
    rw [this, Int.mul_comm]
  have e2 : (2:Int) ^ (2 * k + 1) = 2 * 4 ^ k := by
    rw [Int.pow_add, Int.pow_mul]; have : (2:Int) ^ 2 = 4 := rfl
    have h' : (2:Int) ^ 1 = 2 := rfl
    rw [this, h', Int.mul_comm]
  have hpos : 0 < (4:Int) ^ k := Int.pow_pos (by omega)
  refine ⟨by omega, fun h2 => ?_⟩
  have : (4:Int) ^ 2 ≤ 4 ^ k := by exact_mod_cast Nat.pow_le_pow_right (by omega : 4 > 0) h2
  have h16 : (4:Int) ^ 2 = 16 := rfl
  omega

/-- C11. `rangePow ≥ 2k+2` (in particular the intended `3k ≤ rangePow` when `k ≥ 2`) makes every
DWTA index valid, and for `k ≥ 2` no smaller `rangePow` does. -/
theorem C11_dwta_index_in_range (s : Lsh.LSH) (hashes : List Int) (hk : s.k ≤ 30)
    (hlen : s.k * s.l ≤ hashes.length) (hcodes : ∀ c ∈ hashes, 0 ≤ c ∧ c < 8)
    (hrp : 2 * s.k + 2 ≤ s.rangePow ∨ 3 * s.k ≤ s.rangePow) :
    ∃ xs, Lsh.hashesToIndex .densifiedWta s hashes = .ok xs ∧ xs.length = s.l ∧
      ∀ v ∈ xs, 0 ≤ v ∧ v < 2 ^ s.rangePow := by
  obtain ⟨xs, h1, h2, h3⟩ := C11_dwta_index_bound s hashes hk hlen hcodes
  refine ⟨xs, h1, h2, ?_⟩
  intro v hv
  refine ⟨(h3 v hv).1, ?_⟩
  have hb := (h3 v hv).2
  have hbp := (C11_pow_bounds s.k).1
  have mono : ∀ a b : Nat, a ≤ b → (2:Int) ^ a ≤ 2 ^ b := by
    intro a b hab; exact_mod_cast Nat.pow_le_pow_right (by omega : 2 > 0) hab
  by_cases h : 2 * s.k + 2 ≤ s.rangePow
  · have := mono _ _ h; omega
  · have h3k : 3 * s.k ≤ s.rangePow := by omega
    have hk2 : s.k = 0 ∨ s.k = 1 := by omega
    have := mono _ _ h3k
    rcases hk2 with hk2 | hk2
    · rw [hk2] at hb this
      have e : (2:Int) ^ (3 * 0) = 1 := rfl
      have e' : (4:Int) ^ 0 = 1 := rfl
      rw [e] at this; rw [e'] at hb; omega
    · rw [hk2] at hb this
      have e : (2:Int) ^ (3 * 1) = 8 := rfl
      have e' : (4:Int) ^ 1 = 4 := rfl
      rw [e] at this; rw [e'] at hb; omega

/-- C11. For `k ≥ 2`, `rangePow < 2k+2` is too small: the codes 7,7,…,7 give an index ≥ 2^rangePow. -/
theorem C11_dwta_range_needed (s : Lsh.LSH) (hk : s.k ≤ 30) (hk2 : 2 ≤ s.k) (hl : 0 < s.l)
    (hrp : s.rangePow < 2 * s.k + 2) :
    ∃ hashes xs v, hashes.length = s.k * s.l ∧ (∀ c ∈ hashes, (0:Int) ≤ c ∧ c < 8) ∧
      Lsh.hashesToIndex .densifiedWta s hashes = .ok xs ∧ v ∈ xs ∧ (2:Int) ^ s.rangePow ≤ v := by
  refine ⟨_, _, 7 * (4 ^ s.k - 1) / 3, ?_, ?_, C11_dwta_index_bound_attained s hk, ?_, ?_⟩
  · simp
  · intro c hc; rw [(List.mem_replicate.mp hc).2]; omega
  · simp; omega
  · have := (C11_pow_bounds s.k).2 hk2
    have h2 : (2:Int) ^ s.rangePow ≤ 2 ^ (2 * s.k + 1) := by
      exact_mod_cast Nat.pow_le_pow_right (by omega : 2 > 0) (by omega : s.rangePow ≤ 2 * s.k + 1)
    omega

-- the configuration used by goslide's tests: k = 2, rangePow = 6
example : Lsh.hashesToIndex .densifiedWta
    { buckets := [], k := 2, l := 2, rangePow := 6, rand1 := [] } [7, 7, 0, 5] = .ok [35, 5] := by
  decide +kernel

/-- C13. `positiveOddRandomInt` is positive and odd for every value `rand.Int()` can return
(in `[0, 2^63)`), without overflow. -/
theorem C13_positiveOdd (n : BitVec 64) (h : 0 ≤ n.toInt) :
    0 < (Lsh.positiveOddRandomInt n).toInt ∧ (Lsh.positiveOddRandomInt n).toInt % 2 = 1 ∧
      n.toInt ≤ (Lsh.positiveOddRandomInt n).toInt := by
  unfold Lsh.positiveOddRandomInt
  have hlt : n.toInt < 2 ^ 63 := by
    have := BitVec.toInt_lt (x := n)
    simpa using this
  have e : (2:Int) ^ 63 = 9223372036854775808 := rfl
  rw [e] at hlt
  split
  · rename_i hev
    have : (n + 1#64).toInt = n.toInt + 1 := by
      rw [BitVec.toInt_add]
      have h1 : (1#64).toInt = 1 := rfl
      rw [h1, Int.bmod_def]
      have e2 : ((2 ^ 64 : Nat) : Int) = 18446744073709551616 := rfl
      rw [e2]
      split <;> omega
    rw [this]; omega
  · omega

/-- C13. Every multiplier `rand1` of new tables is positive and odd, for every random outcome. -/
theorem C13_rand1_positiveOdd (k l rangePow : Nat) (r r' : Rng) (s : Lsh.LSH)
    (h : Lsh.new k l rangePow r = .ok (s, r')) :
    s.rand1.length = k * l ∧ ∀ v ∈ s.rand1, 0 < v ∧ v % 2 = 1 := by
  have hs : s.rand1 = (Lsh.drawMultipliers (k * l) r).1 := by
    unfold Lsh.new at h
    by_cases hl : l = 0
    · simp only [if_pos hl, ok_bind, pure, Except.pure, Except.ok.injEq, Prod.mk.injEq] at h
      rw [← h.1]
    · simp only [if_neg hl] at h
      rw [bind_ok_iff] at h
      obtain ⟨n, -, h⟩ := h
      simp only [pure, Except.pure, Except.ok.injEq, Prod.mk.injEq] at h
      rw [← h.1]
  rw [hs]
  refine ⟨by simp [Lsh.drawMultipliers], ?_⟩
  intro v hv
  simp only [Lsh.drawMultipliers, List.mem_map, List.mem_range] at hv
  obtain ⟨i, -, rfl⟩ := hv
  have hn : 0 ≤ (Lsh.randInt (r i)).toInt := by
    unfold Lsh.randInt
    rw [BitVec.toInt_eq_toNat_of_lt] <;>
    · rw [BitVec.toNat_ofNat]
      have : r i % 2 ^ 63 < 2 ^ 63 := Nat.mod_lt _ (by decide)
      omega
  have := C13_positiveOdd _ hn
  exact ⟨this.1, this.2.1⟩

/-- C13. Every value of `[0, 2^63)` can be drawn, including the largest. -/
example : Lsh.positiveOddRandomInt (Lsh.randInt (2 ^ 63 - 1)) = BitVec.ofNat 64 (2 ^ 63 - 1) ∧
    Lsh.positiveOddRandomInt (Lsh.randInt (2 ^ 63 - 2)) = BitVec.ofNat 64 (2 ^ 63 - 1) := by
  decide +kernel

end Goslide.Props
