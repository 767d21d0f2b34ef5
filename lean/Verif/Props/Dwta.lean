import Verif.Proofs.Dwta
import Verif.Go.Exact
import Verif.Spec.Vector
/-
Properties C17–C21 (densified_wta_hash/densified_wta_hash.go).
-/
namespace Goslide.Props
open Spec
variable {F : Type} [GoFloat F]

/-- C18. The table built by `New`, for every random outcome: slot `(p, f)` (permutation `p`, feature
`f`) is entry `p*dim + f`. Every slot has a bin and a position below 8; two slots never share both;
every bin below `numHashes` has a slot for each of the 8 positions. -/
theorem C18_slots_partition (numHashes dim : Nat) (hd : 0 < dim) (r : Rng) :
    let dw := (Dwta.new numHashes dim r).1
    dw.indices.length = dw.permute * dim ∧ dw.pos.length = dw.permute * dim ∧
    (∀ s, s < dw.permute * dim → ∃ b q, dw.indices[s]? = some b ∧ dw.pos[s]? = some q ∧ q < 8 ∧
      b * 8 + q < dw.permute * dim) ∧
    (∀ (s s' b q : Nat), dw.indices[s]? = some b → dw.pos[s]? = some q →
      dw.indices[s']? = some b → dw.pos[s']? = some q → s = s') ∧
    (∀ (b q : Nat), b < numHashes → q < 8 → ∃ (s : Nat), dw.indices[s]? = some b ∧ dw.pos[s]? = some q) := by
  intro dw
  have h := Dwta.new_slotTable numHashes dim hd r
  have hs : ∀ s, s < dw.permute * dim → s / dim < dw.permute ∧ s % dim < dim ∧
      s = s / dim * dim + s % dim := by
    intro s hs
    refine ⟨(Nat.div_lt_iff_lt_mul hd).mpr hs, Nat.mod_lt _ hd, ?_⟩
    rw [Nat.mul_comm]; exact (Nat.div_add_mod s dim).symm
  refine ⟨h.len1, h.len2, ?_, ?_, ?_⟩
  · intro s hlt
    obtain ⟨h1, h2, h3⟩ := hs s hlt
    obtain ⟨j, hj, e1, e2⟩ := h.slot (s / dim) (s % dim) h1 h2
    rw [← h3] at e1 e2
    refine ⟨_, _, e1, e2, by omega, ?_⟩
    have : (s / dim + 1) * dim ≤ dw.permute * dim := Nat.mul_le_mul_right _ h1
    rw [Nat.succ_mul] at this
    omega
  · intro s s' b q h1 h2 h3 h4
    have l1 : s < dw.permute * dim := by
      rcases Nat.lt_or_ge s (dw.permute * dim) with h' | h'
      · exact h'
      · rw [List.getElem?_eq_none (by rw [h.len1]; exact h')] at h1; simp at h1
    have l2 : s' < dw.permute * dim := by
      rcases Nat.lt_or_ge s' (dw.permute * dim) with h' | h'
      · exact h'
      · rw [List.getElem?_eq_none (by rw [h.len1]; exact h')] at h3; simp at h3
    obtain ⟨a1, a2, a3⟩ := hs s l1
    obtain ⟨b1, b2, b3⟩ := hs s' l2
    rw [a3] at h1 h2
    rw [b3] at h3 h4
    obtain ⟨e1, e2⟩ := h.slot_inj _ _ _ _ b q a1 a2 b1 b2 h1 h2 h3 h4
    rw [a3, b3, e1, e2]
  · intro b q hb hq
    obtain ⟨p, v, -, -, h1, h2⟩ := h.slot_surj hd b q hb hq
    exact ⟨_, h1, h2⟩

-- 3 hashes over 5 features: 5 permutations, 25 slots
example : (Dwta.new 3 5 (fun n => n)).1.permute = 5 ∧
    (Dwta.new 3 5 (fun n => n)).1.indices.length = 25 := by decide +kernel

/-- The values that `GetHash` can put in an item: a position below 8. -/
theorem dwta_items_range (numHashes dim : Nat) (hd : 0 < dim) (r : Rng) (data : List F)
    (hlen : data.length ≤ dim) :
    ∃ items, Dwta.fillItems (Dwta.new numHashes dim r).1 data = .ok items ∧
      items.length = numHashes ∧ ∀ it ∈ items, 0 ≤ it.hash ∧ it.hash < 8 := by
  have h := Dwta.new_slotTable numHashes dim hd r
  obtain ⟨items, h1, h2, h3⟩ := Dwta.fillItems_spec h data hlen
  refine ⟨items, h1, h2, ?_⟩
  intro it hit
  obtain ⟨b, hb⟩ := List.mem_iff_getElem?.mp hit
  have hbl : b < numHashes := by
    rcases Nat.lt_or_ge b numHashes with h' | h'
    · exact h'
    · rw [List.getElem?_eq_none (by omega)] at hb; simp at hb
  rw [h3 b hbl] at hb
  simp only [Option.some.injEq] at hb
  have key : ∀ (ys : List (Nat × (F × Nat))) (it0 : Dwta.Item F),
      (∀ y ∈ ys, y ∈ Dwta.visits (Dwta.new numHashes dim r).1.permute data) →
      0 ≤ it0.hash ∧ it0.hash < 8 →
      0 ≤ (ys.foldl (Dwta.itemUpd (Dwta.new numHashes dim r).1) it0).hash ∧
        (ys.foldl (Dwta.itemUpd (Dwta.new numHashes dim r).1) it0).hash < 8 := by
    intro ys
    induction ys with
    | nil => intro it0 _ h0; exact h0
    | cons y ys ih =>
      intro it0 hm h0
      rw [List.foldl_cons]
      apply ih _ (fun y hy => hm y (by simp [hy]))
      unfold Dwta.itemUpd
      split
      · obtain ⟨hp, hi⟩ := Dwta.visit_lt hlen (hm y (by simp))
        obtain ⟨j, -, -, e2⟩ := h.slot y.1 y.2.2 hp hi
        simp only [Dwta.posOf, h.rp, e2, Option.getD_some]
        omega
      · exact h0
  rw [← hb]
  exact key _ _ (fun y hy => (List.mem_filter.mp hy).1) (by simp)

/-- C17. `GetHash` on at most `dim` pairs never panics and returns `numHashes` codes in `[0,8)`,
whatever the values (NaN included), the random permutations and multipliers, and also when
densification fails. (`numHashes < 2^32`: beyond that the shift count of the probe is negative.) -/
theorem C17_getHash_codes (numHashes dim : Nat) (hd : 0 < dim) (hn : numHashes < 2 ^ 32) (r : Rng)
    (data : List (Pair F)) (hlen : data.length ≤ dim) :
    ∃ codes, Dwta.getHash (Dwta.new numHashes dim r).1 data = .ok codes ∧ codes.length = numHashes ∧
      ∀ c ∈ codes, 0 ≤ c ∧ c < 8 := by
  obtain ⟨items, h1, h2, h3⟩ := dwta_items_range numHashes dim hd r (data.map (·.Value)) (by simpa using hlen)
  have hlog : numHashes ≠ 0 → (Dwta.new numHashes dim r).1.logNumHash ≤ 31 := by
    intro h0
    show Nat.log2 numHashes ≤ 31
    have := (Nat.log2_lt h0).mpr hn
    omega
  have key : ∀ x ∈ items.zipIdx, ∃ c, Dwta.finish (Dwta.new numHashes dim r).1 items x = .ok c ∧
      0 ≤ c ∧ c < 8 := by
    rintro ⟨it, i⟩ hx
    have hx' := (zipIdx_mem _ _ _).mp hx
    have hmem := List.mem_of_getElem? hx'
    have hpos : 0 < numHashes := by
      rw [← h2]; exact List.length_pos_of_mem hmem
    unfold Dwta.finish
    by_cases hin : it.init = true
    · rw [if_pos hin]; exact ⟨_, rfl, h3 it hmem⟩
    · rw [if_neg hin]
      rcases Dwta.probe_spec (Dwta.new numHashes dim r).1 items i (hlog (by omega)) hpos h2 100
        (Nat.le_refl _) with ⟨c, it', -, -, hg, -, -, hp⟩ | ⟨-, hp⟩
      · exact ⟨_, hp, h3 it' (List.mem_of_getElem? hg)⟩
      · exact ⟨0, hp, by omega, by omega⟩
  have hall : ∀ x ∈ items.zipIdx, Dwta.finish (Dwta.new numHashes dim r).1 items x =
      .ok (match Dwta.finish (Dwta.new numHashes dim r).1 items x with | .ok v => v | .error _ => 0) := by
    intro x hx
    obtain ⟨c, hc, -⟩ := key x hx
    rw [hc]
  refine ⟨_, by unfold Dwta.getHash; rw [h1, ok_bind]; exact mapM_ok_of_forall _ _ _ hall, by simp [h2], ?_⟩
  intro c hc
  rw [List.mem_map] at hc
  obtain ⟨x, hx, rfl⟩ := hc
  obtain ⟨c, hc, hr⟩ := key x hx
  rw [hc]; exact hr

/-- C17, C25-like precondition: more pairs than features make `GetHash` panic (index out of range)
as soon as there is at least one hash. -/
theorem C17_getHash_too_long (numHashes dim : Nat) (hd : 0 < dim) (hn : 0 < numHashes) (r : Rng)
    (data : List (Pair F)) (hlen : dim < data.length) :
    ∃ e, Dwta.getHash (Dwta.new numHashes dim r).1 data = .error e := by
  have h := Dwta.new_slotTable numHashes dim hd r
  cases hres : Dwta.getHash (Dwta.new numHashes dim r).1 data with
  | error e => exact ⟨e, rfl⟩
  | ok codes =>
    exfalso
    unfold Dwta.getHash at hres
    rw [bind_ok_iff] at hres
    obtain ⟨items, hi, -⟩ := hres
    unfold Dwta.fillItems at hi
    have hpos : 0 < (Dwta.new numHashes dim r).1.permute := by
      have := h.enough
      rcases Nat.eq_zero_or_pos (Dwta.new numHashes dim r).1.permute with h0 | h0
      · rw [h0] at this; omega
      · exact h0
    rw [foldlM_flatMap_pairs (fun _ => (data.map (·.Value)).zipIdx)
      (fun p items x => Dwta.itemStep (Dwta.new numHashes dim r).1 p items x)] at hi
    -- the visit (permute-1, dim) reads past the end
    have hmem : ((Dwta.new numHashes dim r).1.permute - 1, (data[dim].Value, dim)) ∈
        Dwta.visits (Dwta.new numHashes dim r).1.permute (data.map (·.Value)) := by
      rw [Dwta.mem_visits]
      refine ⟨by simp only []; omega, ?_⟩
      simp only [List.getElem?_map, List.getElem?_eq_getElem hlen, Option.map_some]
    have hbad : ∀ st, Dwta.itemStep (Dwta.new numHashes dim r).1
        ((Dwta.new numHashes dim r).1.permute - 1) st (data[dim].Value, dim) = .error .index := by
      intro st
      unfold Dwta.itemStep
      dsimp only
      rw [goGet_ofNat, List.getElem?_eq_none, error_bind]
      rw [h.len1, h.rp]
      have : ((Dwta.new numHashes dim r).1.permute - 1) * dim + dim =
          (Dwta.new numHashes dim r).1.permute * dim := by
        rw [← Nat.succ_mul]; congr 1; omega
      omega
    have gen : ∀ (ys : List (Nat × (F × Nat))) (y : Nat × (F × Nat)) (st items : List (Dwta.Item F)),
        y ∈ ys →
        (∀ st, Dwta.itemStep (Dwta.new numHashes dim r).1 y.1 st y.2 = .error .index) →
        ys.foldlM (fun s y => Dwta.itemStep (Dwta.new numHashes dim r).1 y.1 s y.2) st ≠ .ok items := by
      intro ys
      induction ys with
      | nil => intro y st items hy; simp at hy
      | cons z ys ih =>
        intro y st items hy hb
        rw [List.foldlM_cons]
        intro hc
        rw [bind_ok_iff] at hc
        obtain ⟨st1, hs1, hs2⟩ := hc
        rcases List.mem_cons.mp hy with rfl | hy
        · rw [hb] at hs1; simp at hs1
        · exact ih y st1 items hy hb hs2
    exact gen _ _ _ _ hmem hbad hi

/-- C17. The same for `GetHashEasy`. -/
theorem C17_getHashEasy_codes (numHashes dim : Nat) (hd : 0 < dim) (hn : numHashes < 2 ^ 32) (r : Rng)
    (data : List F) (hlen : data.length ≤ dim) :
    ∃ codes, Dwta.getHashEasy (Dwta.new numHashes dim r).1 data = .ok codes ∧
      codes.length = numHashes ∧ ∀ c ∈ codes, 0 ≤ c ∧ c < 8 := by
  have h := Dwta.new_slotTable numHashes dim hd r
  obtain ⟨st, h1, h2, h3⟩ := Dwta.fillEasy_spec h data hlen
  have hfold : ∀ (ys : List (Nat × (F × Nat))) (s0 : Int × F),
      (∀ y ∈ ys, y ∈ Dwta.visits (Dwta.new numHashes dim r).1.permute data) →
      (s0.1 = minInt64 ∨ (0 ≤ s0.1 ∧ s0.1 < 8)) →
      let s1 := ys.foldl (argStep (fun y => y.2.1)
        (fun y => (Dwta.posOf (Dwta.new numHashes dim r).1 y : Int))) s0
      (s1.1 = minInt64 ∨ (0 ≤ s1.1 ∧ s1.1 < 8)) := by
    intro ys
    induction ys with
    | nil => intro s0 _ h0; exact h0
    | cons y ys ih =>
      intro s0 hm h0
      rw [List.foldl_cons]
      apply ih _ (fun y hy => hm y (by simp [hy]))
      unfold argStep
      split
      · obtain ⟨hp, hi⟩ := Dwta.visit_lt hlen (hm y (by simp))
        obtain ⟨j, -, -, e2⟩ := h.slot y.1 y.2.2 hp hi
        simp only [Dwta.posOf, h.rp, e2, Option.getD_some]
        omega
      · exact h0
  have hcode : ∀ v ∈ st.1, v = minInt64 ∨ (0 ≤ v ∧ v < 8) := by
    intro v hv
    obtain ⟨b, hb⟩ := List.mem_iff_getElem?.mp hv
    have hbl : b < numHashes := by
      rcases Nat.lt_or_ge b numHashes with h' | h'
      · exact h'
      · rw [List.getElem?_eq_none (by omega)] at hb; simp at hb
    rw [h3 b hbl] at hb
    simp only [Option.some.injEq] at hb
    rw [← hb]
    exact hfold _ _ (fun y hy => (List.mem_filter.mp hy).1) (Or.inl rfl)
  -- view the hashes as items
  let items : List (Dwta.Item F) := st.1.map (fun h =>
    { hash := h, value := GoFloat.zero, init := decide (h ≠ minInt64) })
  have hitems : items.length = st.1.length := by simp [items]
  have hprobe : ∀ i n, Dwta.probeEasy (Dwta.new numHashes dim r).1 st.1 i n =
      Dwta.probe (Dwta.new numHashes dim r).1 items i n := by
    intro i
    apply Dwta.probeEasy_eq _ _ _ hitems
    intro b it h hb1 hb2
    simp only [items, List.getElem?_map, hb2, Option.map_some, Option.some.injEq] at hb1
    subst hb1
    by_cases hh : h = minInt64
    · right; simp [hh]
    · left; simp [hh]
  have key : ∀ x ∈ st.1.zipIdx, ∃ c, Dwta.finishEasy (Dwta.new numHashes dim r).1 st.1 x = .ok c ∧
      0 ≤ c ∧ c < 8 := by
    rintro ⟨v, i⟩ hx
    have hx' := (zipIdx_mem _ _ _).mp hx
    have hmem := List.mem_of_getElem? hx'
    have hpos : 0 < numHashes := by
      rw [← h2]; exact List.length_pos_of_mem hmem
    have hlog : (Dwta.new numHashes dim r).1.logNumHash ≤ 31 := by
      show Nat.log2 numHashes ≤ 31
      have := (Nat.log2_lt (by omega : numHashes ≠ 0)).mpr hn
      omega
    unfold Dwta.finishEasy
    by_cases hin : v = minInt64
    · rw [if_neg (by simpa using hin), hprobe]
      rcases Dwta.probe_spec (Dwta.new numHashes dim r).1 items i hlog hpos (hitems.trans h2) 100
        (Nat.le_refl _) with ⟨c, it', -, -, hg, hi, -, hp⟩ | ⟨-, hp⟩
      · refine ⟨_, hp, ?_⟩
        simp only [items, List.getElem?_map, Option.map_eq_some_iff] at hg
        obtain ⟨w, hw, rfl⟩ := hg
        rcases hcode w (List.mem_of_getElem? hw) with h' | h'
        · simp [h'] at hi
        · exact h'
      · exact ⟨0, hp, by omega, by omega⟩
    · rw [if_pos (by simpa using hin)]
      rcases hcode v hmem with h' | h'
      · exact absurd h' hin
      · exact ⟨_, rfl, h'⟩
  have hall : ∀ x ∈ st.1.zipIdx, Dwta.finishEasy (Dwta.new numHashes dim r).1 st.1 x =
      .ok (match Dwta.finishEasy (Dwta.new numHashes dim r).1 st.1 x with | .ok v => v | .error _ => 0) := by
    intro x hx
    obtain ⟨c, hc, -⟩ := key x hx
    rw [hc]
  refine ⟨_, by unfold Dwta.getHashEasy; rw [h1, ok_bind]; exact mapM_ok_of_forall _ _ _ hall,
    by simp [h2], ?_⟩
  intro c hc
  rw [List.mem_map] at hc
  obtain ⟨x, hx, rfl⟩ := hc
  obtain ⟨c, hc, hr⟩ := key x hx
  rw [hc]; exact hr

-- sparse data: bins without a feature are densified
example : Dwta.getHash (Dwta.new 3 20 (fun n => 19 - n)).1 [⟨0, (5 : Rat)⟩, ⟨1, 3⟩] = .ok [0, 0, 4] ∧
    Dwta.getHashEasy (Dwta.new 3 20 (fun n => 19 - n)).1 [(1 : Rat), 2, 3, 9, 1, 0, 0, 0, 0, 4] =
      .ok [3, 1, 6] := by
  decide +kernel

/-- C20 (DWTA). For an empty bin `i`, the probing loop looks at the bins
`min(((randHash0 * ((i+1)*64 + count)) * 8) >> (32 - logNumHash), numHashes-1)`, `count = 1, 2, ..`,
all in `[0, numHashes)`; it returns the code of the first non-empty one among the first 100, or 0.
Any multiplier, any occupancy, `logNumHash ≤ 31`. -/
theorem C20_dwta_probe (dw : Dwta.DensifiedWtaHash) (items : List (Dwta.Item F)) (i : Nat)
    (hl : dw.logNumHash ≤ 31) (hn : 0 < dw.numHashes) (hlen : items.length = dw.numHashes)
    (empty : Dwta.Item F) (hempty : empty.init = false) :
    ∃ target : Nat → Nat,
      (∀ count, target count < dw.numHashes) ∧
      (∀ count, ∃ v, Dwta.getRandDoubleHash dw.randHash0 dw.logNumHash i count = .ok v ∧
        minInt v ((dw.numHashes : Int) - 1) = (target count : Int)) ∧
      ((∃ c it, 1 ≤ c ∧ c ≤ 100 ∧ items[target c]? = some it ∧ it.init = true ∧
          (∀ c' it', 1 ≤ c' → c' < c → items[target c']? = some it' → it'.init = false) ∧
          Dwta.finish dw items (empty, i) = .ok it.hash) ∨
        ((∀ c it, 1 ≤ c → c ≤ 100 → items[target c]? = some it → it.init = false) ∧
          Dwta.finish dw items (empty, i) = .ok 0)) := by
  refine ⟨Dwta.probed dw.randHash0 dw.logNumHash dw.numHashes i,
    fun c => Dwta.probed_lt _ _ _ _ _ hn,
    fun c => Dwta.getRandDoubleHash_ok _ _ _ _ _ hl hn, ?_⟩
  have := Dwta.probe_spec dw items i hl hn hlen 100 (Nat.le_refl _)
  simp only [Dwta.finish, hempty, Bool.false_eq_true, if_false]
  exact this

/-- C19. On a dense vector (one value above -2^63 per feature) `GetHashEasy` returns for every bin
the position of the first slot of the bin with maximal value (slots in the order of the scan);
no densification takes place: there is always such a slot. -/
theorem C19_dense_argmax [FloatOrder F] (numHashes dim : Nat) (hd : 0 < dim) (r : Rng)
    (val : Nat → F)
    (hval : ∀ f, f < dim → GoFloat.lt (GoFloat.const (-9223372036854775808)) (val f) = true) :
    let dw := (Dwta.new numHashes dim r).1
    ∃ codes, Dwta.getHashEasy dw ((List.range dim).map val) = .ok codes ∧ codes.length = numHashes ∧
      ∀ b, b < numHashes → ∃ s q, codes[b]? = some ((q : Nat) : Int) ∧ dw.indices[s]? = some b ∧
        dw.pos[s]? = some q ∧
        (∀ s', dw.indices[s']? = some b → GoFloat.lt (val (s % dim)) (val (s' % dim)) = false) ∧
        (∀ s', dw.indices[s']? = some b → s' < s → GoFloat.lt (val (s' % dim)) (val (s % dim)) = true) := by
  intro dw
  have h : Dwta.SlotTable dw numHashes dim := Dwta.new_slotTable numHashes dim hd r
  obtain ⟨st, h1, h2, h3⟩ := Dwta.fillEasy_spec h ((List.range dim).map val) (by simp)
  have hvis : ∀ y, y ∈ Dwta.visits dw.permute ((List.range dim).map val) ↔
      y.1 < dw.permute ∧ y.2.2 < dim ∧ y.2.1 = val y.2.2 := by
    intro y
    rw [Dwta.mem_visits]
    simp only [List.getElem?_map]
    constructor
    · rintro ⟨ha, hb⟩
      by_cases hy : y.2.2 < dim
      · rw [List.getElem?_range hy] at hb
        simp at hb
        exact ⟨ha, hy, hb.symm⟩
      · rw [List.getElem?_eq_none (by simp; omega)] at hb; simp at hb
    · rintro ⟨ha, hb, hc⟩
      rw [List.getElem?_range hb]; simp [ha, hc]
  have hbinOf : ∀ y, y ∈ Dwta.visits dw.permute ((List.range dim).map val) → ∀ b, b < numHashes →
      (Dwta.binOf dw y = some b ↔ dw.indices[y.1 * dim + y.2.2]? = some b) := by
    intro y hy b hb
    unfold Dwta.binOf
    rw [h.rp, h.nh]
    cases dw.indices[y.1 * dim + y.2.2]? with
    | none => simp
    | some c =>
      simp only [Option.filter_some, Option.some.injEq]
      constructor
      · intro hc
        split at hc <;> simp_all
      · rintro rfl; simp [hb]
  -- slots of the visits are increasing
  have hsorted : (Dwta.visits dw.permute ((List.range dim).map val)).Pairwise
      (fun a b => a.1 * dim + a.2.2 < b.1 * dim + b.2.2) := by
    unfold Dwta.visits
    rw [List.pairwise_flatMap]
    refine ⟨?_, ?_⟩
    · intro p _
      rw [List.pairwise_map]
      have : (List.map val (List.range dim)).zipIdx.Pairwise (fun a b => a.2 < b.2) := by
        have hz : ((List.map val (List.range dim)).zipIdx.map Prod.snd).Pairwise (· < ·) := by
          rw [List.zipIdx_map_snd]
          exact List.pairwise_lt_range'
        exact List.pairwise_map.mp hz
      exact this.imp (by intro a b hab; simp only; omega)
    · apply List.pairwise_lt_range.imp
      intro p q hpq x hx y hy
      rw [List.mem_map] at hx hy
      obtain ⟨x', hx', rfl⟩ := hx
      obtain ⟨y', hy', rfl⟩ := hy
      have hxd : x'.2 < dim := by
        obtain ⟨a, i⟩ := x'
        have := (zipIdx_mem _ _ _).mp hx'
        rcases Nat.lt_or_ge i dim with h' | h'
        · exact h'
        · rw [List.getElem?_eq_none (by simp; omega)] at this; simp at this
      have : (p + 1) * dim ≤ q * dim := Nat.mul_le_mul_right _ hpq
      rw [Nat.succ_mul] at this
      simp only
      omega
  have key : ∀ b, b < numHashes → ∃ y, y ∈ Dwta.binVisits dw ((List.range dim).map val) b ∧
      st.1[b]? = some ((Dwta.posOf dw y : Nat) : Int) ∧
      IsFirstArgmax FloatOrder.isNaN GoFloat.lt (fun y : Nat × (F × Nat) => y.2.1)
        (Dwta.binVisits dw ((List.range dim).map val) b) y := by
    intro b hb
    rw [h3 b hb]
    rcases argStep_fold (fun y : Nat × (F × Nat) => y.2.1) (fun y => (Dwta.posOf dw y : Int))
      (Dwta.binVisits dw ((List.range dim).map val) b) minInt64 Wta.floorValue with
      ⟨-, hno⟩ | ⟨y, hy1, -, hy3⟩
    · exfalso
      obtain ⟨p, v, hp, hv, e1, e2⟩ := h.slot_surj hd b 0 hb (by omega)
      have hm : (p, (val v, v)) ∈ Dwta.visits dw.permute ((List.range dim).map val) :=
        (hvis _).mpr ⟨hp, hv, rfl⟩
      have hm' : (p, (val v, v)) ∈ Dwta.binVisits dw ((List.range dim).map val) b := by
        unfold Dwta.binVisits
        rw [List.mem_filter]
        exact ⟨hm, by simpa using (hbinOf _ hm b hb).mpr e1⟩
      have hlt := hval v hv
      have hf := hno _ hm'
      simp only at hf
      rw [show (Wta.floorValue : F) = GoFloat.const (-9223372036854775808) from rfl, hlt] at hf
      simp at hf
    · rw [hy1]
      obtain ⟨pre, post, hs, h4, h5⟩ := hy3
      exact ⟨y, by rw [hs]; simp, rfl, pre, post, hs, h4, h5⟩
  have hfin : ∀ x ∈ st.1.zipIdx, Dwta.finishEasy dw st.1 x = .ok x.1 := by
    rintro ⟨v, i⟩ hx
    have hx' := (zipIdx_mem _ _ _).mp hx
    have hi : i < numHashes := by
      rcases Nat.lt_or_ge i numHashes with h' | h'
      · exact h'
      · rw [List.getElem?_eq_none (by omega)] at hx'; simp at hx'
    obtain ⟨y, -, hy, -⟩ := key i hi
    rw [hx'] at hy
    simp only [Option.some.injEq] at hy
    unfold Dwta.finishEasy
    rw [if_pos (by rw [hy, minInt64]; simp only; omega)]
  refine ⟨st.1, ?_, h2, ?_⟩
  · unfold Dwta.getHashEasy
    rw [h1, ok_bind, mapM_ok_of_forall _ (fun x => x.1) _ hfin]
    have : (st.1.zipIdx.map (fun x => x.1)) = st.1 := List.zipIdx_map_fst 0 st.1
    rw [this]
  · intro b hb
    obtain ⟨y, hy, hcode, pre, post, hsplit, hpre, hpost⟩ := key b hb
    have hym : y ∈ Dwta.visits dw.permute ((List.range dim).map val) := (List.mem_filter.mp hy).1
    obtain ⟨hp, hi, hv⟩ := (hvis y).mp hym
    have hbin : dw.indices[y.1 * dim + y.2.2]? = some b := by
      apply (hbinOf y hym b hb).mp
      have := (List.mem_filter.mp hy).2
      simpa using this
    have hmod : ∀ p i, i < dim → (p * dim + i) % dim = i := by
      intro p i hi
      rw [Nat.add_comm, Nat.add_mul_mod_self_right, Nat.mod_eq_of_lt hi]
    obtain ⟨j, -, -, e2⟩ := h.slot y.1 y.2.2 hp hi
    have hs' : ∀ s', dw.indices[s']? = some b →
        ∃ y' ∈ pre ++ y :: post, y'.2.1 = val (s' % dim) ∧ y'.1 * dim + y'.2.2 = s' ∧
          GoFloat.lt (GoFloat.const (-9223372036854775808)) y'.2.1 = true := by
      intro s' hs'
      have hl : s' < dw.permute * dim := by
        rcases Nat.lt_or_ge s' (dw.permute * dim) with h' | h'
        · exact h'
        · rw [List.getElem?_eq_none (by rw [h.len1]; exact h')] at hs'; simp at hs'
      have e : s' / dim * dim + s' % dim = s' := by rw [Nat.mul_comm]; exact Nat.div_add_mod _ _
      have hmv : (s' / dim, (val (s' % dim), s' % dim)) ∈
          Dwta.visits dw.permute ((List.range dim).map val) :=
        (hvis _).mpr ⟨(Nat.div_lt_iff_lt_mul hd).mpr hl, Nat.mod_lt _ hd, rfl⟩
      refine ⟨(s' / dim, (val (s' % dim), s' % dim)), ?_, rfl, e, hval _ (Nat.mod_lt _ hd)⟩
      rw [← hsplit]
      unfold Dwta.binVisits
      rw [List.mem_filter]
      refine ⟨hmv, ?_⟩
      simpa using (hbinOf _ hmv b hb).mpr (by simpa only [e] using hs')
    have hord : (pre ++ y :: post).Pairwise (fun a b => a.1 * dim + a.2.2 < b.1 * dim + b.2.2) := by
      rw [← hsplit]; exact hsorted.filter _
    rw [List.pairwise_append, List.pairwise_cons] at hord
    have hstrict : ∀ y' ∈ pre, GoFloat.lt (GoFloat.const (-9223372036854775808)) y'.2.1 = true →
        GoFloat.lt y'.2.1 y.2.1 = true := by
      intro y' hy' hl
      rcases hpre y' hy' with hn | hl'
      · rw [FloatOrder.lt_nan_right _ _ hn] at hl; simp at hl
      · exact hl'
    refine ⟨y.1 * dim + y.2.2, (y.1 * dim + j) % 8, ?_, hbin, e2, ?_, ?_⟩
    · rw [hcode]; unfold Dwta.posOf; rw [h.rp, e2]; rfl
    · intro s' hs1
      obtain ⟨y', hy', hv', -, hl⟩ := hs' s' hs1
      rw [← hv', hmod _ _ hi, ← hv]
      rcases List.mem_append.mp hy' with hm | hm
      · have hlt := hstrict y' hm hl
        cases hc : GoFloat.lt y.2.1 y'.2.1 with
        | false => rfl
        | true =>
          have := FloatOrder.lt_trans _ _ _ hlt hc
          rw [FloatOrder.lt_irrefl] at this; simp at this
      · rcases List.mem_cons.mp hm with rfl | hm
        · exact FloatOrder.lt_irrefl _
        · exact hpost y' hm
    · intro s' hs1 hlt
      obtain ⟨y', hy', hv', he, hl⟩ := hs' s' hs1
      rw [← hv', hmod _ _ hi, ← hv]
      rcases List.mem_append.mp hy' with hm | hm
      · exact hstrict y' hm hl
      · exfalso
        rcases List.mem_cons.mp hm with rfl | hm
        · omega
        · have := hord.2.1.1 y' hm
          omega

example : Dwta.getHashEasy (Dwta.new 2 9 (fun n => 8 - n)).1
    [(1 : Rat), 2, 3, 9, 1, 0, 0, 0, 4] = .ok [3, 3] := by decide +kernel

/-- C21 is false of the code: `GetHash` uses the position of a pair in the list where the feature
index is meant. -/
theorem C21_sparse_dense_disagree :
    ¬ ∀ (numHashes dim : Nat) (r : Rng) (pairs : List (Pair Rat)) (data : List Rat),
      0 < dim → data.length = dim → Denotes pairs data →
      Dwta.getHash (Dwta.new numHashes dim r).1 pairs =
        Dwta.getHashEasy (Dwta.new numHashes dim r).1 data := by
  intro h
  have hw := h 1 2 (fun _ => 0) [⟨1, 5⟩] [0, 5] (by decide) rfl ⟨by simp, by simp, by
    intro i hi
    have hi2 : i = 0 ∨ i = 1 := by simp at hi; omega
    rcases hi2 with rfl | rfl
    · exact ⟨by simp, fun _ => rfl⟩
    · exact ⟨by simp, by simp⟩⟩
  revert hw
  decide +kernel

/-- C21. The order of the pairs matters, even when all coordinates are listed. -/
theorem C21_order_matters :
    ¬ ∀ (numHashes dim : Nat) (r : Rng) (pairs pairs' : List (Pair Rat)),
      0 < dim → pairs.length = dim → pairs.Perm pairs' →
      Dwta.getHash (Dwta.new numHashes dim r).1 pairs = Dwta.getHash (Dwta.new numHashes dim r).1 pairs' := by
  intro h
  have hw := h 1 2 (fun _ => 0) [⟨0, 1⟩, ⟨1, 2⟩] [⟨1, 2⟩, ⟨0, 1⟩] (by decide) rfl (List.Perm.swap _ _ _)
  revert hw
  decide +kernel

/-- C21 (what does hold). When the pairs list the values in coordinate order, with no more values
than features and all above -2^63, `GetHash` equals `GetHashEasy` on the list of values (including
the densified bins). Missing from the full property: pair lists with absent or reordered
coordinates. -/
theorem C21_positions_partial (numHashes dim : Nat) (hd : 0 < dim) (r : Rng) (pairs : List (Pair F))
    (hlen : pairs.length ≤ dim)
    (hval : ∀ p ∈ pairs, GoFloat.lt (GoFloat.const (-9223372036854775808)) p.Value = true) :
    Dwta.getHash (Dwta.new numHashes dim r).1 pairs =
      Dwta.getHashEasy (Dwta.new numHashes dim r).1 (pairs.map (·.Value)) := by
  have h := Dwta.new_slotTable numHashes dim hd r
  obtain ⟨items, i1, i2, i3⟩ := Dwta.fillItems_spec h (pairs.map (·.Value)) (by simpa using hlen)
  obtain ⟨st, s1, s2, s3⟩ := Dwta.fillEasy_spec h (pairs.map (·.Value)) (by simpa using hlen)
  have hfold : ∀ (ys : List (Nat × (F × Nat))) (it : Dwta.Item F) (s0 : Int × F),
      (∀ y ∈ ys, GoFloat.lt (GoFloat.const (-9223372036854775808)) y.2.1 = true) →
      ((it.init = true ∧ it.hash = s0.1 ∧ it.value = s0.2 ∧ s0.1 ≠ minInt64) ∨
        (it.init = false ∧ s0 = (minInt64, Wta.floorValue))) →
      let it1 := ys.foldl (Dwta.itemUpd (Dwta.new numHashes dim r).1) it
      let s1 := ys.foldl (argStep (fun y => y.2.1)
        (fun y => (Dwta.posOf (Dwta.new numHashes dim r).1 y : Int))) s0
      ((it1.init = true ∧ it1.hash = s1.1 ∧ it1.value = s1.2 ∧ s1.1 ≠ minInt64) ∨
        (it1.init = false ∧ s1 = (minInt64, Wta.floorValue))) := by
    intro ys
    induction ys with
    | nil => intro it s0 _ h0; exact h0
    | cons y ys ih =>
      intro it s0 hm h0
      rw [List.foldl_cons, List.foldl_cons]
      apply ih _ _ (fun y hy => hm y (by simp [hy]))
      have hne : ((Dwta.posOf (Dwta.new numHashes dim r).1 y : Nat) : Int) ≠ minInt64 := by
        unfold minInt64; omega
      rcases h0 with ⟨ha, hb, hc, hd'⟩ | ⟨ha, rfl⟩
      · by_cases hl : GoFloat.lt s0.2 y.2.1 = true
        · left
          simp [Dwta.itemUpd, argStep, ha, hc, hl, hne]
        · left
          have hl' : GoFloat.lt s0.2 y.2.1 = false := by simpa using hl
          simp [Dwta.itemUpd, argStep, ha, hb, hc, hl', hd']
      · left
        have hl := hm y (by simp)
        have hl2 : GoFloat.lt (Wta.floorValue : F) y.2.1 = true := hl
        simp [Dwta.itemUpd, argStep, ha, hl2, hne]
  have hrel : ∀ (b : Nat) (it : Dwta.Item F) (v : Int), items[b]? = some it → st.1[b]? = some v →
      (it.init = true ∧ it.hash = v ∧ v ≠ minInt64) ∨ (it.init = false ∧ v = minInt64) := by
    intro b it v hb1 hb2
    have hbl : b < numHashes := by
      rcases Nat.lt_or_ge b numHashes with h' | h'
      · exact h'
      · rw [List.getElem?_eq_none (by omega)] at hb1; simp at hb1
    rw [i3 b hbl] at hb1
    rw [s3 b hbl] at hb2
    simp only [Option.some.injEq] at hb1 hb2
    have hmem : ∀ y ∈ Dwta.binVisits (Dwta.new numHashes dim r).1 (pairs.map (·.Value)) b,
        GoFloat.lt (GoFloat.const (-9223372036854775808)) y.2.1 = true := by
      intro y hy
      have := (Dwta.mem_visits _ _ _).mp (List.mem_filter.mp hy).1
      have hm := List.mem_of_getElem? this.2
      rw [List.mem_map] at hm
      obtain ⟨p, hp, he⟩ := hm
      rw [← he]; exact hval p hp
    have := hfold (Dwta.binVisits (Dwta.new numHashes dim r).1 (pairs.map (·.Value)) b)
      { hash := 0, value := GoFloat.zero, init := false } (minInt64, Wta.floorValue) hmem
      (Or.inr ⟨rfl, rfl⟩)
    simp only at this
    rw [hb1] at this
    rw [← hb2]
    rcases this with ⟨ha, hb', hc, hd'⟩ | ⟨ha, hb'⟩
    · exact Or.inl ⟨ha, hb', hd'⟩
    · exact Or.inr ⟨ha, by rw [hb']⟩
  have hl : items.length = st.1.length := by rw [i2, s2]
  unfold Dwta.getHash Dwta.getHashEasy
  rw [i1, s1, ok_bind, ok_bind]
  have e1 : items.zipIdx.mapM (Dwta.finish (Dwta.new numHashes dim r).1 items) =
      (List.range numHashes).mapM (fun (i : Nat) => (items[i]?).elim (.ok 0)
        (fun it => Dwta.finish (Dwta.new numHashes dim r).1 items (it, i))) :=
    mapM_zipIdx_range _ _ _ i2
  have e2 : st.1.zipIdx.mapM (Dwta.finishEasy (Dwta.new numHashes dim r).1 st.1) =
      (List.range numHashes).mapM (fun (i : Nat) => (st.1[i]?).elim (.ok 0)
        (fun it => Dwta.finishEasy (Dwta.new numHashes dim r).1 st.1 (it, i))) :=
    mapM_zipIdx_range _ _ _ s2
  rw [e1, e2]
  congr 1
  funext i
  by_cases hi : i < numHashes
  · have g1 : items[i]? = some (items[i]'(by omega)) := List.getElem?_eq_getElem _
    have g2 : st.1[i]? = some (st.1[i]'(by omega)) := List.getElem?_eq_getElem _
    rw [g1, g2]
    simp only [Option.elim_some, Dwta.finish, Dwta.finishEasy]
    rcases hrel i _ _ g1 g2 with ⟨ha, hb, hc⟩ | ⟨ha, hb⟩
    · rw [if_pos ha, if_pos hc, hb]
    · rw [ha, if_neg (by simp), if_neg (by simpa using hb)]
      exact (Dwta.probeEasy_eq _ _ _ hl hrel i 100).symm
  · rw [List.getElem?_eq_none (by omega), List.getElem?_eq_none (by omega)]; rfl

example : ∀ p ∈ [(⟨0, 5⟩ : Pair Rat), ⟨1, -3⟩], GoFloat.lt (GoFloat.const (-9223372036854775808)) p.Value = true := by
  decide +kernel

end Goslide.Props
