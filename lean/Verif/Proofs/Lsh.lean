import Verif.Proofs.GoBasic
import Verif.Proofs.Fifo
import Verif.Spec.Lsh
namespace Goslide.Lsh
open Spec Fifo

/-- The bucket in cell (t, j). -/
def bucketAt (s : LSH) (t j : Nat) : Option FifoBucket := (s.buckets[t]?).bind (fun bs => bs[j]?)

/-- Shape of the tables: `l` tables of `n` buckets. -/
structure WF (s : LSH) (n : Nat) : Prop where
  tables : s.buckets.length = s.l
  cells : ∀ (t : Nat) (bs : List FifoBucket), s.buckets[t]? = some bs → bs.length = n

theorem WF.bucketAt_isSome {s n} (h : WF s n) (t j : Nat) :
    (bucketAt s t j).isSome ↔ t < s.l ∧ j < n := by
  unfold bucketAt
  cases ht : s.buckets[t]? with
  | none =>
    have : ¬ t < s.l := by
      rw [← h.tables]; intro hlt
      rw [List.getElem?_eq_getElem hlt] at ht; simp at ht
    simp [this]
  | some bs =>
    have hlt : t < s.l := by
      rw [← h.tables]
      rcases Nat.lt_or_ge t s.buckets.length with h' | h'
      · exact h'
      · rw [List.getElem?_eq_none h'] at ht; simp at ht
    have hl := h.cells t bs ht
    simp [hlt, ← hl]

theorem addSingle_spec {s n} (h : WF s n) (t j : Nat) (id : Int) (ht : t < s.l) (hj : j < n) :
    ∃ b s', bucketAt s t j = some b ∧
      addSingle s (t : Int) (j : Int) id = .ok ((Fifo.add b id).1, s') ∧
      WF s' n ∧ s'.l = s.l ∧ s'.k = s.k ∧ s'.rangePow = s.rangePow ∧ s'.rand1 = s.rand1 ∧
      ∀ t' j', bucketAt s' t' j' = if t' = t ∧ j' = j then some (Fifo.add b id).2
        else bucketAt s t' j' := by
  have htl : t < s.buckets.length := by rw [h.tables]; exact ht
  have hbs : s.buckets[t]? = some s.buckets[t] := List.getElem?_eq_getElem htl
  have hjl : j < (s.buckets[t]).length := by rw [h.cells t _ hbs]; exact hj
  have hb : (s.buckets[t])[j]? = some (s.buckets[t])[j] := List.getElem?_eq_getElem hjl
  refine ⟨(s.buckets[t])[j], { s with buckets := s.buckets.set t ((s.buckets[t]).set j (Fifo.add (s.buckets[t])[j] id).2) }, ?_, ?_, ?_, ?_⟩
  · simp [bucketAt, hbs, hb]
  · unfold addSingle
    rw [goGet_ofNat, hbs]
    simp only [ok_bind]
    rw [goGet_ofNat, hb]
    simp only [ok_bind]
    rfl
  · constructor
    · simp [h.tables]
    · intro t' bs' hbs'
      by_cases he : t' = t
      · subst he
        rw [List.getElem?_set_self htl] at hbs'
        simp only [Option.some.injEq] at hbs'
        subst hbs'
        simp [h.cells _ _ hbs]
      · rw [List.getElem?_set_ne (by omega)] at hbs'
        exact h.cells _ _ hbs'
  · refine ⟨rfl, rfl, rfl, rfl, ?_⟩
    intro t' j'
    unfold bucketAt
    simp only []
    by_cases he : t' = t
    · subst he
      rw [List.getElem?_set_self htl, hbs]
      simp only [Option.bind_some, true_and]
      by_cases hj' : j' = j
      · subst hj'
        rw [List.getElem?_set_self hjl]; simp
      · rw [List.getElem?_set_ne (by omega), if_neg hj']
    · rw [List.getElem?_set_ne (by omega), if_neg (by simp [he])]

theorem addSingle_error {s n} (h : WF s n) (t j id : Int)
    (hbad : ¬ (0 ≤ t ∧ t < s.l ∧ 0 ≤ j ∧ j < n)) : addSingle s t j id = .error .index := by
  unfold addSingle
  cases h1 : goGet s.buckets t with
  | error e =>
    rw [((goGet_error_iff _ _ _).mp h1).1]; rfl
  | ok bs =>
    rw [goGet_ok_iff] at h1
    obtain ⟨ht0, h1⟩ := h1
    have hbl := h.cells _ _ h1
    have htl : t.toNat < s.l := by
      rw [← h.tables]
      rcases Nat.lt_or_ge t.toNat s.buckets.length with h' | h'
      · exact h'
      · rw [List.getElem?_eq_none h'] at h1; simp at h1
    rw [ok_bind]
    have : goGet bs j = .error .index := by
      rw [goGet_error_iff]; refine ⟨rfl, ?_⟩; rw [hbl]; omega
    rw [this]; rfl

/-- Validity of an index slice for tables `i .. i+m-1`. -/
def ValidFrom (indices : List Int) (n i m : Nat) : Prop :=
  ∀ t, i ≤ t → t < i + m → ∃ v : Int, indices[t]? = some v ∧ 0 ≤ v ∧ v < n

theorem addLoop_spec (indices : List Int) (id : Int) (n : Nat) :
    ∀ (m i : Nat) (s : LSH), WF s n → i + m ≤ s.l → ValidFrom indices n i m →
      ∃ slots s', addLoop indices id m i s = .ok (slots, s') ∧ slots.length = m ∧
        WF s' n ∧ s'.l = s.l ∧ s'.k = s.k ∧ s'.rangePow = s.rangePow ∧ s'.rand1 = s.rand1 ∧
        (∀ t j : Nat, bucketAt s' t j =
          if i ≤ t ∧ t < i + m ∧ indices[t]? = some (j : Int)
          then (bucketAt s t j).map (fun b => (Fifo.add b id).2) else bucketAt s t j) ∧
        (∀ t j : Nat, i ≤ t → t < i + m → indices[t]? = some (j : Int) →
          slots[t - i]? = (bucketAt s t j).map (fun b => (Fifo.add b id).1)) := by
  intro m
  induction m with
  | zero =>
    intro i s h _ _
    refine ⟨[], s, rfl, rfl, h, rfl, rfl, rfl, rfl, ?_, ?_⟩
    · intro t j
      rw [if_neg (by omega)]
    · intro t j h1 h2; omega
  | succ m ih =>
    intro i s h hle hv
    obtain ⟨v, hvi, hv0, hvn⟩ := hv i (by omega) (by omega)
    obtain ⟨j0, rfl⟩ : ∃ j0 : Nat, v = (j0 : Int) := ⟨v.toNat, by omega⟩
    obtain ⟨b, s1, hb, hadd, hwf1, hl1, hk1, hr1, hrd1, hat1⟩ :=
      addSingle_spec h i j0 id (by omega) (by omega)
    obtain ⟨slots, s2, hloop, hlen, hwf2, hl2, hk2, hr2, hrd2, hat2, hsl2⟩ :=
      ih (i + 1) s1 hwf1 (by rw [hl1]; omega) (fun t h1 h2 => hv t (by omega) (by omega))
    refine ⟨(Fifo.add b id).1 :: slots, s2, ?_, by simp [hlen], hwf2, by rw [hl2, hl1], by rw [hk2, hk1],
      by rw [hr2, hr1], by rw [hrd2, hrd1], ?_, ?_⟩
    · show (do
        let index ← goGet indices (i : Int)
        let (slot, s') ← addSingle s (i : Int) index id
        let (slots, s'') ← addLoop indices id m (i + 1) s'
        return (slot :: slots, s'')) = _
      rw [goGet_ofNat, hvi]
      simp only [ok_bind]
      rw [hadd]
      simp only [ok_bind]
      rw [hloop]
      rfl
    · intro t j
      rw [hat2 t j, hat1 t j]
      by_cases ht : t = i
      · subst ht
        rw [if_neg (by omega)]
        by_cases hj : j = j0
        · subst hj
          rw [if_pos ⟨rfl, rfl⟩, if_pos ⟨by omega, by omega, hvi⟩, hb]; rfl
        · rw [if_neg (by simp [hj]), if_neg]
          rintro ⟨_, _, h3⟩
          rw [hvi] at h3; simp at h3; omega
      · by_cases hc : i + 1 ≤ t ∧ t < i + 1 + m ∧ indices[t]? = some (j : Int)
        · rw [if_pos hc, if_neg (by simp [ht]), if_pos ⟨by omega, by omega, hc.2.2⟩]
        · rw [if_neg hc, if_neg (by simp [ht]), if_neg]
          rintro ⟨h1, h2, h3⟩
          exact hc ⟨by omega, by omega, h3⟩
    · intro t j h1 h2 h3
      by_cases ht : t = i
      · subst ht
        rw [hvi] at h3
        simp only [Option.some.injEq, Int.natCast_inj] at h3
        subst h3
        simp [hb]
      · have e : t - i = (t - (i + 1)) + 1 := by omega
        rw [e, List.getElem?_cons_succ, hsl2 t j (by omega) (by omega) h3, hat1 t j,
          if_neg (by simp [ht])]

theorem addLoop_error (indices : List Int) (id : Int) (n : Nat) :
    ∀ (m i : Nat) (s : LSH), WF s n → i + m ≤ s.l → ¬ ValidFrom indices n i m →
      addLoop indices id m i s = .error .index := by
  intro m
  induction m with
  | zero => intro i s _ _ h; exact absurd (fun t h1 h2 => by omega) h
  | succ m ih =>
    intro i s h hle hv
    show (do
        let index ← goGet indices (i : Int)
        let (slot, s') ← addSingle s (i : Int) index id
        let (slots, s'') ← addLoop indices id m (i + 1) s'
        return (slot :: slots, s'')) = _
    cases hi : goGet indices (i : Int) with
    | error e => rw [((goGet_error_iff _ _ _).mp hi).1]; rfl
    | ok v =>
      rw [ok_bind]
      rw [goGet_ok_iff, Int.toNat_natCast] at hi
      by_cases hvv : 0 ≤ v ∧ v < n
      · obtain ⟨j0, rfl⟩ : ∃ j0 : Nat, v = (j0 : Int) := ⟨v.toNat, by omega⟩
        obtain ⟨b, s1, hb, hadd, hwf1, hl1, hk1, hr1, hrd1, hat1⟩ :=
          addSingle_spec h i j0 id (by omega) (by omega)
        rw [hadd]
        simp only [ok_bind]
        rw [ih (i + 1) s1 hwf1 (by rw [hl1]; omega)]
        · rfl
        · intro hv'
          apply hv
          intro t h1 h2
          by_cases ht : t = i
          · subst ht; exact ⟨_, hi.2, hvv.1, hvv.2⟩
          · exact hv' t (by omega) (by omega)
      · rw [addSingle_error h _ _ _ (by omega)]; rfl

theorem WF.clear {s n} (h : WF s n) : WF (clear s) n := by
  constructor
  · simp [Lsh.clear, h.tables]
  · intro t bs hbs
    simp only [Lsh.clear, List.getElem?_map, Option.map_eq_some_iff] at hbs
    obtain ⟨bs', h1, rfl⟩ := hbs
    simp [h.cells _ _ h1]

theorem bucketAt_clear (s : LSH) (t j : Nat) :
    bucketAt (clear s) t j = (bucketAt s t j).map Fifo.reset := by
  unfold bucketAt Lsh.clear
  simp only [List.getElem?_map]
  cases s.buckets[t]? <;> simp

/-- The tables represent the cell histories `H`. -/
structure Rep (s : LSH) (n : Nat) (H : Nat → Nat → List Int) : Prop where
  wf : WF s n
  cells : ∀ t j b, bucketAt s t j = some b → Fifo.Rep b (H t j)

theorem numBuckets_ok (rangePow : Nat) (h : rangePow < 63) : numBuckets rangePow = .ok (2 ^ rangePow) := by
  simp [numBuckets, h]

theorem new_ok (k l rangePow : Nat) (r : Rng) (h : rangePow < 63) :
    ∃ s r', new k l rangePow r = .ok (s, r') ∧ s.k = k ∧ s.l = l ∧ s.rangePow = rangePow ∧
      s.rand1 = (drawMultipliers (k * l) r).1 ∧ Rep s (2 ^ rangePow) (fun _ _ => []) := by
  have hn : ∀ n, (l = 0 ∨ n = 2 ^ rangePow) → ∀ rd, Rep { buckets := List.replicate l (List.replicate n Fifo.new), k, l, rangePow, rand1 := rd } (2 ^ rangePow) (fun _ _ => []) := by
    intro n hn rd
    constructor
    · constructor
      · simp
      · intro t bs hbs
        simp only [List.getElem?_replicate] at hbs
        split at hbs
        · simp only [Option.some.injEq] at hbs; subst hbs; simp; omega
        · simp at hbs
    · intro t j b hb
      unfold bucketAt at hb
      simp only [List.getElem?_replicate] at hb
      split at hb
      · simp only [Option.bind_some] at hb
        rw [List.getElem?_replicate] at hb
        split at hb
        · simp only [Option.some.injEq] at hb; subst hb; exact Fifo.Rep.new
        · simp at hb
      · simp at hb
  unfold new
  by_cases hl : l = 0
  · rw [if_pos hl]
    exact ⟨_, _, rfl, rfl, rfl, rfl, rfl, hn 0 (Or.inl hl) _⟩
  · rw [if_neg hl, numBuckets_ok _ h]
    exact ⟨_, _, rfl, rfl, rfl, rfl, rfl, hn _ (Or.inr rfl) _⟩

theorem validFrom_zero_iff (indices : List Int) (n l : Nat) :
    ValidFrom indices n 0 l ↔ ∀ t, t < l → ∃ v : Int, indices[t]? = some v ∧ 0 ≤ v ∧ v < n := by
  unfold ValidFrom
  constructor
  · intro h t ht; exact h t (by omega) (by omega)
  · intro h t _ ht; exact h t (by omega)

theorem add_ok {s n} (h : WF s n) (indices : List Int) (id : Int)
    (hv : ValidFrom indices n 0 s.l) :
    ∃ slots s', add s indices id = .ok (slots, s') ∧ slots.length = s.l ∧
        WF s' n ∧ s'.l = s.l ∧ s'.k = s.k ∧ s'.rangePow = s.rangePow ∧ s'.rand1 = s.rand1 ∧
        (∀ t j : Nat, bucketAt s' t j =
          if t < s.l ∧ indices[t]? = some (j : Int)
          then (bucketAt s t j).map (fun b => (Fifo.add b id).2) else bucketAt s t j) ∧
        (∀ t j : Nat, t < s.l → indices[t]? = some (j : Int) →
          slots[t]? = (bucketAt s t j).map (fun b => (Fifo.add b id).1)) := by
  obtain ⟨slots, s', h1, h2, h3, h4, h5, h6, h7, h8, h9⟩ :=
    addLoop_spec indices id n s.l 0 s h (by omega) hv
  refine ⟨slots, s', h1, h2, h3, h4, h5, h6, h7, ?_, ?_⟩
  · intro t j
    rw [h8 t j]
    by_cases hc : t < s.l ∧ indices[t]? = some (j : Int)
    · rw [if_pos hc, if_pos ⟨by omega, by omega, hc.2⟩]
    · rw [if_neg hc, if_neg]
      rintro ⟨_, h', h''⟩
      exact hc ⟨by omega, h''⟩
  · intro t j h1 h2
    have := h9 t j (by omega) (by omega) h2
    simpa using this

theorem add_error {s n} (h : WF s n) (indices : List Int) (id : Int)
    (hv : ¬ ValidFrom indices n 0 s.l) : add s indices id = .error .index :=
  addLoop_error indices id n s.l 0 s h (by omega) hv

theorem Rep.step {s n H} (h : Rep s n H) (op : Op) (s' : LSH) (hs : step s op = .ok s') :
    Rep s' n (fun t j => cellStep t j (H t j) op) ∧ s'.l = s.l ∧ s'.k = s.k ∧
      s'.rangePow = s.rangePow ∧ s'.rand1 = s.rand1 := by
  cases op with
  | clear =>
    simp only [Lsh.step, Except.ok.injEq] at hs
    subst hs
    refine ⟨⟨h.wf.clear, ?_⟩, rfl, rfl, rfl, rfl⟩
    intro t j b hb
    rw [bucketAt_clear, Option.map_eq_some_iff] at hb
    obtain ⟨b', hb', rfl⟩ := hb
    exact (h.cells t j b' hb').reset
  | addSingle t i id =>
    by_cases hv : 0 ≤ t ∧ t < s.l ∧ 0 ≤ i ∧ i < n
    · obtain ⟨t, rfl⟩ : ∃ t' : Nat, t = (t' : Int) := ⟨t.toNat, by omega⟩
      obtain ⟨i, rfl⟩ : ∃ i' : Nat, i = (i' : Int) := ⟨i.toNat, by omega⟩
      obtain ⟨b, s1, hb, hadd, hwf1, hl1, hk1, hr1, hrd1, hat1⟩ :=
        addSingle_spec h.wf t i id (by omega) (by omega)
      simp only [Lsh.step, hadd, ok_bind, pure, Except.pure, Except.ok.injEq] at hs
      subst hs
      refine ⟨⟨hwf1, ?_⟩, hl1, hk1, hr1, hrd1⟩
      intro t' j' b' hb'
      rw [hat1 t' j'] at hb'
      simp only [cellStep]
      split at hb'
      · rename_i hc
        obtain ⟨rfl, rfl⟩ := hc
        simp only [Option.some.injEq] at hb'
        subst hb'
        rw [if_pos ⟨rfl, rfl⟩]
        exact ((h.cells _ _ _ hb).add id).1
      · rename_i hc
        rw [if_neg (by rintro ⟨h1, h2⟩; exact hc ⟨by omega, by omega⟩)]
        exact h.cells _ _ _ hb'
    · rw [Lsh.step, addSingle_error h.wf _ _ _ hv] at hs
      simp [Functor.map, Except.map] at hs
  | add indices id =>
    by_cases hv : ValidFrom indices n 0 s.l
    · obtain ⟨slots, s1, hadd, _, hwf1, hl1, hk1, hr1, hrd1, hat1, _⟩ := add_ok h.wf indices id hv
      simp only [Lsh.step, hadd, ok_bind, pure, Except.pure, Except.ok.injEq] at hs
      subst hs
      refine ⟨⟨hwf1, ?_⟩, hl1, hk1, hr1, hrd1⟩
      intro t j b hb
      have hsome : t < s1.l ∧ j < n := by
        rw [← hwf1.bucketAt_isSome, hb]; rfl
      rw [hat1 t j] at hb
      simp only [cellStep]
      split at hb
      · rename_i hc
        rw [if_pos hc.2]
        rw [Option.map_eq_some_iff] at hb
        obtain ⟨b', hb', rfl⟩ := hb
        exact ((h.cells _ _ _ hb').add id).1
      · rename_i hc
        rw [if_neg (by intro h'; exact hc ⟨by omega, h'⟩)]
        exact h.cells _ _ _ hb
    · rw [Lsh.step, add_error h.wf _ _ hv] at hs
      simp [Functor.map, Except.map] at hs

theorem Rep.run {n} (ops : List Op) : ∀ {s H} (_ : Rep s n H) (s' : LSH), run s ops = .ok s' →
    Rep s' n (fun t j => ops.foldl (cellStep t j) (H t j)) ∧ s'.l = s.l ∧ s'.k = s.k ∧
      s'.rangePow = s.rangePow ∧ s'.rand1 = s.rand1 := by
  induction ops with
  | nil =>
    intro s H h s' hs
    simp only [Lsh.run, List.foldlM_nil, pure, Except.pure, Except.ok.injEq] at hs
    subst hs
    exact ⟨h, rfl, rfl, rfl, rfl⟩
  | cons op ops ih =>
    intro s H h s' hs
    unfold Lsh.run at hs
    rw [List.foldlM_cons, bind_ok_iff] at hs
    obtain ⟨s1, h1, h2⟩ := hs
    obtain ⟨hr1, e1, e2, e3, e4⟩ := h.step op s1 h1
    obtain ⟨hr2, e5, e6, e7, e8⟩ := ih hr1 s' h2
    exact ⟨hr2, by rw [e5, e1], by rw [e6, e2], by rw [e7, e3], by rw [e8, e4]⟩

theorem retrieveRaw_ok {s n} (h : WF s n) (indices : List Int)
    (hv : ValidFrom indices n 0 s.l) :
    ∃ raw, retrieveRaw s indices = .ok raw ∧ raw.length = s.l ∧
      ∀ t j : Nat, t < s.l → indices[t]? = some (j : Int) →
        ∃ b, bucketAt s t j = some b ∧ raw[t]? = some (Fifo.getAll b) := by
  have hcell : ∀ t, t < s.l → ∃ (bs : List FifoBucket) (j : Nat) (b : FifoBucket), s.buckets[t]? = some bs ∧
      indices[t]? = some (j : Int) ∧ bs[j]? = some b := by
    intro t ht
    obtain ⟨v, hvt, hv0, hvn⟩ := hv t (by omega) (by omega)
    obtain ⟨j, rfl⟩ : ∃ j : Nat, v = (j : Int) := ⟨v.toNat, by omega⟩
    have htl : t < s.buckets.length := by rw [h.tables]; exact ht
    have hbs : s.buckets[t]? = some s.buckets[t] := List.getElem?_eq_getElem htl
    have hjl : j < (s.buckets[t]).length := by rw [h.cells t _ hbs]; omega
    exact ⟨_, j, _, hbs, hvt, List.getElem?_eq_getElem hjl⟩
  have hf : ∀ t, t < s.l → ∃ x, (do
      let table ← goGet s.buckets (t : Int)
      let index ← goGet indices (t : Int)
      let bucket ← goGet table index
      return Fifo.getAll bucket : Go (List Int)) = .ok x := by
    intro t ht
    obtain ⟨bs, j, b, h1, h2, h3⟩ := hcell t ht
    refine ⟨Fifo.getAll b, ?_⟩
    rw [goGet_ofNat, h1]; simp only [ok_bind]
    rw [goGet_ofNat, h2]; simp only [ok_bind]
    rw [goGet_ofNat, h3]; rfl
  cases hraw : retrieveRaw s indices with
  | error e =>
    exfalso
    unfold retrieveRaw at hraw
    have hnot : ¬ ∃ ys, (List.range s.l).mapM (fun (i : Nat) => (do
      let table ← goGet s.buckets (i : Int)
      let index ← goGet indices (i : Int)
      let bucket ← goGet table index
      return Fifo.getAll bucket : Go (List Int))) = .ok ys := by rw [hraw]; simp
    apply hnot
    let g : Nat → List Int := fun t => if ht : t < s.l then Classical.choose (hf t ht) else []
    refine ⟨_, mapM_ok_of_forall _ g _ ?_⟩
    intro t ht
    have ht := List.mem_range.mp ht
    simp only [g, dif_pos ht]
    exact Classical.choose_spec (hf t ht)
  | ok raw =>
    refine ⟨raw, rfl, ?_⟩
    unfold retrieveRaw at hraw
    obtain ⟨hl, hc⟩ := (mapM_ok_iff _ _ _).mp hraw
    refine ⟨by simpa using hl, ?_⟩
    intro t j ht hj
    obtain ⟨bs, j', b, h1, h2, h3⟩ := hcell t ht
    obtain ⟨x, hx1, hx2⟩ := hc t t (by simp [ht])
    rw [h2] at hj
    simp only [Option.some.injEq, Int.natCast_inj] at hj
    subst hj
    refine ⟨b, by simp [bucketAt, h1, h3], ?_⟩
    rw [goGet_ofNat, h1] at hx2; simp only [ok_bind] at hx2
    rw [goGet_ofNat, h2] at hx2; simp only [ok_bind] at hx2
    rw [goGet_ofNat, h3] at hx2
    simp only [ok_bind, pure, Except.pure, Except.ok.injEq] at hx2
    rw [hx1, ← hx2]

theorem retrieveRaw_error {s n} (h : WF s n) (indices : List Int)
    (hv : ¬ ValidFrom indices n 0 s.l) : retrieveRaw s indices = .error .index := by
  have herr : ∀ (t : Nat) (e : Panic), (do
      let table ← goGet s.buckets (t : Int)
      let index ← goGet indices (t : Int)
      let bucket ← goGet table index
      return Fifo.getAll bucket : Go (List Int)) = .error e → e = .index := by
    intro t e he
    cases h1 : goGet s.buckets (t : Int) with
    | error e' =>
      rw [h1] at he; simp only [error_bind, Except.error.injEq] at he
      rw [← he]; exact ((goGet_error_iff _ _ _).mp h1).1
    | ok bs =>
      rw [h1] at he; simp only [ok_bind] at he
      cases h2 : goGet indices (t : Int) with
      | error e' =>
        rw [h2] at he; simp only [error_bind, Except.error.injEq] at he
        rw [← he]; exact ((goGet_error_iff _ _ _).mp h2).1
      | ok j =>
        rw [h2] at he; simp only [ok_bind] at he
        cases h3 : goGet bs j with
        | error e' =>
          rw [h3] at he; simp only [error_bind, Except.error.injEq] at he
          rw [← he]; exact ((goGet_error_iff _ _ _).mp h3).1
        | ok b => rw [h3] at he; simp [pure, Except.pure] at he
  rw [validFrom_zero_iff] at hv
  have hex : ∃ t, t < s.l ∧ ¬ ∃ v : Int, indices[t]? = some v ∧ 0 ≤ v ∧ v < n := by
    apply Classical.byContradiction
    intro hne
    apply hv
    intro t ht
    apply Classical.byContradiction
    intro h'
    exact hne ⟨t, ht, h'⟩
  obtain ⟨t, ht, hbad⟩ := hex
  have hmem : t ∈ List.range s.l := List.mem_range.mpr ht
  have : ∃ e, retrieveRaw s indices = .error e := by
    apply mapM_error_of_mem _ _ _ hmem
    intro x hx
    rw [bind_ok_iff] at hx
    obtain ⟨bs, h1, hx⟩ := hx
    rw [bind_ok_iff] at hx
    obtain ⟨v, h2, hx⟩ := hx
    rw [bind_ok_iff] at hx
    obtain ⟨b, h3, hx⟩ := hx
    rw [goGet_ok_iff] at h1 h2 h3
    simp only [Int.toNat_natCast] at h1 h2
    have hl := h.cells _ _ h1.2
    apply hbad
    refine ⟨v, h2.2, h3.1, ?_⟩
    rcases Nat.lt_or_ge v.toNat bs.length with h' | h'
    · omega
    · have := h3.2; rw [List.getElem?_eq_none h'] at this; simp at this
  obtain ⟨e, he⟩ := this
  have : e = .index := mapM_error_eq _ _ _ (fun a _ e' he' => herr a e' he') e he
  rw [he, this]

end Goslide.Lsh
