import Verif.Model.Minhash
import Verif.Proofs.Heap
import Verif.Proofs.Cells
import Verif.Proofs.Dwta
import Verif.Spec.Minhash
set_option linter.unusedSectionVars false
namespace Goslide.Minhash
open Spec
variable {F : Type} [GoFloat F]

theorem goSet_ok_of_lt (l : List α) (i : Nat) (v : α) (h : i < l.length) :
    goSet l (i : Int) v = .ok (l.set i v) := by
  unfold goSet
  rw [if_neg (by omega), Int.toNat_natCast, if_pos h]

theorem maxStep_valid (numHashes : Nat) (binIds hashes : List Int) (i : Int)
    (hlen : hashes.length = numHashes) (b : Nat) (hb : b < numHashes) (hi : InBin binIds i b) :
    ∃ h, hashes[b]? = some h ∧ maxStep binIds hashes i = .ok (hashes.set b (if h < i then i else h)) := by
  obtain ⟨h0, hbi⟩ := hi
  have h1 : goGet binIds i = .ok (b : Int) := (goGet_ok_iff _ _ _).mpr ⟨h0, hbi⟩
  have hlt : b < hashes.length := by omega
  refine ⟨hashes[b], List.getElem?_eq_getElem hlt, ?_⟩
  unfold maxStep
  rw [h1, ok_bind, goGet_ok_of_lt _ _ hlt, ok_bind]
  by_cases hc : hashes[b] < i
  · rw [if_pos hc, if_pos hc, goSet_ok_of_lt _ _ _ hlt]
  · rw [if_neg hc, if_neg hc, List.set_getElem_self]; rfl

theorem maxStep_invalid (numHashes : Nat) (binIds hashes : List Int) (i : Int)
    (hlen : hashes.length = numHashes) (hi : ¬ ValidIndex numHashes binIds i) :
    maxStep binIds hashes i = .error .index := by
  unfold maxStep
  cases h1 : goGet binIds i with
  | error e => rw [((goGet_error_iff _ _ _).mp h1).1]; rfl
  | ok b =>
    rw [ok_bind]
    obtain ⟨h0, hb⟩ := (goGet_ok_iff _ _ _).mp h1
    cases h2 : goGet hashes b with
    | error e => rw [((goGet_error_iff _ _ _).mp h2).1]; rfl
    | ok h =>
      exfalso
      obtain ⟨h3, h4⟩ := (goGet_ok_iff _ _ _).mp h2
      apply hi
      refine ⟨b.toNat, ?_, h0, ?_⟩
      · rw [← hlen]; exact (List.getElem?_eq_some_iff.mp h4).1
      · rw [hb]; congr 1; omega

theorem maxStep_index (binIds hashes : List Int) (i : Int) (e : Panic)
    (h : maxStep binIds hashes i = .error e) : e = .index := by
  unfold maxStep at h
  cases h1 : goGet binIds i with
  | error e' => rw [h1] at h; simp at h; rw [← h]; exact ((goGet_error_iff _ _ _).mp h1).1
  | ok b =>
    rw [h1, ok_bind] at h
    cases h2 : goGet hashes b with
    | error e' => rw [h2] at h; simp at h; rw [← h]; exact ((goGet_error_iff _ _ _).mp h2).1
    | ok v =>
      rw [h2, ok_bind] at h
      split at h
      · unfold goSet at h
        split at h
        · simp at h; exact h.symm
        · split at h
          · simp at h
          · simp at h; exact h.symm
      · simp [pure, Except.pure] at h

/-- The state of the cells after hashing the indices `done`. -/
def Cells (numHashes : Nat) (binIds done hashes : List Int) : Prop :=
  hashes.length = numHashes ∧ ∀ (b : Nat), b < numHashes → ∃ v, hashes[b]? = some v ∧
    ((v = minInt64 ∧ EmptyBin binIds done b) ∨ IsBinMax binIds done b v)

theorem cells_empty (dm : DensifiedMinhash) (binIds : List Int) :
    Cells dm.numHashes binIds [] (emptyHashes dm) := by
  refine ⟨by simp [emptyHashes], ?_⟩
  intro b hb
  refine ⟨minInt64, by simp [emptyHashes, hb], Or.inl ⟨rfl, ?_⟩⟩
  intro i hi; simp at hi

theorem maxStep_cells (numHashes : Nat) (binIds done hashes : List Int) (i : Int)
    (hc : Cells numHashes binIds done hashes) (hi : ValidIndex numHashes binIds i) :
    ∃ hashes', maxStep binIds hashes i = .ok hashes' ∧ Cells numHashes binIds (done ++ [i]) hashes' := by
  obtain ⟨b, hb, hib⟩ := hi
  obtain ⟨h, hh, hs⟩ := maxStep_valid numHashes binIds hashes i hc.1 b hb hib
  refine ⟨_, hs, by simp [hc.1], ?_⟩
  intro b' hb'
  obtain ⟨v, hv, hr⟩ := hc.2 b' hb'
  by_cases hbb : b = b'
  · subst hbb
    have hvh : v = h := by rw [hv] at hh; simpa using hh
    subst hvh
    have hlt : b < hashes.length := by rw [hc.1]; exact hb
    refine ⟨if v < i then i else v, by simp [hlt], Or.inr ?_⟩
    rcases hr with ⟨h1, h2⟩ | ⟨h1, h2, h3⟩
    · have hlt2 : v < i := by rw [h1]; unfold minInt64; have := hib.1; omega
      rw [if_pos hlt2]
      refine ⟨by simp, hib, ?_⟩
      intro j hj hjb
      rcases List.mem_append.mp hj with hj | hj
      · exact absurd hjb (h2 j hj)
      · simp at hj; omega
    · by_cases hlt2 : v < i
      · rw [if_pos hlt2]
        refine ⟨by simp, hib, ?_⟩
        intro j hj hjb
        rcases List.mem_append.mp hj with hj | hj
        · have := h3 j hj hjb; omega
        · simp at hj; omega
      · rw [if_neg hlt2]
        refine ⟨by simp [h1], h2, ?_⟩
        intro j hj hjb
        rcases List.mem_append.mp hj with hj | hj
        · exact h3 j hj hjb
        · simp at hj; omega
  · refine ⟨v, by rw [List.getElem?_set_ne hbb]; exact hv, ?_⟩
    have hni : ¬ InBin binIds i b' := by
      intro h'
      have e1 := hib.2
      have e2 := h'.2
      rw [e1] at e2
      simp at e2
      omega
    rcases hr with ⟨h1, h2⟩ | ⟨h1, h2, h3⟩
    · left
      refine ⟨h1, ?_⟩
      intro j hj
      rcases List.mem_append.mp hj with hj | hj
      · exact h2 j hj
      · simp at hj; subst hj; exact hni
    · right
      refine ⟨by simp [h1], h2, ?_⟩
      intro j hj hjb
      rcases List.mem_append.mp hj with hj | hj
      · exact h3 j hj hjb
      · simp at hj; subst hj; exact absurd hjb hni

theorem fold_cells (numHashes : Nat) (binIds : List Int) : ∀ (idxs done hashes : List Int),
    Cells numHashes binIds done hashes → (∀ i ∈ idxs, ValidIndex numHashes binIds i) →
    ∃ hashes', idxs.foldlM (maxStep binIds) hashes = .ok hashes' ∧
      Cells numHashes binIds (done ++ idxs) hashes' := by
  intro idxs
  induction idxs with
  | nil => intro done hashes hc _; exact ⟨hashes, rfl, by simpa using hc⟩
  | cons i idxs ih =>
    intro done hashes hc hv
    obtain ⟨h1, e1, c1⟩ := maxStep_cells numHashes binIds done hashes i hc (hv i (by simp))
    obtain ⟨h2, e2, c2⟩ := ih (done ++ [i]) h1 c1 (fun j hj => hv j (by simp [hj]))
    refine ⟨h2, by rw [List.foldlM_cons, e1, ok_bind, e2], by simpa using c2⟩

theorem maxStep_length (binIds hashes hashes' : List Int) (i : Int)
    (h : maxStep binIds hashes i = .ok hashes') : hashes'.length = hashes.length := by
  unfold maxStep at h
  rw [bind_ok_iff] at h
  obtain ⟨b, -, h⟩ := h
  rw [bind_ok_iff] at h
  obtain ⟨v, -, h⟩ := h
  split at h
  · unfold goSet at h
    split at h
    · simp at h
    · split at h
      · simp at h; rw [← h]; simp
      · simp at h
  · simp [pure, Except.pure] at h; rw [h]

theorem fold_invalid (numHashes : Nat) (binIds : List Int) : ∀ (idxs hashes : List Int),
    hashes.length = numHashes → (∃ i ∈ idxs, ¬ ValidIndex numHashes binIds i) →
    idxs.foldlM (maxStep binIds) hashes = .error .index := by
  intro idxs
  induction idxs with
  | nil => intro hashes _ h; obtain ⟨i, hi, -⟩ := h; simp at hi
  | cons i idxs ih =>
    intro hashes hl h
    rw [List.foldlM_cons]
    by_cases hv : ValidIndex numHashes binIds i
    · obtain ⟨j, hj, hjv⟩ := h
      have hj' : j ∈ idxs := by
        rcases List.mem_cons.mp hj with rfl | hj
        · exact absurd hv hjv
        · exact hj
      cases h1 : maxStep binIds hashes i with
      | error e => rw [maxStep_index _ _ _ _ h1]; rfl
      | ok h2 =>
        rw [ok_bind]
        exact ih h2 (by rw [maxStep_length _ _ _ _ h1, hl]) ⟨j, hj', hjv⟩
    · rw [maxStep_invalid numHashes binIds hashes i hl hv]; rfl

theorem cells_unique (numHashes : Nat) (binIds idx1 idx2 h1 h2 : List Int)
    (hs : ∀ x, x ∈ idx1 ↔ x ∈ idx2)
    (c1 : Cells numHashes binIds idx1 h1) (c2 : Cells numHashes binIds idx2 h2) : h1 = h2 := by
  apply List.ext_getElem?
  intro b
  by_cases hb : b < numHashes
  · obtain ⟨v1, e1, r1⟩ := c1.2 b hb
    obtain ⟨v2, e2, r2⟩ := c2.2 b hb
    rw [e1, e2]
    congr 1
    rcases r1 with ⟨a1, a2⟩ | ⟨a1, a2, a3⟩ <;> rcases r2 with ⟨b1, b2⟩ | ⟨b1, b2, b3⟩
    · omega
    · exact absurd b2 (a2 v2 ((hs v2).mpr b1))
    · exact absurd a2 (b2 v1 ((hs v1).mp a1))
    · have := a3 v2 ((hs v2).mpr b1) b2
      have := b3 v1 ((hs v1).mp a1) a2
      omega
  · rw [List.getElem?_eq_none (by rw [c1.1]; omega), List.getElem?_eq_none (by rw [c2.1]; omega)]

/-- The first loop of `GetHash`. -/
theorem getHash_loop (binIds indices hashes : List Int) (n : Nat) (hn : n ≤ indices.length) :
    (List.range n).foldlM
      (fun hashes (i : Nat) => do maxStep binIds hashes (← goGet indices (i : Int))) hashes =
    (indices.take n).foldlM (maxStep binIds) hashes := by
  have e : indices.take n = (List.range n).map (fun i => indices.getD i 0) := by
    apply List.ext_getElem?
    intro i
    by_cases hi : i < n
    · rw [List.getElem?_take_of_lt hi, List.getElem?_map, List.getElem?_range hi,
        List.getElem?_eq_getElem (by omega : i < indices.length)]
      simp [List.getD, List.getElem?_eq_getElem (by omega : i < indices.length)]
    · rw [List.getElem?_eq_none (by simp; omega), List.getElem?_eq_none (by simp; omega)]
  rw [e, List.foldlM_map]
  have gen : ∀ (is : List Nat) (h0 : List Int), (∀ i ∈ is, i < indices.length) →
      is.foldlM (fun hashes (i : Nat) => do maxStep binIds hashes (← goGet indices (i : Int))) h0 =
      is.foldlM (fun x y => maxStep binIds x (indices.getD y 0)) h0 := by
    intro is
    induction is with
    | nil => intro h0 _; rfl
    | cons i is ih =>
      intro h0 hi
      have hlt := hi i (by simp)
      rw [List.foldlM_cons, List.foldlM_cons, goGet_ok_of_lt _ _ hlt, ok_bind]
      have : indices.getD i 0 = indices[i] := by simp [List.getD, List.getElem?_eq_getElem hlt]
      rw [this]
      congr 1
      funext h1
      exact ih h1 (fun j hj => hi j (by simp [hj]))
  exact gen _ _ (fun i hi => by have := List.mem_range.mp hi; omega)

theorem getHash_eq (dm : DensifiedMinhash) (indices binIds : List Int) (data : List F)
    (hn : data.length = indices.length) :
    getHash dm indices data binIds =
      (indices.foldlM (maxStep binIds) (emptyHashes dm) >>= densify dm) := by
  unfold getHash
  rw [getHash_loop binIds indices _ _ (by omega), hn, List.take_length]

/-- Hashing depends only on the set of indices. -/
theorem hash_set (dm : DensifiedMinhash) (idx1 idx2 binIds : List Int)
    (hs : ∀ x, x ∈ idx1 ↔ x ∈ idx2) :
    (idx1.foldlM (maxStep binIds) (emptyHashes dm) >>= densify dm) =
      (idx2.foldlM (maxStep binIds) (emptyHashes dm) >>= densify dm) := by
  by_cases hv : ∀ i ∈ idx1, ValidIndex dm.numHashes binIds i
  · obtain ⟨h1, e1, c1⟩ := fold_cells dm.numHashes binIds idx1 [] _ (cells_empty dm binIds) hv
    obtain ⟨h2, e2, c2⟩ := fold_cells dm.numHashes binIds idx2 [] _ (cells_empty dm binIds)
      (fun i hi => hv i ((hs i).mpr hi))
    rw [e1, e2, cells_unique _ _ _ _ _ _ (by simpa using hs) c1 c2]
  · have hv' : ∃ i ∈ idx1, ¬ ValidIndex dm.numHashes binIds i := by simpa using hv
    obtain ⟨i, hi, hiv⟩ := hv'
    rw [fold_invalid dm.numHashes binIds idx1 _ (by simp [emptyHashes]) ⟨i, hi, hiv⟩,
      fold_invalid dm.numHashes binIds idx2 _ (by simp [emptyHashes]) ⟨i, (hs i).mp hi, hiv⟩]

/-- `probe` returns the first non-empty cell among those probed at counts `101-n .. 101`, or
MinInt64 when there is none. -/
theorem probe_spec (dm : DensifiedMinhash) (hashes : List Int) (i : Nat)
    (hl : dm.logNumHash ≤ 31) (hn : 0 < dm.numHashes) (hlen : hashes.length = dm.numHashes) :
    ∀ n, n ≤ 100 →
      (∃ c h, 101 - n ≤ c ∧ c ≤ 101 ∧
        hashes[Dwta.probed dm.randHash0 dm.logNumHash dm.numHashes i c]? = some h ∧ h ≠ minInt64 ∧
        (∀ c' h', 101 - n ≤ c' → c' < c →
          hashes[Dwta.probed dm.randHash0 dm.logNumHash dm.numHashes i c']? = some h' → h' = minInt64) ∧
        probe dm hashes i n = .ok h) ∨
      ((∀ c h, 101 - n ≤ c → c ≤ 101 →
        hashes[Dwta.probed dm.randHash0 dm.logNumHash dm.numHashes i c]? = some h → h = minInt64) ∧
        probe dm hashes i n = .ok minInt64) := by
  intro n
  induction n with
  | zero =>
    intro _
    obtain ⟨v, hv, hm⟩ := Dwta.getRandDoubleHash_ok dm.randHash0 dm.logNumHash dm.numHashes i 101 hl hn
    have hlt : Dwta.probed dm.randHash0 dm.logNumHash dm.numHashes i 101 < hashes.length := by
      rw [hlen]; exact Dwta.probed_lt _ _ _ _ _ hn
    have hp : probe dm hashes i 0 =
        .ok hashes[Dwta.probed dm.randHash0 dm.logNumHash dm.numHashes i 101] := by
      rw [probe, hv, ok_bind, hm]
      dsimp only
      rw [goGet_ok_of_lt _ _ hlt]
    by_cases he : hashes[Dwta.probed dm.randHash0 dm.logNumHash dm.numHashes i 101] = minInt64
    · right
      refine ⟨?_, by rw [hp, he]⟩
      intro c h h1 h2 h3
      have hc : c = 101 := by omega
      subst hc
      rw [List.getElem?_eq_getElem hlt] at h3
      simp only [Option.some.injEq] at h3
      rw [← h3, he]
    · left
      refine ⟨101, _, by omega, by omega, List.getElem?_eq_getElem hlt, he, ?_, hp⟩
      intro c' h' h1 h2; omega
  | succ n ih =>
    intro hle
    obtain ⟨v, hv, hm⟩ := Dwta.getRandDoubleHash_ok dm.randHash0 dm.logNumHash dm.numHashes i (100 - n) hl hn
    have hlt : Dwta.probed dm.randHash0 dm.logNumHash dm.numHashes i (100 - n) < hashes.length := by
      rw [hlen]; exact Dwta.probed_lt _ _ _ _ _ hn
    have hp : probe dm hashes i (n + 1) =
        if hashes[Dwta.probed dm.randHash0 dm.logNumHash dm.numHashes i (100 - n)] = minInt64 then
          probe dm hashes i n
        else .ok hashes[Dwta.probed dm.randHash0 dm.logNumHash dm.numHashes i (100 - n)] := by
      rw [probe, hv, ok_bind, hm]
      dsimp only
      rw [goGet_ok_of_lt _ _ hlt, ok_bind]
      rfl
    have e : 101 - (n + 1) = 100 - n := by omega
    rw [e]
    by_cases he : hashes[Dwta.probed dm.randHash0 dm.logNumHash dm.numHashes i (100 - n)] = minInt64
    · rw [if_pos he] at hp
      have hstep : ∀ c h, c = 100 - n →
          hashes[Dwta.probed dm.randHash0 dm.logNumHash dm.numHashes i c]? = some h → h = minInt64 := by
        intro c h hc h3
        subst hc
        rw [List.getElem?_eq_getElem hlt] at h3
        simp only [Option.some.injEq] at h3
        rw [← h3, he]
      rcases ih (by omega) with ⟨c, h, h1, h2, h3, h4, h5, h6⟩ | ⟨h1, h2⟩
      · left
        refine ⟨c, h, by omega, h2, h3, h4, ?_, by rw [hp, h6]⟩
        intro c' h' hc1 hc2 hc3
        by_cases hc : c' = 100 - n
        · exact hstep c' h' hc hc3
        · exact h5 c' h' (by omega) hc2 hc3
      · right
        refine ⟨?_, by rw [hp, h2]⟩
        intro c h hc1 hc2 hc3
        by_cases hc : c = 100 - n
        · exact hstep c h hc hc3
        · exact h1 c h (by omega) hc2 hc3
    · left
      rw [if_neg he] at hp
      refine ⟨100 - n, _, Nat.le_refl _, by omega, List.getElem?_eq_getElem hlt, he, ?_, hp⟩
      intro c' h' h1 h2; omega

theorem densify_ok (dm : DensifiedMinhash) (hashes : List Int) (hl : dm.logNumHash ≤ 31)
    (hlen : hashes.length = dm.numHashes) :
    ∃ codes, densify dm hashes = .ok codes ∧ codes.length = dm.numHashes ∧
      ∀ (b : Nat) (v : Int), hashes[b]? = some v →
        ∃ c, codes[b]? = some c ∧ (if v ≠ minInt64 then c = v else probe dm hashes b 100 = .ok c) := by
  have key : ∀ x ∈ hashes.zipIdx, ∃ c, (if x.1 ≠ minInt64 then (.ok x.1 : Go Int)
      else probe dm hashes x.2 100) = .ok c := by
    rintro ⟨v, i⟩ hx
    by_cases hv : v ≠ minInt64
    · exact ⟨v, by simp only [if_pos hv]⟩
    · simp only [if_neg hv]
      have hpos : 0 < dm.numHashes := by
        have := (zipIdx_mem _ _ _).mp hx
        rw [← hlen]; exact List.length_pos_of_mem (List.mem_of_getElem? this)
      rcases probe_spec dm hashes i hl hpos hlen 100 (Nat.le_refl _) with ⟨c, h, -, -, -, -, -, hp⟩ | ⟨-, hp⟩
      · exact ⟨_, hp⟩
      · exact ⟨_, hp⟩
  have hall : ∀ x ∈ hashes.zipIdx, (if x.1 ≠ minInt64 then (.ok x.1 : Go Int)
      else probe dm hashes x.2 100) =
      .ok (match (if x.1 ≠ minInt64 then (.ok x.1 : Go Int) else probe dm hashes x.2 100) with
        | .ok v => v | .error _ => 0) := by
    intro x hx
    obtain ⟨c, hc⟩ := key x hx
    rw [hc]
  have hm := mapM_ok_of_forall _ _ _ hall
  have hres := (mapM_ok_iff _ _ _).mp hm
  refine ⟨_, hm, by rw [hres.1]; simp [hlen], ?_⟩
  intro b v hb
  obtain ⟨c, h1, h2⟩ := hres.2 b (v, b) (by
    rw [List.getElem?_zipIdx, hb]; simp)
  refine ⟨c, h1, ?_⟩
  by_cases hv : v ≠ minInt64
  · simp only [if_pos hv] at h2 ⊢
    simpa using h2.symm
  · simp only [if_neg hv] at h2 ⊢
    exact h2

theorem take_zipIdx (l : List α) (k : Nat) : (l.take k).zipIdx = l.zipIdx.take k := by
  apply List.ext_getElem?
  intro i
  rw [List.getElem?_take, List.getElem?_zipIdx, List.getElem?_zipIdx, List.getElem?_take]
  split <;> rfl

-- the top-K selection

def mkIV (x : F × Nat) : IndexValue F := { index := x.2, value := x.1 }

/-- Without any assumption on the values: the selection never panics when the slice is long enough,
and keeps `topK` of the positions. -/
theorem selectTop_perm (data spare : List F) (topK : Nat) (hk : topK ≤ data.length) :
    ∃ pq dropped, selectTop data spare topK = .ok pq ∧ pq.length = topK ∧
      (pq ++ dropped).Perm (data.zipIdx.map mkIV) := by
  unfold selectTop initQueue firstK
  rw [if_pos (by omega), ok_bind]
  have ht : (data ++ spare).take topK = data.take topK := by
    rw [List.take_append_of_le_length hk]
  rw [ht]
  simp only [pure_bind]
  have hloop : ∀ (xs : List (F × Nat)) (pq : List (IndexValue F)),
      ∃ pq' dr, xs.foldlM (fun pq (x : F × Nat) => pushPop pq { index := x.2, value := x.1 }) pq = .ok pq' ∧
        pq'.length = pq.length ∧ (pq' ++ dr).Perm (pq ++ xs.map mkIV) := by
    intro xs
    induction xs with
    | nil => intro pq; exact ⟨pq, [], rfl, rfl, by simp⟩
    | cons x xs ih =>
      intro pq
      obtain ⟨h', r, h1, h2⟩ := GoHeap.push_pop_perm (less := less) pq (mkIV x)
      obtain ⟨pq', dr, h3, h4, h5⟩ := ih h'
      refine ⟨pq', r :: dr, ?_, ?_, ?_⟩
      · rw [List.foldlM_cons]
        show (GoHeap.pop less (GoHeap.push less pq (mkIV x)) >>= _) = _
        rw [h1, ok_bind, h3]
      · have := h2.length_eq
        simp at this
        omega
      · have e1 : (pq' ++ r :: dr).Perm (r :: (pq' ++ dr)) := List.perm_middle
        refine e1.trans ?_
        refine (List.Perm.cons r h5).trans ?_
        have e2 : (r :: (h' ++ xs.map mkIV)).Perm ((pq ++ [mkIV x]) ++ xs.map mkIV) := by
          rw [← List.cons_append]
          exact h2.append_right _
        refine e2.trans ?_
        simp
  obtain ⟨pq, dr, h1, h2, h3⟩ := hloop ((data.zipIdx).drop topK)
    (GoHeap.init less ((data.take topK).zipIdx.map mkIV))
  refine ⟨pq, dr, h1, ?_, ?_⟩
  · rw [h2, (GoHeap.init_perm _).length_eq]; simp; omega
  · refine h3.trans ?_
    refine ((GoHeap.init_perm _).append_right _).trans ?_
    rw [← List.map_append]
    apply List.Perm.of_eq
    congr 1
    rw [take_zipIdx, List.take_append_drop]

theorem lessOrder [FloatOrder F] :
    GoHeap.WeakOrder (less (F := F)) (fun x => FloatOrder.isNaN x.value = false) := by
  constructor
  · intro a b _ _ h
    unfold less at *
    cases hc : GoFloat.lt a.value b.value with
    | false => rfl
    | true =>
      have := FloatOrder.lt_trans _ _ _ h hc
      rw [FloatOrder.lt_irrefl] at this; simp at this
  · intro a b c _ hb _ h1 h2
    unfold less at *
    cases hc : GoFloat.lt c.value a.value with
    | false => rfl
    | true =>
      rcases FloatOrder.lt_weak _ _ b.value hb hc with h | h
      · rw [h] at h2; simp at h2
      · rw [h] at h1; simp at h1

/-- Without NaN: no dropped value is smaller than a kept one. -/
theorem selectTop_min [FloatOrder F] (data spare : List F) (topK : Nat) (hk : topK ≤ data.length)
    (hnan : ∀ x ∈ data, FloatOrder.isNaN x = false) :
    ∃ pq dropped, selectTop data spare topK = .ok pq ∧ pq.length = topK ∧
      (pq ++ dropped).Perm (data.zipIdx.map mkIV) ∧
      ∀ k ∈ pq, ∀ d ∈ dropped, GoFloat.lt d.value k.value = false := by
  unfold selectTop initQueue firstK
  rw [if_pos (by omega), ok_bind]
  have ht : (data ++ spare).take topK = data.take topK := by
    rw [List.take_append_of_le_length hk]
  rw [ht]
  simp only [pure_bind]
  have ho := lessOrder (F := F)
  have hloop : ∀ (xs : List (F × Nat)) (pq dr0 : List (IndexValue F)),
      (∀ x ∈ xs, FloatOrder.isNaN x.1 = false) → (∀ x ∈ pq, FloatOrder.isNaN x.value = false) →
      GoHeap.HeapFrom less 0 pq pq.length →
      (∀ x ∈ dr0, FloatOrder.isNaN x.value = false) →
      (∀ k ∈ pq, ∀ d ∈ dr0, GoFloat.lt d.value k.value = false) →
      ∃ pq' dr, xs.foldlM (fun pq (x : F × Nat) => pushPop pq { index := x.2, value := x.1 }) pq = .ok pq' ∧
        pq'.length = pq.length ∧ (pq' ++ dr).Perm (pq ++ dr0 ++ xs.map mkIV) ∧
        (∀ k ∈ pq', ∀ d ∈ dr, GoFloat.lt d.value k.value = false) := by
    intro xs
    induction xs with
    | nil => intro pq dr0 _ _ _ _ hm; exact ⟨pq, dr0, rfl, rfl, by simp, hm⟩
    | cons x xs ih =>
      intro pq dr0 hx hpq hheap hdr0 hm
      have hxw : FloatOrder.isNaN (mkIV x).value = false := hx x (by simp)
      have hph := GoHeap.push_heap ho pq (mkIV x) hpq hxw hheap
      have hpp := GoHeap.push_perm (less := less) pq (mkIV x)
      have hpw : ∀ y ∈ GoHeap.push less pq (mkIV x), FloatOrder.isNaN y.value = false := by
        intro y hy
        have := hpp.mem_iff.mp hy
        rcases List.mem_append.mp this with h | h
        · exact hpq y h
        · simp at h; subst h; exact hxw
      obtain ⟨h', r, h1, h2, h2h, h2m⟩ := GoHeap.pop_spec ho (GoHeap.push less pq (mkIV x)) hpw
        (by rw [hpp.length_eq]; simp) hph
      have h2' := h2.trans hpp
      have hmem : ∀ y, y ∈ r :: h' ↔ y ∈ pq ++ [mkIV x] := fun y => h2'.mem_iff
      have hrw : FloatOrder.isNaN r.value = false := by
        have := (hmem r).mp (by simp)
        rcases List.mem_append.mp this with h | h
        · exact hpq r h
        · simp at h; subst h; exact hxw
      have hw' : ∀ y ∈ h', FloatOrder.isNaN y.value = false := by
        intro y hy
        have := (hmem y).mp (by simp [hy])
        rcases List.mem_append.mp this with h | h
        · exact hpq y h
        · simp at h; subst h; exact hxw
      have hm' : ∀ k ∈ h', ∀ d ∈ r :: dr0, GoFloat.lt d.value k.value = false := by
        intro k hk d hd
        have hrk : GoFloat.lt r.value k.value = false := h2m k hk
        rcases List.mem_cons.mp hd with rfl | hd
        · exact hrk
        · have hkm := (hmem k).mp (by simp [hk])
          rcases List.mem_append.mp hkm with h | h
          · exact hm k h d hd
          · -- `k` is the pushed element, the removed root is an old one
            have hrm := (hmem r).mp (by simp)
            rcases List.mem_append.mp hrm with h3 | h3
            · have hdr := hm r h3 d hd
              exact ho.ntr k r d (hw' k hk) hrw (hdr0 d hd) hrk hdr
            · -- both equal the pushed element: then `k` is also old
              simp at h h3
              subst h
              have : mkIV x ∈ pq := by
                have hc : (mkIV x :: h').Perm (mkIV x :: pq) := by
                  rw [h3] at h2'
                  exact h2'.trans (List.perm_append_singleton _ _)
                exact (List.Perm.cons_inv hc).mem_iff.mp hk
              exact hm _ this d hd
      obtain ⟨pq', dr, h3, h4, h5, h6⟩ := ih h' (r :: dr0) (fun y hy => hx y (by simp [hy])) hw' h2h
        (by intro y hy; rcases List.mem_cons.mp hy with rfl | hy
            · exact hrw
            · exact hdr0 y hy) hm'
      refine ⟨pq', dr, ?_, ?_, ?_, h6⟩
      · rw [List.foldlM_cons]
        show (GoHeap.pop less (GoHeap.push less pq (mkIV x)) >>= _) = _
        rw [h1, ok_bind, h3]
      · have := h2'.length_eq
        simp at this
        omega
      · refine h5.trans ?_
        rw [List.map_cons]
        have e1 : (h' ++ r :: dr0).Perm (pq ++ dr0 ++ [mkIV x]) := by
          refine List.perm_middle.trans ?_
          rw [← List.cons_append]
          refine (h2'.append_right _).trans ?_
          rw [List.append_assoc, List.append_assoc]
          exact List.Perm.append_left _ List.perm_append_comm
        have e2 := e1.append_right (xs.map mkIV)
        refine e2.trans ?_
        simp
  have hnan1 : ∀ x ∈ (data.take topK).zipIdx.map mkIV, FloatOrder.isNaN x.value = false := by
    intro y hy
    rw [List.mem_map] at hy
    obtain ⟨⟨v, i⟩, hvi, rfl⟩ := hy
    have := List.mem_of_getElem? ((zipIdx_mem _ _ _).mp hvi)
    exact hnan v (List.mem_of_mem_take this)
  have hnan2 : ∀ x ∈ (data.zipIdx).drop topK, FloatOrder.isNaN x.1 = false := by
    rintro ⟨v, i⟩ hy
    have := (zipIdx_mem _ _ _).mp (List.mem_of_mem_drop hy)
    exact hnan v (List.mem_of_getElem? this)
  have hip := GoHeap.init_perm (less := less) ((data.take topK).zipIdx.map mkIV)
  obtain ⟨pq, dr, h1, h2, h3, h4⟩ := hloop ((data.zipIdx).drop topK)
    (GoHeap.init less ((data.take topK).zipIdx.map mkIV)) [] hnan2
    (fun y hy => hnan1 y (hip.mem_iff.mp hy))
    (by rw [hip.length_eq]; exact GoHeap.init_heap ho _ hnan1)
    (by simp) (by simp)
  refine ⟨pq, dr, h1, ?_, ?_, h4⟩
  · rw [h2, hip.length_eq]; simp; omega
  · refine h3.trans ?_
    rw [List.append_nil]
    refine (hip.append_right _).trans ?_
    rw [← List.map_append]
    apply List.Perm.of_eq
    congr 1
    rw [take_zipIdx, List.take_append_drop]

theorem getHashEasyDense_of_select (dm : DensifiedMinhash) (binIds : List Int) (data spare : List F)
    (topK : Nat) (pq : List (IndexValue F)) (h : selectTop data spare topK = .ok pq) :
    getHashEasyDense dm binIds data spare topK =
      ((pq.map (fun x => (x.index : Int))).foldlM (maxStep binIds) (emptyHashes dm) >>= densify dm) := by
  unfold getHashEasyDense
  rw [h, ok_bind]
  have : pq.reverse.foldlM (fun hashes (x : IndexValue F) => maxStep binIds hashes x.index) (emptyHashes dm) =
      (pq.reverse.map (fun x => (x.index : Int))).foldlM (maxStep binIds) (emptyHashes dm) := by
    rw [List.foldlM_map]
  rw [this]
  apply hash_set
  intro x
  simp

end Goslide.Minhash
