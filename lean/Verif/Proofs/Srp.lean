import Verif.Model.Srp
import Verif.Spec.Srp
import Verif.Proofs.GoBasic
import Verif.Proofs.Shuffle
set_option linter.unusedSectionVars false
namespace Goslide.Srp
open Spec
variable {F : Type} [GoFloat F]

/-- `mergeLoop` without fuel. -/
def merge : List (Pair F) → List (Nat × Bool) → F → F
  | [], _, s => s
  | _ :: _, [], s => s
  | p :: ps, x :: xs, s =>
    if p.Index = (x.1 : Int) then merge ps xs (signed s p.Value x.2)
    else if p.Index < (x.1 : Int) then merge ps (x :: xs) s
    else merge (p :: ps) xs s
termination_by ps xs _ => ps.length + xs.length
decreasing_by all_goals simp_wf <;> omega

theorem mergeLoop_eq (fuel : Nat) : ∀ (ps : List (Pair F)) (xs : List (Nat × Bool)) (s : F),
    ps.length + xs.length ≤ fuel → mergeLoop fuel ps xs s = merge ps xs s := by
  induction fuel with
  | zero =>
    intro ps xs s h
    have h1 : ps = [] := List.length_eq_zero_iff.mp (by omega)
    subst h1
    rw [mergeLoop, merge]
  | succ fuel ih =>
    intro ps xs s h
    cases ps with
    | nil => rw [mergeLoop, merge]
    | cons p ps =>
      cases xs with
      | nil => rw [mergeLoop, merge]
      | cons x xs =>
        simp only [List.length_cons] at h
        rw [mergeLoop, merge]
        split
        · exact ih _ _ _ (by omega)
        · split
          · exact ih _ _ _ (by simp; omega)
          · exact ih _ _ _ (by simp; omega)

theorem getHashSparse_eq (srp : SparseRandomProjection) (data : List (Pair F)) :
    getHashSparse srp data = srp.rows.map (fun row => signBit (merge data row GoFloat.zero)) := by
  unfold getHashSparse
  apply List.map_congr_left
  intro row _
  rw [mergeLoop_eq _ _ _ _ (Nat.le_refl _)]

theorem merge_nil_right (ps : List (Pair F)) (s : F) : merge ps [] s = s := by
  cases ps <;> rw [merge]

/-- Strictly increasing rows only ever use the left-to-right maxima of the pair list. -/
theorem merge_records (ps : List (Pair F)) (xs : List (Nat × Bool)) (s : F) :
    ∀ m : Option Int, xs.Pairwise (fun a b => a.1 < b.1) →
      (∀ k, m = some k → ∀ x ∈ xs, k < (x.1 : Int)) →
      merge ps xs s = merge (recordsFrom m ps) xs s := by
  induction ps, xs, s using merge.induct with
  | case1 xs s => intro m _ _; rw [recordsFrom]
  | case2 s p ps => intro m _ _; rw [merge_nil_right, merge_nil_right]
  | case3 p ps x xs s heq ih =>
    intro m hx hm
    have hlt : above m p.Index = true := by
      cases m with
      | none => rfl
      | some k => have := hm k rfl x (by simp); simp [above]; omega
    rw [recordsFrom, if_pos hlt, merge, if_pos heq, merge, if_pos heq]
    rw [List.pairwise_cons] at hx
    apply ih (some p.Index) hx.2
    intro k hk y hy
    simp only [Option.some.injEq] at hk
    have := hx.1 y hy
    omega
  | case4 p ps x xs s hne hlt2 ih =>
    intro m hx hm
    rw [merge, if_neg hne, if_pos hlt2, recordsFrom]
    by_cases hlt : above m p.Index = true
    · rw [if_pos hlt, merge, if_neg hne, if_pos hlt2]
      apply ih (some p.Index) hx
      intro k hk y hy
      simp only [Option.some.injEq] at hk
      rcases List.mem_cons.mp hy with rfl | hy
      · omega
      · have := (List.pairwise_cons.mp hx).1 y hy
        omega
    · rw [if_neg hlt]
      exact ih m hx hm
  | case5 p ps x xs s hne hnlt ih =>
    intro m hx hm
    have hlt : above m p.Index = true := by
      cases m with
      | none => rfl
      | some k => have := hm k rfl x (by simp); simp [above]; omega
    have hih := ih m (List.pairwise_cons.mp hx).2 (fun k hk y hy => hm k hk y (by simp [hy]))
    rw [recordsFrom, if_pos hlt] at hih ⊢
    rw [merge, if_neg hne, if_neg hnlt, hih]
    rw [merge.eq_3 _ p, if_neg hne, if_neg hnlt]

theorem recordsFrom_spec (ps : List (Pair F)) : ∀ m : Option Int,
    (recordsFrom m ps).Pairwise (fun p q => p.Index < q.Index) ∧
    ∀ k, m = some k → ∀ p ∈ recordsFrom m ps, k < p.Index := by
  induction ps with
  | nil => intro m; exact ⟨by simp [recordsFrom], by simp [recordsFrom]⟩
  | cons p ps ih =>
    intro m
    rw [recordsFrom]
    split
    · rename_i h
      obtain ⟨h1, h2⟩ := ih (some p.Index)
      refine ⟨List.pairwise_cons.mpr ⟨fun q hq => h2 _ rfl q hq, h1⟩, ?_⟩
      intro k hk q hq
      subst hk
      simp [above] at h
      rcases List.mem_cons.mp hq with rfl | hq
      · exact h
      · have := h2 _ rfl q hq
        omega
    · exact ih m

/-- On increasing lists the merge loop looks each sampled feature up. -/
theorem merge_lookup (ps : List (Pair F)) (xs : List (Nat × Bool)) (s : F) :
    Increasing ps → xs.Pairwise (fun a b => a.1 < b.1) →
      merge ps xs s = xs.foldl (fun s x =>
        match ps.find? (fun p => decide (p.Index = (x.1 : Int))) with
        | some p => signed s p.Value x.2
        | none => s) s := by
  induction ps, xs, s using merge.induct with
  | case1 xs s =>
    intro _ hx
    clear hx
    rw [merge]
    simp only [List.find?_nil]
    generalize s = s'
    induction xs generalizing s' with
    | nil => rfl
    | cons x xs ih => rw [List.foldl_cons]; exact ih _
  | case2 s p ps => intro _ _; rw [merge_nil_right]; rfl
  | case3 p ps x xs s heq ih =>
    intro hp hx
    rw [merge, if_pos heq, ih (List.pairwise_cons.mp hp).2 (List.pairwise_cons.mp hx).2,
      List.foldl_cons]
    have hf : (p :: ps).find? (fun p => decide (p.Index = (x.1 : Int))) = some p := by
      rw [List.find?_cons_of_pos]; simpa using heq
    rw [hf]
    -- the remaining features are larger than `p.Index`
    have : ∀ (ys : List (Nat × Bool)) (s : F), (∀ y ∈ ys, x.1 < y.1) →
        ys.foldl (fun s x => match ps.find? (fun p => decide (p.Index = (x.1 : Int))) with
          | some p => signed s p.Value x.2
          | none => s) s =
        ys.foldl (fun s x => match (p :: ps).find? (fun p => decide (p.Index = (x.1 : Int))) with
          | some p => signed s p.Value x.2
          | none => s) s := by
      intro ys
      induction ys with
      | nil => intro s _; rfl
      | cons y ys ih2 =>
        intro s hy
        have h1 := hy y (by simp)
        rw [List.foldl_cons, List.foldl_cons, List.find?_cons_of_neg (by simp; omega)]
        exact ih2 _ (fun z hz => hy z (by simp [hz]))
    exact this _ _ (fun y hy => (List.pairwise_cons.mp hx).1 y hy)
  | case4 p ps x xs s hne hlt ih =>
    intro hp hx
    rw [merge, if_neg hne, if_pos hlt, ih (List.pairwise_cons.mp hp).2 hx]
    have : ∀ (ys : List (Nat × Bool)) (s : F), (∀ y ∈ ys, x.1 ≤ y.1) →
        ys.foldl (fun s x => match ps.find? (fun p => decide (p.Index = (x.1 : Int))) with
          | some p => signed s p.Value x.2
          | none => s) s =
        ys.foldl (fun s x => match (p :: ps).find? (fun p => decide (p.Index = (x.1 : Int))) with
          | some p => signed s p.Value x.2
          | none => s) s := by
      intro ys
      induction ys with
      | nil => intro s _; rfl
      | cons y ys ih2 =>
        intro s hy
        have h1 := hy y (by simp)
        rw [List.foldl_cons, List.foldl_cons, List.find?_cons_of_neg (by simp; omega)]
        exact ih2 _ (fun z hz => hy z (by simp [hz]))
    apply this
    intro y hy
    rcases List.mem_cons.mp hy with rfl | hy
    · exact Nat.le_refl _
    · exact Nat.le_of_lt ((List.pairwise_cons.mp hx).1 y hy)
  | case5 p ps x xs s hne hnlt ih =>
    intro hp hx
    rw [merge, if_neg hne, if_neg hnlt, ih hp (List.pairwise_cons.mp hx).2, List.foldl_cons]
    have : (p :: ps).find? (fun p => decide (p.Index = (x.1 : Int))) = none := by
      rw [List.find?_eq_none]
      intro q hq
      rcases List.mem_cons.mp hq with rfl | hq
      · simpa using hne
      · have := (List.pairwise_cons.mp hp).1 q hq
        simp; omega
    rw [this]

theorem denseSum_ok (row : List (Nat × Bool)) (vector : List F) (h : ∀ x ∈ row, x.1 < vector.length) :
    denseSum row vector = .ok (row.foldl (fun s x => signed s (vector.getD x.1 GoFloat.zero) x.2) GoFloat.zero) := by
  unfold denseSum
  have gen : ∀ (row : List (Nat × Bool)) (s : F), (∀ x ∈ row, x.1 < vector.length) →
      row.foldlM (fun s (x : Nat × Bool) => do
        let v ← goGet vector (x.1 : Int)
        return signed s v x.2) s =
      (.ok (row.foldl (fun s x => signed s (vector.getD x.1 GoFloat.zero) x.2) s) : Go F) := by
    intro row
    induction row with
    | nil => intro s _; rfl
    | cons x row ih =>
      intro s h
      have hx := h x (by simp)
      rw [List.foldlM_cons, goGet_ok_of_lt _ _ hx, ok_bind, List.foldl_cons]
      have : vector.getD x.1 GoFloat.zero = vector[x.1] := by
        simp [List.getD, List.getElem?_eq_getElem hx]
      rw [this]
      exact ih _ (fun y hy => h y (by simp [hy]))
  exact gen row _ h

theorem insertInt_perm (x : Nat) (l : List Nat) : (insertInt x l).Perm (x :: l) := by
  induction l with
  | nil => exact List.Perm.refl _
  | cons y ys ih =>
    rw [insertInt]
    split
    · exact List.Perm.refl _
    · exact (List.Perm.cons y ih).trans (List.Perm.swap _ _ _)

theorem insertInt_sorted (x : Nat) (l : List Nat) (h : l.Pairwise (fun a b => a ≤ b)) :
    (insertInt x l).Pairwise (fun a b => a ≤ b) := by
  induction l with
  | nil => simp [insertInt]
  | cons y ys ih =>
    rw [List.pairwise_cons] at h
    rw [insertInt]
    split
    · rename_i hxy
      rw [List.pairwise_cons, List.pairwise_cons]
      refine ⟨?_, h⟩
      intro z hz
      rcases List.mem_cons.mp hz with rfl | hz
      · exact hxy
      · have := h.1 z hz; omega
    · rename_i hxy
      rw [List.pairwise_cons]
      refine ⟨?_, ih h.2⟩
      intro z hz
      rcases List.mem_cons.mp ((insertInt_perm x ys).mem_iff.mp hz) with rfl | hz
      · omega
      · exact h.1 z hz

theorem sortInts_perm (l : List Nat) : (sortInts l).Perm l := by
  induction l with
  | nil => exact List.Perm.refl _
  | cons x xs ih => exact (insertInt_perm x _).trans (List.Perm.cons x ih)

theorem sortInts_sorted (l : List Nat) : (sortInts l).Pairwise (fun a b => a ≤ b) := by
  induction l with
  | nil => simp [sortInts]
  | cons x xs ih => exact insertInt_sorted x _ ih

/-- Sampled rows: strictly increasing features below `dim`, `samSize` of them. -/
def RowsOk (dim samSize numHashes : Nat) (rows : List (List (Nat × Bool))) : Prop :=
  rows.length = numHashes ∧ ∀ row ∈ rows, row.length = samSize ∧
    row.Pairwise (fun a b => a.1 < b.1) ∧ ∀ x ∈ row, x.1 < dim

theorem rowsLoop_ok (dim samSize : Nat) (hs : samSize ≤ dim) : ∀ (n : Nat) (a : List Nat) (r : Rng),
    a.Perm (List.range dim) → ∃ rows r', rowsLoop samSize n a r = .ok (rows, r') ∧
      RowsOk dim samSize n rows := by
  intro n
  induction n with
  | zero => intro a r _; exact ⟨[], r, rfl, rfl, by simp⟩
  | succ n ih =>
    intro a r ha
    have hp : (shuffle a r).1.Perm (List.range dim) := (shuffle_perm a r).trans ha
    have hlen : (shuffle a r).1.length = dim := by rw [hp.length_eq]; simp
    obtain ⟨rows, r', h1, h2⟩ := ih (shuffle a r).1 (fun j => (shuffle a r).2 (j + samSize)) hp
    have hsam : (List.range samSize).mapM (fun (j : Nat) => goGet (shuffle a r).1 (j : Int)) =
        .ok ((shuffle a r).1.take samSize) := by
      rw [mapM_ok_iff]
      refine ⟨by simp [hlen, hs], ?_⟩
      intro i j hj
      by_cases hi : i < samSize
      · rw [List.getElem?_range hi] at hj
        simp only [Option.some.injEq] at hj
        subst hj
        have hil : i < (shuffle a r).1.length := by omega
        exact ⟨_, by rw [List.getElem?_take_of_lt hi, List.getElem?_eq_getElem hil],
          goGet_ok_of_lt _ _ hil⟩
      · rw [List.getElem?_eq_none (by simp; omega)] at hj; simp at hj
    rw [rowsLoop]
    dsimp only
    rw [hsam, ok_bind]
    rw [h1, ok_bind]
    refine ⟨_, _, rfl, by simp [h2.1], ?_⟩
    intro row hrow
    rcases List.mem_cons.mp hrow with rfl | hrow
    · generalize hbits : (List.range samSize).map (fun j => decide ((shuffle a r).2 j % 2 = 0)) = bits
      generalize hsrt : sortInts ((shuffle a r).1.take samSize) = srt
      have hbl : bits.length = samSize := by rw [← hbits]; simp
      have hperm : srt.Perm ((shuffle a r).1.take samSize) := by rw [← hsrt]; exact sortInts_perm _
      have hsl : srt.length = samSize := by rw [hperm.length_eq]; simp [hlen]; omega
      have hnd : srt.Nodup := by
        rw [hperm.nodup_iff]
        exact (hp.nodup_iff.mpr List.nodup_range).sublist (List.take_sublist _ _)
      have hsorted : srt.Pairwise (fun x y => x ≤ y) := by
        rw [← hsrt]; exact sortInts_sorted _
      have hstrict : srt.Pairwise (fun x y => x < y) := by
        rw [List.nodup_iff_pairwise_ne] at hnd
        exact (List.Pairwise.and hsorted hnd).imp (by intro x y h; omega)
      have hfst : (srt.zip bits).map Prod.fst = srt := by
        rw [List.map_fst_zip (by omega)]
      refine ⟨by simp [hsl, hbl], ?_, ?_⟩
      · have : ((srt.zip bits).map Prod.fst).Pairwise (fun x y => x < y) := by rw [hfst]; exact hstrict
        exact List.pairwise_map.mp this
      · intro x hx
        have h1 : x.1 ∈ srt := by rw [← hfst]; exact List.mem_map_of_mem hx
        have h2 := List.mem_of_mem_take (hperm.mem_iff.mp h1)
        exact List.mem_range.mp (hp.mem_iff.mp h2)
    · exact h2.2 row hrow

end Goslide.Srp
