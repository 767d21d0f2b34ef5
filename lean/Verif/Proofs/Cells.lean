import Verif.Proofs.GoBasic
namespace Goslide

theorem foldlM_flatMap_pairs {σ P X : Type} (f : P → List X) (g : P → σ → X → Go σ) (ps : List P) :
    ∀ st : σ, ps.foldlM (fun s p => (f p).foldlM (g p) s) st =
      (ps.flatMap (fun p => (f p).map (fun x => (p, x)))).foldlM (fun s y => g y.1 s y.2) st := by
  induction ps with
  | nil => intro st; rfl
  | cons p ps ih =>
    intro st
    rw [List.foldlM_cons, List.flatMap_cons, List.foldlM_append, List.foldlM_map]
    congr 1
    funext s
    exact ih s

/-- A monadic fold whose steps update one cell each (the cell `bin x`, by `u`): the final content of
a cell is the fold of `u` over the elements sent to it. -/
theorem foldlM_cells {σ X C : Type} (step : σ → X → Go σ) (get : σ → Nat → Option C)
    (bin : X → Option Nat) (u : C → X → C) (Inv : σ → Prop) :
    ∀ (xs : List X)
      (_h : ∀ st x, x ∈ xs → Inv st → ∃ st', step st x = .ok st' ∧ Inv st' ∧
        ∀ b, get st' b = if bin x = some b then (get st b).map (fun c => u c x) else get st b)
      (st : σ), Inv st → ∃ st', xs.foldlM step st = .ok st' ∧ Inv st' ∧
        ∀ b, get st' b =
          (get st b).map (fun c => (xs.filter (fun x => decide (bin x = some b))).foldl u c) := by
  intro xs
  induction xs with
  | nil => intro _ st hi; exact ⟨st, rfl, hi, by intro b; simp⟩
  | cons x xs ih =>
    intro h st hi
    obtain ⟨st1, h1, hi1, hg1⟩ := h st x (by simp) hi
    obtain ⟨st2, h2, hi2, hg2⟩ := ih (fun st x hx => h st x (by simp [hx])) st1 hi1
    refine ⟨st2, by rw [List.foldlM_cons, h1, ok_bind, h2], hi2, ?_⟩
    intro b
    rw [hg2 b, hg1 b]
    by_cases hb : bin x = some b
    · rw [if_pos hb, Option.map_map, List.filter_cons_of_pos (by simpa using hb)]
      rfl
    · rw [if_neg hb, List.filter_cons_of_neg (by simpa using hb)]

theorem zipIdx_mem {α : Type} (l : List α) (x : α) (i : Nat) :
    (x, i) ∈ l.zipIdx ↔ l[i]? = some x := by
  rw [List.mem_zipIdx_iff_getElem?]

theorem mapM_zipIdx_range {α β : Type} (l : List α) (f : α × Nat → Go β) (d : β) {n : Nat}
    (hn : l.length = n) :
    l.zipIdx.mapM f = (List.range n).mapM (fun (i : Nat) => (l[i]?).elim (.ok d) (fun a => f (a, i))) := by
  have e : l.zipIdx = (List.range n).filterMap (fun i => (l[i]?).map (fun a => (a, i))) := by
    apply List.ext_getElem?
    intro i
    subst hn
    have : ∀ (m : Nat) (k : Nat), k + m ≤ l.length →
        (List.range' k m).filterMap (fun i => (l[i]?).map (fun a => (a, i))) =
          ((l.drop k).take m).zipIdx k := by
      intro m
      induction m with
      | zero => intro k _; simp
      | succ m ih =>
        intro k hk
        have hlt : k < l.length := by omega
        rw [List.range'_succ, List.filterMap_cons, List.getElem?_eq_getElem hlt]
        simp only [Option.map_some]
        rw [ih (k + 1) (by omega), List.drop_eq_getElem_cons hlt, List.take_succ_cons,
          List.zipIdx_cons]
    have h := this l.length 0 (by omega)
    rw [List.range_eq_range', h]
    simp
  rw [e]
  subst hn
  have gen : ∀ is : List Nat, (∀ i ∈ is, i < l.length) →
      (is.filterMap (fun i => (l[i]?).map (fun a => (a, i)))).mapM f =
        is.mapM (fun (i : Nat) => (l[i]?).elim (.ok d) (fun a => f (a, i))) := by
    intro is
    induction is with
    | nil => intro _; rfl
    | cons i is ih =>
      intro hi
      have hlt := hi i (by simp)
      rw [List.filterMap_cons, List.getElem?_eq_getElem hlt, List.mapM_cons]
      simp only [Option.map_some]
      rw [List.mapM_cons, ih (fun i h => hi i (by simp [h])), List.getElem?_eq_getElem hlt]
      rfl
  exact gen _ (fun i hi => List.mem_range.mp hi)

end Goslide
