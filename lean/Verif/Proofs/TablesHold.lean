import Verif.Props.Lsh
import Verif.Proofs.LshShape
import Verif.Spec.Layer
import Verif.Props.Layer
/-
The content of tables into which the nodes of a layer were entered one after the other.
-/
set_option linter.unusedSectionVars false
namespace Goslide.Props
open Goslide Goslide.Layer Lsh Spec.Layer Spec

/-- The cell histories of the adds of a new layer. -/
theorem cellHistory_adds (n : Nat) (I : Nat → List Int) (t i : Nat) :
    cellHistory ((List.range n).map (fun j => Lsh.Op.add (I j) j)) t i = sameCell n I t i := by
  induction n with
  | zero => rfl
  | succ n ih =>
    unfold cellHistory sameCell at *
    rw [List.range_succ, List.map_append, List.foldl_append, ih, List.filter_append, List.map_append]
    simp only [List.map_cons, List.map_nil, List.foldl_cons, List.foldl_nil, cellStep]
    by_cases h : (I n)[t]? = some (i : Int)
    · rw [if_pos h, List.filter_cons_of_pos (by simp [h])]; rfl
    · rw [if_neg h, List.filter_cons_of_neg (by simp [h])]; simp

/-- An id of the list is among the newest 128, unless 128 larger ones are in the list. -/
theorem newest_sameCell (n : Nat) (I : Nat → List Int) (t : Nat) (i : Int) (j : Nat) (hj : j < n) (hi : (I j)[t]? = some i)
    (hfew : ((sameCell n I t i).filter (fun id => (j : Int) < id)).length < 128) :
    (j : Int) ∈ newest128 (sameCell n I t i) := by
  have hmem : (j : Int) ∈ sameCell n I t i := by
    unfold sameCell
    exact List.mem_map.mpr ⟨j, List.mem_filter.mpr ⟨List.mem_range.mpr hj, by simp [hi]⟩, rfl⟩
  have hs : (sameCell n I t i).Pairwise (· < ·) := by
    unfold sameCell
    exact range_filter_increasing n _
  generalize sameCell n I t i = l at hmem hs hfew
  obtain ⟨a, r, rfl⟩ := List.append_of_mem hmem
  have hr : ∀ y ∈ r, (j : Int) < y := by
    intro y hy
    have := (List.pairwise_append.mp hs).2.1
    exact (List.pairwise_cons.mp this).1 y hy
  have h1 : r.length ≤ ((a ++ (j : Int) :: r).filter (fun id => (j : Int) < id)).length := by
    rw [List.filter_append, List.length_append, List.filter_cons_of_neg (by simp),
      List.filter_eq_self (l := r) |>.mpr (by simpa using hr)]
    omega
  unfold newest128
  rw [List.drop_append_of_le_length (by simp only [List.length_append, List.length_cons]; omega)]
  simp

/-- A history that empties all cells, followed by the entries of the nodes. -/
theorem tablesHold {k l rp : Nat} (hrp : rp < 63) {r r' : Rng} {s0 s : LSH} (hnew : Lsh.new k l rp r = .ok (s0, r')) {ops : List Op}
    (hc : ∀ t i, cellHistory ops t i = []) {n : Nat} {I : Nat → List Int}
    (hrun : Lsh.run s0 (ops ++ (List.range n).map (fun j => Lsh.Op.add (I j) j)) = .ok s) : TablesHold s l rp n I := by
  have hist : ∀ t i, cellHistory (ops ++ (List.range n).map (fun j => Lsh.Op.add (I j) j)) t i = sameCell n I t i := by
    intro t i
    have h1 := hc t i
    rw [← cellHistory_adds]
    unfold cellHistory at h1 ⊢
    rw [List.foldl_append, h1]
  have hcontent : ∀ indices : List Int, (∀ t : Nat, t < l → ∃ v : Int, indices[t]? = some v ∧ 0 ≤ v ∧ v < ((2 ^ rp : Nat) : Int)) →
      ∃ raw, retrieveRaw s indices = .ok raw ∧ raw.length = l ∧ ∀ (t : Nat) (i : Int), t < l → indices[t]? = some i →
        ∃ xs, raw[t]? = some xs ∧ xs.Perm (newest128 (sameCell n I t i)) := by
    intro indices hv
    obtain ⟨raw, e1, e2, e3⟩ := C06_retrieveRaw_refines k l rp hrp r r' s0 s _ hnew hrun indices hv
    refine ⟨raw, e1, e2, fun t i ht hi => ?_⟩
    obtain ⟨v, hv1, hv2, _⟩ := hv t ht
    rw [hi] at hv1; cases hv1
    obtain ⟨m, rfl⟩ := Int.eq_ofNat_of_zero_le hv2
    obtain ⟨xs, h1, -, h3⟩ := e3 t m ht hi
    rw [hist] at h3
    exact ⟨xs, h1, h3⟩
  have hvalid : ∀ j, j < n → ∀ t : Nat, t < l → ∃ v : Int, (I j)[t]? = some v ∧ 0 ≤ v ∧ v < ((2 ^ rp : Nat) : Int) := by
    intro j hj
    apply Classical.byContradiction
    intro hno
    have e : (List.range n).map (fun j => Lsh.Op.add (I j) j) = (List.range j).map (fun j => Lsh.Op.add (I j) j) ++
        (Lsh.Op.add (I j) j :: ((List.range n).drop (j + 1)).map (fun j => Lsh.Op.add (I j) j)) := by
      conv => lhs; rw [← List.take_append_drop j (List.range n), List.drop_eq_getElem_cons (by simpa using hj)]
      rw [List.map_append, List.map_cons, List.take_range, Nat.min_eq_left (by omega)]
      simp
    rw [e, ← List.append_assoc, run_append] at hrun
    cases h1 : Lsh.run s0 (ops ++ (List.range j).map (fun j => Lsh.Op.add (I j) j)) with
    | error e => rw [h1] at hrun; cases hrun
    | ok s1 =>
      rw [h1, ok_bind, run_cons] at hrun
      have := ((C07_add_retrieve_ok_iff k l rp hrp r r' s0 s1 _ hnew h1 (I j) j).2 hno).1
      unfold step at hrun
      simp only [this] at hrun
      cases hrun
  refine ⟨hcontent, fun j hj => ?_⟩
  obtain ⟨raw, e1, e2, e3⟩ := hcontent (I j) (hvalid j hj)
  refine ⟨raw, e1, e2, fun t ht => ?_⟩
  obtain ⟨v, hv, _⟩ := hvalid j hj t ht
  obtain ⟨xs, h1, h2⟩ := e3 t v ht hv
  refine ⟨xs, v, h1, hv, ?_⟩
  by_cases hfew : ((sameCell n I t v).filter (fun id => (j : Int) < id)).length < 128
  · exact .inl (h2.mem_iff.mpr (newest_sameCell n I t v j hj hv hfew))
  · exact .inr (by omega)

end Goslide.Props
