import Verif.Proofs.NetworkRep
/-
The query of a single layer in memory.
-/
set_option linter.unusedSectionVars false
namespace Goslide.Layer
open Goslide Node Lsh Configuration Spec.Node Spec.Network Network
variable {F : Type} [GoFloat F]

/-- A query that succeeds on a layer in memory. -/
theorem query_stored {cfg : Config F} {fuel : Nat} {w w' : World F} {g : State F} {c : Int} {cur : List (Pair F)} {i : Nat}
    {label : List Int} {sp : F} {found : Int} {pairs : List (Pair F)} {l : Ptr} (S : Stored w g) (G : GroupZ w.heap g.nodes)
    (hq : query cfg fuel g.ptr c cur i label sp w = .ok ((found, pairs, l), w')) :
    ∃ ids g', g'.ptr = l ∧ pairs = outputs g.softmax g.views cur ids ∧ Forwarded c i cur ids g g' ∧ Stored w' g' ∧ GroupZ w'.heap g'.nodes := by
  obtain ⟨x, ids', w3, hx, rfl, hsel, hact⟩ := query_ok hq
  rw [S.obj] at hx
  cases hx
  have hcl := cloned_layer S.obj c
  obtain ⟨ls, e0⟩ := cloned_eq w g.ptr g.obj c
  rw [e0] at hsel hcl
  obtain ⟨r, r', e3⟩ := select_world hsel
  subst e3
  have hG : GroupZ w.heap (g.nodes ++ []) := by rw [List.append_nil]; exact G
  obtain ⟨c1, c2⟩ := activations_cond (x := { g.obj with cowId := c }) (w := { w with layers := w.layers ++ ls, rng := r, mapRng := r' })
    (R := []) (z := g.nodes) (N := g.norm) hG S.nodes S.norm hact
  obtain ⟨h', cs', z', ea, lo, ez, co⟩ := activations_run (w := { w with layers := w.layers ++ ls, rng := r, mapRng := r' })
    c (x := { g.obj with cowId := c }) cur (ids := ids'.getD []) (i := i) (R := []) (z := g.nodes) (N := g.norm) hG S.nodes c1 S.norm c2
  have e := Except.ok.inj (hact.symm.trans ea)
  have e1 := congrArg Prod.fst e
  have e2 := congrArg Prod.snd e
  dsimp only at e1 e2
  subst e1 e2
  refine ⟨ids'.getD [], g.next (cloned w g.ptr g.obj c).1 c z' i cur (ids'.getD []), rfl, rfl, ?_, ?_, ?_⟩
  · exact ⟨c1, rfl, by simpa [State.views, State.softmax, State.next] using ez, rfl, rfl, fun h => c2 (by simpa [State.softmax] using h), rfl⟩
  · refine ⟨hcl, lo.ptrs, S.order, ?_, S.tables⟩
    simpa [State.views, State.softmax, State.next] using co.read
  · have := lo.group
    rw [List.append_nil] at this
    exact this

/-- The maximum is one of the values and not below any of them. -/
theorem foldl_max [FloatOrder F] (f : Int → F) : ∀ (ids : List Int) (m : F),
    (ids.foldl (fun m id => if GoFloat.lt m (f id) then f id else m) m = m ∨
      ∃ id ∈ ids, ids.foldl (fun m id => if GoFloat.lt m (f id) then f id else m) m = f id) ∧
    (∀ x, GoFloat.lt m x = false → GoFloat.lt (ids.foldl (fun m id => if GoFloat.lt m (f id) then f id else m) m) x = false) ∧
    ∀ id ∈ ids, GoFloat.lt (ids.foldl (fun m id => if GoFloat.lt m (f id) then f id else m) m) (f id) = false
  | [], m => ⟨.inl rfl, fun _ h => h, fun _ h => nomatch h⟩
  | id :: ids, m => by
    rw [List.foldl_cons]
    obtain ⟨h1, h2, h3⟩ := foldl_max f ids (if GoFloat.lt m (f id) then f id else m)
    generalize ids.foldl (fun m id => if GoFloat.lt m (f id) then f id else m) (if GoFloat.lt m (f id) then f id else m) = r at h1 h2 h3
    refine ⟨?_, ?_, ?_⟩
    · rcases h1 with h1 | ⟨id', h, e⟩
      · split at h1
        · exact .inr ⟨id, by simp, h1⟩
        · exact .inl h1
      · exact .inr ⟨id', by simp [h], e⟩
    · intro x hx
      apply h2
      split
      · rename_i hlt
        cases hc : GoFloat.lt (f id) x with
        | false => rfl
        | true => rw [FloatOrder.lt_trans _ _ _ hlt hc] at hx; cases hx
      · exact hx
    · intro y hy
      rcases List.mem_cons.mp hy with rfl | hy
      · apply h2
        split
        · exact FloatOrder.lt_irrefl _
        · rename_i hlt; exact Bool.eq_false_iff.mpr hlt
      · exact h3 y hy

end Goslide.Layer
