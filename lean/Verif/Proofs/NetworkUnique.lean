import Verif.Spec.Network
/-
The layers of a network are determined by the memory.
-/
set_option linter.unusedSectionVars false
namespace Goslide.Network
open Goslide Node Spec.Node Spec.Network Layer
variable {F : Type} [GoFloat F]

theorem netAt_unique {w : World F} {p : Ptr} {n n' : Network F} {Q Q' : List (State F)} (h : NetAt w p n Q) (h' : NetAt w p n' Q') : n = n' ∧ Q = Q' := by
  have en : n = n' := by
    have := h.obj
    rw [h'.obj] at this
    exact (Option.some.inj this).symm
  subst en
  refine ⟨rfl, ?_⟩
  have ep : Q.map State.ptr = Q'.map State.ptr := by
    have := h.layers.ptrs
    rw [h'.layers.ptrs] at this
    exact (Option.some.inj this).symm
  have hz : ∀ {R : List (State F)}, Layers w n.hiddenLayers R → ∀ g ∈ R, ∀ z ∈ g.nodes, view w.heap z.1 = some z.2 := by
    intro R hR g hg z hz
    have hm : z ∈ R.flatMap State.nodes := List.mem_flatMap.mpr ⟨g, hg, hz⟩
    obtain ⟨k, hk⟩ := List.mem_iff_getElem?.mp hm
    exact (Group.handle hR.group k z.1 z.2 (by rw [List.getElem?_map, hk]; rfl) (by rw [List.getElem?_map, hk]; rfl)).view
  apply List.ext_getElem?
  intro j
  have e := congrArg (fun l => l[j]?) ep
  simp only [List.getElem?_map] at e
  cases hg : Q[j]? with
  | none =>
    rw [hg] at e
    cases hg' : Q'[j]? with
    | none => rfl
    | some g' => rw [hg'] at e; cases e
  | some g =>
    rw [hg] at e
    cases hg' : Q'[j]? with
    | none => rw [hg'] at e; cases e
    | some g' =>
      rw [hg'] at e
      have e1 : g.ptr = g'.ptr := Option.some.inj e
      have m := List.mem_of_getElem? hg
      have m' := List.mem_of_getElem? hg'
      have s := h.layers.stored g m
      have s' := h'.layers.stored g' m'
      have e2 : g.obj = g'.obj := by
        have := s.obj
        rw [e1, s'.obj] at this
        exact (Option.some.inj this).symm
      have e3 : g.nodes.map Prod.fst = g'.nodes.map Prod.fst := by
        have := s.nodes
        rw [e2, s'.nodes] at this
        exact (Option.some.inj this).symm
      have e4 : g.order = g'.order := by
        have := s.order.1
        rw [e2, s'.order.1] at this
        exact (Option.some.inj this).symm
      have e5 : g.norm = g'.norm := by
        have := s.norm
        rw [e2, s'.norm] at this
        exact (Option.some.inj this).symm
      have e6 : g.tables = g'.tables := by
        have := s.tables
        rw [e2, s'.tables] at this
        exact (Option.some.inj this).symm
      have e7 : g.nodes = g'.nodes := by
        apply List.ext_getElem?
        intro i
        have e := congrArg (fun l => l[i]?) e3
        simp only [List.getElem?_map] at e
        cases hi : g.nodes[i]? with
        | none =>
          rw [hi] at e
          cases hi' : g'.nodes[i]? with
          | none => rfl
          | some z' => rw [hi'] at e; cases e
        | some z =>
          rw [hi] at e
          cases hi' : g'.nodes[i]? with
          | none => rw [hi'] at e; cases e
          | some z' =>
            rw [hi'] at e
            have f1 : z.1 = z'.1 := Option.some.inj e
            have f2 := hz h.layers g m z (List.mem_of_getElem? hi)
            rw [f1, hz h'.layers g' m' z' (List.mem_of_getElem? hi')] at f2
            exact congrArg some (Prod.ext f1 (Option.some.inj f2).symm)
      cases g
      cases g'
      simp_all

end Goslide.Network
