import Verif.Proofs.LayerSoftmax
import Verif.Proofs.LayerFresh
import Verif.Props.Layer
import Verif.Go.Real
/-
The outputs of a softmax layer: C59.
-/
set_option linter.unusedSectionVars false
set_option maxRecDepth 10000
namespace Goslide.Props
open Goslide Goslide.Layer Goslide.Node Lsh Configuration Spec.Node Spec.Network
variable {F : Type} [GoFloat F]

/-- C59. After a query of a softmax layer in any mode, with any cowId: there is a number `m`, the largest of 0 and the
activations of the active nodes, such that the value of each active node is `exp (activation - m)`; it is the last
activation of that node; and the normalization constant is the sum of these values. -/
theorem C59_softmax [FloatOrder F] {cfg : Config F} {fuel : Nat} {w w' : World F} {g : State F} {c : Int} {cur : List (Pair F)} {i : Nat}
    {label : List Int} {sp : F} {found : Int} {pairs : List (Pair F)} {l : Ptr} (S : Stored w g) (G : GroupZ w.heap g.nodes)
    (hsm : g.obj.nodeType = Softmax) (hq : query cfg fuel g.ptr c cur i label sp w = .ok ((found, pairs, l), w')) :
    ∃ m, (m = GoFloat.zero ∨ ∃ pair ∈ pairs, ∃ v, g.views[pair.Index.toNat]? = some v ∧ m = activation v.params cur) ∧
      GoFloat.lt m GoFloat.zero = false ∧
      (∀ pair ∈ pairs, 0 ≤ pair.Index ∧ ∃ v, g.views[pair.Index.toNat]? = some v ∧ GoFloat.lt m (activation v.params cur) = false ∧
        pair.Value = GoFloat.exp (GoFloat.sub (activation v.params cur) m) ∧
        ∃ q, getNodeById l pair.Index w' = .ok (q, w') ∧ getLastActivation q i w'.heap = .ok (pair.Value, w'.heap)) ∧
      getNomalizationConstant l i w' = .ok ((pairs.map Pair.Value).foldl GoFloat.add GoFloat.zero, w') := by
  obtain ⟨ids, g', rfl, rfl, f, S', G'⟩ := query_stored S G hq
  have hs : g.softmax = true := by simp [State.softmax, hsm]
  have hval : ∀ id ∈ ids, 0 ≤ id ∧ ∃ v, g.views[id.toNat]? = some v ∧ valueOf g.views cur id = activation v.params cur ∧
      (i : Int) < v.params.batch := by
    intro id hid
    obtain ⟨h0, v, hv, hb, -, -⟩ := f.can id hid
    exact ⟨h0, v, hv, by unfold valueOf; rw [hv], hb⟩
  have hm := foldl_max (valueOf g.views cur) ids GoFloat.zero
  change (maxValue g.views cur ids = _ ∨ ∃ id ∈ ids, maxValue g.views cur ids = _) ∧ (∀ x, _ → GoFloat.lt (maxValue g.views cur ids) x = false) ∧
    ∀ id ∈ ids, GoFloat.lt (maxValue g.views cur ids) _ = false at hm
  obtain ⟨h1, h2, h3⟩ := hm
  refine ⟨maxValue g.views cur ids, ?_, h2 _ (FloatOrder.lt_irrefl _), ?_, ?_⟩
  · rcases h1 with h1 | ⟨id, hid, h1⟩
    · exact .inl h1
    · obtain ⟨_, v, hv, e, -⟩ := hval id hid
      exact .inr ⟨_, List.mem_map.mpr ⟨id, hid, rfl⟩, v, hv, h1.trans e⟩
  · intro pair hp
    obtain ⟨id, hid, rfl⟩ := List.mem_map.mp hp
    obtain ⟨h0, v, hv, e, hb⟩ := hval id hid
    have e1 : outputOf g.softmax g.views cur ids id = GoFloat.exp (GoFloat.sub (activation v.params cur) (maxValue g.views cur ids)) := by
      unfold outputOf; rw [hs, if_pos rfl, e]
    have hv' : g'.views[id.toNat]? = some (fired true i cur (maxValue g.views cur ids) v) := by
      rw [f.views, hs, forwardViews, mark_get, hv, Option.map_some, Int.toNat_of_nonneg h0, if_pos hid]
    obtain ⟨x, hx, ex⟩ : ∃ x, g'.nodes[id.toNat]? = some x ∧ x.2 = fired true i cur (maxValue g.views cur ids) v := by
      unfold State.views at hv'
      rw [List.getElem?_map, Option.map_eq_some_iff] at hv'
      exact hv'
    have H : Handle w'.heap x.1 x.2 := G'.handle (List.mem_of_getElem? hx)
    refine ⟨h0, v, hv, e ▸ h3 id hid, e1, x.1, ?_, ?_⟩
    · unfold getNodeById
      rw [M.bind_ok (layer_run S'.obj)]
      exact onHeap_run (nodePtr_run S'.nodes h0 (by rw [List.getElem?_map, hx]; rfl))
    · have hlen : i < v.train.length := by
        obtain ⟨y, hy, ey⟩ : ∃ y, g.nodes[id.toNat]? = some y ∧ y.2 = v := by
          unfold State.views at hv
          rw [List.getElem?_map, Option.map_eq_some_iff] at hv
          exact hv
        obtain ⟨_, _, _, hP⟩ := (G.handle (List.mem_of_getElem? hy)).parts
        have := hP.batch
        rw [ey] at this
        omega
      obtain ⟨s, hs1⟩ : ∃ s, v.train[i]? = some s := ⟨_, List.getElem?_eq_getElem hlen⟩
      have hs2 : x.2.train[i]? = some ⟨true, GoFloat.exp (GoFloat.sub (activation v.params cur) (maxValue g.views cur ids)),
          if Clamped v.params cur then GoFloat.zero else s.delta⟩ := by
        rw [ex]
        unfold fired View.setSlot
        simp only [List.getElem?_modify, hs1]
        simp
      rw [getLastActivation_run H hs2]
      simp only [e1, if_true]
  · unfold getNomalizationConstant
    rw [M.bind_ok (layer_run S'.obj)]
    have ht : g'.obj.nodeType = Softmax := by rw [f.obj]; exact hsm
    rw [if_neg (by simp [ht])]
    apply constAt_run S'.norm
    rw [f.norm, if_pos hs, List.getElem?_set_self (f.fits hs)]
    rfl

/-- C59. In exact arithmetic (the real numbers): the values are in (0, 1], and the normalised values, i.e. the values
divided by the normalization constant plus 0.0000001 (node/node.go:313), sum to less than 1. -/
theorem C59_exact {cfg : Config ℝ} {fuel : Nat} {w w' : World ℝ} {g : State ℝ} {c : Int} {cur : List (Pair ℝ)} {i : Nat}
    {label : List Int} {sp : ℝ} {found : Int} {pairs : List (Pair ℝ)} {l : Ptr} (S : Stored w g) (G : GroupZ w.heap g.nodes)
    (hsm : g.obj.nodeType = Softmax) (hq : query cfg fuel g.ptr c cur i label sp w = .ok ((found, pairs, l), w')) :
    (∀ pair ∈ pairs, 0 < pair.Value ∧ pair.Value ≤ 1) ∧
    ∃ norm, getNomalizationConstant l i w' = .ok (norm, w') ∧
      (pairs.map (fun pair => pair.Value / (norm + 0.0000001))).sum < 1 := by
  obtain ⟨m, -, -, h3, h4⟩ := C59_softmax S G hsm hq
  have hv : ∀ pair ∈ pairs, 0 < pair.Value ∧ pair.Value ≤ 1 := by
    intro pair hp
    obtain ⟨-, v, -, h5, h6, -⟩ := h3 pair hp
    rw [h6]
    refine ⟨Real.exp_pos _, ?_⟩
    simp only [GoFloat.lt, decide_eq_false_iff_not, not_lt] at h5
    exact Real.exp_le_one_iff.mpr (sub_nonpos.mpr h5)
  refine ⟨hv, _, h4, ?_⟩
  have hsum : ∀ (l : List ℝ) (a : ℝ), l.foldl GoFloat.add a = a + l.sum := by
    intro l
    induction l with
    | nil => intro a; simp
    | cons x l ih => intro a; rw [List.foldl_cons, ih, List.sum_cons, ← add_assoc]; rfl
  have hz : (GoFloat.zero : ℝ) = 0 := by simp [GoFloat.zero, GoFloat.const]
  rw [hsum, hz, zero_add]
  have hnn : 0 ≤ (pairs.map Pair.Value).sum := List.sum_nonneg (by
    intro x hx
    obtain ⟨p, hp, rfl⟩ := List.mem_map.mp hx
    exact (hv p hp).1.le)
  have hdiv : ∀ (d : ℝ) (l : List (Pair ℝ)), (l.map (fun pair => pair.Value / d)).sum = (l.map Pair.Value).sum / d := by
    intro d l
    induction l with
    | nil => simp
    | cons x l ih => simp [ih, add_div]
  rw [hdiv, div_lt_one (by linarith)]
  linarith

/-- The hypotheses hold for every new layer. -/
theorem new_stored {cfg : Config F} (hl : cfg.LoadWeight = false) {c n prev : Int} {ty : NodeType} {b k l rp : Int}
    {s1 s2 s3 s4 : Slice} {p : Ptr} {w w' : World F} (hr : Layer.new cfg c n prev ty b k l rp s1 s2 s3 s4 w = .ok (p, w')) :
    ∃ g, g.ptr = p ∧ Stored w' g ∧ GroupZ w'.heap g.nodes ∧ g.obj.nodeType = ty := by
  obtain ⟨P, g, rfl, B⟩ := new_run hl hr
  have G := B.group [] ⟨rfl, by simp, by simp, by simp⟩
  rw [List.append_nil] at G
  exact ⟨g, rfl, B.stored, G, B.oTy⟩

/-- A concrete case: the example layer is a softmax layer with these hypotheses, and its query succeeds. -/
example : ∃ g, Stored (LayerEx.world 4 3) g ∧ GroupZ (LayerEx.world 4 3).heap g.nodes ∧ g.obj.nodeType = Softmax ∧
    (query (LayerEx.cfg 4) 0 g.ptr 0 [⟨0, 1⟩, ⟨1, -2⟩] ((0 : Nat) : Int) [1] 1 (LayerEx.world 4 3)).isOk = true := by
  obtain ⟨g, h1, h2, h3, h4⟩ := new_stored (cfg := LayerEx.cfg 4) rfl (LayerEx.built 4 3 (by decide +kernel))
  exact ⟨g, h2, h3, h4, by rw [h1]; decide +kernel⟩

end Goslide.Props
