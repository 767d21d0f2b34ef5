import Verif.Proofs.NetworkStatic
import Verif.Proofs.NetworkNew
import Verif.Proofs.NetworkPredict
/-
Networks that can be trained: `New` builds them, training and prediction keep them.
-/
set_option linter.unusedSectionVars false
namespace Goslide.Network
open Goslide Node Lsh Configuration Spec.Node Spec.Network Layer Xcrepo
variable {F : Type} [GoFloat F]

theorem Shaped.fit {adam : Bool} {b dim : Nat} {Q : List (State F)} (h : Shaped adam b dim Q) : AllFit adam Q := by
  intro g hg v hv ha
  obtain ⟨j, hj⟩ := List.mem_iff_getElem?.mp hg
  have s := h.nodes j g hj v hv
  obtain ⟨h1, h2, h3⟩ := s.adam ha
  rw [h1, h2, h3, s.weights]
  exact ⟨rfl, rfl, rfl⟩

theorem NodeShape.of_dims {adam : Bool} {b n : Nat} {v v' : View F} (h : v'.dims = v.dims) (s : NodeShape adam b n v) : NodeShape adam b n v' := by
  have e0 := congrArg Dims.nodeType h
  have e1 := congrArg Dims.weights h
  have e2 := congrArg Dims.mom h
  have e3 := congrArg Dims.vel h
  have e4 := congrArg Dims.t h
  have e5 := congrArg Dims.batch h
  have e6 := congrArg Dims.train h
  simp only [View.dims] at e0 e1 e2 e3 e4 e5 e6
  obtain ⟨s1, s2, s3, s4, s5⟩ := s
  exact ⟨by rw [e0]; exact s1, by rw [e5]; exact s2, by rw [e6]; exact s3, by rw [e1]; exact s4, by rw [e2, e3, e4]; exact s5⟩

theorem inputSize_of_dims {dim : Nat} {Q Q' : List (State F)}
    (h : (Q'.map State.views).map (List.map View.dims) = (Q.map State.views).map (List.map View.dims)) : ∀ j, inputSize dim Q' j = inputSize dim Q j
  | 0 => rfl
  | j + 1 => by
    have e := congrArg (fun (l : List (List Dims)) => l[j]?) h
    simp only [List.getElem?_map] at e
    show (match Q'[j]? with | none => 0 | some g => g.nodes.length) = (match Q[j]? with | none => 0 | some g => g.nodes.length)
    cases h1 : Q[j]? with
    | none =>
      rw [h1] at e
      cases h2 : Q'[j]? with
      | none => rfl
      | some g => rw [h2] at e; cases e
    | some g =>
      rw [h1] at e
      cases h2 : Q'[j]? with
      | none => rw [h2] at e; cases e
      | some g' =>
        rw [h2] at e
        have e := congrArg List.length (Option.some.inj e)
        simp only [List.length_map, State.views] at e
        exact e

/-- The shape is determined by the shapes of the nodes, the types of the layers and the numbers of normalization constants. -/
theorem Shaped.of_dims {adam : Bool} {b dim : Nat} {Q Q' : List (State F)} (s : Shaped adam b dim Q)
    (h : (Q'.map State.views).map (List.map View.dims) = (Q.map State.views).map (List.map View.dims))
    (hg : ∀ (j : Nat) (g g' : State F), Q[j]? = some g → Q'[j]? = some g' → g'.softmax = g.softmax ∧ g'.norm.length = g.norm.length) :
    Shaped adam b dim Q' := by
  have hl : Q'.length = Q.length := by simpa using congrArg List.length h
  have back : ∀ (j : Nat) (g' : State F), Q'[j]? = some g' → ∃ g, Q[j]? = some g := by
    intro j g' hg'
    have := (List.getElem?_eq_some_iff.mp hg').1
    exact ⟨_, List.getElem?_eq_getElem (show j < Q.length by omega)⟩
  refine ⟨?_, ?_, ?_⟩
  · intro j g' hg' v' hv'
    obtain ⟨g, hgj⟩ := back j g' hg'
    rw [inputSize_of_dims h]
    have e := congrArg (fun (l : List (List Dims)) => l[j]?) h
    simp only [List.getElem?_map, hgj, hg', Option.map_some] at e
    have e := Option.some.inj e
    obtain ⟨k, hk⟩ := List.mem_iff_getElem?.mp hv'
    have e2 := congrArg (fun (l : List Dims) => l[k]?) e
    simp only [List.getElem?_map, hk, Option.map_some] at e2
    cases hv : g.views[k]? with
    | none => rw [hv] at e2; cases e2
    | some v =>
      rw [hv] at e2
      exact (s.nodes j g hgj v (List.mem_of_getElem? hv)).of_dims (Option.some.inj e2)
  · intro g' hm hs
    obtain ⟨j, hj⟩ := List.mem_iff_getElem?.mp hm
    obtain ⟨g, hgj⟩ := back j g' hj
    obtain ⟨e1, e2⟩ := hg j g g' hgj hj
    rw [e2]
    exact s.norm g (List.mem_of_getElem? hgj) (by rw [← e1]; exact hs)
  · intro g' hg'
    rw [hl] at hg'
    obtain ⟨g, hgj⟩ := back _ g' hg'
    rw [(hg _ g g' hgj hg').1]
    exact s.last g hgj

theorem Trained.softmax {cfg : Config F} {s r b : Bool} {g g' : State F} (t : Trained cfg s r b g g') : g'.softmax = g.softmax := by
  unfold State.softmax
  rw [t.obj]

/-- A training step by the owner keeps the network trainable. -/
theorem Trainable.step_full {cfg : Config F} {fuel b dim : Nat} {c : Int} {w w' : World F} {p : Ptr} {n : Network F} {Q : List (State F)}
    {es : List (Example F)} {iter : Int} {rehash rebuild : Bool} {r : F × Ptr} (t : Trainable cfg b dim c w p n Q)
    (hr : processInput cfg fuel p c es iter rehash rebuild w = .ok (r, w')) :
    r = (GoFloat.zero, p) ∧ ∃ T Q', T.length = es.length ∧ (∀ (k : Nat) (S : List (List Int)), T[k]? = some S → TrainedOn n.sparsity Q k S ∧
      ∀ ex, es[k]? = some ex → Picked cfg n.sparsity Q ex S) ∧ Trainable cfg b dim c w' p n Q' ∧
      Q'.map State.views = (batchV cfg.UseAdam (stepSize cfg n.learningRate iter) (Q.map State.softmax) 0 es T (Q.map State.views)).map
        (List.map (finishView cfg.UseAdam (stepSize cfg n.learningRate iter))) ∧
      Q'.length = Q.length ∧ ∀ (j : Nat) (g : State F), Q[j]? = some g → ∃ g' sp, Q'[j]? = some g' ∧ n.sparsity[j]? = some sp ∧
        Trained cfg (decide (iter.tmod 6946 = 6945)) (rehash && GoFloat.lt sp GoFloat.one) (rebuild && GoFloat.lt sp GoFloat.one) g g' := by
  obtain ⟨e, T, Q', lT, aT, N, o, hv, hd, hl, hj⟩ := processInput_spec_full t.net t.owned t.cow t.shaped.last t.shaped.fit hr
  refine ⟨e, T, Q', lT, aT, ⟨N, o, t.cow, t.shaped.of_dims hd ?_⟩, hv, hl, hj⟩
  intro j g g' hg hg'
  obtain ⟨g2, sp, h1, -, tr⟩ := hj j g hg
  rw [hg'] at h1
  cases h1
  exact ⟨tr.softmax, tr.norm⟩

theorem Trainable.step {cfg : Config F} {fuel b dim : Nat} {c : Int} {w w' : World F} {p : Ptr} {n : Network F} {Q : List (State F)}
    {es : List (Example F)} {iter : Int} {rehash rebuild : Bool} {r : F × Ptr} (t : Trainable cfg b dim c w p n Q)
    (hr : processInput cfg fuel p c es iter rehash rebuild w = .ok (r, w')) :
    r = (GoFloat.zero, p) ∧ ∃ T Q', T.length = es.length ∧ (∀ (k : Nat) (S : List (List Int)), T[k]? = some S → TrainedOn n.sparsity Q k S) ∧ Trainable cfg b dim c w' p n Q' ∧
      Q'.map State.views = (batchV cfg.UseAdam (stepSize cfg n.learningRate iter) (Q.map State.softmax) 0 es T (Q.map State.views)).map
        (List.map (finishView cfg.UseAdam (stepSize cfg n.learningRate iter))) ∧
      Q'.length = Q.length ∧ ∀ (j : Nat) (g : State F), Q[j]? = some g → ∃ g' sp, Q'[j]? = some g' ∧ n.sparsity[j]? = some sp ∧
        Trained cfg (decide (iter.tmod 6946 = 6945)) (rehash && GoFloat.lt sp GoFloat.one) (rebuild && GoFloat.lt sp GoFloat.one) g g' := by
  obtain ⟨e, T, Q', l, a, r⟩ := t.step_full hr
  exact ⟨e, T, Q', l, fun k S h => (a k S h).1, r⟩

theorem dims_of_params {v v' : View F} (h : v'.params = v.params) (ht : v'.train.length = v.train.length) : v'.dims = v.dims := by
  unfold View.dims
  rw [h, ht]

theorem sameAll_dims {c : Int} {Q Q' : List (State F)} (h : SameAll c Q Q') :
    (Q'.map State.views).map (List.map View.dims) = (Q.map State.views).map (List.map View.dims) := by
  apply List.ext_getElem?
  intro j
  simp only [List.getElem?_map]
  by_cases hj : j < Q.length
  · have hj' : j < Q'.length := by rw [h.1]; exact hj
    have h1 := List.getElem?_eq_getElem hj
    have h2 := List.getElem?_eq_getElem hj'
    have s := h.2 j _ _ h1 h2
    rw [h1, h2]
    simp only [Option.map_some, Option.some.injEq]
    apply List.ext_getElem?
    intro k
    have e1 := congrArg (fun (l : List (Params F)) => l[k]?) s.params
    have e2 := congrArg (fun (l : List Nat) => l[k]?) s.trains
    simp only [List.getElem?_map] at e1 e2 ⊢
    cases h3 : Q[j].views[k]? with
    | none =>
      rw [h3] at e1
      cases h4 : Q'[j].views[k]? with
      | none => rfl
      | some v => rw [h4] at e1; cases e1
    | some v =>
      rw [h3] at e1 e2
      cases h4 : Q'[j].views[k]? with
      | none => rw [h4] at e1; cases e1
      | some v' =>
        rw [h4] at e1 e2
        simp only [Option.map_some, Option.some.injEq] at e1 e2 ⊢
        exact dims_of_params e1 e2
  · rw [List.getElem?_eq_none (l := Q') (by rw [h.1]; omega), List.getElem?_eq_none (l := Q) (by omega)]

/-- Prediction by the owner keeps the network trainable. -/
theorem Trainable.predict [FloatOrder F] {cfg : Config F} {fuel b dim : Nat} {c : Int} {w w' : World F} {p p' : Ptr} {n : Network F} {Q : List (State F)}
    {es : List (Example F)} {res : Int} (t : Trainable cfg b dim c w p n Q)
    (hr : predictClass cfg fuel p c es w = .ok ((res, p'), w')) :
    p' = p ∧ ∃ Q', Trainable cfg b dim c w' p n Q' ∧ SameAll c Q Q' := by
  obtain ⟨_, Q', -, -, hs, hn, -, -, -, -, h4, -⟩ := predictClass_ok t.net hr
  obtain ⟨e, a⟩ := h4 t.cow
  obtain ⟨o, -⟩ := a.owned t.owned
  refine ⟨e, Q', ⟨hn, o, t.cow, t.shaped.of_dims (sameAll_dims hs) ?_⟩, hs⟩
  intro j g g' hg hg'
  have s := hs.2 j g g' hg hg'
  refine ⟨?_, s.norm⟩
  unfold State.softmax
  rcases s.obj with e | e
  · rw [e]
  · rw [e]

/-- `New` builds trainable networks. -/
theorem new_trainable {cfg : Config F} (hl : cfg.LoadWeight = false) {c nl b dim : Int} {sizes types ks ls rps : List Int} {lr : F}
    {sp : List F} {p : Ptr} {w w' : World F} (hr : new cfg c nl sizes types b lr dim ks ls rps sp w = .ok (p, w'))
    (hty : ∀ (j : Nat) (ty : Int), (j : Int) < nl → types[j]? = some ty → ty = ReLU ∨ ty = Softmax)
    (hlast : types[(nl - 1).toNat]? = some Softmax) :
    ∃ n Q, Trainable cfg b.toNat dim.toNat c w' p n Q ∧ n.learningRate = lr ∧ n.numberOfLayers = nl ∧ n.sparsity = sp ∧
      ∀ (k : Nat) (g : State F), Q[k]? = some g → ∃ prev', BuiltAt cfg c sizes types b ks ls rps k prev' g ∧
        (k = 0 → prev' = dim) ∧ (∀ k', k = k' + 1 → sizes[k']? = some prev') ∧ k < sp.length := by
  obtain ⟨n, Q, N, o, e1, e2, e3, e4, hb⟩ := new_net hl hr
  refine ⟨n, Q, ⟨N, o, e1, ?_, ?_, ?_⟩, e2, e3, e4, hb⟩
  · intro j g hg v hv
    obtain ⟨prev', ⟨size, ty, k, l, rp, P, w1, w2, q1, q2, q3, q4, q5, B⟩, h0, h1, hsp⟩ := hb j g hg
    unfold State.views at hv
    rw [B.nodes] at hv
    obtain ⟨z, hz, rfl⟩ := List.mem_map.mp hv
    obtain ⟨m, hm, rfl⟩ := mem_nodes hz
    have hlen : ((P.ws.drop (P.p * m)).take P.p).length = P.p := by
      have : P.p * m + P.p ≤ P.n * P.p := mul_fit hm
      rw [List.length_take, List.length_drop, B.ws]
      omega
    have hin : inputSize dim.toNat Q j = P.p := by
      cases j with
      | zero => unfold inputSize; rw [← h0 rfl, ← B.pP]; simp
      | succ j =>
        show (match Q[j]? with | none => 0 | some g => g.nodes.length) = P.p
        have hlt : j < Q.length := by have := (List.getElem?_eq_some_iff.mp hg).1; omega
        rw [List.getElem?_eq_getElem hlt]
        obtain ⟨_, ⟨size', ty', _, _, _, P', _, _, q1', _, _, _, _, B'⟩, _⟩ := hb j _ (List.getElem?_eq_getElem hlt)
        have := h1 j rfl
        rw [q1'] at this
        have e := Option.some.inj this
        dsimp only
        rw [B'.nodes]
        unfold Plan.nodes
        rw [List.length_map, List.length_range]
        have a := B.pP
        have b := B'.pN
        omega
    have hnl : (j : Int) < nl := by
      have := (List.getElem?_eq_some_iff.mp hg).1
      rw [← e3, N.count]; omega
    refine ⟨?_, ?_, ?_, ?_, ?_⟩
    · have := hty j ty hnl q2
      rw [← B.pTy] at this
      exact this
    · show ((P.b : Nat) : Int) = _
      rw [B.pBatch]
    · show (List.replicate P.b idle).length = _
      rw [List.length_replicate, B.pBatch]
    · rw [hin]; exact hlen
    · intro ha
      have : P.adam = true := B.pAdam.trans ha
      rw [hin]
      simp [Plan.view, Plan.params, this, Plan.zeros]
  · intro g hg hs
    obtain ⟨j, hj⟩ := List.mem_iff_getElem?.mp hg
    obtain ⟨prev', ⟨size, ty, k, l, rp, P, w1, w2, q1, q2, q3, q4, q5, B⟩, -⟩ := hb j g hj
    have : ty = Softmax := by
      unfold State.softmax at hs
      rw [B.oTy] at hs
      simpa using hs
    rw [B.norm]
    unfold newNorm
    rw [if_pos this, List.length_replicate, B.pBatch]
  · intro g hg
    obtain ⟨prev', ⟨size, ty, k, l, rp, P, w1, w2, q1, q2, q3, q4, q5, B⟩, -⟩ := hb _ g hg
    have hlt := (List.getElem?_eq_some_iff.mp hg).1
    have : (nl - 1).toNat = Q.length - 1 := by rw [← e3, N.count]; omega
    rw [this, q2] at hlast
    unfold State.softmax
    rw [B.oTy, Option.some.inj hlast]
    simp

end Goslide.Network
