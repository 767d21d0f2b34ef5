import Verif.Proofs.NetworkShape
import Verif.Proofs.NetworkRng
import Verif.Props.Network
/-
Properties of `ProcessInput` (network/network.go:147-306): C67, C71.
-/
set_option linter.unusedSectionVars false
namespace Goslide.Props
open Goslide Node Lsh Configuration Spec.Node Spec.Network Layer Network Xcrepo
variable {F : Type} [GoFloat F]

/-! ### C67 -/

/-- The update of one node whose gradients were accumulated in `V`, starting from `v`. -/
theorem adamStep_finished {lr : F} {v V : View F} (h : static V = static v) (hf : Fit true V.params) :
    AdamStep lr v.params V.params.t V.params.tBias (finished true lr V.params) := by
  have e1 : V.params.weights = v.params.weights := by have := congrArg Params.weights h; exact this
  have e2 : V.params.mom = v.params.mom := by have := congrArg Params.mom h; exact this
  have e3 : V.params.vel = v.params.vel := by have := congrArg Params.vel h; exact this
  have e4 : V.params.bias = v.params.bias := by have := congrArg Params.bias h; exact this
  have e5 : V.params.momBias = v.params.momBias := by have := congrArg Params.momBias h; exact this
  have e6 : V.params.velBias = v.params.velBias := by have := congrArg Params.velBias h; exact this
  have e7 : V.params.nodeType = v.params.nodeType := by have := congrArg Params.nodeType h; exact this
  have e8 : V.params.batch = v.params.batch := by have := congrArg Params.batch h; exact this
  have e9 : V.params.id = v.params.id := by have := congrArg Params.id h; exact this
  obtain ⟨f1, f2, f3⟩ := hf rfl
  rw [e1] at f1 f2 f3
  rw [e2] at f1
  rw [e3] at f2
  unfold finished
  rw [if_pos rfl]
  refine ⟨⟨?_, ?_, f3⟩, ?_, ?_, ?_, ?_, ?_, rfl, ⟨e7, e8, e9⟩⟩
  · dsimp only
    simp [e1, e2, e3, f1, f2, f3]
  · dsimp only
    simp [f3]
  · intro k w m s g hw hm hs hg
    have a1 : (List.zipWith adamMom V.params.mom V.params.t)[k]? = some (adamMom m g) := by
      rw [List.getElem?_zipWith, e2, hm, hg]
    have a2 : (List.zipWith adamVel V.params.vel V.params.t)[k]? = some (adamVel s g) := by
      rw [List.getElem?_zipWith, e3, hs, hg]
    refine ⟨a1, a2, _, _, a1, a2, ?_⟩
    dsimp only
    rw [List.getElem?_zipWith, e1, hw, (List.getElem?_zip_eq_some (z := (adamMom m g, adamVel s g))).mpr ⟨a1, a2⟩]
    rfl
  · dsimp only; rw [e5]; rfl
  · dsimp only; rw [e6]; rfl
  · dsimp only; rw [e4]; rfl
  · intro g hg
    exact (List.mem_replicate.mp hg).2

/-- C67, with the queries that have picked the active nodes. -/
theorem adam_update_full {cfg : Config F} (ha : cfg.UseAdam = true) {fuel b dim : Nat} {c : Int} {w w' : World F} {p p' : Ptr} {n : Network F}
    {Q : List (State F)} {es : List (Example F)} {iter : Int} {rehash rebuild : Bool} {x : F} (t : Trainable cfg b dim c w p n Q)
    (hr : processInput cfg fuel p c es iter rehash rebuild w = .ok ((x, p'), w')) :
    p' = p ∧ ∃ T Q', Trainable cfg b dim c w' p n Q' ∧ T.length = es.length ∧ (∀ (k : Nat) (S : List (List Int)), T[k]? = some S → TrainedOn n.sparsity Q k S ∧
      ∀ ex, es[k]? = some ex → Picked cfg n.sparsity Q ex S) ∧ Q'.length = Q.length ∧
      ∀ (j : Nat) (g : State F), Q[j]? = some g → ∃ g' vs, Q'[j]? = some g' ∧ g'.nodes.length = g.nodes.length ∧
        (batchV true (adamRate n.learningRate iter) (Q.map State.softmax) 0 es T (Q.map State.views))[j]? = some vs ∧
        ∀ (i : Nat) (v : View F), g.views[i]? = some v → ∃ V v', vs[i]? = some V ∧ g'.views[i]? = some v' ∧
          AdamStep (adamRate n.learningRate iter) v.params V.params.t V.params.tBias v'.params := by
  obtain ⟨e, T, Q', lT, aT, t', hv, hl, hj⟩ := t.step_full hr
  rw [ha, show stepSize cfg n.learningRate iter = adamRate n.learningRate iter by unfold stepSize; rw [if_pos ha]; rfl] at hv
  have hB : (Q.map State.softmax).length = (Q.map State.views).length := by simp
  have hT : ∀ S ∈ T, S.length = (Q.map State.views).length := fun S hS => by
    obtain ⟨k, hk⟩ := List.mem_iff_getElem?.mp hS
    rw [(aT k S hk).1.active.1]; simp
  have hst := static_stable.batch (adamRate n.learningRate iter) (Q.map State.softmax) es 0 T (Q.map State.views) hB hT
  have hdm := (dims_stable true).batch (adamRate n.learningRate iter) (Q.map State.softmax) es 0 T (Q.map State.views) hB hT
  refine ⟨congrArg Prod.snd e, T, Q', t', lT, aT, hl, ?_⟩
  generalize hW : batchV true (adamRate n.learningRate iter) (Q.map State.softmax) 0 es T (Q.map State.views) = W at hv hst hdm ⊢
  intro j g hg
  obtain ⟨g', sp, hg', -, -⟩ := hj j g hg
  have hWj : W[j]? = some ((W[j]?).getD []) := by
    have : W.length = Q.length := by simpa using congrArg List.length hst
    have hlt := (List.getElem?_eq_some_iff.mp hg).1
    rw [List.getElem?_eq_getElem (show j < W.length by omega)]; rfl
  generalize (W[j]?).getD [] = vs at hWj
  have e1 := congrArg (fun (l : List (List (View F))) => l[j]?) hv
  simp only [List.getElem?_map, hg', hWj, Option.map_some, Option.some.injEq] at e1
  have e2 := congrArg (fun (l : List (List (Params F))) => l[j]?) hst
  simp only [List.getElem?_map, hg, hWj, Option.map_some, Option.some.injEq] at e2
  have e3 := congrArg (fun (l : List (List Dims)) => l[j]?) hdm
  simp only [List.getElem?_map, hg, hWj, Option.map_some, Option.some.injEq] at e3
  have hl1 : vs.length = g.views.length := by simpa using congrArg List.length e2
  have hl2 : g'.views.length = vs.length := by simpa using congrArg List.length e1
  refine ⟨g', vs, hg', ?_, hWj, ?_⟩
  · unfold State.views at hl1 hl2
    simp only [List.length_map] at hl1 hl2
    omega
  · intro i v hvi
    have hlt := (List.getElem?_eq_some_iff.mp hvi).1
    have hVi := List.getElem?_eq_getElem (l := vs) (i := i) (by omega)
    refine ⟨_, finishView true (adamRate n.learningRate iter) _, hVi, by rw [e1, List.getElem?_map, hVi]; rfl, ?_⟩
    have e4 := congrArg (fun (l : List (Params F)) => l[i]?) e2
    simp only [List.getElem?_map, hvi, hVi, Option.map_some, Option.some.injEq] at e4
    have e5 := congrArg (fun (l : List Dims) => l[i]?) e3
    simp only [List.getElem?_map, hvi, hVi, Option.map_some, Option.some.injEq] at e5
    refine adamStep_finished e4 (fit_of_dims e5 ?_)
    have := t.shaped.fit g (List.mem_of_getElem? hg) v (List.mem_of_getElem? hvi)
    rw [ha] at this
    exact this

/-- C67. With Adam, a call of `ProcessInput` by the owner that returns has done one Adam update of every weight and bias of every
node, with the bias-corrected learning rate, and all gradient accumulators are 0. The gradients are those that the passes
of the examples accumulate (`batchV`, for some choice `T` of the active nodes), starting from the accumulators of the old network. -/
theorem C67_adam_update {cfg : Config F} (ha : cfg.UseAdam = true) {fuel b dim : Nat} {c : Int} {w w' : World F} {p p' : Ptr} {n : Network F}
    {Q : List (State F)} {es : List (Example F)} {iter : Int} {rehash rebuild : Bool} {x : F} (t : Trainable cfg b dim c w p n Q)
    (hr : processInput cfg fuel p c es iter rehash rebuild w = .ok ((x, p'), w')) :
    p' = p ∧ ∃ T Q', Trainable cfg b dim c w' p n Q' ∧ T.length = es.length ∧ (∀ (k : Nat) (S : List (List Int)), T[k]? = some S → TrainedOn n.sparsity Q k S) ∧ Q'.length = Q.length ∧
      ∀ (j : Nat) (g : State F), Q[j]? = some g → ∃ g' vs, Q'[j]? = some g' ∧ g'.nodes.length = g.nodes.length ∧
        (batchV true (adamRate n.learningRate iter) (Q.map State.softmax) 0 es T (Q.map State.views))[j]? = some vs ∧
        ∀ (i : Nat) (v : View F), g.views[i]? = some v → ∃ V v', vs[i]? = some V ∧ g'.views[i]? = some v' ∧
          AdamStep (adamRate n.learningRate iter) v.params V.params.t V.params.tBias v'.params := by
  obtain ⟨e, T, Q', t', l, aT, r⟩ := adam_update_full ha t hr
  exact ⟨e, T, Q', t', l, fun k S h => (aT k S h).1, r⟩

namespace NetEx

/-- The example network built by `New` can be trained. -/
theorem trainable (mode : Int) (sp : List Rat) (h : (build mode sp).isOk = true) :
    ∃ p w n Q, build mode sp = .ok (p, w) ∧ Trainable (LayerEx.cfg mode) 2 2 0 w p n Q ∧ n.sparsity = sp ∧ n.numberOfLayers = 2 := by
  cases hb : build mode sp with
  | error e => rw [hb] at h; cases h
  | ok x =>
    obtain ⟨p, w⟩ := x
    obtain ⟨n, Q, t, -, e1, e2, -⟩ := new_trainable rfl hb (by
      intro j ty hj hty
      have : j = 0 ∨ j = 1 := by omega
      rcases this with rfl | rfl
      · cases hty; exact .inl rfl
      · cases hty; exact .inr rfl) rfl
    exact ⟨p, w, n, Q, rfl, t, e2, e1⟩

/-- The example network after `k` training steps. -/
def after (mode : Int) (sp : List Rat) (rehash rebuild : Bool) : Nat → Go (Ptr × World Rat)
  | 0 => build mode sp
  | k + 1 => do
    let (p, w) ← after mode sp rehash rebuild k
    let ((_, q), w) ← processInput (LayerEx.cfg mode) 0 p 0 examples k rehash rebuild w
    .ok (q, w)

/-- The biases and first weights of all nodes after `k` training steps. -/
def numbers (mode : Int) (sp : List Rat) (rehash rebuild : Bool) (k : Nat) : Go (List (Rat × Option Rat)) := do
  let (_, w) ← after mode sp rehash rebuild k
  .ok (w.heap.bases.map (fun b => (b.bias, (readSlice w.heap.floats b.weights).bind (fun l => l.head?))))

end NetEx

-- training steps of the example network return, also with rehash and rebuild, and change the parameters
example : (NetEx.numbers 4 [1, 1, 1, 1] false false 2).isOk = true := by decide +kernel
example : (NetEx.numbers 4 [1/2, 1/2, 1, 1] true true 2).isOk = true := by decide +kernel
example : (NetEx.numbers 4 [1, 1, 1, 1] false false 1).toOption ≠ (NetEx.numbers 4 [1, 1, 1, 1] false false 0).toOption := by decide +kernel

/-! ### C71 -/

/-- C71. With all layers full, the outcome of `ProcessInput` (the result and the whole memory, or the panic) is the same for all random
draws, map orders and hash seeds, in every iteration that does not reshuffle the padding orders. This needs no assumption on the
network or the caller. -/
theorem C71_deterministic (cfg : Config F) (fuel : Nat) {p : Ptr} {c : Int} {es : List (Example F)} {iter : Int} {rehash rebuild : Bool}
    {w v : World F} {n : Network F} (hn : w.networks[p]? = some n) (hs : Full n.sparsity) (hi : iter.tmod 6946 ≠ 6945)
    (h : SameMemory Eq w v) :
    SameOutcome Eq (processInput cfg fuel p c es iter rehash rebuild w) (processInput cfg fuel p c es iter rehash rebuild v) :=
  processInput_agree cfg fuel hn hs (fun e => absurd e hi) h

/-- C71, all iterations: the outcome is the same up to the content of the padding orders, even if the two memories already differ there. -/
theorem C71_up_to_padding (cfg : Config F) (fuel : Nat) {p : Ptr} {c : Int} {es : List (Example F)} {iter : Int} {rehash rebuild : Bool}
    {w v : World F} {n : Network F} (hn : w.networks[p]? = some n) (hs : Full n.sparsity) (h : SameMemory SameLengths w v) :
    SameOutcome SameLengths (processInput cfg fuel p c es iter rehash rebuild w) (processInput cfg fuel p c es iter rehash rebuild v) :=
  processInput_agree cfg fuel hn hs (fun _ => Agree.updateRandom) h

/-- C71 for predictions. -/
theorem C71_predict (cfg : Config F) (fuel : Nat) {p : Ptr} {c : Int} {es : List (Example F)}
    {w v : World F} {n : Network F} (hn : w.networks[p]? = some n) (hs : Full n.sparsity) (h : SameMemory SameLengths w v) :
    SameOutcome SameLengths (predictClass cfg fuel p c es w) (predictClass cfg fuel p c es v) :=
  predictClass_agree cfg fuel hn hs h

-- the example network is full
example : ∃ (p : Ptr) (w : World Rat) (n : Network Rat), NetEx.build 4 [1, 1, 1, 1] = .ok (p, w) ∧ w.networks[p]? = some n ∧ Full n.sparsity := by
  obtain ⟨p, w, n, Q, hb, t, e, -⟩ := NetEx.trainable 4 [1, 1, 1, 1] (by decide +kernel)
  refine ⟨p, w, n, hb, t.net.obj, ?_⟩
  rw [e]
  intro sp h
  simp only [List.mem_cons, List.not_mem_nil, or_false, or_self] at h
  subst h
  decide +kernel

/-- The padding orders of the example network after a training step of iteration 6945 with the draws `r`. -/
def NetEx.orders (r : Rng) : Go (List (List Int)) := do
  let (p, w) ← NetEx.build 4 [1, 1, 1, 1]
  let (_, w) ← processInput (LayerEx.cfg 4) 0 p 0 NetEx.examples 6945 false false { w with rng := r }
  .ok w.ints

-- in iteration 6945 the padding orders do depend on the random draws
example : (NetEx.orders (fun _ => 0)).toOption ≠ (NetEx.orders (fun _ => 1)).toOption := by decide +kernel

end Goslide.Props
