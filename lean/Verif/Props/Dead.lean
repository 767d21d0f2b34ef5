import Verif.Proofs.Dead
import Verif.Proofs.GradReal
import Verif.Proofs.NetworkUnique
import Verif.Spec.Dead
import Verif.Props.Active
import Verif.Props.Empty
import Verif.Props.Init
/-
Nodes of the first layer that do not react to the examples: C102.
-/
set_option linter.unusedSectionVars false
namespace Goslide.Network
open Goslide Node Lsh Configuration Spec.Node Spec.Network Layer Xcrepo

section
variable {F : Type} [GoFloat F] [FloatOrder F]

/-- The nodes of a layer have its type. -/
def Kinds (a : NetArgs F) (Q : List (State F)) : Prop := ∀ (j : Nat) (g : State F), Q[j]? = some g → ∀ v ∈ g.views, a.types[j]? = some v.params.nodeType

theorem _root_.Goslide.Spec.Network.Life.kinds {cfg : Config F} (hl : cfg.LoadWeight = false) {c : Int} {a : NetArgs F} (ha : a.Typed)
    {w : World F} {p : Ptr} (h : Life cfg c a w p) : ∃ n Q, Alive cfg c a w p n Q ∧ Kinds a Q := by
  induction h with
  | new h =>
    obtain ⟨n, Q, al, st⟩ := settled_new hl ha h
    refine ⟨n, Q, al, fun j g hg v hv => ?_⟩
    obtain ⟨k, hk⟩ := List.mem_iff_getElem?.mp hv
    exact (st.named j g k v hg hk).2
  | @train w0 w1 p0 p1 fuel es iter rehash rebuild x _ hr ih =>
    obtain ⟨n, Q, al, ca⟩ := ih
    obtain ⟨e, T, Q', -, aT, al', hv, -⟩ := al.step hr
    have e := congrArg Prod.snd e
    dsimp only at e
    rw [e]
    refine ⟨n, Q', al', fun j g' hg' v' hv' => ?_⟩
    generalize stepSize cfg n.learningRate _ = lr at hv
    have hdm := (dims_stable (F := F) cfg.UseAdam).batch lr (Q.map State.softmax) es 0 T (Q.map State.views) (by simp) (fun S hS => by
      obtain ⟨k, hk⟩ := List.mem_iff_getElem?.mp hS
      rw [(aT k S hk).active.1]; simp)
    have e := congrArg (fun l => l[j]?) hv
    simp only [List.getElem?_map, hg', Option.map_some] at e
    obtain ⟨vs, h1, h2⟩ := Option.map_eq_some_iff.mp e.symm
    rw [← h2] at hv'
    obtain ⟨v1, h3, rfl⟩ := List.mem_map.mp hv'
    have e := congrArg (fun l => l[j]?) hdm
    simp only [List.getElem?_map, h1, Option.map_some] at e
    obtain ⟨vs0, h4, h5⟩ := Option.map_eq_some_iff.mp e.symm
    obtain ⟨g, hg, rfl⟩ := Option.map_eq_some_iff.mp h4
    have : v1.dims ∈ g.views.map View.dims := by rw [h5]; exact List.mem_map_of_mem h3
    obtain ⟨v, hv, e⟩ := List.mem_map.mp this
    have e2 : v1.params.nodeType = v.params.nodeType := (congrArg Dims.nodeType e).symm
    have e4 : (finishView cfg.UseAdam lr v1).params.nodeType = v1.params.nodeType := by
      unfold finishView finished
      dsimp only
      split <;> rfl
    rw [e4, e2]
    exact ca j g hg v hv
  | predict _ hr ih =>
    obtain ⟨n, Q, al, ca⟩ := ih
    obtain ⟨rfl, Q', al', s⟩ := al.predict hr
    refine ⟨n, Q', al', fun j g' hj v' hv' => ?_⟩
    have hlt := (List.getElem?_eq_some_iff.mp hj).1
    have hg := List.getElem?_eq_getElem (l := Q) (i := j) (by rw [← s.1]; exact hlt)
    have : v'.params ∈ (Q[j]'(by rw [← s.1]; exact hlt)).views.map View.params := by
      rw [← (s.2 j _ g' hg hj).params]
      exact List.mem_map.mpr ⟨v', hv', rfl⟩
    obtain ⟨v, hv, e⟩ := List.mem_map.mp this
    rw [← e]
    exact ca j _ hg v hv
  | draws _ ih =>
    obtain ⟨n, Q, al, ca⟩ := ih
    exact ⟨n, Q, al.draws _ _ _ _, ca⟩

end

/-! ### Exact arithmetic -/

/-- The parameters after back-propagation of zero deltas in the first layer: with Adam nothing has changed, without it the mirror bias has moved. -/
def Risen (adam : Bool) (x : ℝ) (P P' : Params ℝ) : Prop :=
  if adam then P' = P else P' = { P with mirrorWeights := P'.mirrorWeights, mirrorBias := P.mirrorBias + x }

theorem Risen.refl (adam : Bool) (P : Params ℝ) : Risen adam 0 P P := by
  unfold Risen
  split
  · rfl
  · simp

theorem Risen.trans {adam : Bool} {x y : ℝ} {P P' P'' : Params ℝ} (h : Risen adam x P P') (h' : Risen adam y P' P'') : Risen adam (x + y) P P'' := by
  unfold Risen at h h' ⊢
  cases adam with
  | true => exact h'.trans h
  | false =>
    simp only [Bool.false_eq_true, if_false] at h h' ⊢
    rw [h', h]
    simp [add_assoc]

theorem Risen.frame {adam : Bool} {x : ℝ} {P P' : Params ℝ} (h : Risen adam x P P') : P'.weights = P.weights ∧ P'.bias = P.bias ∧ P'.nodeType = P.nodeType := by
  unfold Risen at h
  split at h
  · rw [h]; exact ⟨rfl, rfl, rfl⟩
  · rw [h]; exact ⟨rfl, rfl, rfl⟩

theorem firstGrads_zero (adam : Bool) (lr : ℝ) : ∀ (l : List (Pair ℝ)) (P : Params ℝ), Risen adam 0 P (firstGrads adam lr GoFloat.zero P l)
  | [], P => Risen.refl adam P
  | x :: l, P => by
    have h1 : Risen adam 0 P (addGrad adam lr (GoFloat.mul GoFloat.zero x.Value) x.Index.toNat P) := by
      have z : GoFloat.mul (GoFloat.zero : ℝ) x.Value = 0 := by rw [zero_real]; exact zero_mul _
      have z2 : (fun y : ℝ => GoFloat.add y (GoFloat.mul lr (0 : ℝ))) = id := by
        funext y
        show y + lr * 0 = y
        simp
      have z3 : (fun y : ℝ => GoFloat.add y (0 : ℝ)) = id := by
        funext y
        exact add_zero y
      unfold Risen addGrad
      rw [z, z2, z3]
      cases adam <;> simp [List.modify_id]
    have := h1.trans (firstGrads_zero adam lr l (addGrad adam lr (GoFloat.mul GoFloat.zero x.Value) x.Index.toNat P))
    rw [add_zero] at this
    exact this

theorem zeroStep (adam : Bool) (lr : ℝ) (l : List (Pair ℝ)) (P : Params ℝ) :
    Risen adam lr P (biasGrad adam (fun m d => GoFloat.add m (GoFloat.add lr d)) GoFloat.zero (firstGrads adam lr GoFloat.zero P l)) := by
  have h := firstGrads_zero adam lr l P
  unfold Risen at h ⊢
  unfold biasGrad
  cases adam with
  | true =>
    simp only [if_true] at h ⊢
    rw [h]
    congr 1
    rw [zero_real]
    exact add_zero _
  | false =>
    simp only [Bool.false_eq_true, if_false] at h ⊢
    rw [h]
    simp only [Params.mk.injEq, true_and, and_true]
    rw [zero_real]
    show P.mirrorBias + 0 + (lr + 0) = _
    ring

theorem clamped_iff {P : Params ℝ} (hty : P.nodeType = ReLU) (data : List (Pair ℝ)) : Clamped P data = true ↔ Dead (memory P) data := by
  unfold Clamped Dead
  rw [pre_sum]
  have : (GoFloat.zero : ℝ) = 0 := zero_real
  rw [this]
  have h0 : P.nodeType = 0 := hty
  simp only [h0, decide_true, Bool.true_and, GoFloat.lt, decide_eq_true_eq, memory]
  rw [add_comm]

/-- A batch, seen from a node of the first layer that is dead for all its examples. -/
theorem dead_batch {adam : Bool} {lr : ℝ} {B : List Bool} {i : Nat} : ∀ (es : List (Example ℝ)) (k : Nat) (T : List (List (List Int))) (V : List (List (View ℝ))) {v : View ℝ},
    (false :: B).length = V.length → 2 ≤ V.length → T.length = es.length →
    (∀ S ∈ T, S.length = V.length ∧ ((S[0]?).getD []).Nodup ∧ ∀ id ∈ (S[0]?).getD [], 0 ≤ id) → (V[0]?).bind (·[i]?) = some v → v.params.nodeType = ReLU →
    (∀ ex ∈ es, Dead (memory v.params) ex.Features) →
    ∃ v', ((batchV adam lr (false :: B) k es T V)[0]?).bind (·[i]?) = some v' ∧ Risen adam (timesActive T 0 i * lr) v.params v'.params
  | [], k, [], V, v, _, _, _, _, hv, _, _ => ⟨v, hv, by simpa [timesActive] using Risen.refl adam v.params⟩
  | ex :: es, k, S :: T, V, v, hB, h2, hl, hT, hv, hty, hd => by
    obtain ⟨hS, hn, hnn⟩ := hT S (by simp)
    have hlen : (exampleV adam lr (false :: B) k ex S V).length = V.length := by
      simpa using congrArg List.length ((dims_stable (F := ℝ) adam).example lr (false :: B) k ex S V hB hS)
    have h1 : ∃ v', ((exampleV adam lr (false :: B) k ex S V)[0]?).bind (·[i]?) = some v' ∧
        Risen adam (if (i : Int) ∈ (S[0]?).getD [] then lr else 0) v.params v'.params := by
      cases S with
      | nil => simp at hS; omega
      | cons ids S =>
        obtain ⟨v', e1, e2⟩ := dead_example (adam := adam) (lr := lr) (k := k) hB hS h2 hn hnn hv ((clamped_iff hty _).mpr (hd ex (by simp)))
          (by rw [zero_real]; simp [GoFloat.le])
        refine ⟨v', e1, ?_⟩
        rw [e2]
        show Risen adam (if (i : Int) ∈ ids then lr else 0) _ _
        by_cases h : (i : Int) ∈ ids
        · rw [if_pos h, if_pos h]; exact zeroStep adam lr _ _
        · rw [if_neg h, if_neg h]; exact Risen.refl adam _
    obtain ⟨v1, e1, r1⟩ := h1
    obtain ⟨f1, f2, f3⟩ := r1.frame
    obtain ⟨v2, e2, r2⟩ := dead_batch (adam := adam) (lr := lr) es (k + 1) T _ (by rw [hlen]; exact hB) (by rw [hlen]; exact h2) (by simpa using hl)
      (fun S' hS' => by rw [hlen]; exact hT S' (by simp [hS'])) e1 (f3.trans hty) (fun ex hex => by
        have := hd ex (by simp [hex])
        unfold Dead memory at this ⊢
        rw [f1, f2]; exact this)
    refine ⟨v2, e2, ?_⟩
    have := r1.trans r2
    convert this using 1
    unfold timesActive
    rw [List.countP_cons]
    by_cases h : (i : Int) ∈ (S[0]?).getD []
    · rw [if_pos h, if_pos (by simpa using h)]; push_cast; ring
    · rw [if_neg h, if_neg (by simpa using h)]; push_cast; ring

end Goslide.Network

namespace Goslide.Props
open Goslide Node Lsh Configuration Spec.Node Spec.Network Layer Network Xcrepo Spec

/-! ### C102 -/

/-- C102. A training step on examples to which a node of the (hidden) first layer does not react. With Adam the node is left alone. Without Adam it keeps its weights,
but its bias grows by the learning rate for every example for which it is active. -/
theorem C102_step {cfg : Config ℝ} (hl : cfg.LoadWeight = false) {a : NetArgs ℝ} (ha : a.Typed) (hty : a.types[0]? = some ReLU) {fuel : Nat} {c : Int} {w w' : World ℝ}
    {p p' : Ptr} (life : Life cfg c a w p) {es : List (Example ℝ)} {iter : Int} {rehash rebuild : Bool} {x : ℝ}
    (hr : processInput cfg fuel p c es iter rehash rebuild w = .ok ((x, p'), w')) {i : Nat} {m : Memory ℝ} (hm : nodeAt w p 0 i = some m)
    (hd : ∀ ex ∈ es, Dead m ex.Features) :
    p' = p ∧ ∃ T : List (List (List Int)), T.length = es.length ∧
      (∀ (k : Nat) (S : List (List Int)) (ex : Example ℝ), T[k]? = some S → es[k]? = some ex → ActiveSets cfg a ex S) ∧
      nodeAt w' p 0 i = some (if cfg.UseAdam then drift (adamRate a.rate iter) m else { m with bias := m.bias + timesActive T 0 i * a.rate }) := by
  obtain ⟨n, Q, al, rest⟩ := life.rests hl ha iter
  obtain ⟨n2, Q2, al2, kinds⟩ := life.kinds hl ha
  obtain ⟨rfl, rfl⟩ := netAt_unique al.trainable.net al2.trainable.net
  obtain ⟨e, T, Q', lT, aT, al', hv, -⟩ := al.step_full hr
  have hsets : ∀ (k : Nat) (S : List (List Int)) (ex : Example ℝ), T[k]? = some S → es[k]? = some ex → ActiveSets cfg a ex S := fun k S ex hS hex =>
    activeSets_of al (aT k S hS).1 ((aT k S hS).2 ex hex)
  refine ⟨congrArg Prod.snd e, T, lT, hsets, ?_⟩
  rw [nodeAt_look al.trainable.net] at hm
  obtain ⟨us, u, h1, h2u, rfl⟩ := look_some hm
  rw [List.getElem?_map] at h1
  obtain ⟨g, hg, rfl⟩ := Option.map_eq_some_iff.mp h1
  have hug := List.mem_of_getElem? h2u
  have huty : u.params.nodeType = ReLU := by
    have := kinds 0 g hg u hug
    rw [hty] at this
    exact (Option.some.inj this).symm
  cases Q with
  | nil => simp at hg
  | cons g0 Q =>
  rw [List.getElem?_cons_zero, Option.some.injEq] at hg
  subst hg
  have hsoft : g0.softmax = false := by
    obtain ⟨size, prev, ty, k, l, rp, -, q2, -, -, -, kp, -⟩ := al.kept 0 g0 rfl
    rw [hty] at q2
    cases q2
    unfold State.softmax
    rw [kp.oTy]
    decide
  have h2 : 2 ≤ (g0 :: Q).length := by
    cases Q with
    | nil =>
      have := al.trainable.shaped.last g0 rfl
      rw [hsoft] at this
      cases this
    | cons _ _ => simp
  obtain ⟨v', e1, r1⟩ := dead_batch (adam := cfg.UseAdam) (lr := stepSize cfg n.learningRate iter) (B := Q.map State.softmax) (i := i) es 0 T ((g0 :: Q).map State.views) (v := u)
    (by simp) (by simpa using h2) lT
    (fun S hS => by
      obtain ⟨k, hk⟩ := List.mem_iff_getElem?.mp hS
      obtain ⟨tr, pk⟩ := aT k S hk
      have hlt := (List.getElem?_eq_some_iff.mp hk).1
      have hsS := hsets k S _ hk (List.getElem?_eq_getElem (by rw [← lT]; exact hlt))
      refine ⟨by rw [tr.active.1]; simp, ?_⟩
      cases S with
      | nil => simp
      | cons ids S =>
        obtain ⟨size, ty, l, sp, -, -, -, -, hn, hrange, -⟩ := hsS.each 0 ids rfl
        exact ⟨hn, fun id hid => (hrange id hid).1⟩)
    (by simpa using h2u) huty hd
  rw [nodeAt_look al'.trainable.net, hv, look_map]
  rw [List.map_cons, hsoft]
  have hlook : ∀ {V : List (List (View ℝ))}, (V[0]?).bind (·[i]?) = some v' → look ((fun v => memory v.params) ∘ finishView cfg.UseAdam (stepSize cfg n.learningRate iter)) 0 i V =
      some (memory (finishView cfg.UseAdam (stepSize cfg n.learningRate iter) v').params) := by
    intro V hV
    unfold Network.look
    rw [hV]
    rfl
  rw [hlook e1]
  congr 1
  have hrest := rest g0 (by simp) u hug
  cases hu : cfg.UseAdam with
  | true =>
    rw [hu] at r1 hrest
    have hp : v'.params = u.params := r1
    rw [if_pos rfl]
    unfold untrained at hrest
    rw [hu, if_pos rfl] at hrest
    rw [← hrest]
    unfold finishView
    rw [hp]
  | false =>
    rw [hu] at r1 hrest
    have hlr : stepSize cfg n.learningRate iter = a.rate := by
      unfold stepSize
      rw [hu, ← al.rate]
      rfl
    rw [hlr] at r1
    have hp : v'.params = { u.params with mirrorWeights := v'.params.mirrorWeights, mirrorBias := u.params.mirrorBias + timesActive T 0 i * a.rate } := r1
    have hmir : u.params.mirrorBias = u.params.bias := by
      unfold untrained at hrest
      rw [hu] at hrest
      exact congrArg Memory.bias hrest
    rw [if_neg (by decide)]
    unfold finishView finished
    rw [if_neg (by decide)]
    unfold memory
    dsimp only
    rw [hp]
    dsimp only
    rw [hmir]

/-- C102, if all nodes of the first layer are computed and Adam is not used: the bias of the node grows by the learning rate with every example. -/
theorem C102_full {cfg : Config ℝ} (hl : cfg.LoadWeight = false) (hu : cfg.UseAdam = false) {a : NetArgs ℝ} (ha : a.Typed) (hty : a.types[0]? = some ReLU)
    (hsp : a.sparsity[0]? = some 1) {fuel : Nat} {c : Int} {w w' : World ℝ} {p p' : Ptr} (life : Life cfg c a w p) {es : List (Example ℝ)} {iter : Int}
    {rehash rebuild : Bool} {x : ℝ} (hr : processInput cfg fuel p c es iter rehash rebuild w = .ok ((x, p'), w')) {i : Nat} {m : Memory ℝ}
    (hm : nodeAt w p 0 i = some m) (hd : ∀ ex ∈ es, Dead m ex.Features) :
    p' = p ∧ nodeAt w' p 0 i = some { m with bias := m.bias + es.length * a.rate } := by
  obtain ⟨e, T, lT, aT, h⟩ := C102_step hl ha hty life hr hm hd
  refine ⟨e, ?_⟩
  rw [h, hu, if_neg (by decide)]
  -- the node is one of the layer
  obtain ⟨n, Q, al⟩ := life.alive hl ha
  rw [nodeAt_look al.trainable.net] at hm
  obtain ⟨us, u, h1, h2u, -⟩ := look_some hm
  rw [List.getElem?_map] at h1
  obtain ⟨g, hg, rfl⟩ := Option.map_eq_some_iff.mp h1
  obtain ⟨size, prev, ty, k, l, rp, q1, -, -, -, -, kp, -⟩ := al.kept 0 g hg
  have hi : (i : Int) < size := by
    have := (List.getElem?_eq_some_iff.mp h2u).1
    unfold State.views at this
    rw [List.length_map] at this
    have := kp.nodes
    omega
  have hc : timesActive T 0 i = es.length := by
    unfold timesActive
    rw [← lT]
    refine List.countP_eq_length.mpr (fun S hS => ?_)
    obtain ⟨k, hk⟩ := List.mem_iff_getElem?.mp hS
    have hlt := (List.getElem?_eq_some_iff.mp hk).1
    have st := aT k S _ hk (List.getElem?_eq_getElem (by rw [← lT]; exact hlt))
    cases S with
    | nil =>
      have := st.layers
      have h0 := al.count
      rw [al.trainable.net.count] at h0
      have := (List.getElem?_eq_some_iff.mp hg).1
      simp at *
      omega
    | cons ids S =>
      obtain ⟨size', ty', l', sp, s1, -, -, s4, -, -, -, s8, -⟩ := st.each 0 ids rfl
      rw [q1] at s1
      cases s1
      rw [hsp] at s4
      cases s4
      simpa using s8 (by simp [GoFloat.eq, GoFloat.one, GoFloat.const]) i (by omega) hi
  rw [hc]

/-- C102, with Adam: a node whose moments are zero, as they are in a new network, stays as it is as long as it does not react to any of the examples. -/
theorem C102_asleep {cfg : Config ℝ} (hl : cfg.LoadWeight = false) (hu : cfg.UseAdam = true) {a : NetArgs ℝ} (ha : a.Typed) (hty : a.types[0]? = some ReLU) {fuel : Nat}
    {c : Int} {i : Nat} {m : Memory ℝ} (hf : Fresh m) : ∀ (calls : List (NetCall ℝ)) {w w' : World ℝ} {p p' : Ptr}, Life cfg c a w p → nodeAt w p 0 i = some m →
    (∀ b ∈ batches calls, ∀ ex ∈ b.1, Dead m ex.Features) → runCalls cfg fuel c calls p w = .ok (p', w') → p' = p ∧ nodeAt w' p 0 i = some m
  | [], w, w', p, p', life, hm, _, h => by cases h; exact ⟨rfl, hm⟩
  | .train es iter rehash rebuild :: calls, w, w', p, p', life, hm, hd, h => by
    have hb : batches (.train es iter rehash rebuild :: calls) = (es, iter) :: batches calls := rfl
    rw [hb] at hd
    rw [runCalls] at h
    cases hr : processInput cfg fuel p c es iter rehash rebuild w with
    | error e => rw [hr] at h; cases h
    | ok o =>
      obtain ⟨⟨x, p1⟩, w1⟩ := o
      rw [hr] at h
      dsimp only at h
      obtain ⟨rfl, T, -, -, hm'⟩ := C102_step hl ha hty life hr hm (hd (es, iter) (by simp))
      rw [hu, if_pos rfl] at hm'
      have hsame : drift (adamRate a.rate iter) m = m := by
        obtain ⟨n, Q, al⟩ := life.alive hl ha
        rw [nodeAt_look al.trainable.net] at hm
        obtain ⟨us, u, h1, h2u, rfl⟩ := look_some hm
        rw [List.getElem?_map] at h1
        obtain ⟨g, hg, rfl⟩ := Option.map_eq_some_iff.mp h1
        have sh := al.trainable.shaped.nodes 0 g hg u (List.mem_of_getElem? h2u)
        exact drift_fresh _ hf (((sh.adam hu).1).trans sh.weights.symm) (((sh.adam hu).2.1).trans sh.weights.symm)
      rw [hsame] at hm'
      exact C102_asleep hl hu ha hty hf calls (life.train hr) hm' (fun b hb => hd b (by simp [hb])) h
  | .predict es :: calls, w, w', p, p', life, hm, hd, h => by
    rw [show batches (.predict es :: calls) = batches calls from rfl] at hd
    rw [runCalls] at h
    cases hr : predictClass cfg fuel p c es w with
    | error e => rw [hr] at h; cases h
    | ok o =>
      obtain ⟨⟨r, p1⟩, w1⟩ := o
      rw [hr] at h
      dsimp only at h
      obtain ⟨rfl, e⟩ := memory_predict hl ha life hr
      exact C102_asleep hl hu ha hty hf calls (life.predict hr) (by unfold nodeAt; rw [e]; exact hm) hd h

/-- C102, without Adam and with all nodes of the first layer computed: a node that does not react to `data` is woken up by training on nothing but `data`, as soon as
the number of examples times the learning rate makes up for what is missing. Its weights are then those it has had. -/
theorem C102_wakes {cfg : Config ℝ} (hl : cfg.LoadWeight = false) (hu : cfg.UseAdam = false) {a : NetArgs ℝ} (ha : a.Typed) (hty : a.types[0]? = some ReLU)
    (hsp : a.sparsity[0]? = some 1) {fuel : Nat} {c : Int} {i : Nat} {data : List (Pair ℝ)} : ∀ (calls : List (NetCall ℝ)) {m : Memory ℝ} {w w' : World ℝ} {p p' : Ptr},
    Life cfg c a w p → nodeAt w p 0 i = some m → (∀ b ∈ batches calls, ∀ ex ∈ b.1, ex.Features = data) → runCalls cfg fuel c calls p w = .ok (p', w') →
    ¬ Dead { m with bias := m.bias + (((batches calls).map (fun b => b.1.length)).sum : Nat) * a.rate } data →
    ∃ k w1 m1, k ≤ calls.length ∧ runCalls cfg fuel c (calls.take k) p w = .ok (p, w1) ∧ nodeAt w1 p 0 i = some m1 ∧ m1.weights = m.weights ∧ ¬ Dead m1 data
  | [], m, w, w', p, p', life, hm, _, h, hn => ⟨0, w, m, Nat.le_refl 0, rfl, hm, rfl, by simpa [batches] using hn⟩
  | .train es iter rehash rebuild :: calls, m, w, w', p, p', life, hm, hd, h, hn => by
    by_cases hdead : Dead m data
    · have hb : batches (.train es iter rehash rebuild :: calls) = (es, iter) :: batches calls := rfl
      rw [hb] at hd hn
      rw [runCalls] at h
      cases hr : processInput cfg fuel p c es iter rehash rebuild w with
      | error e => rw [hr] at h; cases h
      | ok o =>
        obtain ⟨⟨x, p1⟩, w1⟩ := o
        rw [hr] at h
        dsimp only at h
        obtain ⟨rfl, hm'⟩ := C102_full hl hu ha hty hsp life hr hm (fun ex hex => by rw [hd (es, iter) (by simp) ex hex]; exact hdead)
        obtain ⟨k, w2, m2, e1, e2, e3, e4, e5⟩ := C102_wakes hl hu ha hty hsp calls (life.train hr) hm' (fun b hb => hd b (by simp [hb])) h (by
          intro hx
          refine hn ?_
          unfold Dead at hx ⊢
          dsimp only at hx ⊢
          rw [List.map_cons, List.sum_cons]
          push_cast at hx ⊢
          linarith)
        refine ⟨k + 1, w2, m2, by simpa using e1, ?_, e3, e4, e5⟩
        rw [List.take_succ_cons, runCalls, hr]
        exact e2
    · exact ⟨0, w, m, Nat.zero_le _, rfl, hm, rfl, hdead⟩
  | .predict es :: calls, m, w, w', p, p', life, hm, hd, h, hn => by
    rw [show batches (.predict es :: calls) = batches calls from rfl] at hd hn
    rw [runCalls] at h
    cases hr : predictClass cfg fuel p c es w with
    | error e => rw [hr] at h; cases h
    | ok o =>
      obtain ⟨⟨r, p1⟩, w1⟩ := o
      rw [hr] at h
      dsimp only at h
      obtain ⟨rfl, e⟩ := memory_predict hl ha life hr
      obtain ⟨k, w2, m2, e1, e2, e3, e4, e5⟩ := C102_wakes hl hu ha hty hsp calls (life.predict hr) (by unfold nodeAt; rw [e]; exact hm) hd h hn
      refine ⟨k + 1, w2, m2, by simpa using e1, ?_, e3, e4, e5⟩
      rw [List.take_succ_cons, runCalls, hr]
      exact e2

/-! A network with a node of each type that begins with negative weights. -/

namespace DeadEx

noncomputable def args : NetArgs ℝ where
  layers := 2
  sizes := [1, 1]
  types := [0, 1]
  batch := 2
  rate := 1
  dim := 1
  k := [1, 1]
  l := [1, 1]
  rangePow := [6, 6]
  sparsity := [1, 1]

noncomputable def cfg (adam : Bool) : Config ℝ := { Configuration.default with UseAdam := adam, HashFunction := 4, LayerMode := 4 }

noncomputable def w0 : World ℝ := { RealEx.w0 with norms := fun _ => -1 }

/-- One example with one feature and one label. -/
noncomputable def examples : List (Example ℝ) := [⟨[⟨0, 1⟩], [0]⟩]

theorem typed : args.Typed := by
  refine ⟨?_, rfl⟩
  intro j ty hj hty
  have : (j : Int) < 2 := hj
  obtain rfl | rfl : j = 0 ∨ j = 1 := by omega
  · cases hty; exact .inl rfl
  · cases hty; exact .inr rfl

theorem newOk (adam : Bool) : NewOk (cfg adam) args := by
  refine ⟨by show (0 : Int) ≤ 2; decide, by show (0 : Int) ≤ 2; decide, by show (0 : Int) ≤ 1; decide, ?_, ?_⟩
  · intro j hj
    have : (j : Int) < 2 := hj
    have hj' : j < 2 := by omega
    exact ⟨hj', hj', hj', hj', hj', hj'⟩
  · intro j size k l rp hj h1 h2 h3 h4
    have : (j : Int) < 2 := hj
    obtain rfl | rfl : j = 0 ∨ j = 1 := by omega
    all_goals
      cases h1; cases h2; cases h3; cases h4
      exact ⟨by decide, by decide, by decide, by decide, by decide, (⟨by show (1 : Int) ≤ 2 ^ 53; decide, by decide, by decide⟩ : (_ : Int) ≤ 2 ^ 53 ∧ (1 : Int) ≤ 62 ∧ (1 : Int) ≤ 6)⟩

/-- Weight and bias are -1/100. -/
noncomputable def m (adam : Bool) : Memory ℝ := initialNode adam (fun _ => -1) 1 1 0

theorem dead (adam : Bool) : ∀ ex ∈ examples, Dead (m adam) ex.Features := by
  intro ex hex
  have : ex = ⟨[⟨0, 1⟩], [0]⟩ := by simpa [examples] using hex
  subst this
  unfold Dead m initialNode scaled
  simp [GoFloat.add, GoFloat.mul, GoFloat.const, GoFloat.zero]

/-- The network is built, its first node is dead, and a training step succeeds. -/
theorem runs (adam : Bool) : ∃ p w1 w2, Life (cfg adam) 0 args w1 p ∧ nodeAt w1 p 0 0 = some (m adam) ∧
    processInput (cfg adam) 0 p 0 examples 0 false false w1 = .ok ((GoFloat.zero, p), w2) := by
  obtain ⟨p, w1, h⟩ := C63_new_partial (cfg := cfg adam) (a := args) rfl 0 (newOk adam) w0
  have life : Life (cfg adam) 0 args w1 p := Life.new h
  obtain ⟨w2, h2, -⟩ := C66_full (cfg := cfg adam) rfl typed (fun sp hsp => by
      have : sp = 1 := by simpa [args] using hsp
      subst this
      exact RealEx.full) life 0 0 false false (es := examples) (by show ((1 : Nat) : Int) ≤ 2; omega) (by
      intro ex hex x hx
      have : ex = ⟨[⟨0, 1⟩], [0]⟩ := by simpa [examples] using hex
      subst this
      obtain rfl := List.mem_singleton.mp hx
      exact ⟨le_refl 0, by show (0 : Int) < 1; decide⟩)
  refine ⟨p, w1, w2, life, ?_, h2⟩
  unfold nodeAt
  rw [C103_new (cfg := cfg adam) rfl h]
  rfl

end DeadEx

-- with Adam the node stays as it is
example : ∃ p w1 w2, nodeAt w1 p 0 0 = some (DeadEx.m true) ∧ runCalls (DeadEx.cfg true) 0 0 [.train DeadEx.examples 0 false false] p w1 = .ok (p, w2) ∧
    nodeAt w2 p 0 0 = some (DeadEx.m true) := by
  obtain ⟨p, w1, w2, life, hm, hr⟩ := DeadEx.runs true
  have hrun : runCalls (DeadEx.cfg true) 0 0 [.train DeadEx.examples 0 false false] p w1 = .ok (p, w2) := by simp only [runCalls, hr]
  refine ⟨p, w1, w2, hm, hrun, ?_⟩
  refine (C102_asleep (cfg := DeadEx.cfg true) rfl rfl DeadEx.typed rfl ?_ _ life hm ?_ hrun).2
  · simp [Fresh, DeadEx.m, initialNode, GoFloat.zero, GoFloat.const]
  · intro b hb
    simp only [batches, List.filterMap_cons, List.filterMap_nil, List.mem_singleton] at hb
    subst hb
    exact DeadEx.dead true

-- without Adam one example is enough to wake it up
example : ∃ p w1 w2 m', nodeAt w1 p 0 0 = some (DeadEx.m false) ∧ processInput (DeadEx.cfg false) 0 p 0 DeadEx.examples 0 false false w1 = .ok ((GoFloat.zero, p), w2) ∧
    nodeAt w2 p 0 0 = some m' ∧ m'.bias = 99 / 100 ∧ ¬ Dead m' [⟨0, 1⟩] := by
  obtain ⟨p, w1, w2, life, hm, hr⟩ := DeadEx.runs false
  have h := (C102_full (cfg := DeadEx.cfg false) rfl rfl DeadEx.typed rfl rfl life hr hm (DeadEx.dead false)).2
  refine ⟨p, w1, w2, _, hm, hr, h, ?_, ?_⟩
  · simp [DeadEx.m, DeadEx.args, DeadEx.examples, initialNode, scaled, GoFloat.add, GoFloat.mul, GoFloat.const, GoFloat.zero]
    norm_num
  · simp [Dead, DeadEx.m, DeadEx.args, DeadEx.examples, initialNode, scaled, GoFloat.add, GoFloat.mul, GoFloat.const, GoFloat.zero]
    norm_num

end Goslide.Props
