import Verif.Proofs.GradBatch
import Verif.Proofs.NetworkSettled
import Verif.Proofs.Likelihood
import Verif.Proofs.NetworkUnique
import Verif.Proofs.ActiveBound
import Verif.Props.Train
import Verif.Props.Progress
/-
What the weights are trained for: C72, C73. Over the real numbers, that is with exact arithmetic.
-/
set_option linter.unusedSectionVars false
namespace Goslide.Props
open Goslide Node Lsh Configuration Spec.Node Spec.Network Layer Network Xcrepo

/-- In a network whose hidden layers are ReLU layers the last layer is the only softmax layer. -/
theorem flags_of_kept {cfg : Config ℝ} {a : NetArgs ℝ} (ha : a.Typed) (hh : ∀ j : Nat, (j : Int) + 1 < a.layers → a.types[j]? = some ReLU) {Q : List (State ℝ)}
    (hk : AllKept cfg a Q) (hQ : (Q.length : Int) = a.layers) : Q.map State.softmax = flags (Q.map State.views) := by
  have hf : ∀ (L : List (List (View ℝ))) (j : Nat), (flags L)[j]? = if j < L.length then some (decide (j + 1 = L.length)) else none := by
    intro L
    induction L with
    | nil => intro j; simp [flags]
    | cons v L ih =>
      intro j
      cases j with
      | zero => cases L <;> simp [flags]
      | succ j => simp [flags, ih j]
  apply List.ext_getElem?
  intro j
  rw [hf, List.getElem?_map, List.length_map]
  by_cases hj : j < Q.length
  · rw [if_pos hj, List.getElem?_eq_getElem hj]
    obtain ⟨size, prev, ty, k, l, rp, -, q2, -, -, -, hkept, -⟩ := hk j _ (List.getElem?_eq_getElem hj)
    simp only [Option.map_some, Option.some.injEq]
    unfold State.softmax
    rw [hkept.oTy]
    by_cases hlast : j + 1 = Q.length
    · have := ha.last
      rw [show (a.layers - 1).toNat = j by omega, q2] at this
      cases this
      simp [hlast]
    · have := hh j (by omega)
      rw [q2] at this
      cases this
      simp [hlast, ReLU, Softmax]
  · rw [if_neg hj, List.getElem?_eq_none (by omega)]
    rfl

theorem netOk_of {b : ℝ} : ∀ (V : List (List (View ℝ))) (S : List (List Int)), S.length = V.length →
    (∀ (j : Nat) (vs : List (View ℝ)) (ids : List Int), V[j]? = some vs → S[j]? = some ids → NodesOk b (decide (j + 1 = V.length)) vs ids) → NetOk b V S
  | [], [], _, _ => trivial
  | vs :: L, ids :: S, hl, h => by
    refine ⟨?_, netOk_of L S (by simpa using hl) (fun j vs ids h1 h2 => ?_)⟩
    · have := h 0 vs ids rfl rfl
      cases L <;> simpa using this
    · have := h (j + 1) vs ids (by simpa using h1) (by simpa using h2)
      simpa using this

/-! ### C72 -/

/-- C72. A network with ReLU layers and a last softmax layer, built by `New` and then used by its owner. With Adam and exact arithmetic, a
training step that returns has done an Adam update of every weight and bias in the direction of the gradient of
`batchObjective`, for some choice of distinct active nodes, provided no active hidden node has pre-activation 0. -/
theorem C72_gradient {cfg : Config ℝ} (hl : cfg.LoadWeight = false) (hu : cfg.UseAdam = true) {a : NetArgs ℝ} (ha : a.Typed)
    (hh : ∀ j : Nat, (j : Int) + 1 < a.layers → a.types[j]? = some ReLU) {fuel : Nat} {c : Int} {w w' : World ℝ} {p p' : Ptr} {es : List (Example ℝ)}
    {iter : Int} {rehash rebuild : Bool} {x : ℝ} (life : Life cfg c a w p)
    (hr : processInput cfg fuel p c es iter rehash rebuild w = .ok ((x, p'), w')) :
    p' = p ∧ Ascends cfg a es iter p w w' (fun V0 T V => batchObjective a.batch V0 es T V) := by
  obtain ⟨n, Q, al, st⟩ := life.settled hl hu ha
  obtain ⟨e, T, Q', t', lT, aT, lQ, hupd⟩ := adam_update_full hu al.trainable hr
  refine ⟨e, n, Q, Q', T, al.trainable.net, t'.net, lT, fun k S hS => ⟨al.sparsity ▸ (aT k S hS).1, fun ex hex => activeSets_of al (aT k S hS).1 ((aT k S hS).2 ex hex)⟩, ?_⟩
  intro hsm j i g v hg hv
  have hQ : (Q.length : Int) = a.layers := by rw [← al.count, al.trainable.net.count]
  rw [flags_of_kept ha hh al.kept hQ, al.rate] at hupd
  obtain ⟨g', vs, hg', -, hvs, hnode⟩ := hupd j g hg
  obtain ⟨V, v', hV, hv', hstep⟩ := hnode i v hv
  have hok : ∀ (k : Nat) (S : List (List Int)), T[k]? = some S → SlotsOk (Q.map State.views) (0 + k) S ∧ NetOk (a.batch : ℝ) (Q.map State.views) S := by
    intro k S hS
    have htr := (aT k S hS).1
    have hso := slotsOk_of htr
    refine ⟨by rw [Nat.zero_add]; exact hso, netOk_of _ _ hso.len ?_⟩
    intro j vs ids h1 h2
    refine ⟨htr.nodup ids (List.mem_of_getElem? h2), fun id hi => ?_⟩
    obtain ⟨h0, v, h3, h4⟩ := hso.slot j vs ids h1 h2 id hi
    rw [List.getElem?_map] at h1
    obtain ⟨g, h5, rfl⟩ := Option.map_eq_some_iff.mp h1
    obtain ⟨q1, q2⟩ := st.named j g _ v h5 h3
    have hsh := al.trainable.shaped.nodes j g h5 v (List.mem_of_getElem? h3)
    refine ⟨h0, v, h3, ?_, ?_, ?_⟩
    · have hlt := (List.getElem?_eq_some_iff.mp h5).1
      rw [List.length_map]
      by_cases hlast : j + 1 = Q.length
      · have := ha.last
        rw [show (a.layers - 1).toNat = j by omega, q2] at this
        rw [Option.some.inj this]
        simp [hlast, Softmax]
      · have := hh j (by omega)
        rw [q2] at this
        rw [Option.some.inj this]
        simp [hlast, ReLU]
    · rw [q1]
      omega
    · have e1 := hsh.train
      have e2 := hsh.batch
      have : v.params.batch = a.batch := by omega
      rw [this]
  obtain ⟨vs2, V2, h1, h2, h3, h4⟩ := batch_deriv (b := (a.batch : ℝ)) (lr := adamRate a.rate iter) es T 0 (Q.map State.views) hok hsm
    (fun vs hvs => by
      obtain ⟨g, hg, rfl⟩ := List.mem_map.mp hvs
      exact st.still g hg)
    (by rw [List.getElem?_map, hg]; rfl) hv
  rw [hvs] at h1
  cases h1
  rw [hV] at h2
  cases h2
  obtain ⟨z1, z2⟩ := st.acc g (List.mem_of_getElem? hg) v (List.mem_of_getElem? hv)
  refine ⟨g', v', _, _, hg', hv', hstep, ?_, ?_⟩
  · intro q y hy
    have hsh := al.trainable.shaped.nodes j g hg v (List.mem_of_getElem? hv)
    have hlen : v.params.t.length = v.params.weights.length := by rw [hsh.weights, (hsh.adam hu).2.2]
    have hq := (List.getElem?_eq_some_iff.mp hy).1
    have ht : v.params.t[q]? = some (v.params.t[q]'(by omega)) := List.getElem?_eq_getElem (by omega)
    obtain ⟨t2, h5, h6⟩ := h3 q y _ hy ht
    rw [z2 _ (List.getElem_mem _), zero_real, sub_zero] at h6
    exact ⟨t2, h5, h6⟩
  · rw [z1, zero_real, sub_zero] at h4
    exact h4

/-! ### C73 -/

/-- What C73 claims of a training step: the update follows the gradient of the mean over the batch of the log-likelihoods of the labels. -/
def FollowsLikelihood (cfg : Config ℝ) (a : NetArgs ℝ) (es : List (Example ℝ)) (iter : Int) (p : Ptr) (w w' : World ℝ) : Prop :=
  Ascends cfg a es iter p w w' (fun V0 T V => batchLikelihood V0 es T V / a.batch)

/-- The labels are active nodes of the last layer. -/
theorem topActive_sets {cfg : Config ℝ} {a : NetArgs ℝ} (ha : a.Typed) {Q : List (State ℝ)} (hQ : (Q.length : Int) = a.layers) (hpos : 0 < a.layers)
    {sp : ℝ} {l : Int} (hsp : a.sparsity[(a.layers - 1).toNat]? = some sp) (hl : a.l[(a.layers - 1).toNat]? = some l) (hact : KeepsLabels cfg sp l)
    {ex : Example ℝ} {S : List (List Int)} (h : ActiveSets cfg a ex S) (hlab : LabelsOk a ex.Labels) : TopActive ex.Labels (Q.map State.views) S := by
  have hlen := h.layers
  refine topActive_of _ _ (by simp; omega) ?_ ?_
  · intro e
    have := congrArg List.length e
    simp at this
    subst this
    simp at hQ
    omega
  · intro ids hids
    rw [List.length_map, show Q.length - 1 = (a.layers - 1).toNat by omega] at hids
    obtain ⟨size, ty, l', sp', q1, q2, q3, q4, hnd, -, -, hf, hs⟩ := h.each _ ids hids
    rw [hsp] at q4
    rw [hl] at q3
    rw [ha.last] at q2
    cases q4; cases q3; cases q2
    refine ⟨hnd, fun y hy => ?_⟩
    obtain ⟨y0, y1⟩ := hlab.range size q1 y hy
    rcases hact with hact | hact
    · exact hf hact y y0 y1
    · exact hs rfl hact y hy y0 y1

/-- C73 for batches of one example, if the labels are always active nodes of the last layer: there the update follows the gradient of the log-likelihood.
Missing for C73: larger batches, for which it is false (`C73_likelihood_false`). -/
theorem C73_likelihood_partial {cfg : Config ℝ} (hl : cfg.LoadWeight = false) (hu : cfg.UseAdam = true) {a : NetArgs ℝ} (ha : a.Typed) (hpos : 0 < a.layers)
    (hh : ∀ j : Nat, (j : Int) + 1 < a.layers → a.types[j]? = some ReLU)
    {sp : ℝ} {l : Int} (hsp : a.sparsity[(a.layers - 1).toNat]? = some sp) (hll : a.l[(a.layers - 1).toNat]? = some l) (hact : KeepsLabels cfg sp l) (hb : a.batch = 1)
    {fuel : Nat} {c : Int} {w w' : World ℝ} {p p' : Ptr} {es : List (Example ℝ)}
    {iter : Int} {rehash rebuild : Bool} {x : ℝ} (life : Life cfg c a w p) (hlab : ∀ ex ∈ es, LabelsOk a ex.Labels)
    (hr : processInput cfg fuel p c es iter rehash rebuild w = .ok ((x, p'), w')) : FollowsLikelihood cfg a es iter p w w' := by
  obtain ⟨n0, Q0, al⟩ := life.alive hl ha
  obtain ⟨-, n, Q, Q', T, N, N', lT, aT, hstep⟩ := C72_gradient hl hu ha hh life hr
  obtain ⟨-, rfl⟩ := netAt_unique N al.trainable.net
  have hQ : (Q.length : Int) = a.layers := by rw [← al.count, al.trainable.net.count]
  have key : ∀ V : List (List (View ℝ)), V.length = Q.length →
      batchLikelihood (Q.map State.views) es T V / a.batch =
        batchObjective a.batch (Q.map State.views) es T V + - ((es.zip T).map (fun e => topMax (Q.map State.views) e.1.Features e.2)).sum := by
    intro V hV
    unfold batchLikelihood batchObjective
    rw [hb]
    have : ∀ l : List (Example ℝ × List (List Int)), (∀ e ∈ l, e.1 ∈ es ∧ TopActive e.1.Labels V e.2) →
        (l.map (fun e => likelihood (topMax (Q.map State.views) e.1.Features e.2) e.1.Labels V e.1.Features e.2)).sum =
          (l.map (fun e => objective ((1 : Int) : ℝ) (topMax (Q.map State.views) e.1.Features e.2) e.1.Labels V e.1.Features e.2)).sum +
            - (l.map (fun e => topMax (Q.map State.views) e.1.Features e.2)).sum := by
      intro l
      induction l with
      | nil => intro _; simp
      | cons e l ih =>
        intro h
        obtain ⟨h1, h2⟩ := h e (by simp)
        simp only [List.map_cons, List.sum_cons]
        rw [ih (fun e he => h e (by simp [he])), objective_excess _ _ (hlab _ h1).nodup (hlab _ h1).nonempty V _ _ h2]
        push_cast
        ring
    have hthis := this (es.zip T) (fun e he => by
      obtain ⟨k, hk⟩ := List.mem_iff_getElem?.mp he
      obtain ⟨h1, h2⟩ := List.getElem?_zip_eq_some.mp hk
      exact ⟨List.mem_of_getElem? h1, topActive_congr (by rw [hV]; simp)
        (topActive_sets ha hQ hpos hsp hll hact ((aT k e.2 h2).2 _ h1) (hlab _ (List.mem_of_getElem? h1)))⟩)
    rw [← hthis]
    push_cast
    ring
  refine ⟨n, Q, Q', T, N, N', lT, aT, fun hsm j i g v hg hv => ?_⟩
  obtain ⟨g', v', G, gb, h1, h2, h3, h4, h5⟩ := hstep hsm j i g v hg hv
  refine ⟨g', v', G, gb, h1, h2, h3, fun q y hy => ?_, ?_⟩
  · obtain ⟨gq, h6, h7⟩ := h4 q y hy
    refine ⟨gq, h6, (h7.add_const (- ((es.zip T).map (fun e => topMax (Q.map State.views) e.1.Features e.2)).sum)).congr_of_eventuallyEq
      (Filter.Eventually.of_forall fun u => ?_)⟩
    exact key _ (by unfold withWeight; simp)
  · refine (h5.add_const (- ((es.zip T).map (fun e => topMax (Q.map State.views) e.1.Features e.2)).sum)).congr_of_eventuallyEq
      (Filter.Eventually.of_forall fun u => ?_)
    exact key _ (by unfold withBias; simp)

/-- What training maximizes instead, exactly: for each example the log-likelihood divided by the batch size, and the mean value of the label nodes
times `1 - 1/b` (and a constant). -/
theorem C73_objective (b m : ℝ) {labels : List Int} (hl : labels.Nodup) (hn : labels ≠ []) (V : List (List (View ℝ))) (data : List (Pair ℝ)) (S : List (List Int))
    (h : TopActive labels V S) :
    objective b m labels V data S = likelihood m labels V data S / b + m / b + (1 - 1 / b) * labelMean labels V data S :=
  objective_excess b m hl hn V data S h

/-- With batches of two or more examples it has no maximum, whatever the example: larger biases of the last layer increase it without
bound. The log-likelihood is never positive. -/
theorem C73_unbounded {b : ℝ} (hb : 1 < b) (m : ℝ) {labels : List Int} (hl : labels.Nodup) (hn : labels ≠ []) (V : List (List (View ℝ))) (data : List (Pair ℝ))
    (S : List (List Int)) (h : TopActive labels V S) (hs : TopSoft V S) :
    (∀ R, ∃ u, R < objective b m labels (shiftLast u V) data S) ∧ likelihood m labels V data S ≤ 0 := by
  refine ⟨fun R => ?_, likelihood_nonpos m V data S h⟩
  have hc : 0 < 1 - 1 / b := by
    have : 1 / b < 1 := by rw [div_lt_one (by linarith)]; exact hb
    linarith
  refine ⟨(|R - objective b m labels V data S| + 1) / (1 - 1 / b), ?_⟩
  have := objective_shift hb.le m hl hn (u := (|R - objective b m labels V data S| + 1) / (1 - 1 / b)) (by positivity) V data S h hs
  rw [mul_div_cancel₀ _ hc.ne'] at this
  have := le_abs_self (R - objective b m labels V data S)
  linarith

namespace RealEx

/-- One softmax node with one input, batches of size `b`. -/
noncomputable def args (b : Int) : NetArgs ℝ where
  layers := 1
  sizes := [1]
  types := [1]
  batch := b
  rate := 1
  dim := 1
  k := [1]
  l := [1]
  rangePow := [6]
  sparsity := [1]

noncomputable def cfg : Config ℝ := { Configuration.default with UseAdam := true, HashFunction := 4, LayerMode := 4 }

noncomputable def w0 : World ℝ :=
  { heap := Heap.empty, ints := [], lshs := [], consts := [], layers := [], layerArrs := [], networks := [],
    rng := fun i => 7 * i, norms := fun _ => 1, mapRng := fun i => i, hashes := fun _ _ => 0 }

/-- One example with one feature and one label. -/
noncomputable def examples : List (Example ℝ) := [⟨[⟨0, 1⟩], [0]⟩]

theorem typed (b : Int) : (args b).Typed := by
  refine ⟨?_, rfl⟩
  intro j ty hj hty
  have : j = 0 := by
    have : (j : Int) < 1 := hj
    omega
  subst this
  cases hty
  exact .inr rfl

theorem hidden (b : Int) : ∀ j : Nat, (j : Int) + 1 < (args b).layers → (args b).types[j]? = some ReLU := by
  intro j hj
  have : (j : Int) + 1 < 1 := hj
  omega

theorem full : GoFloat.eq (1 : ℝ) (GoFloat.one : ℝ) = true ∧ GoFloat.lt (1 : ℝ) (GoFloat.one : ℝ) = false := by
  have : (GoFloat.one : ℝ) = 1 := by
    show ((1 : ℚ) : ℝ) = 1
    norm_num
  rw [this]
  simp [GoFloat.eq, GoFloat.lt]

theorem newOk {b : Int} (hb : 0 ≤ b) : NewOk cfg (args b) := by
  refine ⟨by show (0 : Int) ≤ 1; decide, hb, by show (0 : Int) ≤ 1; decide, ?_, ?_⟩
  · intro j hj
    have : (j : Int) < 1 := hj
    have hj' : j < 1 := by omega
    exact ⟨hj', hj', hj', hj', hj', hj'⟩
  · intro j size k l rp hj h1 h2 h3 h4
    have : (j : Int) < 1 := hj
    have hj' : j = 0 := by omega
    subst hj'
    cases h1; cases h2; cases h3; cases h4
    exact ⟨by decide, by decide, by decide, by decide, by decide, (⟨by show (1 : Int) ≤ 2 ^ 53; decide, by decide, by decide⟩ : (_ : Int) ≤ 2 ^ 53 ∧ (1 : Int) ≤ 62 ∧ (1 : Int) ≤ 6)⟩

theorem labelsOk (b : Int) : ∀ ex ∈ examples, LabelsOk (args b) ex.Labels := by
  intro ex hex
  have : ex = ⟨[⟨0, 1⟩], [0]⟩ := by simpa [examples] using hex
  subst this
  refine ⟨by simp, by simp, ?_⟩
  intro size hsize y hy
  cases hsize
  have : y = 0 := by simpa using hy
  omega

/-- The network is built and a training step succeeds. -/
theorem runs {b : Int} (hb : 1 ≤ b) (w : World ℝ) : ∃ p w1 w2, Life cfg 0 (args b) w1 p ∧ processInput cfg 0 p 0 examples 0 false false w1 = .ok ((GoFloat.zero, p), w2) := by
  obtain ⟨p, w1, h⟩ := C63_new_partial (cfg := cfg) (a := args b) rfl 0 (newOk (by omega)) w
  have life : Life cfg 0 (args b) w1 p := Life.new h
  obtain ⟨w2, h2, -⟩ := C66_full (cfg := cfg) rfl (typed b) (fun sp hsp => by
      have : sp = 1 := by simpa [args] using hsp
      subst this
      exact full) life 0 0 false false (es := examples) (by show ((1 : Nat) : Int) ≤ b; omega) (by
      intro ex hex x hx
      have : ex = ⟨[⟨0, 1⟩], [0]⟩ := by simpa [examples] using hex
      subst this
      have : x = ⟨0, 1⟩ := by simpa using hx
      subst this
      exact ⟨by decide, by show (0 : Int) < 1; decide⟩)
  exact ⟨p, w1, w2, life, h2⟩

end RealEx

-- the hypotheses of C72 and C73_likelihood_partial hold for a network and a training step, and there is no hidden node
example : ∃ p w1 w2, FollowsLikelihood RealEx.cfg (RealEx.args 1) RealEx.examples 0 p w1 w2 := by
  obtain ⟨p, w1, w2, life, hr⟩ := RealEx.runs (b := 1) (by decide) RealEx.w0
  exact ⟨p, w1, w2, C73_likelihood_partial (cfg := RealEx.cfg) rfl rfl (RealEx.typed 1) (by show (0 : Int) < 1; decide) (RealEx.hidden 1) (sp := 1) (l := 1) rfl rfl (.inl RealEx.full.1) rfl life
    (RealEx.labelsOk 1) hr⟩

example (V : List (List (View ℝ))) (data : List (Pair ℝ)) (S : List (List Int)) (h : V.length = 1) : Smooth V data S := by
  match V, h with
  | [_], _ => trivial

namespace RealEx

/-- A node with one weight. -/
noncomputable def view (ty : Int) (weight bias : ℝ) : View ℝ where
  params := { nodeType := ty, batch := 2, id := 0, weights := [weight], mirrorWeights := [], mom := [0], vel := [0], t := [0], bias := bias, mirrorBias := 0,
              tBias := 0, momBias := 0, velBias := 0 }
  train := []

/-- A ReLU node and a softmax node. -/
noncomputable def two : List (List (View ℝ)) := [[view 0 3 1], [view 1 2 (-1)]]

end RealEx

-- an active hidden node with a nonzero pre-activation, and the hypotheses of C73_objective and C73_unbounded
example : Smooth RealEx.two [⟨0, 1⟩] [[0], [0]] ∧ TopActive [0] RealEx.two [[0], [0]] ∧ TopSoft RealEx.two [[0], [0]] := by
  refine ⟨⟨?_, trivial⟩, ⟨by simp, by simp⟩, ?_⟩
  · intro id hid v hv
    have : id = 0 := by simpa using hid
    subst this
    cases hv
    rw [pre_sum]
    simp [RealEx.view]
    norm_num
  · intro id hid
    have : id = 0 := by simpa using hid
    subst this
    exact ⟨_, rfl, rfl⟩

/-- C73 is false for batches of 2, even for an example that is alone in its batch. -/
theorem C73_likelihood_false : ¬ ∀ (cfg : Config ℝ) (a : NetArgs ℝ) (w w' : World ℝ) (p : Ptr) (es : List (Example ℝ)), cfg.LoadWeight = false → cfg.UseAdam = true →
    a.Typed → 0 < a.layers → (∀ j : Nat, (j : Int) + 1 < a.layers → a.types[j]? = some ReLU) → a.sparsity[(a.layers - 1).toNat]? = some 1 →
    (∀ ex ∈ es, LabelsOk a ex.Labels) → Life cfg 0 a w p → processInput cfg 0 p 0 es 0 false false w = .ok ((GoFloat.zero, p), w') →
    FollowsLikelihood cfg a es 0 p w w' := by
  intro hall
  obtain ⟨p, w1, w2, life, hr⟩ := RealEx.runs (b := 2) (by decide) RealEx.w0
  obtain ⟨n, Q, Q', T, N, N', lT, aT, hlik⟩ := hall RealEx.cfg (RealEx.args 2) w1 w2 p RealEx.examples rfl rfl (RealEx.typed 2) (by show (0 : Int) < 1; decide) (RealEx.hidden 2) rfl
    (RealEx.labelsOk 2) life hr
  obtain ⟨-, n2, Q2, Q2', T2, N2, N2', lT2, aT2, hobj⟩ := C72_gradient (cfg := RealEx.cfg) rfl rfl (RealEx.typed 2) (RealEx.hidden 2) life hr
  obtain ⟨-, rfl⟩ := netAt_unique N N2
  obtain ⟨-, rfl⟩ := netAt_unique N' N2'
  obtain ⟨n0, Q0, al⟩ := life.alive (cfg := RealEx.cfg) rfl (RealEx.typed 2)
  obtain ⟨-, rfl⟩ := netAt_unique N al.trainable.net
  have hQ : Q.length = 1 := by
    have := al.count
    rw [al.trainable.net.count] at this
    have : (Q.length : Int) = 1 := this
    omega
  obtain ⟨g, rfl⟩ := List.length_eq_one_iff.mp hQ
  -- the only choice of active nodes
  obtain ⟨size, prev, ty, k, l, rp, q1, q2, -, -, -, hkept, -⟩ := al.kept 0 g rfl
  cases q1
  have hnodes : g.nodes.length = 1 := by have := hkept.nodes; omega
  have hT : ∀ T0 : List (List (List Int)), T0.length = 1 → (∀ (k : Nat) (S : List (List Int)), T0[k]? = some S → TrainedOn (RealEx.args 2).sparsity [g] k S) → T0 = [[[0]]] := by
    intro T0 h0 hT0
    obtain ⟨S, rfl⟩ := List.length_eq_one_iff.mp h0
    have htr := hT0 0 S rfl
    obtain ⟨ids, rfl⟩ := List.length_eq_one_iff.mp (show S.length = 1 from htr.active.1)
    obtain ⟨-, sp, h1, h2⟩ := htr.active.2 0 g ids rfl rfl
    cases h1
    rw [h2 RealEx.full.1, hnodes]
    rfl
  have e1 := hT T lT (fun k S h => (aT k S h).1)
  have e2 := hT T2 lT2 (fun k S h => (aT2 k S h).1)
  subst e1
  subst e2
  have hsm : ∀ ex S, (ex, S) ∈ RealEx.examples.zip [[[0]]] → Smooth ([g].map State.views) ex.Features S := fun _ _ _ => trivial
  obtain ⟨v, hv⟩ := List.length_eq_one_iff.mp (show g.views.length = 1 by unfold State.views; rw [List.length_map]; exact hnodes)
  obtain ⟨g1, v1, G1, gb1, a1, a2, a3, -, a5⟩ := hlik hsm 0 0 g v rfl (by rw [hv]; rfl)
  obtain ⟨g2, v2, G2, gb2, b1, b2, b3, -, b5⟩ := hobj hsm 0 0 g v rfl (by rw [hv]; rfl)
  rw [a1] at b1
  cases b1
  rw [a2] at b2
  cases b2
  have eg : gb1 = gb2 := by
    have h1 := a3.momBias
    rw [b3.momBias] at h1
    have h1 : (9 / 10 : ℚ) * v.params.momBias + ((1 / 10 : ℚ) : ℝ) * gb2 = (9 / 10 : ℚ) * v.params.momBias + ((1 / 10 : ℚ) : ℝ) * gb1 := h1
    push_cast at h1
    linarith
  subst eg
  have hd := b5.sub a5
  rw [sub_self] at hd
  have hty : v.params.nodeType = 1 := by
    have hs := al.trainable.shaped
    obtain ⟨n3, Q3, al3, st⟩ := life.settled (cfg := RealEx.cfg) rfl rfl (RealEx.typed 2)
    obtain ⟨-, rfl⟩ := netAt_unique al.trainable.net al3.trainable.net
    have := (st.named 0 g 0 v rfl (by rw [hv]; rfl)).2
    exact (Option.some.inj this).symm
  have hfun : ∀ u : ℝ, (batchObjective ((RealEx.args 2).batch : ℝ) ([g].map State.views) RealEx.examples [[[0]]] (withBias ([g].map State.views) 0 0 u)
      - batchLikelihood ([g].map State.views) RealEx.examples [[[0]]] (withBias ([g].map State.views) 0 0 u) / ((RealEx.args 2).batch : ℝ))
      = topMax ([g].map State.views) [⟨0, 1⟩] [[0]] / 2 + 1 / 2 * preActivation { v.params with bias := u } [⟨0, 1⟩] := by
    intro u
    have hvs : withBias ([g].map State.views) 0 0 u = [[{ v with params := { v.params with bias := u } }]] := by
      simp [withBias, hv]
    have e1 : batchObjective ((RealEx.args 2).batch : ℝ) ([g].map State.views) RealEx.examples [[[0]]] (withBias ([g].map State.views) 0 0 u)
        = objective 2 (topMax ([g].map State.views) [⟨0, 1⟩] [[0]]) [0] (withBias ([g].map State.views) 0 0 u) [⟨0, 1⟩] [[0]] := by
      simp [batchObjective, RealEx.examples, RealEx.args]
    have e2 : batchLikelihood ([g].map State.views) RealEx.examples [[[0]]] (withBias ([g].map State.views) 0 0 u)
        = likelihood (topMax ([g].map State.views) [⟨0, 1⟩] [[0]]) [0] (withBias ([g].map State.views) 0 0 u) [⟨0, 1⟩] [[0]] := by
      simp [batchLikelihood, RealEx.examples]
    rw [e1, e2, objective_excess 2 _ (by simp) (by simp) _ _ _ (by rw [hvs]; exact ⟨by simp, by simp⟩)]
    have e3 : labelMean [0] (withBias ([g].map State.views) 0 0 u) [⟨0, 1⟩] [[0]] = preActivation { v.params with bias := u } [⟨0, 1⟩] := by
      rw [hvs]
      show ([0].map (valueOf [{ v with params := { v.params with bias := u } }] [⟨0, 1⟩])).sum / (([0] : List Int).length : ℝ) = _
      have : valueOf [{ v with params := { v.params with bias := u } }] [⟨0, 1⟩] 0 = preActivation { v.params with bias := u } [⟨0, 1⟩] :=
        activation_soft (P := { v.params with bias := u }) hty _
      simp [this]
    rw [e3]
    have e4 : ((RealEx.args 2).batch : ℝ) = 2 := by
      show ((2 : Int) : ℝ) = 2
      norm_num
    rw [e4]
    ring
  have hd2 : HasDerivAt (fun u : ℝ => topMax ([g].map State.views) [⟨0, 1⟩] [[0]] / 2 + 1 / 2 * preActivation { v.params with bias := u } [⟨0, 1⟩]) (1 / 2 * 1) v.params.bias :=
    ((deriv_bias v.params [⟨0, 1⟩] v.params.bias).const_mul (1 / 2)).const_add _
  have hd3 := hd2.congr_of_eventuallyEq (Filter.Eventually.of_forall hfun)
  have := hd.unique hd3
  norm_num at this

end Goslide.Props
