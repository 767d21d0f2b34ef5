import Verif.Proofs.Unseen
import Verif.Props.BatchOrder
/-
The weights of features that do not occur in the training data: C88.
-/
set_option linter.unusedSectionVars false
namespace Goslide.Props
open Goslide Node Lsh Configuration Spec.Node Spec.Network Layer Network Xcrepo Spec
variable {F : Type} [GoFloat F] [FloatOrder F]

theorem absent_nat {f : Nat} {es : List (Example F)} (h : Absent f es) : ∀ ex ∈ es, ∀ x ∈ ex.Features, x.Index.toNat ≠ f := by
  intro ex he x hx
  have := h ex he x hx
  omega

/-- C88, without Adam: a training step changes no weight of a feature that does not occur in the batch. With any arithmetic. -/
theorem C88_sgd {cfg : Config F} (hl : cfg.LoadWeight = false) (hu : cfg.UseAdam = false) {a : NetArgs F} (ha : a.Typed) {fuel : Nat} {c : Int} {w w' : World F} {p p' : Ptr}
    (life : Life cfg c a w p) {es : List (Example F)} {iter : Int} {rehash rebuild : Bool} {x : F} {f : Nat} (hf : Absent f es)
    (hr : processInput cfg fuel p c es iter rehash rebuild w = .ok ((x, p'), w')) : p' = p ∧ column w' p f = column w p f := by
  obtain ⟨n, Q, al⟩ := life.alive hl ha
  obtain ⟨e, T, Q', lT, aT, t', hv, -⟩ := al.trainable.step hr
  refine ⟨congrArg Prod.snd e, ?_⟩
  have hB : (Q.map State.softmax).length = (Q.map State.views).length := by simp
  have hT : ∀ S ∈ T, S.length = (Q.map State.views).length := fun S hS => by
    obtain ⟨k, hk⟩ := List.mem_iff_getElem?.mp hS
    rw [(aT k S hk).active.1]; simp
  have hb := stored_batch (f := f) cfg.UseAdam (stepSize cfg n.learningRate iter) (Q.map State.softmax) es 0 T (Q.map State.views) (absent_nat hf) hB hT
  rw [column_at al.trainable.net, column_at t'.net, hv, hu, List.getElem?_map, Option.map_map]
  rw [hu] at hb
  have hb := congrArg (Option.map (List.map Prod.fst)) hb
  rw [Option.map_map, Option.map_map] at hb
  refine Eq.trans ?_ (hb.trans ?_)
  · congr 1
    funext vs
    simp [stored_sgd]
  · congr 1
    funext vs
    simp

/-- C88, with Adam: a training step without the feature is an Adam step with gradient 0 for its weights; they go on moving if they have been moving. -/
theorem C88_adam {cfg : Config F} (hl : cfg.LoadWeight = false) (hu : cfg.UseAdam = true) {a : NetArgs F} (ha : a.Typed) {fuel : Nat} {c : Int} {w w' : World F} {p p' : Ptr}
    (life : Life cfg c a w p) {es : List (Example F)} {iter : Int} {rehash rebuild : Bool} {x : F} {f : Nat} (hf : Absent f es)
    (hr : processInput cfg fuel p c es iter rehash rebuild w = .ok ((x, p'), w')) :
    p' = p ∧ column w' p f = (column w p f).map (List.map (coast (adamRate a.rate iter))) := by
  obtain ⟨n, Q, al, st⟩ := life.settled hl hu ha
  obtain ⟨e, T, Q', lT, aT, t', hv, -⟩ := al.trainable.step hr
  refine ⟨congrArg Prod.snd e, ?_⟩
  have hB : (Q.map State.softmax).length = (Q.map State.views).length := by simp
  have hT : ∀ S ∈ T, S.length = (Q.map State.views).length := fun S hS => by
    obtain ⟨k, hk⟩ := List.mem_iff_getElem?.mp hS
    rw [(aT k S hk).active.1]; simp
  have hlr : stepSize cfg n.learningRate iter = adamRate a.rate iter := by rw [← al.rate]; unfold stepSize; rw [if_pos hu]; rfl
  have hb := stored_batch (f := f) cfg.UseAdam (stepSize cfg n.learningRate iter) (Q.map State.softmax) es 0 T (Q.map State.views) (absent_nat hf) hB hT
  rw [column_at al.trainable.net, column_at t'.net, hv, hu, hlr, List.getElem?_map, Option.map_map, Option.map_map]
  rw [hu, hlr] at hb
  generalize (batchV true (adamRate a.rate iter) (Q.map State.softmax) 0 es T (Q.map State.views))[0]? = o at hb
  cases hq : (Q.map State.views)[0]? with
  | none =>
    rw [hq] at hb
    cases o with
    | none => rfl
    | some vs => cases hb
  | some us =>
    rw [hq] at hb
    cases o with
    | none => cases hb
    | some vs =>
      simp only [Option.map_some, Option.some.injEq, Function.comp_apply, List.map_map] at hb ⊢
      rw [List.getElem?_map] at hq
      obtain ⟨g, hg, rfl⟩ := Option.map_eq_some_iff.mp hq
      refine map_eq_at (by simpa using congrArg List.length hb) (fun k v u hv hu' => ?_)
      have hs : stored f v = stored f u := getElem?_map_inj hb hv hu'
      have sh := (al.trainable.shaped.nodes 0 g hg u (List.mem_of_getElem? hu'))
      have ha := sh.adam hu
      have hz := (st.acc g (List.mem_of_getElem? hg) u (List.mem_of_getElem? hu')).2
      show (stored f (finishView true _ v)).1 = coast _ (stored f u).1
      rw [← hs]
      refine stored_adam f _ v ?_
      rw [hs]
      unfold stored
      by_cases hk : f < u.params.weights.length
      · refine Or.inr ⟨u.params.weights[f], u.params.mom[f]'(by rw [ha.1, ← sh.weights]; exact hk), u.params.vel[f]'(by rw [ha.2.1, ← sh.weights]; exact hk), ?_⟩
        have ht : f < u.params.t.length := by rw [ha.2.2, ← sh.weights]; exact hk
        rw [List.getElem?_eq_getElem, List.getElem?_eq_getElem, List.getElem?_eq_getElem, List.getElem?_eq_getElem ht, hz _ (List.getElem_mem ht)]
      · left
        rw [List.getElem?_eq_none (by omega), List.getElem?_eq_none (by rw [ha.1, ← sh.weights]; omega), List.getElem?_eq_none (by rw [ha.2.1, ← sh.weights]; omega),
          List.getElem?_eq_none (by rw [ha.2.2, ← sh.weights]; omega)]

theorem column_predict {cfg : Config F} (hl : cfg.LoadWeight = false) {a : NetArgs F} (ha : a.Typed) {fuel : Nat} {c : Int} {w w' : World F} {p p' : Ptr}
    (life : Life cfg c a w p) {es : List (Example F)} {m : Int} (hr : predictClass cfg fuel p c es w = .ok ((m, p'), w')) (f : Nat) : p' = p ∧ column w' p f = column w p f := by
  obtain ⟨n, Q, al⟩ := life.alive hl ha
  obtain ⟨rfl, -, -, -⟩ := al.predict hr
  refine ⟨rfl, ?_⟩
  unfold column memoryOf
  rw [learned_predict al.trainable.net hr]

theorem map_same {α : Type} {f : α → α} {l : List α} (h : ∀ x ∈ l, f x = x) : l.map f = l := by
  induction l with
  | nil => rfl
  | cons x l ih => rw [List.map_cons, h x (by simp), ih (fun y hy => h y (by simp [hy]))]

/-- C88, for any calls: the weights of a feature that occurs in none of the training examples stay the same, if Adam leaves them alone. -/
theorem C88_calls {cfg : Config F} (hl : cfg.LoadWeight = false) {a : NetArgs F} (ha : a.Typed) {fuel : Nat} {c : Int} {f : Nat} :
    ∀ (calls : List (NetCall F)), (∀ b ∈ batches calls, Absent f b.1) → ∀ {w w' : World F} {p p' : Ptr},
    (cfg.UseAdam = true → ∀ col, column w p f = some col → ∀ x ∈ col, ∀ b ∈ batches calls, coast (adamRate a.rate b.2) x = x) →
    Life cfg c a w p → runCalls cfg fuel c calls p w = .ok (p', w') → p' = p ∧ column w' p f = column w p f
  | [], _, w, w', p, p', _, life, h => by cases h; exact ⟨rfl, rfl⟩
  | .train es iter rehash rebuild :: calls, hf, w, w', p, p', hz, life, h => by
    have hb : batches (.train es iter rehash rebuild :: calls) = (es, iter) :: batches calls := rfl
    rw [hb] at hf hz
    rw [runCalls] at h
    cases hr : processInput cfg fuel p c es iter rehash rebuild w with
    | error e => rw [hr] at h; cases h
    | ok o =>
      obtain ⟨⟨x, p1⟩, w1⟩ := o
      rw [hr] at h
      dsimp only at h
      have hstep : p1 = p ∧ column w1 p f = column w p f := by
        cases hu : cfg.UseAdam with
        | false => exact C88_sgd hl hu ha life (hf (es, iter) (by simp)) hr
        | true =>
          obtain ⟨e, e'⟩ := C88_adam hl hu ha life (hf (es, iter) (by simp)) hr
          refine ⟨e, e'.trans ?_⟩
          cases hc : column w p f with
          | none => rfl
          | some col =>
            rw [Option.map_some, map_same (fun x hx => hz hu col hc x hx (es, iter) (by simp))]
      obtain ⟨rfl, e⟩ := hstep
      obtain ⟨rfl, e'⟩ := C88_calls hl ha calls (fun b hb => hf b (by simp [hb])) (fun hu col hc x hx b hb => hz hu col (by rw [← e]; exact hc) x hx b (by simp [hb]))
        (life.train hr) h
      exact ⟨rfl, e'.trans e⟩
  | .predict es :: calls, hf, w, w', p, p', hz, life, h => by
    have hb : batches (.predict es :: calls) = batches calls := rfl
    rw [hb] at hf hz
    rw [runCalls] at h
    cases hr : predictClass cfg fuel p c es w with
    | error e => rw [hr] at h; cases h
    | ok o =>
      obtain ⟨⟨m, p1⟩, w1⟩ := o
      rw [hr] at h
      dsimp only at h
      obtain ⟨rfl, e⟩ := column_predict hl ha life hr f
      obtain ⟨rfl, e'⟩ := C88_calls hl ha calls hf (fun hu col hc => hz hu col (by rw [← e]; exact hc)) (life.predict hr) h
      exact ⟨rfl, e'.trans e⟩

/-- The moments of a new network are 0. -/
theorem column_new {cfg : Config F} (hl : cfg.LoadWeight = false) {c : Int} {a : NetArgs F} (ha : a.Typed) {w w' : World F} {p : Ptr}
    (hr : Network.new cfg c a.layers a.sizes a.types a.batch a.rate a.dim a.k a.l a.rangePow a.sparsity w = .ok (p, w')) {f : Nat} {col : List (Option F × Option F × Option F)}
    (hc : column w' p f = some col) : ∀ x ∈ col, x.2.1 = x.2.2 ∧ (x.2.1 = none ∨ x.2.1 = some GoFloat.zero) := by
  obtain ⟨n, Q, t, e1, e2, e3, hb⟩ := new_trainable hl hr ha.types ha.last
  rw [column_at t.net, List.getElem?_map, Option.map_map] at hc
  obtain ⟨g, hg, rfl⟩ := Option.map_eq_some_iff.mp hc
  intro x hx
  obtain ⟨v, hv, rfl⟩ := List.mem_map.mp hx
  obtain ⟨prev, ⟨size, ty, k, l, rp, P, w1, w2, -, -, -, -, -, B⟩, -⟩ := hb 0 g hg
  unfold State.views at hv
  rw [B.nodes] at hv
  obtain ⟨z, hz, rfl⟩ := List.mem_map.mp hv
  obtain ⟨m, hm, rfl⟩ := mem_nodes hz
  have hx : (if P.adam then P.zeros else [])[f]? = none ∨ (if P.adam then P.zeros else [])[f]? = some GoFloat.zero := by
    cases hk : (if P.adam then P.zeros else [])[f]? with
    | none => exact Or.inl rfl
    | some y =>
      right
      split at hk
      · rw [show y = GoFloat.zero from (List.mem_replicate.mp (List.mem_of_getElem? hk)).2]
      · simp at hk
  exact ⟨rfl, hx⟩

/-- Over the real numbers Adam leaves a weight alone that never had a gradient. -/
theorem coast_rest (lr : ℝ) {x : Option ℝ × Option ℝ × Option ℝ} (h : x.2.1 = x.2.2 ∧ (x.2.1 = none ∨ x.2.1 = some GoFloat.zero)) : coast lr x = x := by
  obtain ⟨w, m, v⟩ := x
  obtain ⟨h1, h2⟩ := h
  dsimp only at h1 h2
  subst h1
  rcases h2 with rfl | rfl
  · cases w <;> rfl
  · cases w with
    | none => rfl
    | some w => simp [coast, GoFloat.zero, GoFloat.const, GoFloat.add, GoFloat.mul, GoFloat.div]

/-- C88. With Adam (and exact arithmetic) or without: in a network built by `New`, the weights of a feature that occurs in none of the examples it is
trained on keep their initial values. -/
theorem C88_unseen {cfg : Config ℝ} (hl : cfg.LoadWeight = false) {a : NetArgs ℝ} (ha : a.Typed) {fuel : Nat} {c : Int} {w w1 w2 : World ℝ} {p p' : Ptr}
    (hn : Network.new cfg c a.layers a.sizes a.types a.batch a.rate a.dim a.k a.l a.rangePow a.sparsity w = .ok (p, w1)) {f : Nat} {calls : List (NetCall ℝ)}
    (hf : ∀ b ∈ batches calls, Absent f b.1) (h : runCalls cfg fuel c calls p w1 = .ok (p', w2)) : p' = p ∧ column w2 p f = column w1 p f :=
  C88_calls hl ha calls hf (fun _ _ hc x hx _ _ => coast_rest _ (column_new hl ha hn hc x hx)) (.new hn) h

/-- C88, for the program: if it finishes, the weights of a feature that does not occur in the training file are the initial ones. -/
theorem C88_main {cfg : Config ℝ} (hl : cfg.LoadWeight = false) (hdr : DriverOk cfg) {parseFloat : Bytes → Option ℝ} {files : Bytes → Option Bytes}
    {es esTest : List (Example ℝ)} (htrain : HoldsExamples parseFloat files cfg.TrainData es) (htest : HoldsExamples parseFloat files cfg.TestData esTest) {f : Nat}
    (hf : Absent f es) {fuel : Nat} {w : World ℝ} {st : Driver.State ℝ (World ℝ)} (h : Program.main parseFloat files cfg fuel w = .ok st) :
    ∃ p w1, Network.new cfg 0 cfg.NumLayer cfg.SizesOfLayers (argsOf cfg).types cfg.BatchSize cfg.LearningRate cfg.InputDim cfg.K cfg.L cfg.RangePow cfg.Sparsity w =
        .ok (p, w1) ∧ column st.heap p f = column w1 p f := by
  rw [C79_log hdr htrain htest] at h
  cases hn : Network.new cfg 0 cfg.NumLayer cfg.SizesOfLayers (argsOf cfg).types cfg.BatchSize cfg.LearningRate cfg.InputDim cfg.K cfg.L
        cfg.RangePow cfg.Sparsity w with
  | error e => rw [hn] at h; cases h
  | ok o =>
    obtain ⟨p, w1⟩ := o
    rw [hn, ok_bind] at h
    dsimp only at h
    cases hc : runCalls cfg fuel 0 (schedule cfg es esTest) p w1 with
    | error e => rw [hc] at h; cases h
    | ok o =>
      obtain ⟨q, w2⟩ := o
      rw [hc, ok_bind] at h
      cases h
      refine ⟨p, w1, rfl, (C88_unseen (a := argsOf cfg) hl (typed_argsOf hdr.layers) hn ?_ hc).2⟩
      intro b hb
      rw [batches_schedule] at hb
      obtain ⟨e, -, hb⟩ := List.mem_flatMap.mp hb
      obtain ⟨i, -, rfl⟩ := List.mem_map.mp hb
      exact fun ex hex => hf ex (List.mem_of_mem_drop (List.mem_of_mem_take hex))

/-- With Adam it is not enough that the feature does not occur in the batch at hand: a weight with momentum goes on moving. -/
theorem C88_coasts {lr w m v : ℝ} (hlr : lr ≠ 0) (hm : m ≠ 0) : ∃ w' m' v', coast lr (some w, some m, some v) = (some w', some m', some v') ∧ w' ≠ w ∧ m' ≠ 0 := by
  refine ⟨_, _, _, rfl, ?_, ?_⟩
  · have h1 : (9 / 10 : ℝ) * m ≠ 0 := by positivity
    have h2 := Real.sqrt_nonneg (999 / 1000 * v)
    simp only [GoFloat.add, GoFloat.mul, GoFloat.div, GoFloat.sqrt, GoFloat.const, GoFloat.one, GoFloat.zero]
    push_cast
    rw [mul_zero, add_zero, mul_zero, add_zero, one_mul]
    intro h
    have h3 : lr * (9 / 10 * m) / (√(999 / 1000 * v) + 1 / 100000000) = 0 := by linarith
    rcases div_eq_zero_iff.mp h3 with h4 | h4
    · exact (mul_ne_zero hlr h1) h4
    · linarith
  · simp only [GoFloat.add, GoFloat.mul, GoFloat.const, GoFloat.zero]
    push_cast
    rw [mul_zero, add_zero]
    positivity

namespace UnseenEx

/-- Two features. -/
def args : NetArgs Rat := { OrderEx.args with dim := 2 }

/-- The network; all weights and biases are 1. -/
def build : Go (Ptr × World Rat) := Network.new OrderEx.cfg 0 2 [1, 1] [0, 1] 2 1 2 [1, 1] [1, 1] [6, 6] [1, 1] { LayerEx.w0 with norms := fun _ => 100 }

/-- The weights of feature `f` before and after a training step. -/
def columns (es : List (Example Rat)) (f : Nat) : Option (List (Option Rat) × List (Option Rat)) :=
  match build with
  | .ok (p, w) =>
    match processInput OrderEx.cfg 0 p 0 es 0 false false w with
    | .ok ((_, q), w1) => do
      let x ← column w p f
      let y ← column w1 q f
      some (x.map Prod.fst, y.map Prod.fst)
    | .error _ => none
  | .error _ => none

end UnseenEx

-- without Adam: the examples have feature 0 but not feature 1; the weight of feature 0 changes, the one of feature 1 does not
example : Absent 1 OrderEx.two ∧ UnseenEx.columns OrderEx.two 1 = some ([some 1], [some 1]) ∧ (UnseenEx.columns OrderEx.two 0).map Prod.fst = some [some 1] ∧
    (UnseenEx.columns OrderEx.two 0).map Prod.snd ≠ some [some 1] := by
  refine ⟨by simp [Absent, OrderEx.two], by decide +kernel, by decide +kernel, by decide +kernel⟩

-- with Adam, over the real numbers: the hypotheses of C88_unseen hold for a network with 2 inputs that is trained twice on an example with one feature
example : ∃ p w1 w2, Network.new RealEx.cfg 0 1 [1] [1] 2 1 2 [1] [1] [6] [1] RealEx.w0 = .ok (p, w1) ∧
    runCalls RealEx.cfg 0 0 [.train RealEx.examples 0 false false, .train RealEx.examples 1 true true] p w1 = .ok (p, w2) ∧ column w2 p 1 = column w1 p 1 := by
  have typed : ({ RealEx.args 2 with dim := 2 } : NetArgs ℝ).Typed := ⟨(RealEx.typed 2).types, (RealEx.typed 2).last⟩
  have ok := RealEx.newOk (b := 2) (by decide)
  obtain ⟨p, w1, h⟩ := C63_new_partial (cfg := RealEx.cfg) (a := { RealEx.args 2 with dim := 2 }) rfl 0
    ⟨ok.layers, ok.batch, by show (0 : Int) ≤ 2; decide, ok.entries, fun j size k l rp hj h1 h2 h3 h4 => by
      have : (j : Int) < 1 := hj
      have hj' : j = 0 := by omega
      subst hj'
      cases h1; cases h2; cases h3; cases h4
      exact ⟨by decide, by decide, by decide, by decide, by decide, (⟨by show (2 : Int) ≤ 2 ^ 53; decide, by decide, by decide⟩ : (_ : Int) ≤ 2 ^ 53 ∧ (1 : Int) ≤ 62 ∧ (1 : Int) ≤ 6)⟩⟩
    RealEx.w0
  have life : Life RealEx.cfg 0 { RealEx.args 2 with dim := 2 } w1 p := Life.new h
  have hfull : Full (RealEx.args 2).sparsity := fun sp hsp => by
    rw [show sp = 1 by simpa [RealEx.args] using hsp]
    exact RealEx.full
  have hfit : ∀ ex ∈ RealEx.examples, ∀ x ∈ ex.Features, 0 ≤ x.Index ∧ x.Index < (2 : Int) := by
    intro ex hex x hx
    have : ex = ⟨[⟨0, 1⟩], [0]⟩ := by simpa [RealEx.examples] using hex
    subst this
    obtain rfl := List.mem_singleton.mp hx
    exact ⟨le_refl 0, by show (0 : Int) < 2; decide⟩
  obtain ⟨w2, h2, -⟩ := C66_full (cfg := RealEx.cfg) rfl typed hfull life 0 0 false false (es := RealEx.examples) (by show (1 : Int) ≤ 2; decide) hfit
  obtain ⟨w3, h3, -⟩ := C66_full (cfg := RealEx.cfg) rfl typed hfull (life.train h2) 0 1 true true (es := RealEx.examples) (by show (1 : Int) ≤ 2; decide) hfit
  have hrun : runCalls RealEx.cfg 0 0 [.train RealEx.examples 0 false false, .train RealEx.examples 1 true true] p w1 = .ok (p, w3) := by
    simp only [runCalls, h2, h3]
  refine ⟨p, w1, w3, h, hrun, (C88_unseen (cfg := RealEx.cfg) rfl typed h (f := 1) ?_ hrun).2⟩
  intro b hb
  have : b.1 = RealEx.examples := by
    simp only [batches, List.filterMap_cons, List.filterMap_nil, List.mem_cons, List.not_mem_nil, or_false] at hb
    rcases hb with rfl | rfl <;> rfl
  rw [this]
  intro ex hex x hx
  have : ex = ⟨[⟨0, 1⟩], [0]⟩ := by simpa [RealEx.examples] using hex
  subst this
  obtain rfl := List.mem_singleton.mp hx
  exact ⟨le_refl 0, by show (0 : Int) ≠ 1; decide⟩

end Goslide.Props
