import Verif.Proofs.Empty
import Verif.Props.FirstStep
/-
Training on empty batches: C90.
-/
set_option linter.unusedSectionVars false
namespace Goslide.Props
open Goslide Node Lsh Configuration Spec.Node Spec.Network Layer Network Xcrepo Spec

section
variable {F : Type} [GoFloat F] [FloatOrder F]

/-- C90, without Adam: training on an empty batch changes no weight and no bias. With any arithmetic. -/
theorem C90_sgd {cfg : Config F} (hl : cfg.LoadWeight = false) (hu : cfg.UseAdam = false) {a : NetArgs F} (ha : a.Typed) {fuel : Nat} {c : Int} {w w' : World F} {p p' : Ptr}
    (life : Life cfg c a w p) {iter : Int} {rehash rebuild : Bool} {x : F}
    (hr : processInput cfg fuel p c [] iter rehash rebuild w = .ok ((x, p'), w')) : p' = p ∧ memoryOf w' p = memoryOf w p := by
  obtain ⟨n, Q, al, hm⟩ := life.mirrored hl hu ha
  obtain ⟨e, T, Q', lT, -, al', hv, hlen, -⟩ := al.step hr
  refine ⟨congrArg Prod.snd e, ?_⟩
  have hb : ∀ (adam : Bool) (lr : F) (B : List Bool) (V : List (List (View F))), batchV adam lr B 0 [] T V = V := fun _ _ _ _ => by cases T <;> rfl
  rw [hb, hu] at hv
  rw [memoryOf_at al.trainable.net, memoryOf_at al'.trainable.net, Option.some.injEq]
  have e1 : ∀ R : List (State F), R.map (fun g => g.views.map (fun v => memory v.params)) = (R.map State.views).map (List.map (fun v => memory v.params)) := fun R => by simp
  rw [e1, e1, hv, List.map_map]
  refine List.map_congr_left (fun vs hvs => ?_)
  obtain ⟨g, hg, rfl⟩ := List.mem_map.mp hvs
  rw [Function.comp_apply, List.map_map]
  exact List.map_congr_left (fun v hv => memory_sgd (hm g hg v hv))

/-- C90, with Adam: training on an empty batch is an Adam step with gradients 0. -/
theorem C90_adam {cfg : Config F} (hl : cfg.LoadWeight = false) (hu : cfg.UseAdam = true) {a : NetArgs F} (ha : a.Typed) {fuel : Nat} {c : Int} {w w' : World F} {p p' : Ptr}
    (life : Life cfg c a w p) {iter : Int} {rehash rebuild : Bool} {x : F}
    (hr : processInput cfg fuel p c [] iter rehash rebuild w = .ok ((x, p'), w')) :
    p' = p ∧ memoryOf w' p = (memoryOf w p).map (List.map (List.map (drift (adamRate a.rate iter)))) := by
  obtain ⟨n, Q, al, st⟩ := life.settled hl hu ha
  obtain ⟨e, T, Q', lT, -, al', hv, hlen, -⟩ := al.step hr
  refine ⟨congrArg Prod.snd e, ?_⟩
  have hlr : stepSize cfg n.learningRate iter = adamRate a.rate iter := by rw [← al.rate]; unfold stepSize; rw [if_pos hu]; rfl
  have hb : ∀ (adam : Bool) (lr : F) (B : List Bool) (V : List (List (View F))), batchV adam lr B 0 [] T V = V := fun _ _ _ _ => by cases T <;> rfl
  rw [hb, hu, hlr] at hv
  rw [memoryOf_at al.trainable.net, memoryOf_at al'.trainable.net, Option.map_some, Option.some.injEq]
  have e1 : ∀ R : List (State F), R.map (fun g => g.views.map (fun v => memory v.params)) = (R.map State.views).map (List.map (fun v => memory v.params)) := fun R => by simp
  rw [e1, e1, hv, List.map_map, List.map_map]
  apply List.ext_getElem?
  intro j
  simp only [List.getElem?_map]
  cases hj : Q[j]? with
  | none => rfl
  | some g =>
    simp only [Option.map_some, Function.comp_apply, List.map_map, Option.some.injEq]
    refine List.map_congr_left (fun v hv => ?_)
    have sh := (al.trainable.shaped.nodes j g hj v hv).adam hu
    exact memory_adam (by rw [sh.2.2, sh.1]) (by rw [sh.2.2, sh.2.1]) (st.acc g (List.mem_of_getElem? hj) v hv)

end

theorem zipWith_same {α β : Type} {f : α → β → α} {b : β} (h : ∀ x, f x b = x) : ∀ l : List α, List.zipWith f l (List.replicate l.length b) = l
  | [] => rfl
  | x :: l => by rw [List.length_cons, List.replicate_succ, List.zipWith_cons_cons, h, zipWith_same h l]

/-- A node without momentum does not drift. -/
theorem drift_fresh (lr : ℝ) {m : Memory ℝ} (h : Fresh m) (h1 : m.mom.length = m.weights.length) (h2 : m.vel.length = m.weights.length) : drift lr m = m := by
  obtain ⟨f1, f2, f3, f4⟩ := h
  obtain ⟨ws, b, mo, ve, mb, vb⟩ := m
  dsimp only at f1 f2 f3 f4 h1 h2
  subst f3 f4
  have e1 : mo = List.replicate ws.length 0 := List.eq_replicate_iff.mpr ⟨h1, f1⟩
  have e2 : ve = List.replicate ws.length 0 := List.eq_replicate_iff.mpr ⟨h2, f2⟩
  subst e1 e2
  unfold drift
  simp only [GoFloat.zero, GoFloat.const, GoFloat.add, GoFloat.mul, GoFloat.div, GoFloat.sqrt, GoFloat.one, List.map_replicate]
  simp only [List.zip_replicate', Memory.mk.injEq]
  exact ⟨zipWith_same (by simp) ws, by simp, by simp, by simp, by simp, by simp⟩

/-- C90, for any calls: training on nothing but empty batches, with Adam if there is no momentum. -/
theorem C90_calls {cfg : Config ℝ} (hl : cfg.LoadWeight = false) {a : NetArgs ℝ} (ha : a.Typed) {fuel : Nat} {c : Int} : ∀ (calls : List (NetCall ℝ)),
    (∀ b ∈ batches calls, b.1 = []) → ∀ {w w' : World ℝ} {p p' : Ptr}, (cfg.UseAdam = true → ∀ M, memoryOf w p = some M → ∀ l ∈ M, ∀ m ∈ l, Fresh m) →
    Life cfg c a w p → runCalls cfg fuel c calls p w = .ok (p', w') → p' = p ∧ memoryOf w' p = memoryOf w p
  | [], _, w, w', p, p', _, life, h => by cases h; exact ⟨rfl, rfl⟩
  | .train es iter rehash rebuild :: calls, hf, w, w', p, p', hz, life, h => by
    have hb : batches (.train es iter rehash rebuild :: calls) = (es, iter) :: batches calls := rfl
    rw [hb] at hf
    rw [runCalls] at h
    cases hr : processInput cfg fuel p c es iter rehash rebuild w with
    | error e => rw [hr] at h; cases h
    | ok o =>
      obtain ⟨⟨x, p1⟩, w1⟩ := o
      rw [hr] at h
      dsimp only at h
      have life1 := life.train hr
      have e0 : es = [] := hf (es, iter) (by simp)
      subst e0
      have hstep : p1 = p ∧ memoryOf w1 p = memoryOf w p := by
        cases hu : cfg.UseAdam with
        | false => exact C90_sgd hl hu ha life hr
        | true =>
          obtain ⟨e, e'⟩ := C90_adam hl hu ha life hr
          refine ⟨e, e'.trans ?_⟩
          obtain ⟨n, Q, al⟩ := life.alive hl ha
          have hM := memoryOf_at al.trainable.net
          have hF := hz hu _ hM
          rw [hM, Option.map_some, Option.some.injEq]
          refine map_same (fun l hl => map_same (fun m hm => drift_fresh _ (hF l hl m hm) ?_ ?_)) <;>
          · obtain ⟨g, hg, rfl⟩ := List.mem_map.mp hl
            obtain ⟨v, hv, rfl⟩ := List.mem_map.mp hm
            obtain ⟨j, hj⟩ := List.mem_iff_getElem?.mp hg
            have sh := al.trainable.shaped.nodes j g hj v hv
            first
              | exact ((sh.adam hu).1).trans sh.weights.symm
              | exact ((sh.adam hu).2.1).trans sh.weights.symm
      obtain ⟨rfl, e⟩ := hstep
      obtain ⟨rfl, e'⟩ := C90_calls hl ha calls (fun b hb => hf b (by simp [hb])) (fun hu => by rw [e]; exact hz hu) life1 h
      exact ⟨rfl, e'.trans e⟩
  | .predict es :: calls, hf, w, w', p, p', hz, life, h => by
    rw [show batches (.predict es :: calls) = batches calls from rfl] at hf
    rw [runCalls] at h
    cases hr : predictClass cfg fuel p c es w with
    | error e => rw [hr] at h; cases h
    | ok o =>
      obtain ⟨⟨m, p1⟩, w1⟩ := o
      rw [hr] at h
      dsimp only at h
      obtain ⟨rfl, e⟩ := memory_predict hl ha life hr
      obtain ⟨rfl, e'⟩ := C90_calls hl ha calls hf (fun hu => by rw [e]; exact hz hu) (life.predict hr) h
      exact ⟨rfl, e'.trans e⟩

/-- C90, for the program: with an empty training file it ends with the weights it has begun with. -/
theorem C90_main {cfg : Config ℝ} (hl : cfg.LoadWeight = false) (hdr : DriverOk cfg) {parseFloat : Bytes → Option ℝ} {files : Bytes → Option Bytes}
    {esTest : List (Example ℝ)} (htrain : HoldsExamples parseFloat files cfg.TrainData []) (htest : HoldsExamples parseFloat files cfg.TestData esTest)
    {fuel : Nat} {w : World ℝ} {st : Driver.State ℝ (World ℝ)} (h : Program.main parseFloat files cfg fuel w = .ok st) :
    ∃ p w1, Network.new cfg 0 cfg.NumLayer cfg.SizesOfLayers (argsOf cfg).types cfg.BatchSize cfg.LearningRate cfg.InputDim cfg.K cfg.L cfg.RangePow cfg.Sparsity w =
        .ok (p, w1) ∧ memoryOf st.heap p = memoryOf w1 p := by
  rw [C79_log hdr htrain htest] at h
  cases hn : Network.new cfg 0 cfg.NumLayer cfg.SizesOfLayers (argsOf cfg).types cfg.BatchSize cfg.LearningRate cfg.InputDim cfg.K cfg.L
        cfg.RangePow cfg.Sparsity w with
  | error e => rw [hn] at h; cases h
  | ok o =>
    obtain ⟨p, w1⟩ := o
    rw [hn, ok_bind] at h
    dsimp only at h
    cases hc : runCalls cfg fuel 0 (schedule cfg [] esTest) p w1 with
    | error e => rw [hc] at h; cases h
    | ok o =>
      obtain ⟨q, w2⟩ := o
      rw [hc, ok_bind] at h
      cases h
      have typed := typed_argsOf hdr.layers
      refine ⟨p, w1, rfl, (C90_calls (a := argsOf cfg) hl typed _ ?_ (fun _ M hM => fresh_new (a := argsOf cfg) hl typed hn hM) (.new hn) hc).2⟩
      intro b hb
      rw [batches_schedule] at hb
      obtain ⟨e, -, hb⟩ := List.mem_flatMap.mp hb
      obtain ⟨i, -, rfl⟩ := List.mem_map.mp hb
      simp [batch]

/-- After the first training step the bias of the only node has momentum. -/
theorem RealEx.momentum : ∃ p w1 w2, Life RealEx.cfg 0 (RealEx.args 2) w1 p ∧ processInput RealEx.cfg 0 p 0 RealEx.examples 0 false false w1 = .ok ((GoFloat.zero, p), w2) ∧
    ∃ m, memoryOf w2 p = some [[m]] ∧ 0 < m.momBias := by
  obtain ⟨p, w1, hnew⟩ := C63_new_partial (cfg := RealEx.cfg) (a := RealEx.args 2) rfl 0 (RealEx.newOk (by decide)) RealEx.w0
  have life : Life RealEx.cfg 0 (RealEx.args 2) w1 p := Life.new hnew
  obtain ⟨w2, hr, -⟩ := C66_full (cfg := RealEx.cfg) rfl (RealEx.typed 2) (fun sp hsp => by
      rw [show sp = 1 by simpa [RealEx.args] using hsp]
      exact RealEx.full) life 0 0 false false (es := RealEx.examples) (by show (1 : Int) ≤ 2; decide) (by
      intro ex hex x hx
      have : ex = ⟨[⟨0, 1⟩], [0]⟩ := by simpa [RealEx.examples] using hex
      subst this
      obtain rfl := List.mem_singleton.mp hx
      exact ⟨le_refl 0, by show (0 : Int) < 1; decide⟩)
  refine ⟨p, w1, w2, life, hr, ?_⟩
  obtain ⟨-, n, Q, Q', T, N, N', lT, aT, hobj⟩ := C72_gradient (cfg := RealEx.cfg) rfl rfl (RealEx.typed 2) (RealEx.hidden 2) life hr
  obtain ⟨n0, Q0, al, st⟩ := life.settled (cfg := RealEx.cfg) rfl rfl (RealEx.typed 2)
  obtain ⟨-, rfl⟩ := netAt_unique N al.trainable.net
  have hQ : Q.length = 1 := by
    have := al.count
    rw [al.trainable.net.count] at this
    have : (Q.length : Int) = 1 := this
    omega
  obtain ⟨g, rfl⟩ := List.length_eq_one_iff.mp hQ
  obtain ⟨size, prev, ty, k, l, rp, q1, q2, -, -, -, hkept, -⟩ := al.kept 0 g rfl
  cases q1
  have hnodes : g.nodes.length = 1 := by have := hkept.nodes; omega
  have hT : T = [[[0]]] := by
    obtain ⟨S, rfl⟩ := List.length_eq_one_iff.mp (show T.length = 1 from lT)
    have htr := (aT 0 S rfl).1
    obtain ⟨ids, rfl⟩ := List.length_eq_one_iff.mp (show S.length = 1 from htr.active.1)
    obtain ⟨-, sp, h1, h2⟩ := htr.active.2 0 g ids rfl rfl
    cases h1
    rw [h2 RealEx.full.1, hnodes]
    rfl
  subst hT
  have hsm : ∀ ex S, (ex, S) ∈ RealEx.examples.zip [[[0]]] → Smooth ([g].map State.views) ex.Features S := fun _ _ _ => trivial
  obtain ⟨v, hv⟩ := List.length_eq_one_iff.mp (show g.views.length = 1 by unfold State.views; rw [List.length_map]; exact hnodes)
  obtain ⟨g2, v2, G, gb, b1, b2, b3, -, b5⟩ := hobj hsm 0 0 g v rfl (by rw [hv]; rfl)
  have hty : v.params.nodeType = 1 := by
    have := (st.named 0 g 0 v rfl (by rw [hv]; rfl)).2
    exact (Option.some.inj this).symm
  -- the derivative
  have hpos : 0 < gb := by
    generalize hm : topMax ([g].map State.views) [⟨0, 1⟩] [[0]] = m at b5
    have hfun : ∀ u : ℝ, batchObjective ((RealEx.args 2).batch : ℝ) ([g].map State.views) RealEx.examples [[[0]]] (withBias ([g].map State.views) 0 0 u)
        = preActivation { v.params with bias := u } [⟨0, 1⟩] - Real.log (Real.exp (preActivation { v.params with bias := u } [⟨0, 1⟩] - m) + 1 / 10000000) / 2 := by
      intro u
      have hvs : withBias ([g].map State.views) 0 0 u = [[{ v with params := { v.params with bias := u } }]] := by
        simp [withBias, hv]
      have hval : valueOf [{ v with params := { v.params with bias := u } }] [⟨0, 1⟩] 0 = preActivation { v.params with bias := u } [⟨0, 1⟩] :=
        activation_soft (P := { v.params with bias := u }) hty _
      rw [hvs]
      simp only [batchObjective, RealEx.examples, List.zip_cons_cons, List.zip_nil_left, List.map_cons, List.map_nil, List.sum_cons, List.sum_nil, add_zero]
      unfold objective score
      simp only [List.map_cons, List.map_nil] at hm
      simp [hval, hm, RealEx.args]
    have hd : ∀ u : ℝ, HasDerivAt (fun u => preActivation { v.params with bias := u } [⟨0, 1⟩]) 1 u := by
      intro u
      have e : (fun u => preActivation { v.params with bias := u } [⟨0, 1⟩]) = fun u => ((v.params.weights[0]?).getD 0 * 1) + u := by
        funext u
        rw [pre_sum]
        simp
      rw [e]
      exact (hasDerivAt_id u).const_add _
    have hb5 := b5
    simp only [hfun] at hb5
    have he : ∀ u : ℝ, 0 < Real.exp (preActivation { v.params with bias := u } [⟨0, 1⟩] - m) := fun u => Real.exp_pos _
    have hd2 := (hd v.params.bias).sub (((((hd v.params.bias).sub_const m).exp.add_const (1 / 10000000)).log (by have := he v.params.bias; positivity)).div_const 2)
    rw [hb5.unique hd2]
    have := he v.params.bias
    generalize Real.exp (preActivation { v.params with bias := v.params.bias } [⟨0, 1⟩] - m) = y at *
    have h1 : y * 1 / (y + 1 / 10000000) < 1 := by rw [div_lt_one (by linarith)]; linarith
    linarith
  have hM := fresh_new (a := RealEx.args 2) (cfg := RealEx.cfg) rfl (RealEx.typed 2) hnew (memoryOf_at N) _ (List.mem_map.mpr ⟨g, by simp, rfl⟩) _
    (List.mem_map.mpr ⟨v, by rw [hv]; simp, rfl⟩)
  have h0 : v.params.momBias = 0 := hM.2.2.1
  obtain ⟨n3, Q3, al3⟩ := (life.train hr).alive (cfg := RealEx.cfg) rfl (RealEx.typed 2)
  obtain ⟨-, rfl⟩ := netAt_unique N' al3.trainable.net
  have hQ' : Q'.length = 1 := by
    have := al3.count
    rw [al3.trainable.net.count] at this
    have : (Q'.length : Int) = 1 := this
    omega
  obtain ⟨g', rfl⟩ := List.length_eq_one_iff.mp hQ'
  cases b1
  obtain ⟨size, prev, ty, k, l, rp, q1, -, -, -, -, hkept', -⟩ := al3.kept 0 g2 rfl
  cases q1
  have hnodes' : g2.nodes.length = 1 := by have := hkept'.nodes; omega
  obtain ⟨v', hv'⟩ := List.length_eq_one_iff.mp (show g2.views.length = 1 by unfold State.views; rw [List.length_map]; exact hnodes')
  rw [hv'] at b2
  cases b2
  refine ⟨memory v2.params, by rw [memoryOf_at N']; simp [hv'], ?_⟩
  show 0 < v2.params.momBias
  rw [b3.momBias, h0]
  simp only [GoFloat.add, GoFloat.mul, GoFloat.const]
  push_cast
  linarith

/-- C90 is false with Adam once the network has been trained: the bias moves on in an empty batch. -/
theorem C90_adam_false : ¬ ∀ (cfg : Config ℝ) (a : NetArgs ℝ) (w w' : World ℝ) (p p' : Ptr) (iter : Int) (x : ℝ), cfg.LoadWeight = false → a.Typed → Life cfg 0 a w p →
    processInput cfg 0 p 0 [] iter false false w = .ok ((x, p'), w') → weightsOf w' p = weightsOf w p := by
  intro hall
  obtain ⟨p, w1, w2, life, hr, m, hm, hpos⟩ := RealEx.momentum
  obtain ⟨w3, h3, -⟩ := C66_full (cfg := RealEx.cfg) rfl (RealEx.typed 2) (fun sp hsp => by
      rw [show sp = 1 by simpa [RealEx.args] using hsp]
      exact RealEx.full) (life.train hr) 0 0 false false (es := []) (by show (0 : Int) ≤ 2; decide) (by simp)
  have h := hall RealEx.cfg (RealEx.args 2) w2 w3 p p 0 _ rfl (RealEx.typed 2) (life.train hr) h3
  have hd := (C90_adam (cfg := RealEx.cfg) rfl rfl (RealEx.typed 2) (life.train hr) h3).2
  have hwm : ∀ w : World ℝ, weightsOf w p = (memoryOf w p).map (List.map (List.map (fun m => (m.weights, m.bias)))) := by
    intro w
    unfold weightsOf memoryOf
    cases learned w p with
    | none => rfl
    | some L => simp [memory, Function.comp_def]
  rw [hwm, hwm, hd, hm] at h
  simp only [Option.map_some, List.map_cons, List.map_nil, Option.some.injEq, List.cons.injEq, Prod.mk.injEq, and_true] at h
  have hb := h.2
  unfold drift at hb
  have hr0 : (0 : ℝ) < adamRate (RealEx.args 2).rate 0 := by
    rw [rate_zero]
    show (0 : ℝ) < 1 * (√(1 / 1000) / (1 / 10))
    positivity
  simp only [GoFloat.zero, GoFloat.const, GoFloat.add, GoFloat.mul, GoFloat.div, GoFloat.sqrt, GoFloat.one] at hb
  push_cast at hb
  have hs := Real.sqrt_nonneg (999 / 1000 * m.velBias + 1 / 1000 * 0 * 0)
  have : 0 < 1 * adamRate (RealEx.args 2).rate 0 * (9 / 10 * m.momBias + 1 / 10 * 0) / (√(999 / 1000 * m.velBias + 1 / 1000 * 0 * 0) + 1 / 100000000) := by
    have : 0 < 9 / 10 * m.momBias + 1 / 10 * 0 := by linarith
    positivity
  linarith

-- a network without momentum: the hypotheses of C90_calls hold for an empty batch
example : ∃ p w1 w2, Network.new RealEx.cfg 0 1 [1] [1] 2 1 1 [1] [1] [6] [1] RealEx.w0 = .ok (p, w1) ∧
    runCalls RealEx.cfg 0 0 [.train [] 0 true true] p w1 = .ok (p, w2) ∧ memoryOf w2 p = memoryOf w1 p := by
  obtain ⟨p, w1, h⟩ := C63_new_partial (cfg := RealEx.cfg) (a := RealEx.args 2) rfl 0 (RealEx.newOk (by decide)) RealEx.w0
  obtain ⟨w2, h2, -⟩ := C66_full (cfg := RealEx.cfg) rfl (RealEx.typed 2) (fun sp hsp => by
      rw [show sp = 1 by simpa [RealEx.args] using hsp]
      exact RealEx.full) (Life.new h) 0 0 true true (es := []) (by show (0 : Int) ≤ 2; decide) (by simp)
  have hrun : runCalls RealEx.cfg 0 0 [.train [] 0 true true] p w1 = .ok (p, w2) := by simp only [runCalls, h2]
  exact ⟨p, w1, w2, h, hrun, (C90_calls (cfg := RealEx.cfg) rfl (RealEx.typed 2) _ (by simp [batches])
    (fun _ M hM => fresh_new (a := RealEx.args 2) (cfg := RealEx.cfg) rfl (RealEx.typed 2) h hM) (.new h) hrun).2⟩

-- a node with momentum drifts, one without does not
example : (drift 1 ⟨[5], 2, [1], [0], 0, 0⟩ : Memory ℝ).mom = [9 / 10] ∧ drift 1 ⟨[5], 2, [0], [0], 0, 0⟩ = (⟨[5], 2, [0], [0], 0, 0⟩ : Memory ℝ) := by
  refine ⟨by simp [drift, GoFloat.zero, GoFloat.const, GoFloat.add, GoFloat.mul], drift_fresh 1 ⟨by simp, by simp, rfl, rfl⟩ rfl rfl⟩

end Goslide.Props
