import Verif.Props.Unseen
import Verif.Spec.FirstStep
/-
The first training step: C89. Over the real numbers, that is with exact arithmetic.
-/
set_option linter.unusedSectionVars false
namespace Goslide.Network
open Goslide Node Lsh Configuration Spec.Node Spec.Network Layer Xcrepo

/-- All moments are 0. -/
def Fresh (m : Memory ℝ) : Prop := (∀ x ∈ m.mom, x = 0) ∧ (∀ x ∈ m.vel, x = 0) ∧ m.momBias = 0 ∧ m.velBias = 0

theorem fresh_new {cfg : Config ℝ} (hl : cfg.LoadWeight = false) {c : Int} {a : NetArgs ℝ} (ha : a.Typed) {w w' : World ℝ} {p : Ptr}
    (hr : Network.new cfg c a.layers a.sizes a.types a.batch a.rate a.dim a.k a.l a.rangePow a.sparsity w = .ok (p, w')) {M : List (List (Memory ℝ))}
    (hM : memoryOf w' p = some M) : ∀ l ∈ M, ∀ m ∈ l, Fresh m := by
  obtain ⟨n, Q, t, e1, e2, e3, hb⟩ := new_trainable hl hr ha.types ha.last
  rw [memoryOf_at t.net] at hM
  cases hM
  intro l hl' m hm
  obtain ⟨g, hg, rfl⟩ := List.mem_map.mp hl'
  obtain ⟨v, hv, rfl⟩ := List.mem_map.mp hm
  obtain ⟨j, hj⟩ := List.mem_iff_getElem?.mp hg
  obtain ⟨prev, ⟨size, ty, k, l, rp, P, w1, w2, -, -, -, -, -, B⟩, -⟩ := hb j g hj
  unfold State.views at hv
  rw [B.nodes] at hv
  obtain ⟨z, hz, rfl⟩ := List.mem_map.mp hv
  obtain ⟨m, hm, rfl⟩ := mem_nodes hz
  have e0 : (GoFloat.zero : ℝ) = 0 := by simp [GoFloat.zero, GoFloat.const]
  have key : ∀ x ∈ (if P.adam then P.zeros else []), x = 0 := by
    intro x hx
    split at hx
    · rw [show x = GoFloat.zero from (List.mem_replicate.mp hx).2, e0]
    · simp at hx
  exact ⟨key, key, e0, e0⟩

/-- The learning rate of iteration 0. -/
theorem rate_zero (r : ℝ) : adamRate r 0 = r * (√(1 / 1000) / (1 / 10)) := by
  unfold adamRate
  simp only [GoFloat.div, GoFloat.mul, GoFloat.sub, GoFloat.sqrt, GoFloat.pow, GoFloat.add, GoFloat.ofInt, GoFloat.const]
  push_cast
  rw [zero_add, Real.rpow_one, Real.rpow_one]
  norm_num
  ring

/-- The first step of a weight. -/
theorem first_move (r x g : ℝ) : adamWeight (adamRate r 0) x (adamMom 0 g) (adamVel 0 g) = signStep r x g := by
  rw [rate_zero]
  unfold signStep adamWeight adamMom adamVel
  simp only [GoFloat.div, GoFloat.mul, GoFloat.sqrt, GoFloat.add, GoFloat.const, GoFloat.one]
  push_cast
  have hs : √(1 / 1000 * g * g) = √(1 / 1000) * |g| := by
    rw [show (1 / 1000 * g * g : ℝ) = (1 / 1000) * g ^ 2 by ring, Real.sqrt_mul (by norm_num), Real.sqrt_sq_eq_abs]
  rw [mul_zero, zero_add, mul_zero, zero_add, hs, one_mul]
  have h1 : √(1 / 1000) * √1000 = 1 := by rw [← Real.sqrt_mul (by norm_num)]; norm_num
  have h2 : (0 : ℝ) < √(1 / 1000) := by positivity
  have h3 : (0 : ℝ) < √1000 := by positivity
  have h4 := abs_nonneg g
  generalize √(1 / 1000) = s at *
  generalize √1000 = t at *
  congr 1
  have h5 : s * |g| + 1 / 100000000 = s * (|g| + t / 100000000) := by
    rw [mul_add, ← mul_div_assoc, h1]
  rw [h5]
  field_simp

end Goslide.Network

namespace Goslide.Props
open Goslide Node Lsh Configuration Spec.Node Spec.Network Layer Network Xcrepo Spec

theorem runCalls_life {cfg : Config ℝ} {a : NetArgs ℝ} {fuel : Nat} {c : Int} : ∀ (calls : List (NetCall ℝ)) {w w' : World ℝ} {p p' : Ptr},
    Life cfg c a w p → runCalls cfg fuel c calls p w = .ok (p', w') → Life cfg c a w' p'
  | [], w, w', p, p', life, h => by cases h; exact life
  | .train es iter rehash rebuild :: calls, w, w', p, p', life, h => by
    rw [runCalls] at h
    cases hr : processInput cfg fuel p c es iter rehash rebuild w with
    | error e => rw [hr] at h; cases h
    | ok o =>
      obtain ⟨⟨x, p1⟩, w1⟩ := o
      rw [hr] at h
      exact runCalls_life calls (life.train hr) h
  | .predict es :: calls, w, w', p, p', life, h => by
    rw [runCalls] at h
    cases hr : predictClass cfg fuel p c es w with
    | error e => rw [hr] at h; cases h
    | ok o =>
      obtain ⟨⟨m, p1⟩, w1⟩ := o
      rw [hr] at h
      exact runCalls_life calls (life.predict hr) h

/-- C89. A network with ReLU layers and a last softmax layer, built by `New`, and its first training step (iteration 0, with Adam and exact arithmetic): every weight
and bias moves by almost the learning rate in the direction of its partial derivative of `batchObjective` (which C73 compares with the likelihood). Predictions may
come before. -/
theorem C89_first {cfg : Config ℝ} (hl : cfg.LoadWeight = false) (hu : cfg.UseAdam = true) {a : NetArgs ℝ} (ha : a.Typed)
    (hh : ∀ j : Nat, (j : Int) + 1 < a.layers → a.types[j]? = some ReLU) {fuel : Nat} {c : Int} {w w1 w2 w3 : World ℝ} {p p1 p2 : Ptr} {calls : List (NetCall ℝ)}
    (hn : Network.new cfg c a.layers a.sizes a.types a.batch a.rate a.dim a.k a.l a.rangePow a.sparsity w = .ok (p, w1)) (hb : batches calls = [])
    (hc : runCalls cfg fuel c calls p w1 = .ok (p1, w2)) {es : List (Example ℝ)} {rehash rebuild : Bool} {x : ℝ}
    (hr : processInput cfg fuel p1 c es 0 rehash rebuild w2 = .ok ((x, p2), w3)) :
    p1 = p ∧ p2 = p ∧ Climbs cfg a es p w2 w3 (fun V0 T V => batchObjective a.batch V0 es T V) := by
  obtain ⟨rfl, em⟩ := no_batch hl ha calls (.new hn) hc hb
  have life : Life cfg c a w2 p1 := runCalls_life calls (.new hn) hc
  obtain ⟨rfl, n, Q, Q', T, N, N', lT, aT, h⟩ := C72_gradient hl hu ha hh life hr
  refine ⟨rfl, rfl, n, Q, Q', T, N, N', lT, aT, fun hs j i g v hg hv => ?_⟩
  obtain ⟨n', R, al⟩ := life.alive hl ha
  obtain ⟨-, rfl⟩ := netAt_unique N al.trainable.net
  have hM := fresh_new hl ha hn (em.symm.trans (memoryOf_at N)) _ (List.mem_map.mpr ⟨g, List.mem_of_getElem? hg, rfl⟩) _
    (List.mem_map.mpr ⟨v, List.mem_of_getElem? hv, rfl⟩)
  obtain ⟨f1, f2, f3, f4⟩ : (∀ x ∈ v.params.mom, x = 0) ∧ (∀ x ∈ v.params.vel, x = 0) ∧ v.params.momBias = 0 ∧ v.params.velBias = 0 := hM
  have sh := al.trainable.shaped.nodes j g hg v (List.mem_of_getElem? hv)
  have hA := sh.adam hu
  obtain ⟨g', v', G, gb, hg', hv', s, hw, hbias⟩ := h hs j i g v hg hv
  refine ⟨g', v', hg', hv', fun q y hy => ?_, gb, hbias, ?_⟩
  · obtain ⟨d, hd, hder⟩ := hw q y hy
    have hq := (List.getElem?_eq_some_iff.mp hy).1
    have hm : v.params.mom[q]? = some 0 := by
      rw [List.getElem?_eq_getElem (by rw [hA.1, ← sh.weights]; exact hq), f1 _ (List.getElem_mem _)]
    have hv : v.params.vel[q]? = some 0 := by
      rw [List.getElem?_eq_getElem (by rw [hA.2.1, ← sh.weights]; exact hq), f2 _ (List.getElem_mem _)]
    obtain ⟨a1, a2, m', v1, a3, a4, a5⟩ := s.step q y 0 0 d hy hm hv hd
    rw [a1] at a3
    rw [a2] at a4
    cases a3
    cases a4
    exact ⟨d, hder, a5.trans (congrArg some (first_move a.rate y d))⟩
  · rw [s.bias, s.momBias, s.velBias, f3, f4]
    exact first_move a.rate _ gb

/-- The step of C89: in the direction of the derivative, shorter than the learning rate. -/
theorem C89_uphill {r : ℝ} (hr : 0 < r) (x d : ℝ) : (0 < d → x < signStep r x d) ∧ (d < 0 → signStep r x d < x) ∧ (d = 0 → signStep r x d = x) ∧ |signStep r x d - x| < r := by
  have h1 : (0 : ℝ) < √1000 / 100000000 := by positivity
  have h2 := abs_nonneg d
  unfold signStep
  generalize √1000 / 100000000 = e at *
  refine ⟨fun h => ?_, fun h => ?_, fun h => by rw [h]; simp, ?_⟩
  · have : 0 < r * (d / (|d| + e)) := by positivity
    linarith
  · have : r * (d / (|d| + e)) < 0 := mul_neg_of_pos_of_neg hr (div_neg_of_neg_of_pos h (by linarith))
    linarith
  · rw [add_sub_cancel_left, abs_mul, abs_div, abs_of_pos hr, abs_of_pos (show 0 < |d| + e by linarith)]
    have : |d| / (|d| + e) < 1 := by rw [div_lt_one (by linarith)]; linarith
    nlinarith

/-- Almost the learning rate: the difference is at most a third of a millionth for derivatives of size 1 and more. -/
theorem C89_almost {r : ℝ} (hr : 0 < r) (x : ℝ) {d : ℝ} (hd : 1 ≤ |d|) : r * (1 - 1 / 3000000) ≤ |signStep r x d - x| := by
  have h1 : (0 : ℝ) < √1000 / 100000000 := by positivity
  have h3 : √1000 / 100000000 ≤ 1 / 3000001 := by
    have : √1000 ≤ 32 := by rw [Real.sqrt_le_left (by norm_num)]; norm_num
    linarith
  unfold signStep
  generalize √1000 / 100000000 = e at *
  rw [add_sub_cancel_left, abs_mul, abs_div, abs_of_pos hr, abs_of_pos (show 0 < |d| + e by linarith)]
  apply mul_le_mul_of_nonneg_left _ hr.le
  rw [le_div_iff₀ (by linarith)]
  nlinarith

/-- Later steps need not go in the direction of the derivative, since the moments remember earlier ones: here the first derivative of a weight is 1 and the second
one is -1/100, and the weight increases again. -/
theorem C89_later_false : ¬ ∀ (r x d1 d2 : ℝ), 0 < r → d2 < 0 →
    adamWeight (adamRate r 1) x (adamMom (adamMom 0 d1) d2) (adamVel (adamVel 0 d1) d2) ≤ x := by
  intro h
  have := h 1 0 1 (-1 / 100) (by norm_num) (by norm_num)
  have hrate : (0 : ℝ) < adamRate 1 1 := by
    unfold adamRate
    simp only [GoFloat.div, GoFloat.mul, GoFloat.sub, GoFloat.sqrt, GoFloat.pow, GoFloat.add, GoFloat.ofInt, GoFloat.const]
    push_cast
    rw [show ((1 : ℝ) + 1) = ((2 : Nat) : ℝ) by norm_num, Real.rpow_natCast, Real.rpow_natCast]
    have : (0 : ℝ) < √(1 - (999 / 1000) ^ 2) := Real.sqrt_pos.mpr (by norm_num)
    have : (0 : ℝ) < 1 - (9 / 10) ^ 2 := by norm_num
    positivity
  have hm : adamMom (adamMom 0 1) (-1 / 100) = (89 / 1000 : ℝ) := by
    unfold adamMom
    simp only [GoFloat.add, GoFloat.mul, GoFloat.const]
    norm_num
  rw [hm] at this
  unfold adamWeight at this
  simp only [GoFloat.add, GoFloat.mul, GoFloat.div, GoFloat.sqrt, GoFloat.const, GoFloat.one] at this
  push_cast at this
  have hs := Real.sqrt_nonneg (adamVel (adamVel 0 1) (-1 / 100) : ℝ)
  have : (0 : ℝ) < 1 * adamRate 1 1 * (89 / 1000) / (√(adamVel (adamVel 0 1) (-1 / 100)) + 1 / 100000000) := by positivity
  linarith

-- the hypotheses of C89_first hold for a network and a training step
example : ∃ p w1 w2, Network.new RealEx.cfg 0 1 [1] [1] 2 1 1 [1] [1] [6] [1] RealEx.w0 = .ok (p, w1) ∧
    processInput RealEx.cfg 0 p 0 RealEx.examples 0 false false w1 = .ok ((GoFloat.zero, p), w2) ∧
    Climbs RealEx.cfg (RealEx.args 2) RealEx.examples p w1 w2 (fun V0 T V => batchObjective 2 V0 RealEx.examples T V) := by
  obtain ⟨p, w1, h⟩ := C63_new_partial (cfg := RealEx.cfg) (a := RealEx.args 2) rfl 0 (RealEx.newOk (by decide)) RealEx.w0
  obtain ⟨w2, h2, -⟩ := C66_full (cfg := RealEx.cfg) rfl (RealEx.typed 2) (fun sp hsp => by
      rw [show sp = 1 by simpa [RealEx.args] using hsp]
      exact RealEx.full) (Life.new h) 0 0 false false (es := RealEx.examples) (by show (1 : Int) ≤ 2; decide) (by
      intro ex hex x hx
      have : ex = ⟨[⟨0, 1⟩], [0]⟩ := by simpa [RealEx.examples] using hex
      subst this
      obtain rfl := List.mem_singleton.mp hx
      exact ⟨le_refl 0, by show (0 : Int) < 1; decide⟩)
  have := C89_first (cfg := RealEx.cfg) rfl rfl (RealEx.typed 2) (RealEx.hidden 2) h (calls := []) rfl rfl h2
  exact ⟨p, w1, w2, h, h2, by simpa [RealEx.args] using this.2.2⟩

-- a step for the derivative 2, and one for 0
example : 5 < signStep 1 5 2 ∧ signStep 1 5 0 = 5 := ⟨(C89_uphill one_pos 5 2).1 (by norm_num), (C89_uphill one_pos 5 0).2.2.1 rfl⟩

end Goslide.Props
