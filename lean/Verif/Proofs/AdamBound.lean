import Verif.Spec.Adam
import Verif.Proofs.NetworkSettled
import Verif.Props.Train
/-
The first moment of Adam is bounded by the second one; bounds for a step.
-/
set_option linter.unusedSectionVars false
namespace Goslide.Network
open Goslide Node Lsh Configuration Spec.Node Spec.Network Layer Xcrepo

theorem mom_step {m s g : ℝ} (h : m ^ 2 ≤ 370 / 7 * s) :
    (GoFloat.add (GoFloat.mul (GoFloat.const (9 / 10)) m) (GoFloat.mul (GoFloat.const (1 / 10)) g) : ℝ) ^ 2 ≤
      370 / 7 * (GoFloat.add (GoFloat.mul (GoFloat.const (999 / 1000)) s) (GoFloat.mul (GoFloat.mul (GoFloat.const (1 / 1000)) g) g) : ℝ) := by
  simp only [GoFloat.add, GoFloat.mul, GoFloat.const]
  push_cast
  nlinarith [sq_nonneg (m - 10 / 21 * g), h]

theorem weight_step {lr y m s : ℝ} (hlr : 0 ≤ lr) (h : m ^ 2 ≤ 370 / 7 * s) :
    |(GoFloat.add y (GoFloat.div (GoFloat.mul (GoFloat.mul GoFloat.one lr) m) (GoFloat.add (GoFloat.sqrt s) (GoFloat.const (1 / 100000000)))) : ℝ) - y| ≤
      728 / 100 * lr := by
  have hs : 0 ≤ s := by nlinarith [sq_nonneg m]
  have e : (GoFloat.one : ℝ) = 1 := by simp [GoFloat.one, GoFloat.const]
  simp only [GoFloat.add, GoFloat.mul, GoFloat.div, GoFloat.sqrt, e, GoFloat.const]
  push_cast
  rw [add_sub_cancel_left, one_mul, abs_div, abs_mul, abs_of_nonneg hlr]
  have hq := Real.sqrt_nonneg s
  have hm : |m| ≤ 728 / 100 * √s := by
    refine abs_le_of_sq_le_sq ?_ (by positivity)
    rw [mul_pow, Real.sq_sqrt hs]
    nlinarith
  have hd : 0 < √s + 1 / 100000000 := by positivity
  rw [abs_of_pos hd, div_le_iff₀ hd]
  nlinarith [mul_le_mul_of_nonneg_left hm hlr]

theorem pow_bound (n : Nat) : 2 * (9 / 10 : ℝ) ^ n ≤ (999 / 1000) ^ n + (81 / 100) ^ n := by
  induction n with
  | zero => norm_num
  | succ n ih =>
    have h : (81 / 100 : ℝ) ^ n ≤ (9 / 10) ^ n := pow_le_pow_left₀ (by norm_num) (by norm_num) n
    have h0 : (0 : ℝ) ≤ (81 / 100) ^ n := by positivity
    rw [pow_succ, pow_succ, pow_succ]
    nlinarith

theorem rate_bound {rate : ℝ} {iter : Int} (hr : 0 ≤ rate) (hi : 0 ≤ iter) : 0 ≤ adamRate rate iter ∧ adamRate rate iter ≤ rate := by
  obtain ⟨n, rfl⟩ := Int.eq_ofNat_of_zero_le hi
  have e : ∀ b : ℝ, b ^ ((((n : Int) : ℚ) : ℝ) + ((1 : ℚ) : ℝ)) = b ^ (n + 1) := fun b => by
    rw [show ((((n : Int) : ℚ) : ℝ) + ((1 : ℚ) : ℝ)) = ((n + 1 : Nat) : ℝ) by push_cast; ring, Real.rpow_natCast]
  unfold adamRate
  simp only [GoFloat.div, GoFloat.mul, GoFloat.sub, GoFloat.sqrt, GoFloat.pow, GoFloat.add, GoFloat.ofInt, GoFloat.const]
  rw [e, e]
  push_cast
  have h1 : (9 / 10 : ℝ) ^ (n + 1) < 1 := pow_lt_one₀ (by norm_num) (by norm_num) (by omega)
  have h2 := pow_bound (n + 1)
  have h3 : (81 / 100 : ℝ) ^ (n + 1) = ((9 / 10) ^ (n + 1)) ^ 2 := by rw [← pow_mul, mul_comm, pow_mul]; norm_num
  have hd : (0 : ℝ) < 1 - (9 / 10) ^ (n + 1) := by linarith
  refine ⟨by positivity, ?_⟩
  rw [div_le_iff₀ hd]
  refine mul_le_mul_of_nonneg_left ?_ hr
  rw [Real.sqrt_le_left hd.le]
  nlinarith

/-- The first moments of a node are bounded by its second moments. -/
structure Paced (P : Params ℝ) : Prop where
  bias : P.momBias ^ 2 ≤ 370 / 7 * P.velBias
  weights : ∀ (k : Nat) (m s : ℝ), P.mom[k]? = some m → P.vel[k]? = some s → m ^ 2 ≤ 370 / 7 * s

/-- All nodes of the network. -/
def AllPaced (Q : List (State ℝ)) : Prop := ∀ g ∈ Q, ∀ v ∈ g.views, Paced v.params

theorem paced_step {lr : ℝ} {P P' : Params ℝ} {G : List ℝ} {gb : ℝ} (h : Paced P) (s : AdamStep lr P G gb P')
    (l1 : P.mom.length = P.weights.length) (l2 : P.vel.length = P.weights.length) (l3 : P'.mom.length = P'.weights.length) : Paced P' := by
  refine ⟨by rw [s.momBias, s.velBias]; exact mom_step h.bias, ?_⟩
  intro k m v hm hv
  have hk := (List.getElem?_eq_some_iff.mp hm).1
  have e := s.len
  have hb : ∀ {l : List ℝ}, l.length = P.weights.length → l[k]? = some (l[k]?.getD 0) := fun hl => by
    rw [List.getElem?_eq_getElem (by omega)]; rfl
  obtain ⟨q1, q2, -⟩ := s.step k _ _ _ _ (hb rfl) (hb l1) (hb l2) (hb e.2.2)
  rw [hm] at q1
  rw [hv] at q2
  cases q1; cases q2
  exact mom_step (h.weights k _ _ (hb l1) (hb l2))

theorem near_step {lr : ℝ} (hlr : 0 ≤ lr) {P P' : Params ℝ} {G : List ℝ} {gb : ℝ} (h : Paced P) (s : AdamStep lr P G gb P')
    (l1 : P.mom.length = P.weights.length) (l2 : P.vel.length = P.weights.length) :
    List.Forall₂ (fun a b => |b - a| ≤ 728 / 100 * lr) P.weights P'.weights ∧ |P'.bias - P.bias| ≤ 728 / 100 * lr := by
  have e := s.len
  constructor
  · rw [List.forall₂_iff_get]
    refine ⟨e.1.symm, fun k hk hk' => ?_⟩
    have hb : ∀ {l : List ℝ}, l.length = P.weights.length → l[k]? = some (l[k]?.getD 0) := fun hl => by
      rw [List.getElem?_eq_getElem (by omega)]; rfl
    obtain ⟨q1, q2, m', v', q3, q4, q5⟩ := s.step k _ _ _ _ (List.getElem?_eq_getElem hk) (hb l1) (hb l2) (hb e.2.2)
    rw [q1] at q3
    rw [q2] at q4
    cases q3; cases q4
    rw [List.getElem?_eq_getElem hk', Option.some.injEq] at q5
    rw [List.get_eq_getElem, List.get_eq_getElem]
    rw [q5]
    exact weight_step hlr (mom_step (h.weights k _ _ (hb l1) (hb l2)))
  · rw [s.bias]
    exact weight_step hlr (by rw [s.momBias, s.velBias]; exact mom_step h.bias)

theorem paced_new {cfg : Config ℝ} (hl : cfg.LoadWeight = false) {c : Int} {a : NetArgs ℝ} (ha : a.Typed) {w w' : World ℝ} {p : Ptr}
    (hr : Network.new cfg c a.layers a.sizes a.types a.batch a.rate a.dim a.k a.l a.rangePow a.sparsity w = .ok (p, w')) :
    ∃ n Q, NetAt w' p n Q ∧ AllPaced Q := by
  obtain ⟨n, Q, t, e1, e2, e3, hb⟩ := new_trainable hl hr ha.types ha.last
  refine ⟨n, Q, t.net, fun g hg v hv => ?_⟩
  obtain ⟨j, hj⟩ := List.mem_iff_getElem?.mp hg
  obtain ⟨prev, ⟨size, ty, k, l, rp, P, w1, w2, -, -, -, -, -, B⟩, -⟩ := hb j g hj
  unfold State.views at hv
  rw [B.nodes] at hv
  obtain ⟨z, hz, rfl⟩ := List.mem_map.mp hv
  obtain ⟨m, hm, rfl⟩ := mem_nodes hz
  have e0 : (GoFloat.zero : ℝ) = 0 := by simp [GoFloat.zero, GoFloat.const]
  refine ⟨?_, fun k x y hx hy => ?_⟩
  · show (GoFloat.zero : ℝ) ^ 2 ≤ 370 / 7 * (GoFloat.zero : ℝ)
    rw [e0]; norm_num
  · have hx : (if P.adam then P.zeros else [])[k]? = some x := hx
    have hy : (if P.adam then P.zeros else [])[k]? = some y := hy
    rw [hx] at hy
    cases hy
    split at hx
    · rw [show x = GoFloat.zero from (List.mem_replicate.mp (List.mem_of_getElem? hx)).2, e0]; norm_num
    · simp at hx

end Goslide.Network
