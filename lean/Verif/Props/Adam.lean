import Verif.Proofs.AdamLife
import Verif.Props.Program
import Verif.Props.Gradient
/-
How far training moves the weights: C85. Over the real numbers, that is with exact arithmetic.
-/
set_option linter.unusedSectionVars false
namespace Goslide.Props
open Goslide Node Lsh Configuration Spec.Node Spec.Network Layer Network Xcrepo Spec

/-- C85. With Adam and exact arithmetic a training step of a network built by `New` and then used by its owner moves no weight and no bias by more
than 7.28 times the learning rate, whatever the examples are and whatever the network has seen before. -/
theorem C85_step {cfg : Config ℝ} (hl : cfg.LoadWeight = false) (hu : cfg.UseAdam = true) {a : NetArgs ℝ} (ha : a.Typed) (hrate : 0 ≤ a.rate) {fuel : Nat} {c : Int}
    {w w' : World ℝ} {p p' : Ptr} {es : List (Example ℝ)} {iter : Int} (hi : 0 ≤ iter) {rehash rebuild : Bool} {x : ℝ} (life : Life cfg c a w p)
    (hr : processInput cfg fuel p c es iter rehash rebuild w = .ok ((x, p'), w')) :
    p' = p ∧ ∃ X X', weightsOf w p = some X ∧ weightsOf w' p = some X' ∧ Near (728 / 100 * a.rate) X X' := by
  obtain ⟨n, Q, al, hp⟩ := life.paced hl hu ha
  obtain ⟨e, Q', N, -, h⟩ := paced_train hu al.trainable hr hp
  rw [al.rate] at h
  obtain ⟨h1, h2⟩ := rate_bound hrate hi
  exact ⟨e, _, _, weightsOf_at al.trainable.net, weightsOf_at N, near_mono (by linarith) (h h1)⟩

/-- C85, for any calls: no more than 7.28 times the learning rate per training step; predictions move nothing. -/
theorem C85_calls {cfg : Config ℝ} (hl : cfg.LoadWeight = false) (hu : cfg.UseAdam = true) {a : NetArgs ℝ} (ha : a.Typed) (hrate : 0 ≤ a.rate) {fuel : Nat} {c : Int} :
    ∀ (calls : List (NetCall ℝ)), Counted calls → ∀ {w w' : World ℝ} {p p' : Ptr}, Life cfg c a w p → runCalls cfg fuel c calls p w = .ok (p', w') →
    p' = p ∧ ∃ X X', weightsOf w p = some X ∧ weightsOf w' p = some X' ∧ Near (728 / 100 * a.rate * steps calls) X X' := by
  intro calls
  induction calls with
  | nil =>
    intro _ w w' p p' life h
    cases h
    obtain ⟨n, Q, al, -⟩ := life.paced hl hu ha
    refine ⟨rfl, _, _, weightsOf_at al.trainable.net, weightsOf_at al.trainable.net, ?_⟩
    simpa [steps] using near_refl _
  | cons call calls ih =>
    intro hc w w' p p' life h
    have hc' : Counted calls := fun es iter rh rb hm => hc es iter rh rb (List.mem_cons_of_mem _ hm)
    cases call with
    | train es iter rehash rebuild =>
      unfold runCalls at h
      cases hr : processInput cfg fuel p c es iter rehash rebuild w with
      | error e => rw [hr] at h; cases h
      | ok o =>
        obtain ⟨⟨x, q⟩, w1⟩ := o
        rw [hr] at h
        dsimp only at h
        obtain ⟨rfl, X, X1, h1, h2, h3⟩ := C85_step hl hu ha hrate (hc _ _ _ _ List.mem_cons_self) life hr
        obtain ⟨rfl, Y, X2, h4, h5, h6⟩ := ih hc' (life.train hr) h
        rw [h2] at h4
        cases h4
        refine ⟨rfl, X, X2, h1, h5, ?_⟩
        have e : steps (NetCall.train es iter rehash rebuild :: calls) = steps calls + 1 := by simp [steps]
        rw [e]
        push_cast
        rw [mul_add, mul_one, add_comm]
        exact near_trans h3 h6
    | predict es =>
      unfold runCalls at h
      cases hr : predictClass cfg fuel p c es w with
      | error e => rw [hr] at h; cases h
      | ok o =>
        obtain ⟨⟨m, q⟩, w1⟩ := o
        rw [hr] at h
        dsimp only at h
        obtain ⟨n, Q, al, -⟩ := life.paced hl hu ha
        obtain ⟨rfl, -, -, -⟩ := al.predict hr
        have hw : weightsOf w1 q = weightsOf w q := by
          unfold weightsOf
          rw [learned_predict al.trainable.net hr]
        obtain ⟨rfl, Y, X2, h4, h5, h6⟩ := ih hc' (life.predict hr) h
        refine ⟨rfl, Y, X2, by rw [← hw]; exact h4, h5, ?_⟩
        have e : steps (NetCall.predict es :: calls) = steps calls := by simp [steps]
        rw [e]
        exact h6

theorem steps_append {F : Type} (l m : List (NetCall F)) : steps (l ++ m) = steps l + steps m := List.countP_append

theorem steps_flatMap {F : Type} {f : Nat → List (NetCall F)} {k : Nat} : ∀ (l : List Nat), (∀ x ∈ l, steps (f x) = k) → steps (l.flatMap f) = l.length * k
  | [], _ => by simp [steps]
  | x :: l, h => by
    rw [List.flatMap_cons, steps_append, h x List.mem_cons_self, steps_flatMap l (fun y hy => h y (List.mem_cons_of_mem _ hy)), List.length_cons, Nat.succ_mul]
    omega

theorem steps_predictions (cfg : Config ℝ) (es : List (Example ℝ)) (n : Nat) : steps (predictions cfg es n) = 0 := by
  unfold steps predictions
  rw [List.countP_eq_zero]
  intro c hc
  obtain ⟨i, -, rfl⟩ := List.mem_map.mp hc
  simp

/-- The schedule has one training step per batch and epoch. -/
theorem steps_schedule (cfg : Config ℝ) (es esTest : List (Example ℝ)) :
    steps (schedule cfg es esTest) = cfg.Epoch.toNat * (cfg.TotRecords / cfg.BatchSize).toNat := by
  unfold schedule
  refine (steps_flatMap _ (k := (cfg.TotRecords / cfg.BatchSize).toNat) (fun e _ => ?_)).trans (by rw [List.length_range])
  unfold epochCalls
  rw [steps_append, steps_predictions, steps_flatMap (k := 1) _ (fun i _ => ?_), List.length_range]
  · omega
  · unfold trainCalls
    rw [steps_append]
    split
    · rw [steps_predictions]; rfl
    · rfl

theorem counted_schedule (cfg : Config ℝ) (es esTest : List (Example ℝ)) : Counted (schedule cfg es esTest) := by
  intro xs iter rh rb h
  have hp : ∀ n, NetCall.train xs iter rh rb ∉ predictions cfg esTest n := fun n hm => by
    obtain ⟨i, -, h⟩ := List.mem_map.mp hm
    cases h
  unfold schedule at h
  obtain ⟨e, -, h⟩ := List.mem_flatMap.mp h
  rcases List.mem_append.mp h with h | h
  · obtain ⟨i, -, h⟩ := List.mem_flatMap.mp h
    rcases List.mem_append.mp h with h | h
    · split at h
      · exact absurd h (hp _)
      · cases h
    · have := List.mem_singleton.mp h
      injection this with h1 h2
      omega
  · exact absurd h (hp _)

/-- C85, for the program: if it finishes, no weight and no bias is farther from its initial value than 7.28 times the learning rate times the number of
training batches. -/
theorem C85_main {cfg : Config ℝ} (hl : cfg.LoadWeight = false) (hu : cfg.UseAdam = true) (hdr : DriverOk cfg) (hrate : 0 ≤ cfg.LearningRate)
    {parseFloat : Bytes → Option ℝ} {files : Bytes → Option Bytes} {es esTest : List (Example ℝ)}
    (htrain : HoldsExamples parseFloat files cfg.TrainData es) (htest : HoldsExamples parseFloat files cfg.TestData esTest) {fuel : Nat} {w : World ℝ}
    {st : Driver.State ℝ (World ℝ)} (h : Program.main parseFloat files cfg fuel w = .ok st) :
    ∃ p w1 X X', Network.new cfg 0 cfg.NumLayer cfg.SizesOfLayers (argsOf cfg).types cfg.BatchSize cfg.LearningRate cfg.InputDim cfg.K cfg.L
        cfg.RangePow cfg.Sparsity w = .ok (p, w1) ∧ weightsOf w1 p = some X ∧ weightsOf st.heap p = some X' ∧
      Near (728 / 100 * cfg.LearningRate * (cfg.Epoch.toNat * (cfg.TotRecords / cfg.BatchSize).toNat : Nat)) X X' := by
  rw [C79_log hdr htrain htest] at h
  cases hn : Network.new cfg 0 cfg.NumLayer cfg.SizesOfLayers (argsOf cfg).types cfg.BatchSize cfg.LearningRate cfg.InputDim cfg.K cfg.L
        cfg.RangePow cfg.Sparsity w with
  | error e => rw [hn] at h; cases h
  | ok o =>
    obtain ⟨p, w1⟩ := o
    rw [hn, ok_bind] at h
    dsimp only at h
    cases hc : runCalls cfg fuel 0 (schedule cfg es esTest) p w1 with
    | error e => rw [hc] at h; cases h
    | ok o =>
      obtain ⟨q, w2⟩ := o
      rw [hc, ok_bind] at h
      cases h
      obtain ⟨rfl, X, X', h1, h2, h3⟩ := C85_calls (a := argsOf cfg) hl hu (typed_argsOf hdr.layers) hrate _ (counted_schedule cfg es esTest) (.new hn) hc
      rw [steps_schedule] at h3
      exact ⟨q, w1, X, X', rfl, h1, h2, h3⟩

-- the hypotheses of C85_step hold for a network and a training step
example : ∃ p w1 w2 X X', Life RealEx.cfg 0 (RealEx.args 2) w1 p ∧ processInput RealEx.cfg 0 p 0 RealEx.examples 0 false false w1 = .ok ((GoFloat.zero, p), w2) ∧
    weightsOf w1 p = some X ∧ weightsOf w2 p = some X' ∧ Near (728 / 100) X X' := by
  obtain ⟨p, w1, w2, life, hr⟩ := RealEx.runs (b := 2) (by decide) RealEx.w0
  obtain ⟨-, X, X', h1, h2, h3⟩ := C85_step (cfg := RealEx.cfg) rfl rfl (RealEx.typed 2) (by show (0 : ℝ) ≤ 1; norm_num) (le_refl 0) life hr
  exact ⟨p, w1, w2, X, X', life, hr, h1, h2, by simpa [RealEx.args] using h3⟩

example : ¬ Near 1 [[([0, 5], 3)]] [[([0, 7], 3)]] ∧ Near 2 [[([0, 5], 3)]] [[([0, 7], 3)]] := by
  constructor
  · intro h
    simp only [Near, List.forall₂_cons, List.forall₂_nil_left_iff] at h
    norm_num at h
  · simp only [Near, List.forall₂_cons, List.forall₂_nil_left_iff]
    norm_num

/-- The learning rate itself is not a bound: a weight that gets its first gradient in a late iteration is moved by more than 3 times the learning rate. -/
theorem C85_more_than_rate : 3 < (adamWeight (adamRate 1 1000000) 0 (adamMom 0 1) (adamVel 0 1) : ℝ) := by
  have e : ∀ b : ℝ, b ^ ((((1000000 : Int) : ℚ) : ℝ) + ((1 : ℚ) : ℝ)) = b ^ 1000001 := fun b => by
    rw [show ((((1000000 : Int) : ℚ) : ℝ) + ((1 : ℚ) : ℝ)) = ((1000001 : Nat) : ℝ) by norm_num, Real.rpow_natCast]
  have e1 : (GoFloat.one : ℝ) = 1 := by simp [GoFloat.one, GoFloat.const]
  unfold adamWeight adamRate adamMom adamVel
  simp only [GoFloat.div, GoFloat.mul, GoFloat.sub, GoFloat.sqrt, GoFloat.pow, GoFloat.add, GoFloat.ofInt, GoFloat.const, e1]
  rw [e, e]
  push_cast
  have h1 : (999 / 1000 : ℝ) ^ 1000001 ≤ 1 / 1000 := by
    have h := one_add_mul_le_pow (a := (1 / 999 : ℝ)) (by norm_num) 1000001
    have h2 : (999 / 1000 : ℝ) ^ 1000001 * (1 + 1 / 999) ^ 1000001 = 1 := by rw [← mul_pow]; norm_num
    have h3 : (0 : ℝ) < (999 / 1000) ^ 1000001 := by positivity
    generalize (999 / 1000 : ℝ) ^ 1000001 = A at *
    generalize (1 + 1 / 999 : ℝ) ^ 1000001 = B at *
    push_cast at h
    nlinarith
  have h2 : (0 : ℝ) < (9 / 10) ^ 1000001 := by positivity
  have h3 : (9 / 10 : ℝ) ^ 1000001 < 1 := pow_lt_one₀ (by norm_num) (by norm_num) (by norm_num)
  generalize (999 / 1000 : ℝ) ^ 1000001 = A at *
  generalize (9 / 10 : ℝ) ^ 1000001 = B at *
  have h4 : 99 / 100 ≤ √(1 - A) := Real.le_sqrt_of_sq_le (by nlinarith)
  have h5 : √(999 / 1000 * 0 + 1 / 1000 * 1 * 1) ≤ 317 / 10000 := by
    rw [Real.sqrt_le_left (by norm_num)]
    norm_num
  have h6 := Real.sqrt_nonneg (999 / 1000 * 0 + 1 / 1000 * 1 * 1)
  generalize √(999 / 1000 * 0 + 1 / 1000 * 1 * 1) = s at *
  have h7 : 99 / 100 ≤ √(1 - A) / (1 - B) := by
    rw [le_div_iff₀ (by linarith)]
    nlinarith
  rw [one_mul, one_mul, zero_add, lt_div_iff₀ (by linarith)]
  generalize √(1 - A) / (1 - B) = r at *
  nlinarith

end Goslide.Props
