import Verif.Model.Driver64
import Verif.Proofs.Driver
import Verif.Props.Configuration
/-
Helper lemmas: the driver with 64-bit integers.
-/
set_option linter.unusedSectionVars false
namespace Goslide.Driver64
open Configuration Xcrepo Driver Spec
variable {F P H : Type} [GoFloat F]

/-- The range of a 64-bit `int`. -/
def InRange (a : Int) : Prop := -(2 : Int) ^ 63 ≤ a ∧ a < 2 ^ 63

theorem wrap_id {a : Int} (h : InRange a) : wrap a = a := by
  obtain ⟨h1, h2⟩ := h
  have e : ((2 ^ 64 : Nat) : Int) = 18446744073709551616 := by decide
  have h1' : -9223372036854775808 ≤ a := h1
  have h2' : a < 9223372036854775808 := h2
  exact Int.bmod_eq_of_le (by omega) (by omega)

theorem wrap_range (a : Int) : InRange (wrap a) := by
  have e : ((2 ^ 64 : Nat) : Int) = 18446744073709551616 := by decide
  have h1 := @Int.le_bmod a (2 ^ 64) (by decide)
  have h2 := @Int.bmod_lt a (2 ^ 64) (by decide)
  rw [e] at h1 h2
  refine ⟨?_, ?_⟩
  · show (-9223372036854775808 : Int) ≤ a.bmod (2 ^ 64); omega
  · show a.bmod (2 ^ 64) < (9223372036854775808 : Int); omega

theorem inRange_nonneg {a b : Int} (h0 : 0 ≤ a) (h : a ≤ b) (hb : b < 2 ^ 63) : InRange a := by
  have hb' : b < 9223372036854775808 := hb
  exact ⟨by show (-9223372036854775808 : Int) ≤ a; omega, by show a < (9223372036854775808 : Int); omega⟩

theorem sum_eq {l : List Int} (h0 : ∀ x ∈ l, 0 ≤ x) (h : l.sum < 2 ^ 63) : sum l = l.sum := by
  have key : ∀ (l : List Int) (a : Int), (∀ x ∈ l, 0 ≤ x) → 0 ≤ a → a + l.sum < 2 ^ 63 →
      l.foldl (fun a b => wrap (a + b)) a = a + l.sum := by
    intro l
    induction l with
    | nil => intro a _ _ _; simp
    | cons x l ih =>
      intro a h0 ha h
      have hx := h0 x (by simp)
      have hl : 0 ≤ l.sum := by
        clear ih h
        induction l with
        | nil => simp
        | cons y l ih =>
          rw [List.sum_cons]
          have := ih (fun z hz => h0 z (by simp only [List.mem_cons] at hz ⊢; rcases hz with h | h <;> simp [h]))
          have := h0 y (by simp)
          omega
      rw [List.sum_cons] at h ⊢
      rw [List.foldl_cons, wrap_id (inRange_nonneg (b := a + (x + l.sum)) (by omega) (by omega) h),
        ih _ (fun z hz => h0 z (by simp [hz])) (by omega) (by rw [Int.add_assoc]; exact h)]
      omega
  have := key l 0 h0 (by omega) (by rw [Int.zero_add]; exact h)
  rw [Int.zero_add] at this
  exact this

theorem split_length (sep : UInt8) : ∀ s : Bytes, (split sep s).length ≤ s.length + 1 := by
  intro s
  induction s with
  | nil => simp [split]
  | cons c cs ih =>
    rw [split]
    split
    · simp; omega
    · cases h : split sep cs with
      | nil => simp
      | cons t ts => rw [h] at ih; simp at ih ⊢; omega

/-- The first token and the number of the others. -/
theorem split_head_length (sep : UInt8) : ∀ (s v : Bytes) (vs : List Bytes), split sep s = v :: vs → v.length + vs.length ≤ s.length := by
  intro s
  induction s with
  | nil => intro v vs h; rw [split] at h; cases h; simp
  | cons c cs ih =>
    intro v vs h
    rw [split] at h
    split at h
    · cases h
      have := split_length sep cs
      simp; omega
    · cases hs : split sep cs with
      | nil => rw [hs] at h; cases h; simp
      | cons t ts =>
        rw [hs] at h
        have := ih t ts hs
        cases h
        simp; omega

/-- A line of `n` bytes has at most `n` labels and at most `n` features. -/
theorem lineResult_sizes {pf : Bytes → Option F} {nF nL : Int} {line : Bytes} {e : Example F} (h : lineResult pf nF nL line = .ok e) :
    e.Features.length ≤ line.length ∧ e.Labels.length ≤ line.length := by
  unfold lineResult at h
  cases hs : split 32 line with
  | nil => rw [hs] at h; cases h
  | cons v vs =>
    rw [hs] at h
    dsimp only at h
    have hlen := split_head_length 32 line v vs hs
    rcases labelPart_cases nL v with ⟨ls, hw, hl⟩ | ⟨_, _, _, _, -, -, -, -, -, hl⟩ | ⟨_, _, _, _, _, -, -, -, -, hl⟩
    · rw [hl] at h
      dsimp only at h
      by_cases h0 : vs.length = 0
      · rw [if_pos h0] at h; cases h
      · rw [if_neg h0] at h
        have hll : ls.length ≤ v.length + 1 := by
          unfold labelPart at hl
          split at hl
          · cases hl; simp
          · rcases labelsLoop_cases nL (split 44 v) [] with ⟨ls', ha, hr⟩ | ⟨_, _, _, _, -, -, -, hr⟩ | ⟨_, _, _, _, _, -, -, -, -, hr⟩
            · rw [hr] at hl
              cases hl
              have := all2_length ha
              have := split_length 44 v
              simp
              omega
            · rw [hl] at hr; cases hr
            · rw [hl] at hr; cases hr
        rcases featuresLoop_cases pf nF vs [] (fun t ht => split_free 32 line t (by rw [hs]; simp [ht])) with
          ⟨ps, ha, hr⟩ | ⟨_, _, _, _, -, -, -, hr⟩ | ⟨_, _, _, _, _, _, -, -, -, -, -, hr⟩
        · rw [hr] at h
          cases h
          have := all2_length ha
          simp
          omega
        all_goals
          generalize featuresLoop pf nF [] vs = r at h hr
          obtain ⟨fs, err⟩ := r
          dsimp only at hr
          subst hr
          cases h
    all_goals
      generalize labelPart nL v = r at h hl
      obtain ⟨ls, err⟩ := r
      dsimp only at hl
      subst hl
      cases h

/-- The scanner reads on: a call of `Scan` that delivers an example consumes at least a byte, and at least as many as it delivers features
or labels. -/
theorem scan_sizes {pf : Bytes → Option F} {s s' : Scanner F} (h : scan pf s = (true, s')) :
    s'.buf.rest.length + 1 ≤ s.buf.rest.length ∧ s'.ex.Features.length + s'.buf.rest.length ≤ s.buf.rest.length ∧
    s'.ex.Labels.length + s'.buf.rest.length ≤ s.buf.rest.length := by
  rcases scan_cases pf s with ⟨-, h'⟩ | ⟨-, -, h'⟩ | ⟨-, -, -, h'⟩ | ⟨-, hne, -, e, hl, h'⟩ | ⟨-, -, -, e, x, -, h'⟩ <;> rw [h] at h' <;> cases h'
  obtain ⟨h1, h2⟩ := lineResult_sizes hl
  have h3 : (dropCR (takeLine s.buf.rest)).length ≤ (takeLine s.buf.rest).length := by
    unfold dropCR; split <;> simp
  have h4 : (dropLine s.buf.rest).length + (takeLine s.buf.rest).length ≤ s.buf.rest.length ∧
      (dropLine s.buf.rest).length + 1 ≤ s.buf.rest.length := by
    rcases line_split s.buf.rest with ⟨-, h5, h6⟩ | h5
    · rw [h5, h6]
      have : s.buf.rest.length ≠ 0 := fun h => hne (List.length_eq_zero_iff.mp h)
      simp; omega
    · have := congrArg List.length h5
      simp at this
      omega
  dsimp only [advance]
  omega

theorem scan_rest {pf : Bytes → Option F} (s : Scanner F) : (scan pf s).2.buf.rest.length ≤ s.buf.rest.length := by
  have h4 : (dropLine s.buf.rest).length ≤ s.buf.rest.length := by
    rcases line_split s.buf.rest with ⟨-, h5, h6⟩ | h5
    · rw [h6]; simp
    · have := congrArg List.length h5
      simp at this
      omega
  rcases scan_cases pf s with ⟨-, h⟩ | ⟨-, -, h⟩ | ⟨-, -, -, h⟩ | ⟨-, -, -, e, -, h⟩ | ⟨-, -, -, e, x, -, h⟩ <;> rw [h]
  · exact Nat.le_refl _
  · exact Nat.le_refl _
  · exact Nat.le_refl _
  · exact h4
  · exact h4

theorem readBatch_sizes (pf : Bytes → Option F) : ∀ (n : Nat) (s : Scanner F),
    (readBatch pf n s).1.length + (readBatch pf n s).2.buf.rest.length ≤ s.buf.rest.length ∧
    ((readBatch pf n s).1.map (fun e => (e.Features.length : Int))).sum + (readBatch pf n s).2.buf.rest.length ≤ s.buf.rest.length ∧
    ((readBatch pf n s).1.map (fun e => (e.Labels.length : Int))).sum + (readBatch pf n s).2.buf.rest.length ≤ s.buf.rest.length := by
  intro n
  induction n with
  | zero => intro s; simp [readBatch]
  | succ n ih =>
    intro s
    rw [readBatch]
    cases h : scan pf s with
    | mk b s' =>
      have hr := @scan_rest _ _ pf s
      rw [h] at hr
      cases b with
      | false => simp; exact hr
      | true =>
        obtain ⟨h1, h2, h3⟩ := scan_sizes h
        obtain ⟨i1, i2, i3⟩ := ih s'
        dsimp only
        simp only [List.map_cons, List.sum_cons, List.length_cons]
        omega

theorem evalLoop_eq {api : NetApi F P H} (hapi : CountsCorrectly api) (pf : Bytes → Option F) (cfg : Config F) :
    ∀ (n : Nat) (i tot : Int) (s : Scanner F) (p : P) (st : State F H), 0 ≤ i → i + n < 2 ^ 63 → 0 ≤ tot → tot + s.buf.rest.length < 2 ^ 63 →
      evalLoop api pf cfg n i tot s p st = Driver.evalLoop api pf cfg n i tot s p st := by
  intro n
  induction n with
  | zero => intros; rfl
  | succ n ih =>
    intro i tot s p st hi hin ht hs
    rw [evalLoop, Driver.evalLoop]
    obtain ⟨h1, h2, h3⟩ := readBatch_sizes pf cfg.BatchSize.toNat s
    have hnn : ∀ (f : Example F → Nat) (es : List (Example F)), ∀ x ∈ es.map (fun e => (f e : Int)), (0 : Int) ≤ x := by
      intro f es x hx
      obtain ⟨e, -, rfl⟩ := List.mem_map.mp hx
      exact Int.natCast_nonneg _
    generalize readBatch pf cfg.BatchSize.toNat s = r at h1 h2 h3 ⊢
    obtain ⟨es, s'⟩ := r
    dsimp only at h1 h2 h3 ⊢
    have e1 := sum_eq (hnn (·.Features.length) es) (by omega)
    have e2 := sum_eq (hnn (·.Labels.length) es) (by omega)
    rw [e1, e2]
    split
    · rfl
    · cases hp : api.predictClass p es st.heap with
      | error e => rfl
      | ok x =>
        obtain ⟨c, p', heap⟩ := x
        have hc := hapi _ _ _ _ _ _ hp
        simp only [ok_bind]
        rw [wrap_id (inRange_nonneg (b := tot + c) (by omega) (Int.le_refl _) (by omega)),
          wrap_id (inRange_nonneg (b := i + 1) (by omega) (Int.le_refl _) (by omega))]
        exact ih _ _ _ _ _ (by omega) (by omega) (by omega) (by omega)

theorem newScanner_rest (content : Bytes) : (newScanner content : Scanner F).buf.rest.length ≤ content.length := by
  have h4 : (dropLine content).length ≤ content.length := by
    rcases line_split content with ⟨-, h5, h6⟩ | h5
    · rw [h6]; simp
    · have := congrArg List.length h5
      simp at this
      omega
  unfold newScanner scanHeader bufScan
  dsimp only
  repeat' split
  all_goals first | exact Nat.le_refl _ | exact h4 | skip
  all_goals simp_all

theorem evaluateSvm_eq {api : NetApi F P H} (hapi : CountsCorrectly api) (pf : Bytes → Option F) {files : Bytes → Option Bytes} {cfg : Config F}
    (hfile : ∀ content, files cfg.TestData = some content → content.length < 2 ^ 63) {n : Int} (hn : n < 2 ^ 63) (p : P) (iter : Int) (st : State F H) :
    evaluateSvm api pf files cfg n p iter st = Driver.evaluateSvm api pf files cfg n p iter st := by
  unfold evaluateSvm Driver.evaluateSvm
  cases ho : (openData files cfg.TestData : Go (Scanner F)) with
  | error e => rfl
  | ok s =>
    simp only [ok_bind]
    have hs : s.buf.rest.length < 2 ^ 63 := by
      unfold openData at ho
      cases hf : files cfg.TestData with
      | none => rw [hf] at ho; cases ho
      | some content =>
        rw [hf] at ho
        dsimp only at ho
        split at ho
        · cases ho
        · cases ho
          have := newScanner_rest (F := F) content
          have := hfile content hf
          omega
    rw [evalLoop_eq hapi pf cfg n.toNat 0 0 s p st (Int.le_refl _) (by omega) (Int.le_refl _) (by omega)]

theorem tdiv_bounds {a b : Int} (hb : 0 < b) (h : InRange a) : InRange (a.tdiv b) ∧ (-(2 : Int) ^ 63 < a → -(2 : Int) ^ 63 < a.tdiv b) := by
  have h1 := Int.natAbs_tdiv_le_natAbs a b
  have h3 : 0 ≤ a → 0 ≤ a.tdiv b := fun h => Int.tdiv_nonneg h (by omega)
  obtain ⟨h4, h5⟩ := h
  have h4' : -9223372036854775808 ≤ a := h4
  have h5' : a < 9223372036854775808 := h5
  have h6 : a ≤ 0 → a.tdiv b ≤ 0 := fun h => by
    have := Int.tdiv_nonneg (a := -a) (b := b) (by omega) (by omega)
    rw [Int.neg_tdiv] at this
    omega
  refine ⟨⟨?_, ?_⟩, fun h => ?_⟩
  · show (-9223372036854775808 : Int) ≤ _; omega
  · show _ < (9223372036854775808 : Int); omega
  · show (-9223372036854775808 : Int) < _
    have h' : -9223372036854775808 < a := h
    omega

theorem goDiv_eq {a b : Int} (hb : 0 ≤ b) (h : InRange a) : goDiv a b = Driver.goDiv a b := by
  unfold goDiv Driver.goDiv
  split
  · rfl
  · rw [wrap_id (tdiv_bounds (by omega) h).1]

theorem flags_eq {cfg : Config F} (hB : 0 ≤ cfg.BatchSize) (h1 : InRange cfg.Rehash) (h2 : InRange cfg.Rebuild) (h1' : -(2 : Int) ^ 63 < cfg.Rehash)
    (h2' : -(2 : Int) ^ 63 < cfg.Rebuild) {nb epoch i : Int} (h3 : InRange (epoch * nb)) (h4 : InRange (epoch * nb + i)) :
    flags cfg nb epoch i = Driver.flags cfg nb epoch i := by
  unfold flags Driver.flags
  rw [wrap_id h3, wrap_id h4, goDiv_eq hB h1, goDiv_eq hB h2]
  split
  · by_cases h0 : cfg.BatchSize = 0
    · have e : ∀ x, Driver.goDiv x cfg.BatchSize = .error .divZero := fun x => by unfold Driver.goDiv; rw [if_pos h0]
      rw [e, e]; rfl
    · have key : ∀ x : Int, InRange x → -(2 : Int) ^ 63 < x → wrap (wrap (x.tdiv cfg.BatchSize) - 1) = x.tdiv cfg.BatchSize - 1 := by
        intro x hx hx'
        obtain ⟨b1, b2⟩ := tdiv_bounds (b := cfg.BatchSize) (by omega) hx
        rw [wrap_id b1]
        refine wrap_id ⟨?_, ?_⟩
        · have := b2 hx'; omega
        · have := b1.2; omega
      rw [key _ h1 h1', key _ h2 h2']
  · rfl

theorem maybeEval_eq {api : NetApi F P H} (hapi : CountsCorrectly api) (pf : Bytes → Option F) {files : Bytes → Option Bytes} {cfg : Config F}
    (hfile : ∀ content, files cfg.TestData = some content → content.length < 2 ^ 63) {nb epoch i : Int} (h3 : InRange (epoch * nb))
    (h4 : InRange (epoch * nb + i)) (p : P) (st : State F H) :
    maybeEval api pf files cfg nb epoch i p st = Driver.maybeEval api pf files cfg nb epoch i p st := by
  unfold maybeEval Driver.maybeEval
  have e : i + epoch * nb = epoch * nb + i := Int.add_comm _ _
  rw [wrap_id h3, e, wrap_id h4, evaluateSvm_eq hapi pf hfile (by decide)]

/-- The configuration is made of 64-bit integers, and the products and differences the driver forms are 64-bit integers. -/
structure Fits64 (cfg : Config F) : Prop where
  batch : 0 ≤ cfg.BatchSize
  records : InRange cfg.TotRecords
  recordsTest : InRange cfg.TotRecordsTest
  layers : InRange cfg.NumLayer
  epochs : InRange cfg.Epoch
  rehash : -(2 : Int) ^ 63 < cfg.Rehash ∧ cfg.Rehash < 2 ^ 63
  rebuild : -(2 : Int) ^ 63 < cfg.Rebuild ∧ cfg.Rebuild < 2 ^ 63
  total : 0 < cfg.Epoch → InRange (cfg.Epoch * cfg.TotRecords.tdiv cfg.BatchSize)

theorem trainLoop_eq {api : NetApi F P H} (hapi : CountsCorrectly api) (pf : Bytes → Option F) {files : Bytes → Option Bytes} {cfg : Config F}
    (hfile : ∀ content, files cfg.TestData = some content → content.length < 2 ^ 63) (hc : Fits64 cfg) {nb epoch : Int} (h3 : InRange (epoch * nb))
    (hnb : nb < 2 ^ 63) (h4 : ∀ i, 0 ≤ i → i < nb → InRange (epoch * nb + i)) :
    ∀ (n : Nat) (i : Int) (s : Scanner F) (p : P) (st : State F H), 0 ≤ i → i + n ≤ nb →
      trainLoop api pf files cfg nb epoch n i s p st = Driver.trainLoop api pf files cfg nb epoch n i s p st := by
  intro n
  induction n with
  | zero => intros; rfl
  | succ n ih =>
    intro i s p st hi hin
    have hr := h4 i hi (by omega)
    rw [trainLoop, Driver.trainLoop, maybeEval_eq hapi pf hfile h3 hr,
      flags_eq hc.batch ⟨by have := hc.rehash.1; omega, hc.rehash.2⟩ ⟨by have := hc.rebuild.1; omega, hc.rebuild.2⟩ hc.rehash.1 hc.rebuild.1 h3 hr,
      wrap_id h3, wrap_id hr, wrap_id (inRange_nonneg (b := i + 1) (by omega) (Int.le_refl _) (by omega))]
    cases Driver.maybeEval api pf files cfg nb epoch i p st with
    | error e => rfl
    | ok st' =>
      simp only [ok_bind]
      generalize readBatch pf cfg.BatchSize.toNat s = r
      obtain ⟨es, s'⟩ := r
      dsimp only
      split
      · rfl
      · cases Driver.flags cfg nb epoch i with
        | error e => rfl
        | ok fl =>
          obtain ⟨a, b⟩ := fl
          simp only [ok_bind]
          cases api.processInput p es (epoch * nb + i) a b st'.heap with
          | error e => rfl
          | ok x =>
            obtain ⟨p', heap⟩ := x
            simp only [ok_bind]
            exact ih _ _ _ _ (by omega) (by omega)

theorem mul_range {e E nb : Int} (h0 : 0 ≤ e) (h1 : e ≤ E) (h : InRange (E * nb)) : InRange (e * nb) := by
  obtain ⟨h2, h3⟩ := h
  by_cases hnb : 0 ≤ nb
  · exact inRange_nonneg (Int.mul_nonneg h0 hnb) (Int.mul_le_mul_of_nonneg_right h1 hnb) h3
  · have h4 := Int.mul_le_mul_of_nonneg_right h1 (show 0 ≤ -nb by omega)
    have h5 := Int.mul_nonneg h0 (show 0 ≤ -nb by omega)
    rw [Int.mul_neg] at h4 h5
    rw [Int.mul_neg] at h4
    refine ⟨by omega, ?_⟩
    show e * nb < (9223372036854775808 : Int)
    omega

theorem epochs_eq {api : NetApi F P H} (hapi : CountsCorrectly api) (pf : Bytes → Option F) {files : Bytes → Option Bytes} {cfg : Config F}
    (hfile : ∀ content, files cfg.TestData = some content → content.length < 2 ^ 63) (hc : Fits64 cfg) {nb nbt : Int} (hnb : InRange nb)
    (hnbt : nbt < 2 ^ 63) (hE : InRange (cfg.Epoch * nb)) (p : P) :
    ∀ (n : Nat) (e : Int) (st : State F H), 0 ≤ e → e + n ≤ cfg.Epoch →
      epochs api pf files cfg nb nbt p n e st = Driver.epochs api pf files cfg nb nbt p n e st := by
  intro n
  induction n with
  | zero => intros; rfl
  | succ n ih =>
    intro e st he hen
    have hEp := hc.epochs.2
    have r1 : InRange (e * nb) := mul_range he (by omega) hE
    have r2 : InRange ((e + 1) * nb) := mul_range (by omega) (by omega) hE
    have w1 := wrap_id (inRange_nonneg (a := e + 1) (b := cfg.Epoch) (by omega) (by omega) hEp)
    have w2 := wrap_id (inRange_nonneg (a := cfg.Epoch - 1) (b := cfg.Epoch) (by omega) (by omega) hEp)
    have ht : ∀ st, trainSvmEpoch api pf files cfg nb p e st = Driver.trainSvmEpoch api pf files cfg nb p e st := by
      intro st
      unfold trainSvmEpoch Driver.trainSvmEpoch
      cases (openData files cfg.TrainData : Go (Scanner F)) with
      | error e => rfl
      | ok s =>
        simp only [ok_bind]
        cases makeExamples cfg.BatchSize with
        | error e => rfl
        | ok u =>
          simp only [ok_bind]
          by_cases h0 : 0 ≤ nb
          · refine trainLoop_eq hapi pf hfile hc r1 hnb.2 (fun i hi hin => ?_) _ _ _ _ _ (Int.le_refl _) (by omega)
            have h5 := Int.mul_nonneg he h0
            refine inRange_nonneg (b := (e + 1) * nb) (by omega) ?_ r2.2
            rw [Int.add_mul, Int.one_mul]
            omega
          · rw [show nb.toNat = 0 by omega]
            rfl
    rw [epochs, Driver.epochs, ht, w1, w2, wrap_id r2]
    cases Driver.trainSvmEpoch api pf files cfg nb p e { st with log := st.log ++ [.epoch e] } with
    | error e => rfl
    | ok st1 =>
      simp only [ok_bind]
      rw [evaluateSvm_eq hapi pf hfile (by split; exact hnbt; decide)]
      cases Driver.evaluateSvm api pf files cfg (if e = cfg.Epoch - 1 then nbt else 50) p ((e + 1) * nb) st1 with
      | error e => rfl
      | ok st2 => exact ih _ _ (by omega) (by omega)

theorem layersTypesLoop_eq : ∀ (n : Nat) (i : Int) (l : List Bool), 0 ≤ i → i + n < 2 ^ 63 →
    layersTypesLoop n i l = Driver.layersTypesLoop n i l := by
  intro n
  induction n with
  | zero => intros; rfl
  | succ n ih =>
    intro i l hi hn
    rw [layersTypesLoop, Driver.layersTypesLoop, wrap_id (inRange_nonneg (b := i + 1) (by omega) (Int.le_refl _) (by omega))]
    cases goSet l i false with
    | error e => rfl
    | ok l' => exact ih _ _ (by omega) (by omega)

theorem makeLayersTypes_eq {n : Int} (h : InRange n) : makeLayersTypes n = Driver.makeLayersTypes n := by
  unfold makeLayersTypes Driver.makeLayersTypes
  split
  · rfl
  · obtain ⟨h1, h2⟩ := h
    have h2' : n < 9223372036854775808 := h2
    rw [wrap_id (a := n - 1) ⟨by show (-9223372036854775808 : Int) ≤ _; omega, by show _ < (9223372036854775808 : Int); omega⟩,
      layersTypesLoop_eq _ _ _ (Int.le_refl _) (by show _ < (9223372036854775808 : Int); omega)]

theorem run_eq {api : NetApi F P H} (hapi : CountsCorrectly api) (pf : Bytes → Option F) {files : Bytes → Option Bytes} {cfg : Config F}
    (hfile : ∀ content, files cfg.TestData = some content → content.length < 2 ^ 63) (hc : Fits64 cfg) (newNet : List Bool → H → Go (P × H))
    (st : State F H) : run api pf files cfg newNet st = Driver.run api pf files cfg newNet st := by
  unfold run Driver.run
  rw [goDiv_eq hc.batch hc.records, goDiv_eq hc.batch hc.recordsTest, makeLayersTypes_eq hc.layers]
  by_cases h0 : cfg.BatchSize = 0
  · have e : ∀ x, Driver.goDiv x cfg.BatchSize = .error .divZero := fun x => by unfold Driver.goDiv; rw [if_pos h0]
    rw [e]; rfl
  · have e : ∀ x, Driver.goDiv x cfg.BatchSize = .ok (x.tdiv cfg.BatchSize) := fun x => by unfold Driver.goDiv; rw [if_neg h0]
    have hB := hc.batch
    rw [e, e]
    simp only [ok_bind]
    cases Driver.makeLayersTypes cfg.NumLayer with
    | error e => rfl
    | ok types =>
      simp only [ok_bind]
      cases newNet types st.heap with
      | error e => rfl
      | ok x =>
        obtain ⟨p, heap⟩ := x
        simp only [ok_bind]
        by_cases hE : 0 < cfg.Epoch
        · exact epochs_eq hapi pf hfile hc (tdiv_bounds (by omega) hc.records).1 (tdiv_bounds (by omega) hc.recordsTest).1.2 (hc.total hE) p _ _ _
            (Int.le_refl _) (by omega)
        · rw [show cfg.Epoch.toNat = 0 by omega]
          rfl

end Goslide.Driver64
