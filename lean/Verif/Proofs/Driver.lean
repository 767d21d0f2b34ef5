import Verif.Spec.Driver
import Verif.Props.Xcrepo
import Verif.Proofs.GoBasic
/-
Helper lemmas for the driver.
-/
set_option linter.unusedSectionVars false
namespace Goslide
open Configuration Xcrepo Driver Spec
variable {F P H : Type} [GoFloat F]

/-- From `s` on, the scanner delivers exactly `es` and stops without an error. -/
def Stream (parseFloat : Bytes → Option F) (s : Scanner F) (es : List (Example F)) : Prop :=
  s.Err = none ∧ ∃ s1 s', Delivers (scan parseFloat) (·.ex) s es s1 ∧ scan parseFloat s1 = (false, s') ∧ s'.Err = none

/-- From `s` on, the scanner delivers `es` and then fails. -/
def Breaks (parseFloat : Bytes → Option F) (s : Scanner F) (es : List (Example F)) : Prop :=
  s.Err = none ∧ ∃ s1 s', Delivers (scan parseFloat) (·.ex) s es s1 ∧ scan parseFloat s1 = (false, s') ∧ s'.Err ≠ none

theorem scan_true_err (parseFloat : Bytes → Option F) (s s' : Scanner F) (h : scan parseFloat s = (true, s')) :
    s'.Err = none := by
  rcases scan_cases parseFloat s with ⟨he, h'⟩ | ⟨he, -, h'⟩ | ⟨he, -, -, h'⟩ | ⟨he, -, -, e, -, h'⟩ | ⟨he, -, -, e, x, -, h'⟩ <;>
    rw [h, Prod.mk.injEq] at h' <;> obtain ⟨hb, rfl⟩ := h'
  · simp at hb
  · simp at hb
  · simp at hb
  · exact (Err_none_iff _).mpr ((Err_none_iff _).mp he)
  · simp at hb

theorem readBatch_stream (parseFloat : Bytes → Option F) (n : Nat) : ∀ (s : Scanner F) (es : List (Example F)),
    Stream parseFloat s es → ∃ s', readBatch parseFloat n s = (es.take n, s') ∧ Stream parseFloat s' (es.drop n) := by
  induction n with
  | zero => intro s es h; exact ⟨s, by simp [readBatch], by simpa using h⟩
  | succ n ih =>
    intro s es h
    obtain ⟨he, s1, s', hd, hs, hn⟩ := h
    cases hd with
    | done =>
      refine ⟨s', ?_, ?_⟩
      · rw [readBatch, hs]; simp
      · have h0 := Props.C32_sticky_eof parseFloat s s' hs hn 0
        simp only [scanN] at h0
        refine ⟨hn, s', (scan parseFloat s').2, by simpa using Delivers.done s', ?_, h0.2.1⟩
        exact Prod.ext h0.1 rfl
    | next _ s2 _ es' hsc hd =>
      obtain ⟨s3, h1, h2⟩ := ih s2 es' ⟨scan_true_err parseFloat s s2 hsc, s1, s', hd, hs, hn⟩
      refine ⟨s3, ?_, by simpa using h2⟩
      rw [readBatch, hsc]
      dsimp only
      rw [h1]; rfl

theorem readBatch_breaks (parseFloat : Bytes → Option F) (n : Nat) : ∀ (s : Scanner F) (es : List (Example F)),
    Breaks parseFloat s es → n ≤ es.length →
    ∃ s', readBatch parseFloat n s = (es.take n, s') ∧ Breaks parseFloat s' (es.drop n) := by
  induction n with
  | zero => intro s es h _; exact ⟨s, by simp [readBatch], by simpa using h⟩
  | succ n ih =>
    intro s es h hle
    obtain ⟨he, s1, s', hd, hs, hn⟩ := h
    cases hd with
    | done => simp at hle
    | next _ s2 _ es' hsc hd =>
      obtain ⟨s3, h1, h2⟩ := ih s2 es' ⟨scan_true_err parseFloat s s2 hsc, s1, s', hd, hs, hn⟩ (by simpa using hle)
      refine ⟨s3, ?_, by simpa using h2⟩
      rw [readBatch, hsc]
      dsimp only
      rw [h1]; rfl

theorem readBatch_fails (parseFloat : Bytes → Option F) (n : Nat) : ∀ (s : Scanner F) (es : List (Example F)),
    Breaks parseFloat s es → es.length < n → (readBatch parseFloat n s).2.Err ≠ none := by
  induction n with
  | zero => intro s es h hlt; omega
  | succ n ih =>
    intro s es h hlt
    obtain ⟨he, s1, s', hd, hs, hn⟩ := h
    cases hd with
    | done => rw [readBatch, hs]; exact hn
    | next _ s2 _ es' hsc hd =>
      rw [readBatch, hsc]
      exact ih s2 es' ⟨scan_true_err parseFloat s s2 hsc, s1, s', hd, hs, hn⟩ (by simpa using hlt)

theorem mod_due (every b : Int) (t : Nat) (hb : 0 < b) (h : b ≤ every.natAbs) :
    every.tdiv b ≠ 0 ∧ ((t : Int).tmod (every.tdiv b) = every.tdiv b - 1 ↔ 0 < every ∧ (every / b) ∣ ((t : Int) + 1)) := by
  by_cases hp : 0 < every
  · have e1 : every.tdiv b = every / b := Int.tdiv_eq_ediv_of_nonneg (by omega)
    have hq : 1 ≤ every / b := (Int.le_ediv_iff_mul_le hb).mpr (by omega)
    rw [e1]
    generalize every / b = q at hq
    refine ⟨by omega, ?_⟩
    rw [Int.tmod_eq_emod_of_nonneg (by omega)]
    have h0 := Int.emod_nonneg (t : Int) (show q ≠ 0 by omega)
    have h1 := Int.emod_lt_of_pos (t : Int) (show 0 < q by omega)
    have h2 := Int.mul_ediv_add_emod (t : Int) q
    constructor
    · intro h
      refine ⟨hp, (t : Int) / q + 1, ?_⟩
      rw [Int.mul_add]
      omega
    · rintro ⟨-, k, hk⟩
      have : q ∣ (t : Int) % q + 1 := ⟨k - (t : Int) / q, by rw [Int.mul_sub]; omega⟩
      have := Int.le_of_dvd (by omega) this
      omega
  · have e1 : every.tdiv b = -((-every) / b) := by
      have := Int.neg_tdiv (a := -every) (b := b)
      rw [Int.neg_neg] at this
      rw [this, Int.tdiv_eq_ediv_of_nonneg (by omega)]
    have hq : 1 ≤ (-every) / b := (Int.le_ediv_iff_mul_le hb).mpr (by omega)
    rw [e1]
    refine ⟨by omega, ?_⟩
    have h0 := Int.tmod_nonneg (a := (t : Int)) (-((-every) / b)) (by omega)
    constructor
    · intro h; omega
    · rintro ⟨h, -⟩; omega

theorem flags_eq (cfg : Config F) (numBatches epoch i : Nat) (hB : 0 < cfg.BatchSize) (hp : PeriodsOk cfg) :
    flags cfg numBatches epoch i =
      .ok (decide (Due cfg cfg.Rehash (epoch * numBatches + i)), decide (Due cfg cfg.Rebuild (epoch * numBatches + i))) := by
  unfold flags
  by_cases hm : cfg.LayerMode = 1 ∨ cfg.LayerMode = 4
  · rw [if_pos hm]
    obtain ⟨h1, h2⟩ := hp hm
    obtain ⟨n1, d1⟩ := mod_due cfg.Rehash cfg.BatchSize (epoch * numBatches + i) hB h1
    obtain ⟨n2, d2⟩ := mod_due cfg.Rebuild cfg.BatchSize (epoch * numBatches + i) hB h2
    have e : ((epoch * numBatches + i : Nat) : Int) = (epoch : Int) * numBatches + i := by simp
    rw [e] at d1 d2
    unfold goDiv goMod
    simp only [if_neg (show ¬ cfg.BatchSize = 0 by omega), bind, Except.bind, if_neg n1, if_neg n2]
    unfold Due
    simp only [hm, true_and, e, d1, d2]
  · rw [if_neg hm]
    unfold Due
    simp [hm]

theorem maybeEval_eq (api : NetApi F P H) (parseFloat : Bytes → Option F) (files : Bytes → Option Bytes)
    (cfg : Config F) (numBatches epoch i : Nat) (p : P) (st : State F H) :
    maybeEval api parseFloat files cfg numBatches epoch i p st =
      evalStep api parseFloat files cfg i (epoch * numBatches + i) p st := by
  unfold maybeEval evalStep
  by_cases hi : i = 0
  · rw [if_neg (by omega), if_pos hi]
  · rw [if_pos (by omega), if_neg hi]
    unfold goMod
    by_cases hs : cfg.Stepsize = 0
    · rw [if_pos hs, if_pos hs]; rfl
    · rw [if_neg hs, if_neg hs]
      have e : (i : Int) + epoch * numBatches = ((epoch * numBatches + i : Nat) : Int) := by
        simp [Int.add_comm]
      have e2 : (epoch : Int) * numBatches + i = ((epoch * numBatches + i : Nat) : Int) := by simp
      rw [e, e2]
      dsimp only [bind, Except.bind]
      by_cases hd : cfg.Stepsize ∣ ((epoch * numBatches + i : Nat) : Int)
      · rw [if_pos hd, if_pos (Int.tmod_eq_zero_of_dvd hd)]
      · rw [if_neg hd, if_neg (fun h => hd (Int.dvd_of_tmod_eq_zero h))]

theorem trainLoop_stream (api : NetApi F P H) (parseFloat : Bytes → Option F) (files : Bytes → Option Bytes)
    (cfg : Config F) (numBatches epoch : Nat) (es : List (Example F)) (hB : 0 < cfg.BatchSize) (hp : PeriodsOk cfg) :
    ∀ (n i : Nat) (s : Scanner F) (p : P) (st : State F H),
    Stream parseFloat s (es.drop (i * cfg.BatchSize.toNat)) →
    trainLoop api parseFloat files cfg numBatches epoch n i s p st =
      ((List.range' i n).foldlM (trainStep api parseFloat files cfg es numBatches epoch) (p, st)).map (·.2) := by
  intro n
  induction n with
  | zero => intro i s p st _; rfl
  | succ n ih =>
    intro i s p st hs
    rw [List.range'_succ, List.foldlM_cons, trainLoop, maybeEval_eq]
    obtain ⟨s', h1, h2⟩ := readBatch_stream parseFloat cfg.BatchSize.toNat s _ hs
    rw [List.drop_drop, ← Nat.succ_mul] at h2
    rw [h1, flags_eq cfg numBatches epoch i hB hp]
    have e2 : (epoch : Int) * numBatches + i = ((epoch * numBatches + i : Nat) : Int) := by simp
    have hne : ¬ (s'.Err ≠ none) := by rw [h2.1]; simp
    unfold trainStep batch
    dsimp only
    generalize evalStep api parseFloat files cfg i (epoch * numBatches + i) p st = r
    cases r with
    | error e => rfl
    | ok st' =>
      dsimp only [bind, Except.bind]
      rw [if_neg hne, e2]
      generalize api.processInput p _ _ _ _ st'.heap = r2
      cases r2 with
      | error e => rfl
      | ok x =>
        obtain ⟨p', heap⟩ := x
        dsimp only
        exact ih (i + 1) s' p' _ h2

theorem trainLoop_breaks (api : NetApi F P H) (parseFloat : Bytes → Option F) (files : Bytes → Option Bytes)
    (cfg : Config F) (numBatches epoch : Nat) (es : List (Example F)) (hB : 0 < cfg.BatchSize) (hp : PeriodsOk cfg)
    (k : Nat) (hk : k * cfg.BatchSize.toNat ≤ es.length) (hk' : es.length < (k + 1) * cfg.BatchSize.toNat) :
    ∀ (j n i : Nat) (s : Scanner F) (p : P) (st : State F H), i + j = k → j < n →
    Breaks parseFloat s (es.drop (i * cfg.BatchSize.toNat)) →
    trainLoop api parseFloat files cfg numBatches epoch n i s p st =
      ((List.range' i j).foldlM (trainStep api parseFloat files cfg es numBatches epoch) (p, st)).bind
        (fun ps => (evalStep api parseFloat files cfg k (epoch * numBatches + k) ps.1 ps.2).bind (fun _ => .error .exit)) := by
  intro j
  induction j with
  | zero =>
    intro n i s p st hi hn hs
    obtain ⟨n, rfl⟩ : ∃ m, n = m + 1 := ⟨n - 1, by omega⟩
    have hi : i = k := by omega
    subst hi
    rw [trainLoop, maybeEval_eq]
    have hf := readBatch_fails parseFloat cfg.BatchSize.toNat s _ hs (by
      rw [List.length_drop]; rw [Nat.succ_mul] at hk'; omega)
    generalize readBatch parseFloat cfg.BatchSize.toNat s = rb at hf
    obtain ⟨es', s'⟩ := rb
    simp only [if_pos hf]
    rfl
  | succ j ih =>
    intro n i s p st hi hn hs
    obtain ⟨n, rfl⟩ : ∃ m, n = m + 1 := ⟨n - 1, by omega⟩
    rw [List.range'_succ, List.foldlM_cons, trainLoop, maybeEval_eq api parseFloat files cfg numBatches epoch i]
    have hle : cfg.BatchSize.toNat ≤ (es.drop (i * cfg.BatchSize.toNat)).length := by
      rw [List.length_drop]
      have : (i + 1) * cfg.BatchSize.toNat ≤ k * cfg.BatchSize.toNat := Nat.mul_le_mul_right _ (by omega)
      rw [Nat.succ_mul] at this
      omega
    obtain ⟨s', h1, h2⟩ := readBatch_breaks parseFloat cfg.BatchSize.toNat s _ hs hle
    rw [List.drop_drop, ← Nat.succ_mul] at h2
    rw [h1, flags_eq cfg numBatches epoch i hB hp]
    have e2 : (epoch : Int) * numBatches + i = ((epoch * numBatches + i : Nat) : Int) := by simp
    have hne : ¬ (s'.Err ≠ none) := by rw [h2.1]; simp
    unfold trainStep batch
    dsimp only
    generalize evalStep api parseFloat files cfg i (epoch * numBatches + i) p st = r
    cases r with
    | error e => rfl
    | ok st' =>
      dsimp only [bind, Except.bind]
      rw [if_neg hne, e2]
      generalize api.processInput p _ _ _ _ st'.heap = r2
      cases r2 with
      | error e => rfl
      | ok x =>
        obtain ⟨p', heap⟩ := x
        dsimp only
        exact ih n (i + 1) s' p' _ (by omega) (by omega) h2

theorem openData_ok (files : Bytes → Option Bytes) (path content : Bytes)
    (h1 : files path = some content) (h2 : (newScanner content : Scanner F).Err = none) :
    openData files path = .ok (newScanner content : Scanner F) := by
  unfold openData
  rw [h1]
  dsimp only
  rw [if_neg (by rw [h2]; simp)]

theorem evalLoop_stream (api : NetApi F P H) (parseFloat : Bytes → Option F) (cfg : Config F) (es : List (Example F)) :
    ∀ (n i : Nat) (tot : Int) (s : Scanner F) (p : P) (st : State F H),
    Stream parseFloat s (es.drop (i * cfg.BatchSize.toNat)) →
    evalLoop api parseFloat cfg n i tot s p st =
      ((List.range' i n).foldlM (evalBatch api cfg es) (tot, p, st)).map (fun x => (x.1, x.2.2)) := by
  intro n
  induction n with
  | zero => intro i tot s p st _; rfl
  | succ n ih =>
    intro i tot s p st hs
    rw [List.range'_succ, List.foldlM_cons, evalLoop]
    obtain ⟨s', h1, h2⟩ := readBatch_stream parseFloat cfg.BatchSize.toNat s _ hs
    rw [List.drop_drop, ← Nat.succ_mul] at h2
    rw [h1]
    have hne : ¬ (s'.Err ≠ none) := by rw [h2.1]; simp
    unfold evalBatch batch
    dsimp only
    rw [if_neg hne]
    generalize api.predictClass p _ st.heap = r
    cases r with
    | error e => rfl
    | ok x =>
      obtain ⟨c, p', heap⟩ := x
      dsimp only [bind, Except.bind]
      have := ih (i + 1) (tot + c) s' p' { heap := heap, log := (st.log ++
        [Line.records cfg.BatchSize
          (List.map (fun e => (e.Features.length : Int)) (List.take cfg.BatchSize.toNat (List.drop (i * cfg.BatchSize.toNat) es))).sum
          (List.map (fun e => (e.Labels.length : Int)) (List.take cfg.BatchSize.toNat (List.drop (i * cfg.BatchSize.toNat) es))).sum]) ++
            [Line.iter i (iterAccuracy (tot + c) cfg.BatchSize i)] } h2
      refine Eq.trans this ?_
      simp only [List.append_assoc, List.cons_append, List.nil_append]
      rfl

theorem readBatch_length (parseFloat : Bytes → Option F) (n : Nat) : ∀ s : Scanner F,
    (readBatch parseFloat n s).1.length ≤ n := by
  induction n with
  | zero => intro s; simp [readBatch]
  | succ n ih =>
    intro s
    rw [readBatch]
    generalize scan parseFloat s = r
    obtain ⟨b, s'⟩ := r
    cases b with
    | true =>
      have := ih s'
      dsimp only
      simpa using this
    | false => simp

theorem evalLoop_bounds (api : NetApi F P H) (hapi : CountsCorrectly api) (parseFloat : Bytes → Option F)
    (cfg : Config F) (hB : 0 ≤ cfg.BatchSize) (nb : Int) :
    ∀ (n : Nat) (i tot : Int) (s : Scanner F) (p : P) (st : State F H) (tot' : Int) (st' : State F H),
    0 ≤ tot → tot ≤ cfg.BatchSize * i →
    evalLoop api parseFloat cfg n i tot s p st = .ok (tot', st') →
    0 ≤ tot' ∧ tot' ≤ cfg.BatchSize * (i + n) ∧
    ∃ lines, st'.log = st.log ++ lines ∧ ∀ l ∈ lines, IsProportion cfg.BatchSize nb l := by
  intro n
  induction n with
  | zero =>
    intro i tot s p st tot' st' h0 h1 h
    rw [evalLoop, Except.ok.injEq, Prod.mk.injEq] at h
    obtain ⟨rfl, rfl⟩ := h
    exact ⟨h0, by simpa using h1, [], by simp, by simp⟩
  | succ n ih =>
    intro i tot s p st tot' st' h0 h1 h
    rw [evalLoop] at h
    have hlen := readBatch_length parseFloat cfg.BatchSize.toNat s
    generalize readBatch parseFloat cfg.BatchSize.toNat s = rb at hlen h
    obtain ⟨es, s'⟩ := rb
    dsimp only at hlen h
    by_cases he : s'.Err ≠ none
    · rw [if_pos he] at h; simp at h
    · rw [if_neg he] at h
      cases hp : api.predictClass p es st.heap with
      | error e => rw [hp] at h; simp at h
      | ok x =>
        obtain ⟨c, p', heap⟩ := x
        have hc := hapi _ _ _ _ _ _ hp
        rw [hp] at h
        simp only [ok_bind] at h
        have hb : tot + c ≤ cfg.BatchSize * (i + 1) := by
          rw [Int.mul_add]; omega
        obtain ⟨r1, r2, lines, r3, r4⟩ := ih _ _ _ _ _ _ _ (by omega) hb h
        refine ⟨r1, ?_, [Line.records cfg.BatchSize (es.map (fun e => (e.Features.length : Int))).sum
            (es.map (fun e => (e.Labels.length : Int))).sum] ++
            [Line.iter i (iterAccuracy (tot + c) cfg.BatchSize i)] ++ lines, ?_, ?_⟩
        · have : i + 1 + (n : Int) = i + ((n + 1 : Nat) : Int) := by omega
          rwa [this] at r2
        · rw [r3]; simp
        · intro l hl
          simp only [List.mem_append, List.mem_singleton] at hl
          rcases hl with (rfl | rfl) | hl
          · exact trivial
          · exact ⟨tot + c, by omega, hb, rfl⟩
          · exact r4 l hl

theorem batch_length_le (es : List (Example F)) (b i : Nat) : (batch es b i).length ≤ b := by
  unfold batch; rw [List.length_take]; omega

theorem flatMap_batch (es : List (Example F)) (b n : Nat) :
    (List.range n).flatMap (batch es b) = es.take (n * b) := by
  induction n with
  | zero => simp
  | succ n ih =>
    rw [List.range_succ, List.flatMap_append, ih, Nat.succ_mul, List.take_add]
    simp [batch]

/-- A fold whose steps append to a recorded list. -/
theorem foldlM_append {S A C : Type} (step : S → A → Go S) (rec : S → List C) (f : A → C) :
    ∀ (l : List A) (s : S), (∀ s, ∀ a ∈ l, ∃ s', step s a = .ok s' ∧ rec s' = rec s ++ [f a]) →
    ∃ s', l.foldlM step s = .ok s' ∧ rec s' = rec s ++ l.map f := by
  intro l
  induction l with
  | nil => intro s _; exact ⟨s, rfl, by simp⟩
  | cons a l ih =>
    intro s h
    obtain ⟨s1, h1, h2⟩ := h s a (by simp)
    obtain ⟨s2, h3, h4⟩ := ih s1 (fun s b hb => h s b (by simp [hb]))
    refine ⟨s2, ?_, ?_⟩
    · rw [List.foldlM_cons, h1]; exact h3
    · rw [h4, h2]; simp

theorem evaluateSvm_stream (api : NetApi F P H) (parseFloat : Bytes → Option F) (files : Bytes → Option Bytes)
    (cfg : Config F) (hB : 0 ≤ cfg.BatchSize) (es : List (Example F)) (n iter : Int) (p : P) (st : State F H)
    (hfile : HoldsExamples parseFloat files cfg.TestData es) :
    evaluateSvm api parseFloat files cfg n p iter st =
      ((List.range n.toNat).foldlM (evalBatch api cfg es) (0, p, st)).map (fun x =>
        { x.2.2 with log := x.2.2.log ++
          [.overall (overallAccuracy x.1 n cfg.BatchSize), .summary iter (overallAccuracy x.1 n cfg.BatchSize)] }) := by
  obtain ⟨content, s, s', h1, h2, h3, h4, h5⟩ := hfile
  unfold evaluateSvm makeExamples
  rw [openData_ok files _ content h1 h2, if_neg (by omega)]
  simp only [ok_bind]
  have := evalLoop_stream api parseFloat cfg es n.toNat 0 0 (newScanner content) p st
    ⟨h2, s, s', by simpa using h3, h4, h5⟩
  have this : evalLoop api parseFloat cfg n.toNat 0 0 (newScanner content) p st = _ := this
  rw [this, ← List.range_eq_range']
  cases (List.range n.toNat).foldlM (evalBatch api cfg es) (0, p, st) with
  | error e => rfl
  | ok x => rfl

theorem evaluateSvm_recorder (parseFloat : Bytes → Option F) (files : Bytes → Option Bytes)
    (cfg : Config F) (hB : 0 ≤ cfg.BatchSize) (es : List (Example F)) (n iter : Int) (st : State F (List (Call F)))
    (hfile : HoldsExamples parseFloat files cfg.TestData es) :
    ∃ st', evaluateSvm recorder parseFloat files cfg n () iter st = .ok st' ∧ st'.heap = st.heap := by
  rw [evaluateSvm_stream recorder parseFloat files cfg hB es n iter () st hfile]
  have key : ∀ (l : List Nat) (x : Int × Unit × State F (List (Call F))),
      ∃ y, l.foldlM (evalBatch recorder cfg es) x = .ok y ∧ y.2.2.heap = x.2.2.heap := by
    intro l
    induction l with
    | nil => intro x; exact ⟨x, rfl, rfl⟩
    | cons a l ih =>
      intro x
      have hstep : ∃ z, evalBatch recorder cfg es x a = .ok z ∧ z.2.2.heap = x.2.2.heap := ⟨_, rfl, rfl⟩
      obtain ⟨z, hz, hh⟩ := hstep
      obtain ⟨y, h1, h2⟩ := ih z
      exact ⟨y, by rw [List.foldlM_cons, hz]; exact h1, h2.trans hh⟩
  obtain ⟨y, h1, h2⟩ := key (List.range n.toNat) (0, (), st)
  rw [h1]
  exact ⟨_, rfl, h2⟩

theorem layersTypesLoop_replicate (m : Nat) : ∀ (n i : Nat), i + n ≤ m →
    layersTypesLoop n i (List.replicate m false) = .ok (List.replicate m false) := by
  intro n
  induction n with
  | zero => intro i _; rfl
  | succ n ih =>
    intro i h
    rw [layersTypesLoop]
    unfold goSet
    rw [if_neg (by omega), if_pos (by simp; omega)]
    simp only [ok_bind, Int.toNat_natCast]
    rw [List.set_replicate_self]
    exact ih (i + 1) (by omega)

theorem makeLayersTypes_spec (n : Int) :
    (n ≤ 0 → ∃ e, makeLayersTypes n = .error e) ∧
    (0 < n → ∃ l, makeLayersTypes n = .ok l ∧ l.length = n.toNat ∧
      ∀ i : Nat, i < n.toNat → l[i]? = some (decide ((i : Int) = n - 1))) := by
  unfold makeLayersTypes
  constructor
  · intro h
    by_cases h0 : n < 0
    · exact ⟨.makeLen, if_pos h0⟩
    · have : n = 0 := by omega
      subst this
      exact ⟨.index, rfl⟩
  · intro h
    rw [if_neg (by omega)]
    have := layersTypesLoop_replicate n.toNat (n - 1).toNat 0 (by omega)
    have this : layersTypesLoop (n - 1).toNat 0 (List.replicate n.toNat false) = .ok (List.replicate n.toNat false) := this
    rw [this]
    simp only [ok_bind]
    unfold goSet
    rw [if_neg (by omega), if_pos (by simp; omega)]
    refine ⟨_, rfl, by simp, ?_⟩
    intro i hi
    rw [List.getElem?_set]
    by_cases he : (n - 1).toNat = i
    · rw [if_pos he, if_pos (by simp; omega)]
      have : (i : Int) = n - 1 := by omega
      simp [this]
    · rw [if_neg he]
      have : ¬ (i : Int) = n - 1 := by omega
      simp [hi, this]

end Goslide
