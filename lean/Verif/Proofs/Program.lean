import Verif.Model.Program
import Verif.Proofs.Driver
import Verif.Props.Driver
import Verif.Spec.Program
/-
The driver makes the calls of the schedule.
-/
set_option linter.unusedSectionVars false
namespace Goslide.Driver
open Configuration Xcrepo Spec Spec.Network
variable {F P H : Type} [GoFloat F]

/-- The calls succeed one after the other on the network `p`, which they all return; `cs` are the returned counts. -/
def Steps (api : NetApi F P H) (p : P) : List (NetCall F) → H → H → List Int → Prop
  | [], h, h', cs => h = h' ∧ cs = []
  | .train es iter rehash rebuild :: calls, h, h', cs =>
    ∃ h1, api.processInput p es iter rehash rebuild h = .ok (p, h1) ∧ Steps api p calls h1 h' cs
  | .predict es :: calls, h, h', cs => ∃ c cs' h1, cs = c :: cs' ∧ api.predictClass p es h = .ok (c, p, h1) ∧ Steps api p calls h1 h' cs'

theorem steps_append {api : NetApi F P H} {p : P} {b : List (NetCall F)} : ∀ {a : List (NetCall F)} {h h' : H} {cs : List Int},
    Steps api p (a ++ b) h h' cs → ∃ h1 c1 c2, cs = c1 ++ c2 ∧ Steps api p a h h1 c1 ∧ Steps api p b h1 h' c2 := by
  intro a
  induction a with
  | nil => intro h h' cs hs; exact ⟨h, [], cs, rfl, ⟨rfl, rfl⟩, hs⟩
  | cons x a ih =>
    intro h h' cs hs
    cases x with
    | train es iter rehash rebuild =>
      obtain ⟨h1, e, hs⟩ := hs
      obtain ⟨h2, c1, c2, rfl, s1, s2⟩ := ih hs
      exact ⟨h2, c1, c2, rfl, ⟨h1, e, s1⟩, s2⟩
    | predict es =>
      obtain ⟨c, cs', h1, rfl, e, hs⟩ := hs
      obtain ⟨h2, c1, c2, rfl, s1, s2⟩ := ih hs
      exact ⟨h2, c :: c1, c2, rfl, ⟨c, c1, h1, rfl, e, s1⟩, s2⟩

theorem evalFold_steps (api : NetApi F P H) (cfg : Config F) (es : List (Example F)) (p : P) : ∀ (n i : Nat) (x : Int × P × State F H) (h' : H) (cs : List Int),
    x.2.1 = p → Steps api p ((List.range' i n).map (fun i => .predict (batch es cfg.BatchSize.toNat i))) x.2.2.heap h' cs →
    cs.length = n ∧ ∃ y, (List.range' i n).foldlM (evalBatch api cfg es) x = .ok y ∧
      y.2.2 = { heap := h', log := x.2.2.log ++ batchLines cfg es i x.1 cs } ∧ y.1 = x.1 + cs.sum := by
  intro n
  induction n with
  | zero =>
    intro i x h' cs _ hs
    obtain ⟨rfl, rfl⟩ := hs
    exact ⟨rfl, x, rfl, by simp [batchLines], by simp⟩
  | succ n ih =>
    intro i x h' cs hp hs
    rw [List.range'_succ] at hs ⊢
    obtain ⟨c, cs', h1, rfl, e, hs⟩ := hs
    rw [List.foldlM_cons]
    obtain ⟨st1, he, e1, e2⟩ : ∃ st1, evalBatch api cfg es x i = .ok (x.1 + c, p, st1) ∧ st1.heap = h1 ∧ st1.log = x.2.2.log ++
        [.records cfg.BatchSize ((batch es cfg.BatchSize.toNat i).map (fun e => (e.Features.length : Int))).sum
           ((batch es cfg.BatchSize.toNat i).map (fun e => (e.Labels.length : Int))).sum,
         .iter i (GoFloat.div (GoFloat.ofInt (x.1 + c))
           (GoFloat.mul (GoFloat.ofInt cfg.BatchSize) (GoFloat.add (GoFloat.ofInt i) GoFloat.one)))] := by
      refine ⟨⟨h1, _⟩, ?_, rfl, rfl⟩
      unfold evalBatch
      dsimp only
      rw [hp, e]
      rfl
    rw [he, ok_bind]
    obtain ⟨q1, y, q2, q3, q4⟩ := ih (i + 1) (x.1 + c, p, st1) h' cs' rfl (by rw [e1]; exact hs)
    refine ⟨by simp [q1], y, q2, ?_, ?_⟩
    · rw [q3]
      dsimp only
      rw [e2]
      simp [batchLines]
    · rw [q4, List.sum_cons]
      dsimp only
      omega

theorem evaluate_steps {api : NetApi F P H} {parseFloat : Bytes → Option F} {files : Bytes → Option Bytes} {cfg : Config F} (hB : 0 ≤ cfg.BatchSize)
    {es : List (Example F)} (hfile : HoldsExamples parseFloat files cfg.TestData es) (n : Nat) (iter : Int) (p : P) (st : State F H) (h' : H) (cs : List Int)
    (hs : Steps api p (predictions cfg es n) st.heap h' cs) :
    cs.length = n ∧ evaluateSvm api parseFloat files cfg n p iter st = .ok { heap := h', log := st.log ++ logOf cfg es [.eval n iter] cs } := by
  rw [evaluateSvm_stream api parseFloat files cfg hB es n iter p st hfile]
  unfold predictions at hs
  rw [List.range_eq_range'] at hs
  obtain ⟨hl, y, e, hy, hy'⟩ := evalFold_steps api cfg es p n 0 (0, p, st) h' cs rfl hs
  refine ⟨hl, ?_⟩
  rw [Int.toNat_natCast, List.range_eq_range', e]
  show Except.ok ({ y.2.2 with log := _ } : State F H) = _
  rw [hy]
  dsimp only
  rw [hy']
  simp [logOf, accuracy, overallAccuracy, ← hl]

theorem need_append (a b : List Block) : need (a ++ b) = need a + need b := by
  induction a with
  | nil => simp [need]
  | cons x a ih =>
    cases x with
    | epoch e => exact ih
    | eval n t => simp only [List.cons_append, need, ih]; omega

theorem logOf_append (cfg : Config F) (es : List (Example F)) (b : List Block) (c2 : List Int) : ∀ (a : List Block) (c1 : List Int), c1.length = need a →
    logOf cfg es (a ++ b) (c1 ++ c2) = logOf cfg es a c1 ++ logOf cfg es b c2 := by
  intro a
  induction a with
  | nil =>
    intro c1 h
    have := List.eq_nil_of_length_eq_zero h
    subst this
    rfl
  | cons x a ih =>
    intro c1 h
    cases x with
    | epoch e =>
      simp only [List.cons_append, logOf]
      rw [ih c1 h]
    | eval n t =>
      simp only [List.cons_append, logOf]
      have hn : n ≤ c1.length := by rw [h]; simp only [need]; omega
      rw [List.take_append_of_le_length hn, List.drop_append_of_le_length hn, ih _ (by rw [List.length_drop, h]; simp only [need]; omega)]
      simp

theorem trainFold_steps {api : NetApi F P H} {parseFloat : Bytes → Option F} {files : Bytes → Option Bytes} {cfg : Config F} (hB : 0 ≤ cfg.BatchSize) (hstep : cfg.Stepsize ≠ 0)
    {es esTest : List (Example F)} (htest : HoldsExamples parseFloat files cfg.TestData esTest) (nb e : Nat) (p : P) : ∀ (l : List Nat) (st : State F H) (h' : H)
    (cs : List Int), Steps api p (l.flatMap (trainCalls cfg es esTest nb e)) st.heap h' cs →
    let B := l.flatMap (fun i => if i ≠ 0 ∧ cfg.Stepsize ∣ ((e * nb + i : Nat) : Int) then [Block.eval 20 (e * nb + i : Nat)] else [])
    cs.length = need B ∧
    l.foldlM (trainStep api parseFloat files cfg es nb e) (p, st) = .ok (p, { heap := h', log := st.log ++ logOf cfg esTest B cs }) := by
  intro l
  induction l with
  | nil =>
    intro st h' cs hs
    obtain ⟨rfl, rfl⟩ := hs
    exact ⟨rfl, by simp [logOf]; rfl⟩
  | cons i l ih =>
    intro st h' cs hs
    rw [List.flatMap_cons] at hs
    obtain ⟨h1, c1, c2, rfl, hs1, hs2⟩ := steps_append hs
    unfold trainCalls at hs1
    obtain ⟨h2, c3, c4, rfl, hs3, hs4⟩ := steps_append hs1
    obtain ⟨h3, e3, e4, e5⟩ := hs4
    subst e4 e5
    rw [List.append_nil]
    have hev : c3.length = need (if i ≠ 0 ∧ cfg.Stepsize ∣ ((e * nb + i : Nat) : Int) then [Block.eval 20 (e * nb + i : Nat)] else []) ∧
        evalStep api parseFloat files cfg i (e * nb + i) p st = .ok (State.mk h2 (st.log ++
          logOf cfg esTest (if i ≠ 0 ∧ cfg.Stepsize ∣ ((e * nb + i : Nat) : Int) then [Block.eval 20 (e * nb + i : Nat)] else []) c3)) := by
      unfold evalStep
      by_cases hi : i = 0
      · rw [if_neg (fun x => x.1 hi)] at hs3
        obtain ⟨rfl, rfl⟩ := hs3
        rw [if_neg (fun x => x.1 hi), if_pos hi]
        exact ⟨rfl, by simp [logOf]⟩
      · rw [if_neg hi, if_neg hstep]
        by_cases hd : cfg.Stepsize ∣ ((e * nb + i : Nat) : Int)
        · rw [if_pos ⟨hi, hd⟩] at hs3
          rw [if_pos ⟨hi, hd⟩, if_pos hd]
          obtain ⟨q1, q2⟩ := evaluate_steps hB htest 20 (e * nb + i : Nat) p st h2 c3 hs3
          exact ⟨q1, q2⟩
        · rw [if_neg (fun x => hd x.2)] at hs3
          obtain ⟨rfl, rfl⟩ := hs3
          rw [if_neg (fun x => hd x.2), if_neg hd]
          exact ⟨rfl, by simp [logOf]⟩
    obtain ⟨e1, e2⟩ := hev
    have he : trainStep api parseFloat files cfg es nb e (p, st) i = .ok (p, State.mk h3 (st.log ++
          logOf cfg esTest (if i ≠ 0 ∧ cfg.Stepsize ∣ ((e * nb + i : Nat) : Int) then [Block.eval 20 (e * nb + i : Nat)] else []) c3)) := by
      unfold trainStep
      dsimp only
      rw [e2, ok_bind]
      dsimp only
      rw [e3]
      rfl
    obtain ⟨q1, q2⟩ := ih (State.mk h3 (st.log ++ logOf cfg esTest _ c3)) h' c2 hs2
    rw [List.foldlM_cons, he, ok_bind]
    dsimp only
    rw [List.flatMap_cons]
    refine ⟨by rw [List.length_append, need_append, e1, q1], ?_⟩
    rw [q2, logOf_append _ _ _ _ _ _ e1]
    simp

theorem epochs_steps {api : NetApi F P H} {parseFloat : Bytes → Option F} {files : Bytes → Option Bytes} {cfg : Config F} (hok : DriverOk cfg)
    {es esTest : List (Example F)} (hfile : HoldsExamples parseFloat files cfg.TrainData es) (htest : HoldsExamples parseFloat files cfg.TestData esTest)
    (nb nt : Nat) (p : P) : ∀ (n e : Nat) (st : State F H) (h' : H) (cs : List Int),
    Steps api p ((List.range' e n).flatMap (epochCalls cfg es esTest nb nt)) st.heap h' cs →
    cs.length = need ((List.range' e n).flatMap (epochBlocks cfg nb nt)) ∧
    epochs api parseFloat files cfg nb nt p n e st =
      .ok { heap := h', log := st.log ++ logOf cfg esTest ((List.range' e n).flatMap (epochBlocks cfg nb nt)) cs } := by
  have hB := hok.batch
  intro n
  induction n with
  | zero =>
    intro e st h' cs hs
    obtain ⟨rfl, rfl⟩ := hs
    exact ⟨rfl, by simp [logOf, epochs]⟩
  | succ n ih =>
    intro e st h' cs hs
    rw [List.range'_succ, List.flatMap_cons] at hs ⊢
    obtain ⟨h1, c1, c2, rfl, hs1, hs2⟩ := steps_append hs
    unfold epochCalls at hs1
    obtain ⟨h2, c3, c4, rfl, hs3, hs4⟩ := steps_append hs1
    rw [epochs]
    rw [Props.C38_epoch api parseFloat files cfg hB hok.periods es hfile]
    obtain ⟨e1, e2⟩ := trainFold_steps (parseFloat := parseFloat) (files := files) (by omega) hok.step htest nb e p (List.range nb)
      { st with log := st.log ++ [.epoch e] } h2 c3 hs3
    rw [e2]
    obtain ⟨e3, e4⟩ := evaluate_steps (parseFloat := parseFloat) (files := files) (by omega) htest (if (e : Int) = cfg.Epoch - 1 then nt else 50)
      (((e : Int) + 1) * nb) p { heap := h2, log := (st.log ++ [Line.epoch (e : Int)]) ++ logOf cfg esTest _ c3 } h1 c4 hs4
    have e5 : (((if (e : Int) = cfg.Epoch - 1 then nt else 50 : Nat) : Int)) = if (e : Int) = cfg.Epoch - 1 then (nt : Int) else 50 := by
      split <;> rfl
    rw [e5] at e4
    obtain ⟨q1, q2⟩ := ih (e + 1) (State.mk h1 (_ ++ logOf cfg esTest [.eval (if (e : Int) = cfg.Epoch - 1 then nt else 50) (((e : Int) + 1) * nb)] c4)) h' c2 hs2
    have hlen : (c3 ++ c4).length = need (epochBlocks cfg nb nt e) := by
      unfold epochBlocks
      rw [List.cons_append, need, need_append, List.length_append, e1]
      show _ + c4.length = _ + need [_]
      rw [e3]
      rfl
    refine ⟨by rw [List.length_append, need_append, q1, hlen], ?_⟩
    show (evaluateSvm api parseFloat files cfg (if (e : Int) = cfg.Epoch - 1 then (nt : Int) else 50) p (((e : Int) + 1) * nb) _ >>= fun st =>
      epochs api parseFloat files cfg nb nt p n ((e : Int) + 1) st) = _
    dsimp only
    rw [e4, ok_bind]
    refine q2.trans ?_
    rw [logOf_append _ _ _ _ _ _ hlen]
    congr 2
    unfold epochBlocks
    rw [List.cons_append, logOf, logOf_append _ _ _ _ _ _ e1]
    simp

/-- One of the calls on `p` panics after the ones before it succeeded. -/
def Fails (api : NetApi F P H) (p : P) : List (NetCall F) → H → Panic → Prop
  | [], _, _ => False
  | .train es iter rehash rebuild :: calls, h, e => api.processInput p es iter rehash rebuild h = .error e ∨
    ∃ h1, api.processInput p es iter rehash rebuild h = .ok (p, h1) ∧ Fails api p calls h1 e
  | .predict es :: calls, h, e => api.predictClass p es h = .error e ∨ ∃ c h1, api.predictClass p es h = .ok (c, p, h1) ∧ Fails api p calls h1 e

theorem fails_append {api : NetApi F P H} {p : P} {b : List (NetCall F)} : ∀ {a : List (NetCall F)} {h : H} {e : Panic},
    Fails api p (a ++ b) h e → Fails api p a h e ∨ ∃ h1 cs, Steps api p a h h1 cs ∧ Fails api p b h1 e := by
  intro a
  induction a with
  | nil => intro h e hf; exact .inr ⟨h, [], ⟨rfl, rfl⟩, hf⟩
  | cons x a ih =>
    intro h e hf
    cases x with
    | train es iter rehash rebuild =>
      rcases hf with he | ⟨h1, he, hf⟩
      · exact .inl (.inl he)
      · rcases ih hf with hf | ⟨h2, cs, s1, s2⟩
        · exact .inl (.inr ⟨h1, he, hf⟩)
        · exact .inr ⟨h2, cs, ⟨h1, he, s1⟩, s2⟩
    | predict es =>
      rcases hf with he | ⟨c, h1, he, hf⟩
      · exact .inl (.inl he)
      · rcases ih hf with hf | ⟨h2, cs, s1, s2⟩
        · exact .inl (.inr ⟨c, h1, he, hf⟩)
        · exact .inr ⟨h2, c :: cs, ⟨c, cs, h1, rfl, he, s1⟩, s2⟩

theorem evalFold_fails (api : NetApi F P H) (cfg : Config F) (es : List (Example F)) (p : P) (e : Panic) : ∀ (l : List Nat) (x : Int × P × State F H),
    x.2.1 = p → Fails api p (l.map (fun i => .predict (batch es cfg.BatchSize.toNat i))) x.2.2.heap e →
    l.foldlM (evalBatch api cfg es) x = .error e := by
  intro l
  induction l with
  | nil => intro x _ hf; exact hf.elim
  | cons i l ih =>
    intro x hp hf
    rw [List.foldlM_cons]
    rcases hf with he | ⟨c, h1, he, hf⟩
    · have : evalBatch api cfg es x i = .error e := by
        unfold evalBatch
        dsimp only
        rw [hp, he]
        rfl
      rw [this]
      rfl
    · obtain ⟨st1, hb, e1⟩ : ∃ st1, evalBatch api cfg es x i = .ok (x.1 + c, p, st1) ∧ st1.heap = h1 := by
        unfold evalBatch
        dsimp only
        rw [hp, he]
        exact ⟨_, rfl, rfl⟩
      rw [hb, ok_bind]
      exact ih _ rfl (by rw [e1]; exact hf)

theorem evaluate_fails {api : NetApi F P H} {parseFloat : Bytes → Option F} {files : Bytes → Option Bytes} {cfg : Config F} (hB : 0 ≤ cfg.BatchSize)
    {es : List (Example F)} (hfile : HoldsExamples parseFloat files cfg.TestData es) (n : Nat) (iter : Int) (p : P) (st : State F H) (e : Panic)
    (hf : Fails api p (predictions cfg es n) st.heap e) : evaluateSvm api parseFloat files cfg n p iter st = .error e := by
  rw [evaluateSvm_stream api parseFloat files cfg hB es n iter p st hfile, Int.toNat_natCast,
    evalFold_fails api cfg es p e (List.range n) (0, p, st) rfl hf]
  rfl

theorem evalStep_steps {api : NetApi F P H} {parseFloat : Bytes → Option F} {files : Bytes → Option Bytes} {cfg : Config F} (hB : 0 ≤ cfg.BatchSize)
    (hstep : cfg.Stepsize ≠ 0) {esTest : List (Example F)} (htest : HoldsExamples parseFloat files cfg.TestData esTest) (nb e i : Nat) (p : P)
    (st : State F H) :
    (∀ h' cs, Steps api p (if i ≠ 0 ∧ cfg.Stepsize ∣ ((e * nb + i : Nat) : Int) then predictions cfg esTest 20 else []) st.heap h' cs →
      ∃ log, evalStep api parseFloat files cfg i (e * nb + i) p st = .ok ⟨h', log⟩) ∧
    ∀ er, Fails api p (if i ≠ 0 ∧ cfg.Stepsize ∣ ((e * nb + i : Nat) : Int) then predictions cfg esTest 20 else []) st.heap er →
      evalStep api parseFloat files cfg i (e * nb + i) p st = .error er := by
  unfold evalStep
  by_cases hi : i = 0
  · rw [if_neg (fun x => x.1 hi), if_pos hi]
    exact ⟨fun h' cs hs => ⟨st.log, by rw [← hs.1]⟩, fun _ hf => hf.elim⟩
  · rw [if_neg hi, if_neg hstep]
    by_cases hd : cfg.Stepsize ∣ ((e * nb + i : Nat) : Int)
    · rw [if_pos ⟨hi, hd⟩, if_pos hd]
      exact ⟨fun h' cs hs => ⟨_, (evaluate_steps hB htest 20 (e * nb + i : Nat) p st h' cs hs).2⟩,
        fun er hf => evaluate_fails hB htest 20 (e * nb + i : Nat) p st er hf⟩
    · rw [if_neg (fun x => hd x.2), if_neg hd]
      exact ⟨fun h' cs hs => ⟨st.log, by rw [← hs.1]⟩, fun _ hf => hf.elim⟩

theorem trainFold_fails {api : NetApi F P H} {parseFloat : Bytes → Option F} {files : Bytes → Option Bytes} {cfg : Config F} (hB : 0 ≤ cfg.BatchSize)
    (hstep : cfg.Stepsize ≠ 0) {es esTest : List (Example F)} (htest : HoldsExamples parseFloat files cfg.TestData esTest) (nb e : Nat) (p : P) (er : Panic) :
    ∀ (l : List Nat) (st : State F H), Fails api p (l.flatMap (trainCalls cfg es esTest nb e)) st.heap er →
    l.foldlM (trainStep api parseFloat files cfg es nb e) (p, st) = .error er := by
  intro l
  induction l with
  | nil => intro st hf; exact hf.elim
  | cons i l ih =>
    intro st hf
    rw [List.flatMap_cons] at hf
    rw [List.foldlM_cons]
    obtain ⟨ev1, ev2⟩ := evalStep_steps (api := api) hB hstep htest nb e i p st
    rcases fails_append hf with hf | ⟨h1, cs, hs, hf⟩
    · rcases fails_append hf with hf | ⟨h2, cs, hs, hf⟩
      · have : trainStep api parseFloat files cfg es nb e (p, st) i = .error er := by
          unfold trainStep
          dsimp only
          rw [ev2 er hf]
          rfl
        rw [this]
        rfl
      · obtain ⟨log, hev⟩ := ev1 _ _ hs
        rcases hf with he | ⟨_, _, hf⟩
        · have : trainStep api parseFloat files cfg es nb e (p, st) i = .error er := by
            unfold trainStep
            dsimp only
            rw [hev, ok_bind]
            dsimp only
            rw [he]
            rfl
          rw [this]
          rfl
        · exact hf.elim
    · obtain ⟨h2, c3, c4, -, hs3, hs4⟩ := steps_append hs
      obtain ⟨log, hev⟩ := ev1 _ _ hs3
      obtain ⟨h3, e3, e4, -⟩ := hs4
      subst e4
      have : trainStep api parseFloat files cfg es nb e (p, st) i = .ok (p, ⟨h3, log⟩) := by
        unfold trainStep
        dsimp only
        rw [hev, ok_bind]
        dsimp only
        rw [e3]
        rfl
      rw [this, ok_bind]
      exact ih ⟨h3, log⟩ hf

theorem epochs_fails {api : NetApi F P H} {parseFloat : Bytes → Option F} {files : Bytes → Option Bytes} {cfg : Config F} (hok : DriverOk cfg)
    {es esTest : List (Example F)} (hfile : HoldsExamples parseFloat files cfg.TrainData es) (htest : HoldsExamples parseFloat files cfg.TestData esTest)
    (nb nt : Nat) (p : P) (er : Panic) : ∀ (n e : Nat) (st : State F H),
    Fails api p ((List.range' e n).flatMap (epochCalls cfg es esTest nb nt)) st.heap er →
    epochs api parseFloat files cfg nb nt p n e st = .error er := by
  have hB := hok.batch
  intro n
  induction n with
  | zero => intro e st hf; exact hf.elim
  | succ n ih =>
    intro e st hf
    rw [List.range'_succ, List.flatMap_cons] at hf
    rw [epochs, Props.C38_epoch api parseFloat files cfg hB hok.periods es hfile]
    have e5 : (if (e : Int) = cfg.Epoch - 1 then (nt : Int) else 50) = (((if (e : Int) = cfg.Epoch - 1 then nt else 50 : Nat) : Int)) := by
      split <;> rfl
    rw [e5]
    have key : ∀ (h2 : H) (c3 : List Int), Steps api p ((List.range nb).flatMap (trainCalls cfg es esTest nb e)) st.heap h2 c3 → _ :=
      fun h2 c3 hs => (trainFold_steps (parseFloat := parseFloat) (files := files) (by omega) hok.step htest nb e p (List.range nb)
        { st with log := st.log ++ [.epoch e] } h2 c3 hs).2
    rcases fails_append hf with hf | ⟨h1, cs, hs, hf⟩
    · rcases fails_append hf with hf | ⟨h2, cs, hs, hf⟩
      · have := trainFold_fails (parseFloat := parseFloat) (files := files) (by omega) hok.step htest nb e p er (List.range nb)
          { st with log := st.log ++ [.epoch e] } hf
        rw [this]
        rfl
      · rw [key h2 cs hs]
        show (evaluateSvm api parseFloat files cfg _ p (((e : Int) + 1) * nb) _ >>= _) = _
        rw [evaluate_fails (by omega) htest _ _ _ _ er hf]
        rfl
    · obtain ⟨h2, c3, c4, -, hs3, hs4⟩ := steps_append hs
      rw [key h2 c3 hs3]
      show (evaluateSvm api parseFloat files cfg _ p (((e : Int) + 1) * nb) _ >>= _) = _
      rw [(evaluate_steps (by omega) htest _ _ _ (State.mk h2 _) h1 c4 hs4).2, ok_bind]
      exact ih (e + 1) (State.mk h1 _) hf

theorem types_eq {n : Int} (hn : 1 ≤ n) {l : List Bool} (h : makeLayersTypes n = .ok l) :
    l.map (fun b => if b then Node.Softmax else Node.ReLU) = List.replicate (n.toNat - 1) Node.ReLU ++ [Node.Softmax] := by
  obtain ⟨l', h1, h2, h3⟩ := (makeLayersTypes_spec n).2 (by omega)
  rw [h] at h1
  cases h1
  apply List.ext_getElem?
  intro i
  rw [List.getElem?_map]
  by_cases hi : i < n.toNat
  · rw [h3 i hi]
    by_cases he : i = n.toNat - 1
    · subst he
      rw [List.getElem?_append_right (by simp)]
      simp
      omega
    · rw [List.getElem?_append_left (by simp; omega), List.getElem?_replicate, if_pos (by omega)]
      have : ¬ (i : Int) = n - 1 := by omega
      simp [this]
  · rw [List.getElem?_eq_none (by omega), List.getElem?_eq_none (by simp; omega)]
    rfl

end Goslide.Driver
