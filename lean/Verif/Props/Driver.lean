import Verif.Proofs.Driver
import Verif.Go.Exact
/-
Properties C37-C40 (training and evaluation driver), for an arbitrary network.
-/
set_option linter.unusedSectionVars false
namespace Goslide.Props
open Configuration Xcrepo Driver Spec
variable {F P H : Type} [GoFloat F]

/-- C38. A training epoch is exactly: for each batch number `i` in turn, possibly an evaluation, then one
`ProcessInput` call on batch `i` of the file with global iteration number `epoch * numBatches + i` and the
flags that are due, each call continuing with the network and memory of the one before. -/
theorem C38_epoch (api : NetApi F P H) (parseFloat : Bytes → Option F) (files : Bytes → Option Bytes)
    (cfg : Config F) (hB : 0 < cfg.BatchSize) (hper : PeriodsOk cfg) (es : List (Example F))
    (hfile : HoldsExamples parseFloat files cfg.TrainData es)
    (numBatches epoch : Nat) (p : P) (st : State F H) :
    trainSvmEpoch api parseFloat files cfg numBatches p epoch st =
      ((List.range numBatches).foldlM (trainStep api parseFloat files cfg es numBatches epoch) (p, st)).map (·.2) := by
  obtain ⟨content, s, s', h1, h2, h3, h4, h5⟩ := hfile
  unfold trainSvmEpoch makeExamples
  rw [openData_ok files _ content h1 h2, if_neg (by omega)]
  simp only [ok_bind]
  have := trainLoop_stream api parseFloat files cfg numBatches epoch es hB hper numBatches 0 (newScanner content) p st
    ⟨h2, s, s', by simpa using h3, h4, h5⟩
  rw [List.range_eq_range']
  exact this

/-- C38. The batches put together are the first `n * b` examples of the file in order (all of them if there
are fewer); no batch has more than `b` examples, and all but the last non-empty one are full. -/
theorem C38_batches (es : List (Example F)) (b n : Nat) :
    (List.range n).flatMap (batch es b) = es.take (n * b) ∧
    (∀ i, (batch es b i).length ≤ b) ∧
    (∀ i, batch es b (i + 1) ≠ [] → (batch es b i).length = b) := by
  refine ⟨flatMap_batch es b n, batch_length_le es b, ?_⟩
  intro i h
  unfold batch at h ⊢
  have hlt : (i + 1) * b < es.length := by
    apply Classical.byContradiction
    intro hn
    rw [List.drop_eq_nil_of_le (by omega)] at h
    simp at h
  rw [Nat.succ_mul] at hlt
  rw [List.length_take, List.length_drop]
  omega

/-- C38, observed on a network that records its calls: the `ProcessInput` calls of one epoch. -/
theorem C38_calls (parseFloat : Bytes → Option F) (files : Bytes → Option Bytes)
    (cfg : Config F) (hB : 0 < cfg.BatchSize) (hper : PeriodsOk cfg) (hstep : cfg.Stepsize ≠ 0)
    (es esTest : List (Example F))
    (hfile : HoldsExamples parseFloat files cfg.TrainData es)
    (htest : HoldsExamples parseFloat files cfg.TestData esTest)
    (numBatches epoch : Nat) (st : State F (List (Call F))) :
    ∃ st', trainSvmEpoch recorder parseFloat files cfg numBatches () epoch st = .ok st' ∧
      st'.heap = st.heap ++ (List.range numBatches).map (fun i =>
        { examples := batch es cfg.BatchSize.toNat i, iter := epoch * numBatches + i,
          rehash := decide (Due cfg cfg.Rehash (epoch * numBatches + i)),
          rebuild := decide (Due cfg cfg.Rebuild (epoch * numBatches + i)) }) := by
  rw [C38_epoch recorder parseFloat files cfg hB hper es hfile]
  have hrec := foldlM_append (trainStep recorder parseFloat files cfg es numBatches epoch)
    (fun ps => ps.2.heap) (fun i =>
        { examples := batch es cfg.BatchSize.toNat i, iter := epoch * numBatches + i,
          rehash := decide (Due cfg cfg.Rehash (epoch * numBatches + i)),
          rebuild := decide (Due cfg cfg.Rebuild (epoch * numBatches + i)) }) (List.range numBatches) ((), st) (by
    intro ps i _
    have hev : ∃ st', evalStep recorder parseFloat files cfg i (epoch * numBatches + i) ps.1 ps.2 = .ok st' ∧
        st'.heap = ps.2.heap := by
      unfold evalStep
      by_cases hi : i = 0
      · rw [if_pos hi]; exact ⟨_, rfl, rfl⟩
      · rw [if_neg hi, if_neg hstep]
        by_cases hd : cfg.Stepsize ∣ ((epoch * numBatches + i : Nat) : Int)
        · rw [if_pos hd]
          exact evaluateSvm_recorder parseFloat files cfg (by omega) esTest 20 _ ps.2 htest
        · rw [if_neg hd]; exact ⟨_, rfl, rfl⟩
    obtain ⟨st', h1, h2⟩ := hev
    unfold trainStep
    dsimp only
    rw [h1]
    refine ⟨_, rfl, ?_⟩
    dsimp only
    rw [h2]
    simp)
  obtain ⟨s', h1, h2⟩ := hrec
  rw [h1]
  exact ⟨s'.2, rfl, h2⟩

/-- C38, bad files. An unreadable file or a bad header ends the program before any training call; a
malformed line ends it when the batch that contains the line is read, after the batches before it. -/
theorem C38_bad_file (api : NetApi F P H) (parseFloat : Bytes → Option F) (files : Bytes → Option Bytes)
    (cfg : Config F) (numBatches epoch : Nat) (p : P) (st : State F H) :
    (files cfg.TrainData = none → trainSvmEpoch api parseFloat files cfg numBatches p epoch st = .error .exit) ∧
    (∀ content, files cfg.TrainData = some content → (newScanner content : Scanner F).Err ≠ none →
      trainSvmEpoch api parseFloat files cfg numBatches p epoch st = .error .exit) ∧
    (0 < cfg.BatchSize → PeriodsOk cfg → ∀ es k, FailsAfter parseFloat files cfg.TrainData es →
      k * cfg.BatchSize.toNat ≤ es.length → es.length < (k + 1) * cfg.BatchSize.toNat → k < numBatches →
      trainSvmEpoch api parseFloat files cfg numBatches p epoch st =
        ((List.range k).foldlM (trainStep api parseFloat files cfg es numBatches epoch) (p, st)).bind (fun ps =>
          (evalStep api parseFloat files cfg k (epoch * numBatches + k) ps.1 ps.2).bind (fun _ => .error .exit))) := by
  refine ⟨?_, ?_, ?_⟩
  · intro h
    unfold trainSvmEpoch openData
    rw [h]; rfl
  · intro content h1 h2
    unfold trainSvmEpoch openData
    rw [h1]
    dsimp only
    rw [if_pos h2]; rfl
  · intro hB hper es k hfile hk1 hk2 hk
    obtain ⟨content, s, s', h1, h2, h3, h4, h5⟩ := hfile
    unfold trainSvmEpoch makeExamples
    rw [openData_ok files _ content h1 h2, if_neg (by omega)]
    simp only [ok_bind]
    have := trainLoop_breaks api parseFloat files cfg numBatches epoch es hB hper k hk1 hk2 k numBatches 0
      (newScanner content) p st (by omega) hk ⟨h2, s, s', by simpa using h3, h4, h5⟩
    rw [List.range_eq_range']
    exact this

/-- C37. The `ProcessInput` calls of a whole training run, over all epochs: call number `t` (counted from 0)
has iteration number `t`, and its flags are set exactly when they are due (`Due`: modes 1 and 4 only, and
`t + 1` a multiple of `Rehash / BatchSize`, resp. `Rebuild / BatchSize`). -/
theorem C37_run (parseFloat : Bytes → Option F) (files : Bytes → Option Bytes)
    (cfg : Config F) (hB : 0 < cfg.BatchSize) (hper : PeriodsOk cfg) (hstep : cfg.Stepsize ≠ 0)
    (hrec : 0 ≤ cfg.TotRecords) (es esTest : List (Example F))
    (hfile : HoldsExamples parseFloat files cfg.TrainData es)
    (htest : HoldsExamples parseFloat files cfg.TestData esTest) (hlay : 1 ≤ cfg.NumLayer)
    (st : State F (List (Call F))) :
    ∃ st', run recorder parseFloat files cfg (fun _ h => .ok ((), h)) st = .ok st' ∧
      st'.heap = st.heap ++ (List.range cfg.Epoch.toNat).flatMap (fun e =>
        (List.range (cfg.TotRecords / cfg.BatchSize).toNat).map (fun i =>
        { examples := batch es cfg.BatchSize.toNat i,
          iter := (e * (cfg.TotRecords / cfg.BatchSize).toNat + i : Nat),
          rehash := decide (Due cfg cfg.Rehash (e * (cfg.TotRecords / cfg.BatchSize).toNat + i)),
          rebuild := decide (Due cfg cfg.Rebuild (e * (cfg.TotRecords / cfg.BatchSize).toNat + i)) })) := by
  have hnb : (cfg.TotRecords.tdiv cfg.BatchSize) = ((cfg.TotRecords / cfg.BatchSize).toNat : Int) := by
    rw [Int.tdiv_eq_ediv_of_nonneg hrec, Int.toNat_of_nonneg (Int.ediv_nonneg hrec (by omega))]
  generalize (cfg.TotRecords / cfg.BatchSize).toNat = nb at hnb ⊢
  have key : ∀ (nt : Int) (n e : Nat) (st : State F (List (Call F))),
      ∃ st', epochs recorder parseFloat files cfg nb nt () n e st = .ok st' ∧
      st'.heap = st.heap ++ (List.range' e n).flatMap (fun e => (List.range nb).map (fun i =>
        { examples := batch es cfg.BatchSize.toNat i, iter := (e * nb + i : Nat),
          rehash := decide (Due cfg cfg.Rehash (e * nb + i)),
          rebuild := decide (Due cfg cfg.Rebuild (e * nb + i)) })) := by
    intro nt n
    induction n with
    | zero => intro e st; exact ⟨st, rfl, by simp⟩
    | succ n ih =>
      intro e st
      rw [epochs]
      obtain ⟨st1, h1, h2⟩ := C38_calls parseFloat files cfg hB hper hstep es esTest hfile htest nb e
        { st with log := st.log ++ [.epoch e] }
      obtain ⟨st2, h3, h4⟩ := evaluateSvm_recorder parseFloat files cfg (by omega) esTest
        (if (e : Int) = cfg.Epoch - 1 then nt else 50) ((e + 1) * nb) st1 htest
      obtain ⟨st3, h5, h6⟩ := ih (e + 1) st2
      refine ⟨st3, ?_, ?_⟩
      · rw [h1]
        simp only [ok_bind]
        rw [h3]
        simp only [ok_bind]
        exact h5
      · rw [h6, h4, h2, List.range'_succ, List.flatMap_cons]
        simp
  have hlt : ∃ l, makeLayersTypes cfg.NumLayer = .ok l := by
    obtain ⟨l, h, -⟩ := (makeLayersTypes_spec cfg.NumLayer).2 (by omega)
    exact ⟨l, h⟩
  obtain ⟨l, hl⟩ := hlt
  obtain ⟨st', h1, h2⟩ := key (cfg.TotRecordsTest.tdiv cfg.BatchSize) cfg.Epoch.toNat 0 st
  refine ⟨st', ?_, ?_⟩
  · unfold run goDiv
    rw [if_neg (by omega), if_neg (by omega), hl, hnb]
    exact h1
  · rw [h2, ← List.range_eq_range']

/-- C37. In modes 1 and 4, a period shorter than one batch makes the first batch panic with a division by
zero, whatever the network; the training file is already open. -/
theorem C37_short_period_panics (api : NetApi F P H) (parseFloat : Bytes → Option F) (files : Bytes → Option Bytes)
    (cfg : Config F) (hmode : cfg.LayerMode = 1 ∨ cfg.LayerMode = 4)
    (hshort : (cfg.Rehash.natAbs : Int) < cfg.BatchSize ∨ (cfg.Rebuild.natAbs : Int) < cfg.BatchSize)
    (es : List (Example F)) (hfile : HoldsExamples parseFloat files cfg.TrainData es)
    (numBatches epoch : Nat) (hn : 0 < numBatches) (p : P) (st : State F H) :
    trainSvmEpoch api parseFloat files cfg numBatches p epoch st = .error .divZero := by
  obtain ⟨content, s, s', h1, h2, h3, h4, h5⟩ := hfile
  unfold trainSvmEpoch makeExamples
  rw [openData_ok files _ content h1 h2, if_neg (by omega)]
  simp only [ok_bind]
  obtain ⟨n, rfl⟩ : ∃ m, numBatches = m + 1 := ⟨numBatches - 1, by omega⟩
  obtain ⟨s2, r1, r2⟩ := readBatch_stream parseFloat cfg.BatchSize.toNat (newScanner content) es ⟨h2, s, s', h3, h4, h5⟩
  rw [Int.toNat_natCast, trainLoop]
  unfold maybeEval
  rw [if_neg (by omega)]
  simp only [ok_bind]
  rw [r1]
  dsimp only
  rw [if_neg (by rw [r2.1]; simp)]
  unfold flags
  rw [if_pos hmode]
  have hz : ∀ e : Int, (e.natAbs : Int) < cfg.BatchSize → e.tdiv cfg.BatchSize = 0 := by
    intro e he
    by_cases h0 : 0 ≤ e
    · exact Int.tdiv_eq_zero_of_lt h0 (by omega)
    · have := Int.neg_tdiv (a := -e) (b := cfg.BatchSize)
      rw [Int.neg_neg] at this
      rw [this, Int.tdiv_eq_zero_of_lt (by omega) (by omega)]; rfl
  have hb0 : ¬ cfg.BatchSize = 0 := by omega
  rcases hshort with h | h
  · unfold goDiv goMod
    rw [if_neg hb0]
    simp only [ok_bind]
    rw [hz _ h, if_pos rfl]
    rfl
  · unfold goDiv goMod
    rw [if_neg hb0, if_neg hb0]
    simp only [ok_bind]
    rw [hz _ h]
    by_cases hr : cfg.Rehash.tdiv cfg.BatchSize = 0
    · rw [if_pos hr]; rfl
    · rw [if_neg hr, if_pos rfl]; rfl

/-- The configuration of the examples below: batches of 2, 2 epochs over 3 records, rehash every batch,
rebuild every second batch. -/
def exampleConfig : Config Rat :=
  { (Configuration.default : Config Rat) with
      BatchSize := 2
      Rehash := 3
      Rebuild := 4
      Epoch := 2
      Stepsize := 1
      TotRecords := 4
      TotRecordsTest := 2
      NumLayer := 2
      LayerMode := 4
      TrainData := bytes "train" }

/-- Three examples in "train", one in the test file. -/
def exampleFiles (path : Bytes) : Option Bytes :=
  some (bytes (if path = bytes "train" then "3 4 2\n0 1:1\n1 2:1\n0 0:1\n" else "1 4 2\n0 1:1"))

def exampleFloat (_ : Bytes) : Option Rat := some 1

theorem exampleFiles_train : HoldsExamples exampleFloat exampleFiles exampleConfig.TrainData
    [⟨[⟨1, 1⟩], [0]⟩, ⟨[⟨2, 1⟩], [1]⟩, ⟨[⟨0, 1⟩], [0]⟩] := by
  let s0 : Scanner Rat := newScanner (bytes "3 4 2\n0 1:1\n1 2:1\n0 0:1\n")
  rw [show ([⟨[⟨1, 1⟩], [0]⟩, ⟨[⟨2, 1⟩], [1]⟩, ⟨[⟨0, 1⟩], [0]⟩] : List (Example Rat)) =
    [(scanN exampleFloat 1 s0).ex, (scanN exampleFloat 2 s0).ex, (scanN exampleFloat 3 s0).ex] from by decide +kernel]
  refine ⟨_, scanN exampleFloat 3 s0, (scan exampleFloat (scanN exampleFloat 3 s0)).2, rfl, by decide +kernel, ?_,
    by decide +kernel, by decide +kernel⟩
  exact Delivers.next s0 (scanN exampleFloat 1 s0) _ _ (by decide +kernel)
    (Delivers.next (scanN exampleFloat 1 s0) (scanN exampleFloat 2 s0) _ _ (by decide +kernel)
    (Delivers.next (scanN exampleFloat 2 s0) (scanN exampleFloat 3 s0) _ _ (by decide +kernel) (Delivers.done _)))

theorem exampleFiles_test : HoldsExamples exampleFloat exampleFiles exampleConfig.TestData [⟨[⟨1, 1⟩], [0]⟩] := by
  let s0 : Scanner Rat := newScanner (bytes "1 4 2\n0 1:1")
  rw [show ([⟨[⟨1, 1⟩], [0]⟩] : List (Example Rat)) = [(scanN exampleFloat 1 s0).ex] from by decide +kernel]
  refine ⟨_, scanN exampleFloat 1 s0, (scan exampleFloat (scanN exampleFloat 1 s0)).2, rfl, by decide +kernel, ?_,
    by decide +kernel, by decide +kernel⟩
  exact Delivers.next s0 (scanN exampleFloat 1 s0) _ _ (by decide +kernel) (Delivers.done _)

example : PeriodsOk exampleConfig ∧ 0 < exampleConfig.BatchSize ∧ exampleConfig.Stepsize ≠ 0 := by
  refine ⟨fun _ => ?_, ?_, ?_⟩ <;> decide

-- the run of C37: two batches per epoch, the second one short; rebuild is due at iterations 1 and 3
example : (run recorder exampleFloat exampleFiles exampleConfig (fun _ h => .ok ((), h)) ⟨[], []⟩).toOption.map
    (fun st => st.heap.map (fun c => (c.examples.length, c.iter, c.rehash, c.rebuild))) =
    some [(2, 0, true, false), (1, 1, true, true), (2, 2, true, false), (1, 3, true, true)] := by decide +kernel

-- C37, panic: Rehash shorter than a batch
example : trainSvmEpoch recorder exampleFloat exampleFiles { exampleConfig with Rehash := 1 } 2 () 0 ⟨[], []⟩ =
    .error .divZero := by decide +kernel

/-- C39. An evaluation is exactly: for each batch number `i` in turn, predict batch `i` of the test file, add
the number of correct predictions to the running total and print it as a proportion; at the end print the
total as a proportion of `numBatches * BatchSize`. -/
theorem C39_evaluation (api : NetApi F P H) (parseFloat : Bytes → Option F) (files : Bytes → Option Bytes)
    (cfg : Config F) (hB : 0 ≤ cfg.BatchSize) (es : List (Example F))
    (hfile : HoldsExamples parseFloat files cfg.TestData es) (n iter : Int) (p : P) (st : State F H) :
    evaluateSvm api parseFloat files cfg n p iter st =
      ((List.range n.toNat).foldlM (evalBatch api cfg es) (0, p, st)).map (fun x =>
        let acc := GoFloat.div (GoFloat.ofInt x.1) (GoFloat.mul (GoFloat.ofInt n) (GoFloat.ofInt cfg.BatchSize))
        { x.2.2 with log := x.2.2.log ++ [.overall acc, .summary iter acc] }) :=
  evaluateSvm_stream api parseFloat files cfg hB es n iter p st hfile

/-- C39. For every network whose predictions are counts, every accuracy printed by an evaluation (over any
files) is a count between 0 and the number of records it is divided by. -/
theorem C39_proportion (api : NetApi F P H) (hapi : CountsCorrectly api) (parseFloat : Bytes → Option F)
    (files : Bytes → Option Bytes) (cfg : Config F) (n iter : Int) (hn : 0 ≤ n) (p : P) (st st' : State F H)
    (h : evaluateSvm api parseFloat files cfg n p iter st = .ok st') :
    ∃ lines, st'.log = st.log ++ lines ∧ ∀ l ∈ lines, IsProportion cfg.BatchSize n l := by
  unfold evaluateSvm at h
  cases ho : (openData files cfg.TestData : Go (Scanner F)) with
  | error e => rw [ho] at h; simp at h
  | ok s =>
    rw [ho] at h
    simp only [ok_bind] at h
    unfold makeExamples at h
    by_cases hB : cfg.BatchSize < 0
    · rw [if_pos hB] at h; simp at h
    · rw [if_neg hB] at h
      simp only [ok_bind] at h
      cases hl : evalLoop api parseFloat cfg n.toNat 0 0 s p st with
      | error e => rw [hl] at h; simp at h
      | ok x =>
        obtain ⟨tot, st1⟩ := x
        rw [hl] at h
        simp only [ok_bind, Except.ok.injEq] at h
        obtain ⟨h1, h2, lines, h3, h4⟩ := evalLoop_bounds api hapi parseFloat cfg (by omega) n n.toNat 0 0 s p st tot st1
          (by omega) (by simp) hl
        have hc : tot ≤ n * cfg.BatchSize := by
          rw [Int.zero_add, Int.toNat_of_nonneg hn, Int.mul_comm] at h2
          exact h2
        refine ⟨lines ++ [.overall (overallAccuracy tot n cfg.BatchSize), .summary iter (overallAccuracy tot n cfg.BatchSize)], ?_, ?_⟩
        · rw [← h]; dsimp only; rw [h3]; simp
        · intro l hl
          simp only [List.mem_append, List.mem_cons, List.not_mem_nil, or_false] at hl
          rcases hl with hl | rfl | rfl
          · exact h4 l hl
          · exact ⟨tot, h1, hc, rfl⟩
          · exact ⟨tot, h1, hc, rfl⟩

/-- C39 in exact arithmetic: a printed accuracy lies between 0 and 1. -/
theorem C39_exact (b n : Int) (hb : 0 < b) (hn : 0 < n) (l : Line Rat) (h : IsProportion b n l) (a : Rat)
    (hl : (∃ i, 0 ≤ i ∧ l = .iter i a) ∨ l = .overall a ∨ ∃ t, l = .summary t a) : 0 ≤ a ∧ a ≤ 1 := by
  have key : ∀ c d : Int, 0 ≤ c → c ≤ d → 0 < d → (0 : Rat) ≤ (c : Rat) / (d : Rat) ∧ (c : Rat) / (d : Rat) ≤ 1 := by
    intro c d h0 h1 hd
    have hd' : (0 : Rat) < (d : Rat) := Rat.intCast_pos.mpr hd
    constructor
    · rw [← Rat.not_lt, Rat.div_lt_iff hd', Rat.not_lt, Rat.zero_mul]
      exact Rat.intCast_nonneg.mpr h0
    · rw [← Rat.not_lt, Rat.lt_div_iff hd', Rat.not_lt, Rat.one_mul]
      exact Rat.intCast_le_intCast.mpr h1
  rcases hl with ⟨i, hi, rfl⟩ | rfl | ⟨t, rfl⟩
  · obtain ⟨c, h0, h1, rfl⟩ := h
    have := key c (b * (i + 1)) h0 h1 (Int.mul_pos hb (by omega))
    rw [Rat.intCast_mul, Rat.intCast_add] at this
    exact this
  · obtain ⟨c, h0, h1, rfl⟩ := h
    have := key c (n * b) h0 h1 (Int.mul_pos hn hb)
    rw [Rat.intCast_mul] at this
    exact this
  · obtain ⟨c, h0, h1, rfl⟩ := h
    have := key c (n * b) h0 h1 (Int.mul_pos hn hb)
    rw [Rat.intCast_mul] at this
    exact this

/-- C40. `makeLayersTypes n` has length `n`, only its last entry is Softmax (`true`); it panics for `n ≤ 0`. -/
theorem C40_types (n : Int) :
    (n ≤ 0 → ∃ e, makeLayersTypes n = .error e) ∧
    (0 < n → ∃ l, makeLayersTypes n = .ok l ∧ l.length = n.toNat ∧
      ∀ i : Nat, i < n.toNat → l[i]? = some (decide ((i : Int) = n - 1))) :=
  makeLayersTypes_spec n

-- C39: a network that is right on every example of the file; the second batch is empty, the total still 1
example : (evaluateSvm { (recorder : NetApi Rat _ _) with predictClass := fun p es h => .ok (es.length, p, h) }
    exampleFloat exampleFiles exampleConfig 2 () 7 ⟨[], []⟩).toOption.map (·.log) =
    some [.records 2 1 1, .iter 0 (1 / 2), .records 2 0 0, .iter 1 (1 / 4), .overall (1 / 4), .summary 7 (1 / 4)] := by
  decide +kernel

example : makeLayersTypes 3 = .ok [false, false, true] := by decide

end Goslide.Props
