import Verif.Props.ParseFloat
import Verif.Props.Program
/-
The whole program on files given as bytes, in binary64: C93.
-/
set_option linter.unusedSectionVars false
namespace Goslide.Props
open Goslide Binary64 Configuration Spec Spec.Float Spec.Network Layer Network Xcrepo Driver

/-- The examples `es` are written, with a header, to the file at `path`: lines end with LF or CRLF, the last one may have no end. -/
structure Written (files : Bytes → Option Bytes) (path : Bytes) (es : List (Example B64)) : Prop where
  file : ∃ points nF nL lines, files path = some (fileOf lines) ∧ (0 < points ∧ points < 2 ^ 63) ∧ (0 < nF ∧ nF < 2 ^ 63) ∧ (0 < nL ∧ nL < 2 ^ 63) ∧
    (∀ e ∈ es, e.Features ≠ [] ∧ (∀ p ∈ e.Features, 0 ≤ p.Index ∧ p.Index < (nF : Nat)) ∧ (∀ l ∈ e.Labels, 0 ≤ l ∧ l < ((nL : Nat) : Int))) ∧
    lines.map (·.1) = showHeader points nF nL :: es.map (showExample show64) ∧
    (∀ l ∈ lines.dropLast, IsEol l.2) ∧ (∀ l ∈ lines.getLast?, IsEol l.2 ∨ l.2 = []) ∧ (∀ l ∈ lines, l.1.length < 65535)

theorem Written.holds (L : Lib) {files : Bytes → Option Bytes} {path : Bytes} {es : List (Example B64)} (h : Written files path es) :
    @HoldsExamples B64 (float64 L) ParseFloat.parseFloat files path es := by
  obtain ⟨points, nF, nL, lines, hfile, hP, hF, hL, hes, hlines, heols, hlast, hlen⟩ := h.file
  obtain ⟨h1, -, -, -, s', h2, h3, h4⟩ := C92_data_file L points nF nL hP hF hL es lines hes hlines heols hlast hlen
  exact ⟨fileOf lines, s', _, hfile, h1, h2, Prod.ext h3 rfl, h4⟩

/-- C93: a configuration and data written to files, the program called with the path of the first: it runs to its end with the log and the
calls of C74, for all random numbers and all functions `exp`, `sqrt` and `pow`. -/
theorem C93_program (L : Lib) (text : Bytes → List Char) (cfg : Config B64) (hjson : ∀ f : Field, JsonValue text (cfg.get f)) {files : Bytes → Option Bytes}
    {path : Bytes} (hfile : files path = some (Spec.Json.showConfig text show64 cfg)) {es esTest : List (Example B64)} (htrain : Written files cfg.TrainData es)
    (htest : Written files cfg.TestData esTest) :
    letI := float64 L
    cfg.LoadWeight = false → cfg.LayerMode ≠ 2 → DriverOk cfg → NewOk cfg (argsOf cfg) → LayersOk cfg (argsOf cfg) 0 →
    LayersOk cfg (argsOf cfg) cfg.NumLayer.toNat → (∀ ex ∈ es, Fits cfg (argsOf cfg) 0 ex.Features ex.Labels) →
    (∀ ex ∈ esTest, Fits cfg (argsOf cfg) cfg.NumLayer.toNat ex.Features []) → ∀ (fuel : Nat) (w : World B64),
    ∃ p w1 w2, Network.new cfg 0 cfg.NumLayer cfg.SizesOfLayers (argsOf cfg).types cfg.BatchSize cfg.LearningRate cfg.InputDim cfg.K cfg.L cfg.RangePow
        cfg.Sparsity w = .ok (p, w1) ∧
      Program.program ParseFloat.parseFloat Json.parse files [path] fuel w =
        .ok ⟨w2, logOf cfg esTest (blocks cfg) (countsOf cfg fuel 0 (schedule cfg es esTest) p w1)⟩ ∧
      runCalls cfg fuel 0 (schedule cfg es esTest) p w1 = .ok (p, w2) := by
  let _ := float64 L
  let _ := float64Order L
  have := float64IntDiv L
  intro hl hm hdr hnew hok hok' hfit hfit' fuel w
  refine C74_program_partial hl hm hdr hnew hok hok' ?_ ⟨htrain.holds L, htest.holds L, hfit, hfit'⟩ fuel w
  rw [hfile]
  exact C92_config L text cfg hjson

/-- C93: without such a file, or if its content is no JSON text, the program exits at once. -/
theorem C93_bad_config (L : Lib) {files : Bytes → Option Bytes} {path : Bytes} (h : ∀ content, files path = some content → ¬ ∃ j, Spec.Json.Document content j)
    (fuel : Nat) (w : World B64) : letI := float64 L
    Program.program ParseFloat.parseFloat Json.parse files [path] fuel w = .error .exit := by
  let _ := float64 L
  refine (C74_bad_start _ _ files [path] fuel w).2 path ?_
  cases hf : files path with
  | none => rfl
  | some content => exact C91_rejects _ (h content hf)

namespace FromBytesEx

/-- The number 1/2. -/
def half : B64 := .fin (1 / 2) ⟨by norm_num, 1, -1, by norm_num, by norm_num, by norm_num, by norm_num⟩
/-- The number 1. -/
def one : B64 := .fin 1 ⟨by norm_num, 1, 0, by norm_num, by norm_num, by norm_num, by norm_num⟩

/-- Two sparse layers of 3 and 2 nodes on 4 inputs in mode 4 with signed random projections; batches of 2, two epochs. -/
def cfg : Config B64 where
  RangePow := [6, 6]
  K := [1, 1]
  L := [1, 1]
  Sparsity := [half, half, one, one]
  BatchSize := 2
  Rehash := 3
  Rebuild := 4
  InputDim := 4
  TotRecords := 4
  TotRecordsTest := 2
  LearningRate := half
  Epoch := 2
  Stepsize := 1
  SizesOfLayers := [3, 2]
  NumLayer := 2
  TrainData := bytes "train"
  TestData := bytes "test"
  Weights := []
  SavedWeights := []
  LogFile := []
  UseAdam := true
  HashFunction := 4
  LoadWeight := false
  LayerMode := 4
  CpuProfile := false
  MemProfile := false

/-- The file names are ASCII. -/
def text (s : Bytes) : List Char := s.map (fun c => Char.ofNat c.toNat)

theorem json (f : Field) : JsonValue text (cfg.get f) := by
  cases f <;> first
    | exact True.intro
    | (show ∀ n ∈ _, _; decide)
    | (show _ ∧ _; decide)
    | (show List.flatMap _ _ = _; decide +kernel)
    | (intro x hx; simp only [cfg, List.mem_cons, List.not_mem_nil, or_false] at hx; rcases hx with rfl | rfl | rfl | rfl <;> exact True.intro)

-- the text of the file
example : Spec.Json.showConfig text show64 cfg = bytes ("{\"RangePow\":[6,6],\"K\":[1,1],\"L\":[1,1],\"Sparsity\":[5e-1,5e-1,1e-0,1e-0],\"BatchSize\":2," ++
    "\"Rehash\":3,\"Rebuild\":4,\"InputDim\":4,\"TotRecords\":4,\"TotRecordsTest\":2,\"LearningRate\":5e-1,\"Epoch\":2,\"Stepsize\":1,\"SizesOfLayers\":[3,2],\"NumLayer\":2," ++
    "\"TrainData\":\"train\",\"TestData\":\"test\",\"Weights\":\"\",\"SavedWeights\":\"\",\"LogFile\":\"\",\"UseAdam\":true,\"HashFunction\":4,\"LoadWeight\":false,\"LayerMode\":4," ++
    "\"CpuProfile\":false,\"MemProfile\":false}") := by decide +kernel

/-- Three examples to train on. -/
def train : List (Example B64) := [⟨[⟨1, one⟩, ⟨3, half⟩], [0]⟩, ⟨[⟨2, half⟩], [1]⟩, ⟨[⟨0, one⟩], [0, 1]⟩]
/-- One to test on, of no class. -/
def test : List (Example B64) := [⟨[⟨1, half⟩], []⟩]

/-- The lines of the file of the training data, the last without an end. -/
def trainLines : List (Bytes × Bytes) :=
  [(bytes "3 4 2", [10]), (bytes "0 1:1e-0 3:5e-1", [13, 10]), (bytes "1 2:5e-1", [10]), (bytes "0,1 0:1e-0", [])]
/-- The lines of the file of the test data. -/
def testLines : List (Bytes × Bytes) := [(bytes "1 4 2", [10]), (bytes " 1:5e-1", [10])]

/-- The three files. -/
def files (path : Bytes) : Option Bytes :=
  if path = bytes "config" then some (Spec.Json.showConfig text show64 cfg)
  else if path = bytes "train" then some (fileOf trainLines)
  else if path = bytes "test" then some (fileOf testLines)
  else none

theorem train_written : Written files cfg.TrainData train := by
  refine ⟨3, 4, 2, trainLines, by decide +kernel, by decide, by decide, by decide, ?_, by decide +kernel, by simp only [IsEol]; decide +kernel, by simp only [IsEol]; decide +kernel, by decide +kernel⟩
  intro e he
  simp only [train, List.mem_cons, List.not_mem_nil, or_false] at he
  rcases he with rfl | rfl | rfl <;> simp

theorem test_written : Written files cfg.TestData test := by
  refine ⟨1, 4, 2, testLines, by decide +kernel, by decide, by decide, by decide, ?_, by decide +kernel, by simp only [IsEol]; decide +kernel, by simp only [IsEol]; decide +kernel, by decide +kernel⟩
  intro e he
  simp only [test, List.mem_cons, List.not_mem_nil, or_false] at he
  subst he
  simp

theorem driverOk : DriverOk cfg :=
  ⟨by decide, fun _ => by decide, by decide, by decide, by decide, by decide⟩

theorem hashParams (j : Nat) (size k l rp : Int) (hj : (j : Int) < (argsOf cfg).layers) (h1 : (argsOf cfg).sizes[j]? = some size)
    (h2 : (argsOf cfg).k[j]? = some k) (h3 : (argsOf cfg).l[j]? = some l) (h4 : (argsOf cfg).rangePow[j]? = some rp) :
    (0 < size ∧ 0 ≤ k ∧ 0 ≤ l ∧ 0 ≤ rp) ∧ HashParams cfg ((argsOf cfg).inputs j) k l rp := by
  have hj' : j < 2 := by change (j : Int) < 2 at hj; omega
  match j, hj' with
  | 0, _ => cases h1; cases h2; cases h3; cases h4; exact ⟨by decide, by decide, (by decide : (_ : Int) ≤ 2 ^ 53 ∧ (1 : Int) ≤ 62 ∧ (1 : Int) ≤ 6)⟩
  | 1, _ => cases h1; cases h2; cases h3; cases h4; exact ⟨by decide, by decide, (by decide : (_ : Int) ≤ 2 ^ 53 ∧ (1 : Int) ≤ 62 ∧ (1 : Int) ≤ 6)⟩

theorem newOk : NewOk cfg (argsOf cfg) := by
  refine ⟨by decide, by decide, by decide, ?_, ?_⟩
  · intro j hj
    have hj' : j < 2 := by change (j : Int) < 2 at hj; omega
    exact ⟨hj', hj', hj', hj', hj', by show j < 4; omega⟩
  · intro j size k l rp hj h1 h2 h3 h4
    obtain ⟨⟨a, b, c, d⟩, e⟩ := hashParams j size k l rp hj h1 h2 h3 h4
    exact ⟨by omega, b, c, d, e⟩

theorem one_eq (L : Lib) : (float64 L).one = one := by
  have h : ofRat ((1 : ℤ) : ℚ) = .fin ((1 : ℤ) : ℚ) _ := ofRat_int (by norm_num) (by norm_num)
  have h' : ofRat 1 = one := by
    simp only [Int.cast_one] at h
    exact h
  exact h'

theorem layersOk (L : Lib) (off : Nat) (h : off = 0 ∨ off = 2) : @LayersOk B64 (float64 L) cfg (argsOf cfg) off := by
  let _ := float64 L
  intro j size k l rp hj h1 h2 h3 h4
  obtain ⟨⟨a, -⟩, e⟩ := hashParams j size k l rp hj h1 h2 h3 h4
  have hj' : j < 2 := by change (j : Int) < 2 at hj; omega
  rcases h with rfl | rfl
  · exact ⟨half, by match j, hj' with | 0, _ => rfl | 1, _ => rfl, .inr ⟨fun h => absurd h (by decide), fun h => absurd h (by decide), fun h => absurd rfl h, a, e⟩⟩
  · exact ⟨one, by match j, hj' with | 0, _ => rfl | 1, _ => rfl, .inl ⟨by rw [one_eq]; exact (by decide +kernel : one.eq one = true), by rw [one_eq]; exact (by decide +kernel : one.lt one = false)⟩⟩

theorem fits (L : Lib) (off : Nat) (features : List (Pair B64)) (labels : List Int) (hf : ∀ x ∈ features, 0 ≤ x.Index ∧ x.Index < 4) (hc : features.length ≤ 4)
    (hlab : (∀ y ∈ labels, 0 ≤ y ∧ y < 2) ∧ labels.Nodup) : @Fits B64 (float64 L) cfg (argsOf cfg) off features labels := by
  let _ := float64 L
  refine ⟨hf, fun _ _ _ => ⟨Nat.zero_le _, by show (features.length : Int) ≤ 4; omega⟩, ?_⟩
  intro j _ size hj _ _ ht hs
  have hj' : j < 2 := by change (j : Int) < 2 at hj; omega
  match j, hj' with
  | 0, _ => exact absurd ht (by show ¬ (some (0 : Int) = some 1); decide)
  | 1, _ => cases hs; exact ⟨hlab.1, fun _ => hlab.2, fun h2 => absurd h2 (by decide)⟩

end FromBytesEx

-- the same configuration without the last bracket
example (L : Lib) (fuel : Nat) (w : World B64) : letI := float64 L
    Program.program ParseFloat.parseFloat Json.parse (fun path => (FromBytesEx.files path).map List.dropLast) [bytes "config"] fuel w = .error .exit := by
  refine C93_bad_config L ?_ fuel w
  rintro content hc ⟨j, hj⟩
  have hn : (((FromBytesEx.files (bytes "config")).map List.dropLast).bind fun c => (Json.parse c).map fun _ => ()) = none := by decide +kernel
  rw [hc, Option.bind_some, (C91_syntax _ _).mpr hj] at hn
  cases hn

-- three files of bytes, the program on the path of the first: it ends for any random numbers, functions `exp`, `sqrt` and `pow` and memory
example (L : Lib) (fuel : Nat) (w : World B64) : letI := float64 L
    ∃ st, Program.program ParseFloat.parseFloat Json.parse FromBytesEx.files [bytes "config"] fuel w = .ok st := by
  obtain ⟨p, w1, w2, -, h, -⟩ := C93_program L FromBytesEx.text FromBytesEx.cfg FromBytesEx.json (files := FromBytesEx.files) (path := bytes "config") rfl
    FromBytesEx.train_written FromBytesEx.test_written rfl (by decide) FromBytesEx.driverOk FromBytesEx.newOk (FromBytesEx.layersOk L 0 (.inl rfl))
    (FromBytesEx.layersOk L 2 (.inr rfl))
    (by
      intro ex hex
      simp only [FromBytesEx.train, List.mem_cons, List.not_mem_nil, or_false] at hex
      rcases hex with rfl | rfl | rfl <;> exact FromBytesEx.fits L _ _ _ (by simp) (by simp) (by decide))
    (by
      intro ex hex
      simp only [FromBytesEx.test, List.mem_cons, List.not_mem_nil, or_false] at hex
      subst hex
      exact FromBytesEx.fits L _ _ _ (by simp) (by simp) (by decide)) fuel w
  exact ⟨_, h⟩

end Goslide.Props
