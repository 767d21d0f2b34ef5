import Verif.Proofs.Program
import Verif.Props.Progress
import Verif.Proofs.NetworkKeeps
import Verif.Props.Configuration
/-
The whole program: C74.
-/
set_option linter.unusedSectionVars false
namespace Goslide.Props
open Goslide Configuration Spec Spec.Network Layer Network Xcrepo Driver
variable {F P H : Type} [GoFloat F]

theorem typed_argsOf {cfg : Config F} (h : 1 ≤ cfg.NumLayer) : (argsOf cfg).Typed := by
  refine ⟨fun j ty hj hty => ?_, ?_⟩
  · have := List.mem_of_getElem? hty
    simp only [argsOf, List.mem_append, List.mem_replicate, List.mem_singleton] at this
    rcases this with ⟨-, rfl⟩ | rfl
    · exact .inl rfl
    · exact .inr rfl
  · show (List.replicate (cfg.NumLayer.toNat - 1) Node.ReLU ++ [Node.Softmax])[(cfg.NumLayer - 1).toNat]? = _
    rw [show (cfg.NumLayer - 1).toNat = cfg.NumLayer.toNat - 1 by omega, List.getElem?_append_right (by simp)]
    simp

theorem calls_steps [FloatOrder F] [FloatIntDiv F] {P : Pace} {cfg : Config F} (hl : cfg.LoadWeight = false) {a : NetArgs F} (ha : a.Typed)
    (hP : P.Enough cfg a.sizes) (hpos : 0 < a.layers) (hok : LayersOk cfg a 0) (hok' : LayersOk cfg a a.layers.toNat) (calls : List (NetCall F))
    (hcalls : ∀ x ∈ calls, CallOk cfg a x) : ∀ {w : World F} {p : Ptr}, Life cfg 0 a w p → P.J w.rng →
      ∃ k w' cs, P.K k ∧ (∀ fuel, k ≤ fuel → Steps (Program.netApi cfg fuel) p calls w w' cs ∧ runCalls cfg fuel 0 calls p w = .ok (p, w') ∧
        countsOf cfg fuel 0 calls p w = cs) ∧ Life cfg 0 a w' p := by
  induction calls with
  | nil => intro w p life hr; exact ⟨0, w, [], P.zero, fun _ _ => ⟨⟨rfl, rfl⟩, rfl, rfl⟩, life⟩
  | cons x calls ih =>
    intro w p life hr
    have hx := hcalls x (by simp)
    have ih := fun {w : World F} (life : Life cfg 0 a w p) hr => ih (fun y hy => hcalls y (by simp [hy])) life hr
    cases x with
    | train es iter rehash rebuild =>
      obtain ⟨k1, w1, hk1, h1, life1, hr1⟩ := train_pace hl ha hP hok life hr iter rehash rebuild hx.1 hx.2
      obtain ⟨k2, w', cs, hk2, h, life'⟩ := ih life1 hr1
      refine ⟨Nat.max k1 k2, w', cs, P.max hk1 hk2, fun fuel hf => ?_, life'⟩
      have h1 := h1 fuel (Nat.le_trans (Nat.le_max_left _ _) hf)
      obtain ⟨hs, h, hc⟩ := h fuel (Nat.le_trans (Nat.le_max_right _ _) hf)
      refine ⟨⟨w1, ?_, hs⟩, ?_, ?_⟩
      · show (processInput cfg fuel p 0 es iter rehash rebuild w >>= fun x => .ok (x.1.2, x.2)) = _
        rw [h1]
        rfl
      · unfold runCalls
        rw [h1]
        exact h
      · unfold countsOf
        rw [h1]
        exact hc
    | predict es =>
      obtain ⟨k1, m, w1, hk1, h1, -, -, life1, hr1⟩ := predict_pace hl ha hP hpos hok' life hr hx.1 hx.2
      obtain ⟨k2, w', cs, hk2, h, life'⟩ := ih life1 hr1
      refine ⟨Nat.max k1 k2, w', m :: cs, P.max hk1 hk2, fun fuel hf => ?_, life'⟩
      have h1 := h1 fuel (Nat.le_trans (Nat.le_max_left _ _) hf)
      obtain ⟨hs, h, hc⟩ := h fuel (Nat.le_trans (Nat.le_max_right _ _) hf)
      refine ⟨⟨m, cs, w1, rfl, ?_, hs⟩, ?_, ?_⟩
      · show (predictClass cfg fuel p 0 es w >>= fun x => .ok (x.1.1, x.1.2, x.2)) = _
        rw [h1]
        rfl
      · unfold runCalls
        rw [h1]
        exact h
      · unfold countsOf
        rw [h1]
        exact congrArg (m :: ·) hc

theorem batch_subset (es : List (Example F)) (b i : Nat) : ∀ ex ∈ batch es b i, ex ∈ es := fun _ h => List.mem_of_mem_drop (List.mem_of_mem_take h)

theorem schedule_ok {cfg : Config F} (hB : 0 < cfg.BatchSize) {es esTest : List (Example F)} (hes : ∀ ex ∈ es, Fits cfg (argsOf cfg) 0 ex.Features ex.Labels)
    (hes' : ∀ ex ∈ esTest, Fits cfg (argsOf cfg) cfg.NumLayer.toNat ex.Features []) : ∀ x ∈ schedule cfg es esTest, CallOk cfg (argsOf cfg) x := by
  have hb : ∀ (l : List (Example F)) (i : Nat), ((batch l cfg.BatchSize.toNat i).length : Int) ≤ cfg.BatchSize := by
    intro l i
    have := batch_length_le l cfg.BatchSize.toNat i
    omega
  have hp : ∀ n, ∀ x ∈ predictions cfg esTest n, CallOk cfg (argsOf cfg) x := by
    intro n x hx
    obtain ⟨i, -, rfl⟩ := List.mem_map.mp hx
    exact ⟨hb _ _, fun ex hex => hes' ex (batch_subset _ _ _ ex hex)⟩
  intro x hx
  obtain ⟨e, -, hx⟩ := List.mem_flatMap.mp hx
  rcases List.mem_append.mp hx with hx | hx
  · obtain ⟨i, -, hx⟩ := List.mem_flatMap.mp hx
    rcases List.mem_append.mp hx with hx | hx
    · split at hx
      · exact hp _ x hx
      · cases hx
    · rw [List.mem_singleton] at hx
      subst hx
      exact ⟨hb _ _, fun ex hex => hes ex (batch_subset _ _ _ ex hex)⟩
  · exact hp _ x hx

theorem newLayers_entries {cfg : Config F} {c b : Int} {sizes types ks ls rps : List Int} {sp : List F} :
    ∀ (n i : Nat) (prev : Int) {w w' : World F} {ps : List Ptr}, 0 < n → newLayers cfg c sizes types b ks ls rps sp n i prev w = .ok (ps, w') →
      i + n ≤ sizes.length ∧ i + n ≤ ks.length ∧ i + n ≤ ls.length ∧ i + n ≤ rps.length ∧ i + n ≤ sp.length := by
  intro n
  induction n with
  | zero => intro i prev w w' ps h; omega
  | succ n ih =>
    intro i prev w w' ps _ h
    unfold newLayers at h
    obtain ⟨size, _, h1, h⟩ := M.bind_eq_ok h
    obtain ⟨_, _, -, h⟩ := M.bind_eq_ok h
    obtain ⟨_, _, h2, h⟩ := M.bind_eq_ok h
    obtain ⟨_, _, h3, h⟩ := M.bind_eq_ok h
    obtain ⟨_, _, h4, h⟩ := M.bind_eq_ok h
    obtain ⟨_, _, h5, h⟩ := M.bind_eq_ok h
    obtain ⟨_, _, -, h⟩ := M.bind_eq_ok h
    obtain ⟨_, _, h, -⟩ := M.bind_eq_ok h
    by_cases hn : n = 0
    · subst hn
      have key : ∀ {α : Type} {l : List α} {x : α} {w w' : World F}, M.lift (goGet l (i : Int)) w = .ok (x, w') → i + (0 + 1) ≤ l.length := by
        intro α l x w w' h
        obtain ⟨h, -⟩ := lift_ok h
        have := (List.getElem?_eq_some_iff.mp (goGet_some h)).1
        omega
      exact ⟨key h1, key h2, key h3, key h4, key h5⟩
    · have := ih (i + 1) _ (by omega) h
      omega

/-- The two data files are well formed and hold `es` and `esTest`, which fit the network that the configuration describes. -/
structure DataOk (cfg : Config F) (parseFloat : Bytes → Option F) (files : Bytes → Option Bytes) (es esTest : List (Example F)) : Prop where
  train : HoldsExamples parseFloat files cfg.TrainData es
  test : HoldsExamples parseFloat files cfg.TestData esTest
  trainFits : ∀ ex ∈ es, Fits cfg (argsOf cfg) 0 ex.Features ex.Labels
  testFits : ∀ ex ∈ esTest, Fits cfg (argsOf cfg) cfg.NumLayer.toNat ex.Features []

theorem main_pace [FloatOrder F] [FloatIntDiv F] {P : Pace} {cfg : Config F} (hP : P.Enough cfg cfg.SizesOfLayers) (hl : cfg.LoadWeight = false)
    (hdr : DriverOk cfg) (hnew : NewOk cfg (argsOf cfg)) (hok : LayersOk cfg (argsOf cfg) 0) (hok' : LayersOk cfg (argsOf cfg) cfg.NumLayer.toNat)
    {parseFloat : Bytes → Option F} {files : Bytes → Option Bytes} {es esTest : List (Example F)} (hdata : DataOk cfg parseFloat files es esTest)
    (w : World F) (hr : P.J w.rng) :
    ∃ k p w1 w2 cs, P.K k ∧
      Network.new cfg 0 cfg.NumLayer cfg.SizesOfLayers (argsOf cfg).types cfg.BatchSize cfg.LearningRate cfg.InputDim cfg.K cfg.L cfg.RangePow
        cfg.Sparsity w = .ok (p, w1) ∧
      (∀ fuel, k ≤ fuel → Program.main parseFloat files cfg fuel w = .ok ⟨w2, logOf cfg esTest (blocks cfg) cs⟩ ∧
        runCalls cfg fuel 0 (schedule cfg es esTest) p w1 = .ok (p, w2) ∧ countsOf cfg fuel 0 (schedule cfg es esTest) p w1 = cs) ∧
      cs.length = need (blocks cfg) ∧ Life cfg 0 (argsOf cfg) w2 p := by
  have hB := hdr.batch
  have hL := hdr.layers
  obtain ⟨p, w1, h⟩ := C63_new_partial hl 0 hnew w
  obtain ⟨k, w2, cs, hk, hs, life⟩ := calls_steps hl (typed_argsOf hdr.layers) hP (by show 0 < cfg.NumLayer; omega) hok hok' (schedule cfg es esTest)
    (schedule_ok hdr.batch hdata.trainFits hdata.testFits) (Life.new h)
    ((Draws.new cfg 0 cfg.NumLayer cfg.SizesOfLayers (argsOf cfg).types cfg.BatchSize cfg.LearningRate cfg.InputDim cfg.K cfg.L cfg.RangePow
        cfg.Sparsity).pace P h hr)
  obtain ⟨types, ht, -⟩ := (makeLayersTypes_spec cfg.NumLayer).2 (by omega)
  have e1 : cfg.TotRecords.tdiv cfg.BatchSize = ((cfg.TotRecords / cfg.BatchSize).toNat : Int) := by
    rw [Int.tdiv_eq_ediv_of_nonneg hdr.records, Int.toNat_of_nonneg (Int.ediv_nonneg hdr.records (by omega))]
  have e2 : cfg.TotRecordsTest.tdiv cfg.BatchSize = ((cfg.TotRecordsTest / cfg.BatchSize).toNat : Int) := by
    rw [Int.tdiv_eq_ediv_of_nonneg hdr.recordsTest, Int.toNat_of_nonneg (Int.ediv_nonneg hdr.recordsTest (by omega))]
  have main := fun fuel hf => epochs_steps (api := Program.netApi cfg fuel) hdr hdata.train hdata.test (cfg.TotRecords / cfg.BatchSize).toNat
    (cfg.TotRecordsTest / cfg.BatchSize).toNat p cfg.Epoch.toNat 0 ⟨w1, []⟩ w2 cs (by rw [← List.range_eq_range']; exact (hs fuel hf).1)
  refine ⟨k, p, w1, w2, cs, hk, h, fun fuel hf => ⟨?_, (hs fuel hf).2⟩, ?_, life⟩
  · unfold Program.main run goDiv
    rw [if_neg (by omega), if_neg (by omega), ht]
    have hnn : Program.newNet cfg types w = .ok (p, w1) := by
      unfold Program.newNet
      rw [types_eq hdr.layers ht]
      exact h
    simp only [ok_bind]
    rw [hnn]
    simp only [ok_bind]
    rw [e1, e2]
    refine (main fuel hf).2.trans ?_
    rw [← List.range_eq_range']
    rfl
  · have := (main k (Nat.le_refl _)).1
    rw [← List.range_eq_range'] at this
    exact this

/-- C74. The whole program: if the configuration is consistent (`DriverOk`, `NewOk`, `LayersOk`) and the two data files are well formed and
fit the network, then `main` builds the network, makes exactly the calls of `schedule` on it, one after the other, and ends without a panic, whatever
the random draws. The log is the one computed from the returned counts. Missing: as for C63 and C66, and mode 2, for which see `C80_main`. -/
theorem C74_main_partial [FloatOrder F] [FloatIntDiv F] {cfg : Config F} (hl : cfg.LoadWeight = false) (hm : cfg.LayerMode ≠ 2) (hdr : DriverOk cfg)
    (hnew : NewOk cfg (argsOf cfg)) (hok : LayersOk cfg (argsOf cfg) 0) (hok' : LayersOk cfg (argsOf cfg) cfg.NumLayer.toNat)
    {parseFloat : Bytes → Option F} {files : Bytes → Option Bytes} {es esTest : List (Example F)} (hdata : DataOk cfg parseFloat files es esTest)
    (fuel : Nat) (w : World F) :
    ∃ p w1 w2, Network.new cfg 0 cfg.NumLayer cfg.SizesOfLayers (argsOf cfg).types cfg.BatchSize cfg.LearningRate cfg.InputDim cfg.K cfg.L cfg.RangePow
        cfg.Sparsity w = .ok (p, w1) ∧
      Program.main parseFloat files cfg fuel w =
        .ok ⟨w2, logOf cfg esTest (blocks cfg) (countsOf cfg fuel 0 (schedule cfg es esTest) p w1)⟩ ∧
      runCalls cfg fuel 0 (schedule cfg es esTest) p w1 = .ok (p, w2) ∧ Life cfg 0 (argsOf cfg) w2 p := by
  obtain ⟨k, p, w1, w2, cs, rfl, h1, h2, -, h4⟩ := main_pace (Pace.enough_any _ hm) hl hdr hnew hok hok' hdata w trivial
  obtain ⟨a, b, c⟩ := h2 fuel (Nat.zero_le _)
  exact ⟨p, w1, w2, h1, by rw [c]; exact a, b, h4⟩

/-- C80 for the whole program (C74 with mode 2): with a random source that hits every node of every layer again and again the program ends, in the same way for every
large enough bound on the number of draws. -/
theorem C80_main [FloatOrder F] [FloatIntDiv F] {cfg : Config F} (hl : cfg.LoadWeight = false) (hdr : DriverOk cfg)
    (hnew : NewOk cfg (argsOf cfg)) (hok : LayersOk cfg (argsOf cfg) 0) (hok' : LayersOk cfg (argsOf cfg) cfg.NumLayer.toNat)
    {parseFloat : Bytes → Option F} {files : Bytes → Option Bytes} {es esTest : List (Example F)} (hdata : DataOk cfg parseFloat files es esTest)
    (w : World F) (hfair : FairSource cfg.SizesOfLayers w.rng) :
    ∃ bound p w1 w2 cs, Network.new cfg 0 cfg.NumLayer cfg.SizesOfLayers (argsOf cfg).types cfg.BatchSize cfg.LearningRate cfg.InputDim cfg.K cfg.L
        cfg.RangePow cfg.Sparsity w = .ok (p, w1) ∧ Life cfg 0 (argsOf cfg) w2 p ∧
      ∀ fuel, bound ≤ fuel → Program.main parseFloat files cfg fuel w = .ok ⟨w2, logOf cfg esTest (blocks cfg) cs⟩ ∧
        runCalls cfg fuel 0 (schedule cfg es esTest) p w1 = .ok (p, w2) ∧ countsOf cfg fuel 0 (schedule cfg es esTest) p w1 = cs := by
  obtain ⟨k, p, w1, w2, cs, -, h1, h2, -, h4⟩ := main_pace (Pace.enough_fair cfg _) hl hdr hnew hok hok' hdata w hfair
  exact ⟨k, p, w1, w2, cs, h1, h4, h2⟩

theorem new_net {cfg : Config F} {c l b d : Int} {ss ts ks ls rs : List Int} {lr : F} {sp : List F} {w w' : World F} {p : Ptr}
    (h : Network.new cfg c l ss ts b lr d ks ls rs sp w = .ok (p, w')) : ∃ n, w'.networks[p]? = some n ∧ n.cowId = c := by
  unfold Network.new at h
  obtain ⟨_, _, -, h⟩ := M.bind_eq_ok h
  obtain ⟨_, _, -, h⟩ := M.bind_eq_ok h
  obtain ⟨_, _, -, h⟩ := M.bind_eq_ok h
  unfold allocNetwork at h
  cases h
  exact ⟨_, List.getElem?_concat_length, rfl⟩

theorem api_train {cfg : Config F} {fuel : Nat} {p : Ptr} {es : List (Example F)} {iter : Int} {rehash rebuild : Bool} {w : World F} :
    (Program.netApi cfg fuel).processInput p es iter rehash rebuild w =
      (processInput cfg fuel p 0 es iter rehash rebuild w).bind (fun x => .ok (x.1.2, x.2)) := rfl

theorem api_predict {cfg : Config F} {fuel : Nat} {p : Ptr} {es : List (Example F)} {w : World F} :
    (Program.netApi cfg fuel).predictClass p es w = (predictClass cfg fuel p 0 es w).bind (fun x => .ok (x.1.1, x.1.2, x.2)) := rfl

/-- A sequence of calls on a network with cowId 0 succeeds on this network, or fails in one of the calls. -/
theorem calls_cases (cfg : Config F) (fuel : Nat) (p : Ptr) : ∀ (calls : List (NetCall F)) (w : World F) (n : Network F),
    w.networks[p]? = some n → n.cowId = 0 →
    (∃ w', runCalls cfg fuel 0 calls p w = .ok (p, w') ∧ Steps (Program.netApi cfg fuel) p calls w w' (countsOf cfg fuel 0 calls p w)) ∨
    ∃ e, runCalls cfg fuel 0 calls p w = .error e ∧ Fails (Program.netApi cfg fuel) p calls w e := by
  intro calls
  induction calls with
  | nil => intro w n _ _; exact .inl ⟨w, rfl, rfl, rfl⟩
  | cons x calls ih =>
    intro w n hn hc
    cases x with
    | train es iter rehash rebuild =>
      unfold runCalls countsOf
      cases hr : processInput cfg fuel p 0 es iter rehash rebuild w with
      | error e => exact .inr ⟨e, rfl, .inl (by rw [api_train, hr]; rfl)⟩
      | ok o =>
        obtain ⟨⟨x, p'⟩, w1⟩ := o
        have := processInput_nets hn hr
        rw [if_pos hc] at this
        obtain ⟨rfl, hw⟩ := this
        rcases ih w1 n (by rw [hw]; exact hn) hc with ⟨w', h1, h2⟩ | ⟨e, h1, h2⟩
        · exact .inl ⟨w', h1, w1, by rw [api_train, hr]; rfl, h2⟩
        · exact .inr ⟨e, h1, .inr ⟨w1, by rw [api_train, hr]; rfl, h2⟩⟩
    | predict es =>
      unfold runCalls countsOf
      cases hr : predictClass cfg fuel p 0 es w with
      | error e => exact .inr ⟨e, rfl, .inl (by rw [api_predict, hr]; rfl)⟩
      | ok o =>
        obtain ⟨⟨m, p'⟩, w1⟩ := o
        have := predictClass_nets hn hr
        rw [if_pos hc] at this
        obtain ⟨rfl, hw⟩ := this
        rcases ih w1 n (by rw [hw]; exact hn) hc with ⟨w', h1, h2⟩ | ⟨e, h1, h2⟩
        · exact .inl ⟨w', h1, m, _, w1, rfl, by rw [api_predict, hr]; rfl, h2⟩
        · exact .inr ⟨e, h1, .inr ⟨m, w1, by rw [api_predict, hr]; rfl, h2⟩⟩

/-- C79: with well-formed files `main` does nothing but `network.New` and then the calls of the schedule; it panics exactly as they do, and if they
return, then the log is the one that the returned counts give, line by line. For every configuration the driver itself can work with: any hash
function, mode, table size, and also with loaded weights. -/
theorem C79_log {cfg : Config F} (hdr : DriverOk cfg) {parseFloat : Bytes → Option F} {files : Bytes → Option Bytes} {es esTest : List (Example F)}
    (htrain : HoldsExamples parseFloat files cfg.TrainData es) (htest : HoldsExamples parseFloat files cfg.TestData esTest) (fuel : Nat) (w : World F) :
    Program.main parseFloat files cfg fuel w = (do
      let (p, w1) ← Network.new cfg 0 cfg.NumLayer cfg.SizesOfLayers (argsOf cfg).types cfg.BatchSize cfg.LearningRate cfg.InputDim cfg.K cfg.L
        cfg.RangePow cfg.Sparsity w
      let (_, w2) ← runCalls cfg fuel 0 (schedule cfg es esTest) p w1
      .ok ⟨w2, logOf cfg esTest (blocks cfg) (countsOf cfg fuel 0 (schedule cfg es esTest) p w1)⟩) := by
  have hB := hdr.batch
  have hL := hdr.layers
  obtain ⟨types, ht, -⟩ := (makeLayersTypes_spec cfg.NumLayer).2 (by omega)
  have e1 : cfg.TotRecords.tdiv cfg.BatchSize = ((cfg.TotRecords / cfg.BatchSize).toNat : Int) := by
    rw [Int.tdiv_eq_ediv_of_nonneg hdr.records, Int.toNat_of_nonneg (Int.ediv_nonneg hdr.records (by omega))]
  have e2 : cfg.TotRecordsTest.tdiv cfg.BatchSize = ((cfg.TotRecordsTest / cfg.BatchSize).toNat : Int) := by
    rw [Int.tdiv_eq_ediv_of_nonneg hdr.recordsTest, Int.toNat_of_nonneg (Int.ediv_nonneg hdr.recordsTest (by omega))]
  unfold Program.main run goDiv
  rw [if_neg (by omega), if_neg (by omega), ht]
  have hnn : Program.newNet cfg types w = Network.new cfg 0 cfg.NumLayer cfg.SizesOfLayers (argsOf cfg).types cfg.BatchSize cfg.LearningRate cfg.InputDim
      cfg.K cfg.L cfg.RangePow cfg.Sparsity w := by
    unfold Program.newNet
    rw [types_eq hdr.layers ht]
    rfl
  simp only [ok_bind]
  rw [hnn]
  cases h : Network.new cfg 0 cfg.NumLayer cfg.SizesOfLayers (argsOf cfg).types cfg.BatchSize cfg.LearningRate cfg.InputDim cfg.K cfg.L cfg.RangePow
      cfg.Sparsity w with
  | error e => rfl
  | ok o =>
    obtain ⟨p, w1⟩ := o
    simp only [ok_bind]
    rw [e1, e2]
    obtain ⟨n, hn, hc⟩ := new_net h
    rcases calls_cases cfg fuel p (schedule cfg es esTest) w1 n hn hc with ⟨w2, h1, h2⟩ | ⟨e, h1, h2⟩
    · rw [h1, ok_bind]
      refine (epochs_steps (api := Program.netApi cfg fuel) hdr htrain htest (cfg.TotRecords / cfg.BatchSize).toNat
        (cfg.TotRecordsTest / cfg.BatchSize).toNat p cfg.Epoch.toNat 0 ⟨w1, []⟩ w2 _ (by rw [← List.range_eq_range']; exact h2)).2.trans ?_
      rw [← List.range_eq_range']
      rfl
    · rw [h1]
      exact epochs_fails (api := Program.netApi cfg fuel) hdr htrain htest (cfg.TotRecords / cfg.BatchSize).toNat
        (cfg.TotRecordsTest / cfg.BatchSize).toNat p e cfg.Epoch.toNat 0 ⟨w1, []⟩ (by rw [← List.range_eq_range']; exact h2)

/-- C79: the counts in the log are between 0 and the number of examples of the call. -/
theorem C79_counts (cfg : Config F) (fuel : Nat) (c : Int) : ∀ (calls : List (NetCall F)) (p p' : Ptr) (w w' : World F),
    runCalls cfg fuel c calls p w = .ok (p', w') →
    (countsOf cfg fuel c calls p w).length = (calls.filterMap predicted).length ∧
    ∀ x ∈ (countsOf cfg fuel c calls p w).zip (calls.filterMap predicted), 0 ≤ x.1 ∧ x.1 ≤ x.2.length := by
  intro calls
  induction calls with
  | nil => intro p p' w w' _; exact ⟨rfl, by simp [countsOf]⟩
  | cons x calls ih =>
    intro p p' w w' h
    cases x with
    | train es iter rehash rebuild =>
      unfold runCalls at h
      unfold countsOf
      cases hr : processInput cfg fuel p c es iter rehash rebuild w with
      | error e => rw [hr] at h; cases h
      | ok o =>
        rw [hr] at h
        exact ih _ _ _ _ h
    | predict es =>
      unfold runCalls at h
      unfold countsOf
      cases hr : predictClass cfg fuel p c es w with
      | error e => rw [hr] at h; cases h
      | ok o =>
        rw [hr] at h
        obtain ⟨q1, q2⟩ := ih _ _ _ _ h
        refine ⟨congrArg (· + 1) q1, fun y hy => ?_⟩
        rcases List.mem_cons.mp hy with rfl | hy
        · exact C64_bounds hr
        · exact q2 y hy

/-- All lines are proportions over one of the three numbers of batches. -/
def LogOk (cfg : Config F) (log : List (Line F)) : Prop :=
  ∀ l ∈ log, ∃ n, (n = 20 ∨ n = 50 ∨ n = cfg.TotRecordsTest.tdiv cfg.BatchSize) ∧ IsProportion cfg.BatchSize n l

theorem evaluate_logOk {api : NetApi F P H} (hapi : CountsCorrectly api) {parseFloat : Bytes → Option F} {files : Bytes → Option Bytes} {cfg : Config F}
    {n iter : Int} (hn : 0 ≤ n) (hn' : n = 20 ∨ n = 50 ∨ n = cfg.TotRecordsTest.tdiv cfg.BatchSize) {p : P} {st st' : State F H}
    (h : evaluateSvm api parseFloat files cfg n p iter st = .ok st') (hs : LogOk cfg st.log) : LogOk cfg st'.log := by
  obtain ⟨lines, e, hl⟩ := C39_proportion api hapi parseFloat files cfg n iter hn p st st' h
  rw [e]
  intro l hm
  rcases List.mem_append.mp hm with hm | hm
  · exact hs l hm
  · exact ⟨n, hn', hl l hm⟩

theorem train_logOk {api : NetApi F P H} (hapi : CountsCorrectly api) {parseFloat : Bytes → Option F} {files : Bytes → Option Bytes} {cfg : Config F}
    {nb e : Int} : ∀ (n : Nat) (i : Int) (s : Scanner F) (p : P) {st st' : State F H},
    trainLoop api parseFloat files cfg nb e n i s p st = .ok st' → LogOk cfg st.log → LogOk cfg st'.log := by
  intro n
  induction n with
  | zero => intro i s p st st' h hs; cases h; exact hs
  | succ n ih =>
    intro i s p st st' h hs
    rw [Driver.trainLoop] at h
    cases he : maybeEval api parseFloat files cfg nb e i p st with
    | error x => rw [he] at h; cases h
    | ok st1 =>
      rw [he, ok_bind] at h
      have h1 : LogOk cfg st1.log := by
        unfold maybeEval at he
        split at he
        · cases hg : goMod (i + e * nb) cfg.Stepsize with
          | error x => rw [hg] at he; cases he
          | ok r =>
            rw [hg, ok_bind] at he
            split at he
            · exact evaluate_logOk hapi (by decide) (.inl rfl) he hs
            · cases he; exact hs
        · cases he; exact hs
      dsimp only at h
      split at h
      · cases h
      · cases hf : flags cfg nb e i with
        | error x => rw [hf] at h; cases h
        | ok fl =>
          rw [hf, ok_bind] at h
          cases hp : api.processInput p (readBatch parseFloat cfg.BatchSize.toNat s).1 (e * nb + i) fl.1 fl.2 st1.heap with
          | error x => rw [hp] at h; cases h
          | ok o =>
            rw [hp, ok_bind] at h
            exact ih _ _ _ h h1

theorem epochs_logOk {api : NetApi F P H} (hapi : CountsCorrectly api) {parseFloat : Bytes → Option F} {files : Bytes → Option Bytes} {cfg : Config F}
    (hnt : 0 ≤ cfg.TotRecordsTest.tdiv cfg.BatchSize) {nb : Int} {p : P} : ∀ (n : Nat) (e : Int) {st st' : State F H},
    epochs api parseFloat files cfg nb (cfg.TotRecordsTest.tdiv cfg.BatchSize) p n e st = .ok st' → LogOk cfg st.log → LogOk cfg st'.log := by
  intro n
  induction n with
  | zero => intro e st st' h hs; cases h; exact hs
  | succ n ih =>
    intro e st st' h hs
    rw [epochs] at h
    have h0 : LogOk cfg (st.log ++ [.epoch e]) := by
      intro l hm
      rcases List.mem_append.mp hm with hm | hm
      · exact hs l hm
      · rw [List.mem_singleton.mp hm]
        exact ⟨20, .inl rfl, trivial⟩
    cases ht : trainSvmEpoch api parseFloat files cfg nb p e { st with log := st.log ++ [.epoch e] } with
    | error x => rw [ht] at h; cases h
    | ok st1 =>
      rw [ht, ok_bind] at h
      have h1 : LogOk cfg st1.log := by
        unfold trainSvmEpoch at ht
        cases ho : (openData files cfg.TrainData : Go (Scanner F)) with
        | error x => rw [ho] at ht; cases ht
        | ok s =>
          rw [ho, ok_bind] at ht
          cases hm : makeExamples cfg.BatchSize with
          | error x => rw [hm] at ht; cases ht
          | ok u =>
            rw [hm, ok_bind] at ht
            exact train_logOk hapi _ _ _ _ ht h0
      cases hv : evaluateSvm api parseFloat files cfg (if e = cfg.Epoch - 1 then cfg.TotRecordsTest.tdiv cfg.BatchSize else 50) p ((e + 1) * nb) st1 with
      | error x => rw [hv] at h; cases h
      | ok st2 =>
        rw [hv, ok_bind] at h
        refine ih _ h (evaluate_logOk hapi ?_ ?_ hv h1)
        · split
          · exact hnt
          · decide
        · split
          · exact .inr (.inr rfl)
          · exact .inr (.inl rfl)

/-- C79: whatever the configuration, the files and the random draws, every accuracy that a run prints is a proportion: a count between 0 and the
number of records it is divided by. -/
theorem C79_proportions {parseFloat : Bytes → Option F} {files : Bytes → Option Bytes} {cfg : Config F} (hB : 0 < cfg.BatchSize) (hT : 0 ≤ cfg.TotRecordsTest)
    {fuel : Nat} {w : World F} {st : State F (World F)} (h : Program.main parseFloat files cfg fuel w = .ok st) :
    ∀ l ∈ st.log, ∃ n, (n = 20 ∨ n = 50 ∨ n = cfg.TotRecordsTest / cfg.BatchSize) ∧ IsProportion cfg.BatchSize n l := by
  have hapi : CountsCorrectly (Program.netApi cfg fuel) := by
    intro p es h c p' h' hc
    cases hr : predictClass cfg fuel p 0 es h with
    | error e =>
      replace hc : (predictClass cfg fuel p 0 es h >>= fun x => Except.ok (x.1.1, x.1.2, x.2)) = .ok (c, p', h') := hc
      rw [hr] at hc
      cases hc
    | ok o =>
      replace hc : (predictClass cfg fuel p 0 es h >>= fun x => Except.ok (x.1.1, x.1.2, x.2)) = .ok (c, p', h') := hc
      rw [hr] at hc
      obtain ⟨⟨m, q⟩, v⟩ := o
      cases hc
      exact C64_bounds hr
  have e : cfg.TotRecordsTest.tdiv cfg.BatchSize = cfg.TotRecordsTest / cfg.BatchSize := Int.tdiv_eq_ediv_of_nonneg hT
  have hnt : 0 ≤ cfg.TotRecordsTest.tdiv cfg.BatchSize := by
    rw [e]
    exact Int.ediv_nonneg hT (by omega)
  unfold Program.main run goDiv at h
  rw [if_neg (by omega), if_neg (by omega)] at h
  simp only [ok_bind] at h
  cases ht : makeLayersTypes cfg.NumLayer with
  | error x => rw [ht] at h; cases h
  | ok types =>
    rw [ht, ok_bind] at h
    cases hn : Program.newNet cfg types w with
    | error x => rw [hn] at h; cases h
    | ok o =>
      rw [hn, ok_bind] at h
      rw [← e]
      exact epochs_logOk hapi hnt _ _ h (by intro l hl; cases hl)

/-- C74 from the command line: the program is called with the path of a configuration file whose JSON object decodes to `cfg` (see C41). -/
theorem C74_program_partial [FloatOrder F] [FloatIntDiv F] {cfg : Config F} (hl : cfg.LoadWeight = false) (hm : cfg.LayerMode ≠ 2) (hdr : DriverOk cfg)
    (hnew : NewOk cfg (argsOf cfg)) (hok : LayersOk cfg (argsOf cfg) 0) (hok' : LayersOk cfg (argsOf cfg) cfg.NumLayer.toNat)
    {parseFloat : Bytes → Option F} {parse : Bytes → Option Json} {files : Bytes → Option Bytes} {path : Bytes}
    (hcfg : fromJsonFile parseFloat parse (files path) = some cfg) {es esTest : List (Example F)} (hdata : DataOk cfg parseFloat files es esTest)
    (fuel : Nat) (w : World F) :
    ∃ p w1 w2, Network.new cfg 0 cfg.NumLayer cfg.SizesOfLayers (argsOf cfg).types cfg.BatchSize cfg.LearningRate cfg.InputDim cfg.K cfg.L cfg.RangePow
        cfg.Sparsity w = .ok (p, w1) ∧
      Program.program parseFloat parse files [path] fuel w =
        .ok ⟨w2, logOf cfg esTest (blocks cfg) (countsOf cfg fuel 0 (schedule cfg es esTest) p w1)⟩ ∧
      runCalls cfg fuel 0 (schedule cfg es esTest) p w1 = .ok (p, w2) := by
  obtain ⟨p, w1, w2, h1, h2, h3, -⟩ := C74_main_partial hl hm hdr hnew hok hok' hdata fuel w
  refine ⟨p, w1, w2, h1, ?_, h3⟩
  unfold Program.program
  dsimp only
  rw [hcfg]
  exact h2

/-- C74, bad start: without exactly one argument, or if the configuration file cannot be read or decoded, the program exits at once. -/
theorem C74_bad_start (parseFloat : Bytes → Option F) (parse : Bytes → Option Json) (files : Bytes → Option Bytes) (args : List Bytes) (fuel : Nat) (w : World F) :
    (args.length ≠ 1 → Program.program parseFloat parse files args fuel w = .error .exit) ∧
    (∀ path, fromJsonFile parseFloat parse (files path) = none → Program.program parseFloat parse files [path] fuel w = .error .exit) := by
  constructor
  · intro h
    match args, h with
    | [], _ => rfl
    | [_], h => exact absurd rfl h
    | _ :: _ :: _, _ => rfl
  · intro path h
    unfold Program.program
    dsimp only
    rw [h]

/-- C74, conversely: a run that ends without a panic had a layer count of at least 1, a batch size other than 0 and an entry of every list for every layer. -/
theorem C74_requires {parseFloat : Bytes → Option F} {files : Bytes → Option Bytes} {cfg : Config F} {fuel : Nat} {w : World F} {st : State F (World F)}
    (h : Program.main parseFloat files cfg fuel w = .ok st) :
    cfg.BatchSize ≠ 0 ∧ 1 ≤ cfg.NumLayer ∧ cfg.NumLayer ≤ cfg.SizesOfLayers.length ∧ cfg.NumLayer ≤ cfg.K.length ∧ cfg.NumLayer ≤ cfg.L.length ∧
      cfg.NumLayer ≤ cfg.RangePow.length ∧ cfg.NumLayer ≤ cfg.Sparsity.length := by
  unfold Program.main run goDiv at h
  by_cases hB : cfg.BatchSize = 0
  · rw [if_pos hB] at h
    cases h
  rw [if_neg hB, if_neg hB] at h
  simp only [ok_bind] at h
  have hL : 1 ≤ cfg.NumLayer := by
    refine Decidable.byContradiction fun hL => ?_
    cases ht : makeLayersTypes cfg.NumLayer with
    | error e => rw [ht] at h; cases h
    | ok types =>
      obtain ⟨e, he⟩ := (makeLayersTypes_spec cfg.NumLayer).1 (by omega)
      rw [he] at ht
      cases ht
  obtain ⟨types, ht, -⟩ := (makeLayersTypes_spec cfg.NumLayer).2 (by omega)
  rw [ht] at h
  simp only [ok_bind] at h
  refine ⟨hB, hL, ?_⟩
  cases hn : Program.newNet cfg types w with
  | error e => rw [hn] at h; cases h
  | ok x =>
    obtain ⟨p, w1⟩ := x
    unfold Program.newNet Network.new at hn
    obtain ⟨_, w2, -, hn⟩ := M.bind_eq_ok hn
    obtain ⟨ps, w3, hn, -⟩ := M.bind_eq_ok hn
    have := newLayers_entries _ _ _ (by omega : 0 < cfg.NumLayer.toNat) hn
    omega

/-- C74: the default configuration, which an empty JSON object gives, is not one of them: the program panics. -/
theorem C74_default_panics (parseFloat : Bytes → Option F) (parse : Bytes → Option Json) (files : Bytes → Option Bytes) (path content : Bytes)
    (hf : files path = some content) (hp : parse content = some (.obj [])) (fuel : Nat) (w : World F) :
    Program.program parseFloat parse files [path] fuel w = .error .index := by
  unfold Program.program fromJsonFile
  dsimp only
  rw [hf]
  dsimp only
  rw [hp]
  rfl

/-- C74: more generally, a configuration file that does not name one of the lists of layer parameters never leads to a successful run. -/
theorem C74_lists_required (parseFloat : Bytes → Option F) (parse : Bytes → Option Json) (files : Bytes → Option Bytes) (path content : Bytes)
    (kvs : List (String × Json)) (hf : files path = some content) (hp : parse content = some (.obj kvs)) (f : Field)
    (hfield : f ∈ [Field.sizesOfLayers, .k, .l, .rangePow, .sparsity]) (habs : ∀ kv ∈ kvs, foldName kv.1 ≠ foldName f.name) (fuel : Nat) (w : World F) :
    ∀ st, Program.program parseFloat parse files [path] fuel w ≠ .ok st := by
  intro st h
  unfold Program.program at h
  dsimp only at h
  rw [hf] at h
  cases hc : fromJsonFile parseFloat parse (some content) with
  | none => rw [hc] at h; cases h
  | some cfg =>
    rw [hc] at h
    obtain ⟨-, hl, h1, h2, h3, h4, h5⟩ := C74_requires h
    have := C41_absent parseFloat parse content kvs cfg hp hc f habs
    simp only [List.mem_cons, List.not_mem_nil, or_false] at hfield
    rcases hfield with rfl | rfl | rfl | rfl | rfl <;> injection this with this <;> have := congrArg List.length this <;> rw [List.length_nil] at this <;> omega

-- {"sizesOfLayers": [2], "K": [1], "L": [1], "RangePow": [6], "NumLayer": 1}: no sparsities
def noSparsity : List (String × Json) :=
  [("sizesOfLayers", .arr [.num (bytes "2")]), ("K", .arr [.num (bytes "1")]), ("L", .arr [.num (bytes "1")]), ("RangePow", .arr [.num (bytes "6")]),
    ("NumLayer", .num (bytes "1"))]

example (w : World Rat) : ∀ st, Program.program (fun _ => none) (fun _ => some (.obj noSparsity)) (fun _ => some []) [[]] 0 w ≠ .ok st :=
  C74_lists_required _ (fun _ => some (.obj noSparsity)) (fun _ => some []) _ [] noSparsity rfl rfl .sparsity (by decide) (by decide +kernel) 0 w

namespace ProgramEx

/-- Two sparse layers in mode 4 with signed random projections; batches of 2, two epochs over the files of `exampleConfig`. -/
def cfg : Config Rat :=
  { exampleConfig with
      InputDim := 4
      SizesOfLayers := [3, 2]
      K := [1, 1]
      L := [1, 1]
      RangePow := [6, 6]
      Sparsity := [1/2, 1/2, 1, 1]
      HashFunction := 4 }

theorem driverOk : DriverOk cfg := ⟨by decide, fun _ => by decide, by decide, by decide, by decide, by decide⟩

theorem hashParams (j : Nat) (size k l rp : Int) (hj : (j : Int) < (argsOf cfg).layers) (h1 : (argsOf cfg).sizes[j]? = some size) (h2 : (argsOf cfg).k[j]? = some k)
    (h3 : (argsOf cfg).l[j]? = some l) (h4 : (argsOf cfg).rangePow[j]? = some rp) :
    (0 < size ∧ 0 ≤ k ∧ 0 ≤ l ∧ 0 ≤ rp) ∧ HashParams cfg ((argsOf cfg).inputs j) k l rp := by
  have hj' : j < 2 := by change (j : Int) < 2 at hj; omega
  match j, hj' with
  | 0, _ => cases h1; cases h2; cases h3; cases h4; exact ⟨by decide, by decide, (by decide : (_ : Int) ≤ 2 ^ 53 ∧ (1 : Int) ≤ 62 ∧ (1 : Int) ≤ 6)⟩
  | 1, _ => cases h1; cases h2; cases h3; cases h4; exact ⟨by decide, by decide, (by decide : (_ : Int) ≤ 2 ^ 53 ∧ (1 : Int) ≤ 62 ∧ (1 : Int) ≤ 6)⟩

theorem newOk : NewOk cfg (argsOf cfg) := by
  refine ⟨by decide, by decide, by decide, ?_, ?_⟩
  · intro j hj
    have hj' : j < 2 := by change (j : Int) < 2 at hj; omega
    exact ⟨hj', hj', hj', hj', hj', by show j < 4; omega⟩
  · intro j size k l rp hj h1 h2 h3 h4
    obtain ⟨⟨a, b, c, d⟩, e⟩ := hashParams j size k l rp hj h1 h2 h3 h4
    exact ⟨by omega, b, c, d, e⟩

theorem layersOk (off : Nat) (h : off = 0 ∨ off = 2) : LayersOk cfg (argsOf cfg) off := by
  intro j size k l rp hj h1 h2 h3 h4
  obtain ⟨⟨a, -⟩, e⟩ := hashParams j size k l rp hj h1 h2 h3 h4
  have hj' : j < 2 := by change (j : Int) < 2 at hj; omega
  rcases h with rfl | rfl
  · exact ⟨1/2, by match j, hj' with | 0, _ => rfl | 1, _ => rfl, .inr ⟨fun h => absurd h (by decide), fun h => absurd h (by decide), fun h => absurd rfl h, a, e⟩⟩
  · exact ⟨1, by match j, hj' with | 0, _ => rfl | 1, _ => rfl, .inl ⟨by decide, by decide⟩⟩

theorem fits (off : Nat) (features : List (Pair Rat)) (labels : List Int) (hf : ∀ x ∈ features, 0 ≤ x.Index ∧ x.Index < 4) (hc : features.length ≤ 4)
    (hlab : (∀ y ∈ labels, 0 ≤ y ∧ y < 2) ∧ labels.Nodup) : Fits cfg (argsOf cfg) off features labels := by
  refine ⟨hf, fun _ _ _ => ⟨Nat.zero_le _, by show (features.length : Int) ≤ 4; omega⟩, ?_⟩
  intro j _ size hj _ _ ht hs
  have hj' : j < 2 := by change (j : Int) < 2 at hj; omega
  match j, hj' with
  | 0, _ => exact absurd ht (by show ¬ (some (0 : Int) = some 1); decide)
  | 1, _ => cases hs; exact ⟨hlab.1, fun _ => hlab.2, fun h2 => absurd h2 (by decide)⟩

theorem dataOk : DataOk cfg exampleFloat exampleFiles [⟨[⟨1, 1⟩], [0]⟩, ⟨[⟨2, 1⟩], [1]⟩, ⟨[⟨0, 1⟩], [0]⟩] [⟨[⟨1, 1⟩], [0]⟩] := by
  refine ⟨exampleFiles_train, exampleFiles_test, ?_, ?_⟩
  · intro ex hex
    have : (∀ x ∈ ex.Features, 0 ≤ x.Index ∧ x.Index < 4) ∧ ex.Features.length ≤ 4 ∧ (∀ y ∈ ex.Labels, 0 ≤ y ∧ y < 2) ∧ ex.Labels.Nodup := by
      revert ex; decide
    exact fits _ _ _ this.1 this.2.1 this.2.2
  · intro ex hex
    have : (∀ x ∈ ex.Features, 0 ≤ x.Index ∧ x.Index < 4) ∧ ex.Features.length ≤ 4 := by
      revert ex; decide
    exact fits _ _ _ this.1 this.2 (by decide)

end ProgramEx

-- two epochs of two batches each, with evaluations in between, from a file to the end of `main`, for any memory and random source
example (w : World Rat) : ∃ st, Program.main exampleFloat exampleFiles ProgramEx.cfg 0 w = .ok st := by
  obtain ⟨p, w1, w2, -, h, -⟩ := C74_main_partial (cfg := ProgramEx.cfg) rfl (by decide) ProgramEx.driverOk ProgramEx.newOk (ProgramEx.layersOk 0 (.inl rfl))
    (ProgramEx.layersOk 2 (.inr rfl)) ProgramEx.dataOk 0 w
  exact ⟨_, h⟩

-- its log: an epoch with an evaluation before the second batch and one at the end, and again
example : blocks ProgramEx.cfg = [.epoch 0, .eval 20 1, .eval 50 2, .epoch 1, .eval 20 3, .eval 1 4] := by decide +kernel

-- the lines of an evaluation over two batches with one correct prediction in the first
example : logOf ProgramEx.cfg [⟨[⟨1, 1⟩], [0]⟩] [.epoch 0, .eval 2 7] [1, 0] =
    [.epoch 0, .records 2 1 1, .iter 0 (1 / 2), .records 2 0 0, .iter 1 (1 / 4), .overall (1 / 4), .summary 7 (1 / 4)] := by decide +kernel

-- its calls: the length of each batch and the iteration number of the training calls
example : ((schedule ProgramEx.cfg [⟨[⟨1, 1⟩], [0]⟩, ⟨[⟨2, 1⟩], [1]⟩, ⟨[⟨0, 1⟩], [0]⟩] [⟨[⟨1, 1⟩], [0]⟩]).filterMap (fun c => match c with
    | .train es iter rehash rebuild => some (es.length, iter, rehash, rebuild)
    | .predict _ => none)) = [(2, 0, true, false), (1, 1, true, true), (2, 2, true, false), (1, 3, true, true)] := by decide +kernel

end Goslide.Props
