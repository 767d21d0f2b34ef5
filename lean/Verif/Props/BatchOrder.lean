import Verif.Proofs.OrderStep
import Verif.Props.Adam
/-
What the result of training depends on if all layers are full: C87. Over the real numbers, that is with exact arithmetic.
-/
set_option linter.unusedSectionVars false
namespace Goslide.Props
open Goslide Node Lsh Configuration Spec.Node Spec.Network Layer Network Xcrepo Spec

/-- C87. Two networks of full layers with the same weights, biases and moments, trained with Adam on the same batch, one of them in another order: they have the
same weights, biases and moments afterwards. The hash functions, tables, flags and random numbers may all be different. -/
theorem C87_step {cfg cfg' : Config ℝ} (hl : cfg.LoadWeight = false) (hl' : cfg'.LoadWeight = false) (hu : cfg.UseAdam = true) (hu' : cfg'.UseAdam = true) {a a' : NetArgs ℝ}
    (ha : a.Typed) (ha' : a'.Typed) (hs : SameNet a a') (hf : AllFull a) (hf' : AllFull a') {fuel fuel' : Nat} {c c' : Int} {w w1 v v1 : World ℝ} {p p1 q q1 : Ptr}
    (life : Life cfg c a w p) (life' : Life cfg' c' a' v q) {es es' : List (Example ℝ)} (hp : es.Perm es') {iter : Int} {rehash rebuild rehash' rebuild' : Bool} {x y : ℝ}
    (hr : processInput cfg fuel p c es iter rehash rebuild w = .ok ((x, p1), w1))
    (hr' : processInput cfg' fuel' q c' es' iter rehash' rebuild' v = .ok ((y, q1), v1)) (hm : memoryOf w p = memoryOf v q) :
    p1 = p ∧ q1 = q ∧ memoryOf w1 p = memoryOf v1 q := by
  obtain ⟨n, Q, al, st⟩ := life.settled hl hu ha
  obtain ⟨m, R, al', st'⟩ := life'.settled hl' hu' ha'
  exact order_step hu hu' hs hf hf' al st al' st' hp hr hr' hm

theorem memory_predict {cfg : Config ℝ} (hl : cfg.LoadWeight = false) {a : NetArgs ℝ} (ha : a.Typed) {fuel : Nat} {c : Int} {w w' : World ℝ} {p p' : Ptr}
    (life : Life cfg c a w p) {es : List (Example ℝ)} {m : Int} (hr : predictClass cfg fuel p c es w = .ok ((m, p'), w')) : p' = p ∧ memoryOf w' p = memoryOf w p := by
  obtain ⟨n, Q, al⟩ := life.alive hl ha
  obtain ⟨rfl, -, -, -⟩ := al.predict hr
  refine ⟨rfl, ?_⟩
  unfold memoryOf
  rw [learned_predict al.trainable.net hr]

theorem no_batch {cfg : Config ℝ} (hl : cfg.LoadWeight = false) {a : NetArgs ℝ} (ha : a.Typed) {fuel : Nat} {c : Int} : ∀ (calls : List (NetCall ℝ)) {w w' : World ℝ} {p p' : Ptr},
    Life cfg c a w p → runCalls cfg fuel c calls p w = .ok (p', w') → batches calls = [] → p' = p ∧ memoryOf w' p = memoryOf w p
  | [], w, w', p, p', life, h, _ => by cases h; exact ⟨rfl, rfl⟩
  | .train es iter rehash rebuild :: calls, w, w', p, p', life, h, hb => by simp [batches] at hb
  | .predict es :: calls, w, w', p, p', life, h, hb => by
    rw [runCalls] at h
    cases hr : predictClass cfg fuel p c es w with
    | error e => rw [hr] at h; cases h
    | ok o =>
      obtain ⟨⟨m, p1⟩, w1⟩ := o
      rw [hr] at h
      dsimp only at h
      obtain ⟨rfl, e⟩ := memory_predict hl ha life hr
      obtain ⟨rfl, e'⟩ := no_batch hl ha calls (life.predict hr) h (by simpa [batches] using hb)
      exact ⟨rfl, e'.trans e⟩

theorem next_batch {cfg : Config ℝ} (hl : cfg.LoadWeight = false) {a : NetArgs ℝ} (ha : a.Typed) {fuel : Nat} {c : Int} {b : List (Example ℝ) × Int}
    {bs : List (List (Example ℝ) × Int)} : ∀ (calls : List (NetCall ℝ)) {w w' : World ℝ} {p p' : Ptr},
    Life cfg c a w p → runCalls cfg fuel c calls p w = .ok (p', w') → batches calls = b :: bs →
    ∃ w1 w2 x p2 rehash rebuild rest, Life cfg c a w1 p ∧ memoryOf w1 p = memoryOf w p ∧ processInput cfg fuel p c b.1 b.2 rehash rebuild w1 = .ok ((x, p2), w2) ∧
      batches rest = bs ∧ runCalls cfg fuel c rest p2 w2 = .ok (p', w')
  | [], w, w', p, p', life, h, hb => by simp [batches] at hb
  | .train es iter rehash rebuild :: calls, w, w', p, p', life, h, hb => by
    rw [runCalls] at h
    cases hr : processInput cfg fuel p c es iter rehash rebuild w with
    | error e => rw [hr] at h; cases h
    | ok o =>
      obtain ⟨⟨x, p1⟩, w1⟩ := o
      rw [hr] at h
      dsimp only at h
      have hb2 : (es, iter) :: batches calls = b :: bs := hb
      obtain ⟨rfl, hb3⟩ := List.cons.inj hb2
      exact ⟨w, w1, x, p1, rehash, rebuild, calls, life, rfl, hr, hb3, h⟩
  | .predict es :: calls, w, w', p, p', life, h, hb => by
    rw [runCalls] at h
    cases hr : predictClass cfg fuel p c es w with
    | error e => rw [hr] at h; cases h
    | ok o =>
      obtain ⟨⟨m, p1⟩, w1⟩ := o
      rw [hr] at h
      dsimp only at h
      obtain ⟨rfl, e⟩ := memory_predict hl ha life hr
      obtain ⟨w2, w3, x, p2, rh, rb, rest, l, e', r1, r2, r3⟩ := next_batch hl ha calls (life.predict hr) h (by simpa [batches] using hb)
      exact ⟨w2, w3, x, p2, rh, rb, rest, l, e'.trans e, r1, r2, r3⟩

/-- C87, for any calls: the weights, biases and moments at the end depend on those at the beginning and on the batches as collections, and on nothing else. -/
theorem C87_calls {cfg cfg' : Config ℝ} (hl : cfg.LoadWeight = false) (hl' : cfg'.LoadWeight = false) (hu : cfg.UseAdam = true) (hu' : cfg'.UseAdam = true) {a a' : NetArgs ℝ}
    (ha : a.Typed) (ha' : a'.Typed) (hs : SameNet a a') (hf : AllFull a) (hf' : AllFull a') {fuel fuel' : Nat} {c c' : Int} {calls calls' : List (NetCall ℝ)}
    (hre : Reordered calls calls') {w w1 v v1 : World ℝ} {p p1 q q1 : Ptr} (life : Life cfg c a w p) (life' : Life cfg' c' a' v q)
    (hr : runCalls cfg fuel c calls p w = .ok (p1, w1)) (hr' : runCalls cfg' fuel' c' calls' q v = .ok (q1, v1)) (hm : memoryOf w p = memoryOf v q) :
    p1 = p ∧ q1 = q ∧ memoryOf w1 p = memoryOf v1 q := by
  obtain ⟨hlen, hre⟩ := hre
  generalize hb : batches calls = bs at hlen hre
  generalize hb' : batches calls' = bs' at hlen hre
  induction bs generalizing bs' calls calls' w v with
  | nil =>
    obtain rfl := List.length_eq_zero_iff.mp hlen.symm
    obtain ⟨e1, e2⟩ := no_batch hl ha calls life hr hb
    obtain ⟨e3, e4⟩ := no_batch hl' ha' calls' life' hr' hb'
    exact ⟨e1, e3, e2.trans (hm.trans e4.symm)⟩
  | cons b bs ih =>
    match bs', hlen with
    | b' :: bs', hlen =>
      obtain ⟨w2, w3, x, p2, rh, rb, rest, l1, e1, r1, r2, r3⟩ := next_batch hl ha calls life hr hb
      obtain ⟨v2, v3, y, q2, rh', rb', rest', l1', e1', r1', r2', r3'⟩ := next_batch hl' ha' calls' life' hr' hb'
      obtain ⟨hp, hi⟩ := hre 0 b b' rfl rfl
      rw [← hi] at r1'
      obtain ⟨rfl, rfl, e2⟩ := C87_step hl hl' hu hu' ha ha' hs hf hf' l1 l1' hp r1 r1' (e1.trans (hm.trans e1'.symm))
      exact ih (l1.train r1) (l1'.train r1') r3 r3' e2 r2 bs' r2' (by simpa using hlen) (fun k x y h1 h2 => hre (k + 1) x y h1 h2)

theorem batches_append {F : Type} (l m : List (NetCall F)) : batches (l ++ m) = batches l ++ batches m := List.filterMap_append

theorem batches_predictions {F : Type} [GoFloat F] (cfg : Config F) (es : List (Example F)) (n : Nat) : batches (predictions cfg es n) = [] := by
  unfold batches predictions
  rw [List.filterMap_eq_nil_iff]
  intro c hc
  obtain ⟨i, -, rfl⟩ := List.mem_map.mp hc
  rfl

theorem batches_flatMap {F : Type} {f : Nat → List (NetCall F)} : ∀ (l : List Nat), batches (l.flatMap f) = l.flatMap (fun x => batches (f x))
  | [] => rfl
  | x :: l => by rw [List.flatMap_cons, batches_append, batches_flatMap l, List.flatMap_cons]

/-- The batches of a run, with their iteration numbers. -/
theorem batches_schedule {F : Type} [GoFloat F] (cfg : Config F) (es esTest : List (Example F)) :
    batches (schedule cfg es esTest) = (List.range cfg.Epoch.toNat).flatMap (fun e => (List.range (cfg.TotRecords / cfg.BatchSize).toNat).map
      (fun i => (batch es cfg.BatchSize.toNat i, ((e * (cfg.TotRecords / cfg.BatchSize).toNat + i : Nat) : Int)))) := by
  unfold schedule
  rw [batches_flatMap]
  congr 1
  funext e
  unfold epochCalls
  rw [batches_append, batches_predictions, List.append_nil, batches_flatMap]
  generalize (cfg.TotRecords / cfg.BatchSize).toNat = nb
  generalize List.range nb = l
  induction l with
  | nil => rfl
  | cons i l ih =>
    rw [List.flatMap_cons, List.map_cons, ih]
    unfold trainCalls
    rw [batches_append]
    split
    · rw [batches_predictions]; rfl
    · rfl

theorem getElem?_flatMap_map {α : Type} (f g : Nat → Nat → α) (R : α → α → Prop) : ∀ (l m : List Nat), (∀ e i, i ∈ m → R (f e i) (g e i)) →
    ∀ (k : Nat) (x y : α), (l.flatMap (fun e => m.map (f e)))[k]? = some x → (l.flatMap (fun e => m.map (g e)))[k]? = some y → R x y := by
  intro l m h
  induction l with
  | nil => intro k x y hx; simp at hx
  | cons e l ih =>
    intro k x y hx hy
    rw [List.flatMap_cons, List.getElem?_append] at hx hy
    simp only [List.length_map] at hx hy
    by_cases hk : k < m.length
    · rw [if_pos hk, List.getElem?_map, List.getElem?_eq_getElem hk] at hx hy
      cases hx
      cases hy
      exact h e _ (List.getElem_mem hk)
    · rw [if_neg hk] at hx hy
      exact ih _ _ _ hx hy

/-- C87, for the program: two runs with full layers and Adam that start with the same weights and train on files whose batches agree up to the order of their
examples end with the same weights. The hash functions, tables, schedules of rehashing and evaluation, test sets and random numbers may all be different. -/
theorem C87_main {cfg cfg' : Config ℝ} (hl : cfg.LoadWeight = false) (hl' : cfg'.LoadWeight = false) (hu : cfg.UseAdam = true) (hu' : cfg'.UseAdam = true)
    (hdr : DriverOk cfg) (hdr' : DriverOk cfg') (hf : AllFull (argsOf cfg)) (hf' : AllFull (argsOf cfg'))
    (hnum : cfg'.NumLayer = cfg.NumLayer) (hrate : cfg'.LearningRate = cfg.LearningRate) (hbs : cfg'.BatchSize = cfg.BatchSize) (hep : cfg'.Epoch = cfg.Epoch)
    (htot : cfg'.TotRecords = cfg.TotRecords) {parseFloat parseFloat' : Bytes → Option ℝ} {files files' : Bytes → Option Bytes} {es esTest es' esTest' : List (Example ℝ)}
    (htrain : HoldsExamples parseFloat files cfg.TrainData es) (htest : HoldsExamples parseFloat files cfg.TestData esTest)
    (htrain' : HoldsExamples parseFloat' files' cfg'.TrainData es') (htest' : HoldsExamples parseFloat' files' cfg'.TestData esTest')
    (hperm : ∀ i : Nat, (i : Int) < cfg.TotRecords / cfg.BatchSize → (batch es cfg.BatchSize.toNat i).Perm (batch es' cfg.BatchSize.toNat i))
    {fuel fuel' : Nat} {w w1 v v1 : World ℝ} {p q : Ptr}
    (hn : Network.new cfg 0 cfg.NumLayer cfg.SizesOfLayers (argsOf cfg).types cfg.BatchSize cfg.LearningRate cfg.InputDim cfg.K cfg.L cfg.RangePow cfg.Sparsity w = .ok (p, w1))
    (hn' : Network.new cfg' 0 cfg'.NumLayer cfg'.SizesOfLayers (argsOf cfg').types cfg'.BatchSize cfg'.LearningRate cfg'.InputDim cfg'.K cfg'.L cfg'.RangePow cfg'.Sparsity v =
      .ok (q, v1))
    (hm : memoryOf w1 p = memoryOf v1 q) {st st' : Driver.State ℝ (World ℝ)} (h : Program.main parseFloat files cfg fuel w = .ok st)
    (h' : Program.main parseFloat' files' cfg' fuel' v = .ok st') : memoryOf st.heap p = memoryOf st'.heap q := by
  rw [C79_log hdr htrain htest, hn, ok_bind] at h
  rw [C79_log hdr' htrain' htest', hn', ok_bind] at h'
  dsimp only at h h'
  cases hc : runCalls cfg fuel 0 (schedule cfg es esTest) p w1 with
  | error e => rw [hc] at h; cases h
  | ok o =>
    obtain ⟨p2, w2⟩ := o
    rw [hc, ok_bind] at h
    cases h
    cases hc' : runCalls cfg' fuel' 0 (schedule cfg' es' esTest') q v1 with
    | error e => rw [hc'] at h'; cases h'
    | ok o =>
      obtain ⟨q2, v2⟩ := o
      rw [hc', ok_bind] at h'
      cases h'
      have hre : Spec.Network.Reordered (schedule cfg es esTest) (schedule cfg' es' esTest') := by
        unfold Spec.Network.Reordered
        rw [batches_schedule, batches_schedule, hep, hbs, htot]
        constructor
        · simp
        · refine getElem?_flatMap_map _ _ (fun x y : List (Example ℝ) × Int => x.1.Perm y.1 ∧ x.2 = y.2) _ _ (fun e i hi => ⟨hperm i ?_, rfl⟩)
          have := List.mem_range.mp hi
          omega
      obtain ⟨rfl, rfl, e⟩ := C87_calls (a := argsOf cfg) (a' := argsOf cfg') hl hl' hu hu' (typed_argsOf hdr.layers) (typed_argsOf hdr'.layers)
        ⟨hnum.symm, by unfold argsOf; dsimp only; rw [hnum], hbs.symm, hrate.symm⟩ hf hf' hre (.new hn) (.new hn') hc hc' hm
      exact e

/-- Two different examples. -/
noncomputable def RealEx.pair : List (Example ℝ) := [⟨[⟨0, 1⟩], [0]⟩, ⟨[⟨0, 2⟩], []⟩]

-- the hypotheses of C87_step hold: a network trained on two examples in both orders, once with new hash functions and tables
example : ∃ p w1 w2 w3, Life RealEx.cfg 0 (RealEx.args 2) w1 p ∧ processInput RealEx.cfg 0 p 0 RealEx.pair 0 false false w1 = .ok ((GoFloat.zero, p), w2) ∧
    processInput RealEx.cfg 0 p 0 RealEx.pair.reverse 0 true true w1 = .ok ((GoFloat.zero, p), w3) ∧ memoryOf w2 p = memoryOf w3 p := by
  obtain ⟨p, w1, h⟩ := C63_new_partial (cfg := RealEx.cfg) (a := RealEx.args 2) rfl 0 (RealEx.newOk (by decide)) RealEx.w0
  have life : Life RealEx.cfg 0 (RealEx.args 2) w1 p := Life.new h
  have hone : ∀ sp ∈ (RealEx.args 2).sparsity, sp = 1 := by simp [RealEx.args]
  have hfull : Full (RealEx.args 2).sparsity := fun sp hsp => by rw [hone sp hsp]; exact RealEx.full
  have hfit : ∀ ex ∈ RealEx.pair, ∀ x ∈ ex.Features, 0 ≤ x.Index ∧ x.Index < (RealEx.args 2).dim := by
    intro ex hex x hx
    simp only [RealEx.pair, List.mem_cons, List.not_mem_nil, or_false] at hex
    rcases hex with rfl | rfl <;> (obtain rfl := List.mem_singleton.mp hx; exact ⟨le_refl 0, by show (0 : Int) < 1; decide⟩)
  obtain ⟨w2, h2, -⟩ := C66_full (cfg := RealEx.cfg) rfl (RealEx.typed 2) hfull life 0 0 false false (es := RealEx.pair) (by show (2 : Int) ≤ 2; decide) hfit
  obtain ⟨w3, h3, -⟩ := C66_full (cfg := RealEx.cfg) rfl (RealEx.typed 2) hfull life 0 0 true true (es := RealEx.pair.reverse) (by show (2 : Int) ≤ 2; decide)
    (fun ex hex => hfit ex (List.mem_reverse.mp hex))
  have hf : AllFull (RealEx.args 2) := fun sp hsp => by rw [hone sp hsp]; exact RealEx.full.1
  exact ⟨p, w1, w2, w3, life, h2, h3,
    (C87_step (cfg := RealEx.cfg) (cfg' := RealEx.cfg) rfl rfl rfl rfl (RealEx.typed 2) (RealEx.typed 2) ⟨rfl, rfl, rfl, rfl⟩ hf hf life life (List.reverse_perm _).symm h2 h3 rfl).2.2⟩

namespace OrderEx

/-- No Adam. -/
def cfg : Config Rat := { LayerEx.cfg 4 with UseAdam := false }

/-- One hidden node and one output node, full layers. -/
def args : NetArgs Rat where
  layers := 2
  sizes := [1, 1]
  types := [0, 1]
  batch := 2
  rate := 1
  dim := 1
  k := [1, 1]
  l := [1, 1]
  rangePow := [6, 6]
  sparsity := [1, 1]

/-- The network; all weights and biases are 1. -/
def build : Go (Ptr × World Rat) := Network.new cfg 0 2 [1, 1] [0, 1] 2 1 1 [1, 1] [1, 1] [6, 6] [1, 1] { LayerEx.w0 with norms := fun _ => 100 }

/-- The network after a training step. -/
def after (es : List (Example Rat)) : Go (Ptr × World Rat) := do
  let (p, w) ← build
  let ((_, q), w1) ← processInput cfg 0 p 0 es 0 false false w
  .ok (q, w1)

/-- The weights and biases after a training step. -/
def numbers (es : List (Example Rat)) : Option (List (List (List Rat × Rat))) :=
  match after es with
  | .ok (q, w) => (memoryOf w q).map (List.map (List.map (fun m => (m.weights, m.bias))))
  | .error _ => none

def two : List (Example Rat) := [⟨[⟨0, 1⟩], []⟩, ⟨[⟨0, 2⟩], [0]⟩]

end OrderEx

/-- C87 is false without Adam, even in exact arithmetic: the weights change after every example (C49), so the examples that come later see other weights. Only `exp 0`
is computed here, since there is one output node. -/
theorem C87_sgd_false : ¬ ∀ (cfg : Config Rat) (a : NetArgs Rat) (w w1 w2 : World Rat) (p p1 p2 : Ptr) (es es' : List (Example Rat)) (x y : Rat),
    cfg.LoadWeight = false → (∀ sp ∈ a.sparsity, sp = 1) → Life cfg 0 a w p → es.Perm es' → processInput cfg 0 p 0 es 0 false false w = .ok ((x, p1), w1) →
    processInput cfg 0 p 0 es' 0 false false w = .ok ((y, p2), w2) → memoryOf w1 p1 = memoryOf w2 p2 := by
  intro hall
  have h1 : OrderEx.numbers OrderEx.two ≠ OrderEx.numbers OrderEx.two.reverse := by decide +kernel
  have h2 : (OrderEx.after OrderEx.two).isOk = true := by decide +kernel
  have h3 : (OrderEx.after OrderEx.two.reverse).isOk = true := by decide +kernel
  apply h1
  unfold OrderEx.numbers
  unfold OrderEx.after at h2 h3 ⊢
  cases hb : OrderEx.build with
  | error e => rw [hb] at h2; cases h2
  | ok o =>
    obtain ⟨p, w⟩ := o
    rw [hb, ok_bind] at h2 h3
    rw [ok_bind]
    dsimp only at h2 h3 ⊢
    cases hr : processInput OrderEx.cfg 0 p 0 OrderEx.two 0 false false w with
    | error e => rw [hr] at h2; cases h2
    | ok o =>
      obtain ⟨⟨x, p1⟩, w1⟩ := o
      cases hr' : processInput OrderEx.cfg 0 p 0 OrderEx.two.reverse 0 false false w with
      | error e => rw [hr'] at h3; cases h3
      | ok o =>
        obtain ⟨⟨y, p2⟩, w2⟩ := o
        rw [ok_bind, ok_bind]
        dsimp only
        rw [hr', ok_bind]
        dsimp only
        rw [hall OrderEx.cfg OrderEx.args w w1 w2 p p1 p2 OrderEx.two OrderEx.two.reverse x y rfl (by decide) (Life.new hb) (List.reverse_perm _).symm hr hr']

end Goslide.Props
