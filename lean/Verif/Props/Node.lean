import Verif.Proofs.NodeMore
import Verif.Go.Exact
/-
Properties C42-C51 (nodes), for an arbitrary memory. `Handle h p v`: in memory `h` the node at `p` is
well-formed and everything observable through it is `v`.
-/
set_option linter.unusedSectionVars false
namespace Goslide.Props
open Goslide.Node Spec.Node Configuration
variable {F : Type} [GoFloat F]

/-! ### A concrete memory for the examples and counterexamples -/
namespace NodeEx

/-- Some configuration. -/
def cfg (adam : Bool) : Config Rat := { Configuration.default with UseAdam := adam }

/-- Node 0 (two weights, id 7, ReLU, batch of 2) and its two previous nodes 1 and 2, all with Adam and owned
by cowId 0; array 0 of nodes is `{1, 2}`. -/
def setup : List (Int × Call Rat) :=
  [(0, .makeVec [1, 2]), (0, .makeVec [0, 0]), (0, .makeVec [0, 0]),
   (0, .new 2 7 0 2 ⟨0, 0, 2⟩ 1 ⟨1, 0, 2⟩ ⟨2, 0, 2⟩),
   (0, .makeVec [5]), (0, .makeVec [0]), (0, .makeVec [0]),
   (0, .new 1 0 0 2 ⟨4, 0, 1⟩ 1 ⟨5, 0, 1⟩ ⟨6, 0, 1⟩),
   (0, .makeVec [6]), (0, .makeVec [0]), (0, .makeVec [0]),
   (0, .new 1 1 0 2 ⟨8, 0, 1⟩ 1 ⟨9, 0, 1⟩ ⟨10, 0, 1⟩),
   (0, .makeNodes [1, 2])]

/-- The same after forward propagation of input 0. -/
def forward : List (Int × Call Rat) :=
  [(0, .getActivation 1 [⟨0, 1⟩] 0), (0, .getActivation 2 [⟨0, -3⟩] 0), (0, .getActivation 0 [⟨0, 6⟩, ⟨1, 0⟩] 0),
   (0, .incrementDelta 0 0 4)]

/-- The memory a history leads to. -/
def after (adam : Bool) (l : List (Int × Call Rat)) : Heap Rat :=
  match runAll (cfg adam) l Heap.empty with
  | .ok (_, h) => h
  | .error _ => Heap.empty

/-- What is seen through node 0 at first. -/
def v0 : View Rat :=
  { params := { nodeType := 0, batch := 2, id := 7, weights := [1, 2], mirrorWeights := [1, 2], mom := [0, 0], vel := [0, 0], t := [0, 0], bias := 1, mirrorBias := 1, tBias := 0, momBias := 0, velBias := 0 },
    train := [idle, idle] }

theorem setup_ok : runAll (cfg true) setup Heap.empty = .ok ((), after true setup) := by decide +kernel

theorem parts0 : Parts (after true setup) 0 v0 ⟨0, 0, ⟨0, 0, 2⟩⟩
    { emptyBase 0 with nodeType := 0, currentBatchsize := 2, idInLayer := 7, weights := ⟨0, 0, 2⟩, mirrorWeights := ⟨0, 0, 2⟩, adamAvgMom := ⟨1, 0, 2⟩, adamAvgVel := ⟨2, 0, 2⟩, t := ⟨3, 0, 2⟩, bias := 1, mirrorBias := 1 }
    [0, 1] := by
  refine ⟨?_, ?_, ?_, ?_, ?_, ?_, ?_⟩ <;> decide +kernel

theorem handle0 : Handle (after true setup) 0 v0 := parts0.handle

theorem owned0 : Owned (after true setup) 0 0 := by
  rw [owned_of parts0]
  refine ⟨rfl, rfl, fun q hq t ht => ?_⟩
  simp only [List.mem_cons, List.not_mem_nil, or_false] at hq
  rcases hq with rfl | rfl <;>
  · rw [show (after true setup).trains[_]? = some (blankTrain 0) by decide +kernel] at ht; cases ht; rfl

theorem foreign0 : Foreign (after true setup) 0 1 := by
  rw [foreign_of parts0]
  refine ⟨by decide, by decide, fun q hq t ht => ?_⟩
  simp only [List.mem_cons, List.not_mem_nil, or_false] at hq
  rcases hq with rfl | rfl <;>
  · rw [show (after true setup).trains[_]? = some (blankTrain 0) by decide +kernel] at ht; cases ht; decide

theorem inner0 : Inner (after true setup) 0 := by
  intro n b hn hb
  rw [parts0.node] at hn; cases hn
  rw [parts0.base] at hb; cases hb
  refine ⟨rfl, ?_, ?_, ?_, ?_, ?_, ?_⟩ <;> exact .inr (.inr (.inl (by decide)))

theorem disj0 : Disj (after true setup) := disj_run _ _ disj_empty setup_ok

/-- The memory after forward propagation of input 0. -/
abbrev fwd : Heap Rat := after true (setup ++ forward)

/-- The base of a node of the example. -/
def base (id : Int) (w m u t : Slice) : BaseNode Rat :=
  { emptyBase 0 with nodeType := 0, currentBatchsize := 2, idInLayer := id, weights := w, mirrorWeights := w, adamAvgMom := m, adamAvgVel := u, t := t, bias := 1, mirrorBias := 1 }

/-- What is seen through node 0, 1 and 2 then. -/
def w0 : View Rat := { v0 with train := [⟨true, 7, 4⟩, idle] }
def w1 : View Rat :=
  { params := { v0.params with id := 0, weights := [5], mirrorWeights := [5], mom := [0], vel := [0], t := [0] }, train := [⟨true, 6, 0⟩, idle] }
def w2 : View Rat :=
  { params := { v0.params with id := 1, weights := [6], mirrorWeights := [6], mom := [0], vel := [0], t := [0] }, train := [⟨true, 0, 0⟩, idle] }

theorem q0 : Parts fwd 0 w0 ⟨0, 0, ⟨0, 0, 2⟩⟩ (base 7 ⟨0, 0, 2⟩ ⟨1, 0, 2⟩ ⟨2, 0, 2⟩ ⟨3, 0, 2⟩) [0, 1] := by
  refine ⟨?_, ?_, ?_, ?_, ?_, ?_, ?_⟩ <;> decide +kernel
theorem q1 : Parts fwd 1 w1 ⟨0, 1, ⟨1, 0, 2⟩⟩ (base 0 ⟨4, 0, 1⟩ ⟨5, 0, 1⟩ ⟨6, 0, 1⟩ ⟨7, 0, 1⟩) [2, 3] := by
  refine ⟨?_, ?_, ?_, ?_, ?_, ?_, ?_⟩ <;> decide +kernel
theorem q2 : Parts fwd 2 w2 ⟨0, 2, ⟨2, 0, 2⟩⟩ (base 1 ⟨8, 0, 1⟩ ⟨9, 0, 1⟩ ⟨10, 0, 1⟩ ⟨11, 0, 1⟩) [4, 5] := by
  refine ⟨?_, ?_, ?_, ?_, ?_, ?_, ?_⟩ <;> decide +kernel

/-- The three nodes share nothing. -/
theorem group : Group fwd [0, 1, 2] [w0, w1, w2] := by
  have inn : ∀ {p v nd b qs}, Parts fwd p v nd b qs → (b.mirrorWeights = b.weights ∧ b.weights.Disjoint b.adamAvgMom ∧
      b.weights.Disjoint b.adamAvgVel ∧ b.weights.Disjoint b.t ∧ b.adamAvgMom.Disjoint b.adamAvgVel ∧
      b.adamAvgMom.Disjoint b.t ∧ b.adamAvgVel.Disjoint b.t) → Inner fwd p := by
    intro p v nd b qs hp hb n b' hn hb'
    rw [hp.node] at hn; cases hn
    rw [hp.base] at hb'; cases hb'
    exact hb
  have i0 : Inner fwd 0 := inn q0 (by decide)
  have i1 : Inner fwd 1 := inn q1 (by decide)
  have i2 : Inner fwd 2 := inn q2 (by decide)
  have s01 : Sep fwd 0 1 := (sep_of q0 q1).mpr (by decide)
  have s02 : Sep fwd 0 2 := (sep_of q0 q2).mpr (by decide)
  have s12 : Sep fwd 1 2 := (sep_of q1 q2).mpr (by decide)
  have s10 : Sep fwd 1 0 := (sep_of q1 q0).mpr (by decide)
  have s20 : Sep fwd 2 0 := (sep_of q2 q0).mpr (by decide)
  have s21 : Sep fwd 2 1 := (sep_of q2 q1).mpr (by decide)
  refine ⟨rfl, ?_, ?_, ?_⟩
  · intro k p v hp hv
    rcases k with _ | _ | _ | k
    · cases hp; cases hv; exact q0.handle
    · cases hp; cases hv; exact q1.handle
    · cases hp; cases hv; exact q2.handle
    · cases hp
  · intro p hp
    simp only [List.mem_cons, List.not_mem_nil, or_false] at hp
    rcases hp with rfl | rfl | rfl
    · exact i0
    · exact i1
    · exact i2
  · intro j k p p' hjk hp hp'
    rcases j with _ | _ | _ | j <;> rcases k with _ | _ | _ | k <;>
      first
      | exact absurd rfl hjk
      | (cases hp; done)
      | (cases hp'; done)
      | (cases hp; cases hp'; first | exact s01 | exact s02 | exact s12 | exact s10 | exact s20 | exact s21)

end NodeEx

/-! ### C42 -/

/-- C42. `GetActivation` returns (does not panic) exactly for an input of the batch, features that have a
weight, and a valid node type. Then it returns the activation, records it for this input, marks the input
active, leaves all other inputs as they were, and no parameter of any node changes. -/
theorem C42_getActivation {h : Heap F} {p : Ptr} {v : View F} (hv : Handle h p v) (c : Int) (data : List (Pair F)) (i : Int) :
    ((∃ r, getActivation p c data i h = .ok r) ↔
      (0 ≤ i ∧ i < v.params.batch) ∧ InRange v.params data ∧ (v.params.nodeType = 0 ∨ v.params.nodeType = 1)) ∧
    ∀ x n h', getActivation p c data i h = .ok ((x, n), h') →
      x = activation v.params data ∧
      (∃ v', Handle h' n v' ∧ v'.params = v.params ∧ v'.train.length = v.train.length ∧
        (∃ s', v'.train[i.toNat]? = some s' ∧ s'.active = true ∧ s'.act = activation v.params data) ∧
        ∀ j : Nat, j ≠ i.toNat → v'.train[j]? = v.train[j]?) ∧
      (∀ p' P, params h p' = some P → params h' p' = some P) := by
  have hiff : (∃ r, getActivation p c data i h = .ok r) ↔
      (0 ≤ i ∧ i < v.params.batch) ∧ InRange v.params data ∧ (v.params.nodeType = 0 ∨ v.params.nodeType = 1) := by
    constructor
    · rintro ⟨r, hr⟩
      apply Classical.byContradiction
      intro hbad
      obtain ⟨e, he⟩ := getActivation_panics hv c data i (by
        by_cases h1 : 0 ≤ i ∧ i < v.params.batch
        · by_cases h2 : InRange v.params data
          · by_cases h3 : v.params.nodeType = 0 ∨ v.params.nodeType = 1
            · exact absurd ⟨h1, h2, h3⟩ hbad
            · exact .inr (.inr (by omega))
          · exact .inr (.inl h2)
        · exact .inl h1)
      rw [he] at hr; cases hr
    · rintro ⟨⟨h0, h1⟩, h2, h3⟩
      obtain ⟨k, rfl⟩ := Int.eq_ofNat_of_zero_le h0
      obtain ⟨n, h', s, hr, _⟩ := getActivation_run hv c data h1 h2 h3
      exact ⟨_, hr⟩
  refine ⟨hiff, fun x n h' hr => ?_⟩
  obtain ⟨⟨h0, h1⟩, h2, h3⟩ := hiff.mp ⟨_, hr⟩
  obtain ⟨k, rfl⟩ := Int.eq_ofNat_of_zero_le h0
  obtain ⟨n', h2', s, hr', hs, ho⟩ := getActivation_run hv c data h1 h2 h3
  rw [hr] at hr'; cases hr'
  have hk : k < v.train.length := (List.getElem?_eq_some_iff.mp hs).1
  rw [Int.toNat_natCast]
  refine ⟨rfl, ⟨_, ho.result, rfl, by simp, ⟨_, List.getElem?_set_self hk, rfl, rfl⟩, fun j hj => ?_⟩, ho.par⟩
  exact List.getElem?_set_ne (Ne.symm hj)

/-- C42. In exact arithmetic: `max 0 (bias + Σ weight*value)` for ReLU, without the maximum for softmax. -/
theorem C42_exact (P : Params Rat) (data : List (Pair Rat)) :
    activation P data =
      let s := P.bias + (data.map (fun x => ((P.weights[x.Index.toNat]?).getD 0) * x.Value)).sum
      if P.nodeType = 0 then max 0 s else s := by
  have hfold : ∀ (l : List (Pair Rat)) (acc : Rat), l.foldl (fun acc x =>
      GoFloat.add acc (GoFloat.mul ((P.weights[x.Index.toNat]?).getD GoFloat.zero) x.Value)) acc =
      acc + (l.map (fun x => ((P.weights[x.Index.toNat]?).getD 0) * x.Value)).sum := by
    intro l
    induction l with
    | nil => intro acc; simp [Rat.add_zero]
    | cons x l ih =>
      intro acc
      rw [List.foldl_cons, ih, List.map_cons, List.sum_cons]
      show acc + _ + _ = _
      rw [Rat.add_assoc]; rfl
  have hpre : preActivation P data = P.bias + (data.map (fun x => ((P.weights[x.Index.toNat]?).getD 0) * x.Value)).sum := by
    unfold preActivation
    rw [hfold]
    show (0 : Rat) + _ + P.bias = _
    rw [Rat.zero_add, Rat.add_comm]
  unfold activation Clamped
  rw [hpre]
  dsimp only
  generalize P.bias + _ = s
  by_cases hty : P.nodeType = 0
  · simp only [hty, decide_true, Bool.true_and, if_true]
    by_cases hs : s < 0
    · rw [if_pos (by exact decide_eq_true hs)]
      show (0 : Rat) = max 0 s
      grind
    · rw [if_neg (by rw [Bool.not_eq_true]; exact decide_eq_false hs)]
      grind
  · simp [hty]

/-- Features 0 and 1 of node 0 with values 6 and 0: activation `1 + 1*6 + 2*0`. -/
example : ∃ n h', getActivation 0 5 [⟨0, 6⟩, ⟨1, 0⟩] 1 (NodeEx.after true NodeEx.setup) = .ok ((7, n), h') := by
  obtain ⟨n, h', s, hr, _⟩ := getActivation_run (i := 1) NodeEx.handle0 5 [⟨0, 6⟩, ⟨1, 0⟩] (by decide) (by unfold InRange; decide) (.inl rfl)
  exact ⟨n, h', hr.trans (by rw [show activation NodeEx.v0.params [⟨0, 6⟩, ⟨1, 0⟩] = 7 by decide +kernel])⟩
/-- A negative pre-activation is cut off. -/
example : activation NodeEx.v0.params [⟨1, -4⟩] = 0 := by decide +kernel
/-- Feature 2 has no weight, input 2 is not in the batch: panic. -/
example : ¬ ∃ r, getActivation 0 5 [⟨2, 6⟩] 0 (NodeEx.after true NodeEx.setup) = .ok r := by
  rw [(C42_getActivation NodeEx.handle0 5 _ 0).1]; unfold InRange; decide
example : ¬ ∃ r, getActivation 0 5 [⟨1, 6⟩] 2 (NodeEx.after true NodeEx.setup) = .ok r := by
  rw [(C42_getActivation NodeEx.handle0 5 _ 2).1]; unfold InRange; decide

/-! ### C43 -/

/-- C43. In any memory the four operations succeed only if the input is active on the node. -/
theorem C43_needs_active (cfg : Config F) (h : Heap F) (p : Ptr) (c i : Int)
    (ha : ¬ ∃ t, trainOf p i h = .ok (t, h) ∧ t.activeinputIds = true) :
    (∀ x, ∃ e, incrementDelta p c i x h = .error e) ∧
    (∀ norm labels, ∃ e, computeExtaStatsForSoftMax p c norm i labels h = .error e) ∧
    (∀ prev pairs lr, ∃ e, backPropagate cfg p c prev pairs lr i h = .error e) ∧
    (∀ pairs lr, ∃ e, backPropagateFirstLayer cfg p c pairs lr i h = .error e) := by
  cases hr : trainOf p i h with
  | error e =>
    refine ⟨fun x => ⟨e, ?_⟩, fun norm labels => ⟨e, ?_⟩, fun prev pairs lr => ⟨e, ?_⟩, fun pairs lr => ⟨e, ?_⟩⟩
    · unfold incrementDelta; exact M.bind_error hr
    · unfold computeExtaStatsForSoftMax; exact M.bind_error hr
    · unfold backPropagate; exact M.bind_error hr
    · unfold backPropagateFirstLayer; exact M.bind_error hr
  | ok th =>
    obtain ⟨t, h1⟩ := th
    obtain ⟨rfl, _⟩ := trainOf_inv hr
    have hna : t.activeinputIds = false := by
      cases hx : t.activeinputIds with
      | false => rfl
      | true => exact absurd ⟨t, hr, hx⟩ ha
    refine ⟨fun x => ⟨notActive, ?_⟩, fun norm labels => ⟨notActive, ?_⟩, fun prev pairs lr => ⟨notActive, ?_⟩, fun pairs lr => ⟨notActive, ?_⟩⟩
    · unfold incrementDelta; rw [M.bind_ok hr, if_pos (by simp [hna])]; rfl
    · unfold computeExtaStatsForSoftMax; rw [M.bind_ok hr, if_pos (by simp [hna])]; rfl
    · unfold backPropagate; rw [M.bind_ok hr, if_pos (by simp [hna])]; rfl
    · unfold backPropagateFirstLayer; rw [M.bind_ok hr, if_pos (by simp [hna])]; rfl

/-- C43. After any history, once (first-layer) back-propagation has returned, the input is inactive with
activation and delta 0 on the returned node. -/
theorem C43_after_backProp (cfg : Config F) (l : List (Int × Call F)) {h : Heap F} (hh : runAll cfg l Heap.empty = .ok ((), h))
    (p : Ptr) (c i : Int) (lr : F) (pairs : List (Pair F)) {n : Ptr} {h' : Heap F}
    (hr : (∃ prev, backPropagate cfg p c prev pairs lr i h = .ok (n, h')) ∨
      backPropagateFirstLayer cfg p c pairs lr i h = .ok (n, h')) :
    (∃ t, trainOf n i h' = .ok (t, h') ∧ t.activeinputIds = false ∧ t.lastActivations = GoFloat.zero ∧
      t.lastDeltaforBPs = GoFloat.zero) ∧
    getLastActivation n i h' = .ok (GoFloat.zero, h') ∧
    (∀ c' prev pairs' lr', backPropagate cfg n c' prev pairs' lr' i h' = .error notActive) ∧
    (∀ c' pairs' lr', backPropagateFirstLayer cfg n c' pairs' lr' i h' = .error notActive) := by
  have hd := disj_run cfg l disj_empty hh
  have key : ∃ t, trainOf n i h' = .ok (t, h') ∧ slot t = idle := by
    rcases hr with ⟨prev, hr⟩ | hr
    · exact (only_backPropagate cfg hd hr).2
    · exact (only_backPropagateFirstLayer cfg hd hr).2
  obtain ⟨t, ht, hs⟩ := key
  have h1 : t.activeinputIds = false := congrArg Slot.active hs
  have h2 : t.lastActivations = GoFloat.zero := congrArg Slot.act hs
  have h3 : t.lastDeltaforBPs = GoFloat.zero := congrArg Slot.delta hs
  refine ⟨⟨t, ht, h1, h2, h3⟩, ?_, fun c' prev pairs' lr' => ?_, fun c' pairs' lr' => ?_⟩
  · unfold getLastActivation; rw [M.bind_ok ht, if_pos (by simp [h1])]; rfl
  · unfold backPropagate; rw [M.bind_ok ht, if_pos (by simp [h1])]; rfl
  · unfold backPropagateFirstLayer; rw [M.bind_ok ht, if_pos (by simp [h1])]; rfl

/-- A history in which back-propagation succeeds. -/
example : ∃ n h', backPropagate (NodeEx.cfg true) 0 0 ⟨0, 0, 2⟩ [⟨0, 6⟩, ⟨1, 0⟩] 1 0
    (NodeEx.after true (NodeEx.setup ++ NodeEx.forward)) = .ok (n, h') :=
  ⟨0, NodeEx.after true (NodeEx.setup ++ NodeEx.forward ++ [(0, .backProp 0 ⟨0, 0, 2⟩ [⟨0, 6⟩, ⟨1, 0⟩] 1 0)]), by decide +kernel⟩
/-- Without forward propagation it panics. -/
example : incrementDelta 0 0 0 4 (NodeEx.after true NodeEx.setup) = .error notActive := by decide +kernel

/-! ### C44 -/

/-- C44. With Adam: nodes that share nothing, a list of active previous nodes without duplicates, each with
a weight and active. Then back-propagation of input `i` with delta `d`
* adds `d * activation(k)` to the gradient of weight `k` for the listed `k` and leaves the others;
* adds `d` to the bias gradient;
* changes nothing else of the node's parameters, in particular not the weights;
* adds `d * weight(k)` to the delta of previous node `k`, if it is listed and its activation is positive, and
  changes nothing else of the previous nodes. -/
theorem C44_backProp (cfg : Config F) (hadam : cfg.UseAdam = true) {h : Heap F} {p : Ptr} {ps : List Ptr} {v : View F}
    {vs : List (View F)} (g : Group h (p :: ps) (v :: vs)) {prevS : Slice} (hprev : readSlice h.nodeArrs prevS = some ps)
    (c : Int) {i : Nat} {s : Slot F} (hs : v.train[i]? = some s) (ha : s.active = true) (lr : F) (pairs : List (Pair F))
    (hnd : (pairs.map (·.Index)).Nodup) (hready : Ready true v.params vs i pairs) :
    ∃ n h' ps' v' vs', backPropagate cfg p c prevS pairs lr i h = .ok (n, h') ∧ readSlice h'.nodeArrs prevS = some ps' ∧
      Group h' (n :: ps') (v' :: vs') ∧
      (∀ k : Nat, v'.params.t[k]? = (v.params.t[k]?).map (fun y =>
        if (k : Int) ∈ pairs.map (·.Index) then GoFloat.add y (GoFloat.mul s.delta (lastAct vs k i)) else y)) ∧
      v'.params = { v.params with t := v'.params.t, tBias := GoFloat.add v.params.tBias s.delta } ∧
      v'.train = v.train.set i idle ∧
      (∀ k : Nat, vs'[k]? = (vs[k]?).map (fun u => if (k : Int) ∈ pairs.map (·.Index) then
        { u with train := u.train.modify i (fun z => if GoFloat.le z.act GoFloat.zero then z else
          { z with delta := GoFloat.add z.delta (GoFloat.mul s.delta ((v.params.weights[k]?).getD GoFloat.zero)) }) }
        else u)) := by
  have hlen : ps.length = vs.length := by have := g.len; simpa using this
  rw [← hadam] at hready
  have g' : Group h (p :: (ps ++ [])) (v :: (vs ++ [])) := by rw [List.append_nil, List.append_nil]; exact g
  obtain ⟨n, h', ps', hr, hg, hl, hp', _⟩ := backPropagate_run cfg g' hlen hprev c hs ha lr pairs hready
  rw [List.append_nil, List.append_nil] at hg
  refine ⟨n, h', ps', _, _, hr, hp', hg, ?_⟩
  have hnat : (pairs.map (·.Index.toNat)).Nodup := by
    have : pairs.map (·.Index.toNat) = (pairs.map (·.Index)).map Int.toNat := by rw [List.map_map]; rfl
    rw [this]
    refine List.pairwise_map.mpr (List.Pairwise.imp_of_mem (fun {a b} ma mb hab => ?_) hnd)
    obtain ⟨x, hx, rfl⟩ := List.mem_map.mp ma
    obtain ⟨y, hy, rfl⟩ := List.mem_map.mp mb
    have := (hready x hx).1
    have := (hready y hy).1
    omega
  have hlist : ∀ k : Nat, listed pairs k = decide ((k : Int) ∈ pairs.map (·.Index)) := by
    intro k
    unfold listed
    rw [Bool.eq_iff_iff, List.any_eq_true, decide_eq_true_iff, List.mem_map]
    constructor
    · rintro ⟨x, hx, e⟩
      have := (hready x hx).1
      simp only [decide_eq_true_eq] at e
      exact ⟨x, hx, by omega⟩
    · rintro ⟨x, hx, e⟩
      exact ⟨x, hx, by simp only [decide_eq_true_eq]; omega⟩
  obtain ⟨f1, f2, f3, f4, f5⟩ := backFold cfg.UseAdam lr s.delta i pairs v.params vs hnat
  rw [hadam] at f1 f2 f3 f4 f5 ⊢
  unfold backProp
  dsimp only
  generalize hR : List.foldl (backStep true lr s.delta i) (v.params, vs) pairs = R at f1 f2 f3 f4 f5
  have hw : R.1.weights = v.params.weights := by
    apply List.ext_getElem?
    intro k
    rw [f3 k]
    simp
  have hm : R.1.mirrorWeights = v.params.mirrorWeights := by
    rw [← hR]
    have : ∀ (l : List (Pair F)) (P : Params F) (us : List (View F)),
        (l.foldl (backStep true lr s.delta i) (P, us)).1.mirrorWeights = P.mirrorWeights := by
      intro l
      induction l with
      | nil => intro P us; rfl
      | cons x l ih => intro P us; rw [List.foldl_cons]; exact (ih _ _).trans rfl
    exact this pairs v.params vs
  refine ⟨?_, ?_, rfl, ?_⟩
  · intro k
    show R.1.t[k]? = _
    rw [f2 k, hlist k]
    simp
  · show { R.1 with tBias := GoFloat.add R.1.tBias s.delta } = _
    rw [f1, hw, hm]
    rfl
  · intro k
    show R.2[k]? = _
    rw [f5 k, hlist k]
    simp only [decide_eq_true_eq]
    rfl

/-- The hypotheses hold for the example; the gradients become `4*6` and `4*0`, the delta of node 1 becomes
`4*1`, and that of node 2, whose activation is 0, stays 0. -/
example : ∃ n h' v' u1 u2, backPropagate (NodeEx.cfg true) 0 0 ⟨0, 0, 2⟩ [⟨0, 6⟩, ⟨1, 0⟩] 1 0 NodeEx.fwd = .ok (n, h') ∧
    Group h' [n, 1, 2] [v', u1, u2] ∧ v'.params.t = [24, 0] ∧ v'.params.tBias = 4 ∧
    u1.train = [⟨true, 6, 4⟩, idle] ∧ u2.train = [⟨true, 0, 0⟩, idle] := by
  obtain ⟨n, h', ps', v', vs', hr, hps, hg, ht, hp, htr, hvs⟩ := C44_backProp (NodeEx.cfg true) rfl NodeEx.group
    (prevS := ⟨0, 0, 2⟩) (by decide +kernel) 0 (i := 0) (s := ⟨true, 7, 4⟩) rfl rfl 1 [⟨0, 6⟩, ⟨1, 0⟩] (by decide)
    (by
      intro x hx
      simp only [List.mem_cons, List.not_mem_nil, or_false] at hx
      rcases hx with rfl | rfl
      · exact ⟨by decide, by decide, fun _ => by decide, _, _, rfl, rfl, rfl⟩
      · exact ⟨by decide, by decide, fun _ => by decide, _, _, rfl, rfl, rfl⟩)
  have e0 := hvs 0
  have e1 := hvs 1
  have e2 := hvs 2
  have hr2 : backPropagate (NodeEx.cfg true) 0 0 ⟨0, 0, 2⟩ [⟨0, 6⟩, ⟨1, 0⟩] 1 0 NodeEx.fwd =
    .ok (0, NodeEx.after true (NodeEx.setup ++ NodeEx.forward ++ [(0, .backProp 0 ⟨0, 0, 2⟩ [⟨0, 6⟩, ⟨1, 0⟩] 1 0)])) := by decide +kernel
  rw [Int.ofNat_zero] at hr
  rw [hr2] at hr
  cases hr
  rw [show readSlice _ _ = some ([1, 2] : List Ptr) by decide +kernel] at hps
  cases hps
  match vs', hg.len with
  | [u1, u2], _ =>
    cases e0
    cases e1
    refine ⟨_, _, v', _, _, hr2, hg, ?_, ?_, by decide +kernel, by decide +kernel⟩
    · have t0 := ht 0
      have t1 := ht 1
      have t2 := ht 2
      match v'.params.t, t0, t1, t2 with
      | [], e, _, _ => cases e
      | [_], _, e, _ => cases e
      | [a, b], e, e', _ =>
        cases e
        cases e'
        decide +kernel
      | _ :: _ :: _ :: _, _, _, e => cases e
    · rw [hp]; show (0 : Rat) + 4 = 4; decide +kernel

/-! ### C45 -/

/-- C45. For a `cowId` that owns nothing of node `p` the operations return a node that shows the change, and
everything observable through `p` stays; the same holds for every other node of which `c` owns nothing
(if nodes do not share cells with pointers, which holds after every history: `C43`/`disj_run`). -/
theorem C45_getActivation {h : Heap F} {p : Ptr} {v : View F} (hv : Handle h p v) {c : Int}
    (data : List (Pair F)) {i : Nat} (hi : (i : Int) < v.params.batch) (hd : InRange v.params data)
    (hty : v.params.nodeType = 0 ∨ v.params.nodeType = 1) :
    ∃ n h' v', getActivation p c data i h = .ok ((activation v.params data, n), h') ∧ Handle h' n v' ∧
      (∃ s, v'.train[i]? = some s ∧ s.active = true ∧ s.act = activation v.params data) ∧ Isolates h h' p c := by
  obtain ⟨n, h', s, hr, hs, ho⟩ := getActivation_run hv c data hi hd hty
  exact ⟨n, h', _, hr, ho.result, ⟨_, List.getElem?_set_self (List.getElem?_eq_some_iff.mp hs).1, rfl, rfl⟩, ho.iso⟩

/-- C45 for `SetlastActivation`. -/
theorem C45_setlastActivation {h : Heap F} {p : Ptr} {v : View F} (hv : Handle h p v) {c : Int} {i : Nat} {s : Slot F}
    (hs : v.train[i]? = some s) (x : F) :
    ∃ n h', setlastActivation p c i x h = .ok (n, h') ∧
      Handle h' n { v with train := v.train.set i { s with act := x } } ∧ Isolates h h' p c := by
  obtain ⟨n, h', hr, ho⟩ := setlastActivation_run hv c hs x
  exact ⟨n, h', hr, ho.result, ho.iso⟩

/-- C45 for `IncrementDelta` of an active input (otherwise it panics, C43). If its activation is not
positive nothing happens at all. -/
theorem C45_incrementDelta {h : Heap F} {p : Ptr} {v : View F} (hv : Handle h p v) {c : Int} {i : Nat} {s : Slot F}
    (hs : v.train[i]? = some s) (ha : s.active = true) (x : F) :
    (GoFloat.le s.act GoFloat.zero = true → incrementDelta p c i x h = .ok (p, h)) ∧
    (GoFloat.le s.act GoFloat.zero = false → ∃ n h', incrementDelta p c i x h = .ok (n, h') ∧
      Handle h' n { v with train := v.train.set i { s with delta := GoFloat.add s.delta x } } ∧ Isolates h h' p c) := by
  obtain ⟨_, h2, h3⟩ := incrementDelta_run hv c hs x
  refine ⟨h2 ha, fun hle => ?_⟩
  obtain ⟨n, h', hr, ho⟩ := h3 ha hle
  exact ⟨n, h', hr, ho.result, ho.iso⟩

/-- C45 for `ComputeExtaStatsForSoftMax` of an active input. -/
theorem C45_softmax {h : Heap F} {p : Ptr} {v : View F} (hv : Handle h p v) {c : Int} (norm : F) {i : Nat} {s : Slot F}
    (hs : v.train[i]? = some s) (ha : s.active = true) (labels : List Int) :
    ∃ n h', computeExtaStatsForSoftMax p c norm i labels h = .ok (n, h') ∧
      Handle h' n { v with train := v.train.set i (softmaxSlot v.params norm labels s) } ∧ Isolates h h' p c := by
  obtain ⟨n, h', hr, ho⟩ := (computeExta_run hv c norm hs labels).2 ha
  exact ⟨n, h', hr, ho.result, ho.iso⟩

/-- C45 for the scalar setters. -/
theorem C45_scalars {h : Heap F} {p : Ptr} {v : View F} (hv : Handle h p v) (c : Int) (x : F) :
    (∃ n h', setBias p c x h = .ok (n, h') ∧ Handle h' n { v with params := { v.params with bias := x } } ∧ Isolates h h' p c) ∧
    (∃ n h', setTBias p c x h = .ok (n, h') ∧ Handle h' n { v with params := { v.params with tBias := x } } ∧ Isolates h h' p c) ∧
    (∃ n h', setAdamAvgMomBias p c x h = .ok (n, h') ∧ Handle h' n { v with params := { v.params with momBias := x } } ∧ Isolates h h' p c) ∧
    (∃ n h', setAdamAvgVelBias p c x h = .ok (n, h') ∧ Handle h' n { v with params := { v.params with velBias := x } } ∧ Isolates h h' p c) := by
  refine ⟨?_, ?_, ?_, ?_⟩
  · obtain ⟨n, h', hr, ho, hi, _⟩ := setScalar_run hv c (fun b => { b with bias := x }) (fun P => { P with bias := x })
      (fun fs b P hP => by
        rw [baseParams_iff] at hP ⊢
        obtain ⟨a1, a2, a3, a4, a5, a6, a7, a8, a9, a10, a11, a12, a13⟩ := hP
        exact ⟨a1, a2, a3, a4, a5, a6, a7, a8, rfl, a10, a11, a12, a13⟩)
      (fun _ => rfl) (fun _ => rfl) (fun _ => rfl)
    exact ⟨n, h', hr, ho.result, hi⟩
  · obtain ⟨n, h', hr, ho, hi, _⟩ := setScalar_run hv c (fun b => { b with tBias := x }) (fun P => { P with tBias := x })
      (fun fs b P hP => by
        rw [baseParams_iff] at hP ⊢
        obtain ⟨a1, a2, a3, a4, a5, a6, a7, a8, a9, a10, a11, a12, a13⟩ := hP
        exact ⟨a1, a2, a3, a4, a5, a6, a7, a8, a9, a10, rfl, a12, a13⟩)
      (fun _ => rfl) (fun _ => rfl) (fun _ => rfl)
    exact ⟨n, h', hr, ho.result, hi⟩
  · obtain ⟨n, h', hr, ho, hi, _⟩ := setScalar_run hv c (fun b => { b with adamAvgMomBias := x }) (fun P => { P with momBias := x })
      (fun fs b P hP => by
        rw [baseParams_iff] at hP ⊢
        obtain ⟨a1, a2, a3, a4, a5, a6, a7, a8, a9, a10, a11, a12, a13⟩ := hP
        exact ⟨a1, a2, a3, a4, a5, a6, a7, a8, a9, a10, a11, rfl, a13⟩)
      (fun _ => rfl) (fun _ => rfl) (fun _ => rfl)
    exact ⟨n, h', hr, ho.result, hi⟩
  · obtain ⟨n, h', hr, ho, hi, _⟩ := setScalar_run hv c (fun b => { b with adamAvgVelBias := x }) (fun P => { P with velBias := x })
      (fun fs b P hP => by
        rw [baseParams_iff] at hP ⊢
        obtain ⟨a1, a2, a3, a4, a5, a6, a7, a8, a9, a10, a11, a12, a13⟩ := hP
        exact ⟨a1, a2, a3, a4, a5, a6, a7, a8, a9, a10, a11, a12, rfl⟩)
      (fun _ => rfl) (fun _ => rfl) (fun _ => rfl)
    exact ⟨n, h', hr, ho.result, hi⟩

/-- CowId 1 owns nothing of node 0 of the example. -/
example : ∃ n h', setBias 0 1 9 (NodeEx.after true NodeEx.setup) = .ok (n, h') ∧ Handle h' 0 NodeEx.v0 ∧
    Handle h' n { NodeEx.v0 with params := { NodeEx.v0.params with bias := 9 } } := by
  obtain ⟨⟨n, h', hr, hn, hi⟩, _⟩ := C45_scalars NodeEx.handle0 1 9
  exact ⟨n, h', hr, (hi 0 _ NodeEx.handle0 NodeEx.foreign0 (.inl rfl)).1, hn⟩

/-! ### C46 -/

/-- C46 is false: `SetT` with a foreign cowId changes the gradient seen through the original node, because
`copyFloat64Slice` (node/node.go:527-531) returns its argument. -/
theorem C46_false : ∃ (h : Heap Rat) (p : Ptr) (v : View Rat) (c : Int), Handle h p v ∧ Foreign h p c ∧
    ∃ n h', setT p c 0 5 h = .ok (n, h') ∧ n ≠ p ∧ getT p 0 h = .ok (0, h) ∧ getT p 0 h' = .ok (5, h') := by
  refine ⟨_, 0, _, 1, NodeEx.handle0, NodeEx.foreign0, 3, NodeEx.after true (NodeEx.setup ++ [(1, .setT 0 0 5)]), ?_, ?_, ?_, ?_⟩ <;>
  decide +kernel

/-- C46. Exactly what happens instead: the write to a vector is seen through the original node just as
through the returned one. -/
theorem C46_shared {h : Heap F} {p : Ptr} {v : View F} (hv : Handle h p v) (hin : Inner h p) (c : Int) {i : Nat} (x : F) :
    (i < v.params.t.length → ∃ n h', setT p c i x h = .ok (n, h') ∧
      Handle h' n { v with params := { v.params with t := v.params.t.set i x } } ∧
      Handle h' p { v with params := { v.params with t := v.params.t.set i x } }) ∧
    (i < v.params.mom.length → ∃ n h', setAdamAvgMom p c i x h = .ok (n, h') ∧
      Handle h' n { v with params := { v.params with mom := v.params.mom.set i x } } ∧
      Handle h' p { v with params := { v.params with mom := v.params.mom.set i x } }) ∧
    (i < v.params.vel.length → ∃ n h', setAdamAvgVel p c i x h = .ok (n, h') ∧
      Handle h' n { v with params := { v.params with vel := v.params.vel.set i x } } ∧
      Handle h' p { v with params := { v.params with vel := v.params.vel.set i x } }) ∧
    (∀ w, v.params.weights[i]? = some w → ∃ n h', purturbWeight p c i x h = .ok ((GoFloat.add w x, n), h') ∧
      (∀ q, q = n ∨ q = p → Handle h' q { v with params := { v.params with
        weights := v.params.weights.set i (GoFloat.add w x)
        mirrorWeights := v.params.weights.set i (GoFloat.add w x) } })) := by
  refine ⟨fun hi => ?_, fun hi => ?_, fun hi => ?_, fun w hw => ?_⟩
  · obtain ⟨n, h', hr, ho, _, hp⟩ := setVec_run .t hv hin c hi x
    exact ⟨n, h', hr, ho.result, hp⟩
  · obtain ⟨n, h', hr, ho, _, hp⟩ := setVec_run .mom hv hin c hi x
    exact ⟨n, h', hr, ho.result, hp⟩
  · obtain ⟨n, h', hr, ho, _, hp⟩ := setVec_run .vel hv hin c hi x
    exact ⟨n, h', hr, ho.result, hp⟩
  · obtain ⟨n, h', hr, ho, _, hp⟩ := purturbWeight_run hv hin c hw x
    refine ⟨n, h', hr, ?_⟩
    rintro q (rfl | rfl)
    · exact ho.result
    · exact hp

/-- C46, what is true: `CopyWeightsAndBiasFromMirror` isolates everything (the mirror weights are the weights,
so it writes no vector). -/
theorem C46_copyMirror {h : Heap F} {p : Ptr} {v : View F} (hv : Handle h p v) (hin : Inner h p) (c : Int) :
    ∃ n h', copyWeightsAndBiasFromMirror p c h = .ok (n, h') ∧
      Handle h' n { v with params := { v.params with bias := v.params.mirrorBias } } ∧ Isolates h h' p c := by
  obtain ⟨n, h', hr, ho, hi, _⟩ := copyWeights_run hv hin c
  exact ⟨n, h', hr, ho.result, hi⟩

/-- C46, partial: every operation of the package with a foreign cowId leaves the training state and the
scalar parameters seen through the original node. Missing: the vectors, for which the claim is false. -/
theorem C46_scalars_partial (cfg : Config F) {h : Heap F} (hd : Disj h) {p : Ptr} {v : View F} (hv : Handle h p v) {c : Int}
    (hf : Foreign h p c) (x : Call F) {h' : Heap F} (hr : x.run cfg c h = .ok ((), h')) :
    scalars h' p = scalars h p ∧ slots h' p = some v.train := by
  have ho := only_observe (only_call cfg hd hr) hv hf
  exact ⟨ho.1, ho.2.1⟩

example : ∃ h', (Call.setT 0 0 5).run (NodeEx.cfg true) 1 (NodeEx.after true NodeEx.setup) = .ok ((), h') ∧
    slots h' 0 = some NodeEx.v0.train := by
  have hr : (Call.setT 0 0 5).run (NodeEx.cfg true) 1 (NodeEx.after true NodeEx.setup) =
      .ok ((), NodeEx.after true (NodeEx.setup ++ [(1, .setT 0 0 5)])) := by decide +kernel
  exact ⟨_, hr, (C46_scalars_partial _ NodeEx.disj0 NodeEx.handle0 NodeEx.foreign0 _ hr).2⟩

/-! ### C47 -/

/-- C47 is false: node 3 is obtained from node 0 with cowId 1, but it still shares training states with it;
cowId 0 then updates them in place. No cowId is reused. -/
theorem C47_false : ∃ (l : List (Int × Call Rat)) (h h' : Heap Rat) (p : Ptr) (nd : Node) (c : Int) (x : Call Rat),
    runAll (NodeEx.cfg true) l Heap.empty = .ok ((), h) ∧ h.nodes[p]? = some nd ∧ nd.cowId ≠ c ∧
    x.run (NodeEx.cfg true) c h = .ok ((), h') ∧
    view h p ≠ none ∧ view h' p ≠ none ∧ slots h' p ≠ slots h p := by
  refine ⟨NodeEx.setup ++ [(1, .setBias 0 9)], NodeEx.after true (NodeEx.setup ++ [(1, .setBias 0 9)]),
    NodeEx.after true (NodeEx.setup ++ [(1, .setBias 0 9), (0, .setLast 0 0 5)]), 3, ⟨1, 3, ⟨3, 0, 2⟩⟩, 0, .setLast 0 0 5,
    ?_, ?_, ?_, ?_, ?_, ?_, ?_⟩ <;> decide +kernel

/-- C47 is false also for scalars, when a cowId is reused: node 0 belongs to 0, node 3 is made from it with
cowId 1, node 4 from node 3 with cowId 0 again. Then node 4 shares the training states of node 0, which both
belong to cowId 0, although node 0 was never meant to change: node 3, which carries cowId 1, changes too. -/
theorem C47_false_reuse : ∃ (l : List (Int × Call Rat)) (h h' : Heap Rat) (p : Ptr) (nd : Node) (c : Int) (x : Call Rat),
    runAll (NodeEx.cfg true) l Heap.empty = .ok ((), h) ∧ h.nodes[p]? = some nd ∧ nd.cowId ≠ c ∧
    x.run (NodeEx.cfg true) c h = .ok ((), h') ∧ x = .setLast 4 0 5 ∧
    view h p ≠ none ∧ view h' p ≠ none ∧ slots h' p ≠ slots h p := by
  refine ⟨NodeEx.setup ++ [(1, .setBias 0 9), (0, .setBias 3 8)], NodeEx.after true (NodeEx.setup ++ [(1, .setBias 0 9), (0, .setBias 3 8)]),
    NodeEx.after true (NodeEx.setup ++ [(1, .setBias 0 9), (0, .setBias 3 8), (0, .setLast 4 0 5)]), 3, ⟨1, 3, ⟨3, 0, 2⟩⟩, 0, .setLast 4 0 5,
    ?_, ?_, ?_, ?_, rfl, ?_, ?_, ?_⟩ <;> decide +kernel

/-- C47, partial: over every history whose cowIds own no part of node `p` (they may be reused among
themselves in any way), the training state and the scalar parameters seen through `p` stay. Missing: cowIds
that differ from the one `p` carries but own a part of it, and the vectors; there the claim is false. -/
theorem C47_history_partial (cfg : Config F) (l : List (Int × Call F)) {h : Heap F} (hd : Disj h) {p : Ptr} {v : View F}
    (hv : Handle h p v) (hf : ∀ x ∈ l, Foreign h p x.1) {h' : Heap F} (hr : runAll cfg l h = .ok ((), h')) :
    scalars h' p = scalars h p ∧ slots h' p = some v.train := by
  obtain ⟨nd, b, qs, hp⟩ := hv.parts
  obtain ⟨h1, h2, _⟩ := runAll_observe cfg l hd ⟨nd, b, qs, hp.node, hp.base, by rw [slotPtrs_of hp.node, hp.ptrs]⟩
    ((view_iff _ _ _).mp hv.view).2 hf hr
  exact ⟨h1, h2⟩

/-- The hypothesis on the memory holds after every history. -/
theorem C47_disj (cfg : Config F) (l : List (Int × Call F)) {h : Heap F} (hr : runAll cfg l Heap.empty = .ok ((), h)) :
    Disj h := disj_run cfg l disj_empty hr

example : ∃ h', runAll (NodeEx.cfg true) [(1, .setBias 0 9), (1, .getActivation 3 [⟨1, 4⟩] 0), (1, .incrementDelta 3 0 2)]
    (NodeEx.after true NodeEx.setup) = .ok ((), h') ∧ slots h' 0 = some NodeEx.v0.train := by
  have hr : runAll (NodeEx.cfg true) [(1, .setBias 0 9), (1, .getActivation 3 [⟨1, 4⟩] 0), (1, .incrementDelta 3 0 2)]
      (NodeEx.after true NodeEx.setup) = .ok ((), NodeEx.after true
        (NodeEx.setup ++ [(1, .setBias 0 9), (1, .getActivation 3 [⟨1, 4⟩] 0), (1, .incrementDelta 3 0 2)])) := by decide +kernel
  refine ⟨_, hr, (C47_history_partial _ _ NodeEx.disj0 NodeEx.handle0 ?_ hr).2⟩
  intro x hx
  simp only [List.mem_cons, List.not_mem_nil, or_false] at hx
  rcases hx with rfl | rfl | rfl <;> exact NodeEx.foreign0

/-! ### C48 -/

/-- C48. Getters return what the observation says. -/
theorem C48_getters {h : Heap F} {p : Ptr} {v : View F} (hv : Handle h p v) :
    getBias p h = .ok (v.params.bias, h) ∧ getTBias p h = .ok (v.params.tBias, h) ∧
    getAdamAvgMomBias p h = .ok (v.params.momBias, h) ∧ getAdamAvgVelBias p h = .ok (v.params.velBias, h) ∧
    (∀ (i : Nat) x, v.params.t[i]? = some x → getT p i h = .ok (x, h)) ∧
    (∀ (i : Nat) x, v.params.mom[i]? = some x → getAdamAvgMom p i h = .ok (x, h)) ∧
    (∀ (i : Nat) x, v.params.vel[i]? = some x → getAdamAvgVel p i h = .ok (x, h)) ∧
    (∃ s, weights p h = .ok (s, h) ∧ readSlice h.floats s = some v.params.weights) ∧
    (∀ (i : Nat) s, v.train[i]? = some s → getLastActivation p i h = .ok (if s.active then s.act else GoFloat.zero, h)) :=
  ⟨getBias_run hv, getTBias_run hv, getAdamAvgMomBias_run hv, getAdamAvgVelBias_run hv, fun _ _ hx => getT_run hv hx,
    fun _ _ hx => getAdamAvgMom_run hv hx, fun _ _ hx => getAdamAvgVel_run hv hx, weights_run hv,
    fun i s hs => by
      rcases trainOf_run hv i with ⟨t0, _, ht0, hr⟩ | ⟨h1, _⟩
      · rw [Int.toNat_natCast, hs] at ht0
        cases ht0
        unfold getLastActivation
        rw [M.bind_ok hr]
        change (if (!t0.activeinputIds) = true then _ else _ : NM F F) h = .ok (if t0.activeinputIds = true then t0.lastActivations else _, h)
        cases t0.activeinputIds <;> rfl
      · have := (List.getElem?_eq_some_iff.mp hs).1
        exact absurd ⟨by omega, by omega⟩ h1⟩

/-- C48. For the owner, every setter returns the same handle, through which exactly the assigned field has
changed; nodes that share nothing with it are as before, and it still belongs to the owner. -/
theorem C48_setters {h : Heap F} {p : Ptr} {v : View F} (hv : Handle h p v) (hin : Inner h p) {c : Int} (hown : Owned h p c)
    (x : F) (i : Nat) :
    (∃ h', setBias p c x h = .ok (p, h') ∧ Op h h' p p c { v with params := { v.params with bias := x } }) ∧
    (∃ h', setTBias p c x h = .ok (p, h') ∧ Op h h' p p c { v with params := { v.params with tBias := x } }) ∧
    (∃ h', setAdamAvgMomBias p c x h = .ok (p, h') ∧ Op h h' p p c { v with params := { v.params with momBias := x } }) ∧
    (∃ h', setAdamAvgVelBias p c x h = .ok (p, h') ∧ Op h h' p p c { v with params := { v.params with velBias := x } }) ∧
    (∃ h', copyWeightsAndBiasFromMirror p c h = .ok (p, h') ∧
      Op h h' p p c { v with params := { v.params with bias := v.params.mirrorBias } }) ∧
    (i < v.params.t.length → ∃ h', setT p c i x h = .ok (p, h') ∧
      Op h h' p p c { v with params := { v.params with t := v.params.t.set i x } }) ∧
    (i < v.params.mom.length → ∃ h', setAdamAvgMom p c i x h = .ok (p, h') ∧
      Op h h' p p c { v with params := { v.params with mom := v.params.mom.set i x } }) ∧
    (i < v.params.vel.length → ∃ h', setAdamAvgVel p c i x h = .ok (p, h') ∧
      Op h h' p p c { v with params := { v.params with vel := v.params.vel.set i x } }) ∧
    (∀ w, v.params.weights[i]? = some w → ∃ h', purturbWeight p c i x h = .ok ((GoFloat.add w x, p), h') ∧
      Op h h' p p c { v with params := { v.params with
        weights := v.params.weights.set i (GoFloat.add w x)
        mirrorWeights := v.params.weights.set i (GoFloat.add w x) } }) := by
  have fix : ∀ {n h' v'}, Op h h' p n c v' → n = p := fun ho => (ho.same hown).1
  refine ⟨?_, ?_, ?_, ?_, ?_, fun hi => ?_, fun hi => ?_, fun hi => ?_, fun w hw => ?_⟩
  · obtain ⟨n, h', hr, ho, _⟩ := setScalar_run hv c (fun b => { b with bias := x }) (fun P => { P with bias := x })
      (fun fs b P hP => by
        rw [baseParams_iff] at hP ⊢
        obtain ⟨a1, a2, a3, a4, a5, a6, a7, a8, a9, a10, a11, a12, a13⟩ := hP
        exact ⟨a1, a2, a3, a4, a5, a6, a7, a8, rfl, a10, a11, a12, a13⟩)
      (fun _ => rfl) (fun _ => rfl) (fun _ => rfl)
    obtain rfl := fix ho
    exact ⟨h', hr, ho⟩
  · obtain ⟨n, h', hr, ho, _⟩ := setScalar_run hv c (fun b => { b with tBias := x }) (fun P => { P with tBias := x })
      (fun fs b P hP => by
        rw [baseParams_iff] at hP ⊢
        obtain ⟨a1, a2, a3, a4, a5, a6, a7, a8, a9, a10, a11, a12, a13⟩ := hP
        exact ⟨a1, a2, a3, a4, a5, a6, a7, a8, a9, a10, rfl, a12, a13⟩)
      (fun _ => rfl) (fun _ => rfl) (fun _ => rfl)
    obtain rfl := fix ho
    exact ⟨h', hr, ho⟩
  · obtain ⟨n, h', hr, ho, _⟩ := setScalar_run hv c (fun b => { b with adamAvgMomBias := x }) (fun P => { P with momBias := x })
      (fun fs b P hP => by
        rw [baseParams_iff] at hP ⊢
        obtain ⟨a1, a2, a3, a4, a5, a6, a7, a8, a9, a10, a11, a12, a13⟩ := hP
        exact ⟨a1, a2, a3, a4, a5, a6, a7, a8, a9, a10, a11, rfl, a13⟩)
      (fun _ => rfl) (fun _ => rfl) (fun _ => rfl)
    obtain rfl := fix ho
    exact ⟨h', hr, ho⟩
  · obtain ⟨n, h', hr, ho, _⟩ := setScalar_run hv c (fun b => { b with adamAvgVelBias := x }) (fun P => { P with velBias := x })
      (fun fs b P hP => by
        rw [baseParams_iff] at hP ⊢
        obtain ⟨a1, a2, a3, a4, a5, a6, a7, a8, a9, a10, a11, a12, a13⟩ := hP
        exact ⟨a1, a2, a3, a4, a5, a6, a7, a8, a9, a10, a11, a12, rfl⟩)
      (fun _ => rfl) (fun _ => rfl) (fun _ => rfl)
    obtain rfl := fix ho
    exact ⟨h', hr, ho⟩
  · obtain ⟨n, h', hr, ho, _⟩ := copyWeights_run hv hin c
    obtain rfl := fix ho
    exact ⟨h', hr, ho⟩
  · obtain ⟨n, h', hr, ho, _⟩ := setVec_run .t hv hin c hi x
    obtain rfl := fix ho
    exact ⟨h', hr, ho⟩
  · obtain ⟨n, h', hr, ho, _⟩ := setVec_run .mom hv hin c hi x
    obtain rfl := fix ho
    exact ⟨h', hr, ho⟩
  · obtain ⟨n, h', hr, ho, _⟩ := setVec_run .vel hv hin c hi x
    obtain rfl := fix ho
    exact ⟨h', hr, ho⟩
  · obtain ⟨n, h', hr, ho, _⟩ := purturbWeight_run hv hin c hw x
    obtain rfl := fix ho
    exact ⟨h', hr, ho⟩

/-- C48 for the operations on the training state of one input. -/
theorem C48_train {h : Heap F} {p : Ptr} {v : View F} (hv : Handle h p v) {c : Int} (hown : Owned h p c)
    {i : Nat} {s : Slot F} (hs : v.train[i]? = some s) :
    (∀ x, ∃ h', setlastActivation p c i x h = .ok (p, h') ∧ Op h h' p p c { v with train := v.train.set i { s with act := x } }) ∧
    (s.active = true → GoFloat.le s.act GoFloat.zero = false → ∀ x, ∃ h', incrementDelta p c i x h = .ok (p, h') ∧
      Op h h' p p c { v with train := v.train.set i { s with delta := GoFloat.add s.delta x } }) ∧
    (s.active = true → ∀ norm labels, ∃ h', computeExtaStatsForSoftMax p c norm i labels h = .ok (p, h') ∧
      Op h h' p p c { v with train := v.train.set i (softmaxSlot v.params norm labels s) }) ∧
    (∀ data, InRange v.params data → (v.params.nodeType = 0 ∨ v.params.nodeType = 1) → (i : Int) < v.params.batch →
      ∃ h', getActivation p c data i h = .ok ((activation v.params data, p), h') ∧
      Op h h' p p c { v with train := v.train.set i { active := true, act := activation v.params data, delta := if Clamped v.params data then GoFloat.zero else s.delta } }) := by
  refine ⟨fun x => ?_, fun ha hle x => ?_, fun ha norm labels => ?_, fun data hd hty hi => ?_⟩
  · obtain ⟨n, h', hr, ho⟩ := setlastActivation_run hv c hs x
    obtain rfl := (ho.same hown).1
    exact ⟨h', hr, ho.toOp⟩
  · obtain ⟨n, h', hr, ho⟩ := (incrementDelta_run hv c hs x).2.2 ha hle
    obtain rfl := (ho.same hown).1
    exact ⟨h', hr, ho.toOp⟩
  · obtain ⟨n, h', hr, ho⟩ := (computeExta_run hv c norm hs labels).2 ha
    obtain rfl := (ho.same hown).1
    exact ⟨h', hr, ho.toOp⟩
  · obtain ⟨n, h', s', hr, hs', ho⟩ := getActivation_run hv c data hi hd hty
    rw [hs] at hs'; cases hs'
    obtain rfl := (ho.same hown).1
    exact ⟨h', hr, ho.toOp⟩

/-- C48 for back-propagation: the owner of all the nodes gets back the same handles, with the node and the
previous nodes updated in place. -/
theorem C48_backProp (cfg : Config F) {h : Heap F} {p : Ptr} {ps : List Ptr} {v : View F} {vs : List (View F)}
    (g : Group h (p :: ps) (v :: vs)) {c : Int} (hown : AllOwned h (p :: ps) c) {i : Nat} {s : Slot F} (hs : v.train[i]? = some s)
    (ha : s.active = true) (lr : F) (pairs : List (Pair F)) :
    (∀ prevS, readSlice h.nodeArrs prevS = some ps → Ready cfg.UseAdam v.params vs i pairs →
      ∃ h', backPropagate cfg p c prevS pairs lr i h = .ok (p, h') ∧
        Group h' (p :: ps) ((backProp cfg.UseAdam lr s.delta i v vs pairs).1 :: (backProp cfg.UseAdam lr s.delta i v vs pairs).2) ∧
        AllOwned h' (p :: ps) c ∧ readSlice h'.nodeArrs prevS = some ps) ∧
    ((∀ x ∈ pairs, 0 ≤ x.Index ∧ x.Index < v.params.weights.length ∧ (cfg.UseAdam = true → x.Index < v.params.t.length)) →
      ∃ h', backPropagateFirstLayer cfg p c pairs lr i h = .ok (p, h') ∧
        Op h h' p p c (backPropFirst cfg.UseAdam lr s.delta i v pairs)) := by
  refine ⟨fun prevS hprev hready => ?_, fun hr => ?_⟩
  · have hlen : ps.length = vs.length := by have := g.len; simpa using this
    have g' : Group h (p :: (ps ++ [])) (v :: (vs ++ [])) := by rw [List.append_nil, List.append_nil]; exact g
    obtain ⟨n, h', ps', hr, hg, hl, hp', how⟩ := backPropagate_run cfg g' hlen hprev c hs ha lr pairs hready
    rw [List.append_nil] at how
    obtain ⟨rfl, rfl, ho, _⟩ := how hown
    rw [List.append_nil, List.append_nil] at hg
    exact ⟨h', hr, hg, ho, hp'⟩
  · obtain ⟨n, h', hr', ho⟩ := backPropagateFirstLayer_run cfg (g.handle 0 p v rfl rfl) (g.inner p (by simp)) c hs ha lr pairs hr
    obtain rfl := (ho.same (hown p (by simp))).1
    exact ⟨h', hr', ho⟩

/-- The hypotheses hold for the node of the example. -/
example : ∃ h', setT 0 0 1 5 (NodeEx.after true NodeEx.setup) = .ok (0, h') ∧ getT 0 1 h' = .ok (5, h') ∧ getT 0 0 h' = .ok (0, h') := by
  obtain ⟨_, _, _, _, _, h6, _⟩ := C48_setters NodeEx.handle0 NodeEx.inner0 NodeEx.owned0 5 1
  obtain ⟨h', hr, ho⟩ := h6 (by decide)
  have hg := C48_getters ho.result
  exact ⟨h', hr, hg.2.2.2.2.1 1 5 (by decide), hg.2.2.2.2.1 0 0 (by decide)⟩

/-! ### C49 -/

/-- Two nodes without Adam: node 0 with weight 1, previous node 1; input 0 has been propagated forward. -/
def NodeEx.sgd : List (Int × Call Rat) :=
  [(0, .makeVec [1]), (0, .new 0 0 0 1 ⟨0, 0, 1⟩ 1 nilSlice nilSlice),
   (0, .makeVec [5]), (0, .new 0 0 0 1 ⟨1, 0, 1⟩ 1 nilSlice nilSlice), (0, .makeNodes [1]),
   (0, .getActivation 1 [⟨0, 1⟩] 0), (0, .getActivation 0 [⟨0, 6⟩] 0), (0, .incrementDelta 0 0 4)]

/-- C49 is false: `BackPropagate` without Adam changes the weights at once, since `mirrorWeights` is the same
slice as `weights` (node/node.go:78, 217). -/
theorem C49_false : ∃ (h h' : Heap Rat) (n : Ptr) (P P' : Params Rat), runAll (NodeEx.cfg false) NodeEx.sgd Heap.empty = .ok ((), h) ∧
    backPropagate (NodeEx.cfg false) 0 0 ⟨0, 0, 1⟩ [⟨0, 6⟩] 1 0 h = .ok (n, h') ∧ params h 0 = some P ∧ params h' 0 = some P' ∧
    P.weights = [1] ∧ P'.weights = [25] := by
  refine ⟨NodeEx.after false NodeEx.sgd, NodeEx.after false (NodeEx.sgd ++ [(0, .backProp 0 ⟨0, 0, 1⟩ [⟨0, 6⟩] 1 0)]), 0,
    { nodeType := 0, batch := 1, id := 0, weights := [1], mirrorWeights := [1], mom := [], vel := [], t := [], bias := 1, mirrorBias := 1, tBias := 0, momBias := 0, velBias := 0 },
    { nodeType := 0, batch := 1, id := 0, weights := [25], mirrorWeights := [25], mom := [], vel := [], t := [], bias := 1, mirrorBias := 5, tBias := 0, momBias := 0, velBias := 0 },
    ?_, ?_, ?_, ?_, rfl, rfl⟩ <;> decide +kernel

/-- C49, exactly what happens: without Adam and for a list without duplicates, weight `k` of the listed
previous nodes is changed by `lr * (d * activation(k))` at once; the bias stays, the mirror bias moves by
`lr * d`. Missing for the claim: the weights do change (see `C49_false`); the bias does wait. -/
theorem C49_sgd_partial (cfg : Config F) (hsgd : cfg.UseAdam = false) {h : Heap F} {p : Ptr} {ps : List Ptr} {v : View F}
    {vs : List (View F)} (g : Group h (p :: ps) (v :: vs)) {prevS : Slice} (hprev : readSlice h.nodeArrs prevS = some ps)
    (c : Int) {i : Nat} {s : Slot F} (hs : v.train[i]? = some s) (ha : s.active = true) (lr : F) (pairs : List (Pair F))
    (hnd : (pairs.map (·.Index.toNat)).Nodup) (hready : Ready false v.params vs i pairs) :
    ∃ n h' v', backPropagate cfg p c prevS pairs lr i h = .ok (n, h') ∧ Handle h' n v' ∧
      (∀ k : Nat, v'.params.weights[k]? = (v.params.weights[k]?).map (fun y =>
        if listed pairs k then GoFloat.add y (GoFloat.mul lr (GoFloat.mul s.delta (lastAct vs k i))) else y)) ∧
      v'.params.bias = v.params.bias ∧ v'.params.mirrorBias = GoFloat.add v.params.mirrorBias (GoFloat.mul lr s.delta) ∧
      v'.params.t = v.params.t ∧ v'.params.tBias = v.params.tBias := by
  have hlen : ps.length = vs.length := by have := g.len; simpa using this
  rw [← hsgd] at hready
  have g' : Group h (p :: (ps ++ [])) (v :: (vs ++ [])) := by rw [List.append_nil, List.append_nil]; exact g
  obtain ⟨n, h', ps', hr, hg, hl, hp', _⟩ := backPropagate_run cfg g' hlen hprev c hs ha lr pairs hready
  refine ⟨n, h', _, hr, hg.handle 0 _ _ rfl rfl, ?_⟩
  obtain ⟨f1, f2, f3, f4, f5⟩ := backFold cfg.UseAdam lr s.delta i pairs v.params vs hnd
  rw [hsgd] at f1 f2 f3 f4 f5 ⊢
  unfold backProp
  dsimp only
  generalize hR : List.foldl (backStep false lr s.delta i) (v.params, vs) pairs = R at f1 f2 f3 f4 f5
  refine ⟨fun k => ?_, ?_, ?_, ?_, ?_⟩
  · show R.1.weights[k]? = _
    rw [f3 k]; simp
  · show R.1.bias = _
    rw [f1]
  · show GoFloat.add R.1.mirrorBias _ = _
    rw [f1]
  · show R.1.t = _
    apply List.ext_getElem?
    intro k
    rw [f2 k]; simp
  · show R.1.tBias = _
    rw [f1]

/-! ### C50 -/

/-- C50. Exactly what `BackPropagateFirstLayer` does to the node; without Adam the mirror bias becomes
`mirrorBias + (lr + delta)` (node/node.go:409). -/
theorem C50_firstLayer_partial (cfg : Config F) {h : Heap F} {p : Ptr} {v : View F} (hv : Handle h p v) (hin : Inner h p)
    (c : Int) {i : Nat} {s : Slot F} (hs : v.train[i]? = some s) (ha : s.active = true) (lr : F) (pairs : List (Pair F))
    (hr : ∀ x ∈ pairs, 0 ≤ x.Index ∧ x.Index < v.params.weights.length ∧ (cfg.UseAdam = true → x.Index < v.params.t.length)) :
    ∃ n h' v', backPropagateFirstLayer cfg p c pairs lr i h = .ok (n, h') ∧ Handle h' n v' ∧ v'.train = v.train.set i idle ∧
      v'.params.bias = v.params.bias ∧
      v'.params.mirrorBias = (if cfg.UseAdam then v.params.mirrorBias else GoFloat.add v.params.mirrorBias (GoFloat.add lr s.delta)) ∧
      v'.params.tBias = (if cfg.UseAdam then GoFloat.add v.params.tBias s.delta else v.params.tBias) := by
  obtain ⟨n, h', hr', ho⟩ := backPropagateFirstLayer_run cfg hv hin c hs ha lr pairs hr
  refine ⟨n, h', _, hr', ho.result, rfl, ?_⟩
  have key : ∀ (l : List (Pair F)) (P : Params F), (firstGrads cfg.UseAdam lr s.delta P l).bias = P.bias ∧
      (firstGrads cfg.UseAdam lr s.delta P l).mirrorBias = P.mirrorBias ∧ (firstGrads cfg.UseAdam lr s.delta P l).tBias = P.tBias := by
    intro l
    induction l with
    | nil => intro P; exact ⟨rfl, rfl, rfl⟩
    | cons x l ih =>
      intro P
      unfold firstGrads at ih ⊢
      rw [List.foldl_cons]
      obtain ⟨i1, i2, i3⟩ := ih (addGrad cfg.UseAdam lr (GoFloat.mul s.delta x.Value) x.Index.toNat P)
      rw [i1, i2, i3]
      unfold addGrad
      split <;> exact ⟨rfl, rfl, rfl⟩
  obtain ⟨k1, k2, k3⟩ := key pairs v.params
  unfold backPropFirst biasGrad
  dsimp only
  split
  · exact ⟨k1, k2, congrArg (GoFloat.add · s.delta) k3⟩
  · exact ⟨k1, congrArg (GoFloat.add · (GoFloat.add lr s.delta)) k2, k3⟩

/-- C50 is false: with rate 2 and delta 4 the mirror bias changes by 6 instead of 8. -/
theorem C50_false : ∃ (h h' : Heap Rat) (n : Ptr) (P P' : Params Rat), runAll (NodeEx.cfg false) NodeEx.sgd Heap.empty = .ok ((), h) ∧
    (∃ t, trainOf 0 0 h = .ok (t, h) ∧ t.lastDeltaforBPs = 4) ∧
    backPropagateFirstLayer (NodeEx.cfg false) 0 0 [⟨0, 6⟩] 2 0 h = .ok (n, h') ∧ params h 0 = some P ∧ params h' 0 = some P' ∧
    P'.mirrorBias = P.mirrorBias + 6 ∧ P'.mirrorBias ≠ P.mirrorBias + 2 * 4 := by
  refine ⟨NodeEx.after false NodeEx.sgd, NodeEx.after false (NodeEx.sgd ++ [(0, .backPropFirst 0 [⟨0, 6⟩] 2 0)]), 0,
    { nodeType := 0, batch := 1, id := 0, weights := [1], mirrorWeights := [1], mom := [], vel := [], t := [], bias := 1, mirrorBias := 1, tBias := 0, momBias := 0, velBias := 0 },
    { nodeType := 0, batch := 1, id := 0, weights := [49], mirrorWeights := [49], mom := [], vel := [], t := [], bias := 1, mirrorBias := 7, tBias := 0, momBias := 0, velBias := 0 },
    ?_, ⟨⟨0, 4, 7, true⟩, ?_, rfl⟩, ?_, ?_, ?_, ?_, ?_⟩ <;> decide +kernel

/-! ### C51 -/

/-- The example with `len(labels)=1`: activation 1 of node 0 for input 0 of a batch of 2. -/
def NodeEx.soft : List (Int × Call Rat) :=
  [(0, .makeVec [1]), (0, .new 0 7 1 2 ⟨0, 0, 1⟩ 0 nilSlice nilSlice), (0, .getActivation 0 [⟨0, 1⟩] 0)]

/-- C51 is false: the probability is 1, the target is 1 (the only label), the delta is 1/2 and not 0. -/
theorem C51_false : ∃ (h h' : Heap Rat) (n : Ptr) (t : NodeTrain Rat), runAll (NodeEx.cfg false) NodeEx.soft Heap.empty = .ok ((), h) ∧
    computeExtaStatsForSoftMax 0 0 (1 - 1 / 10000000) 0 [7] h = .ok (n, h') ∧ trainOf n 0 h' = .ok (t, h') ∧
    t.lastActivations = 1 ∧ t.lastDeltaforBPs = 1 / 2 := by
  refine ⟨NodeEx.after false NodeEx.soft, NodeEx.after false (NodeEx.soft ++ [(0, .softmax 0 (1 - 1 / 10000000) 0 [7])]), 0,
    ⟨0, 1 / 2, 1, true⟩, ?_, ?_, ?_, ?_, ?_⟩ <;> decide +kernel

/-- C51, partial (exact arithmetic): the delta is `(target - probability)/batch` for the nodes that are no
labels, and for all nodes if the batch size is 1. Missing: labels with a larger batch, where only the
probability is divided by the batch size (node/node.go:317-319). -/
theorem C51_softmax_partial {h : Heap Rat} {p : Ptr} {v : View Rat} (hv : Handle h p v) (c : Int) (norm : Rat) {i : Nat}
    {s : Slot Rat} (hs : v.train[i]? = some s) (ha : s.active = true) (labels : List Int)
    (hok : v.params.id ∉ labels ∨ v.params.batch = 1) :
    ∃ n h', computeExtaStatsForSoftMax p c norm i labels h = .ok (n, h') ∧
      Handle h' n { v with train := v.train.set i { active := true, act := s.act / (norm + 1 / 10000000), delta := crossEntropyDelta v.params labels (s.act / (norm + 1 / 10000000)) } } := by
  obtain ⟨n, h', hr, ho⟩ := (computeExta_run hv c norm hs labels).2 ha
  refine ⟨n, h', hr, ?_⟩
  have : softmaxSlot v.params norm labels s = { active := true, act := s.act / (norm + 1 / 10000000), delta := crossEntropyDelta v.params labels (s.act / (norm + 1 / 10000000)) } := by
    unfold softmaxSlot crossEntropyDelta
    have hc : intSliceContains labels v.params.id = decide (v.params.id ∈ labels) := by
      rw [Bool.eq_iff_iff, decide_eq_true_iff]; exact intSliceContains_iff _ _
    rw [hc, ha]
    dsimp only
    by_cases hm : v.params.id ∈ labels
    · have hb := hok.resolve_left (fun h => h hm)
      rw [if_pos hm, if_pos (decide_eq_true hm), hb]
      congr 1
      show _ - _ / ((1 : Int) : Rat) = (_ - _) / ((1 : Int) : Rat)
      simp only [Rat.intCast_one, Rat.div_def, show (1 : Rat)⁻¹ = 1 by decide +kernel, Rat.mul_one]
      rfl
    · rw [if_neg hm, if_neg (by simpa using hm)]
      congr 1
      show (-_) / _ = (0 - _) / _
      rw [Rat.sub_eq_add_neg, Rat.zero_add]
      rfl
  rw [← this]
  exact ho.result

end Goslide.Props
