import Verif.Proofs.NodeOnly
/-
Construction, the remaining vector operations, getters, and back-propagation in closed form.
-/
set_option linter.unusedSectionVars false
namespace Goslide
variable {α : Type}
/-- Writing back what is there changes nothing. -/
theorem writeCell_id {store : List (List α)} {s : Slice} {l : List α} (h : readSlice store s = some l) {i : Nat} {x : α}
    (hx : l[i]? = some x) : writeCell store s i x = .ok store := by
  have hi := (List.getElem?_eq_some_iff.mp hx).1
  have hlen := readSlice_length h
  obtain ⟨a, ha, hoff, rfl⟩ := readSlice_pos h (by omega)
  unfold writeCell
  rw [if_pos (by omega), ha]
  dsimp only
  rw [Int.toNat_natCast, if_pos (by omega)]
  rw [List.getElem?_take, if_pos (by omega), List.getElem?_drop] at hx
  obtain ⟨hl, rfl⟩ := List.getElem?_eq_some_iff.mp hx
  rw [List.set_getElem_self]
  obtain ⟨hl2, rfl⟩ := List.getElem?_eq_some_iff.mp ha
  rw [List.set_getElem_self]
end Goslide

namespace Goslide.Node
open Spec.Node Configuration
variable {F : Type} [GoFloat F]

/-! ### The remaining vector operations -/

theorem float_get {h : Heap F} {s : Slice} {l : List F} (hs : readSlice h.floats s = some l) {i : Nat} {x : F}
    (hx : l[i]? = some x) : float s i h = .ok (x, h) := by
  unfold float; rw [readCell_ok_of hs hx]; rfl

theorem purturbWeight_run {h : Heap F} {p : Ptr} {v : View F} (hv : Handle h p v) (hin : Inner h p) (c : Int)
    {i : Nat} {w : F} (hi : v.params.weights[i]? = some w) (x : F) :
    ∃ n h', purturbWeight p c i x h = .ok ((GoFloat.add w x, n), h') ∧
      Op h h' p n c { v with params := Vec.put .weights v.params (v.params.weights.set i (GoFloat.add w x)) } ∧
      (∀ p' v', Handle h p' v' → slots h' p' = some v'.train) ∧
      Handle h' p { v with params := Vec.put .weights v.params (v.params.weights.set i (GoFloat.add w x)) } := by
  obtain ⟨hil, rfl⟩ := List.getElem?_eq_some_iff.mp hi
  obtain ⟨n, h0, h1, nd, b, qs, hr0, hr1, hc, hp, hb⟩ := cow_node_base hv c
  obtain ⟨fs, hw, hr2, hrd, _⟩ := setFloat_run (Vec.read .weights hp.par) hil (GoFloat.add v.params.weights[i] x)
  obtain ⟨g1, g2, g3⟩ := cow_vec hv hc hp (Vec.mem .weights b) (Vec.read .weights hp.par) hil hw
    (Vec.write .weights hp (hc.inner hin) hil hw) (Vec.put_batch .weights _ _)
  refine ⟨n, { h1 with floats := fs }, ?_, g1, g2, g3⟩
  unfold purturbWeight
  have e1 : addFloat b.weights i x h1 = .ok ((), { h1 with floats := fs }) := by
    unfold addFloat
    have : float b.weights i h1 = .ok (v.params.weights[i], h1) := float_get (Vec.read .weights hp.par) hi
    rw [M.bind_ok this]; exact hr2
  have e2 : float b.weights i { h1 with floats := fs } = .ok (GoFloat.add v.params.weights[i] x, { h1 with floats := fs }) :=
    float_get (h := { h1 with floats := fs }) hrd (List.getElem?_set_self hil)
  rw [M.bind_ok hr0, M.bind_ok hr1, M.bind_ok (base_ok hp.base), M.bind_ok e1, M.bind_ok e2]
  rfl

theorem copyLoop_run {h : Heap F} {s : Slice} {l : List F} (hs : readSlice h.floats s = some l) (xs : List (F × Nat))
    (hxs : ∀ x ∈ xs, l[x.2]? = some x.1) :
    xs.forM (fun (x : F × Nat) => setFloat s x.2 x.1) h = .ok ((), h) := by
  induction xs with
  | nil => rfl
  | cons x xs ih =>
    rw [forM_cons]
    have : setFloat s x.2 x.1 h = .ok ((), h) := by
      unfold setFloat; rw [writeCell_id hs (hxs x (by simp))]; rfl
    rw [M.bind_ok this]
    exact ih (fun y hy => hxs y (by simp [hy]))

theorem copyFloats_self {h : Heap F} {s : Slice} {l : List F} (hs : readSlice h.floats s = some l) :
    copyFloats s s h = .ok ((), h) := by
  unfold copyFloats
  have : floatsOf s h = .ok (l, h) := by unfold floatsOf; rw [hs]
  rw [M.bind_ok this]
  refine copyLoop_run hs _ (fun x hx => ?_)
  have hl := readSlice_length hs
  rw [show min s.len s.len = l.length by omega, List.take_length] at hx
  exact List.mk_mem_zipIdx_iff_getElem?.mp hx

/-- Under `Inner` the vector copy of `CopyWeightsAndBiasFromMirror` copies the weights to themselves. -/
theorem copyWeights_eq {h : Heap F} {p : Ptr} {v : View F} (hv : Handle h p v) (hin : Inner h p) (c : Int) :
    copyWeightsAndBiasFromMirror p c h = setScalar p c (fun b => { b with bias := b.mirrorBias }) h := by
  obtain ⟨n, h0, h1, nd, b, qs, hr0, hr1, hc, hp, hb⟩ := cow_node_base hv c
  unfold copyWeightsAndBiasFromMirror setScalar
  rw [M.bind_ok hr0, M.bind_ok hr0, M.bind_ok hr1, M.bind_ok hr1, M.bind_ok (base_ok hp.base), M.bind_ok (base_ok hp.base)]
  have hm := (hc.inner hin nd b hp.node hp.base).1
  have : copyFloats b.weights b.mirrorWeights h1 = .ok ((), h1) := by
    rw [hm]; exact copyFloats_self (Vec.read .weights hp.par)
  rw [M.bind_ok this]

theorem copyWeights_run {h : Heap F} {p : Ptr} {v : View F} (hv : Handle h p v) (hin : Inner h p) (c : Int) :
    ∃ n h', copyWeightsAndBiasFromMirror p c h = .ok (n, h') ∧
      Op h h' p n c { v with params := { v.params with bias := v.params.mirrorBias } } ∧ Isolates h h' p c ∧
      h'.floats = h.floats ∧ (∀ p' v', Handle h p' v' → slots h' p' = some v'.train) := by
  rw [copyWeights_eq hv hin c]
  exact setScalar_run hv c _ (fun P => { P with bias := P.mirrorBias })
    (fun fs b P hP => by
      rw [baseParams_iff] at hP ⊢
      obtain ⟨a1, a2, a3, a4, a5, a6, a7, a8, a9, a10, a11, a12, a13⟩ := hP
      exact ⟨a1, a2, a3, a4, a5, a6, a7, a8, a10, a10, a11, a12, a13⟩)
    (fun _ => rfl) (fun _ => rfl) (fun _ => rfl)

/-! ### Getters -/

theorem getBias_run {h : Heap F} {p : Ptr} {v : View F} (hv : Handle h p v) : getBias p h = .ok (v.params.bias, h) := by
  obtain ⟨b, hb, hP⟩ := baseOf_run hv
  obtain ⟨-, -, -, -, -, -, -, -, a9, a10, a11, a12, a13⟩ := baseParams_iff.mp hP
  unfold getBias; rw [M.bind_ok hb, a9]; rfl
theorem getTBias_run {h : Heap F} {p : Ptr} {v : View F} (hv : Handle h p v) : getTBias p h = .ok (v.params.tBias, h) := by
  obtain ⟨b, hb, hP⟩ := baseOf_run hv
  obtain ⟨-, -, -, -, -, -, -, -, a9, a10, a11, a12, a13⟩ := baseParams_iff.mp hP
  unfold getTBias; rw [M.bind_ok hb, a11]; rfl
theorem getAdamAvgMomBias_run {h : Heap F} {p : Ptr} {v : View F} (hv : Handle h p v) :
    getAdamAvgMomBias p h = .ok (v.params.momBias, h) := by
  obtain ⟨b, hb, hP⟩ := baseOf_run hv
  obtain ⟨-, -, -, -, -, -, -, -, a9, a10, a11, a12, a13⟩ := baseParams_iff.mp hP
  unfold getAdamAvgMomBias; rw [M.bind_ok hb, a12]; rfl
theorem getAdamAvgVelBias_run {h : Heap F} {p : Ptr} {v : View F} (hv : Handle h p v) :
    getAdamAvgVelBias p h = .ok (v.params.velBias, h) := by
  obtain ⟨b, hb, hP⟩ := baseOf_run hv
  obtain ⟨-, -, -, -, -, -, -, -, a9, a10, a11, a12, a13⟩ := baseParams_iff.mp hP
  unfold getAdamAvgVelBias; rw [M.bind_ok hb, a13]; rfl
theorem getT_run {h : Heap F} {p : Ptr} {v : View F} (hv : Handle h p v) {i : Nat} {x : F} (hx : v.params.t[i]? = some x) :
    getT p i h = .ok (x, h) := by
  obtain ⟨b, hb, hP⟩ := baseOf_run hv
  unfold getT; rw [M.bind_ok hb]; exact float_get (Vec.read .t hP) hx
theorem getAdamAvgMom_run {h : Heap F} {p : Ptr} {v : View F} (hv : Handle h p v) {i : Nat} {x : F}
    (hx : v.params.mom[i]? = some x) : getAdamAvgMom p i h = .ok (x, h) := by
  obtain ⟨b, hb, hP⟩ := baseOf_run hv
  unfold getAdamAvgMom; rw [M.bind_ok hb]; exact float_get (Vec.read .mom hP) hx
theorem getAdamAvgVel_run {h : Heap F} {p : Ptr} {v : View F} (hv : Handle h p v) {i : Nat} {x : F}
    (hx : v.params.vel[i]? = some x) : getAdamAvgVel p i h = .ok (x, h) := by
  obtain ⟨b, hb, hP⟩ := baseOf_run hv
  unfold getAdamAvgVel; rw [M.bind_ok hb]; exact float_get (Vec.read .vel hP) hx
theorem weights_run {h : Heap F} {p : Ptr} {v : View F} (hv : Handle h p v) :
    ∃ s, weights p h = .ok (s, h) ∧ readSlice h.floats s = some v.params.weights := by
  obtain ⟨b, hb, hP⟩ := baseOf_run hv
  refine ⟨b.weights, ?_, Vec.read .weights hP⟩
  unfold weights; rw [M.bind_ok hb]; rfl
theorem getGradient_run {h : Heap F} {p : Ptr} {v : View F} (hv : Handle h p v) {i : Nat} {s : Slot F}
    (hs : v.train[i]? = some s) (x : F) : getGradient p i x h = .ok (GoFloat.mul (GoFloat.neg s.delta) x, h) := by
  rcases trainOf_run hv i with ⟨t, _, ht, hr⟩ | ⟨h1, _⟩
  · rw [Int.toNat_natCast, hs] at ht; cases ht
    unfold getGradient; rw [M.bind_ok hr]; rfl
  · have := (List.getElem?_eq_some_iff.mp hs).1
    exact absurd ⟨by omega, by omega⟩ h1

/-! ### Construction -/

/-- A training state of an input that has not been seen. -/
def blankTrain (c : Int) : NodeTrain F :=
  { cowId := c, lastDeltaforBPs := GoFloat.zero, lastActivations := GoFloat.zero, activeinputIds := false }

theorem newNodeTrains_run (c : Int) (n : Nat) : ∀ h : Heap F, newNodeTrains c n h = .ok (List.range' h.trains.length n,
    { h with trains := h.trains ++ List.replicate n (blankTrain c) }) := by
  induction n with
  | zero => intro h; simp [newNodeTrains]
  | succ n ih =>
    intro h
    rw [newNodeTrains]
    have : newNodeTrain c h = .ok (h.trains.length, { h with trains := h.trains ++ [blankTrain c] }) := rfl
    rw [M.bind_ok this, M.bind_ok (ih _)]
    show Except.ok _ = Except.ok _
    simp only [List.length_append, List.length_singleton, List.append_assoc, List.singleton_append, List.replicate_succ,
      List.range'_succ]

/-- The slice of the training states of a new node. -/
def newSlice (h : Heap F) (n : Nat) : Slice :=
  { arr := h.trainArrs.length, off := 0, len := (List.range' h.trains.length n).length }

/-- The memory with a new node with base `b`. -/
def newHeap (h : Heap F) (b : BaseNode F) (c : Int) (n : Nat) : Heap F :=
  { h with
    trainArrs := h.trainArrs ++ [List.range' h.trains.length n]
    trains := h.trains ++ List.replicate n (blankTrain c)
    bases := h.bases ++ [b]
    nodes := h.nodes ++ [{ cowId := c, base := h.bases.length, train := newSlice h n }] }

theorem newHeap_handle (h : Heap F) (b : BaseNode F) (c : Int) (n : Nat) (P : Params F) (hbc : b.cowId = c)
    (hP : baseParams h.floats b = some P) (hPb : P.batch = n) :
    Handle (newHeap h b c n) h.nodes.length { params := P, train := List.replicate n idle } ∧
      Owned (newHeap h b c n) h.nodes.length c := by
  have hget : ∀ (i : Nat) (q : Ptr), (List.range' h.trains.length n)[i]? = some q →
      (h.trains ++ List.replicate n (blankTrain c))[q]? = some (blankTrain c) ∧ i < n := by
    intro i q hq
    have hi : i < n := by
      have := (List.getElem?_eq_some_iff.mp hq).1
      rwa [List.length_range'] at this
    rw [List.getElem?_range' hi] at hq
    cases hq
    refine ⟨?_, hi⟩
    rw [List.getElem?_append_right (by omega), List.getElem?_replicate_of_lt (by omega)]
  have hp : Parts (newHeap h b c n) h.nodes.length { params := P, train := List.replicate n idle }
      { cowId := c, base := h.bases.length, train := newSlice h n } b (List.range' h.trains.length n) := by
    refine ⟨getElem?_new _ _, getElem?_new _ _, hP, readSlice_new _ _ _, ?_, List.nodup_range', ?_⟩
    · rw [slotsAt_iff]
      refine ⟨by simp, fun i q hq => ?_⟩
      obtain ⟨h2, h3⟩ := hget i q hq
      exact ⟨blankTrain c, h2, by rw [List.getElem?_replicate_of_lt h3]; rfl⟩
    · show ((List.replicate _ _).length : Int) = P.batch
      rw [List.length_replicate, hPb]
  refine ⟨hp.handle, (owned_of hp c).mpr ⟨rfl, hbc, fun q hq t ht => ?_⟩⟩
  obtain ⟨i, hi⟩ := List.mem_iff_getElem?.mp hq
  have e := (hget i q hi).1
  have ht' : (h.trains ++ List.replicate n (blankTrain c))[q]? = some t := ht
  rw [e] at ht'
  cases ht'; rfl

/-- A new node: all inputs idle, owned by `c`. -/
theorem newNode_run (cfg : Config F) (c dim id : Int) (ty : NodeType) {batch : Int} (hb : 0 ≤ batch) (hdim : 0 ≤ dim)
    {h : Heap F} {w m ve : Slice} {lw lm lv : List F} (bias : F) (hw : readSlice h.floats w = some lw)
    (hm : readSlice h.floats m = some lm) (hve : readSlice h.floats ve = some lv) :
    ∃ n h', newNode cfg c dim id ty batch w bias m ve h = .ok (n, h') ∧
      Handle h' n
        { params := { nodeType := ty, batch := batch, id := id, weights := lw, mirrorWeights := lw,
                      mom := if cfg.UseAdam then lm else [], vel := if cfg.UseAdam then lv else [],
                      t := if cfg.UseAdam then List.replicate dim.toNat GoFloat.zero else [],
                      bias := bias, mirrorBias := bias, tBias := GoFloat.zero, momBias := GoFloat.zero, velBias := GoFloat.zero },
          train := List.replicate batch.toNat idle } ∧ Owned h' n c := by
  have key : ∀ (h1 : Heap F) (b : BaseNode F) (P : Params F), b.cowId = c → baseParams h1.floats b = some P → P.batch = batch →
      ∃ n h', (do
        let ps ← newNodeTrains c batch.toNat
        let arr ← allocTrainArr ps
        let bp ← allocBase b
        allocNode { cowId := c, base := bp, train := arr } : NM F Ptr) h1 = .ok (n, h') ∧
        Handle h' n { params := P, train := List.replicate batch.toNat idle } ∧ Owned h' n c := by
    intro h1 b P hbc hP hPb
    refine ⟨h1.nodes.length, newHeap h1 b c batch.toNat, ?_, newHeap_handle h1 b c _ P hbc hP (by omega)⟩
    rw [M.bind_ok (newNodeTrains_run c _ h1)]; rfl
  unfold newNode
  cases ha : cfg.UseAdam with
  | true =>
    have e : adamFields cfg dim m ve { emptyBase c with idInLayer := id, nodeType := ty, currentBatchsize := batch, weights := w, bias := bias, mirrorBias := bias, mirrorWeights := w } h =
        .ok ({ emptyBase c with idInLayer := id, nodeType := ty, currentBatchsize := batch, weights := w, bias := bias, mirrorBias := bias, mirrorWeights := w, adamAvgMom := m, adamAvgVel := ve, t := { arr := h.floats.length, off := 0, len := (List.replicate dim.toNat (GoFloat.zero : F)).length } },
        { h with floats := h.floats ++ [List.replicate dim.toNat GoFloat.zero] }) := by
      unfold adamFields makeFloats
      rw [if_pos ha, if_neg (by omega)]; rfl
    dsimp only
    rw [M.bind_ok e, if_neg (by omega)]
    refine key _ _ _ rfl ?_ rfl
    rw [baseParams_iff]
    exact ⟨readSlice_append hw _, readSlice_append hw _, readSlice_append hm _, readSlice_append hve _,
      readSlice_new _ _ _, rfl, rfl, rfl, rfl, rfl, rfl, rfl, rfl⟩
  | false =>
    have e : adamFields cfg dim m ve { emptyBase c with idInLayer := id, nodeType := ty, currentBatchsize := batch, weights := w, bias := bias, mirrorBias := bias, mirrorWeights := w } h =
        .ok ({ emptyBase c with idInLayer := id, nodeType := ty, currentBatchsize := batch, weights := w, bias := bias, mirrorBias := bias, mirrorWeights := w }, h) := by
      unfold adamFields
      rw [if_neg (by simp [ha])]; rfl
    dsimp only
    rw [M.bind_ok e, if_neg (by omega)]
    refine key _ _ _ rfl ?_ rfl
    rw [baseParams_iff]
    exact ⟨hw, hw, rfl, rfl, rfl, rfl, rfl, rfl, rfl, rfl, rfl, rfl, rfl⟩

/-! ### Back-propagation in closed form -/

theorem listed_cons (x : Pair F) (l : List (Pair F)) (k : Nat) :
    listed (x :: l) k = (decide (x.Index.toNat = k) || listed l k) := rfl

theorem not_listed {x : Pair F} {l : List (Pair F)} (h : (( x :: l).map (·.Index.toNat)).Nodup) :
    listed l x.Index.toNat = false := by
  rw [List.map_cons, List.nodup_cons] at h
  unfold listed
  rw [List.any_eq_false]
  intro y hy e
  exact h.1 (List.mem_map.mpr ⟨y, hy, by simpa using e⟩)

theorem lastAct_step (adam : Bool) (lr d : F) (i : Nat) (P : Params F) (vs : List (View F)) (x : Pair F) (k : Nat) :
    lastAct (backStep adam lr d i (P, vs) x).2 k i = lastAct vs k i := by
  unfold backStep lastAct
  dsimp only
  by_cases hk : x.Index.toNat = k
  · subst hk
    cases hv : vs[x.Index.toNat]? with
    | none => rw [List.getElem?_modify]; simp [hv]
    | some v =>
      rw [modify_self hv]
      dsimp only
      unfold View.setSlot
      dsimp only
      cases hs : v.train[i]? with
      | none => rw [List.getElem?_modify]; simp [hs]
      | some s => rw [modify_self hs]; dsimp only; exact bump_act _ _
  · rw [modify_ne hk _]

theorem backFold (adam : Bool) (lr d : F) (i : Nat) (pairs : List (Pair F)) :
    ∀ (P : Params F) (vs : List (View F)), (pairs.map (·.Index.toNat)).Nodup →
    let r := pairs.foldl (backStep adam lr d i) (P, vs)
    r.1 = { P with t := r.1.t, weights := r.1.weights, mirrorWeights := r.1.mirrorWeights } ∧
    (∀ k : Nat, r.1.t[k]? = (P.t[k]?).map (fun y => if adam && listed pairs k then GoFloat.add y (GoFloat.mul d (lastAct vs k i)) else y)) ∧
    (∀ k : Nat, r.1.weights[k]? = (P.weights[k]?).map (fun y =>
      if !adam && listed pairs k then GoFloat.add y (GoFloat.mul lr (GoFloat.mul d (lastAct vs k i))) else y)) ∧
    (P.mirrorWeights = P.weights → r.1.mirrorWeights = r.1.weights) ∧
    (∀ k : Nat, r.2[k]? = (vs[k]?).map (fun v => if listed pairs k then
      v.setSlot i (bump (GoFloat.mul d ((P.weights[k]?).getD GoFloat.zero))) else v)) := by
  induction pairs with
  | nil =>
    intro P vs _
    simp [listed]
  | cons x pairs ih =>
    intro P vs hnd
    have hnl := not_listed hnd
    have hnd' : (pairs.map (·.Index.toNat)).Nodup := by rw [List.map_cons, List.nodup_cons] at hnd; exact hnd.2
    have hl := lastAct_step adam lr d i P vs x
    obtain ⟨P1, vs1, e⟩ : ∃ P1 vs1, backStep adam lr d i (P, vs) x = (P1, vs1) := ⟨_, _, rfl⟩
    obtain ⟨r1, r2, r3, r4, r5⟩ := ih P1 vs1 hnd'
    rw [e] at hl
    dsimp only
    rw [List.foldl_cons, e]
    unfold backStep at e
    dsimp only at e
    obtain ⟨e1, e2⟩ := Prod.mk.inj e
    have hvs : ∀ k : Nat, vs1[k]? = if x.Index.toNat = k then
        (vs[k]?).map (fun v => v.setSlot i (bump (GoFloat.mul d ((P.weights[k]?).getD GoFloat.zero)))) else vs[k]? := by
      intro k
      rw [← e2]
      by_cases hk : x.Index.toNat = k
      · subst hk; rw [if_pos rfl]
        cases hv : vs[x.Index.toNat]? with
        | none => rw [List.getElem?_modify]; simp [hv]
        | some v => rw [modify_self hv]; rfl
      · rw [if_neg hk, modify_ne hk _]
    cases adam with
    | true =>
      have ht : P1 = { P with t := P.t.modify x.Index.toNat (fun y => GoFloat.add y (GoFloat.mul d (lastAct vs x.Index.toNat i))) } := by
        rw [← e1]; rfl
      have hw : P1.weights = P.weights := by rw [ht]
      have hm : P1.mirrorWeights = P.mirrorWeights := by rw [ht]
      refine ⟨?_, ?_, ?_, fun hmw => r4 (by rw [hw, hm, hmw]), ?_⟩
      · rw [r1, ht]
      · intro k
        rw [r2 k, hl k, listed_cons, ht]
        dsimp only
        by_cases hk : x.Index.toNat = k
        · subst hk
          cases hv : P.t[x.Index.toNat]? with
          | none => rw [List.getElem?_modify]; simp [hv]
          | some v => rw [modify_self hv]; simp [hnl]
        · rw [modify_ne hk _]; simp [hk]
      · intro k
        rw [r3 k, hw]
        simp
      · intro k
        rw [r5 k, hvs k, listed_cons, hw]
        by_cases hk : x.Index.toNat = k
        · subst hk; rw [if_pos rfl, hnl]; cases vs[x.Index.toNat]? <;> simp
        · rw [if_neg hk]; simp [hk]
    | false =>
      have ht : P1 = { P with weights := P.weights.modify x.Index.toNat (fun y => GoFloat.add y (GoFloat.mul lr (GoFloat.mul d (lastAct vs x.Index.toNat i)))), mirrorWeights := P.weights.modify x.Index.toNat (fun y => GoFloat.add y (GoFloat.mul lr (GoFloat.mul d (lastAct vs x.Index.toNat i)))) } := by
        rw [← e1]; rfl
      have hw : P1.mirrorWeights = P1.weights := by rw [ht]
      have hwk : ∀ k : Nat, x.Index.toNat ≠ k → P1.weights[k]? = P.weights[k]? := by
        intro k hk; rw [ht]; exact modify_ne hk _
      refine ⟨?_, ?_, ?_, fun _ => r4 hw, ?_⟩
      · rw [r1, ht]
      · intro k
        rw [r2 k, ht]
        simp
      · intro k
        rw [r3 k, hl k, listed_cons]
        by_cases hk : x.Index.toNat = k
        · subst hk
          rw [ht]
          dsimp only
          cases hv : P.weights[x.Index.toNat]? with
          | none => rw [List.getElem?_modify]; simp [hv]
          | some v => rw [modify_self hv]; simp [hnl]
        · rw [hwk k hk]; simp [hk]
      · intro k
        rw [r5 k, hvs k, listed_cons]
        by_cases hk : x.Index.toNat = k
        · subst hk; rw [if_pos rfl, hnl]; cases vs[x.Index.toNat]? <;> simp
        · rw [if_neg hk, hwk k hk]; simp [hk]

end Goslide.Node

namespace Goslide.Node
open Spec.Node Configuration
variable {F : Type} [GoFloat F]

/-! ### Histories -/

theorem ignore_inv {α : Type} {x : NM F α} {h h' : Heap F} {u : Unit} (hr : ignore x h = .ok (u, h')) :
    ∃ a, x h = .ok (a, h') := by
  unfold ignore at hr
  obtain ⟨a, s, e, hr⟩ := M.bind_eq_ok hr
  cases hr; exact ⟨a, e⟩

theorem disj_new {h : Heap F} (hd : Disj h) {tr : List (List Ptr)} (b : BaseNode F) (fs : List (List F))
    (ts : List (NodeTrain F)) (nd : Node) (hn : nd.train.len = 0 ∨ ∃ l, tr = [l] ∧ nd.train.arr = h.trainArrs.length) :
    Disj { h with floats := fs, trains := ts, trainArrs := h.trainArrs ++ tr, bases := h.bases ++ [b], nodes := h.nodes ++ [nd] } := by
  obtain ⟨hd1, hd2⟩ := hd
  refine ⟨?_, ?_⟩
  · intro p' n' hn'
    show _ ∨ _ < (h.trainArrs ++ tr).length
    rw [List.length_append]
    rcases getElem?_snoc _ _ _ _ hn' with ⟨_, hn'⟩ | ⟨_, rfl⟩
    · rcases hd1 p' n' hn' with h | h
      · exact .inl h
      · exact .inr (Nat.lt_add_right _ h)
    · rcases hn with h | ⟨l, rfl, h⟩
      · exact .inl h
      · right; rw [h]; simp
  · intro p1 p2 n1 n2 hne g1 g2
    rcases getElem?_snoc _ _ _ _ g1 with ⟨l1, h1⟩ | ⟨l1, e1⟩ <;>
    rcases getElem?_snoc _ _ _ _ g2 with ⟨l2, h2⟩ | ⟨l2, e2⟩
    · exact hd2 p1 p2 n1 n2 hne h1 h2
    · subst e2
      rcases hn with hn | ⟨l, rfl, hn⟩
      · exact .inr (.inl hn)
      · rcases hd1 p1 n1 h1 with h | h
        · exact .inl h
        · exact .inr (.inr (.inl (by rw [hn]; exact Nat.ne_of_lt h)))
    · subst e1
      rcases hn with hn | ⟨l, rfl, hn⟩
      · exact .inl hn
      · rcases hd1 p2 n2 h2 with h | h
        · exact .inr (.inl h)
        · exact .inr (.inr (.inl (by rw [hn]; exact Nat.ne_of_gt h)))
    · exact absurd (l1.trans l2.symm) hne

theorem only_newEmpty {h h' : Heap F} {n : Ptr} {c : Int} (hd : Disj h) (hr : newEmptyNode c h = .ok (n, h')) :
    Only c h h' := by
  cases hr
  refine ⟨fun _ _ h _ => getElem?_app h _, fun _ _ h _ => getElem?_app h _, fun _ _ h _ => h, fun _ _ _ _ _ h => h, ?_⟩
  have := disj_new hd (tr := []) (emptyBase c) h.floats h.trains { cowId := c, base := h.bases.length, train := nilSlice } (.inl rfl)
  rw [List.append_nil] at this
  exact this

theorem only_newNode (cfg : Config F) {h h' : Heap F} {n : Ptr} {c dim id batch : Int} {ty : NodeType} {w m ve : Slice}
    {bias : F} (hd : Disj h) (hr : newNode cfg c dim id ty batch w bias m ve h = .ok (n, h')) : Only c h h' := by
  unfold newNode at hr
  obtain ⟨b, h1, e1, hr⟩ := M.bind_eq_ok hr
  have : ∃ fs, h1 = { h with floats := fs } := by
    unfold adamFields at e1
    split at e1
    · obtain ⟨t, h2, e2, e1⟩ := M.bind_eq_ok e1
      unfold makeFloats at e2
      split at e2
      · cases e2
      · cases e2; cases e1; exact ⟨_, rfl⟩
    · cases e1; exact ⟨h.floats, rfl⟩
  obtain ⟨fs, rfl⟩ := this
  split at hr
  · cases hr
  · rw [M.bind_ok (newNodeTrains_run c _ _)] at hr
    cases hr
    refine ⟨fun _ _ h _ => getElem?_app h _, fun _ _ h _ => getElem?_app h _, fun _ _ h _ => getElem?_app h _,
      fun _ _ _ _ _ h => readSlice_append h _, ?_⟩
    exact disj_new hd b fs _ _ (.inr ⟨_, rfl, rfl⟩)

theorem only_call (cfg : Config F) {h h' : Heap F} {c : Int} {x : Call F} {u : Unit} (hd : Disj h)
    (hr : x.run cfg c h = .ok (u, h')) : Only c h h' := by
  cases x with
  | new => obtain ⟨a, e⟩ := ignore_inv hr; exact only_newNode cfg hd e
  | newEmpty => obtain ⟨a, e⟩ := ignore_inv hr; exact only_newEmpty hd e
  | makeVec => obtain ⟨a, e⟩ := ignore_inv hr; cases e; exact only_floats hd c _
  | makeNodes => obtain ⟨a, e⟩ := ignore_inv hr; cases e; exact only_nodeArrs hd c _
  | poke => obtain ⟨a, e⟩ := ignore_inv hr; obtain ⟨fs, rfl⟩ := setFloat_inv e; exact only_floats hd c _
  | setT => obtain ⟨a, e⟩ := ignore_inv hr; exact only_setVec (k := .t) hd e
  | setMom => obtain ⟨a, e⟩ := ignore_inv hr; exact only_setVec (k := .mom) hd e
  | setVel => obtain ⟨a, e⟩ := ignore_inv hr; exact only_setVec (k := .vel) hd e
  | setMomBias => obtain ⟨a, e⟩ := ignore_inv hr; exact (only_setScalar hd e).1
  | setVelBias => obtain ⟨a, e⟩ := ignore_inv hr; exact (only_setScalar hd e).1
  | setBias => obtain ⟨a, e⟩ := ignore_inv hr; exact (only_setScalar hd e).1
  | setTBias => obtain ⟨a, e⟩ := ignore_inv hr; exact (only_setScalar hd e).1
  | copyMirror => obtain ⟨a, e⟩ := ignore_inv hr; exact only_copyWeights hd e
  | getActivation => obtain ⟨⟨x, a⟩, e⟩ := ignore_inv hr; exact (only_getActivation hd e).1
  | incrementDelta => obtain ⟨a, e⟩ := ignore_inv hr; exact (only_incrementDelta hd e).1
  | softmax => obtain ⟨a, e⟩ := ignore_inv hr; exact (only_computeExta hd e).1
  | backProp => obtain ⟨a, e⟩ := ignore_inv hr; exact (only_backPropagate cfg hd e).1
  | backPropFirst => obtain ⟨a, e⟩ := ignore_inv hr; exact (only_backPropagateFirstLayer cfg hd e).1
  | setLast => obtain ⟨a, e⟩ := ignore_inv hr; exact (only_setlastActivation hd e).1
  | purturb => obtain ⟨⟨x, a⟩, e⟩ := ignore_inv hr; exact only_purturbWeight hd e

theorem only_observe {h h' : Heap F} {c : Int} (ho : Only c h h') {p : Ptr} {v : View F} (hv : Handle h p v)
    (hf : Foreign h p c) : scalars h' p = scalars h p ∧ slots h' p = some v.train ∧ slotPtrs h' p = slotPtrs h p ∧
      h'.nodes[p]? = h.nodes[p]? ∧
      (∀ nd, h.nodes[p]? = some nd → h'.bases[nd.base]? = h.bases[nd.base]?) ∧
      ∀ qs, slotPtrs h p = some qs → ∀ q ∈ qs, h'.trains[q]? = h.trains[q]? := by
  obtain ⟨nd, b, qs, hp⟩ := hv.parts
  obtain ⟨f1, f2, f3⟩ := (foreign_of hp c).mp hf
  have n1 := ho.nodes p nd hp.node f1
  have b1 := ho.bases _ b hp.base f2
  have r1 := ho.arrs p nd qs hp.node f1 hp.ptrs
  have ht : ∀ q ∈ qs, h'.trains[q]? = h.trains[q]? := by
    intro q hq
    obtain ⟨i, hi⟩ := List.mem_iff_getElem?.mp hq
    obtain ⟨t, ht, _⟩ := hp.slot_at hi
    rw [ho.trains q t ht (f3 q hq t ht), ht]
  refine ⟨?_, ?_, ?_, n1.trans hp.node.symm, ?_, ?_⟩
  · unfold scalars; rw [n1, hp.node]; dsimp only; rw [b1, hp.base]
  · rw [slots_iff]
    refine ⟨qs, by rw [slotPtrs_of n1, r1], ?_⟩
    obtain ⟨l1, l2⟩ := (slotsAt_iff _ _ _).mp hp.slots
    refine (slotsAt_iff _ _ _).mpr ⟨l1, fun i q hq => ?_⟩
    obtain ⟨t, k1, k2⟩ := l2 i q hq
    exact ⟨t, by rw [ht q (List.mem_of_getElem? hq)]; exact k1, k2⟩
  · rw [slotPtrs_of n1, slotPtrs_of hp.node, r1, hp.ptrs]
  · intro nd' hn; rw [hp.node] at hn; cases hn; rw [b1, hp.base]
  · intro qs' hq; rw [slotPtrs_of hp.node, hp.ptrs] at hq; cases hq; exact ht

theorem foreign_congr {h h' : Heap F} {p : Ptr} {c : Int} (hf : Foreign h p c) (hn : h'.nodes[p]? = h.nodes[p]?)
    (hb : ∀ nd, h.nodes[p]? = some nd → h'.bases[nd.base]? = h.bases[nd.base]?) (hs : slotPtrs h' p = slotPtrs h p)
    (ht : ∀ qs, slotPtrs h p = some qs → ∀ q ∈ qs, h'.trains[q]? = h.trains[q]?) : Foreign h' p c := by
  refine ⟨fun n h1 => ?_, fun qs h1 q hq t h2 => ?_⟩
  · rw [hn] at h1
    exact ⟨(hf.1 n h1).1, fun b h2 => (hf.1 n h1).2 b (by rw [← hb n h1]; exact h2)⟩
  · rw [hs] at h1
    exact hf.2 qs h1 q hq t (by rw [← ht qs h1 q hq]; exact h2)

theorem runAll_observe (cfg : Config F) (l : List (Int × Call F)) : ∀ {h h' : Heap F} {u : Unit} {p : Ptr} {T : List (Slot F)},
    Disj h → (∃ nd b qs, h.nodes[p]? = some nd ∧ h.bases[nd.base]? = some b ∧ slotPtrs h p = some qs) →
    slots h p = some T → (∀ x ∈ l, Foreign h p x.1) → runAll cfg l h = .ok (u, h') →
    scalars h' p = scalars h p ∧ slots h' p = some T ∧ Disj h' := by
  induction l with
  | nil => intro h h' u p T hd _ hT _ hr; cases hr; exact ⟨rfl, hT, hd⟩
  | cons x l ih =>
    intro h h' u p T hd hw hT hf hr
    obtain ⟨c, x⟩ := x
    rw [runAll] at hr
    obtain ⟨_, h1, e1, hr⟩ := M.bind_eq_ok hr
    have ho := only_call cfg hd e1
    obtain ⟨nd, b, qs, w1, w2, w3⟩ := hw
    have hfc := hf (c, x) (by simp)
    have f1 := (hfc.1 nd w1).1
    have f2 := (hfc.1 nd w1).2 b w2
    have f3 := hfc.2 qs w3
    have hsl : slotsAt h.trains qs = some T := by
      obtain ⟨qs', k1, k2⟩ := (slots_iff _ _ _).mp hT
      rw [w3] at k1; cases k1; exact k2
    obtain ⟨l1, l2⟩ := (slotsAt_iff _ _ _).mp hsl
    have n1 := ho.nodes p nd w1 f1
    have b1 := ho.bases _ b w2 f2
    have r1 := ho.arrs p nd qs w1 f1 (by rw [← slotPtrs_of w1]; exact w3)
    have ht : ∀ q ∈ qs, h1.trains[q]? = h.trains[q]? := by
      intro q hq
      obtain ⟨i, hi⟩ := List.mem_iff_getElem?.mp hq
      obtain ⟨t, ht, _⟩ := l2 i q hi
      rw [ho.trains q t ht (f3 q hq t ht), ht]
    have s1 : slotPtrs h1 p = some qs := by rw [slotPtrs_of n1, r1]
    have hT1 : slots h1 p = some T := by
      refine (slots_iff _ _ _).mpr ⟨qs, s1, (slotsAt_iff _ _ _).mpr ⟨l1, fun i q hq => ?_⟩⟩
      obtain ⟨t, k1, k2⟩ := l2 i q hq
      exact ⟨t, by rw [ht q (List.mem_of_getElem? hq)]; exact k1, k2⟩
    have hsc : scalars h1 p = scalars h p := by
      unfold scalars; rw [n1, w1]; dsimp only; rw [b1, w2]
    obtain ⟨g1, g2, g3⟩ := ih ho.disj ⟨nd, b, qs, n1, b1, s1⟩ hT1 (fun y hy => foreign_congr (hf y (by simp [hy]))
      (n1.trans w1.symm) (fun nd' hn => by rw [w1] at hn; cases hn; rw [b1, w2]) (s1.trans w3.symm)
      (fun qs' hq => by rw [w3] at hq; cases hq; exact ht)) hr
    exact ⟨g1.trans hsc, g2, g3⟩

theorem disj_empty : Disj (Heap.empty : Heap F) := by
  refine ⟨fun p n h => ?_, fun p p' n n' _ h => ?_⟩ <;> · simp [Heap.empty] at h

theorem disj_run (cfg : Config F) (l : List (Int × Call F)) : ∀ {h h' : Heap F} {u : Unit}, Disj h →
    runAll cfg l h = .ok (u, h') → Disj h' := by
  induction l with
  | nil => intro h h' u hd hr; cases hr; exact hd
  | cons x l ih =>
    intro h h' u hd hr
    obtain ⟨c, x⟩ := x
    rw [runAll] at hr
    obtain ⟨_, h1, e1, hr⟩ := M.bind_eq_ok hr
    exact ih (only_call cfg hd e1).disj hr

/-- `intSliceContains` is membership. -/
theorem intSliceContains_iff (l : List Int) (x : Int) : intSliceContains l x = true ↔ x ∈ l := by
  induction l with
  | nil => simp [intSliceContains]
  | cons y l ih =>
    unfold intSliceContains
    by_cases h : y = x
    · simp [h]
    · rw [if_neg h, ih, List.mem_cons]
      constructor
      · exact .inr
      · rintro (e | e)
        · exact absurd e.symm h
        · exact e

end Goslide.Node
