import Verif.Proofs.NodeCow
/-
What each node operation does, in terms of observations.
-/
set_option linter.unusedSectionVars false
namespace Goslide.Node
open Spec.Node Configuration
variable {F : Type} [GoFloat F]

theorem setTrain_run (h : Heap F) (q : Ptr) (t : NodeTrain F) : setTrain q t h = .ok ((), trainHeap h q t) := rfl

theorem ownBaseUnless_run {h h0 : Heap F} {p n : Ptr} {v : View F} {c : Int} (hv : Handle h p v)
    (hc : Cow h h0 p n c) (a : Bool) :
    ∃ h1, ownBaseUnless a n c h0 = .ok ((), h1) ∧ Cow h h1 p n c ∧ h1.trains = h0.trains ∧
      ∀ p', slotPtrs h1 p' = slotPtrs h0 p' := by
  unfold ownBaseUnless
  cases a with
  | true => exact ⟨h0, rfl, hc, rfl, fun _ => rfl⟩
  | false =>
    obtain ⟨bp, h1, hr, hc1, e1, e2, _⟩ := cow_base hv hc
    refine ⟨h1, ?_, hc1, e1, e2⟩
    rw [if_neg (by simp), M.bind_ok hr]; rfl

theorem set_of_getElem? {α : Type} {l : List α} {i : Nat} {a : α} (h : l[i]? = some a) (f : α → α) :
    l.set i (f a) = l.modify i f := by
  obtain ⟨hl, rfl⟩ := List.getElem?_eq_some_iff.mp h
  apply List.ext_getElem?
  intro j
  rw [List.getElem?_set, List.getElem?_modify]
  by_cases hj : i = j
  · subst hj; simp [hl]
  · simp [hj]

/-- `GetActivation` inside its range. -/
theorem getActivation_run {h : Heap F} {p : Ptr} {v : View F} (hv : Handle h p v) (c : Int) (data : List (Pair F))
    {i : Nat} (hi : (i : Int) < v.params.batch) (hd : InRange v.params data)
    (hty : v.params.nodeType = 0 ∨ v.params.nodeType = 1) :
    ∃ n h' s, getActivation p c data i h = .ok ((activation v.params data, n), h') ∧
      v.train[i]? = some s ∧
      SlotOp h h' p n c i v { active := true, act := activation v.params data,
                              delta := if Clamped v.params data then GoFloat.zero else s.delta } := by
  have hlen := hv.batch
  obtain ⟨b0, hb0, hP0⟩ := baseOf_run hv
  obtain ⟨n, h0, hr0, hc0⟩ := cow_clone hv c
  obtain ⟨q, h1, hr1, hc1, qs, t, hqs, hq, ht, htc, hvt⟩ := cow_train hv hc0 (i := i) (by omega)
  obtain ⟨h2, hr2, hc2, etr, esl⟩ := ownBaseUnless_run hv hc1 t.activeinputIds
  obtain ⟨b, hb, hP⟩ := baseOf_run (hc2.new v hv)
  obtain ⟨w1, -, -, -, -, w6, w7, -, w9, -⟩ := baseParams_iff.mp hP
  obtain ⟨-, -, -, -, -, -, w7', -⟩ := baseParams_iff.mp hP0
  have hsum := weightedSum_run w1 data GoFloat.zero hd
  have key : ∀ (t' : NodeTrain F), t'.cowId = c → SlotOp h (trainHeap h2 q t') p n c i v (slot t') :=
    fun t' e => cow_write hv hc2 ((esl n).trans hqs) hq (by rw [etr]; exact ht) htc e
  unfold getActivation
  rw [M.bind_ok hb0, if_neg (by rw [w7']; omega), M.bind_ok hr0, M.bind_ok hr1, M.bind_ok (train_ok ht), M.bind_ok hr2,
    M.bind_ok hb, M.bind_ok hsum, w9]
  unfold ReLU Softmax
  have hpre : preActivation v.params data = GoFloat.add (List.foldl (fun acc x =>
      GoFloat.add acc (GoFloat.mul ((v.params.weights[x.Index.toNat]?).getD GoFloat.zero) x.Value)) GoFloat.zero data)
      v.params.bias := rfl
  rw [← hpre, w6]
  by_cases h0 : v.params.nodeType = 0
  · rw [if_pos h0]
    by_cases hlt : GoFloat.lt (preActivation v.params data) GoFloat.zero = true
    · have hcl : Clamped v.params data = true := by unfold Clamped; simp [h0, hlt]
      rw [if_pos hlt, M.bind_ok (setTrain_run _ _ _)]
      refine ⟨n, trainHeap h2 q { t with activeinputIds := true, lastActivations := GoFloat.zero, lastDeltaforBPs := GoFloat.zero }, slot t, ?_, hvt, ?_⟩
      rotate_left
      · rw [if_pos hcl]
        have := key { t with activeinputIds := true, lastActivations := GoFloat.zero, lastDeltaforBPs := GoFloat.zero } htc
        have e : activation v.params data = GoFloat.zero := by unfold activation; rw [if_pos hcl]
        rw [e]; exact this
      · unfold activation; rw [if_pos hcl]; rfl
    · have hcl : Clamped v.params data = false := by unfold Clamped; simp [hlt]
      have e : activation v.params data = preActivation v.params data := by unfold activation; rw [if_neg (by simp [hcl])]
      rw [if_neg hlt, M.bind_ok (setTrain_run _ _ _)]
      refine ⟨n, trainHeap h2 q { t with activeinputIds := true, lastActivations := preActivation v.params data }, slot t, ?_, hvt, ?_⟩
      rotate_left
      · rw [if_neg (by simp [hcl]), e]
        exact key { t with activeinputIds := true, lastActivations := preActivation v.params data } htc
      · rw [e]; rfl
  · have h1 : v.params.nodeType = 1 := by omega
    have hcl : Clamped v.params data = false := by unfold Clamped; simp [h0]
    have e : activation v.params data = preActivation v.params data := by unfold activation; rw [if_neg (by simp [hcl])]
    rw [if_neg h0, if_pos h1, M.bind_ok (setTrain_run _ _ _)]
    refine ⟨n, trainHeap h2 q { t with activeinputIds := true, lastActivations := preActivation v.params data }, slot t, ?_, hvt, ?_⟩
    rotate_left
    · rw [if_neg (by simp [hcl]), e]
      exact key { t with activeinputIds := true, lastActivations := preActivation v.params data } htc
    · rw [e]; rfl

/-- `GetActivation` outside its range. -/
theorem getActivation_panics {h : Heap F} {p : Ptr} {v : View F} (hv : Handle h p v) (c : Int) (data : List (Pair F))
    (i : Int) (hbad : ¬ (0 ≤ i ∧ i < v.params.batch) ∨ ¬ InRange v.params data ∨
      (v.params.nodeType ≠ 0 ∧ v.params.nodeType ≠ 1)) :
    ∃ e, getActivation p c data i h = .error e := by
  have hlen := hv.batch
  obtain ⟨b0, hb0, hP0⟩ := baseOf_run hv
  obtain ⟨-, -, -, -, -, -, w7', -⟩ := baseParams_iff.mp hP0
  unfold getActivation
  rw [M.bind_ok hb0]
  by_cases hgt : i > b0.currentBatchsize
  · rw [if_pos hgt]; exact ⟨_, rfl⟩
  rw [if_neg hgt]
  obtain ⟨n, h0, hr0, hc0⟩ := cow_clone hv c
  rw [M.bind_ok hr0]
  by_cases hi : 0 ≤ i ∧ i < v.train.length
  · obtain ⟨k, rfl⟩ := Int.eq_ofNat_of_zero_le hi.1
    obtain ⟨q, h1, hr1, hc1, qs, t, hqs, hq, ht, htc, hvt⟩ := cow_train hv hc0 (i := k) (by omega)
    obtain ⟨h2, hr2, hc2, etr, esl⟩ := ownBaseUnless_run hv hc1 t.activeinputIds
    obtain ⟨b, hb, hP⟩ := baseOf_run (hc2.new v hv)
    obtain ⟨w1, -, -, -, -, w6, w7, -, w9, -⟩ := baseParams_iff.mp hP
    rw [M.bind_ok hr1, M.bind_ok (train_ok ht), M.bind_ok hr2, M.bind_ok hb]
    by_cases hd : InRange v.params data
    · have hsum := weightedSum_run w1 data GoFloat.zero hd
      rw [M.bind_ok hsum]
      have hty : v.params.nodeType ≠ 0 ∧ v.params.nodeType ≠ 1 := by
        rcases hbad with h | h | h
        · exact absurd ⟨hi.1, by omega⟩ h
        · exact absurd hd h
        · exact h
      rw [w6, if_neg (by unfold ReLU; exact hty.1), if_neg (by unfold Softmax; exact hty.2)]
      exact ⟨_, rfl⟩
    · exact ⟨_, M.bind_error (weightedSum_out w1 data GoFloat.zero hd)⟩
  · exact ⟨_, M.bind_error (ownTrain_out (hc0.new v hv) c hi)⟩

/-- `SetlastActivation` inside its range. -/
theorem setlastActivation_run {h : Heap F} {p : Ptr} {v : View F} (hv : Handle h p v) (c : Int) {i : Nat} {s : Slot F}
    (hs : v.train[i]? = some s) (x : F) :
    ∃ n h', setlastActivation p c i x h = .ok (n, h') ∧ SlotOp h h' p n c i v { s with act := x } := by
  obtain ⟨n, h0, hr0, hc0⟩ := cow_clone hv c
  obtain ⟨q, h1, hr1, hc1, qs, t, hqs, hq, ht, htc, hvt⟩ := cow_train hv hc0 (List.getElem?_eq_some_iff.mp hs).1
  rw [hs] at hvt; cases hvt
  refine ⟨n, _, ?_, cow_write hv hc1 hqs hq ht htc (t' := { t with lastActivations := x }) htc⟩
  unfold setlastActivation
  rw [M.bind_ok hr0, M.bind_ok hr1, M.bind_ok (train_ok ht)]
  rfl

/-- `IncrementDelta`. -/
theorem incrementDelta_run {h : Heap F} {p : Ptr} {v : View F} (hv : Handle h p v) (c : Int) {i : Nat} {s : Slot F}
    (hs : v.train[i]? = some s) (x : F) :
    (s.active = false → incrementDelta p c i x h = .error notActive) ∧
    (s.active = true → GoFloat.le s.act GoFloat.zero = true → incrementDelta p c i x h = .ok (p, h)) ∧
    (s.active = true → GoFloat.le s.act GoFloat.zero = false →
      ∃ n h', incrementDelta p c i x h = .ok (n, h') ∧ SlotOp h h' p n c i v { s with delta := GoFloat.add s.delta x }) := by
  have hlt := (List.getElem?_eq_some_iff.mp hs).1
  rcases trainOf_run hv i with ⟨t0, _, ht0, hr⟩ | ⟨h1, _⟩
  · rw [Int.toNat_natCast, hs] at ht0
    cases ht0
    unfold incrementDelta
    rw [M.bind_ok hr]
    refine ⟨fun ha => ?_, fun ha hle => ?_, fun ha hle => ?_⟩
    · change t0.activeinputIds = false at ha
      rw [if_pos (by simp [ha])]; rfl
    · change t0.activeinputIds = true at ha
      change GoFloat.le t0.lastActivations _ = true at hle
      rw [if_neg (by simp [ha]), if_pos hle]; rfl
    · change t0.activeinputIds = true at ha
      change GoFloat.le t0.lastActivations _ = false at hle
      rw [if_neg (by simp [ha]), if_neg (by simp [hle])]
      obtain ⟨n, h0, hr0, hc0⟩ := cow_clone hv c
      obtain ⟨q, h1, hr1, hc1, qs, t, hqs, hq, ht, htc, hvt⟩ := cow_train hv hc0 hlt
      rw [hs] at hvt
      have hst : slot t0 = slot t := by injection hvt
      rw [M.bind_ok hr0, M.bind_ok hr1, M.bind_ok (train_ok ht)]
      refine ⟨n, _, rfl, ?_⟩
      have := cow_write hv hc1 hqs hq ht htc
        (t' := { t with lastDeltaforBPs := GoFloat.add t.lastDeltaforBPs x }) htc
      rw [hst]; exact this
  · exact absurd ⟨by omega, by omega⟩ h1

theorem computeExta_run {h : Heap F} {p : Ptr} {v : View F} (hv : Handle h p v) (c : Int) (norm : F) {i : Nat}
    {s : Slot F} (hs : v.train[i]? = some s) (labels : List Int) :
    (s.active = false → computeExtaStatsForSoftMax p c norm i labels h = .error notActive) ∧
    (s.active = true → ∃ n h', computeExtaStatsForSoftMax p c norm i labels h = .ok (n, h') ∧
      SlotOp h h' p n c i v (softmaxSlot v.params norm labels s)) := by
  have hlt := (List.getElem?_eq_some_iff.mp hs).1
  rcases trainOf_run hv i with ⟨t0, _, ht0, hr⟩ | ⟨h1, _⟩
  · rw [Int.toNat_natCast, hs] at ht0
    cases ht0
    unfold computeExtaStatsForSoftMax
    rw [M.bind_ok hr]
    refine ⟨fun ha => ?_, fun ha => ?_⟩
    · change t0.activeinputIds = false at ha
      rw [if_pos (by simp [ha])]; rfl
    · change t0.activeinputIds = true at ha
      rw [if_neg (by simp [ha])]
      obtain ⟨n, h0, hr0, hc0⟩ := cow_clone hv c
      obtain ⟨q, h1, hr1, hc1, qs, t, hqs, hq, ht, htc, hvt⟩ := cow_train hv hc0 hlt
      obtain ⟨b, hb, hP⟩ := baseOf_run (hc1.new v hv)
      obtain ⟨-, -, -, -, -, w6, w7, w8, -⟩ := baseParams_iff.mp hP
      rw [hs] at hvt
      have hst : slot t0 = slot t := by injection hvt
      rw [M.bind_ok hr0, M.bind_ok hr1, M.bind_ok (train_ok ht), M.bind_ok hb]
      refine ⟨n, _, rfl, ?_⟩
      have := cow_write hv hc1 hqs hq ht htc (t' := { t with
        lastActivations := (softmaxSlot v.params norm labels (slot t)).act
        lastDeltaforBPs := (softmaxSlot v.params norm labels (slot t)).delta }) htc
      rw [hst, w7, w8]; exact this
  · exact absurd ⟨by omega, by omega⟩ h1

end Goslide.Node
