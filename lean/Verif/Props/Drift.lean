import Verif.Spec.Drift
import Verif.Props.Node
/-
The biases of the first layer without Adam: C101.
-/
set_option linter.unusedSectionVars false
namespace Goslide.Props
open Goslide Goslide.Node Configuration Spec.Node

/-! ### C101 -/

/-- A node between two examples (without Adam): the training states are idle. -/
structure Rest (h : Heap Rat) (p : Ptr) (v : View Rat) : Prop where
  handle : Handle h p v
  inner : Inner h p
  idle : ∀ s ∈ v.train, s = idle
  ty : v.params.nodeType = 0 ∨ v.params.nodeType = 1

theorem pullAll_run (c : Int) (i : Nat) : ∀ (xs : List Rat) {h : Heap Rat} {p : Ptr} {v : View Rat} {s : Slot Rat},
    Handle h p v → Inner h p → v.train[i]? = some s → s.active = true →
    ∃ n h', pullAll c i xs p h = .ok (n, h') ∧ Inner h' n ∧
      Handle h' n { v with train := v.train.set i { s with delta := s.delta + (if s.act ≤ 0 then 0 else xs.sum) } }
  | [], h, p, v, s, hv, hin, hs, ha => by
    refine ⟨p, h, rfl, hin, ?_⟩
    have : v.train.set i { s with delta := s.delta + (if s.act ≤ 0 then 0 else [].sum) } = v.train := by
      rw [show s.delta + (if s.act ≤ 0 then 0 else ([] : List Rat).sum) = s.delta by simp only [List.sum_nil]; split <;> grind]
      obtain ⟨h1, rfl⟩ := List.getElem?_eq_some_iff.mp hs
      exact List.set_getElem_self h1
    rw [this]; exact hv
  | x :: xs, h, p, v, s, hv, hin, hs, ha => by
    have hlt := (List.getElem?_eq_some_iff.mp hs).1
    obtain ⟨-, r2, r3⟩ := incrementDelta_run hv c hs x
    unfold pullAll
    by_cases hle : s.act ≤ 0
    · rw [M.bind_ok (r2 ha (decide_eq_true hle))]
      obtain ⟨n, h', e, i', hv'⟩ := pullAll_run c i xs hv hin hs ha
      refine ⟨n, h', e, i', ?_⟩
      rw [if_pos hle] at hv' ⊢
      exact hv'
    · obtain ⟨n1, h1, e1, o1⟩ := r3 ha (decide_eq_false hle)
      rw [M.bind_ok e1]
      have hs1 : (v.train.set i { s with delta := s.delta + x })[i]? = some { s with delta := s.delta + x } :=
        List.getElem?_set_self hlt
      obtain ⟨n, h', e, i', hv'⟩ := pullAll_run c i xs o1.result (o1.inner hin) hs1 ha
      refine ⟨n, h', e, i', ?_⟩
      dsimp only at hv'
      rw [if_neg hle, List.set_set] at hv'
      rw [if_neg hle, List.sum_cons, show s.delta + (x + xs.sum) = s.delta + x + xs.sum by grind]
      exact hv'

theorem delta_cases (r : Round Rat) (w : List Rat) (b : Rat) : r.delta w b = 0 ∨ r.delta w b = r.pulls.sum := by
  unfold Round.delta; split
  · exact .inl rfl
  · exact .inr rfl

theorem moved_length (lr d : Rat) : ∀ (l : List (Pair Rat)) (w : List Rat), (moved lr d l w).length = w.length
  | [], _ => rfl
  | x :: l, w => (moved_length lr d l _).trans (by simp)

theorem moved_zero (lr : Rat) : ∀ (l : List (Pair Rat)) (w : List Rat), moved lr 0 l w = w
  | [], _ => rfl
  | x :: l, w => by
    unfold moved
    rw [show (fun y : Rat => y + lr * (0 * x.Value)) = id by funext y; simp only [id]; grind, List.modify_id]
    exact moved_zero lr l w

/-- The activation is not positive exactly if the pre-activation is not. -/
theorem activation_le (P : Params Rat) (r : Round Rat) :
    (if activation P r.data ≤ 0 then 0 else r.pulls.sum) = r.delta P.weights P.bias := by
  have hpre : preActivation P r.data = P.bias + (r.data.map (fun x => P.weights[x.Index.toNat]?.getD 0 * x.Value)).sum := by
    have key : ∀ (l : List (Pair Rat)) (acc : Rat), l.foldl (fun acc x =>
        GoFloat.add acc (GoFloat.mul ((P.weights[x.Index.toNat]?).getD GoFloat.zero) x.Value)) acc =
        acc + (l.map (fun x => P.weights[x.Index.toNat]?.getD 0 * x.Value)).sum := by
      intro l
      induction l with
      | nil => intro acc; simp only [List.foldl_nil, List.map_nil, List.sum_nil]; grind
      | cons x l ih =>
        intro acc
        rw [List.foldl_cons, ih, List.map_cons, List.sum_cons]
        show acc + P.weights[x.Index.toNat]?.getD 0 * x.Value + _ = _
        grind
    unfold preActivation
    rw [key]
    show 0 + _ + P.bias = _
    grind
  have hiff : activation P r.data ≤ 0 ↔ preActivation P r.data ≤ 0 := by
    unfold activation
    split
    · rename_i h
      unfold Clamped at h
      rw [Bool.and_eq_true] at h
      have := of_decide_eq_true h.2
      exact ⟨fun _ => Rat.le_of_lt this, fun _ => Rat.le_refl⟩
    · exact Iff.rfl
  unfold Round.delta
  rw [← hpre]
  by_cases h : preActivation P r.data ≤ 0
  · rw [if_pos h, if_pos (hiff.mpr h)]
  · rw [if_neg h, if_neg (fun h' => h (hiff.mp h'))]

theorem firstGrads_frame (lr d : Rat) : ∀ (l : List (Pair Rat)) (P : Params Rat),
    (firstGrads false lr d P l).bias = P.bias ∧ (firstGrads false lr d P l).mirrorBias = P.mirrorBias ∧
    (firstGrads false lr d P l).nodeType = P.nodeType ∧ (firstGrads false lr d P l).batch = P.batch ∧
    (firstGrads false lr d P l).weights = moved lr d l P.weights
  | [], P => ⟨rfl, rfl, rfl, rfl, rfl⟩
  | x :: l, P => by exact firstGrads_frame lr d l (addGrad false lr (GoFloat.mul d x.Value) x.Index.toNat P)

theorem sum_append_rat : ∀ (a b : List Rat), (a ++ b).sum = a.sum + b.sum
  | [], b => by simp only [List.nil_append, List.sum_nil]; grind
  | x :: a, b => by rw [List.cons_append, List.sum_cons, List.sum_cons, sum_append_rat a b]; grind

theorem sum_zero : ∀ {l : List Rat}, (∀ d ∈ l, d = 0) → l.sum = 0
  | [], _ => rfl
  | x :: l, h => by
    rw [List.sum_cons, h x (by simp), sum_zero (fun d hd => h d (by simp [hd]))]; grind

theorem sum_ge {D : Rat} : ∀ {l : List Rat}, (∀ d ∈ l, -D ≤ d) → -((l.length : Rat) * D) ≤ l.sum
  | [], _ => by simp
  | x :: l, h => by
    have h1 := h x (by simp)
    have h2 := sum_ge (l := l) (fun d hd => h d (by simp [hd]))
    rw [List.sum_cons, List.length_cons, show ((l.length + 1 : Nat) : Rat) = (l.length : Rat) + 1 by simp]
    grind

section
variable {cfg : Config Rat} (ha : cfg.UseAdam = false) (c : Int) (lr : Rat)
include ha

/-- One example. -/
theorem round_run {h : Heap Rat} {p : Ptr} {v : View Rat} (R : Rest h p v) {r : Round Rat} (hf : r.Fits v.params) :
    ∃ n h' v', r.run cfg c lr p h = .ok (n, h') ∧ Rest h' n v' ∧ v'.params.bias = v.params.bias ∧
      v'.params.mirrorBias = v.params.mirrorBias + (lr + r.delta v.params.weights v.params.bias) ∧ v'.params.batch = v.params.batch ∧
      v'.params.weights = moved lr (r.delta v.params.weights v.params.bias) r.data v.params.weights := by
  obtain ⟨n1, h1, s, e1, hs, o1⟩ := getActivation_run R.handle c r.data hf.1 hf.2 R.ty
  have hlt := (List.getElem?_eq_some_iff.mp hs).1
  have hsi := R.idle s (List.mem_of_getElem? hs)
  subst hsi
  obtain ⟨n2, h2, e2, i2, hv2⟩ := pullAll_run c r.i r.pulls o1.result (o1.inner R.inner) (List.getElem?_set_self hlt) rfl
  dsimp only at hv2
  rw [List.set_set] at hv2
  have hs2 := List.getElem?_set_self (l := v.train) (i := r.i)
    (a := ({ active := true, act := activation v.params r.data,
             delta := (if Clamped v.params r.data then GoFloat.zero else (Spec.Node.idle : Slot Rat).delta) +
               (if activation v.params r.data ≤ 0 then 0 else r.pulls.sum) } : Slot Rat)) hlt
  obtain ⟨n3, h3, e3, o3⟩ := backPropagateFirstLayer_run cfg hv2 i2 c hs2 rfl lr r.data
    (fun x hx => ⟨(hf.2 x hx).1, (hf.2 x hx).2, fun h => by rw [ha] at h; cases h⟩)
  have hd : (if Clamped v.params r.data then (GoFloat.zero : Rat) else (Spec.Node.idle : Slot Rat).delta) +
      (if activation v.params r.data ≤ 0 then 0 else r.pulls.sum) = r.delta v.params.weights v.params.bias := by
    rw [← activation_le]
    have : (if Clamped v.params r.data then (GoFloat.zero : Rat) else (Spec.Node.idle : Slot Rat).delta) = 0 := by
      split <;> rfl
    rw [this]; grind
  obtain ⟨f1, f2, f3, f4, f5⟩ := firstGrads_frame lr (r.delta v.params.weights v.params.bias) r.data v.params
  have o4 := o3.result
  have i4 := o3.inner i2
  dsimp only at o4
  rw [ha, hd] at o4
  refine ⟨n3, h3, _, ?_, ⟨o4, i4, ?_, ?_⟩, ?_, ?_, ?_, ?_⟩
  · unfold Round.run
    rw [M.bind_ok e1]
    dsimp only
    rw [M.bind_ok e2]
    exact e3
  · intro s hs
    change s ∈ (v.train.set r.i _).set r.i Spec.Node.idle at hs
    rw [List.set_set] at hs
    rcases List.mem_or_eq_of_mem_set hs with h | h
    · exact R.idle s h
    · exact h
  · exact f3 ▸ R.ty
  · exact f1
  · exact congrArg (· + (lr + r.delta v.params.weights v.params.bias)) f2
  · exact f4
  · exact f5

/-- What is true of the deltas of examples: one for each, zero or what the next layer sent. -/
def DeltasOf (rs : List (Round Rat)) (ds : List Rat) : Prop :=
  ds.length = rs.length ∧ ∀ (k : Nat) (r : Round Rat) (d : Rat), rs[k]? = some r → ds[k]? = some d → d = 0 ∨ d = r.pulls.sum

omit ha in
theorem deltasOf_cons {r : Round Rat} {rs : List (Round Rat)} {d : Rat} {ds : List Rat} (h : d = 0 ∨ d = r.pulls.sum) (hs : DeltasOf rs ds) :
    DeltasOf (r :: rs) (d :: ds) := by
  refine ⟨by simp [hs.1], ?_⟩
  intro k r' d' h1 h2
  cases k with
  | zero => cases h1; cases h2; exact h
  | succ k => exact hs.2 k r' d' h1 h2

omit ha in
theorem deltasOf_append {rs rs' : List (Round Rat)} {ds ds' : List Rat} (h : DeltasOf rs ds) (h' : DeltasOf rs' ds') : DeltasOf (rs ++ rs') (ds ++ ds') := by
  refine ⟨by simp [h.1, h'.1], ?_⟩
  intro k r d h1 h2
  by_cases hk : k < rs.length
  · rw [List.getElem?_append_left hk] at h1
    rw [List.getElem?_append_left (by rw [h.1]; exact hk)] at h2
    exact h.2 k r d h1 h2
  · rw [List.getElem?_append_right (by omega)] at h1
    rw [List.getElem?_append_right (by rw [h.1]; omega), h.1] at h2
    exact h'.2 _ r d h1 h2

omit ha in
theorem batchDeltas_of (b : Rat) : ∀ (rs : List (Round Rat)) (w : List Rat), DeltasOf rs (batchDeltas lr b rs w).1
  | [], _ => ⟨rfl, by simp [batchDeltas]⟩
  | r :: rs, w => deltasOf_cons (delta_cases r w b) (batchDeltas_of b rs _)

omit ha in
theorem deltas_of : ∀ (bs : List (List (Round Rat))) (w : List Rat) (b : Rat), DeltasOf bs.flatten (deltas lr bs w b).1
  | [], _, _ => ⟨rfl, by simp [deltas]⟩
  | B :: bs, w, b => deltasOf_append (batchDeltas_of lr b B w) (deltas_of bs _ _)

omit ha in
theorem batchDeltas_zero (b : Rat) : ∀ (rs : List (Round Rat)) (w : List Rat), (∀ r ∈ rs, r.pulls.sum = 0) →
    (batchDeltas lr b rs w).2 = w
  | [], _, _ => rfl
  | r :: rs, w, h => by
    have h0 : r.delta w b = 0 := (delta_cases r w b).elim id (fun e => e.trans (h r (by simp)))
    unfold batchDeltas
    rw [h0, moved_zero]
    exact batchDeltas_zero b rs w (fun r hr => h r (by simp [hr]))

omit ha in
theorem deltas_zero : ∀ (bs : List (List (Round Rat))) (w : List Rat) (b : Rat), (∀ r ∈ bs.flatten, r.pulls.sum = 0) →
    (deltas lr bs w b).2 = w
  | [], _, _, _ => rfl
  | B :: bs, w, b, h => by
    unfold deltas
    dsimp only
    rw [batchDeltas_zero lr b B w (fun r hr => h r (by simp [hr]))]
    exact deltas_zero bs w _ (fun r hr => h r (by rw [List.flatten_cons]; exact List.mem_append_right _ hr))

omit ha in
theorem fits_same {P P' : Params Rat} {r : Round Rat} (h : r.Fits P) (hb : P'.batch = P.batch) (hw : P'.weights.length = P.weights.length) : r.Fits P' :=
  ⟨hb ▸ h.1, fun x hx => ⟨(h.2 x hx).1, hw ▸ (h.2 x hx).2⟩⟩

/-- The examples of a batch. -/
theorem rounds_run : ∀ (rs : List (Round Rat)) {h : Heap Rat} {p : Ptr} {v : View Rat}, Rest h p v → (∀ r ∈ rs, r.Fits v.params) →
    ∃ n h' v', runRounds cfg c lr rs p h = .ok (n, h') ∧ Rest h' n v' ∧ v'.params.bias = v.params.bias ∧
      v'.params.mirrorBias = v.params.mirrorBias + (rs.length * lr + (batchDeltas lr v.params.bias rs v.params.weights).1.sum) ∧
      v'.params.batch = v.params.batch ∧ v'.params.weights.length = v.params.weights.length ∧
      v'.params.weights = (batchDeltas lr v.params.bias rs v.params.weights).2
  | [], h, p, v, R, _ => ⟨p, h, v, rfl, R, rfl, by simp only [batchDeltas, List.length_nil, List.sum_nil]; grind, rfl, rfl, rfl⟩
  | r :: rs, h, p, v, R, hf => by
    obtain ⟨n1, h1, v1, e1, R1, a1, a2, a3, a4⟩ := round_run ha c lr R (hf r (by simp))
    have a5 : v1.params.weights.length = v.params.weights.length := by rw [a4, moved_length]
    obtain ⟨n2, h2, v2, e2, R2, b1, b2, b3, b4, b5⟩ := rounds_run rs R1 (fun x hx => fits_same (hf x (by simp [hx])) a3 a5)
    rw [a1, a4] at b2 b5
    refine ⟨n2, h2, v2, ?_, R2, b1.trans a1, ?_, b3.trans a3, b4.trans a5, b5⟩
    · unfold runRounds; rw [M.bind_ok e1]; exact e2
    · rw [b2, a2, List.length_cons]
      conv => rhs; unfold batchDeltas
      dsimp only
      rw [List.sum_cons, show ((rs.length + 1 : Nat) : Rat) = (rs.length : Rat) + 1 by simp]
      grind

/-- C101. Without Adam, after any batches of examples, the bias of a node of the first layer has grown by the learning rate once
for every example, plus the plain sum of the deltas (not multiplied by the rate). The deltas and the weights are those of `deltas`. -/
theorem C101_drift : ∀ (bs : List (List (Round Rat))) {h : Heap Rat} {p : Ptr} {v : View Rat}, Rest h p v → v.params.mirrorBias = v.params.bias →
    (∀ r ∈ bs.flatten, r.Fits v.params) →
    ∃ n h' v', runBatches cfg c lr bs p h = .ok (n, h') ∧ Rest h' n v' ∧
      v'.params.bias = v.params.bias + (bs.flatten.length * lr + (deltas lr bs v.params.weights v.params.bias).1.sum) ∧
      v'.params.mirrorBias = v'.params.bias ∧ v'.params.weights = (deltas lr bs v.params.weights v.params.bias).2
  | [], h, p, v, R, hm, _ => ⟨p, h, v, rfl, R, by simp only [deltas, List.flatten_nil, List.length_nil, List.sum_nil]; grind, hm, rfl⟩
  | B :: bs, h, p, v, R, hm, hf => by
    obtain ⟨n1, h1, v1, e1, R1, a1, a2, a3, a4, a5⟩ := rounds_run ha c lr B R (fun r hr => hf r (by simp [hr]))
    obtain ⟨n2, h2, e2, o2, -⟩ := copyWeights_run R1.handle R1.inner c
    have R2 : Rest h2 n2 { v1 with params := { v1.params with bias := v1.params.mirrorBias } } := ⟨o2.result, o2.inner R1.inner, R1.idle, R1.ty⟩
    obtain ⟨n3, h3, v3, e3, R3, b1, b2, b3⟩ := C101_drift bs R2 rfl (fun r hr => by
      refine fits_same (P := v.params) (hf r ?_) a3 a4
      rw [List.flatten_cons]; exact List.mem_append_right _ hr)
    dsimp only at b1 b3
    rw [a2, hm, a5] at b1 b3
    refine ⟨n3, h3, v3, ?_, R3, ?_, b2, b3⟩
    · unfold runBatches; rw [M.bind_ok e1, M.bind_ok e2]; exact e3
    · rw [b1, List.flatten_cons, List.length_append]
      conv => rhs; unfold deltas
      dsimp only
      rw [sum_append_rat]
      rw [show ((B.length + bs.flatten.length : Nat) : Rat) = (B.length : Rat) + (bs.flatten.length : Rat) by simp]
      grind

/-- C101. A node that gets no gradient at all: the weights stay, and the bias still grows by the rate for every example. So
there is no equilibrium: for a positive rate the bias is larger after every batch that is not empty. -/
theorem C101_no_gradient (bs : List (List (Round Rat))) {h : Heap Rat} {p : Ptr} {v : View Rat} (R : Rest h p v)
    (hm : v.params.mirrorBias = v.params.bias) (hf : ∀ r ∈ bs.flatten, r.Fits v.params) (h0 : ∀ r ∈ bs.flatten, r.pulls.sum = 0) :
    ∃ n h' v', runBatches cfg c lr bs p h = .ok (n, h') ∧ view h' n = some v' ∧ v'.params.weights = v.params.weights ∧
      v'.params.bias = v.params.bias + bs.flatten.length * lr ∧ (0 < lr → bs.flatten ≠ [] → v.params.bias < v'.params.bias) := by
  obtain ⟨n, h', v', e, R', b1, -, b3⟩ := C101_drift ha c lr bs R hm hf
  have D := deltas_of lr bs v.params.weights v.params.bias
  have z : ∀ d ∈ (deltas lr bs v.params.weights v.params.bias).1, d = 0 := by
    intro d hd
    obtain ⟨k, hk⟩ := List.mem_iff_getElem?.mp hd
    have hlt : k < bs.flatten.length := D.1 ▸ (List.getElem?_eq_some_iff.mp hk).1
    rcases D.2 k _ d (List.getElem?_eq_getElem hlt) hk with h | h
    · exact h
    · rw [h]; exact h0 _ (List.getElem_mem hlt)
  have hb : v'.params.bias = v.params.bias + bs.flatten.length * lr := by rw [b1, sum_zero z]; grind
  refine ⟨n, h', v', e, R'.handle.view, b3.trans (deltas_zero lr bs _ _ h0), hb, ?_⟩
  intro hlr hne
  have hpos : (0 : Rat) < (bs.flatten.length : Rat) := by
    exact_mod_cast List.length_pos_iff.mpr hne
  have := Rat.mul_pos hpos hlr
  grind

/-- C101. The drift wins against deltas below the rate: if all sums of deltas are at least `-D`, the bias grows by at least
`lr - D` per example, so it exceeds every bound. -/
theorem C101_unbounded (bs : List (List (Round Rat))) {h : Heap Rat} {p : Ptr} {v : View Rat} (R : Rest h p v)
    (hm : v.params.mirrorBias = v.params.bias) (hf : ∀ r ∈ bs.flatten, r.Fits v.params) {D : Rat} (hD0 : 0 ≤ D)
    (hD : ∀ r ∈ bs.flatten, -D ≤ r.pulls.sum) :
    ∃ n h' v', runBatches cfg c lr bs p h = .ok (n, h') ∧ view h' n = some v' ∧
      v.params.bias + bs.flatten.length * (lr - D) ≤ v'.params.bias := by
  obtain ⟨n, h', v', e, R', b1, -, -⟩ := C101_drift ha c lr bs R hm hf
  have DD := deltas_of lr bs v.params.weights v.params.bias
  have z : ∀ d ∈ (deltas lr bs v.params.weights v.params.bias).1, -D ≤ d := by
    intro d hd
    obtain ⟨k, hk⟩ := List.mem_iff_getElem?.mp hd
    have hlt : k < bs.flatten.length := DD.1 ▸ (List.getElem?_eq_some_iff.mp hk).1
    rcases DD.2 k _ d (List.getElem?_eq_getElem hlt) hk with h | h
    · rw [h]; grind
    · rw [h]; exact hD _ (List.getElem_mem hlt)
  have zs : -((bs.flatten.length : Rat) * D) ≤ (deltas lr bs v.params.weights v.params.bias).1.sum := by
    rw [← DD.1]; exact sum_ge z
  refine ⟨n, h', v', e, R'.handle.view, ?_⟩
  rw [b1]
  grind

end

/-- C101. In the other layers a zero delta leaves the node alone. -/
theorem C101_other_layers {cfg : Config Rat} (ha : cfg.UseAdam = false) {h : Heap Rat} {p : Ptr} {ps : List Ptr} {v : View Rat}
    {vs : List (View Rat)} (g : Group h (p :: ps) (v :: vs)) {prevS : Slice} (hprev : readSlice h.nodeArrs prevS = some ps)
    (c : Int) {i : Nat} {s : Slot Rat} (hs : v.train[i]? = some s) (hact : s.active = true) (h0 : s.delta = 0) (lr : Rat) (pairs : List (Pair Rat))
    (hnd : (pairs.map (·.Index.toNat)).Nodup) (hready : Ready false v.params vs i pairs) :
    ∃ n h' v', backPropagate cfg p c prevS pairs lr i h = .ok (n, h') ∧ view h' n = some v' ∧
      v'.params.weights = v.params.weights ∧ v'.params.bias = v.params.bias ∧ v'.params.mirrorBias = v.params.mirrorBias := by
  obtain ⟨n, h', v', e, hv, w, b, m, -⟩ := C49_sgd_partial cfg ha g hprev c hs hact lr pairs hnd hready
  refine ⟨n, h', v', e, hv.view, ?_, b, ?_⟩
  · apply List.ext_getElem?
    intro k
    rw [w k, h0]
    cases v.params.weights[k]? with
    | none => rfl
    | some y =>
      show some (if listed pairs k then y + lr * (0 * lastAct vs k i) else y) = some y
      split
      · congr 1; grind
      · rfl
  · rw [m, h0]
    show v.params.mirrorBias + lr * 0 = v.params.mirrorBias
    grind

/-! An example. -/

/-- Node 0 with weight 1 and bias 1, without Adam; batches of two examples. -/
def DriftEx.setup : List (Int × Call Rat) :=
  [(0, .makeVec [1]), (0, .new 0 0 0 2 ⟨0, 0, 1⟩ 1 nilSlice nilSlice)]

/-- What is seen through it. -/
def DriftEx.v : View Rat :=
  { params := { nodeType := 0, batch := 2, id := 0, weights := [1], mirrorWeights := [1], mom := [], vel := [], t := [], bias := 1, mirrorBias := 1, tBias := 0, momBias := 0, velBias := 0 },
    train := [idle, idle] }

theorem DriftEx.parts : Parts (NodeEx.after false DriftEx.setup) 0 DriftEx.v ⟨0, 0, ⟨0, 0, 2⟩⟩
    { emptyBase 0 with nodeType := 0, currentBatchsize := 2, idInLayer := 0, weights := ⟨0, 0, 1⟩, mirrorWeights := ⟨0, 0, 1⟩, bias := 1, mirrorBias := 1 }
    [0, 1] := by
  refine ⟨?_, ?_, ?_, ?_, ?_, ?_, ?_⟩ <;> decide +kernel

/-- The hypotheses of the theorems hold for it. -/
theorem DriftEx.rest : Rest (NodeEx.after false DriftEx.setup) 0 DriftEx.v := by
  refine ⟨DriftEx.parts.handle, ?_, by decide +kernel, .inl rfl⟩
  intro n b hn hb
  rw [DriftEx.parts.node] at hn; cases hn
  rw [DriftEx.parts.base] at hb; cases hb
  refine ⟨rfl, ?_, ?_, ?_, ?_, ?_, ?_⟩ <;> decide +kernel

/-- Two batches, the first with two examples. -/
def DriftEx.batches (x : Rat) : List (List (Round Rat)) := [[⟨0, [⟨0, 3⟩], [x]⟩, ⟨1, [⟨0, -5⟩], [x, x]⟩], [⟨0, [⟨0, 1⟩], []⟩]]

example : ∀ r ∈ (DriftEx.batches 0).flatten, r.Fits DriftEx.v.params := by
  intro r hr
  simp only [DriftEx.batches, List.flatten_cons, List.flatten_nil, List.cons_append, List.nil_append, List.mem_cons, List.not_mem_nil, or_false] at hr
  rcases hr with rfl | rfl | rfl <;> refine ⟨by decide, ?_⟩ <;> intro x hx <;> cases List.mem_singleton.mp hx <;> decide

/-- Without gradients the bias goes from 1 to 1 + 3 · 1/2 and the weight stays. -/
example : ((runBatches (NodeEx.cfg false) 0 (1 / 2) (DriftEx.batches 0) 0 (NodeEx.after false DriftEx.setup)).toOption.bind
    (fun r => (view r.2 r.1).map (fun v => (v.params.weights, v.params.bias)))) = some ([1], 5 / 2) := by decide +kernel

/-- Deltas of -1/4: the first example counts (activation 4), the second does not (activation -4, clamped). A correct step would
have moved the bias to 1 - 1/8; it goes to 1 + 3 · 1/2 - 1/4. -/
example : ((runBatches (NodeEx.cfg false) 0 (1 / 2) (DriftEx.batches (-1 / 4)) 0 (NodeEx.after false DriftEx.setup)).toOption.bind
    (fun r => (view r.2 r.1).map (fun v => (v.params.weights, v.params.bias)))) = some ([5 / 8], 9 / 4) := by decide +kernel

end Goslide.Props
