import Verif.Proofs.GradReal
/-
The score and the log-likelihood of the labels.
-/
set_option linter.unusedSectionVars false
namespace Goslide.Network
open Goslide Node Spec.Node Spec.Network Xcrepo

theorem filter_sum {labels ids : List Int} (hl : labels.Nodup) (hi : ids.Nodup) (hs : ∀ y ∈ labels, y ∈ ids) (z : Int → ℝ) :
    ((ids.filter (fun id => id ∈ labels)).map z).sum = (labels.map z).sum := by
  refine List.Perm.sum_eq (List.Perm.map z ?_)
  refine (List.perm_ext_iff_of_nodup (hi.filter _) hl).mpr fun y => ?_
  rw [List.mem_filter, decide_eq_true_iff]
  exact ⟨fun h => h.2, fun h => ⟨hs y h, h⟩⟩

theorem norm_pos (m : ℝ) (ids : List Int) (z : Int → ℝ) : 0 < (ids.map (fun id => Real.exp (z id - m))).sum + 1 / 10000000 := by
  have : 0 ≤ (ids.map (fun id => Real.exp (z id - m))).sum := List.sum_nonneg (by
    intro y hy
    obtain ⟨a, -, rfl⟩ := List.mem_map.mp hy
    exact (Real.exp_pos _).le)
  linarith

theorem sum_const_sub (l : List Int) (z : Int → ℝ) (c : ℝ) : (l.map (fun y => z y - c)).sum = (l.map z).sum - l.length * c := by
  induction l with
  | nil => simp
  | cons a l ih =>
    simp only [List.map_cons, List.sum_cons, List.length_cons, ih]
    push_cast
    ring

theorem meanLog_eq (m : ℝ) {labels : List Int} (hn : labels ≠ []) (ids : List Int) (z : Int → ℝ) :
    meanLog m labels ids z = (labels.map z).sum / labels.length - m - Real.log ((ids.map (fun id => Real.exp (z id - m))).sum + 1 / 10000000) := by
  unfold meanLog prob
  have e : ∀ y, Real.log (Real.exp (z y - m) / ((ids.map (fun id => Real.exp (z id - m))).sum + 1 / 10000000)) =
      z y - (m + Real.log ((ids.map (fun id => Real.exp (z id - m))).sum + 1 / 10000000)) := by
    intro y
    rw [Real.log_div (Real.exp_ne_zero _) (norm_pos m ids z).ne', Real.log_exp]
    ring
  simp only [e]
  rw [sum_const_sub]
  have : (labels.length : ℝ) ≠ 0 := by
    have := List.length_pos_of_ne_nil hn
    positivity
  field_simp
  ring

/-- The score is the log-likelihood divided by the batch size, and a multiple of the mean value of the label nodes. -/
theorem score_excess (b m : ℝ) {labels ids : List Int} (hl : labels.Nodup) (hn : labels ≠ []) (hi : ids.Nodup) (hs : ∀ y ∈ labels, y ∈ ids) (z : Int → ℝ) :
    score b m labels ids z = meanLog m labels ids z / b + m / b + (1 - 1 / b) * ((labels.map z).sum / labels.length) := by
  rw [meanLog_eq m hn, score, filter_sum hl hi hs]
  ring

theorem objective_excess (b m : ℝ) {labels : List Int} (hl : labels.Nodup) (hn : labels ≠ []) : ∀ (V : List (List (View ℝ))) (data : List (Pair ℝ)) (S : List (List Int)),
    TopActive labels V S → objective b m labels V data S = likelihood m labels V data S / b + m / b + (1 - 1 / b) * labelMean labels V data S
  | [], _, _, h => h.elim
  | [_], _, [], h => h.elim
  | [_], _, _ :: _, h => score_excess b m hl hn h.1 h.2 _
  | _ :: _ :: _, _, [], h => h.elim
  | _ :: us :: L, _, _ :: S, h => objective_excess b m hl hn (us :: L) _ S h

theorem topActive_of {labels : List Int} : ∀ (V : List (List (View ℝ))) (S : List (List Int)), S.length = V.length → V ≠ [] →
    (∀ ids, S[V.length - 1]? = some ids → ids.Nodup ∧ ∀ y ∈ labels, y ∈ ids) → TopActive labels V S
  | [], _, _, h, _ => absurd rfl h
  | [_], [], h, _, _ => by simp at h
  | [_], ids :: S, _, _, h => h ids rfl
  | _ :: _ :: _, [], h, _, _ => by simp at h
  | vs :: us :: L, ids0 :: S, hl, _, h => topActive_of (us :: L) S (by simpa using hl) (by simp) (fun ids hi => h ids (by
      simpa using hi))

theorem topActive_congr {labels : List Int} : ∀ {V V' : List (List (View ℝ))} {S : List (List Int)}, V'.length = V.length → TopActive labels V S → TopActive labels V' S
  | [], _, _, _, h => h.elim
  | [_], _, [], _, h => h.elim
  | [_], [_], _ :: _, _, h => h
  | [_], [], _ :: _, h, _ => by simp at h
  | [_], _ :: _ :: _, _ :: _, h, _ => by simp at h
  | _ :: _ :: _, _, [], _, h => h.elim
  | _ :: _ :: _, [], _ :: _, h, _ => by simp at h
  | _ :: _ :: _, [_], _ :: _, h, _ => by simp at h
  | _ :: us :: L, _ :: us' :: L', _ :: S, hl, h => topActive_congr (V := us :: L) (V' := us' :: L') (S := S) (by simpa using hl) h

/-! ### Larger biases -/

theorem score_shift {b : ℝ} (hb : 1 ≤ b) (m : ℝ) {labels ids : List Int} (hl : labels.Nodup) (hn : labels ≠ []) (hi : ids.Nodup) (hs : ∀ y ∈ labels, y ∈ ids) (z : Int → ℝ) {u : ℝ} (hu : 0 ≤ u) :
    score b m labels ids z + (1 - 1 / b) * u ≤ score b m labels ids (fun id => z id + u) := by
  unfold score
  rw [filter_sum hl hi hs, filter_sum hl hi hs]
  have h1 : (labels.map (fun id => z id + u)).sum = (labels.map z).sum + labels.length * u := by
    have := sum_const_sub labels z (-u)
    simp only [sub_neg_eq_add] at this
    rw [this]
    ring
  have hlen : (labels.length : ℝ) ≠ 0 := by
    have := List.length_pos_of_ne_nil hn
    positivity
  have h2 : (ids.map (fun id => Real.exp (z id + u - m))).sum = Real.exp u * (ids.map (fun id => Real.exp (z id - m))).sum := by
    rw [← List.sum_map_mul_left]
    refine congrArg List.sum (List.map_congr_left fun id _ => ?_)
    rw [← Real.exp_add]
    congr 1
    ring
  have h3 : Real.log ((ids.map (fun id => Real.exp (z id + u - m))).sum + 1 / 10000000) ≤
      u + Real.log ((ids.map (fun id => Real.exp (z id - m))).sum + 1 / 10000000) := by
    rw [← Real.log_exp u, ← Real.log_mul (Real.exp_ne_zero _) (norm_pos m ids z).ne', Real.log_exp]
    refine Real.log_le_log (norm_pos m ids (fun id => z id + u)) ?_
    rw [h2]
    have : 1 ≤ Real.exp u := Real.one_le_exp hu
    nlinarith
  rw [h1, add_div, mul_div_cancel_left₀ u hlen]
  beta_reduce
  have hb0 : 0 < b := by linarith
  have h4 := div_le_div_of_nonneg_right h3 hb0.le
  rw [add_div] at h4
  have : (1 - 1 / b) * u = u - u / b := by ring
  linarith

theorem valueOf_shift {vs : List (View ℝ)} {id : Int} (h : ∃ v, vs[id.toNat]? = some v ∧ v.params.nodeType = 1) (data : List (Pair ℝ)) (u : ℝ) :
    valueOf (vs.map (fun v => { v with params := { v.params with bias := v.params.bias + u } })) data id = valueOf vs data id + u := by
  obtain ⟨v, h1, h2⟩ := h
  unfold valueOf
  rw [List.getElem?_map, h1]
  show activation _ data = activation v.params data + u
  rw [activation_soft h2, activation_soft (by exact h2), pre_sum, pre_sum]
  ring

theorem objective_shift {b : ℝ} (hb : 1 ≤ b) (m : ℝ) {labels : List Int} (hl : labels.Nodup) (hn : labels ≠ []) {u : ℝ} (hu : 0 ≤ u) :
    ∀ (V : List (List (View ℝ))) (data : List (Pair ℝ)) (S : List (List Int)), TopActive labels V S → TopSoft V S →
    objective b m labels V data S + (1 - 1 / b) * u ≤ objective b m labels (shiftLast u V) data S
  | [], _, _, h, _ => h.elim
  | [_], _, [], h, _ => h.elim
  | [vs], data, ids :: S, h, hs => by
    refine (score_shift hb m hl hn h.1 h.2 (valueOf vs data) hu).trans (le_of_eq ?_)
    show _ = score b m labels ids (valueOf (vs.map _) data)
    have e : ∀ id ∈ ids, valueOf (vs.map (fun v => { v with params := { v.params with bias := v.params.bias + u } })) data id = valueOf vs data id + u :=
      fun id hi => valueOf_shift (hs id hi) data u
    unfold score
    congr 2
    · refine congrArg List.sum (List.map_congr_left fun id hi => (e id (List.mem_filter.mp hi).1).symm)
    · congr 2
      refine congrArg List.sum (List.map_congr_left fun id hi => ?_)
      rw [e id hi]
  | _ :: _ :: _, _, [], h, _ => h.elim
  | vs :: us :: L, data, ids :: S, h, hs => by
    have := objective_shift hb m hl hn hu (us :: L) (outputs false vs data ids) S h hs
    show objective b m labels (us :: L) _ S + _ ≤ objective b m labels (vs :: shiftLast u (us :: L)) data (ids :: S)
    cases L <;> exact this

theorem meanLog_nonpos (m : ℝ) {labels ids : List Int} (hs : ∀ y ∈ labels, y ∈ ids) (z : Int → ℝ) : meanLog m labels ids z ≤ 0 := by
  unfold meanLog
  refine div_nonpos_of_nonpos_of_nonneg ?_ (by positivity)
  have : ∀ l : List Int, (∀ y ∈ l, y ∈ ids) → (l.map (fun y => Real.log (prob m ids z y))).sum ≤ 0 := by
    intro l
    induction l with
    | nil => simp
    | cons a l ih =>
      intro h
      rw [List.map_cons, List.sum_cons]
      have h1 := ih (fun y hy => h y (by simp [hy]))
      have h2 : Real.log (prob m ids z a) ≤ 0 := by
        refine Real.log_nonpos ?_ ?_
        · exact (div_pos (Real.exp_pos _) (norm_pos m ids z)).le
        · unfold prob
          rw [div_le_one (norm_pos m ids z)]
          have : Real.exp (z a - m) ≤ (ids.map (fun id => Real.exp (z id - m))).sum :=
            List.single_le_sum (by
              intro y hy
              obtain ⟨a, -, rfl⟩ := List.mem_map.mp hy
              exact (Real.exp_pos _).le) _ (List.mem_map.mpr ⟨a, h a (by simp), rfl⟩)
          linarith
      linarith
  exact this labels hs

theorem likelihood_nonpos (m : ℝ) {labels : List Int} : ∀ (V : List (List (View ℝ))) (data : List (Pair ℝ)) (S : List (List Int)),
    TopActive labels V S → likelihood m labels V data S ≤ 0
  | [], _, _, h => h.elim
  | [_], _, [], h => h.elim
  | [_], _, _ :: _, h => meanLog_nonpos m h.2 _
  | _ :: _ :: _, _, [], h => h.elim
  | _ :: us :: L, _, _ :: S, h => likelihood_nonpos m (us :: L) _ S h

end Goslide.Network
