import Verif.Proofs.GradExample
import Verif.Spec.Loss
import Mathlib.Analysis.SpecialFunctions.Log.Deriv
import Mathlib.Analysis.SpecialFunctions.ExpDeriv
/-
Over the real numbers the deltas are derivatives.
-/
set_option linter.unusedSectionVars false
namespace Goslide.Network
open Goslide Node Spec.Node Spec.Network

/-! ### Sums -/

theorem foldl_sum {α : Type} (f : α → ℝ) (l : List α) (x : ℝ) : l.foldl (fun acc a => GoFloat.add acc (f a)) x = x + (l.map f).sum := by
  induction l generalizing x with
  | nil => simp
  | cons a l ih =>
    rw [List.foldl_cons, ih, List.map_cons, List.sum_cons]
    show (x + f a) + _ = _
    ring

theorem zero_real : (GoFloat.zero : ℝ) = 0 := by
  show ((0 : ℚ) : ℝ) = 0
  simp

theorem sum_real (l : List ℝ) : Spec.Network.sum l = l.sum := by
  unfold Spec.Network.sum
  have := foldl_sum (fun a => a) l GoFloat.zero
  rw [List.map_id', zero_real, zero_add] at this
  rw [zero_real]
  exact this

/-- The pre-activation as a sum. -/
theorem pre_sum (P : Params ℝ) (data : List (Pair ℝ)) :
    preActivation P data = (data.map (fun x => (P.weights[x.Index.toNat]?).getD 0 * x.Value)).sum + P.bias := by
  unfold preActivation
  have := foldl_sum (fun x : Pair ℝ => (P.weights[x.Index.toNat]?).getD 0 * x.Value) data GoFloat.zero
  rw [zero_real, zero_add] at this
  rw [← this, zero_real]
  rfl

theorem sum_swap {α β : Type} (f : α → β → ℝ) (l : List α) (l' : List β) :
    (l.map (fun a => (l'.map (f a)).sum)).sum = (l'.map (fun b => (l.map (fun a => f a b)).sum)).sum := by
  induction l with
  | nil => simp
  | cons a l ih => simp only [List.map_cons, List.sum_cons, List.sum_map_add, ih]

theorem deriv_sum {α : Type} (l : List α) (f : α → ℝ → ℝ) (f' : α → ℝ) (x : ℝ) (h : ∀ a ∈ l, HasDerivAt (f a) (f' a) x) :
    HasDerivAt (fun u => (l.map (fun a => f a u)).sum) ((l.map f').sum) x := by
  induction l with
  | nil => simpa using hasDerivAt_const x (0 : ℝ)
  | cons a l ih =>
    simp only [List.map_cons, List.sum_cons]
    exact (h a (by simp)).add (ih (fun b hb => h b (by simp [hb])))

/-! ### ReLU -/

theorem deriv_relu {z : ℝ → ℝ} {z' x : ℝ} (h : HasDerivAt z z' x) (h0 : z x ≠ 0) :
    HasDerivAt (fun u => if z u < 0 then 0 else z u) (if z x < 0 then 0 else z') x := by
  rcases lt_or_gt_of_ne h0 with hn | hp
  · rw [if_pos hn]
    refine (hasDerivAt_const x (0 : ℝ)).congr_of_eventuallyEq ?_
    filter_upwards [h.continuousAt.eventually_lt continuousAt_const hn] with u hu
    rw [if_pos hu]
  · rw [if_neg (not_lt.mpr hp.le)]
    refine h.congr_of_eventuallyEq ?_
    filter_upwards [continuousAt_const.eventually_lt h.continuousAt hp] with u hu
    rw [if_neg (not_lt.mpr hu.le)]

theorem activation_relu {P : Params ℝ} (h : P.nodeType = 0) (data : List (Pair ℝ)) :
    activation P data = if preActivation P data < 0 then 0 else preActivation P data := by
  unfold activation Clamped
  rw [zero_real, h]
  simp [GoFloat.lt]

theorem activation_soft {P : Params ℝ} (h : P.nodeType = 1) (data : List (Pair ℝ)) : activation P data = preActivation P data := by
  unfold activation Clamped
  simp [h]

/-! ### The last layer -/

theorem deriv_score (b m : ℝ) (labels ids : List Int) (z : Int → ℝ → ℝ) (z' : Int → ℝ) (x : ℝ) (h : ∀ id ∈ ids, HasDerivAt (z id) (z' id) x) :
    HasDerivAt (fun u => score b m labels ids (fun id => z id u))
      ((ids.map (fun id => ((if id ∈ labels then 1 / (labels.length : ℝ) else 0)
        - Real.exp (z id x - m) / ((ids.map (fun id => Real.exp (z id x - m))).sum + 1 / 10000000) / b) * z' id)).sum) x := by
  unfold score
  have h1 := (deriv_sum (ids.filter (fun id => id ∈ labels)) z z' x (fun a ha => h a (List.mem_filter.mp ha).1)).div_const (labels.length : ℝ)
  have h2 := deriv_sum ids (fun id u => Real.exp (z id u - m)) (fun id => Real.exp (z id x - m) * z' id) x
    (fun a ha => ((h a ha).sub_const m).exp)
  have hpos : 0 < (ids.map (fun id => Real.exp (z id x - m))).sum + 1 / 10000000 := by
    have : 0 ≤ (ids.map (fun id => Real.exp (z id x - m))).sum := List.sum_nonneg (by
      intro y hy
      obtain ⟨a, -, rfl⟩ := List.mem_map.mp hy
      exact (Real.exp_pos _).le)
    linarith
  have h3 := ((h2.add_const (1 / 10000000 : ℝ)).log hpos.ne').div_const b
  refine (h1.sub h3).congr_deriv ?_
  generalize (ids.map (fun id => Real.exp (z id x - m))).sum + 1 / 10000000 = N
  clear h1 h2 h3 hpos h
  induction ids with
  | nil => simp
  | cons a l ih =>
    simp only [List.map_cons, List.sum_cons, ← ih]
    by_cases ha : a ∈ labels
    · simp only [List.filter_cons, ha, decide_true, if_true, List.map_cons, List.sum_cons]
      ring
    · simp only [List.filter_cons, ha, decide_false, if_false, Bool.false_eq_true]
      ring

/-! ### All layers -/

/-- Which layers are softmax layers: the last one. -/
def flags {α : Type} : List α → List Bool
  | [] => []
  | _ :: L => L.isEmpty :: flags L

/-- The active nodes of a layer are distinct nodes of the right type, and know their index and the batch size `b`. -/
structure NodesOk (b : ℝ) (last : Bool) (vs : List (View ℝ)) (ids : List Int) : Prop where
  nodup : ids.Nodup
  node : ∀ id ∈ ids, 0 ≤ id ∧ ∃ v, vs[id.toNat]? = some v ∧ v.params.nodeType = (if last then 1 else 0) ∧ v.params.id = id ∧
    (v.params.batch : ℝ) = b

/-- The same for all layers. -/
def NetOk (b : ℝ) : List (List (View ℝ)) → List (List Int) → Prop
  | [], [] => True
  | vs :: L, ids :: S => NodesOk b L.isEmpty vs ids ∧ NetOk b L S
  | _, _ => False

theorem normOf_cons (out : List (Pair ℝ)) (acts : List (List (Pair ℝ))) (h : acts ≠ []) : normOf (out :: acts) = normOf acts := by
  unfold normOf
  rw [List.getLast?_cons, List.getLast?_eq_getLast_of_ne_nil h]
  rfl

theorem outputs_hidden (vs : List (View ℝ)) (data : List (Pair ℝ)) (ids : List Int) :
    outputs false vs data ids = ids.map (fun id => { Index := id, Value := valueOf vs data id }) := by
  unfold outputs outputOf
  simp

theorem valueAt_outputs (s : Bool) {b : ℝ} {last : Bool} {vs : List (View ℝ)} {ids : List Int} (h : NodesOk b last vs ids) (data : List (Pair ℝ)) {id : Int} (hi : id ∈ ids) :
    valueAt (outputs s vs data ids) id.toNat = outputOf s vs data ids id := by
  refine valueAt_of (pr := { Index := id, Value := outputOf s vs data ids id }) ?_ ?_
  · rw [at'_outputs]
    exact toNat_nodup h.nodup (fun id hi => (h.node id hi).1)
  · exact List.mem_map.mpr ⟨id, hi, rfl⟩

/-- The deltas of the first of the layers `first x :: L` are the derivatives of the score with respect to its values: if these
change like `z`, the score changes with the sum of delta times derivative of `z`. -/
theorem deriv_layers (b m norm : ℝ) (labels : List Int) (x : ℝ) : ∀ (L : List (List (View ℝ))) (ids : List Int) (S : List (List Int))
    (first : ℝ → List (View ℝ)) (data : ℝ → List (Pair ℝ)) (z : Int → ℝ → ℝ) (z' : Int → ℝ)
    (_ : ∀ id ∈ ids, HasDerivAt (z id) (z' id) x)
    (_ : ∀ u, NodesOk b L.isEmpty (first u) ids)
    (_ : ∀ u, ∀ id ∈ ids, ∀ v, (first u)[id.toNat]? = some v → preActivation v.params (data u) = z id u)
    (_ : NetOk b L S)
    (_ : Smooth (first x :: L) (data x) (ids :: S))
    (_ : m = topMax (first x :: L) (data x) (ids :: S))
    (_ : norm = normOf (evaluate ((flags (first x :: L)).zip (first x :: L)) (data x) (ids :: S))),
    ∃ D Ds, deltas labels norm ((first x :: L).zip (evaluate ((flags (first x :: L)).zip (first x :: L)) (data x) (ids :: S))) = D :: Ds ∧
      HasDerivAt (fun u => objective b m labels (first u :: L) (data u) (ids :: S)) ((ids.map (fun id => D id.toNat * z' id)).sum) x
  | [], ids, S, first, data, z, z', hz, hf, hv, hN, hs, hm, hnorm => by
    have hval : ∀ u, ∀ id ∈ ids, valueOf (first u) (data u) id = z id u := by
      intro u id hi
      obtain ⟨-, v, h1, h2, -⟩ := (hf u).node id hi
      unfold valueOf
      rw [h1]
      show activation v.params (data u) = _
      rw [activation_soft (by simpa using h2)]
      exact hv u id hi v h1
    have hm' : m = maxValue (first x) (data x) ids := hm
    have hout : ∀ id ∈ ids, outputOf true (first x) (data x) ids id = Real.exp (z id x - m) := by
      intro id hi
      unfold outputOf
      rw [if_pos rfl, hval x id hi, ← hm']
      rfl
    have hn : norm = (ids.map (fun id => Real.exp (z id x - m))).sum := by
      rw [hnorm]
      show normOf [outputs true (first x) (data x) ids] = _
      unfold normOf
      rw [sum_real]
      show ((outputs true (first x) (data x) ids).map Pair.Value).sum = _
      unfold outputs
      rw [List.map_map]
      refine congrArg List.sum (List.map_congr_left fun id hi => ?_)
      exact hout id hi
    refine ⟨_, _, rfl, ?_⟩
    have h := deriv_score b m labels ids z z' x hz
    refine (h.congr_deriv ?_).congr_of_eventuallyEq (Filter.Eventually.of_forall fun u => ?_)
    · refine congrArg List.sum (List.map_congr_left fun id hi => ?_)
      congr 1
      obtain ⟨h0, v, h1, -, h2, h3⟩ := (hf x).node id hi
      rw [h1]
      show _ = outDelta v.params labels norm (valueAt (outputs true (first x) (data x) ids) id.toNat)
      rw [valueAt_outputs true (hf x) _ hi, hout id hi, ← hn]
      unfold outDelta
      rw [h2]
      have hc : (GoFloat.const (1 / 10000000) : ℝ) = 1 / 10000000 := by
        show ((1 / 10000000 : ℚ) : ℝ) = _
        norm_num
      have ho : (GoFloat.one : ℝ) = 1 := by
        show ((1 : ℚ) : ℝ) = 1
        norm_num
      have hi' : ∀ k : Int, (GoFloat.ofInt k : ℝ) = (k : ℝ) := fun k => by
        show (((k : ℚ)) : ℝ) = k
        norm_num
      rw [hc, ho, hi', hi', h3]
      by_cases hl : id ∈ labels
      · rw [if_pos hl, if_pos hl]
        simp [GoFloat.sub, GoFloat.div, GoFloat.add]
      · rw [if_neg hl, if_neg hl]
        show _ = (- (_ / (_ + _))) / b
        ring
    · show score b m labels ids (valueOf (first u) (data u)) = _
      unfold score
      have e : ∀ l : List Int, (∀ id ∈ l, id ∈ ids) → ∀ g : ℝ → ℝ, (l.map (fun id => g (valueOf (first u) (data u) id))) = l.map (fun id => g (z id u)) :=
        fun l hl g => List.map_congr_left fun id hi => by rw [hval u id (hl id hi)]
      have e1 := e (ids.filter (fun id => id ∈ labels)) (fun id hi => (List.mem_filter.mp hi).1) (fun y => y)
      have e2 := e ids (fun id hi => hi) (fun y => Real.exp (y - m))
      rw [e2, show (ids.filter (fun id => id ∈ labels)).map (valueOf (first u) (data u)) = _ from e1]
  | us :: L, ids, [], first, data, z, z', hz, hf, hv, hN, hs, hm, hnorm => hN.elim
  | us :: L, ids, ids' :: S, first, data, z, z', hz, hf, hv, hN, hs, hm, hnorm => by
    have hval : ∀ u, ∀ id ∈ ids, valueOf (first u) (data u) id = if z id u < 0 then 0 else z id u := by
      intro u id hi
      obtain ⟨-, v, h1, h2, -⟩ := (hf u).node id hi
      unfold valueOf
      rw [h1]
      show activation v.params (data u) = _
      rw [activation_relu (by simpa using h2), hv u id hi v h1]
    have hr : ∀ id ∈ ids, HasDerivAt (fun u => valueOf (first u) (data u) id) (if z id x < 0 then 0 else z' id) x := by
      intro id hi
      obtain ⟨-, v, h1, -⟩ := (hf x).node id hi
      refine (deriv_relu (hz id hi) ?_).congr_of_eventuallyEq (Filter.Eventually.of_forall fun u => hval u id hi)
      rw [← hv x id hi v h1]
      exact hs.1 id hi v h1
    obtain ⟨hok, hN'⟩ := hN
    -- the values of the next layer
    let zn : Int → ℝ → ℝ := fun k u => match us[k.toNat]? with
      | none => 0
      | some v => preActivation v.params (outputs false (first u) (data u) ids)
    obtain ⟨D1, Ds, hD, hder⟩ := deriv_layers b m norm labels x L ids' S (fun _ => us) (fun u => outputs false (first u) (data u) ids)
      zn (fun k => (ids.map (fun id => weightOf us k.toNat id.toNat * (if z id x < 0 then 0 else z' id))).sum)
      (fun k hk => by
        obtain ⟨-, v, h1, -⟩ := hok.node k hk
        have hw : ∀ q, weightOf us k.toNat q = (v.params.weights[q]?).getD 0 := by
          intro q
          unfold weightOf
          rw [h1, zero_real]
        have hzn : zn k = fun u => (ids.map (fun id => weightOf us k.toNat id.toNat * valueOf (first u) (data u) id)).sum + v.params.bias := by
          funext u
          show (match us[k.toNat]? with
            | none => 0
            | some v => preActivation v.params (outputs false (first u) (data u) ids)) = _
          rw [h1]
          dsimp only
          rw [pre_sum, outputs_hidden, List.map_map]
          congr 2
          refine List.map_congr_left fun id _ => ?_
          rw [hw]
          rfl
        rw [hzn]
        refine HasDerivAt.add_const _ (deriv_sum ids _ _ x fun id hi => ?_)
        exact (hr id hi).const_mul _)
      (fun _ => hok)
      (fun u k hk v h1 => by
        show _ = (match us[k.toNat]? with
            | none => 0
            | some v => preActivation v.params (outputs false (first u) (data u) ids))
        rw [h1])
      hN' hs.2 hm (by
        rw [hnorm]
        exact normOf_cons _ _ (by simp [evaluate, flags]))
    refine ⟨fun q => pulled us (outputs L.isEmpty us (outputs false (first x) (data x) ids) ids') D1 (valueAt (outputs false (first x) (data x) ids) q) q, D1 :: Ds, ?_, ?_⟩
    · have hD' : deltas labels norm ((us, outputs L.isEmpty us (outputs false (first x) (data x) ids) ids') :: L.zip (evaluate ((flags L).zip L)
          (outputs L.isEmpty us (outputs false (first x) (data x) ids) ids') S)) = D1 :: Ds := hD
      have key : ∀ (r : List (Nat → ℝ)) (out out' : List (Pair ℝ)), r = D1 :: Ds →
          ((fun q => pulled us out' ((r.head?).getD (fun _ => GoFloat.zero)) (valueAt out q) q) :: r) = (fun q => pulled us out' D1 (valueAt out q) q) :: D1 :: Ds := by
        rintro _ out out' rfl
        rfl
      exact key _ _ _ hD'
    · refine hder.congr_deriv ?_
      have e1 : (ids'.map (fun k => D1 k.toNat * (ids.map (fun id => weightOf us k.toNat id.toNat * (if z id x < 0 then 0 else z' id))).sum)).sum
          = (ids'.map (fun k => (ids.map (fun id => D1 k.toNat * (weightOf us k.toNat id.toNat * (if z id x < 0 then 0 else z' id)))).sum)).sum := by
        refine congrArg List.sum (List.map_congr_left fun k _ => ?_)
        rw [← List.sum_map_mul_left]
      rw [e1, sum_swap]
      refine congrArg List.sum (List.map_congr_left fun id hi => ?_)
      obtain ⟨h0, v, h1, -⟩ := (hf x).node id hi
      have hne : z id x ≠ 0 := by
        rw [← hv x id hi v h1]
        exact hs.1 id hi v h1
      have hva : valueAt (outputs false (first x) (data x) ids) id.toNat = if z id x < 0 then 0 else z id x := by
        rw [valueAt_outputs false (hf x) _ hi]
        exact hval x id hi
      unfold pulled
      beta_reduce
      rw [hva, zero_real]
      by_cases hneg : z id x < 0
      · rw [if_pos hneg, if_pos hneg, if_pos (by simp [GoFloat.le])]
        simp
      · rw [if_neg hneg, if_neg hneg, if_neg (by
          have : 0 < z id x := lt_of_le_of_ne (not_lt.mp hneg) (Ne.symm hne)
          simpa [GoFloat.le] using this)]
        have := foldl_sum (fun y : Pair ℝ => D1 y.Index.toNat * weightOf us y.Index.toNat id.toNat)
          (outputs L.isEmpty us (outputs false (first x) (data x) ids) ids') 0
        rw [zero_add] at this
        rw [show (outputs L.isEmpty us (outputs false (first x) (data x) ids) ids').foldl (fun acc y => GoFloat.add acc
          (GoFloat.mul (D1 y.Index.toNat) (weightOf us y.Index.toNat id.toNat))) 0 = _ from this]
        unfold outputs
        rw [List.map_map, ← List.sum_map_mul_right]
        refine congrArg List.sum (List.map_congr_left fun k _ => ?_)
        show _ = D1 k.toNat * weightOf us k.toNat id.toNat * z' id
        ring

end Goslide.Network
