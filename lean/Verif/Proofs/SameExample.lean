import Verif.Proofs.GradReal
import Verif.Proofs.OrderStep
import Verif.Spec.SameExample
import Mathlib.Algebra.BigOperators.Group.Finset.Piecewise
/-
Passes over two forms of the same example.
-/
set_option linter.unusedSectionVars false
namespace Goslide.Network
open Goslide Node Lsh Configuration Spec.Node Spec.Network Layer Xcrepo

theorem featureValue_cons (x : Pair ℝ) (d : List (Pair ℝ)) (f : Int) : featureValue (x :: d) f = (if x.Index = f then x.Value else 0) + featureValue d f := by
  unfold featureValue
  rw [List.filter_cons]
  by_cases h : x.Index = f <;> simp [h]

theorem sum_features (g : Int → ℝ) : ∀ (d : List (Pair ℝ)) (s : Finset Int), (∀ x ∈ d, x.Index ∈ s) →
    (d.map (fun x => g x.Index * x.Value)).sum = ∑ f ∈ s, g f * featureValue d f
  | [], s, _ => by simp [featureValue]
  | x :: d, s, h => by
    rw [List.map_cons, List.sum_cons, sum_features g d s (fun y hy => h y (by simp [hy]))]
    simp only [featureValue_cons, mul_add, Finset.sum_add_distrib, mul_ite, mul_zero]
    rw [Finset.sum_ite_eq, if_pos (h x (by simp))]

/-- Sums over the features depend on the values of the features only. -/
theorem sum_same (g : Int → ℝ) {d d' : List (Pair ℝ)} (h : ∀ f, featureValue d f = featureValue d' f) :
    (d.map (fun x => g x.Index * x.Value)).sum = (d'.map (fun x => g x.Index * x.Value)).sum := by
  rw [sum_features g d ((d.map Pair.Index).toFinset ∪ (d'.map Pair.Index).toFinset) (fun x hx => by simp; exact .inl ⟨x, hx, rfl⟩),
    sum_features g d' ((d.map Pair.Index).toFinset ∪ (d'.map Pair.Index).toFinset) (fun x hx => by simp; exact .inr ⟨x, hx, rfl⟩)]
  exact Finset.sum_congr rfl (fun f _ => by rw [h f])

theorem pre_same (P : Params ℝ) {d d' : List (Pair ℝ)} (h : ∀ f, featureValue d f = featureValue d' f) : preActivation P d = preActivation P d' := by
  rw [pre_sum, pre_sum, sum_same (fun f => (P.weights[f.toNat]?).getD 0) h]

theorem fold_modify (c : ℝ) : ∀ (d : List (Pair ℝ)) (t : List ℝ), d.foldl (fun t x => t.modify x.Index.toNat (fun y => y + c * x.Value)) t =
    t.mapIdx (fun k y => y + (d.map (fun x => (if x.Index.toNat = k then c else 0) * x.Value)).sum)
  | [], t => by
    refine List.ext_getElem? (fun k => ?_)
    simp
  | x :: d, t => by
    rw [List.foldl_cons, fold_modify c d]
    refine List.ext_getElem? (fun k => ?_)
    rw [List.getElem?_mapIdx, List.getElem?_mapIdx, List.getElem?_modify]
    cases t[k]? with
    | none => rfl
    | some y =>
      by_cases h : x.Index.toNat = k
      · simp only [h, if_true, Option.map_eq_map, Option.map_some, List.map_cons, List.sum_cons]
        congr 1; ring
      · simp only [h, if_false, Option.map_eq_map, Option.map_some, List.map_cons, List.sum_cons]
        congr 1; simp

theorem fold_same (c : ℝ) {d d' : List (Pair ℝ)} (h : ∀ f, featureValue d f = featureValue d' f) (t : List ℝ) :
    d.foldl (fun t x => t.modify x.Index.toNat (fun y => y + c * x.Value)) t = d'.foldl (fun t x => t.modify x.Index.toNat (fun y => y + c * x.Value)) t := by
  rw [fold_modify, fold_modify]
  congr 1
  funext k y
  rw [sum_same (fun f => if f.toNat = k then c else 0) h]

theorem grads_adam (lr d : ℝ) : ∀ (l : List (Pair ℝ)) (P : Params ℝ),
    firstGrads true lr d P l = { P with t := l.foldl (fun t x => t.modify x.Index.toNat (fun y => y + d * x.Value)) P.t }
  | [], P => rfl
  | x :: l, P => by
    show firstGrads true lr d (addGrad true lr (GoFloat.mul d x.Value) x.Index.toNat P) l = _
    rw [grads_adam lr d l]
    rfl

theorem grads_sgd (lr d : ℝ) : ∀ (l : List (Pair ℝ)) (P : Params ℝ), l ≠ [] →
    firstGrads false lr d P l = { P with
      weights := l.foldl (fun t x => t.modify x.Index.toNat (fun y => y + lr * d * x.Value)) P.weights
      mirrorWeights := l.foldl (fun t x => t.modify x.Index.toNat (fun y => y + lr * d * x.Value)) P.weights }
  | [x], P, _ => by
    show addGrad false lr (GoFloat.mul d x.Value) x.Index.toNat P = _
    unfold addGrad
    simp [GoFloat.add, GoFloat.mul, mul_assoc]
  | x :: y :: l, P, _ => by
    show firstGrads false lr d (addGrad false lr (GoFloat.mul d x.Value) x.Index.toNat P) (y :: l) = _
    rw [grads_sgd lr d (y :: l) _ (by simp)]
    unfold addGrad
    simp [GoFloat.add, GoFloat.mul, mul_assoc]

/-- The mirror weights are the weights (node/node.go:217). -/
def Mirror (v : View ℝ) : Prop := v.params.mirrorWeights = v.params.weights

theorem grads_sgd' (lr d : ℝ) (l : List (Pair ℝ)) (P : Params ℝ) (hP : P.mirrorWeights = P.weights) : firstGrads false lr d P l = { P with
    weights := l.foldl (fun t x => t.modify x.Index.toNat (fun y => y + lr * d * x.Value)) P.weights
    mirrorWeights := l.foldl (fun t x => t.modify x.Index.toNat (fun y => y + lr * d * x.Value)) P.weights } := by
  by_cases hl : l = []
  · subst hl
    obtain ⟨⟩ := P
    dsimp only at hP
    subst hP
    rfl
  · exact grads_sgd lr d l P hl

theorem grads_same (adam : Bool) (lr d : ℝ) {l l' : List (Pair ℝ)} (h : ∀ f, featureValue l f = featureValue l' f) (P : Params ℝ) (hP : P.mirrorWeights = P.weights) :
    firstGrads adam lr d P l = firstGrads adam lr d P l' := by
  cases adam with
  | true => rw [grads_adam, grads_adam, fold_same d h]
  | false => rw [grads_sgd' lr d l P hP, grads_sgd' lr d l' P hP, fold_same (lr * d) h]

theorem mirror_grad (adam : Bool) (lr g : ℝ) (k : Nat) (P : Params ℝ) (h : P.mirrorWeights = P.weights) : (addGrad adam lr g k P).mirrorWeights = (addGrad adam lr g k P).weights := by
  unfold addGrad
  split
  · exact h
  · rfl

theorem mirror_bias (adam : Bool) (f : ℝ → ℝ → ℝ) (d : ℝ) (P : Params ℝ) (h : P.mirrorWeights = P.weights) : (biasGrad adam f d P).mirrorWeights = (biasGrad adam f d P).weights := by
  unfold biasGrad
  split <;> exact h

theorem mirror_first (adam : Bool) (lr d : ℝ) : ∀ (l : List (Pair ℝ)) (P : Params ℝ), P.mirrorWeights = P.weights →
    (firstGrads adam lr d P l).mirrorWeights = (firstGrads adam lr d P l).weights
  | [], _, h => h
  | x :: l, P, h => mirror_first adam lr d l (addGrad adam lr (GoFloat.mul d x.Value) x.Index.toNat P) (mirror_grad adam lr _ _ P h)

theorem all_modify {α : Type} {p : α → Prop} {f : α → α} (hf : ∀ x, p x → p (f x)) {l : List α} (h : ∀ x ∈ l, p x) (k : Nat) : ∀ x ∈ l.modify k f, p x := by
  intro x hx
  obtain ⟨i, hi⟩ := List.mem_iff_getElem?.mp hx
  rw [List.getElem?_modify] at hi
  cases hl : l[i]? with
  | none => rw [hl] at hi; cases hi
  | some y =>
    rw [hl] at hi
    have hy := h y (List.mem_of_getElem? hl)
    cases hi
    dsimp only
    split
    · exact hf y hy
    · exact hy

theorem all_set {α : Type} {p : α → Prop} {l : List α} (h : ∀ x ∈ l, p x) (k : Nat) {y : α} (hy : p y) : ∀ x ∈ l.set k y, p x := by
  intro x hx
  rcases List.mem_or_eq_of_mem_set hx with h1 | rfl
  · exact h x h1
  · exact hy

theorem mirror_fold (adam : Bool) (lr d : ℝ) (i : Nat) : ∀ (l : List (Pair ℝ)) (st : Params ℝ × List (View ℝ)), st.1.mirrorWeights = st.1.weights → (∀ v ∈ st.2, Mirror v) →
    (l.foldl (backStep adam lr d i) st).1.mirrorWeights = (l.foldl (backStep adam lr d i) st).1.weights ∧ ∀ v ∈ (l.foldl (backStep adam lr d i) st).2, Mirror v
  | [], _, h1, h2 => ⟨h1, h2⟩
  | _ :: l, st, h1, h2 => mirror_fold adam lr d i l _ (mirror_grad adam lr _ _ st.1 h1) (by
    unfold backStep
    dsimp only
    refine all_modify (p := Mirror) ?_ h2 _
    exact fun _ h => h)

theorem mirror_soft (i : Nat) (soft : Option (ℝ × List Int)) {v : View ℝ} (h : Mirror v) : Mirror (softView i soft v) := by
  unfold softView
  split <;> exact h

theorem mirror_back (adam : Bool) (lr : ℝ) (i : Nat) (soft : Option (ℝ × List Int)) (first : Bool) (inputs : List (Pair ℝ)) {v : View ℝ} {us : List (View ℝ)} (h : Mirror v)
    (hu : ∀ u ∈ us, Mirror u) : Mirror (backView adam lr i soft first inputs v us).1 ∧ ∀ u ∈ (backView adam lr i soft first inputs v us).2, Mirror u := by
  have hs := mirror_soft i soft h
  unfold backView
  split
  · exact ⟨mirror_bias _ _ _ _ (mirror_first _ _ _ _ _ hs), hu⟩
  · obtain ⟨a, b⟩ := mirror_fold adam lr (Spec.Network.deltaAt (softView i soft v) i) i inputs ((softView i soft v).params, us) hs hu
    exact ⟨mirror_bias _ _ _ _ a, b⟩

theorem mirror_at (adam : Bool) (lr : ℝ) (i : Nat) (soft : Option (ℝ × List Int)) (first : Bool) (inputs : List (Pair ℝ)) {st : List (View ℝ) × List (View ℝ)} (pair : Pair ℝ)
    (h : ∀ v ∈ st.1, Mirror v) (hu : ∀ u ∈ st.2, Mirror u) :
    (∀ v ∈ (backAt adam lr i soft first inputs st pair).1, Mirror v) ∧ ∀ u ∈ (backAt adam lr i soft first inputs st pair).2, Mirror u := by
  unfold backAt
  cases hv : st.1[pair.Index.toNat]? with
  | none => exact ⟨h, hu⟩
  | some v =>
    obtain ⟨a, b⟩ := mirror_back adam lr i soft first inputs (h v (List.mem_of_getElem? hv)) hu
    exact ⟨all_set h _ a, b⟩

theorem mirror_pair {V : List (List (View ℝ))} (h : ∀ vs ∈ V, ∀ v ∈ vs, Mirror v) (n : Nat) : (∀ v ∈ (getPair V n).1, Mirror v) ∧ ∀ v ∈ (getPair V n).2, Mirror v := by
  have key : ∀ m : Nat, ∀ v ∈ (V[m]?).getD [], Mirror v := by
    intro m v hv
    cases hm : V[m]? with
    | none => rw [hm] at hv; simp at hv
    | some vs => rw [hm] at hv; exact h vs (List.mem_of_getElem? hm) v hv
  unfold getPair
  refine ⟨key n, ?_⟩
  dsimp only
  split
  · simp
  · exact key _

theorem mirror_setPair {V : List (List (View ℝ))} (h : ∀ vs ∈ V, ∀ v ∈ vs, Mirror v) (n : Nat) {r : List (View ℝ) × List (View ℝ)} (h1 : ∀ v ∈ r.1, Mirror v)
    (h2 : ∀ v ∈ r.2, Mirror v) : ∀ vs ∈ setPair V n r, ∀ v ∈ vs, Mirror v := by
  unfold setPair
  split
  · exact all_set (p := fun vs => ∀ v ∈ vs, Mirror v) h n h1
  · exact all_set (p := fun vs => ∀ v ∈ vs, Mirror v) (all_set (p := fun vs => ∀ v ∈ vs, Mirror v) h n h1) _ h2

theorem mirror_forward (i : Nat) : ∀ (B : List Bool) (V : List (List (View ℝ))) (d : List (Pair ℝ)) (S : List (List Int)), (∀ vs ∈ V, ∀ v ∈ vs, Mirror v) →
    ∀ vs ∈ forwardV i (B.zip V) d S, ∀ v ∈ vs, Mirror v
  | [], _, _, S, _ => by cases S <;> simp [forwardV]
  | _ :: _, [], _, S, _ => by cases S <;> simp [forwardV]
  | b :: B, vs :: V, d, [], h => by
    intro us hus v hv
    rw [List.zip_cons_cons] at hus
    simp [forwardV] at hus
  | b :: B, vs :: V, d, ids :: S, h => by
    intro us hus v hv
    rw [List.zip_cons_cons, forwardV, List.mem_cons] at hus
    rcases hus with rfl | hus
    · have : v.params ∈ vs.map View.params := by
        rw [← mark_params ids (f := fired b i d (maxValue vs d ids)) (fun v => rfl) vs]
        exact List.mem_map.mpr ⟨v, hv, rfl⟩
      obtain ⟨u, hu, e⟩ := List.mem_map.mp this
      have := h vs (by simp) u hu
      unfold Mirror at this ⊢
      rw [← e]
      exact this
    · exact mirror_forward i B V _ S (fun ws hws => h ws (by simp [hws])) us hus v hv

theorem clamped_same (P : Params ℝ) {d d' : List (Pair ℝ)} (h : ∀ f, featureValue d f = featureValue d' f) : Clamped P d = Clamped P d' := by
  unfold Clamped
  rw [pre_same P h]

theorem activation_same (P : Params ℝ) {d d' : List (Pair ℝ)} (h : ∀ f, featureValue d f = featureValue d' f) : activation P d = activation P d' := by
  unfold activation
  rw [clamped_same P h, pre_same P h]

theorem value_same (vs : List (View ℝ)) {d d' : List (Pair ℝ)} (h : ∀ f, featureValue d f = featureValue d' f) : valueOf vs d = valueOf vs d' := by
  funext id
  unfold valueOf
  cases vs[id.toNat]? with
  | none => rfl
  | some v => exact activation_same _ h

theorem outputs_same (b : Bool) (vs : List (View ℝ)) {d d' : List (Pair ℝ)} (h : ∀ f, featureValue d f = featureValue d' f) (ids : List Int) :
    outputs b vs d ids = outputs b vs d' ids := by
  unfold outputs outputOf maxValue
  rw [value_same vs h]

theorem evaluate_same {d d' : List (Pair ℝ)} (h : ∀ f, featureValue d f = featureValue d' f) : ∀ (L : List (Bool × List (View ℝ))) (S : List (List Int)),
    evaluate L d S = evaluate L d' S
  | [], _ => rfl
  | _ :: _, [] => rfl
  | (b, vs) :: L, ids :: S => by rw [evaluate, evaluate, outputs_same b vs h]

theorem forward_same (i : Nat) {d d' : List (Pair ℝ)} (h : ∀ f, featureValue d f = featureValue d' f) : ∀ (L : List (Bool × List (View ℝ))) (S : List (List Int)),
    forwardV i L d S = forwardV i L d' S
  | [], _ => rfl
  | _ :: _, [] => rfl
  | (b, vs) :: L, ids :: S => by
    rw [forwardV, forwardV, outputs_same b vs h]
    congr 1
    unfold forwardViews maxValue
    rw [value_same vs h]
    congr 1
    funext v
    unfold fired
    rw [activation_same _ h, clamped_same _ h]

theorem soft_same (i : Nat) {l l' : List Int} (h : ∀ y, y ∈ l ↔ y ∈ l') (hc : l.length = l'.length) (len n : Nat) (norm : ℝ) (v : View ℝ) :
    softView i (softOf len n norm l) v = softView i (softOf len n norm l') v := by
  unfold softOf
  split
  · unfold softView
    dsimp only
    congr 1
    funext s
    have : intSliceContains l v.params.id = intSliceContains l' v.params.id := by
      rw [Bool.eq_iff_iff]
      rw [intSliceContains_iff, intSliceContains_iff, h]
    unfold softmaxSlot
    rw [this, hc]
  · rfl

/-- Back-propagation through a layer, with both forms of an example. -/
theorem backLayer_same (adam : Bool) (lr : ℝ) (i len n : Nat) (norm : ℝ) {ex ex' : Example ℝ} (h : SameExample ex ex') (acts : List (List (Pair ℝ))) :
    ∀ (pairs : List (Pair ℝ)) (st : List (View ℝ) × List (View ℝ)), (∀ v ∈ st.1, Mirror v) → (∀ u ∈ st.2, Mirror u) →
      backLayerV adam lr i (softOf len n norm ex.Labels) (n == 0) (((ex.Features :: acts)[n]?).getD []) pairs st =
        backLayerV adam lr i (softOf len n norm ex'.Labels) (n == 0) (((ex'.Features :: acts)[n]?).getD []) pairs st ∧
      (∀ v ∈ (backLayerV adam lr i (softOf len n norm ex'.Labels) (n == 0) (((ex'.Features :: acts)[n]?).getD []) pairs st).1, Mirror v) ∧
      ∀ v ∈ (backLayerV adam lr i (softOf len n norm ex'.Labels) (n == 0) (((ex'.Features :: acts)[n]?).getD []) pairs st).2, Mirror v
  | [], _, h1, h2 => ⟨rfl, h1, h2⟩
  | pair :: pairs, st, h1, h2 => by
    have e : backAt adam lr i (softOf len n norm ex.Labels) (n == 0) (((ex.Features :: acts)[n]?).getD []) st pair =
        backAt adam lr i (softOf len n norm ex'.Labels) (n == 0) (((ex'.Features :: acts)[n]?).getD []) st pair := by
      unfold backAt
      cases hv : st.1[pair.Index.toNat]? with
      | none => rfl
      | some v =>
        dsimp only
        have hm := mirror_soft i (softOf len n norm ex'.Labels) (h1 v (List.mem_of_getElem? hv))
        have : backView adam lr i (softOf len n norm ex.Labels) (n == 0) (((ex.Features :: acts)[n]?).getD []) v st.2 =
            backView adam lr i (softOf len n norm ex'.Labels) (n == 0) (((ex'.Features :: acts)[n]?).getD []) v st.2 := by
          unfold backView
          rw [soft_same i h.labels h.count]
          cases n with
          | zero =>
            simp only [beq_self_eq_true, if_true, List.getElem?_cons_zero, Option.getD_some]
            unfold backPropFirst
            rw [grads_same adam lr _ h.features _ hm]
          | succ n => simp only [List.getElem?_cons_succ]
        rw [this]
    obtain ⟨m1, m2⟩ := mirror_at adam lr i (softOf len n norm ex'.Labels) (n == 0) (((ex'.Features :: acts)[n]?).getD []) pair h1 h2
    have ih := backLayer_same adam lr i len n norm h acts pairs _ m1 m2
    unfold backLayerV at ih ⊢
    rw [List.foldl_cons, List.foldl_cons, e]
    exact ih

theorem backward_same (adam : Bool) (lr : ℝ) (i : Nat) (norm : ℝ) {ex ex' : Example ℝ} (h : SameExample ex ex') (acts : List (List (Pair ℝ))) :
    ∀ (n : Nat) (V : List (List (View ℝ))), (∀ vs ∈ V, ∀ v ∈ vs, Mirror v) →
      backwardV adam lr i norm ex.Labels (ex.Features :: acts) n V = backwardV adam lr i norm ex'.Labels (ex'.Features :: acts) n V ∧
      ∀ vs ∈ backwardV adam lr i norm ex'.Labels (ex'.Features :: acts) n V, ∀ v ∈ vs, Mirror v
  | 0, V, hV => ⟨rfl, hV⟩
  | n + 1, V, hV => by
    rw [backwardV, backwardV]
    obtain ⟨g1, g2⟩ := mirror_pair hV n
    obtain ⟨e, m1, m2⟩ := backLayer_same adam lr i V.length n norm h acts (((ex.Features :: acts)[n + 1]?).getD []) (getPair V n) g1 g2
    have e' : backwardAt adam lr i norm ex.Labels (ex.Features :: acts) n V = backwardAt adam lr i norm ex'.Labels (ex'.Features :: acts) n V := e
    rw [e']
    exact backward_same adam lr i norm h acts n _ (mirror_setPair hV n m1 m2)

theorem example_same (adam : Bool) (lr : ℝ) (B : List Bool) (i : Nat) {ex ex' : Example ℝ} (h : SameExample ex ex') (S : List (List Int)) (V : List (List (View ℝ)))
    (hne : B ≠ [] ∧ S ≠ [] ∧ V ≠ []) (hV : ∀ vs ∈ V, ∀ v ∈ vs, Mirror v) :
    exampleV adam lr B i ex S V = exampleV adam lr B i ex' S V ∧ ∀ vs ∈ exampleV adam lr B i ex' S V, ∀ v ∈ vs, Mirror v := by
  unfold exampleV
  dsimp only
  have hn : normOf (ex.Features :: evaluate (B.zip V) ex.Features S) = normOf (ex'.Features :: evaluate (B.zip V) ex'.Features S) := by
    rw [evaluate_same h.features]
    obtain ⟨h1, h2, h3⟩ := hne
    obtain ⟨b, B, rfl⟩ := List.exists_cons_of_ne_nil h1
    obtain ⟨ids, S, rfl⟩ := List.exists_cons_of_ne_nil h2
    obtain ⟨vs, V, rfl⟩ := List.exists_cons_of_ne_nil h3
    unfold normOf
    rw [List.zip_cons_cons, evaluate]
    simp [List.getLast?_cons]
  rw [hn, evaluate_same h.features, forward_same i h.features]
  exact backward_same adam lr i _ h _ _ _ (mirror_forward i B V _ S hV)

theorem batch_same (adam : Bool) (lr : ℝ) (B : List Bool) : ∀ (es es' : List (Example ℝ)) (i : Nat) (T : List (List (List Int))) (V : List (List (View ℝ))),
    List.Forall₂ SameExample es es' → B ≠ [] → B.length = V.length → (∀ S ∈ T, S.length = V.length) → (∀ vs ∈ V, ∀ v ∈ vs, Mirror v) →
    batchV adam lr B i es T V = batchV adam lr B i es' T V
  | _, _, _, _, _, .nil, _, _, _, _ => by simp [batchV]
  | _, _, _, [], _, .cons _ _, _, _, _, _ => by simp [batchV]
  | ex :: es, ex' :: es', i, S :: T, V, .cons h hs, hB, hl, hT, hV => by
    have hS := hT S (by simp)
    have hB0 : 0 < B.length := List.length_pos_iff.mpr hB
    obtain ⟨e, hm⟩ := example_same adam lr B i h S V ⟨hB, List.length_pos_iff.mp (by omega), List.length_pos_iff.mp (by omega)⟩ hV
    rw [batchV, batchV, e]
    have hlen : (exampleV adam lr B i ex' S V).length = V.length := by
      simpa using congrArg List.length ((dims_stable (F := ℝ) adam).example lr B i ex' S V hl hS)
    exact batch_same adam lr B es es' (i + 1) T _ hs hB (by rw [hlen]; exact hl) (fun S' hS' => by rw [hlen]; exact hT S' (by simp [hS'])) hm

theorem net_mirror {w : World ℝ} {p : Ptr} {n : Network ℝ} {Q : List (State ℝ)} (N : NetAt w p n Q) : ∀ vs ∈ Q.map State.views, ∀ v ∈ vs, Mirror v := by
  intro vs hvs v hv
  obtain ⟨g, hg, rfl⟩ := List.mem_map.mp hvs
  obtain ⟨z, hz, rfl⟩ := List.mem_map.mp hv
  have hmem : z ∈ Q.flatMap State.nodes := List.mem_flatMap.mpr ⟨g, hg, hz⟩
  have G := N.layers.group
  have H := G.handle hmem
  have I : Inner w.heap z.1 := Group.inner G z.1 (List.mem_map.mpr ⟨z, hmem, rfl⟩)
  obtain ⟨nd, b, qs, hp⟩ := H.parts
  obtain ⟨a1, a2, -⟩ := baseParams_iff.mp hp.par
  rw [(I nd b hp.node hp.base).1, a1] at a2
  exact (Option.some.inj a2).symm

theorem dense_same {d d' : List (Pair ℝ)} (h : ∀ f, featureValue d f = featureValue d' f) (L : List (Bool × List (View ℝ))) (hL : L ≠ []) : dense L d = dense L d' := by
  obtain ⟨⟨b, vs⟩, L, rfl⟩ := List.exists_cons_of_ne_nil hL
  rw [dense, dense, outputs_same b vs h]

end Goslide.Network
