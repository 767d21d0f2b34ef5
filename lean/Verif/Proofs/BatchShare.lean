import Verif.Proofs.GradBatch
import Verif.Spec.Order
/-
Over the real numbers every example adds its own share to the accumulators, which does not depend on the other examples of its batch.
-/
set_option linter.unusedSectionVars false
namespace Goslide.Network
open Goslide Node Spec.Node Spec.Network Xcrepo

/-- What the passes read of a node. -/
noncomputable def core (v : View ℝ) : View ℝ :=
  ⟨{ nodeType := v.params.nodeType, batch := v.params.batch, id := v.params.id, weights := v.params.weights, mirrorWeights := [], mom := [], vel := [], t := [],
     bias := v.params.bias, mirrorBias := 0, tBias := 0, momBias := 0, velBias := 0 }, []⟩

noncomputable def coreAll (V : List (List (View ℝ))) : List (List (View ℝ)) := V.map (List.map core)

theorem core_erase (v : View ℝ) : core (erase v) = core v := rfl

theorem coreAll_eq {V V' : List (List (View ℝ))} (h : V'.map (List.map static) = V.map (List.map static)) : coreAll V' = coreAll V := by
  have := congrArg (List.map (List.map core)) (eraseAll_eq h)
  unfold eraseAll at this
  rw [List.map_map, List.map_map] at this
  have e : List.map core ∘ List.map erase = List.map core := by
    funext l
    simp [List.map_map, Function.comp_def, core_erase]
  rw [e] at this
  exact this

theorem valueOf_core (vs : List (View ℝ)) : valueOf (vs.map core) = valueOf vs := by
  funext data id
  unfold valueOf
  rw [List.getElem?_map]
  cases vs[id.toNat]? <;> rfl

theorem outputs_core (s : Bool) (vs : List (View ℝ)) : outputs s (vs.map core) = outputs s vs := by
  funext data ids
  unfold outputs outputOf maxValue
  rw [valueOf_core]

theorem evaluate_core : ∀ (B : List Bool) (V : List (List (View ℝ))) (data : List (Pair ℝ)) (S : List (List Int)),
    evaluate (B.zip (coreAll V)) data S = evaluate (B.zip V) data S
  | [], _, _, _ => rfl
  | _ :: _, [], _, _ => rfl
  | _ :: _, _ :: _, _, [] => rfl
  | b :: B, vs :: V, data, ids :: S => by
    show outputs b (vs.map core) data ids :: evaluate (B.zip (coreAll V)) (outputs b (vs.map core) data ids) S = _
    rw [outputs_core, evaluate_core B V]
    rfl

theorem weightOf_core (us : List (View ℝ)) : weightOf (us.map core) = weightOf us := by
  funext k q
  unfold weightOf
  rw [List.getElem?_map]
  cases us[k]? <;> rfl

theorem deltas_core (labels : List Int) (norm : ℝ) : ∀ (V : List (List (View ℝ))) (E : List (List (Pair ℝ))),
    deltas labels norm ((coreAll V).zip E) = deltas labels norm (V.zip E)
  | [], _ => rfl
  | _ :: _, [] => rfl
  | [vs], [out] => by
    show [_] = [_]
    congr 1
    funext k
    rw [List.getElem?_map]
    cases vs[k]? <;> rfl
  | [vs], out :: _ :: _ => by
    show [_] = [_]
    congr 1
    funext k
    rw [List.getElem?_map]
    cases vs[k]? <;> rfl
  | vs :: us :: V, [out] => by
    show [_] = [_]
    congr 1
    funext k
    rw [List.getElem?_map]
    cases vs[k]? <;> rfl
  | vs :: us :: V, out :: out' :: E => by
    have ih := deltas_core labels norm (us :: V) (out' :: E)
    show (fun q => pulled (us.map core) out' (((deltas labels norm ((coreAll (us :: V)).zip (out' :: E))).head?).getD (fun _ => GoFloat.zero)) (valueAt out q) q) ::
        deltas labels norm ((coreAll (us :: V)).zip (out' :: E)) =
      (fun q => pulled us out' (((deltas labels norm ((us :: V).zip (out' :: E))).head?).getD (fun _ => GoFloat.zero)) (valueAt out q) q) ::
        deltas labels norm ((us :: V).zip (out' :: E))
    rw [ih]
    unfold pulled
    rw [weightOf_core]

/-- The deltas of layer `j`. -/
noncomputable def deltaAt (B : List Bool) (V : List (List (View ℝ))) (ex : Example ℝ) (S : List (List Int)) (j : Nat) : Nat → ℝ :=
  ((deltas ex.Labels (normOf (ex.Features :: evaluate (B.zip V) ex.Features S)) (V.zip (evaluate (B.zip V) ex.Features S)))[j]?).getD (fun _ => 0)

/-- What an example adds to the accumulator of weight `q` of node `k` of layer `j`. -/
noncomputable def shareW (B : List Bool) (V : List (List (View ℝ))) (j k q : Nat) (x : Example ℝ × List (List Int)) : ℝ :=
  if (k : Int) ∈ (x.2[j]?).getD [] then deltaAt B V x.1 x.2 j k * total (inputsOf B V x.1.Features x.2 j) q else 0

/-- What an example adds to the accumulator of the bias. -/
noncomputable def shareB (B : List Bool) (V : List (List (View ℝ))) (j k : Nat) (x : Example ℝ × List (List Int)) : ℝ :=
  if (k : Int) ∈ (x.2[j]?).getD [] then deltaAt B V x.1 x.2 j k else 0

theorem deltaAt_core (B : List Bool) (V : List (List (View ℝ))) (ex : Example ℝ) (S : List (List Int)) (j : Nat) : deltaAt B (coreAll V) ex S j = deltaAt B V ex S j := by
  unfold deltaAt
  rw [evaluate_core, deltas_core]

theorem inputsOf_core (B : List Bool) (V : List (List (View ℝ))) (data : List (Pair ℝ)) (S : List (List Int)) (j : Nat) :
    inputsOf B (coreAll V) data S j = inputsOf B V data S j := by
  unfold inputsOf
  rw [evaluate_core]

theorem shareW_congr {B : List Bool} {V V' : List (List (View ℝ))} (h : coreAll V' = coreAll V) : shareW B V' = shareW B V := by
  funext j k q x
  unfold shareW
  rw [← deltaAt_core B V', ← inputsOf_core B V', h, deltaAt_core, inputsOf_core]

theorem shareB_congr {B : List Bool} {V V' : List (List (View ℝ))} (h : coreAll V' = coreAll V) : shareB B V' = shareB B V := by
  funext j k x
  unfold shareB
  rw [← deltaAt_core B V', h, deltaAt_core]

/-- One example. -/
theorem example_share {lr : ℝ} {B : List Bool} {i : Nat} {ex : Example ℝ} {S : List (List Int)} {V : List (List (View ℝ))} (hB : B.length = V.length)
    (hsl : SlotsOk V i S) (hs : ∀ vs ∈ V, Still vs) {j k : Nat} {vs : List (View ℝ)} {v : View ℝ} (hV : V[j]? = some vs) (hk : vs[k]? = some v) :
    ∃ vs' v', (exampleV true lr B i ex S V)[j]? = some vs' ∧ vs'[k]? = some v' ∧
      (∀ (q : Nat) (t : ℝ), v.params.t[q]? = some t → v'.params.t[q]? = some (t + shareW B V j k q (ex, S))) ∧
      v'.params.tBias = v.params.tBias + shareB B V j k (ex, S) := by
  have lS := hsl.len
  have hlt := (List.getElem?_eq_some_iff.mp hV).1
  have hS : S[j]? = some S[j] := List.getElem?_eq_getElem (by omega)
  generalize S[j] = ids at hS
  have hrun := example_grad lr B i ex S V hB lS (hsl.rested hs)
  have hD0 : ∃ D, (deltas ex.Labels (normOf (ex.Features :: evaluate (B.zip V) ex.Features S)) (V.zip (evaluate (B.zip V) ex.Features S)))[j]? = some D := by
    refine ⟨_, List.getElem?_eq_getElem ?_⟩
    rw [deltas_length, List.length_zip, evaluate_length B V ex.Features S hB lS]
    omega
  obtain ⟨D, hD⟩ := hD0
  have hget := accumulate_get i B V ex.Features S _ j vs ids D hB hV hS hD
  rw [← hrun] at hget
  have hdel : deltaAt B V ex S j = D := by unfold deltaAt; rw [hD]; rfl
  refine ⟨_, if (k : Int) ∈ ids then accView i (inputsOf B V ex.Features S j) (D k) v else v, hget, ?_, ?_, ?_⟩
  · unfold accumulate
    rw [List.getElem?_mapIdx, hk]
    rfl
  · intro q t ht
    unfold shareW
    simp only [hS, Option.getD_some, hdel]
    by_cases hi : (k : Int) ∈ ids
    · rw [if_pos hi, if_pos hi]
      exact addGrads_get (D k) q _ _ t ht
    · rw [if_neg hi, if_neg hi, add_zero]
      exact ht
  · unfold shareB
    simp only [hS, Option.getD_some, hdel]
    by_cases hi : (k : Int) ∈ ids
    · rw [if_pos hi, if_pos hi]; rfl
    · rw [if_neg hi, if_neg hi, add_zero]

/-- A batch: the accumulators grow by the sum of the shares. -/
theorem batch_share {lr : ℝ} {B : List Bool} : ∀ (es : List (Example ℝ)) (T : List (List (List Int))) (i : Nat) (V : List (List (View ℝ))), B.length = V.length →
    (∀ (e : Nat) (S : List (List Int)), T[e]? = some S → SlotsOk V (i + e) S) →
    (∀ vs ∈ V, Still vs) → ∀ {j k : Nat} {vs : List (View ℝ)} {v : View ℝ}, V[j]? = some vs → vs[k]? = some v →
    ∃ vs' v', (batchV true lr B i es T V)[j]? = some vs' ∧ vs'[k]? = some v' ∧
      (∀ (q : Nat) (t : ℝ), v.params.t[q]? = some t → v'.params.t[q]? = some (t + ((es.zip T).map (shareW B V j k q)).sum)) ∧
      v'.params.tBias = v.params.tBias + ((es.zip T).map (shareB B V j k)).sum
  | [], T, i, V, hB, hT, hs, j, k, vs, v, hV, hk => by
    refine ⟨vs, v, by cases T <;> exact hV, hk, fun q t ht => ?_, ?_⟩ <;> simp [*]
  | ex :: es, [], i, V, hB, hT, hs, j, k, vs, v, hV, hk => by
    refine ⟨vs, v, hV, hk, fun q t ht => ?_, ?_⟩ <;> simp [*]
  | ex :: es, S :: T, i, V, hB, hT, hs, j, k, vs, v, hV, hk => by
    have hsl := hT 0 S rfl
    have hd := (dims_stable (F := ℝ) true).example lr B i ex S V hB hsl.len
    have hst := (static_stable (F := ℝ)).example lr B i ex S V hB hsl.len
    have hstill := example_still (lr := lr) (ex := ex) hB hsl hs
    obtain ⟨vs1, v1, h1, h2, h3, h4⟩ := example_share (lr := lr) (ex := ex) hB hsl hs hV hk
    generalize hV1 : exampleV true lr B i ex S V = V1 at hd hst hstill h1
    have hl : V1.length = V.length := by simpa using congrArg List.length hd
    have he := coreAll_eq hst
    obtain ⟨vs2, v2, g1, g2, g3, g4⟩ := batch_share (lr := lr) (B := B) es T (i + 1) V1 (by rw [hl]; exact hB)
      (fun e S' h => by
        rw [show i + 1 + e = i + (e + 1) by omega]
        exact (hT (e + 1) S' (by simpa using h)).congr hd)
      hstill h1 h2
    rw [shareW_congr he] at g3
    rw [shareB_congr he] at g4
    refine ⟨vs2, v2, by rw [batchV, hV1]; exact g1, g2, fun q t ht => ?_, ?_⟩
    · rw [g3 q _ (h3 q t ht), List.zip_cons_cons, List.map_cons, List.sum_cons, add_assoc]
    · rw [g4, h4, List.zip_cons_cons, List.map_cons, List.sum_cons, add_assoc]

/-- The order of the examples of a batch, each with its active nodes, does not matter. -/
theorem batch_order {B : List Bool} {V V' : List (List (View ℝ))} (h : coreAll V' = coreAll V) {es es' : List (Example ℝ)} {T T' : List (List (List Int))}
    (hp : (es.zip T).Perm (es'.zip T')) (j k : Nat) :
    (∀ q, ((es.zip T).map (shareW B V j k q)).sum = ((es'.zip T').map (shareW B V' j k q)).sum) ∧
      ((es.zip T).map (shareB B V j k)).sum = ((es'.zip T').map (shareB B V' j k)).sum := by
  rw [shareW_congr h, shareB_congr h]
  exact ⟨fun q => (hp.map _).sum_eq, (hp.map _).sum_eq⟩

end Goslide.Network
