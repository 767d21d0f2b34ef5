import Verif.Proofs.GradParam
import Verif.Proofs.GradStill
/-
Over the real numbers the gradients accumulated by a batch are derivatives of the score of the batch.
-/
set_option linter.unusedSectionVars false
namespace Goslide.Network
open Goslide Node Spec.Node Spec.Network Xcrepo

/-! ### What depends on the parameters only -/

/-- A node without its training states and accumulators. -/
noncomputable def erase (v : View ℝ) : View ℝ := ⟨static v, []⟩

noncomputable def eraseAll (V : List (List (View ℝ))) : List (List (View ℝ)) := V.map (List.map erase)

theorem eraseAll_eq {V V' : List (List (View ℝ))} (h : V'.map (List.map static) = V.map (List.map static)) : eraseAll V' = eraseAll V := by
  have := congrArg (List.map (List.map (fun P => (⟨P, []⟩ : View ℝ)))) h
  rw [List.map_map, List.map_map] at this
  have e : (List.map (fun P => (⟨P, []⟩ : View ℝ)) ∘ List.map static) = List.map erase := by
    funext l
    simp [List.map_map, Function.comp_def, erase]
  rw [e] at this
  exact this

theorem valueOf_erase (vs : List (View ℝ)) : valueOf (vs.map erase) = valueOf vs := by
  funext data id
  unfold valueOf
  rw [List.getElem?_map]
  cases vs[id.toNat]? <;> rfl

theorem maxValue_erase (vs : List (View ℝ)) : maxValue (vs.map erase) = maxValue vs := by
  funext data ids
  unfold maxValue
  rw [valueOf_erase]

theorem outputs_erase (s : Bool) (vs : List (View ℝ)) : outputs s (vs.map erase) = outputs s vs := by
  funext data ids
  unfold outputs outputOf
  rw [valueOf_erase, maxValue_erase]

theorem objective_erase (b m : ℝ) (labels : List Int) : ∀ (V : List (List (View ℝ))) (data : List (Pair ℝ)) (S : List (List Int)),
    objective b m labels (eraseAll V) data S = objective b m labels V data S
  | [], _, _ => rfl
  | [vs], data, [] => rfl
  | [vs], data, ids :: S => by
    show score b m labels ids (valueOf (vs.map erase) data) = score b m labels ids (valueOf vs data)
    rw [valueOf_erase]
  | vs :: us :: L, data, [] => rfl
  | vs :: us :: L, data, ids :: S => by
    show objective b m labels (eraseAll (us :: L)) (outputs false (vs.map erase) data ids) S = objective b m labels (us :: L) (outputs false vs data ids) S
    rw [outputs_erase, objective_erase b m labels (us :: L)]

theorem topMax_erase : ∀ (V : List (List (View ℝ))) (data : List (Pair ℝ)) (S : List (List Int)), topMax (eraseAll V) data S = topMax V data S
  | [], _, _ => rfl
  | [vs], data, [] => rfl
  | [vs], data, ids :: S => by
    show maxValue (vs.map erase) data ids = maxValue vs data ids
    rw [maxValue_erase]
  | vs :: us :: L, data, [] => rfl
  | vs :: us :: L, data, ids :: S => by
    show topMax (eraseAll (us :: L)) (outputs false (vs.map erase) data ids) S = topMax (us :: L) (outputs false vs data ids) S
    rw [outputs_erase, topMax_erase (us :: L)]

theorem smooth_erase : ∀ (V : List (List (View ℝ))) (data : List (Pair ℝ)) (S : List (List Int)), Smooth (eraseAll V) data S ↔ Smooth V data S
  | [], _, _ => Iff.rfl
  | [vs], data, _ => Iff.rfl
  | vs :: us :: L, data, [] => Iff.rfl
  | vs :: us :: L, data, ids :: S => by
    show ((∀ id ∈ ids, ∀ v, (vs.map erase)[id.toNat]? = some v → preActivation v.params data ≠ 0) ∧ Smooth (eraseAll (us :: L)) (outputs false (vs.map erase) data ids) S) ↔
      ((∀ id ∈ ids, ∀ v, vs[id.toNat]? = some v → preActivation v.params data ≠ 0) ∧ Smooth (us :: L) (outputs false vs data ids) S)
    rw [outputs_erase, smooth_erase (us :: L)]
    refine and_congr_left fun _ => forall₂_congr fun id _ => ?_
    rw [List.getElem?_map]
    constructor
    · intro h v hv
      exact h (erase v) (by rw [hv]; rfl)
    · intro h v hv
      obtain ⟨v0, h0, rfl⟩ := Option.map_eq_some_iff.mp hv
      exact h v0 h0

theorem nodesOk_erase {b : ℝ} {last : Bool} {vs : List (View ℝ)} {ids : List Int} : NodesOk b last (vs.map erase) ids ↔ NodesOk b last vs ids := by
  constructor
  · intro h
    refine ⟨h.nodup, fun id hi => ?_⟩
    obtain ⟨h0, v, h1, h2⟩ := h.node id hi
    rw [List.getElem?_map] at h1
    obtain ⟨v0, h3, rfl⟩ := Option.map_eq_some_iff.mp h1
    exact ⟨h0, v0, h3, h2⟩
  · intro h
    refine ⟨h.nodup, fun id hi => ?_⟩
    obtain ⟨h0, v, h1, h2⟩ := h.node id hi
    exact ⟨h0, erase v, by rw [List.getElem?_map, h1]; rfl, h2⟩

theorem netOk_erase {b : ℝ} : ∀ {V : List (List (View ℝ))} {S : List (List Int)}, NetOk b (eraseAll V) S ↔ NetOk b V S
  | [], [] => Iff.rfl
  | [], _ :: _ => Iff.rfl
  | _ :: _, [] => Iff.rfl
  | vs :: L, ids :: S => by
    show (NodesOk b (eraseAll L).isEmpty (vs.map erase) ids ∧ NetOk b (eraseAll L) S) ↔ _
    rw [nodesOk_erase, netOk_erase, show (eraseAll L).isEmpty = L.isEmpty by cases L <;> rfl]
    rfl

theorem modify_erase (V : List (List (View ℝ))) (j k : Nat) (f g : View ℝ → View ℝ) (h : ∀ v, erase (f v) = g (erase v)) :
    eraseAll (V.modify j (fun vs => vs.modify k f)) = (eraseAll V).modify j (fun vs => vs.modify k g) := by
  apply List.ext_getElem?
  intro i
  simp only [eraseAll, List.getElem?_map, List.getElem?_modify]
  cases V[i]? with
  | none => rfl
  | some vs =>
    by_cases hi : j = i
    · simp only [hi, if_true, Option.map_eq_map, Option.map_some, Option.some.injEq]
      apply List.ext_getElem?
      intro l
      simp only [List.getElem?_map, List.getElem?_modify]
      cases vs[l]? with
      | none => rfl
      | some v =>
        by_cases hl : k = l
        · simp [hl, h]
        · simp [hl]
    · simp [hi]

theorem withWeight_erase (V : List (List (View ℝ))) (j k q : Nat) (u : ℝ) : eraseAll (withWeight V j k q u) = withWeight (eraseAll V) j k q u :=
  modify_erase V j k _ _ (fun _ => rfl)

theorem withBias_erase (V : List (List (View ℝ))) (j k : Nat) (u : ℝ) : eraseAll (withBias V j k u) = withBias (eraseAll V) j k u :=
  modify_erase V j k _ _ (fun _ => rfl)

theorem batchObjective_erase (b : ℝ) (V0 : List (List (View ℝ))) (es : List (Example ℝ)) (T : List (List (List Int))) (V : List (List (View ℝ))) :
    batchObjective b (eraseAll V0) es T (eraseAll V) = batchObjective b V0 es T V := by
  unfold batchObjective
  simp only [objective_erase, topMax_erase]

theorem flags_congr {α β : Type} : ∀ {V : List α} {W : List β}, V.length = W.length → flags V = flags W
  | [], [], _ => rfl
  | _ :: V, _ :: W, h => by
    have h : V.length = W.length := by simpa using h
    show V.isEmpty :: flags V = W.isEmpty :: flags W
    rw [flags_congr h]
    congr 1
    cases V <;> cases W <;> simp at h ⊢

/-! ### A batch -/

/-- The passes of a batch with Adam: the accumulators grow by the derivatives of the score of the batch. -/
theorem batch_deriv {b lr : ℝ} : ∀ (es : List (Example ℝ)) (T : List (List (List Int))) (i : Nat) (V : List (List (View ℝ))),
    (∀ (e : Nat) (S : List (List Int)), T[e]? = some S → SlotsOk V (i + e) S ∧ NetOk b V S) →
    (∀ ex S, (ex, S) ∈ es.zip T → Smooth V ex.Features S) →
    (∀ vs ∈ V, Still vs) → ∀ {j k : Nat} {vs : List (View ℝ)} {v : View ℝ}, V[j]? = some vs → vs[k]? = some v →
    ∃ vs' v', (batchV true lr (flags V) i es T V)[j]? = some vs' ∧ vs'[k]? = some v' ∧
      (∀ (q : Nat) (y t : ℝ), v.params.weights[q]? = some y → v.params.t[q]? = some t → ∃ t', v'.params.t[q]? = some t' ∧
        HasDerivAt (fun u => batchObjective b V es T (withWeight V j k q u)) (t' - t) y) ∧
      HasDerivAt (fun u => batchObjective b V es T (withBias V j k u)) (v'.params.tBias - v.params.tBias) v.params.bias
  | [], T, i, V, hT, hm, hs, j, k, vs, v, hV, hk => by
    refine ⟨vs, v, by cases T <;> exact hV, hk, fun q y t _ ht => ⟨t, ht, ?_⟩, ?_⟩
    · rw [sub_self]
      exact hasDerivAt_const y _
    · rw [sub_self]
      exact hasDerivAt_const _ _
  | ex :: es, [], i, V, hT, hm, hs, j, k, vs, v, hV, hk => by
    refine ⟨vs, v, hV, hk, fun q y t _ ht => ⟨t, ht, ?_⟩, ?_⟩
    · rw [sub_self]
      exact hasDerivAt_const y _
    · rw [sub_self]
      exact hasDerivAt_const _ _
  | ex :: es, S :: T, i, V, hT, hm, hs, j, k, vs, v, hV, hk => by
    obtain ⟨hsl, hN⟩ := hT 0 S rfl
    have hd := (dims_stable (F := ℝ) true).example lr (flags V) i ex S V (flags_length V) hsl.len
    have hst := (static_stable (F := ℝ)).example lr (flags V) i ex S V (flags_length V) hsl.len
    have hstill := example_still (lr := lr) (ex := ex) (flags_length V) hsl hs
    obtain ⟨vs1, v1, h1, h2, h3, h4⟩ := example_deriv (lr := lr) hN (hm ex S (by simp)) (hsl.rested hs) hV hk
    generalize hV1 : exampleV true lr (flags V) i ex S V = V1 at hd hst hstill h1
    have hl : V1.length = V.length := by simpa using congrArg List.length hd
    have he := eraseAll_eq hst
    obtain ⟨vs2, v2, g1, g2, g3, g4⟩ := batch_deriv (b := b) (lr := lr) es T (i + 1) V1
      (fun e S' h => by
        obtain ⟨q1, q2⟩ := hT (e + 1) S' (by simpa using h)
        refine ⟨?_, ?_⟩
        · rw [show i + 1 + e = i + (e + 1) by omega]
          exact q1.congr hd
        · rw [← netOk_erase, he, netOk_erase]
          exact q2)
      (fun ex' S' h => by
        rw [← smooth_erase, he, smooth_erase]
        exact hm ex' S' (by simp [h]))
      hstill h1 h2
    have hsame : static v1 = static v := by
      have e := congrArg (fun l => l[j]?) hst
      simp only [List.getElem?_map, h1, hV, Option.map_some, Option.some.injEq] at e
      have e := congrArg (fun l => l[k]?) e
      simpa only [List.getElem?_map, h2, hk, Option.map_some, Option.some.injEq] using e
    have ew : v1.params.weights = v.params.weights := by have := congrArg Params.weights hsame; exact this
    have eb : v1.params.bias = v.params.bias := by have := congrArg Params.bias hsame; exact this
    refine ⟨vs2, v2, ?_, g2, fun q y t hy ht => ?_, ?_⟩
    · rw [batchV, hV1, flags_congr hl.symm]
      exact g1
    · obtain ⟨t1, r1, r2⟩ := h3 q y t hy ht
      obtain ⟨t2, r3, r4⟩ := g3 q y t1 (by rw [ew]; exact hy) r1
      refine ⟨t2, r3, ?_⟩
      have hsum := r2.add r4
      rw [show t1 - t + (t2 - t1) = t2 - t by ring] at hsum
      refine hsum.congr_of_eventuallyEq (Filter.Eventually.of_forall fun u => ?_)
      have e1 : batchObjective b V1 es T (withWeight V1 j k q u) = batchObjective b V es T (withWeight V j k q u) := by
        rw [← batchObjective_erase, withWeight_erase, he, ← withWeight_erase, batchObjective_erase]
      show batchObjective b V (ex :: es) (S :: T) (withWeight V j k q u) = objective _ _ _ _ _ _ + batchObjective b V1 es T (withWeight V1 j k q u)
      rw [e1]
      rfl
    · rw [eb] at g4
      have hsum := h4.add g4
      rw [show v1.params.tBias - v.params.tBias + (v2.params.tBias - v1.params.tBias) = v2.params.tBias - v.params.tBias by ring] at hsum
      refine hsum.congr_of_eventuallyEq (Filter.Eventually.of_forall fun u => ?_)
      have e1 : batchObjective b V1 es T (withBias V1 j k u) = batchObjective b V es T (withBias V j k u) := by
        rw [← batchObjective_erase, withBias_erase, he, ← withBias_erase, batchObjective_erase]
      show batchObjective b V (ex :: es) (S :: T) (withBias V j k u) = objective _ _ _ _ _ _ + batchObjective b V1 es T (withBias V1 j k u)
      rw [e1]
      rfl

end Goslide.Network
