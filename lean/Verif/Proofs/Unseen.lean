import Verif.Proofs.NetworkSettled
import Verif.Spec.Unseen
import Verif.Props.NetworkCow
/-
The passes of examples without feature `f` do not touch what the nodes of the first layer store for it.
-/
set_option linter.unusedSectionVars false
namespace Goslide.Network
open Goslide Node Lsh Configuration Spec.Node Spec.Network Layer Xcrepo
variable {F : Type} [GoFloat F]

/-- What a node stores for input `f`. -/
def stored (f : Nat) (v : View F) : (Option F × Option F × Option F) × Option F := ((v.params.weights[f]?, v.params.mom[f]?, v.params.vel[f]?), v.params.t[f]?)

theorem stored_grad {f k : Nat} (h : k ≠ f) (adam : Bool) (lr g : F) (P : Params F) (tr : List (Slot F)) : stored f ⟨addGrad adam lr g k P, tr⟩ = stored f ⟨P, tr⟩ := by
  unfold stored addGrad
  cases adam <;> simp [h]

theorem stored_bias (f : Nat) (adam : Bool) (s : F → F → F) (d : F) (P : Params F) (tr : List (Slot F)) : stored f ⟨biasGrad adam s d P, tr⟩ = stored f ⟨P, tr⟩ := by
  unfold stored biasGrad
  cases adam <;> rfl

theorem stored_train (f : Nat) (P : Params F) (tr tr' : List (Slot F)) : stored f ⟨P, tr⟩ = stored f ⟨P, tr'⟩ := rfl

theorem stored_slot (f : Nat) (v : View F) (i : Nat) (s : Slot F → Slot F) : stored f (v.setSlot i s) = stored f v := rfl

theorem stored_soft (f : Nat) (i : Nat) (soft : Option (F × List Int)) (v : View F) : stored f (softView i soft v) = stored f v := by
  unfold softView
  split <;> rfl

theorem stored_first {f : Nat} (adam : Bool) (lr d : F) (tr : List (Slot F)) : ∀ (pairs : List (Pair F)) (P : Params F), (∀ x ∈ pairs, x.Index.toNat ≠ f) →
    stored f ⟨firstGrads adam lr d P pairs, tr⟩ = stored f ⟨P, tr⟩
  | [], P, _ => rfl
  | x :: l, P, h => by
    have := stored_first adam lr d tr l (addGrad adam lr (GoFloat.mul d x.Value) x.Index.toNat P) (fun y hy => h y (by simp [hy]))
    unfold Spec.Node.firstGrads at this ⊢
    rw [List.foldl_cons, this]
    exact stored_grad (h x (by simp)) _ _ _ _ _

/-- The previous layer. -/
theorem stored_fold (f : Nat) (adam : Bool) (lr d : F) (i : Nat) : ∀ (pairs : List (Pair F)) (st : Params F × List (View F)),
    (pairs.foldl (backStep adam lr d i) st).2.map (stored f) = st.2.map (stored f)
  | [], st => rfl
  | x :: l, st => by
    rw [List.foldl_cons, stored_fold f adam lr d i l]
    exact modify_map _ _ _ _ (fun v => rfl)

theorem stored_layer {f : Nat} (adam : Bool) (lr : F) (i : Nat) (soft : Option (F × List Int)) {inputs : List (Pair F)} (hf : ∀ x ∈ inputs, x.Index.toNat ≠ f) :
    ∀ (pairs : List (Pair F)) (st : List (View F) × List (View F)),
    (backLayerV adam lr i soft true inputs pairs st).1.map (stored f) = st.1.map (stored f)
  | [], st => rfl
  | x :: l, st => by
    refine (stored_layer adam lr i soft hf l (backAt adam lr i soft true inputs st x)).trans ?_
    unfold backAt
    cases hv : st.1[x.Index.toNat]? with
    | none => rfl
    | some v =>
      refine map_set_of hv ?_
      unfold backView
      rw [if_pos rfl]
      unfold backPropFirst
      dsimp only
      rw [stored_bias, stored_first adam lr _ _ _ _ hf]
      exact stored_soft f i soft v

theorem stored_prev (f : Nat) (adam : Bool) (lr : F) (i : Nat) (soft : Option (F × List Int)) (first : Bool) (inputs : List (Pair F)) :
    ∀ (pairs : List (Pair F)) (st : List (View F) × List (View F)),
    (backLayerV adam lr i soft first inputs pairs st).2.map (stored f) = st.2.map (stored f)
  | [], st => rfl
  | x :: l, st => by
    refine (stored_prev f adam lr i soft first inputs l (backAt adam lr i soft first inputs st x)).trans ?_
    unfold backAt
    cases hv : st.1[x.Index.toNat]? with
    | none => rfl
    | some v =>
      unfold backView
      cases first with
      | true => rfl
      | false => exact stored_fold f adam lr _ i inputs ((softView i soft v).params, st.2)

theorem stored_backward {f : Nat} (adam : Bool) (lr : F) (i : Nat) (norm : F) (labels : List Int) {acts : List (List (Pair F))}
    (hf : ∀ x ∈ (acts[0]?).getD [], x.Index.toNat ≠ f) : ∀ (n : Nat) (V : List (List (View F))), n ≤ V.length →
      ((backwardV adam lr i norm labels acts n V)[0]?).map (List.map (stored f)) = (V[0]?).map (List.map (stored f))
  | 0, V, _ => rfl
  | n + 1, V, hn => by
    rw [backwardV, stored_backward adam lr i norm labels hf n _ (by rw [setPair_length]; omega)]
    unfold setPair
    match n, hn with
    | 0, hn =>
      rw [if_pos rfl, List.getElem?_set_self (by omega), List.getElem?_eq_getElem (by omega), Option.map_some, Option.map_some]
      congr 1
      refine (stored_layer adam lr i _ hf _ _).trans ?_
      unfold getPair
      rw [List.getElem?_eq_getElem (by omega)]
      rfl
    | 0 + 1, hn =>
      rw [if_neg (by decide), List.getElem?_set_self (by rw [List.length_set]; omega), List.getElem?_eq_getElem (by omega), Option.map_some, Option.map_some]
      congr 1
      refine (stored_prev f adam lr i _ _ _ _ _).trans ?_
      unfold getPair
      rw [if_neg (by decide), show 0 + 1 - 1 = 0 from rfl, List.getElem?_eq_getElem (l := V) (i := 0) (by omega)]
      rfl
    | m + 2, hn =>
      rw [if_neg (by omega), List.getElem?_set_ne (by omega), List.getElem?_set_ne (by omega)]

theorem stored_forward (f i : Nat) : ∀ (B : List Bool) (V : List (List (View F))) (data : List (Pair F)) (S : List (List Int)),
    B.length = V.length → S.length = V.length → ((forwardV i (B.zip V) data S)[0]?).map (List.map (stored f)) = (V[0]?).map (List.map (stored f))
  | [], [], _, S, _, _ => by cases S <;> rfl
  | b :: B, vs :: V, data, ids :: S, hB, hS => by
    rw [List.zip_cons_cons, forwardV, List.getElem?_cons_zero, List.getElem?_cons_zero, Option.map_some, Option.map_some]
    congr 1
    exact mark_map ids (stored f) (fun v => stored_slot f v i _) vs

theorem stored_example {f : Nat} (adam : Bool) (lr : F) (B : List Bool) (i : Nat) {ex : Example F} (hf : ∀ x ∈ ex.Features, x.Index.toNat ≠ f) (S : List (List Int))
    (V : List (List (View F))) (hB : B.length = V.length) (hS : S.length = V.length) :
    ((exampleV adam lr B i ex S V)[0]?).map (List.map (stored f)) = (V[0]?).map (List.map (stored f)) := by
  unfold exampleV
  dsimp only
  rw [stored_backward adam lr i _ _ (by simpa using hf) _ _ (by rw [forwardV_length i B V _ S hB hS]; omega), stored_forward f i B V _ S hB hS]

theorem stored_batch {f : Nat} (adam : Bool) (lr : F) (B : List Bool) : ∀ (es : List (Example F)) (i : Nat) (T : List (List (List Int)))
    (V : List (List (View F))), (∀ ex ∈ es, ∀ x ∈ ex.Features, x.Index.toNat ≠ f) → B.length = V.length → (∀ S ∈ T, S.length = V.length) →
    ((batchV adam lr B i es T V)[0]?).map (List.map (stored f)) = (V[0]?).map (List.map (stored f))
  | [], i, T, V, _, _, _ => by cases T <;> rfl
  | ex :: es, i, [], V, _, _, _ => rfl
  | ex :: es, i, S :: T, V, hf, hB, hT => by
    have hl : (exampleV adam lr B i ex S V).length = V.length := by
      simpa using congrArg List.length ((dims_stable (F := F) adam).example lr B i ex S V hB (hT S (by simp)))
    rw [batchV, stored_batch adam lr B es (i + 1) T _ (fun e he => hf e (by simp [he])) (by rw [hl]; exact hB) (fun S' hS' => by rw [hl]; exact hT S' (by simp [hS'])),
      stored_example adam lr B i (hf ex (by simp)) S V hB (hT S (by simp))]

/-- The update without Adam. -/
theorem stored_sgd (f : Nat) (lr : F) (v : View F) : stored f (finishView false lr v) = stored f v := rfl

/-- The update with Adam, if no gradient has been accumulated for the input. -/
theorem stored_adam (f : Nat) (lr : F) (v : View F) (h : (stored f v = ((none, none, none), none)) ∨ ∃ w m u, stored f v = ((some w, some m, some u), some GoFloat.zero)) :
    (stored f (finishView true lr v)).1 = coast lr (stored f v).1 := by
  unfold stored at *
  unfold finishView finished
  rw [if_pos rfl]
  simp only [List.getElem?_zipWith, List.zip, Prod.mk.injEq] at h ⊢
  rcases h with ⟨⟨h1, h2, h3⟩, h4⟩ | ⟨w, m, u, ⟨h1, h2, h3⟩, h4⟩
  · rw [h1, h2, h3, h4]
    simp [coast]
  · rw [h1, h2, h3, h4]
    simp only [coast, adamMom, adamVel, adamWeight]

theorem column_at {w : World F} {p : Ptr} {n : Network F} {Q : List (State F)} (N : NetAt w p n Q) (f : Nat) :
    column w p f = ((Q.map State.views)[0]?).map (List.map (fun v => (stored f v).1)) := by
  unfold column memoryOf
  rw [Props.learned_at N]
  cases Q with
  | nil => rfl
  | cons g Q => simp [memory, stored, Function.comp_def]

end Goslide.Network
