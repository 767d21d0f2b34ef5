import Verif.Proofs.Unseen
/-
The passes of an example change the parameters of its active nodes only, and of their weights only those of active inputs.
-/
set_option linter.unusedSectionVars false
namespace Goslide.Network
open Goslide Node Lsh Configuration Spec.Node Spec.Network Layer Xcrepo
variable {F : Type} [GoFloat F]

/-- What a node stores for its bias. -/
def storedBias (v : View F) : (F × F × F) × F × F := ((v.params.bias, v.params.momBias, v.params.velBias), v.params.tBias, v.params.mirrorBias)

/-- The observation `φ` of a node does not depend on its training state. -/
def NoTrain {β : Type} (φ : View F → β) : Prop := ∀ P tr tr', φ ⟨P, tr⟩ = φ ⟨P, tr'⟩

/-- Back-propagation through a layer with the active nodes `pairs` and the active inputs `inputs` misses the observation `φ` of node `i`. -/
def Misses {β : Type} (adam : Bool) (lr : F) (φ : View F → β) (i : Nat) (inputs pairs : List (Pair F)) : Prop :=
  (∀ x ∈ pairs, x.Index.toNat ≠ i) ∨ ∀ k soft first v us, φ (backView adam lr k soft first inputs v us).1 = φ v

theorem keeps_layer {β : Type} {φ : View F → β} {adam : Bool} {lr : F} {k : Nat} {soft : Option (F × List Int)} {first : Bool} {inputs : List (Pair F)} {i : Nat} :
    ∀ (pairs : List (Pair F)) (st : List (View F) × List (View F)), Misses adam lr φ i inputs pairs →
    ((backLayerV adam lr k soft first inputs pairs st).1[i]?).map φ = (st.1[i]?).map φ
  | [], st, _ => rfl
  | x :: l, st, h => by
    refine (keeps_layer l (backAt adam lr k soft first inputs st x) (h.imp_left fun h y hy => h y (by simp [hy]))).trans ?_
    unfold backAt
    cases hv : st.1[x.Index.toNat]? with
    | none => rfl
    | some v =>
      dsimp only
      by_cases hi : x.Index.toNat = i
      · rcases h with h | h
        · exact absurd hi (h x (by simp))
        · subst hi
          have hlt := (List.getElem?_eq_some_iff.mp hv).1
          rw [List.getElem?_set_self hlt, hv, Option.map_some, Option.map_some, h]
      · rw [List.getElem?_set_ne hi]

theorem keeps_fold {β : Type} {φ : View F → β} (hφ : NoTrain φ) (adam : Bool) (lr d : F) (i : Nat) : ∀ (pairs : List (Pair F)) (st : Params F × List (View F)),
    (pairs.foldl (backStep adam lr d i) st).2.map φ = st.2.map φ
  | [], st => rfl
  | x :: l, st => by
    rw [List.foldl_cons, keeps_fold hφ adam lr d i l]
    exact modify_map _ _ _ _ (fun v => hφ _ _ _)

theorem keeps_prev {β : Type} {φ : View F → β} (hφ : NoTrain φ) (adam : Bool) (lr : F) (k : Nat) (soft : Option (F × List Int)) (first : Bool) (inputs : List (Pair F)) :
    ∀ (pairs : List (Pair F)) (st : List (View F) × List (View F)),
    (backLayerV adam lr k soft first inputs pairs st).2.map φ = st.2.map φ
  | [], st => rfl
  | x :: l, st => by
    refine (keeps_prev hφ adam lr k soft first inputs l (backAt adam lr k soft first inputs st x)).trans ?_
    unfold backAt
    cases hv : st.1[x.Index.toNat]? with
    | none => rfl
    | some v =>
      unfold backView
      cases first with
      | true => rfl
      | false => exact keeps_fold hφ adam lr _ k inputs ((softView k soft v).params, st.2)

/-- The observation `φ` of node `i` of layer `j`. -/
def look {β : Type} (φ : View F → β) (j i : Nat) (V : List (List (View F))) : Option β := ((V[j]?).bind (·[i]?)).map φ

theorem keeps_backward {β : Type} {φ : View F → β} (hφ : NoTrain φ) {adam : Bool} {lr : F} {j i : Nat} (k : Nat) (norm : F) (labels : List Int) {acts : List (List (Pair F))}
    (h : Misses adam lr φ i ((acts[j]?).getD []) ((acts[j + 1]?).getD [])) : ∀ (n : Nat) (V : List (List (View F))), n ≤ V.length →
      look φ j i (backwardV adam lr k norm labels acts n V) = look φ j i V
  | 0, V, _ => rfl
  | n + 1, V, hn => by
    rw [backwardV, keeps_backward hφ k norm labels h n _ (by rw [setPair_length]; omega)]
    unfold look
    by_cases hj : j = n
    · subst hj
      have e : (setPair V j (backwardAt adam lr k norm labels acts j V))[j]? = some (backwardAt adam lr k norm labels acts j V).1 := by
        unfold setPair
        split
        · rw [List.getElem?_set_self (by omega)]
        · rw [List.getElem?_set_ne (by omega), List.getElem?_set_self (by omega)]
      rw [e, Option.bind_some]
      unfold backwardAt
      rw [keeps_layer _ _ h]
      unfold getPair
      rw [List.getElem?_eq_getElem (show j < V.length by omega)]
      rfl
    · by_cases hj' : j + 1 = n
      · subst hj'
        have e : (setPair V (j + 1) (backwardAt adam lr k norm labels acts (j + 1) V))[j]? = some (backwardAt adam lr k norm labels acts (j + 1) V).2 := by
          unfold setPair
          rw [if_neg (by omega), Nat.add_sub_cancel, List.getElem?_set_self (by rw [List.length_set]; omega)]
        rw [e, Option.bind_some, ← List.getElem?_map]
        unfold backwardAt
        rw [keeps_prev hφ, List.getElem?_map]
        unfold getPair
        rw [if_neg (by omega), Nat.add_sub_cancel, List.getElem?_eq_getElem (show j < V.length by omega)]
        rfl
      · have e : (setPair V n (backwardAt adam lr k norm labels acts n V))[j]? = V[j]? := by
          unfold setPair
          split
          · rw [List.getElem?_set_ne (by omega)]
          · rw [List.getElem?_set_ne (by omega), List.getElem?_set_ne (by omega)]
        rw [e]

theorem keeps_forward {β : Type} {φ : View F → β} (hφ : NoTrain φ) (k : Nat) : ∀ (B : List Bool) (V : List (List (View F))) (data : List (Pair F)) (S : List (List Int)) (j i : Nat),
    B.length = V.length → S.length = V.length → look φ j i (forwardV k (B.zip V) data S) = look φ j i V
  | [], [], _, S, _, _, _, _ => by cases S <;> rfl
  | b :: B, vs :: V, data, ids :: S, j, i, hB, hS => by
    rw [List.zip_cons_cons, forwardV]
    cases j with
    | zero =>
      unfold look
      rw [List.getElem?_cons_zero, List.getElem?_cons_zero, Option.bind_some, Option.bind_some, ← List.getElem?_map, ← List.getElem?_map]
      congr 1
      exact mark_map ids φ (fun v => hφ _ _ _) vs
    | succ j =>
      have := keeps_forward hφ k B V (outputs b vs data ids) S j i (by simpa using hB) (by simpa using hS)
      unfold look at this ⊢
      rw [List.getElem?_cons_succ, List.getElem?_cons_succ]
      exact this

/-- The active inputs of layer `j`. -/
def activeInputs (ex : Example F) (S : List (List Int)) (j : Nat) : List Int :=
  match j with
  | 0 => ex.Features.map Pair.Index
  | j + 1 => (S[j]?).getD []

theorem evaluate_index : ∀ (B : List Bool) (V : List (List (View F))) (data : List (Pair F)) (S : List (List Int)), B.length = V.length → S.length = V.length →
    (evaluate (B.zip V) data S).map (List.map Pair.Index) = S
  | [], [], _, S, _, hS => by
    have : S = [] := List.length_eq_zero_iff.mp (by simpa using hS)
    subst this; rfl
  | b :: B, vs :: V, data, ids :: S, hB, hS => by
    rw [List.zip_cons_cons, evaluate, List.map_cons, evaluate_index B V _ S (by simpa using hB) (by simpa using hS)]
    congr 1
    unfold outputs
    rw [List.map_map]
    exact (List.map_congr_left (fun _ _ => rfl)).trans (List.map_id ids)

/-- The passes of an example miss the observation `φ` of node `i` of layer `j`. -/
def ExMisses {β : Type} (adam : Bool) (lr : F) (φ : View F → β) (j i : Nat) (ex : Example F) (S : List (List Int)) : Prop :=
  (∀ id ∈ (S[j]?).getD [], id.toNat ≠ i) ∨
    ∀ inputs : List (Pair F), inputs.map Pair.Index = activeInputs ex S j → ∀ k soft first v us, φ (backView adam lr k soft first inputs v us).1 = φ v

theorem getD_map {α β : Type} (f : α → β) (L : List (List α)) (j : Nat) : ((L.map (List.map f))[j]?).getD [] = ((L[j]?).getD []).map f := by
  rw [List.getElem?_map]
  cases L[j]? <;> rfl

theorem keeps_example {β : Type} {φ : View F → β} (hφ : NoTrain φ) {adam : Bool} {lr : F} (B : List Bool) {j i : Nat} (k : Nat) {ex : Example F} {S : List (List Int)}
    (V : List (List (View F))) (hB : B.length = V.length) (hS : S.length = V.length) (h : ExMisses adam lr φ j i ex S) :
    look φ j i (exampleV adam lr B k ex S V) = look φ j i V := by
  unfold exampleV
  dsimp only
  have he := evaluate_index B V ex.Features S hB hS
  rw [keeps_backward hφ _ _ _ ?_ _ _ (by rw [forwardV_length k B V _ S hB hS]; omega), keeps_forward hφ k B V _ S j i hB hS]
  rcases h with h | h
  · left
    intro x hx
    rw [List.getElem?_cons_succ] at hx
    refine h x.Index ?_
    rw [← he, getD_map]
    exact List.mem_map.mpr ⟨x, hx, rfl⟩
  · right
    refine h _ ?_
    cases j with
    | zero => rfl
    | succ j =>
      rw [List.getElem?_cons_succ, ← getD_map, he]
      rfl

theorem keeps_batch {β : Type} {φ : View F → β} (hφ : NoTrain φ) {adam : Bool} {lr : F} (B : List Bool) {j i : Nat} : ∀ (es : List (Example F)) (k : Nat) (T : List (List (List Int)))
    (V : List (List (View F))), B.length = V.length → (∀ S ∈ T, S.length = V.length) →
    (∀ (m : Nat) (ex : Example F) (S : List (List Int)), es[m]? = some ex → T[m]? = some S → ExMisses adam lr φ j i ex S) →
    look φ j i (batchV adam lr B k es T V) = look φ j i V
  | [], k, T, V, _, _, _ => by cases T <;> rfl
  | ex :: es, k, [], V, _, _, _ => rfl
  | ex :: es, k, S :: T, V, hB, hT, h => by
    have hl : (exampleV adam lr B k ex S V).length = V.length := by
      simpa using congrArg List.length ((dims_stable (F := F) adam).example lr B k ex S V hB (hT S (by simp)))
    rw [batchV, keeps_batch hφ B es (k + 1) T _ (by rw [hl]; exact hB) (fun S' hS' => by rw [hl]; exact hT S' (by simp [hS']))
      (fun m e S' he hS' => h (m + 1) e S' (by simpa using he) (by simpa using hS')), keeps_example hφ B k V hB (hT S (by simp)) (h 0 ex S rfl rfl)]

/-! ### The two observations -/

theorem noTrain_stored (f : Nat) : NoTrain (F := F) (stored f) := fun _ _ _ => rfl
theorem noTrain_bias : NoTrain (F := F) storedBias := fun _ _ _ => rfl

theorem stored_foldParams {f : Nat} (adam : Bool) (lr d : F) (i : Nat) (tr : List (Slot F)) : ∀ (pairs : List (Pair F)) (st : Params F × List (View F)), (∀ x ∈ pairs, x.Index.toNat ≠ f) →
    stored f ⟨(pairs.foldl (backStep adam lr d i) st).1, tr⟩ = stored f ⟨st.1, tr⟩
  | [], st, _ => rfl
  | x :: l, st, h => by
    rw [List.foldl_cons, stored_foldParams adam lr d i tr l _ (fun y hy => h y (by simp [hy]))]
    exact stored_grad (h x (by simp)) _ _ _ _ _

theorem stored_backView {f : Nat} (adam : Bool) (lr : F) (k : Nat) (soft : Option (F × List Int)) (first : Bool) {inputs : List (Pair F)} (hf : ∀ x ∈ inputs, x.Index.toNat ≠ f)
    (v : View F) (us : List (View F)) : stored f (backView adam lr k soft first inputs v us).1 = stored f v := by
  unfold backView
  cases first with
  | true =>
    rw [if_pos rfl]
    unfold backPropFirst
    dsimp only
    rw [stored_bias, stored_first adam lr _ _ _ _ hf]
    exact stored_soft f k soft v
  | false =>
    rw [if_neg (by decide)]
    unfold backProp
    dsimp only
    rw [stored_bias, stored_foldParams adam lr _ _ _ _ _ hf]
    exact stored_soft f k soft v

end Goslide.Network
