import Verif.Proofs.NetworkFinish
/-
What the passes of a batch do not change, with Adam: all parameters apart from the accumulated gradients.
-/
set_option linter.unusedSectionVars false
namespace Goslide.Network
open Goslide Node Lsh Configuration Spec.Node Spec.Network Layer Xcrepo
variable {F : Type} [GoFloat F]

/-- Observations that the passes do not change. -/
structure Stable {α : Type} (adam : Bool) (φ : View F → α) : Prop where
  grad : ∀ lr g k P tr, φ ⟨addGrad adam lr g k P, tr⟩ = φ ⟨P, tr⟩
  bias : ∀ f d P tr, φ ⟨biasGrad adam f d P, tr⟩ = φ ⟨P, tr⟩
  slot : ∀ P tr i f, φ ⟨P, List.modify tr i f⟩ = φ ⟨P, tr⟩
  idle : ∀ P tr i, φ ⟨P, List.set tr i idle⟩ = φ ⟨P, tr⟩

variable {α : Type} {adam : Bool} {φ : View F → α}

theorem Stable.setSlot (h : Stable adam φ) (v : View F) (i : Nat) (f : Slot F → Slot F) : φ (v.setSlot i f) = φ v := h.slot _ _ _ _

theorem Stable.backFold (h : Stable adam φ) (lr d : F) (i : Nat) (tr : List (Slot F)) : ∀ (pairs : List (Pair F)) (st : Params F × List (View F)),
    φ ⟨(pairs.foldl (backStep adam lr d i) st).1, tr⟩ = φ ⟨st.1, tr⟩ ∧
    (pairs.foldl (backStep adam lr d i) st).2.map φ = st.2.map φ
  | [], st => ⟨rfl, rfl⟩
  | x :: l, st => by
    obtain ⟨a, b⟩ := h.backFold lr d i tr l (backStep adam lr d i st x)
    rw [List.foldl_cons]
    refine ⟨a.trans (h.grad _ _ _ _ _), b.trans ?_⟩
    exact modify_map _ _ _ _ (fun v => h.setSlot v _ _)

theorem Stable.firstGrads (h : Stable adam φ) (lr d : F) (tr : List (Slot F)) : ∀ (pairs : List (Pair F)) (P : Params F),
    φ ⟨firstGrads adam lr d P pairs, tr⟩ = φ ⟨P, tr⟩
  | [], P => rfl
  | x :: l, P => by
    have := h.firstGrads lr d tr l (addGrad adam lr (GoFloat.mul d x.Value) x.Index.toNat P)
    unfold Spec.Node.firstGrads at this ⊢
    rw [List.foldl_cons, this]
    exact h.grad _ _ _ _ _

theorem Stable.softView (h : Stable adam φ) (i : Nat) (soft : Option (F × List Int)) (v : View F) : φ (softView i soft v) = φ v := by
  unfold Spec.Network.softView
  split
  · rfl
  · exact h.setSlot _ _ _

theorem Stable.backView (h : Stable adam φ) (lr : F) (i : Nat) (soft : Option (F × List Int)) (first : Bool) (inputs : List (Pair F)) (v : View F)
    (us : List (View F)) : φ (backView adam lr i soft first inputs v us).1 = φ v ∧
      (backView adam lr i soft first inputs v us).2.map φ = us.map φ := by
  unfold Spec.Network.backView
  split
  · refine ⟨?_, rfl⟩
    unfold backPropFirst
    rw [h.bias, h.idle, h.firstGrads]
    exact h.softView i soft v
  · unfold backProp
    dsimp only
    rw [h.bias, h.idle]
    obtain ⟨a, b⟩ := h.backFold lr (deltaAt (Spec.Network.softView i soft v) i) i (Spec.Network.softView i soft v).train inputs ((Spec.Network.softView i soft v).params, us)
    exact ⟨a.trans (h.softView i soft v), b⟩

theorem Stable.backAt (h : Stable adam φ) (lr : F) (i : Nat) (soft : Option (F × List Int)) (first : Bool) (inputs : List (Pair F))
    (st : List (View F) × List (View F)) (pair : Pair F) :
    (backAt adam lr i soft first inputs st pair).1.map φ = st.1.map φ ∧
    (backAt adam lr i soft first inputs st pair).2.map φ = st.2.map φ := by
  unfold Spec.Network.backAt
  cases hv : st.1[pair.Index.toNat]? with
  | none => exact ⟨rfl, rfl⟩
  | some v =>
    obtain ⟨a, b⟩ := h.backView lr i soft first inputs v st.2
    exact ⟨map_set_of hv a, b⟩

theorem Stable.backLayer (h : Stable adam φ) (lr : F) (i : Nat) (soft : Option (F × List Int)) (first : Bool) (inputs : List (Pair F)) :
    ∀ (pairs : List (Pair F)) (st : List (View F) × List (View F)),
    (backLayerV adam lr i soft first inputs pairs st).1.map φ = st.1.map φ ∧
    (backLayerV adam lr i soft first inputs pairs st).2.map φ = st.2.map φ
  | [], st => ⟨rfl, rfl⟩
  | x :: l, st => by
    obtain ⟨a, b⟩ := h.backLayer lr i soft first inputs l (Spec.Network.backAt adam lr i soft first inputs st x)
    obtain ⟨c, d⟩ := h.backAt lr i soft first inputs st x
    exact ⟨a.trans c, b.trans d⟩

theorem setPair_map {V : List (List (View F))} {n : Nat} {r : List (View F) × List (View F)} (hn : n < V.length)
    (h1 : r.1.map φ = (getPair V n).1.map φ) (h2 : r.2.map φ = (getPair V n).2.map φ) :
    (setPair V n r).map (List.map φ) = V.map (List.map φ) := by
  unfold getPair at h1 h2
  unfold setPair
  rw [List.getElem?_eq_getElem hn] at h1
  by_cases h : n = 0
  · rw [if_pos h]
    exact map_set_of (List.getElem?_eq_getElem hn) h1
  · rw [if_neg h] at h2 ⊢
    rw [List.getElem?_eq_getElem (show n - 1 < V.length by omega)] at h2
    rw [map_set_of (x := V[n - 1]) (by rw [List.getElem?_set_ne (by omega), List.getElem?_eq_getElem (by omega)]) h2]
    exact map_set_of (List.getElem?_eq_getElem hn) h1

theorem Stable.backward (h : Stable adam φ) (lr : F) (i : Nat) (norm : F) (labels : List Int) (acts : List (List (Pair F))) :
    ∀ (n : Nat) (V : List (List (View F))), n ≤ V.length →
      (backwardV adam lr i norm labels acts n V).map (List.map φ) = V.map (List.map φ)
  | 0, V, _ => rfl
  | n + 1, V, hn => by
    rw [backwardV, h.backward lr i norm labels acts n _ (by rw [setPair_length]; omega)]
    exact setPair_map (by omega) (h.backLayer _ _ _ _ _ _ _).1 (h.backLayer _ _ _ _ _ _ _).2

theorem Stable.forward (h : Stable adam φ) (i : Nat) : ∀ (B : List Bool) (V : List (List (View F))) (data : List (Pair F)) (S : List (List Int)),
    B.length = V.length → S.length = V.length → (forwardV i (B.zip V) data S).map (List.map φ) = V.map (List.map φ)
  | [], [], _, S, _, _ => by cases S <;> rfl
  | b :: B, vs :: V, data, ids :: S, hB, hS => by
    rw [List.zip_cons_cons, forwardV, List.map_cons, List.map_cons,
      h.forward i B V _ S (by simpa using hB) (by simpa using hS)]
    congr 1
    exact mark_map ids φ (fun v => h.setSlot v i _) vs

theorem forwardV_length (i : Nat) : ∀ (B : List Bool) (V : List (List (View F))) (data : List (Pair F)) (S : List (List Int)),
    B.length = V.length → S.length = V.length → (forwardV i (B.zip V) data S).length = V.length
  | [], [], _, S, _, _ => by cases S <;> rfl
  | b :: B, vs :: V, data, ids :: S, hB, hS => by
    rw [List.zip_cons_cons, forwardV, List.length_cons, List.length_cons,
      forwardV_length i B V _ S (by simpa using hB) (by simpa using hS)]

theorem Stable.example (h : Stable adam φ) (lr : F) (B : List Bool) (i : Nat) (ex : Example F) (S : List (List Int)) (V : List (List (View F)))
    (hB : B.length = V.length) (hS : S.length = V.length) :
    (exampleV adam lr B i ex S V).map (List.map φ) = V.map (List.map φ) := by
  unfold exampleV
  dsimp only
  rw [h.backward _ _ _ _ _ _ _ (by rw [forwardV_length i B V _ S hB hS]; omega), h.forward i B V _ S hB hS]

theorem Stable.batch (h : Stable adam φ) (lr : F) (B : List Bool) : ∀ (es : List (Example F)) (i : Nat) (T : List (List (List Int)))
    (V : List (List (View F))), B.length = V.length → (∀ S ∈ T, S.length = V.length) →
    (batchV adam lr B i es T V).map (List.map φ) = V.map (List.map φ)
  | [], i, T, V, _, _ => by cases T <;> rfl
  | ex :: es, i, [], V, _, _ => rfl
  | ex :: es, i, S :: T, V, hB, hT => by
    have h1 := h.example lr B i ex S V hB (hT S (by simp))
    have hl : (exampleV adam lr B i ex S V).length = V.length := by simpa using congrArg List.length h1
    rw [batchV, h.batch lr B es (i + 1) T _ (by rw [hl]; exact hB) (fun S' hS' => by rw [hl]; exact hT S' (by simp [hS'])), h1]

/-- The parameters without the accumulated gradients. -/
def static (v : View F) : Params F := { v.params with t := [], tBias := GoFloat.zero }

theorem static_stable : Stable (F := F) true static := by
  refine ⟨fun _ _ _ _ _ => rfl, fun _ _ _ _ => rfl, fun _ _ _ _ => rfl, fun _ _ _ => rfl⟩

theorem dims_stable (adam : Bool) : Stable (F := F) adam View.dims :=
  ⟨fun lr g k P tr => addGrad_dims adam lr g k P tr, fun f d P tr => biasGrad_dims adam f d P tr, fun P tr i f => setSlot_dims ⟨P, tr⟩ i f,
    fun P tr i => set_train_dims P tr i _⟩

end Goslide.Network
