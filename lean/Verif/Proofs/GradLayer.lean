import Verif.Proofs.NetworkStatic
import Verif.Spec.Gradient
/-
Back-propagation through one layer, with Adam, in closed form.
-/
set_option linter.unusedSectionVars false
namespace Goslide.Network
open Goslide Node Lsh Configuration Spec.Node Spec.Network Layer Xcrepo
variable {F : Type} [GoFloat F]

theorem foldModify_get {α β : Type} (f : β → Nat) (g : Nat → α → α) : ∀ (l : List β) (us : List α), (l.map f).Nodup → ∀ q,
    (l.foldl (fun us x => us.modify (f x) (g (f x))) us)[q]? = (us[q]?).map (fun v => if q ∈ l.map f then g q v else v)
  | [], us, _, q => by simp
  | x :: l, us, hn, q => by
    rw [List.map_cons, List.nodup_cons] at hn
    rw [List.foldl_cons, foldModify_get f g l _ hn.2 q, List.getElem?_modify, Option.map_eq_map, Option.map_map]
    congr 1
    funext v
    simp only [Function.comp, List.map_cons, List.mem_cons]
    by_cases e : f x = q
    · subst e
      simp [hn.1]
    · have : q ≠ f x := fun h => e h.symm
      simp [e, this]

/-- The delta that node with delta `d` and weights `ws` sends to the nodes `inputs` of the previous layer. -/
def push (i : Nat) (d : F) (ws : List F) (inputs : List (Pair F)) (us : List (View F)) : List (View F) :=
  inputs.foldl (fun us x => us.modify x.Index.toNat (fun v => v.setSlot i (bump (GoFloat.mul d ((ws[x.Index.toNat]?).getD GoFloat.zero))))) us

theorem push_get (i : Nat) (d : F) (ws : List F) (inputs : List (Pair F)) (us : List (View F)) (hn : (inputs.map (fun x => x.Index.toNat)).Nodup) (q : Nat) :
    (push i d ws inputs us)[q]? = (us[q]?).map (fun v => if q ∈ inputs.map (fun x => x.Index.toNat)
      then v.setSlot i (bump (GoFloat.mul d ((ws[q]?).getD GoFloat.zero))) else v) := by
  unfold push
  exact foldModify_get (fun x : Pair F => x.Index.toNat) (fun k v => v.setSlot i (bump (GoFloat.mul d ((ws[k]?).getD GoFloat.zero)))) inputs us hn q

theorem bump_act (x : F) (s : Slot F) : (bump x s).act = s.act := by
  unfold bump; split <;> rfl

theorem lastAct_modify (us : List (View F)) (k q i : Nat) (x : F) :
    lastAct (us.modify k (fun v => v.setSlot i (bump x))) q i = lastAct us q i := by
  unfold lastAct
  rw [List.getElem?_modify]
  cases us[q]? with
  | none => rfl
  | some v =>
    by_cases e : k = q
    · simp only [e, if_true, Option.map_eq_map, Option.map_some, View.setSlot, List.getElem?_modify]
      cases v.train[i]? with
      | none => rfl
      | some s => simp [bump_act]
    · simp [e]

theorem backFold_grad (lr d : F) (i : Nat) : ∀ (inputs : List (Pair F)) (st : Params F × List (View F)),
    (∀ x ∈ inputs, lastAct st.2 x.Index.toNat i = x.Value) →
    inputs.foldl (backStep true lr d i) st = ({ st.1 with t := addGrads d inputs st.1.t }, push i d st.1.weights inputs st.2)
  | [], _, _ => rfl
  | x :: l, st, h => by
    rw [List.foldl_cons, backFold_grad lr d i l]
    · unfold backStep addGrad push addGrads
      simp [h x (by simp)]
    · intro y hy
      unfold backStep
      dsimp only
      rw [lastAct_modify]
      exact h y (by simp [hy])

theorem firstGrads_grad (lr d : F) : ∀ (inputs : List (Pair F)) (P : Params F),
    firstGrads true lr d P inputs = { P with t := addGrads d inputs P.t }
  | [], _ => rfl
  | x :: l, P => by
    have := firstGrads_grad lr d l (addGrad true lr (GoFloat.mul d x.Value) x.Index.toNat P)
    unfold firstGrads at this ⊢
    rw [List.foldl_cons, this]
    unfold addGrad addGrads
    simp

theorem softView_set (i : Nat) (soft : Option (F × List Int)) (v : View F) : (softView i soft v).train.set i idle = v.train.set i idle := by
  unfold softView
  split
  · rfl
  · unfold View.setSlot
    apply List.ext_getElem?
    intro k
    simp only [List.getElem?_set, List.getElem?_modify, List.length_modify]
    by_cases e : i = k
    · simp [e]
    · simp [e]

theorem backView_grad (lr : F) (i : Nat) (soft : Option (F × List Int)) (first : Bool) (inputs : List (Pair F)) (v : View F) (us : List (View F))
    (h : first = false → ∀ x ∈ inputs, lastAct us x.Index.toNat i = x.Value) :
    backView true lr i soft first inputs v us = (accView i inputs (deltaAt (softView i soft v) i) v,
      if first then us else push i (deltaAt (softView i soft v) i) v.params.weights inputs us) := by
  unfold backView
  cases first with
  | true =>
    simp only [if_true]
    unfold backPropFirst accView biasGrad
    rw [firstGrads_grad, softView_set, softView_params]
    simp
  | false =>
    simp only [Bool.false_eq_true, if_false]
    unfold backProp accView biasGrad
    rw [backFold_grad lr _ i inputs _ (by exact h rfl), softView_set, softView_params]
    simp

theorem setSlot_setSlot (v : View F) (i : Nat) (f g : Slot F → Slot F) : (v.setSlot i f).setSlot i g = v.setSlot i (fun s => g (f s)) := by
  unfold View.setSlot
  congr 1
  apply List.ext_getElem?
  intro k
  simp only [List.getElem?_modify]
  by_cases e : i = k
  · simp only [e, if_true, Option.map_eq_map, Option.map_map]; rfl
  · simp [e]

theorem setSlot_id (v : View F) (i : Nat) : v.setSlot i (fun s => s) = v := by
  unfold View.setSlot
  have : v.train.modify i (fun s => s) = v.train := by
    apply List.ext_getElem?
    intro k
    rw [List.getElem?_modify]
    by_cases e : i = k <;> simp [e]
  rw [this]

/-- Back-propagation through the listed nodes of a layer. -/
theorem backLayer_grad (lr : F) (i : Nat) (soft : Option (F × List Int)) (first : Bool) (inputs : List (Pair F)) (D : Nat → F)
    (hi : first = false → (inputs.map (fun x => x.Index.toNat)).Nodup) :
    ∀ (pairs : List (Pair F)) (vs us : List (View F)) (_ : (pairs.map (fun x => x.Index.toNat)).Nodup)
      (_ : first = false → ∀ x ∈ inputs, lastAct us x.Index.toNat i = x.Value)
      (_ : ∀ pr ∈ pairs, ∃ v, vs[pr.Index.toNat]? = some v ∧ deltaAt (softView i soft v) i = D pr.Index.toNat),
    (∀ k, (backLayerV true lr i soft first inputs pairs (vs, us)).1[k]? =
      (vs[k]?).map (fun v => if k ∈ pairs.map (fun x => x.Index.toNat) then accView i inputs (D k) v else v)) ∧
    ∀ q, (backLayerV true lr i soft first inputs pairs (vs, us)).2[q]? =
      (us[q]?).map (fun u => if first = false ∧ q ∈ inputs.map (fun x => x.Index.toNat) then
        u.setSlot i (fun s => pairs.foldl (fun s pr => bump (GoFloat.mul (D pr.Index.toNat) (weightOf vs pr.Index.toNat q)) s) s) else u)
  | [], vs, us, _, _, _ => by
    refine ⟨fun k => by simp [backLayerV], fun q => ?_⟩
    simp only [backLayerV, List.foldl_nil]
    cases us[q]? with
    | none => rfl
    | some u => simp [setSlot_id]
  | pr :: pairs, vs, us, hn, hl, hD => by
    rw [List.map_cons, List.nodup_cons] at hn
    obtain ⟨v, hv, hd⟩ := hD pr (by simp)
    have hstep : backAt true lr i soft first inputs (vs, us) pr =
        (vs.set pr.Index.toNat (accView i inputs (D pr.Index.toNat) v),
          if first then us else push i (D pr.Index.toNat) v.params.weights inputs us) := by
      unfold backAt
      rw [hv]
      dsimp only
      rw [backView_grad lr i soft first inputs v us hl, hd]
    have hlt := (List.getElem?_eq_some_iff.mp hv).1
    have hW : ∀ k q, weightOf (vs.set pr.Index.toNat (accView i inputs (D pr.Index.toNat) v)) k q = weightOf vs k q := by
      intro k q
      unfold weightOf
      rw [List.getElem?_set]
      by_cases e : pr.Index.toNat = k
      · subst e
        rw [if_pos rfl, if_pos hlt, hv]
        rfl
      · rw [if_neg e]
    have hpg : first = false → ∀ q, (push i (D pr.Index.toNat) v.params.weights inputs us)[q]? = _ :=
      fun hf q => push_get i (D pr.Index.toNat) v.params.weights inputs us (hi hf) q
    obtain ⟨a, b⟩ := backLayer_grad lr i soft first inputs D hi pairs (vs.set pr.Index.toNat (accView i inputs (D pr.Index.toNat) v))
      (if first then us else push i (D pr.Index.toNat) v.params.weights inputs us) hn.2 (by
        intro hf x hx
        rw [hf]
        simp only [Bool.false_eq_true, if_false]
        rw [← hl hf x hx]
        unfold lastAct
        rw [hpg hf]
        cases us[x.Index.toNat]? with
        | none => rfl
        | some u =>
          have : x.Index.toNat ∈ inputs.map (fun x => x.Index.toNat) := List.mem_map_of_mem hx
          simp only [Option.map_some, this, if_true, View.setSlot, List.getElem?_modify, Option.map_eq_map]
          cases u.train[i]? with
          | none => rfl
          | some s => simp [bump_act]) (by
        intro p hp
        obtain ⟨v', hv', hd'⟩ := hD p (by simp [hp])
        refine ⟨v', ?_, hd'⟩
        rw [List.getElem?_set, if_neg, hv']
        intro e
        exact hn.1 (e ▸ List.mem_map_of_mem (f := fun x : Pair F => x.Index.toNat) hp))
    have hrun : backLayerV true lr i soft first inputs (pr :: pairs) (vs, us) = backLayerV true lr i soft first inputs pairs
        (vs.set pr.Index.toNat (accView i inputs (D pr.Index.toNat) v), if first then us else push i (D pr.Index.toNat) v.params.weights inputs us) := by
      unfold backLayerV
      rw [List.foldl_cons, hstep]
    refine ⟨fun k => ?_, fun q => ?_⟩
    · rw [hrun, a k, List.getElem?_set]
      by_cases e : pr.Index.toNat = k
      · subst e
        rw [if_pos rfl, if_pos hlt, hv]
        simp [hn.1]
      · have : k ≠ pr.Index.toNat := fun h => e h.symm
        simp [e, this]
    · rw [hrun, b q]
      cases hf : first with
      | true => simp
      | false =>
        simp only [Bool.false_eq_true, if_false, true_and]
        rw [hpg hf q, Option.map_map]
        congr 1
        funext u
        simp only [Function.comp]
        by_cases hq : q ∈ inputs.map (fun x => x.Index.toNat)
        · simp only [if_pos hq, setSlot_setSlot, List.foldl_cons, hW]
          congr 1
          funext s
          congr 3
          unfold weightOf
          rw [hv]
        · simp only [if_neg hq]

/-- The contributions of the nodes of the next layer to a delta that is 0. -/
theorem foldl_bump {β : Type} (f : β → F) : ∀ (l : List β) (s : Slot F), l.foldl (fun s x => bump (f x) s) s =
    if GoFloat.le s.act GoFloat.zero then s else { s with delta := l.foldl (fun acc x => GoFloat.add acc (f x)) s.delta }
  | [], s => by simp
  | x :: l, s => by
    rw [List.foldl_cons, foldl_bump f l, bump_act]
    by_cases h : GoFloat.le s.act GoFloat.zero = true
    · simp [h, bump]
    · simp [h, bump]

end Goslide.Network
