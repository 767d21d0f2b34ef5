import Verif.Proofs.GradLayer
/-
Back-propagation through all layers, with Adam, in closed form.
-/
set_option linter.unusedSectionVars false
namespace Goslide.Network
open Goslide Node Lsh Configuration Spec.Node Spec.Network Layer Xcrepo
variable {F : Type} [GoFloat F]

/-- The ids of the listed nodes. -/
abbrev at' (pairs : List (Pair F)) : List Nat := pairs.map (fun x => x.Index.toNat)

/-- `accumulate` with the outputs of the layer in place of the ids. -/
def accPairs (i : Nat) (data pairs : List (Pair F)) (D : Nat → F) (vs : List (View F)) : List (View F) :=
  vs.mapIdx (fun k v => if k ∈ at' pairs then accView i data (D k) v else v)

/-- The listed nodes have a training state for input `i` with the listed activation. -/
def Listed (i : Nat) (pairs : List (Pair F)) (vs : List (View F)) : Prop :=
  (at' pairs).Nodup ∧ ∀ pr ∈ pairs, ∃ v s, vs[pr.Index.toNat]? = some v ∧ v.train[i]? = some s ∧ s.act = pr.Value

/-- The delta of input `i` is 0 in the listed nodes. -/
def ZeroAt (i : Nat) (pairs : List (Pair F)) (vs : List (View F)) : Prop :=
  ∀ pr ∈ pairs, ∀ v s, vs[pr.Index.toNat]? = some v → v.train[i]? = some s → s.delta = GoFloat.zero

theorem Listed.acts {i : Nat} {pairs : List (Pair F)} {vs : List (View F)} (h : Listed i pairs vs) :
    ∀ x ∈ pairs, lastAct vs x.Index.toNat i = x.Value := by
  intro x hx
  obtain ⟨v, s, hv, hs, ha⟩ := h.2 x hx
  unfold lastAct
  rw [hv]
  dsimp only
  rw [hs]
  exact ha

/-- A layer that received the deltas of the next layer. -/
def received (i : Nat) (inputs pairs : List (Pair F)) (D : Nat → F) (vs : List (View F)) (us : List (View F)) : List (View F) :=
  us.mapIdx (fun q u => if q ∈ at' inputs then
    u.setSlot i (fun s => pairs.foldl (fun s pr => bump (GoFloat.mul (D pr.Index.toNat) (weightOf vs pr.Index.toNat q)) s) s) else u)

theorem backLayer_grad' (lr : F) (i : Nat) (soft : Option (F × List Int)) (first : Bool) (inputs pairs : List (Pair F)) (D : Nat → F)
    (vs us : List (View F)) (hp : (at' pairs).Nodup) (hl : first = false → Listed i inputs us)
    (hD : ∀ pr ∈ pairs, ∃ v, vs[pr.Index.toNat]? = some v ∧ deltaAt (softView i soft v) i = D pr.Index.toNat) :
    backLayerV true lr i soft first inputs pairs (vs, us) =
      (accPairs i inputs pairs D vs, if first then us else received i inputs pairs D vs us) := by
  obtain ⟨a, b⟩ := backLayer_grad lr i soft first inputs D (fun hf => (hl hf).1) pairs vs us hp (fun hf => (hl hf).acts) hD
  refine Prod.ext ?_ ?_
  · apply List.ext_getElem?
    intro k
    rw [a k]
    unfold accPairs
    rw [List.getElem?_mapIdx]
  · apply List.ext_getElem?
    intro k
    rw [b k]
    cases first with
    | true => simp
    | false =>
      simp only [Bool.false_eq_true, if_false, true_and]
      unfold received
      rw [List.getElem?_mapIdx]

theorem set_modify {α : Type} (l : List α) (i : Nat) (f : α → α) (x : α) : (l.modify i f).set i x = l.set i x := by
  apply List.ext_getElem?
  intro k
  simp only [List.getElem?_set, List.getElem?_modify, List.length_modify]
  by_cases e : i = k
  · simp [e]
  · simp [e]

/-- What was in the training state does not matter for what is accumulated. -/
theorem accPairs_received (i : Nat) (data inputs pairs : List (Pair F)) (D E : Nat → F) (vs us : List (View F)) :
    accPairs i data inputs E (received i inputs pairs D vs us) = accPairs i data inputs E us := by
  unfold accPairs received
  apply List.ext_getElem?
  intro k
  simp only [List.getElem?_mapIdx, Option.map_map]
  congr 1
  funext v
  simp only [Function.comp]
  by_cases h : k ∈ at' inputs
  · simp only [h, if_true]
    unfold accView View.setSlot
    simp only [set_modify]
  · simp only [h, if_false]

theorem received_listed {i : Nat} {inputs pairs : List (Pair F)} {D : Nat → F} {vs us : List (View F)} (h : Listed i inputs us) :
    Listed i inputs (received i inputs pairs D vs us) := by
  refine ⟨h.1, fun pr hpr => ?_⟩
  obtain ⟨v, s, hv, hs, ha⟩ := h.2 pr hpr
  have hm : pr.Index.toNat ∈ at' inputs := List.mem_map_of_mem hpr
  let f : Slot F → Slot F := fun s => pairs.foldl (fun s p => bump (GoFloat.mul (D p.Index.toNat) (weightOf vs p.Index.toNat pr.Index.toNat)) s) s
  refine ⟨v.setSlot i f, f s, ?_, ?_, ?_⟩
  · unfold received
    rw [List.getElem?_mapIdx, hv, Option.map_some, if_pos hm]
  · unfold View.setSlot
    dsimp only
    rw [List.getElem?_modify, hs]
    simp only [if_true, Option.map_eq_map, Option.map_some]
  · show (List.foldl _ _ _ : Slot F).act = _
    rw [foldl_bump]
    split <;> exact ha

theorem received_delta {i : Nat} {inputs pairs : List (Pair F)} {D : Nat → F} {vs us : List (View F)} (h : Listed i inputs us) (hz : ZeroAt i inputs us)
    {pr : Pair F} (hpr : pr ∈ inputs) : ∃ v, (received i inputs pairs D vs us)[pr.Index.toNat]? = some v ∧
      deltaAt v i = pulled vs pairs D pr.Value pr.Index.toNat := by
  obtain ⟨v, s, hv, hs, ha⟩ := h.2 pr hpr
  have hm : pr.Index.toNat ∈ at' inputs := List.mem_map_of_mem hpr
  refine ⟨_, by unfold received; rw [List.getElem?_mapIdx, hv, Option.map_some, if_pos hm], ?_⟩
  unfold deltaAt View.setSlot
  dsimp only
  rw [List.getElem?_modify, hs]
  simp only [if_true, Option.map_eq_map, Option.map_some]
  rw [foldl_bump, ha, hz pr hpr v s hv hs]
  unfold pulled
  split
  · exact hz pr hpr v s hv hs
  · rfl

theorem received_weight (i : Nat) (inputs pairs : List (Pair F)) (D : Nat → F) (vs us : List (View F)) (k q : Nat) :
    weightOf (received i inputs pairs D vs us) k q = weightOf us k q := by
  unfold weightOf received
  rw [List.getElem?_mapIdx]
  cases us[k]? with
  | none => rfl
  | some u =>
    simp only [Option.map_some]
    split <;> rfl

theorem pulled_weight {us us' : List (View F)} (h : ∀ k q, weightOf us' k q = weightOf us k q) (out : List (Pair F)) (D : Nat → F) (act : F) (q : Nat) :
    pulled us' out D act q = pulled us out D act q := by
  unfold pulled
  simp only [h]

/-- Back-propagation of input `i` through the layers `n-1, …, 0`. -/
theorem backward_grad (lr : F) (i : Nat) (norm : F) (labels : List Int) (acts : List (List (Pair F))) (Ds : Nat → Nat → F) :
    ∀ (n : Nat) (V : List (List (View F))) (_ : n ≤ V.length)
      (_ : ∀ j vs, j < n → V[j]? = some vs → Listed i ((acts[j + 1]?).getD []) vs)
      (_ : ∀ j vs, j + 1 < n → V[j]? = some vs → ZeroAt i ((acts[j + 1]?).getD []) vs)
      (_ : ∀ j vs, j + 1 = n → V[j]? = some vs → ∀ pr ∈ (acts[j + 1]?).getD [], ∃ v, vs[pr.Index.toNat]? = some v ∧
        deltaAt (softView i (softOf V.length j norm labels) v) i = Ds j pr.Index.toNat)
      (_ : ∀ j us, j + 1 < n → V[j + 1]? = some us → ∀ pr ∈ (acts[j + 1]?).getD [],
        Ds j pr.Index.toNat = pulled us ((acts[j + 2]?).getD []) (Ds (j + 1)) pr.Value pr.Index.toNat) (j : Nat),
    (backwardV true lr i norm labels acts n V)[j]? =
      if j < n then (V[j]?).map (accPairs i ((acts[j]?).getD []) ((acts[j + 1]?).getD []) (Ds j)) else V[j]?
  | 0, V, _, _, _, _, _, j => by simp [backwardV]
  | n + 1, V, hn, hL, hZ, hlast, hrec, j => by
    have hVn : V[n]? = some V[n] := List.getElem?_eq_getElem (by omega)
    generalize V[n] = vs at hVn
    have hL' := hL n vs (by omega) hVn
    have hD := hlast n vs rfl hVn
    by_cases h0 : n = 0
    · subst h0
      have hat : backwardAt true lr i norm labels acts 0 V = (accPairs i ((acts[0]?).getD []) ((acts[0 + 1]?).getD []) (Ds 0) vs, []) := by
        unfold backwardAt getPair
        rw [hVn, if_pos rfl]
        exact backLayer_grad' lr i _ true _ _ (Ds 0) vs [] hL'.1 (fun h => by simp at h) hD
      rw [backwardV, backwardV, hat]
      unfold setPair
      rw [if_pos rfl, List.getElem?_set]
      by_cases e : j = 0
      · subst e
        rw [if_pos rfl, if_pos (by omega), if_pos (by omega), hVn]; rfl
      · rw [if_neg (fun h => e h.symm), if_neg (by omega)]
    · obtain ⟨m, rfl⟩ : ∃ m, n = m + 1 := ⟨n - 1, by omega⟩
      have hVm : V[m]? = some V[m] := List.getElem?_eq_getElem (by omega)
      generalize V[m] = us at hVm
      have hLm := hL m us (by omega) hVm
      have hZm := hZ m us (by omega) hVm
      have hat : backwardAt true lr i norm labels acts (m + 1) V =
          (accPairs i ((acts[m + 1]?).getD []) ((acts[m + 1 + 1]?).getD []) (Ds (m + 1)) vs,
            received i ((acts[m + 1]?).getD []) ((acts[m + 1 + 1]?).getD []) (Ds (m + 1)) vs us) := by
        unfold backwardAt getPair
        rw [hVn, if_neg (by omega), show m + 1 - 1 = m from rfl, hVm]
        exact backLayer_grad' lr i _ false _ _ (Ds (m + 1)) vs us hL'.1 (fun _ => hLm) hD
      rw [backwardV, hat]
      have hset : ∀ k, (setPair V (m + 1) (accPairs i ((acts[m + 1]?).getD []) ((acts[m + 1 + 1]?).getD []) (Ds (m + 1)) vs,
            received i ((acts[m + 1]?).getD []) ((acts[m + 1 + 1]?).getD []) (Ds (m + 1)) vs us))[k]? =
          if k = m then some (received i ((acts[m + 1]?).getD []) ((acts[m + 1 + 1]?).getD []) (Ds (m + 1)) vs us)
          else if k = m + 1 then some (accPairs i ((acts[m + 1]?).getD []) ((acts[m + 1 + 1]?).getD []) (Ds (m + 1)) vs) else V[k]? := by
        intro k
        unfold setPair
        rw [if_neg (by omega), show m + 1 - 1 = m from rfl, List.getElem?_set, List.getElem?_set, List.length_set]
        by_cases e : k = m
        · subst e; simp [show k < V.length by omega]
        · by_cases e' : k = m + 1
          · subst e'; simp [show m + 1 < V.length by omega]
          · rw [if_neg (fun h => e h.symm), if_neg (fun h => e' h.symm), if_neg e, if_neg e']
      have hlen : (setPair V (m + 1) (accPairs i ((acts[m + 1]?).getD []) ((acts[m + 1 + 1]?).getD []) (Ds (m + 1)) vs,
            received i ((acts[m + 1]?).getD []) ((acts[m + 1 + 1]?).getD []) (Ds (m + 1)) vs us)).length = V.length := setPair_length _ _ _
      generalize setPair V (m + 1) (accPairs i ((acts[m + 1]?).getD []) ((acts[m + 1 + 1]?).getD []) (Ds (m + 1)) vs,
            received i ((acts[m + 1]?).getD []) ((acts[m + 1 + 1]?).getD []) (Ds (m + 1)) vs us) = V' at hset hlen ⊢
      have ih := backward_grad lr i norm labels acts Ds (m + 1) V' (by omega) ?_ ?_ ?_ ?_ j
      · rw [ih]
        by_cases e : j = m
        · subst e
          rw [if_pos (by omega), if_pos (by omega), hset, if_pos rfl, hVm, Option.map_some, Option.map_some, accPairs_received]
        · by_cases e' : j = m + 1
          · subst e'
            rw [if_neg (by omega), if_pos (by omega), hset, if_neg (by omega), if_pos rfl, hVn]; rfl
          · rw [hset, if_neg e, if_neg e']
            by_cases h : j < m + 1
            · rw [if_pos h, if_pos (by omega)]
            · rw [if_neg h, if_neg (by omega)]
      · intro k ws hk hws
        rw [hset] at hws
        by_cases e : k = m
        · subst e
          rw [if_pos rfl] at hws
          cases hws
          exact received_listed hLm
        · rw [if_neg e, if_neg (by omega)] at hws
          exact hL k ws (by omega) hws
      · intro k ws hk hws
        rw [hset, if_neg (by omega), if_neg (by omega)] at hws
        exact hZ k ws (by omega) hws
      · intro k ws hk hws pr hpr
        obtain rfl : k = m := by omega
        rw [hset, if_pos rfl] at hws
        cases hws
        obtain ⟨v, hv, hd⟩ := received_delta (pairs := (acts[k + 1 + 1]?).getD []) (D := Ds (k + 1)) (vs := vs) hLm hZm hpr
        refine ⟨v, hv, ?_⟩
        have hs : softOf V'.length k norm labels = none := by
          unfold softOf; rw [if_neg (by omega)]
        rw [hs, hrec k vs (by omega) hVn pr hpr]
        exact hd
      · intro k ws hk hws pr hpr
        rw [hset] at hws
        by_cases e : k + 1 = m
        · subst e
          rw [if_pos rfl] at hws
          cases hws
          rw [hrec k us (by omega) hVm pr hpr]
          exact (pulled_weight (received_weight i _ _ _ vs us) _ _ _ _).symm
        · rw [if_neg e, if_neg (by omega)] at hws
          exact hrec k ws (by omega) hws pr hpr

end Goslide.Network
