import Verif.Proofs.GradBack
import Verif.Proofs.NetworkProgress
/-
Both passes of one example, with Adam, in closed form.
-/
set_option linter.unusedSectionVars false
namespace Goslide.Network
open Goslide Node Lsh Configuration Spec.Node Spec.Network Layer Xcrepo
variable {F : Type} [GoFloat F]

/-- The inputs of layer `j`. -/
def inputsOf (B : List Bool) (V : List (List (View F))) (data : List (Pair F)) (S : List (List Int)) (j : Nat) : List (Pair F) :=
  ((data :: evaluate (B.zip V) data S)[j]?).getD []

theorem forward_get (i : Nat) : ∀ (B : List Bool) (V : List (List (View F))) (data : List (Pair F)) (S : List (List Int)) (j : Nat) (b : Bool)
    (vs : List (View F)) (ids : List Int), B[j]? = some b → V[j]? = some vs → S[j]? = some ids →
    (forwardV i (B.zip V) data S)[j]? = some (forwardViews b i vs (inputsOf B V data S j) ids) ∧
      (data :: evaluate (B.zip V) data S)[j + 1]? = some (outputs b vs (inputsOf B V data S j) ids)
  | [], _, _, _, j, _, _, _, h, _, _ => by simp at h
  | _ :: _, [], _, _, j, _, _, _, _, h, _ => by simp at h
  | _ :: _, _ :: _, _, [], j, _, _, _, _, _, h => by simp at h
  | b :: B, vs :: V, data, ids :: S, 0, _, _, _, rfl, rfl, rfl => by
    simp [forwardV, evaluate, inputsOf]
  | b :: B, vs :: V, data, ids :: S, j + 1, b', vs', ids', h1, h2, h3 => by
    have := forward_get i B V (outputs b vs data ids) S j b' vs' ids' (by simpa using h1) (by simpa using h2) (by simpa using h3)
    have e : inputsOf (b :: B) (vs :: V) data (ids :: S) (j + 1) = inputsOf B V (outputs b vs data ids) S j := by
      simp [inputsOf, evaluate]
    rw [List.zip_cons_cons, forwardV, evaluate, e, List.getElem?_cons_succ, List.getElem?_cons_succ]
    exact this

theorem accumulate_get (i : Nat) : ∀ (B : List Bool) (V : List (List (View F))) (data : List (Pair F)) (S : List (List Int)) (Ds : List (Nat → F)) (j : Nat)
    (vs : List (View F)) (ids : List Int) (D : Nat → F), B.length = V.length → V[j]? = some vs → S[j]? = some ids → Ds[j]? = some D →
    (accumulateAll i (B.zip V) data S Ds)[j]? = some (accumulate i (inputsOf B V data S j) ids D vs)
  | _, [], _, _, _, j, _, _, _, _, h, _, _ => by simp at h
  | [], _ :: _, _, _, _, _, _, _, _, h, _, _, _ => by simp at h
  | _ :: _, _ :: _, _, [], _, j, _, _, _, _, _, h, _ => by simp at h
  | _ :: _, _ :: _, _, _ :: _, [], j, _, _, _, _, _, _, h => by simp at h
  | b :: B, vs :: V, data, ids :: S, D :: Ds, 0, _, _, _, _, rfl, rfl, rfl => by
    simp [accumulateAll, inputsOf]
  | b :: B, vs :: V, data, ids :: S, D :: Ds, j + 1, vs', ids', D', h1, h2, h3, h4 => by
    have := accumulate_get i B V (outputs b vs data ids) S Ds j vs' ids' D' (by simpa using h1) (by simpa using h2) (by simpa using h3) (by simpa using h4)
    have e : inputsOf (b :: B) (vs :: V) data (ids :: S) (j + 1) = inputsOf B V (outputs b vs data ids) S j := by
      simp [inputsOf, evaluate]
    rw [List.zip_cons_cons, accumulateAll, e, List.getElem?_cons_succ]
    exact this

theorem accumulateAll_length (i : Nat) : ∀ (B : List Bool) (V : List (List (View F))) (data : List (Pair F)) (S : List (List Int)) (Ds : List (Nat → F)),
    B.length = V.length → S.length = V.length → Ds.length = V.length → (accumulateAll i (B.zip V) data S Ds).length = V.length
  | _, [], _, _, _, _, _, _ => by simp [accumulateAll]
  | b :: B, vs :: V, data, ids :: S, D :: Ds, h1, h2, h3 => by
    rw [List.zip_cons_cons, accumulateAll, List.length_cons, List.length_cons,
      accumulateAll_length i B V _ S Ds (by simpa using h1) (by simpa using h2) (by simpa using h3)]

theorem evaluate_length : ∀ (B : List Bool) (V : List (List (View F))) (data : List (Pair F)) (S : List (List Int)),
    B.length = V.length → S.length = V.length → (evaluate (B.zip V) data S).length = V.length
  | _, [], _, _, _, _ => by simp [evaluate]
  | b :: B, vs :: V, data, ids :: S, h1, h2 => by
    rw [List.zip_cons_cons, evaluate, List.length_cons, List.length_cons,
      evaluate_length B V _ S (by simpa using h1) (by simpa using h2)]

theorem deltas_length (labels : List Int) (norm : F) : ∀ (L : List (List (View F) × List (Pair F))), (deltas labels norm L).length = L.length
  | [] => rfl
  | [(_, _)] => rfl
  | (_, _) :: (us, out') :: rest => by
    rw [deltas, List.length_cons, deltas_length labels norm ((us, out') :: rest)]; rfl

theorem deltas_get (labels : List Int) (norm : F) : ∀ (L : List (List (View F) × List (Pair F))) (j : Nat) (vs us : List (View F)) (out out' : List (Pair F)),
    L[j]? = some (vs, out) → L[j + 1]? = some (us, out') →
    (deltas labels norm L)[j]? = some (fun q => pulled us out' (((deltas labels norm L)[j + 1]?).getD (fun _ => GoFloat.zero)) (valueAt out q) q)
  | [], _, _, _, _, _, h, _ => by simp at h
  | [(_, _)], _, _, _, _, _, _, h => by simp at h
  | (vs, out) :: (us, out') :: rest, 0, _, _, _, _, rfl, rfl => by
    simp [deltas, List.head?_eq_getElem?]
  | (_, _) :: (us, out') :: rest, j + 1, vs1, us1, o1, o1', h, h' => by
    have := deltas_get labels norm ((us, out') :: rest) j vs1 us1 o1 o1' (by simpa using h) (by simpa using h')
    rw [deltas, List.getElem?_cons_succ, List.getElem?_cons_succ]
    exact this

theorem deltas_last (labels : List Int) (norm : F) : ∀ (L : List (List (View F) × List (Pair F))) (j : Nat) (vs : List (View F)) (out : List (Pair F)),
    L[j]? = some (vs, out) → j + 1 = L.length →
    (deltas labels norm L)[j]? = some (fun k => match vs[k]? with
      | none => GoFloat.zero
      | some v => outDelta v.params labels norm (valueAt out k))
  | [], _, _, _, h, _ => by simp at h
  | [(_, _)], 0, _, _, rfl, _ => rfl
  | [(_, _)], j + 1, _, _, _, h => by simp at h
  | (vs, out) :: (us, out') :: rest, 0, _, _, _, h => by simp at h
  | (_, _) :: (us, out') :: rest, j + 1, vs1, o1, h, h' => by
    have := deltas_last labels norm ((us, out') :: rest) j vs1 o1 (by simpa using h) (by simpa using h')
    rw [deltas, List.getElem?_cons_succ]
    exact this

theorem valueAt_of {out : List (Pair F)} (hn : (at' out).Nodup) {pr : Pair F} (h : pr ∈ out) : valueAt out pr.Index.toNat = pr.Value := by
  induction out with
  | nil => simp at h
  | cons x l ih =>
    unfold at' at hn ih
    rw [List.map_cons, List.nodup_cons] at hn
    unfold valueAt
    rw [List.find?_cons]
    rcases List.mem_cons.mp h with rfl | h
    · simp
    · have : x.Index.toNat ≠ pr.Index.toNat := fun e => hn.1 (e ▸ List.mem_map_of_mem (f := fun x : Pair F => x.Index.toNat) h)
      simp only [this, decide_false]
      exact ih hn.2 h

theorem toNat_nodup {ids : List Int} (hn : ids.Nodup) (h0 : ∀ id ∈ ids, 0 ≤ id) : (ids.map Int.toNat).Nodup := by
  induction ids with
  | nil => simp
  | cons x l ih =>
    rw [List.nodup_cons] at hn
    rw [List.map_cons, List.nodup_cons]
    refine ⟨fun hm => ?_, ih hn.2 (fun id hid => h0 id (by simp [hid]))⟩
    obtain ⟨y, hy, e⟩ := List.mem_map.mp hm
    have := h0 x (by simp)
    have := h0 y (by simp [hy])
    exact hn.1 ((show y = x by omega) ▸ hy)

theorem at'_outputs (b : Bool) (vs : List (View F)) (data : List (Pair F)) (ids : List Int) : at' (outputs b vs data ids) = ids.map Int.toNat := by
  unfold at' outputs
  rw [List.map_map]; rfl

theorem mem_toNat {ids : List Int} (h0 : ∀ id ∈ ids, 0 ≤ id) (k : Nat) : k ∈ ids.map Int.toNat ↔ (k : Int) ∈ ids := by
  rw [List.mem_map]
  constructor
  · rintro ⟨y, hy, e⟩
    have := h0 y hy
    exact (show y = (k : Int) by omega) ▸ hy
  · intro h
    exact ⟨k, h, by simp⟩

/-- A node of the list after the forward pass. -/
theorem forward_slot {i : Nat} {ids : List Int} {vs : List (View F)} (h : Rested i ids vs) (b : Bool) (data : List (Pair F)) {pr : Pair F}
    (hpr : pr ∈ outputs b vs data ids) : ∃ v v0, vs[pr.Index.toNat]? = some v0 ∧ v.params = v0.params ∧
      (forwardViews b i vs data ids)[pr.Index.toNat]? = some v ∧ v.train[i]? = some ⟨true, pr.Value, GoFloat.zero⟩ := by
  obtain ⟨id, hid, rfl⟩ := List.mem_map.mp hpr
  obtain ⟨h0, v0, s, hv, hs, hd⟩ := h.slot id hid
  have hk : ((id.toNat : Nat) : Int) = id := by omega
  refine ⟨fired b i data (maxValue vs data ids) v0, v0, hv, rfl, ?_, ?_⟩
  · unfold forwardViews
    rw [mark_get]
    dsimp only
    rw [hv, Option.map_some, hk, if_pos hid]
  · unfold fired View.setSlot
    dsimp only
    rw [List.getElem?_modify, hs]
    simp only [if_true, Option.map_eq_map, Option.map_some]
    congr 1
    unfold outputOf valueOf
    rw [hv]
    dsimp only
    rw [hd]
    simp

theorem forward_listed {i : Nat} {ids : List Int} {vs : List (View F)} (h : Rested i ids vs) (b : Bool) (data : List (Pair F)) :
    Listed i (outputs b vs data ids) (forwardViews b i vs data ids) := by
  refine ⟨?_, fun pr hpr => ?_⟩
  · rw [at'_outputs]
    exact toNat_nodup h.nodup (fun id hid => (h.slot id hid).1)
  · obtain ⟨v, v0, -, -, hv, hs⟩ := forward_slot h b data hpr
    exact ⟨v, _, hv, hs, rfl⟩

theorem forward_zero {i : Nat} {ids : List Int} {vs : List (View F)} (h : Rested i ids vs) (b : Bool) (data : List (Pair F)) :
    ZeroAt i (outputs b vs data ids) (forwardViews b i vs data ids) := by
  intro pr hpr v s hv hs
  obtain ⟨v', v0, -, -, hv', hs'⟩ := forward_slot h b data hpr
  rw [hv'] at hv
  cases hv
  rw [hs'] at hs
  cases hs
  rfl

theorem accPairs_forward {i : Nat} {ids : List Int} {vs : List (View F)} (h : Rested i ids vs) (b : Bool) (data : List (Pair F)) (D : Nat → F) :
    accPairs i data (outputs b vs data ids) D (forwardViews b i vs data ids) = accumulate i data ids D vs := by
  unfold accPairs accumulate forwardViews mark
  apply List.ext_getElem?
  intro k
  simp only [List.getElem?_mapIdx, Option.map_map]
  congr 1
  funext v
  simp only [Function.comp, at'_outputs, mem_toNat (fun id hid => (h.slot id hid).1)]
  by_cases hk : (k : Int) ∈ ids
  · simp only [hk, if_true]
    unfold accView fired View.setSlot
    simp only [set_modify]
  · simp only [hk, if_false]

theorem forward_weight (b : Bool) (i : Nat) (vs : List (View F)) (data : List (Pair F)) (ids : List Int) (k q : Nat) :
    weightOf (forwardViews b i vs data ids) k q = weightOf vs k q := by
  unfold weightOf forwardViews
  rw [mark_get]
  cases vs[k]? with
  | none => rfl
  | some u =>
    simp only [Option.map_some]
    split <;> rfl

theorem softmaxSlot_delta (P : Params F) (norm : F) (labels : List Int) (s : Slot F) :
    (softmaxSlot P norm labels s).delta = outDelta P labels norm s.act := by
  unfold softmaxSlot outDelta
  simp only [intSliceContains_iff]

/-- Both passes of an example with the active nodes `S`: the active nodes accumulate their gradients, and nothing else changes. -/
theorem example_grad (lr : F) (B : List Bool) (i : Nat) (ex : Example F) (S : List (List Int)) (V : List (List (View F)))
    (hB : B.length = V.length) (hS : S.length = V.length)
    (hR : ∀ (j : Nat) (vs : List (View F)) (ids : List Int), V[j]? = some vs → S[j]? = some ids → Rested i ids vs) :
    exampleV true lr B i ex S V = accumulateAll i (B.zip V) ex.Features S
      (deltas ex.Labels (normOf (ex.Features :: evaluate (B.zip V) ex.Features S)) (V.zip (evaluate (B.zip V) ex.Features S))) := by
  have lf : (forwardV i (B.zip V) ex.Features S).length = V.length := forwardV_length i B V _ S hB hS
  have le : (evaluate (B.zip V) ex.Features S).length = V.length := evaluate_length B V _ S hB hS
  have hget : ∀ j, j < V.length → ∃ b vs ids, B[j]? = some b ∧ V[j]? = some vs ∧ S[j]? = some ids := fun j hj =>
    ⟨_, _, _, List.getElem?_eq_getElem (by omega), List.getElem?_eq_getElem hj, List.getElem?_eq_getElem (by omega)⟩
  unfold exampleV
  dsimp only
  generalize hnorm : normOf (ex.Features :: evaluate (B.zip V) ex.Features S) = norm
  generalize hacts : ex.Features :: evaluate (B.zip V) ex.Features S = acts
  generalize hL : V.zip (evaluate (B.zip V) ex.Features S) = L
  have lL : L.length = V.length := by rw [← hL, List.length_zip, le]; simp
  have lD := deltas_length ex.Labels norm L
  have hin : ∀ j, inputsOf B V ex.Features S j = (acts[j]?).getD [] := fun j => by rw [← hacts]; rfl
  have hfw : ∀ j b vs ids, B[j]? = some b → V[j]? = some vs → S[j]? = some ids →
      (forwardV i (B.zip V) ex.Features S)[j]? = some (forwardViews b i vs ((acts[j]?).getD []) ids) ∧
        acts[j + 1]? = some (outputs b vs ((acts[j]?).getD []) ids) ∧ L[j]? = some (vs, outputs b vs ((acts[j]?).getD []) ids) := by
    intro j b vs ids h1 h2 h3
    have := forward_get i B V ex.Features S j b vs ids h1 h2 h3
    rw [hin, hacts] at this
    refine ⟨this.1, this.2, ?_⟩
    have h4 := this.2
    rw [← hacts, List.getElem?_cons_succ, hacts] at h4
    rw [← hL, List.getElem?_zip_eq_some]
    exact ⟨h2, h4⟩
  generalize hD : deltas ex.Labels norm L = Ds at lD
  have hback := backward_grad lr i norm ex.Labels acts (fun j => (Ds[j]?).getD (fun _ => GoFloat.zero)) V.length
    (forwardV i (B.zip V) ex.Features S) (by omega) ?_ ?_ ?_ ?_
  · apply List.ext_getElem?
    intro j
    rw [hback j]
    by_cases hj : j < V.length
    · obtain ⟨b, vs, ids, h1, h2, h3⟩ := hget j hj
      obtain ⟨g1, g2, g3⟩ := hfw j b vs ids h1 h2 h3
      have hDj : Ds[j]? = some Ds[j] := List.getElem?_eq_getElem (by omega)
      rw [if_pos hj, g1, g2, Option.map_some, Option.getD_some, accPairs_forward (hR j vs ids h2 h3) b, hDj,
        accumulate_get i B V ex.Features S Ds j vs ids _ hB h2 h3 hDj, hin]
      rfl
    · rw [if_neg hj, List.getElem?_eq_none (by omega),
        List.getElem?_eq_none (by rw [accumulateAll_length i B V _ S Ds hB hS (by omega)]; omega)]
  · intro j ws hj hws
    obtain ⟨b, vs, ids, h1, h2, h3⟩ := hget j hj
    obtain ⟨g1, g2, g3⟩ := hfw j b vs ids h1 h2 h3
    rw [g1] at hws
    cases hws
    rw [g2]
    exact forward_listed (hR j vs ids h2 h3) b _
  · intro j ws hj hws
    obtain ⟨b, vs, ids, h1, h2, h3⟩ := hget j (by omega)
    obtain ⟨g1, g2, g3⟩ := hfw j b vs ids h1 h2 h3
    rw [g1] at hws
    cases hws
    rw [g2]
    exact forward_zero (hR j vs ids h2 h3) b _
  · intro j ws hj hws pr hpr
    obtain ⟨b, vs, ids, h1, h2, h3⟩ := hget j (by omega)
    obtain ⟨g1, g2, g3⟩ := hfw j b vs ids h1 h2 h3
    rw [g1] at hws
    cases hws
    rw [g2] at hpr
    obtain ⟨v, v0, hv0, hp, hv, hs⟩ := forward_slot (hR j vs ids h2 h3) b _ hpr
    refine ⟨v, hv, ?_⟩
    have hdl := deltas_last ex.Labels norm L j vs _ g3 (by omega)
    rw [hD] at hdl
    unfold softOf
    rw [if_pos (by omega), hdl]
    dsimp only [Option.getD_some]
    rw [hv0]
    dsimp only
    rw [valueAt_of (forward_listed (hR j vs ids h2 h3) b _).1 hpr]
    unfold deltaAt softView View.setSlot
    dsimp only
    rw [List.getElem?_modify, hs]
    simp only [if_true, Option.map_eq_map, Option.map_some]
    rw [softmaxSlot_delta, hp]
  · intro j us hj hus pr hpr
    obtain ⟨b, vs, ids, h1, h2, h3⟩ := hget j (by omega)
    obtain ⟨g1, g2, g3⟩ := hfw j b vs ids h1 h2 h3
    obtain ⟨b', vs', ids', h1', h2', h3'⟩ := hget (j + 1) hj
    obtain ⟨g1', g2', g3'⟩ := hfw (j + 1) b' vs' ids' h1' h2' h3'
    rw [g1'] at hus
    cases hus
    rw [g2] at hpr
    have hdg := deltas_get ex.Labels norm L j vs vs' _ _ g3 g3'
    rw [hD] at hdg
    rw [g2', pulled_weight (forward_weight b' i vs' _ ids'), hdg]
    dsimp only [Option.getD_some]
    rw [valueAt_of (forward_listed (hR j vs ids h2 h3) b _).1 hpr]

end Goslide.Network
