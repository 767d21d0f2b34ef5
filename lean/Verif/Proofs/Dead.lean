import Verif.Proofs.Active
/-
The passes of an example seen from a node of the first layer whose pre-activation is negative.
-/
set_option linter.unusedSectionVars false
namespace Goslide.Network
open Goslide Node Lsh Configuration Spec.Node Spec.Network Layer Xcrepo
variable {F : Type} [GoFloat F]

theorem modify_fixed {α : Type} {f : α → α} : ∀ (l : List α) (k : Nat), (∀ x, l[k]? = some x → f x = x) → l.modify k f = l
  | [], k, _ => by simp
  | x :: l, 0, h => by simp [h x rfl]
  | x :: l, k + 1, h => by rw [List.modify_succ_cons, modify_fixed l k (fun y hy => h y (by simpa using hy))]

/-- The deltas sent to previous node `i` do not reach it: it is not listed, or its activation is not positive. -/
def Deaf (k i : Nat) (inputs : List (Pair F)) (v : View F) : Prop :=
  (∀ x ∈ inputs, x.Index.toNat ≠ i) ∨ ∀ s, v.train[k]? = some s → GoFloat.le s.act (GoFloat.zero : F) = true

theorem deaf_fold {adam : Bool} {lr d : F} {k i : Nat} {v : View F} : ∀ (pairs : List (Pair F)) (st : Params F × List (View F)), Deaf k i pairs v →
    st.2[i]? = some v → (pairs.foldl (backStep adam lr d k) st).2[i]? = some v
  | [], st, _, h => h
  | x :: l, st, hd, h => by
    rw [List.foldl_cons]
    refine deaf_fold l _ (hd.imp_left fun hd y hy => hd y (by simp [hy])) ?_
    unfold backStep
    dsimp only
    rw [List.getElem?_modify, h]
    by_cases e : x.Index.toNat = i
    · rcases hd with hd | hd
      · exact absurd e (hd x (by simp))
      · simp only [if_pos e, Option.map_eq_map, Option.map_some]
        congr 1
        unfold View.setSlot
        rw [modify_fixed]
        intro s hs
        unfold bump
        rw [if_pos (hd s hs)]
    · simp only [if_neg e]; rfl

theorem deaf_layer {adam : Bool} {lr : F} {k i : Nat} {soft : Option (F × List Int)} {inputs : List (Pair F)} {v : View F} (hd : Deaf k i inputs v) :
    ∀ (pairs : List (Pair F)) (st : List (View F) × List (View F)), st.2[i]? = some v → (backLayerV adam lr k soft false inputs pairs st).2[i]? = some v
  | [], st, h => h
  | x :: l, st, h => by
    refine deaf_layer hd l (backAt adam lr k soft false inputs st x) ?_
    unfold backAt
    cases hv : st.1[x.Index.toNat]? with
    | none => exact h
    | some u => exact deaf_fold inputs ((softView k soft u).params, st.2) hd h

theorem first_layer {adam : Bool} {lr : F} {k i : Nat} {soft : Option (F × List Int)} {inputs : List (Pair F)} : ∀ (pairs : List (Pair F)) (st : List (View F) × List (View F)) {v : View F},
    (pairs.map (·.Index.toNat)).Nodup → st.1[i]? = some v → (backLayerV adam lr k soft true inputs pairs st).1[i]? =
      some (if i ∈ pairs.map (·.Index.toNat) then backPropFirst adam lr (deltaAt (softView k soft v) k) k (softView k soft v) inputs else v)
  | [], st, v, _, h => by simpa [backLayerV] using h
  | x :: l, st, v, hn, h => by
    rw [List.map_cons, List.nodup_cons] at hn
    have hlt := (List.getElem?_eq_some_iff.mp h).1
    by_cases e : x.Index.toNat = i
    · have h1 : (backAt adam lr k soft true inputs st x).1[i]? = some (backPropFirst adam lr (deltaAt (softView k soft v) k) k (softView k soft v) inputs) := by
        unfold backAt
        rw [e, h]
        exact List.getElem?_set_self hlt
      have := first_layer (adam := adam) (lr := lr) (k := k) (soft := soft) (inputs := inputs) l _ hn.2 h1
      rw [if_neg (by rw [← e]; exact hn.1)] at this
      rw [List.map_cons, if_pos (by simp [e])]
      exact this
    · have h1 : (backAt adam lr k soft true inputs st x).1[i]? = some v := by
        unfold backAt
        cases hv : st.1[x.Index.toNat]? with
        | none => exact h
        | some u => exact (List.getElem?_set_ne e).trans h
      have := first_layer (adam := adam) (lr := lr) (k := k) (soft := soft) (inputs := inputs) l _ hn.2 h1
      have hi : (i ∈ (x :: l).map (·.Index.toNat)) ↔ i ∈ l.map (·.Index.toNat) := by
        rw [List.map_cons, List.mem_cons]
        exact ⟨fun h => h.resolve_left (fun h => e h.symm), Or.inr⟩
      simp only [hi]
      exact this

/-- Back-propagation through all layers, seen from node `i` of the first of at least two layers. -/
theorem deaf_backward {adam : Bool} {lr : F} {k i : Nat} {norm : F} {labels : List Int} {acts : List (List (Pair F))} {v : View F}
    (hd : Deaf k i ((acts[1]?).getD []) v) (hn : (((acts[1]?).getD []).map (·.Index.toNat)).Nodup) : ∀ (n : Nat) (V : List (List (View F))), n + 1 ≤ V.length → 2 ≤ V.length →
    (V[0]?).bind (·[i]?) = some v → ((backwardV adam lr k norm labels acts (n + 1) V)[0]?).bind (·[i]?) =
      some (if i ∈ ((acts[1]?).getD []).map (·.Index.toNat) then backPropFirst adam lr (deltaAt v k) k v ((acts[0]?).getD []) else v)
  | 0, V, hl, h2, h => by
    rw [backwardV, backwardV]
    unfold setPair
    rw [if_pos rfl, List.getElem?_set_self (by omega), Option.bind_some]
    have hs : softOf (F := F) V.length 0 norm labels = none := by
      unfold softOf
      rw [if_neg (by omega)]
    unfold backwardAt
    rw [hs]
    refine first_layer _ _ hn ?_
    unfold getPair
    dsimp only
    rw [List.getElem?_eq_getElem (show 0 < V.length by omega), Option.bind_some] at h
    rw [List.getElem?_eq_getElem (show 0 < V.length by omega), Option.getD_some]
    exact h
  | n + 1, V, hl, h2, h => by
    rw [backwardV]
    refine deaf_backward hd hn n _ (by rw [setPair_length]; omega) (by rw [setPair_length]; omega) ?_
    unfold setPair
    rw [if_neg (by omega)]
    cases n with
    | zero =>
      rw [show 0 + 1 - 1 = 0 from rfl, List.getElem?_set_self (by rw [List.length_set]; omega), Option.bind_some]
      unfold backwardAt
      refine deaf_layer hd _ _ ?_
      unfold getPair
      dsimp only
      rw [if_neg (by omega), show 0 + 1 - 1 = 0 from rfl]
      rw [List.getElem?_eq_getElem (show 0 < V.length by omega), Option.bind_some] at h
      rw [List.getElem?_eq_getElem (show 0 < V.length by omega), Option.getD_some]
      exact h
    | succ n =>
      rw [List.getElem?_set_ne (by omega), List.getElem?_set_ne (by omega)]
      exact h

/-- The passes of an example, seen from a node of the first layer (which is no softmax layer and not the last one) with negative pre-activation: only the
back-propagation of a zero delta, if the node is active. -/
theorem dead_example {adam : Bool} {lr : F} {B : List Bool} {k i : Nat} {ex : Example F} {ids : List Int} {S : List (List Int)} {V : List (List (View F))} {v : View F}
    (hB : (false :: B).length = V.length) (hS : (ids :: S).length = V.length) (h2 : 2 ≤ V.length) (hn : ids.Nodup) (hnn : ∀ id ∈ ids, 0 ≤ id)
    (hv : (V[0]?).bind (·[i]?) = some v) (hc : Clamped v.params ex.Features = true) (hz : GoFloat.le (GoFloat.zero : F) GoFloat.zero = true) :
    ∃ v', ((exampleV adam lr (false :: B) k ex (ids :: S) V)[0]?).bind (·[i]?) = some v' ∧
      v'.params = if (i : Int) ∈ ids then biasGrad adam (fun m d => GoFloat.add m (GoFloat.add lr d)) GoFloat.zero (firstGrads adam lr GoFloat.zero v.params ex.Features) else v.params := by
  cases V with
  | nil => simp at h2
  | cons vs V =>
  rw [List.getElem?_cons_zero, Option.bind_some] at hv
  unfold exampleV
  dsimp only
  rw [List.zip_cons_cons, evaluate, forwardV]
  have hid : (outputs false vs ex.Features ids).map (·.Index.toNat) = ids.map Int.toNat := by
    unfold outputs
    rw [List.map_map]
    rfl
  have hmem : i ∈ ids.map Int.toNat ↔ (i : Int) ∈ ids := by
    rw [List.mem_map]
    constructor
    · rintro ⟨id, h1, h2⟩
      have := hnn id h1
      rw [show (i : Int) = id by omega]; exact h1
    · intro h
      exact ⟨i, h, by omega⟩
  have hnd : (ids.map Int.toNat).Nodup := by
    rw [List.nodup_iff_pairwise_ne, List.pairwise_map]
    refine (List.nodup_iff_pairwise_ne.mp hn).imp_of_mem ?_
    intro a b h1 h2 hab e
    have := hnn a h1
    have := hnn b h2
    omega
  generalize hm : maxValue vs ex.Features ids = m
  have hfor : (forwardViews false k vs ex.Features ids)[i]? = some (if (i : Int) ∈ ids then fired false k ex.Features m v else v) := by
    unfold forwardViews mark
    rw [List.getElem?_mapIdx, hv, hm]
    rfl
  generalize hv1 : (if (i : Int) ∈ ids then fired false k ex.Features m v else v) = v1 at hfor
  have hlen : (forwardV k (B.zip V) (outputs false vs ex.Features ids) S).length = V.length :=
    forwardV_length k B V _ S (by simpa using hB) (by simpa using hS)
  have key := deaf_backward (adam := adam) (lr := lr) (k := k) (i := i) (norm := normOf (ex.Features :: outputs false vs ex.Features ids :: evaluate (B.zip V) (outputs false vs ex.Features ids) S))
    (labels := ex.Labels) (acts := ex.Features :: outputs false vs ex.Features ids :: evaluate (B.zip V) (outputs false vs ex.Features ids) S) (v := v1) ?_ ?_ V.length
    (forwardViews false k vs ex.Features ids :: forwardV k (B.zip V) (outputs false vs ex.Features ids) S) (by simp [hlen]) (by simpa [hlen] using h2) (by simpa using hfor)
  · refine ⟨_, key, ?_⟩
    rw [List.getElem?_cons_succ, List.getElem?_cons_zero, Option.getD_some, hid]
    by_cases h : (i : Int) ∈ ids
    · rw [if_pos (hmem.mpr h), if_pos h]
      rw [if_pos h] at hv1
      have hp : v1.params = v.params := by rw [← hv1]; rfl
      have hdel : deltaAt v1 k = GoFloat.zero := by
        rw [← hv1]
        unfold deltaAt fired View.setSlot
        dsimp only
        rw [List.getElem?_modify]
        simp only [if_true]
        cases v.train[k]? with
        | none => rfl
        | some s => show (if Clamped v.params ex.Features = true then GoFloat.zero else s.delta) = _; rw [if_pos hc]
      unfold backPropFirst
      dsimp only
      rw [hdel, hp]
      rfl
    · rw [if_neg (fun h' => h (hmem.mp h')), if_neg h]
      rw [if_neg h] at hv1
      rw [hv1]
  · rw [List.getElem?_cons_succ, List.getElem?_cons_zero, Option.getD_some]
    by_cases h : (i : Int) ∈ ids
    · right
      intro s hs
      rw [← hv1, if_pos h] at hs
      unfold fired View.setSlot at hs
      dsimp only at hs
      rw [List.getElem?_modify] at hs
      simp only [if_true, Option.map_eq_map] at hs
      obtain ⟨s0, -, rfl⟩ := Option.map_eq_some_iff.mp hs
      show GoFloat.le (activation v.params ex.Features) GoFloat.zero = true
      unfold activation
      rw [if_pos hc]
      exact hz
    · left
      intro x hx e
      apply h
      rw [← hmem, ← hid]
      exact List.mem_map.mpr ⟨x, hx, e⟩
  · rw [List.getElem?_cons_succ, List.getElem?_cons_zero, Option.getD_some, hid]
    exact hnd

end Goslide.Network
