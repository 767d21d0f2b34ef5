import Verif.Go.FloatNaN
import Verif.Proofs.Active
import Verif.Proofs.GradStill
import Verif.Proofs.NetworkSettled
/-
NaN in a training step: how it lasts and how it spreads.
-/
set_option linter.unusedSectionVars false
namespace Goslide.Network
open Goslide Node Lsh Configuration Spec.Node Spec.Network Layer Xcrepo
variable {F : Type} [GoFloat F]

/-! ### What back-propagation cannot undo -/

/-- Node `i` of layer `j` has the property `q`. -/
def HoldsAt (q : Params F → Prop) (j i : Nat) (V : List (List (View F))) : Prop := ∃ vs v, V[j]? = some vs ∧ vs[i]? = some v ∧ q v.params

/-- Gradients do not undo the property `q`. -/
structure Lasting (adam : Bool) (q : Params F → Prop) : Prop where
  grad : ∀ lr g k P, q P → q (addGrad adam lr g k P)
  bias : ∀ lr d P, q P → q (biasGrad adam (fun m d => GoFloat.add m (GoFloat.mul lr d)) d P)
  biasFirst : ∀ lr d P, q P → q (biasGrad adam (fun m d => GoFloat.add m (GoFloat.add lr d)) d P)

variable {adam : Bool} {q : Params F → Prop}

theorem Lasting.fold (h : Lasting adam q) (lr d : F) (i : Nat) : ∀ (pairs : List (Pair F)) (st : Params F × List (View F)), q st.1 →
    q (pairs.foldl (backStep adam lr d i) st).1
  | [], _, hq => hq
  | x :: l, st, hq => h.fold lr d i l (backStep adam lr d i st x) (h.grad _ _ _ _ hq)

theorem Lasting.first (h : Lasting adam q) (lr d : F) : ∀ (pairs : List (Pair F)) (P : Params F), q P → q (firstGrads adam lr d P pairs)
  | [], _, hq => hq
  | _ :: l, _, hq => h.first lr d l _ (h.grad _ _ _ _ hq)

theorem Lasting.back (h : Lasting adam q) (lr : F) (k : Nat) (soft : Option (F × List Int)) (first : Bool) (inputs : List (Pair F)) (v : View F) (us : List (View F))
    (hq : q v.params) : q (backView adam lr k soft first inputs v us).1.params := by
  unfold backView
  cases first with
  | true =>
    rw [if_pos rfl]
    exact h.biasFirst _ _ _ (h.first _ _ _ _ (by rw [softView_params]; exact hq))
  | false =>
    rw [if_neg (by decide)]
    exact h.bias _ _ _ (h.fold _ _ _ _ _ (by show q (softView k soft v).params; rw [softView_params]; exact hq))

theorem Lasting.at (h : Lasting adam q) {lr : F} {k : Nat} {soft : Option (F × List Int)} {first : Bool} {inputs : List (Pair F)} {i : Nat} (x : Pair F)
    (st : List (View F) × List (View F)) (hi : ∃ v, st.1[i]? = some v ∧ q v.params) :
    ∃ v, (backAt adam lr k soft first inputs st x).1[i]? = some v ∧ q v.params := by
  obtain ⟨v, hv, hq⟩ := hi
  unfold backAt
  cases hx : st.1[x.Index.toNat]? with
  | none => exact ⟨v, hv, hq⟩
  | some u =>
    dsimp only
    by_cases e : x.Index.toNat = i
    · subst e
      rw [hv] at hx
      cases hx
      rw [List.getElem?_set_self (List.getElem?_eq_some_iff.mp hv).1]
      exact ⟨_, rfl, h.back _ _ _ _ _ _ _ hq⟩
    · rw [List.getElem?_set_ne e]
      exact ⟨v, hv, hq⟩

theorem Lasting.layer (h : Lasting adam q) {lr : F} {k : Nat} {soft : Option (F × List Int)} {first : Bool} {inputs : List (Pair F)} {i : Nat} :
    ∀ (pairs : List (Pair F)) (st : List (View F) × List (View F)), (∃ v, st.1[i]? = some v ∧ q v.params) →
    ∃ v, (backLayerV adam lr k soft first inputs pairs st).1[i]? = some v ∧ q v.params
  | [], _, hi => hi
  | x :: l, st, hi => h.layer l (backAt adam lr k soft first inputs st x) (h.at x st hi)

theorem setPair_self {V : List (List (View F))} {n : Nat} {r : List (View F) × List (View F)} (h : n < V.length) : (setPair V n r)[n]? = some r.1 := by
  unfold setPair
  split
  · rw [List.getElem?_set_self h]
  · rw [List.getElem?_set_ne (by omega), List.getElem?_set_self h]

theorem setPair_prev {V : List (List (View F))} {n : Nat} {r : List (View F) × List (View F)} (h : n + 1 < V.length) : (setPair V (n + 1) r)[n]? = some r.2 := by
  unfold setPair
  rw [if_neg (by omega), Nat.add_sub_cancel, List.getElem?_set_self (by rw [List.length_set]; omega)]

theorem setPair_other {V : List (List (View F))} {n j : Nat} {r : List (View F) × List (View F)} (h1 : j ≠ n) (h2 : j + 1 ≠ n) : (setPair V n r)[j]? = V[j]? := by
  unfold setPair
  split
  · rw [List.getElem?_set_ne (by omega)]
  · rw [List.getElem?_set_ne (by omega), List.getElem?_set_ne (by omega)]

theorem getPair_self {V : List (List (View F))} {n : Nat} {vs : List (View F)} (h : V[n]? = some vs) : (getPair V n).1 = vs := by
  unfold getPair
  rw [h]
  rfl

theorem getPair_prev {V : List (List (View F))} {n : Nat} {vs : List (View F)} (h : V[n]? = some vs) : (getPair V (n + 1)).2 = vs := by
  unfold getPair
  rw [if_neg (by omega), Nat.add_sub_cancel, h]
  rfl

theorem Lasting.backward (h : Lasting adam q) {lr : F} {j i : Nat} (k : Nat) (norm : F) (labels : List Int) (acts : List (List (Pair F))) :
    ∀ (n : Nat) (V : List (List (View F))), n ≤ V.length → HoldsAt q j i V → HoldsAt q j i (backwardV adam lr k norm labels acts n V)
  | 0, _, _, hq => hq
  | n + 1, V, hn, hq => by
    rw [backwardV]
    refine h.backward k norm labels acts n _ (by rw [setPair_length]; omega) ?_
    obtain ⟨vs, v, h1, h2, h3⟩ := hq
    by_cases hj : j = n
    · subst hj
      obtain ⟨v', h4, h5⟩ := h.layer (lr := lr) (k := k) (soft := softOf V.length j norm labels) (first := j == 0) (inputs := (acts[j]?).getD []) ((acts[j + 1]?).getD [])
        (getPair V j) ⟨v, by rw [getPair_self h1]; exact h2, h3⟩
      exact ⟨_, v', setPair_self (by omega), h4, h5⟩
    · by_cases hj' : j + 1 = n
      · subst hj'
        have e := keeps_prev (φ := View.params) (fun _ _ _ => rfl) adam lr k (softOf V.length (j + 1) norm labels) (j + 1 == 0) ((acts[j + 1]?).getD []) ((acts[j + 1 + 1]?).getD [])
          (getPair V (j + 1))
        have e := congrArg (fun l => l[i]?) e
        simp only [List.getElem?_map] at e
        rw [getPair_prev h1, h2] at e
        obtain ⟨v', h4, h5⟩ := Option.map_eq_some_iff.mp e
        exact ⟨_, v', setPair_prev (by omega), h4, by rw [h5]; exact h3⟩
      · exact ⟨vs, v, by rw [setPair_other hj hj']; exact h1, h2, h3⟩

theorem holdsAt_look {j i : Nat} {V : List (List (View F))} : HoldsAt q j i V ↔ ∃ P, look View.params j i V = some P ∧ q P := by
  unfold look
  constructor
  · rintro ⟨vs, v, h1, h2, h3⟩
    exact ⟨v.params, by rw [h1, Option.bind_some, h2, Option.map_some], h3⟩
  · rintro ⟨P, h, hq⟩
    obtain ⟨v, h1, rfl⟩ := Option.map_eq_some_iff.mp h
    obtain ⟨vs, h2, h3⟩ := Option.bind_eq_some_iff.mp h1
    exact ⟨vs, v, h2, h3, hq⟩

theorem Lasting.example (h : Lasting adam q) {lr : F} (B : List Bool) {j i : Nat} (k : Nat) (ex : Example F) {S : List (List Int)} (V : List (List (View F)))
    (hB : B.length = V.length) (hS : S.length = V.length) (hq : HoldsAt q j i V) : HoldsAt q j i (exampleV adam lr B k ex S V) := by
  unfold exampleV
  dsimp only
  refine h.backward _ _ _ _ _ _ (by rw [forwardV_length k B V _ S hB hS]; omega) ?_
  rw [holdsAt_look] at hq ⊢
  rw [keeps_forward (φ := View.params) (fun _ _ _ => rfl) k B V _ S j i hB hS]
  exact hq

theorem Lasting.batch (h : Lasting adam q) {lr : F} (B : List Bool) {j i : Nat} : ∀ (es : List (Example F)) (k : Nat) (T : List (List (List Int))) (V : List (List (View F))),
    B.length = V.length → (∀ S ∈ T, S.length = V.length) → HoldsAt q j i V → HoldsAt q j i (batchV adam lr B k es T V)
  | [], k, T, V, _, _, hq => by cases T <;> exact hq
  | ex :: es, k, [], V, _, _, hq => hq
  | ex :: es, k, S :: T, V, hB, hT, hq => by
    have hl : (exampleV adam lr B k ex S V).length = V.length := by
      simpa using congrArg List.length ((dims_stable (F := F) adam).example lr B k ex S V hB (hT S (by simp)))
    rw [batchV]
    exact h.batch B es (k + 1) T _ (by rw [hl]; exact hB) (fun S' hS' => by rw [hl]; exact hT S' (by simp [hS'])) (h.example B k ex V hB (hT S (by simp)) hq)

/-! ### NaN -/

variable [FloatOrder F] [FloatNaN F]

local notation "nan" => FloatOrder.isNaN

/-- The bias will be NaN after the step. -/
def BadBias (adam : Bool) (P : Params F) : Prop := if adam then nan P.bias = true ∨ nan P.tBias = true else nan P.mirrorBias = true

/-- Weight `f` is NaN. -/
def BadWeight (f : Nat) (P : Params F) : Prop := ∃ x, P.weights[f]? = some x ∧ nan x = true

theorem badBias_grad (adam : Bool) (lr g : F) (k : Nat) (P : Params F) (h : BadBias adam P) : BadBias adam (addGrad adam lr g k P) := by
  unfold addGrad
  cases adam <;> exact h

theorem badBias_lasting : Lasting adam (BadBias (F := F) adam) := by
  refine ⟨fun lr g k P h => badBias_grad adam lr g k P h, fun lr d P h => ?_, fun lr d P h => ?_⟩ <;>
    unfold biasGrad <;> cases adam
  · exact FloatNaN.add_left _ _ h
  · exact h.imp_right (fun h => FloatNaN.add_left _ _ h)
  · exact FloatNaN.add_left _ _ h
  · exact h.imp_right (fun h => FloatNaN.add_left _ _ h)

theorem badWeight_lasting (f : Nat) : Lasting adam (BadWeight (F := F) f) := by
  refine ⟨fun lr g k P h => ?_, fun lr d P h => ?_, fun lr d P h => ?_⟩
  · unfold addGrad
    cases adam with
    | true => exact h
    | false =>
      obtain ⟨x, hx, hn⟩ := h
      unfold BadWeight
      rw [if_neg (by decide), List.getElem?_modify, hx]
      split
      · exact ⟨_, rfl, FloatNaN.add_left _ _ hn⟩
      · exact ⟨x, rfl, hn⟩
  · unfold biasGrad
    cases adam <;> exact h
  · unfold biasGrad
    cases adam <;> exact h

/-! ### Forward -/

/-- The values contain a NaN. -/
def Tainted (data : List (Pair F)) : Prop := ∃ x ∈ data, nan x.Value = true

theorem fold_nan {P : Params F} : ∀ (data : List (Pair F)) (acc : F), nan acc = true ∨ Tainted data →
    nan (data.foldl (fun acc x => GoFloat.add acc (GoFloat.mul ((P.weights[x.Index.toNat]?).getD GoFloat.zero) x.Value)) acc) = true
  | [], acc, h => by
    rcases h with h | ⟨x, hx, -⟩
    · exact h
    · cases hx
  | y :: l, acc, h => by
    refine fold_nan l _ ?_
    rcases h with h | ⟨x, hx, hn⟩
    · exact Or.inl (FloatNaN.add_left _ _ h)
    · rcases List.mem_cons.mp hx with rfl | hx
      · exact Or.inl (FloatNaN.add_right _ _ (FloatNaN.mul_right _ _ hn))
      · exact Or.inr ⟨x, hx, hn⟩

theorem activation_of_pre {P : Params F} {data : List (Pair F)} (h : nan (preActivation P data) = true) : activation P data = preActivation P data := by
  unfold activation Clamped
  rw [FloatOrder.lt_nan_left _ _ h, Bool.and_false]
  rfl

theorem activation_tainted (P : Params F) {data : List (Pair F)} (h : Tainted data) : nan (activation P data) = true := by
  have : nan (preActivation P data) = true := FloatNaN.add_left _ _ (fold_nan data _ (Or.inr h))
  rw [activation_of_pre this]
  exact this

theorem activation_bias {P : Params F} (h : nan P.bias = true) (data : List (Pair F)) : nan (activation P data) = true := by
  have : nan (preActivation P data) = true := FloatNaN.add_right _ _ h
  rw [activation_of_pre this]
  exact this

theorem outputOf_nan {b : Bool} {vs : List (View F)} {data : List (Pair F)} {ids : List Int} {id : Int} (h : nan (valueOf vs data id) = true) :
    nan (outputOf b vs data ids id) = true := by
  unfold outputOf
  cases b
  · exact h
  · exact FloatNaN.exp _ (FloatNaN.sub_left _ _ h)

/-- The activation stored for input `k` is NaN. -/
def Hot (k : Nat) (v : View F) : Prop := ∃ s, v.train[k]? = some s ∧ nan s.act = true

/-- So is the delta. -/
def Loud (k : Nat) (v : View F) : Prop := ∃ s, v.train[k]? = some s ∧ nan s.act = true ∧ nan s.delta = true

theorem outputs_tainted {b : Bool} {vs : List (View F)} {data : List (Pair F)} {ids : List Int} (hd : Tainted data) (hne : ids ≠ [])
    (hok : ∀ id ∈ ids, ∃ v, vs[id.toNat]? = some v) : Tainted (outputs b vs data ids) := by
  cases ids with
  | nil => exact absurd rfl hne
  | cons id l =>
    obtain ⟨v, hv⟩ := hok id (by simp)
    refine ⟨_, List.mem_map.mpr ⟨id, by simp, rfl⟩, outputOf_nan ?_⟩
    unfold valueOf
    rw [hv]
    exact activation_tainted _ hd

theorem forward_hot {k : Nat} {b : Bool} {vs : List (View F)} {data : List (Pair F)} {ids : List Int} (hd : Tainted data) {id : Int} (hid : id ∈ ids) (h0 : 0 ≤ id)
    {v : View F} (hv : vs[id.toNat]? = some v) (hk : k < v.train.length) : ∃ v', (forwardViews b k vs data ids)[id.toNat]? = some v' ∧ Hot k v' := by
  unfold forwardViews
  rw [mark_get, hv, Option.map_some, if_pos (by rw [Int.toNat_of_nonneg h0]; exact hid)]
  refine ⟨_, rfl, ?_⟩
  unfold fired View.setSlot Hot
  dsimp only
  rw [List.getElem?_modify_eq, List.getElem?_eq_getElem hk]
  refine ⟨_, rfl, ?_⟩
  dsimp only
  cases b
  · exact activation_tainted _ hd
  · exact FloatNaN.exp _ (FloatNaN.sub_left _ _ (activation_tainted _ hd))

theorem forwardV_hot (k : Nat) : ∀ (B : List Bool) (V : List (List (View F))) (data : List (Pair F)) (S : List (List Int)), B.length = V.length → S.length = V.length →
    Tainted data → (∀ ids ∈ S, ids ≠ []) →
    (∀ (j : Nat) (vs : List (View F)) (ids : List Int), V[j]? = some vs → S[j]? = some ids → ∀ id ∈ ids, 0 ≤ id ∧ ∃ v, vs[id.toNat]? = some v ∧ k < v.train.length) →
    ∀ (j : Nat) (ids : List Int), S[j]? = some ids → ∀ id ∈ ids, 0 ≤ id ∧ ∃ vs v, (forwardV k (B.zip V) data S)[j]? = some vs ∧ vs[id.toNat]? = some v ∧ Hot k v
  | [], [], _, [], _, _, _, _, _ => fun j ids h => by simp at h
  | b :: B, vs :: V, data, ids0 :: S, hB, hS, hd, hne, hok => by
    intro j ids hj id hid
    rw [List.zip_cons_cons, forwardV]
    cases j with
    | zero =>
      rw [List.getElem?_cons_zero, Option.some.injEq] at hj
      subst hj
      obtain ⟨h0, v, hv, hk⟩ := hok 0 vs ids0 rfl rfl id hid
      obtain ⟨v', h1, h2⟩ := forward_hot (b := b) hd hid h0 hv hk
      exact ⟨h0, _, v', rfl, h1, h2⟩
    | succ j =>
      have ht : Tainted (outputs b vs data ids0) := outputs_tainted hd (hne _ (by simp)) (fun id hid => by
        obtain ⟨-, v, hv, -⟩ := hok 0 vs ids0 rfl rfl id hid
        exact ⟨v, hv⟩)
      rw [List.getElem?_cons_succ] at hj ⊢
      exact forwardV_hot k B V _ S (by simpa using hB) (by simpa using hS) ht (fun x hx => hne x (by simp [hx]))
        (fun j vs' ids' h1 h2 => hok (j + 1) vs' ids' (by simpa using h1) (by simpa using h2)) j ids hj id hid

/-! ### Backward -/

theorem deltaAt_nan {k : Nat} {v : View F} (h : Loud k v) : nan (deltaAt v k) = true := by
  obtain ⟨s, hs, -, hd⟩ := h
  unfold deltaAt
  rw [hs]
  exact hd

theorem softView_loud {k : Nat} {norm : F} {labels : List Int} {v : View F} (h : Hot k v) : Loud k (softView k (some (norm, labels)) v) := by
  obtain ⟨s, hs, ha⟩ := h
  unfold softView View.setSlot Loud
  dsimp only
  rw [List.getElem?_modify_eq, hs]
  refine ⟨_, rfl, FloatNaN.div_left _ _ ha, ?_⟩
  unfold softmaxSlot
  dsimp only
  split
  · exact FloatNaN.sub_right _ _ (FloatNaN.div_left _ _ (FloatNaN.div_left _ _ ha))
  · exact FloatNaN.div_left _ _ (FloatNaN.neg _ (FloatNaN.div_left _ _ ha))

theorem back_bad {lr : F} {k : Nat} {soft : Option (F × List Int)} {first : Bool} {inputs : List (Pair F)} {v : View F} {us : List (View F)}
    (h : nan (deltaAt (softView k soft v) k) = true) : BadBias adam (backView adam lr k soft first inputs v us).1.params := by
  unfold backView
  cases first <;> cases adam
  · exact FloatNaN.add_right _ _ (FloatNaN.mul_right _ _ h)
  · exact Or.inr (FloatNaN.add_right _ _ h)
  · exact FloatNaN.add_right _ _ (FloatNaN.add_right _ _ h)
  · exact Or.inr (FloatNaN.add_right _ _ h)

theorem layer_bad {lr : F} {k : Nat} {soft : Option (F × List Int)} {first : Bool} {inputs : List (Pair F)} {i : Nat} {v : View F}
    (h : nan (deltaAt (softView k soft v) k) = true) : ∀ (pairs : List (Pair F)) (st : List (View F) × List (View F)), st.1[i]? = some v → i ∈ pairs.map (·.Index.toNat) →
    ∃ v', (backLayerV adam lr k soft first inputs pairs st).1[i]? = some v' ∧ BadBias adam v'.params
  | [], _, _, hi => by simp at hi
  | x :: l, st, hv, hi => by
    show ∃ v', (backLayerV adam lr k soft first inputs l (backAt adam lr k soft first inputs st x)).1[i]? = some v' ∧ _
    by_cases e : x.Index.toNat = i
    · refine badBias_lasting.layer l _ ?_
      unfold backAt
      rw [e, hv]
      dsimp only
      rw [List.getElem?_set_self (List.getElem?_eq_some_iff.mp hv).1]
      exact ⟨_, rfl, back_bad h⟩
    · refine layer_bad h l _ ?_ ?_
      · unfold backAt
        cases hx : st.1[x.Index.toNat]? with
        | none => exact hv
        | some u => dsimp only; rw [List.getElem?_set_ne e]; exact hv
      · rw [List.map_cons] at hi
        rcases List.mem_cons.mp hi with hi | hi
        · exact absurd hi.symm e
        · exact hi

theorem bump_loud {x : F} {s : Slot F} (ha : nan s.act = true) (h : nan s.delta = true ∨ nan x = true) : nan (bump x s).delta = true := by
  unfold bump
  rw [FloatNaN.le_left _ _ ha]
  rcases h with h | h
  · exact FloatNaN.add_left _ _ h
  · exact FloatNaN.add_right _ _ h

theorem setSlot_loud {x : F} {k : Nat} {u : View F} {s : Slot F} (hs : u.train[k]? = some s) (ha : nan s.act = true) (h : nan s.delta = true ∨ nan x = true) :
    Loud k (u.setSlot k (bump x)) := by
  refine ⟨bump x s, ?_, by rw [bump_act]; exact ha, bump_loud ha h⟩
  unfold View.setSlot
  dsimp only
  rw [List.getElem?_modify_eq, hs]
  rfl

theorem step_loud {lr d : F} {k m : Nat} {st : Params F × List (View F)} (x : Pair F) (h : ∃ u, st.2[m]? = some u ∧ Loud k u) :
    ∃ u, (backStep adam lr d k st x).2[m]? = some u ∧ Loud k u := by
  obtain ⟨u, hu, s, hs, ha, hd⟩ := h
  unfold backStep
  dsimp only
  rw [List.getElem?_modify, hu]
  split
  · exact ⟨_, rfl, setSlot_loud hs ha (Or.inl hd)⟩
  · exact ⟨u, rfl, s, hs, ha, hd⟩

theorem fold_loud {lr d : F} {k m : Nat} : ∀ (pairs : List (Pair F)) (st : Params F × List (View F)), (∃ u, st.2[m]? = some u ∧ Loud k u) →
    ∃ u, (pairs.foldl (backStep adam lr d k) st).2[m]? = some u ∧ Loud k u
  | [], _, h => h
  | x :: l, st, h => fold_loud l (backStep adam lr d k st x) (step_loud x h)

theorem fold_becomes {lr d : F} {k m : Nat} (hd : nan d = true) : ∀ (pairs : List (Pair F)) (st : Params F × List (View F)), (∃ u, st.2[m]? = some u ∧ Hot k u) →
    m ∈ pairs.map (·.Index.toNat) → ∃ u, (pairs.foldl (backStep adam lr d k) st).2[m]? = some u ∧ Loud k u
  | [], _, _, hm => by simp at hm
  | x :: l, st, h, hm => by
    obtain ⟨u, hu, s, hs, ha⟩ := h
    rw [List.foldl_cons]
    by_cases e : x.Index.toNat = m
    · refine fold_loud l _ ?_
      unfold backStep
      dsimp only
      rw [e, List.getElem?_modify_eq, hu]
      exact ⟨_, rfl, setSlot_loud hs ha (Or.inr (FloatNaN.mul_left _ _ hd))⟩
    · refine fold_becomes hd l _ ?_ ?_
      · unfold backStep
        dsimp only
        rw [List.getElem?_modify, hu]
        exact ⟨u, by simp [e], s, hs, ha⟩
      · rw [List.map_cons] at hm
        rcases List.mem_cons.mp hm with hm | hm
        · exact absurd hm.symm e
        · exact hm

theorem at_loud {lr : F} {k m : Nat} {soft : Option (F × List Int)} {inputs : List (Pair F)} (x : Pair F) (st : List (View F) × List (View F))
    (h : ∃ u, st.2[m]? = some u ∧ Loud k u) : ∃ u, (backAt adam lr k soft false inputs st x).2[m]? = some u ∧ Loud k u := by
  unfold backAt
  cases hx : st.1[x.Index.toNat]? with
  | none => exact h
  | some v => exact fold_loud inputs (_, st.2) h

theorem layer_loud {lr : F} {k m : Nat} {soft : Option (F × List Int)} {inputs : List (Pair F)} : ∀ (pairs : List (Pair F)) (st : List (View F) × List (View F)),
    (∃ u, st.2[m]? = some u ∧ Loud k u) → ∃ u, (backLayerV adam lr k soft false inputs pairs st).2[m]? = some u ∧ Loud k u
  | [], _, h => h
  | x :: l, st, h => layer_loud l (backAt adam lr k soft false inputs st x) (at_loud x st h)

theorem layer_becomes {lr : F} {k m : Nat} {soft : Option (F × List Int)} {inputs pairs : List (Pair F)} {st : List (View F) × List (View F)} {x : Pair F} {l : List (Pair F)}
    (hp : pairs = x :: l) {v : View F} (hv : st.1[x.Index.toNat]? = some v) (hd : nan (deltaAt (softView k soft v) k) = true) (h : ∃ u, st.2[m]? = some u ∧ Hot k u)
    (hm : m ∈ inputs.map (·.Index.toNat)) : ∃ u, (backLayerV adam lr k soft false inputs pairs st).2[m]? = some u ∧ Loud k u := by
  subst hp
  refine layer_loud l (backAt adam lr k soft false inputs st x) ?_
  unfold backAt
  rw [hv]
  exact fold_becomes hd inputs (_, st.2) h hm

theorem backward_bad {lr : F} {k : Nat} {norm : F} {labels : List Int} {acts : List (List (Pair F))} {S : List (List Int)} (hne : ∀ ids ∈ S, ids ≠ [])
    (hacts : ∀ j ids, S[j]? = some ids → ((acts[j + 1]?).getD []).map Pair.Index = ids) :
    ∀ (n : Nat) (V : List (List (View F))), n ≤ V.length → S.length = V.length →
    (∀ (j : Nat) (ids : List Int), j < n → S[j]? = some ids → ∀ id ∈ ids, 0 ≤ id ∧ ∃ vs v, V[j]? = some vs ∧ vs[id.toNat]? = some v ∧ Hot k v ∧
      (n < V.length → j + 1 = n → Loud k v)) →
    ∀ (j : Nat) (ids : List Int), j < n → S[j]? = some ids → ∀ id ∈ ids, HoldsAt (BadBias adam) j id.toNat (backwardV adam lr k norm labels acts n V)
  | 0, _, _, _, _ => fun j ids hj => by omega
  | n + 1, V, hn, hS, hok => by
    have hSn : n < S.length := by omega
    have hids := List.getElem?_eq_getElem hSn
    have hmem : ∀ (j : Nat) (ids : List Int), S[j]? = some ids → ∀ id ∈ ids, id.toNat ∈ ((acts[j + 1]?).getD []).map (·.Index.toNat) := fun j ids h id hid => by
      rw [← hacts j ids h] at hid
      obtain ⟨x, hx, rfl⟩ := List.mem_map.mp hid
      exact List.mem_map.mpr ⟨x, hx, rfl⟩
    have hdelta : ∀ id ∈ S[n], ∃ vs v, V[n]? = some vs ∧ vs[id.toNat]? = some v ∧ nan (deltaAt (softView k (softOf V.length n norm labels) v) k) = true := fun id hid => by
      obtain ⟨-, vs, v, h1, h2, hot, loud⟩ := hok n _ (by omega) hids id hid
      refine ⟨vs, v, h1, h2, deltaAt_nan ?_⟩
      unfold softOf
      split
      · exact softView_loud hot
      · exact loud (by omega) rfl
    intro j ids hj hSj id hid
    rw [backwardV]
    by_cases e : j = n
    · subst e
      rw [hids, Option.some.injEq] at hSj
      subst hSj
      refine badBias_lasting.backward _ _ _ _ _ _ (by rw [setPair_length]; omega) ?_
      obtain ⟨vs, v, h1, h2, hd⟩ := hdelta id hid
      obtain ⟨v', h3, h4⟩ := layer_bad (adam := adam) (lr := lr) (first := j == 0) (inputs := (acts[j]?).getD []) hd ((acts[j + 1]?).getD []) (getPair V j)
        (by rw [getPair_self h1]; exact h2) (hmem j _ hids id hid)
      exact ⟨_, v', setPair_self (by omega), h3, h4⟩
    · refine backward_bad hne hacts n _ (by rw [setPair_length]; omega) (by rw [setPair_length]; exact hS) ?_ j ids (by omega) hSj id hid
      intro j ids hj hSj id hid
      obtain ⟨h0, vs, v, h1, h2, hot, -⟩ := hok j ids (by omega) hSj id hid
      refine ⟨h0, ?_⟩
      by_cases e' : j + 1 = n
      · subst e'
        obtain ⟨y, l, hp⟩ : ∃ y l, (acts[j + 1 + 1]?).getD [] = y :: l := by
          cases hp : (acts[j + 1 + 1]?).getD [] with
          | cons y l => exact ⟨y, l, rfl⟩
          | nil =>
            have := hacts _ _ hids
            rw [hp] at this
            exact absurd this.symm (hne _ (List.mem_of_getElem? hids))
        have hy : y.Index ∈ S[j + 1] := by
          rw [← hacts _ _ hids, hp]
          simp
        obtain ⟨us, u, h3, h4, hd⟩ := hdelta _ hy
        obtain ⟨v', h5, h6⟩ := layer_becomes (adam := adam) (lr := lr) (inputs := (acts[j + 1]?).getD []) (st := getPair V (j + 1)) hp (by rw [getPair_self h3]; exact h4) hd
          ⟨v, by rw [getPair_prev h1]; exact h2, hot⟩ (hmem j ids hSj id hid)
        have hb : (j + 1 == 0) = false := rfl
        refine ⟨_, v', setPair_prev (by omega), ?_, ?_, fun _ _ => h6⟩
        · unfold backwardAt
          rw [hb]
          exact h5
        · obtain ⟨s, hs, ha, -⟩ := h6
          exact ⟨s, hs, ha⟩
      · exact ⟨vs, v, by rw [setPair_other (by omega) (by omega)]; exact h1, h2, hot, fun _ h => absurd h e'⟩

theorem example_bad {lr : F} {B : List Bool} {k : Nat} {ex : Example F} {S : List (List Int)} {V : List (List (View F))} (hB : B.length = V.length) (hs : SlotsOk V k S)
    (hne : ∀ ids ∈ S, ids ≠ []) (hd : Tainted ex.Features) (j : Nat) (ids : List Int) (hj : S[j]? = some ids) (id : Int) (hid : id ∈ ids) :
    HoldsAt (BadBias adam) j id.toNat (exampleV adam lr B k ex S V) := by
  unfold exampleV
  dsimp only
  have hl := forwardV_length k B V ex.Features S hB hs.len
  have hlt := (List.getElem?_eq_some_iff.mp hj).1
  refine backward_bad hne ?_ _ _ (by rw [hl]; omega) (by rw [hl]; exact hs.len) ?_ j ids (by rw [← hs.len]; exact hlt) hj id hid
  · intro j ids h
    rw [List.getElem?_cons_succ, ← getD_map, evaluate_index B V ex.Features S hB hs.len, h]
    rfl
  · intro j ids _ h id hid
    obtain ⟨h0, vs, v, h1, h2, h3⟩ := forwardV_hot k B V ex.Features S hB hs.len hd hne hs.slot j ids h id hid
    exact ⟨h0, vs, v, h1, h2, h3, fun hlt => absurd hlt (by rw [hl]; omega)⟩

/-- After the passes of a batch the biases of the nodes that are active for a tainted example will be NaN. -/
theorem batch_bad {lr : F} {B : List Bool} {ex : Example F} {S : List (List Int)} (hne : ∀ ids ∈ S, ids ≠ []) (hd : Tainted ex.Features) {j : Nat} {ids : List Int}
    (hj : S[j]? = some ids) {id : Int} (hid : id ∈ ids) : ∀ (es : List (Example F)) (T : List (List (List Int))) (k m : Nat) (V : List (List (View F))), B.length = V.length →
    (∀ (e : Nat) (S : List (List Int)), T[e]? = some S → SlotsOk V (k + e) S) → es[m]? = some ex → T[m]? = some S →
    HoldsAt (BadBias adam) j id.toNat (batchV adam lr B k es T V)
  | [], _, _, _, _, _, _, he, _ => by simp at he
  | _ :: _, [], _, _, _, _, _, _, hT => by simp at hT
  | e :: es, S' :: T, k, m, V, hB, hok, he, hS => by
    have h0 := hok 0 S' rfl
    have hdim := (dims_stable (F := F) adam).example lr B k e S' V hB h0.len
    have hl : (exampleV adam lr B k e S' V).length = V.length := by simpa using congrArg List.length hdim
    have hlen : ∀ S'' ∈ T, S''.length = (exampleV adam lr B k e S' V).length := fun S'' h => by
      obtain ⟨i, hi⟩ := List.mem_iff_getElem?.mp h
      rw [hl]
      exact (hok (i + 1) S'' (by simpa using hi)).len
    rw [batchV]
    cases m with
    | zero =>
      rw [List.getElem?_cons_zero, Option.some.injEq] at he hS
      subst he
      subst hS
      exact badBias_lasting.batch B es (k + 1) T _ (by rw [hl]; exact hB) hlen (example_bad hB h0 hne hd j ids hj id hid)
    | succ m =>
      refine batch_bad hne hd hj hid es T (k + 1) m _ (by rw [hl]; exact hB) (fun e' S'' h => ?_) (by simpa using he) (by simpa using hS)
      have := (hok (e' + 1) S'' (by simpa using h)).congr hdim
      rw [show k + 1 + e' = k + (e' + 1) by omega]
      exact this

/-! ### The update -/

theorem finish_bias {lr : F} {P : Params F} (h : BadBias adam P) : nan (finished adam lr P).bias = true := by
  unfold finished
  cases adam with
  | false => exact h
  | true =>
    rw [if_pos rfl]
    dsimp only
    unfold adamWeight
    rcases h with h | h
    · exact FloatNaN.add_left _ _ h
    · exact FloatNaN.add_right _ _ (FloatNaN.div_left _ _ (FloatNaN.mul_right _ _ (FloatNaN.add_right _ _ (FloatNaN.mul_right _ _ h))))

/-- With Adam there are moments and a gradient for every weight. -/
def Square (adam : Bool) (P : Params F) : Prop := adam = true → P.mom.length = P.weights.length ∧ P.vel.length = P.weights.length ∧ P.t.length = P.weights.length

theorem square_lasting : Lasting adam (Square (F := F) adam) := by
  refine ⟨fun lr g k P h => ?_, fun lr d P h => ?_, fun lr d P h => ?_⟩ <;> intro ha <;> subst ha
  · obtain ⟨h1, h2, h3⟩ := h rfl
    refine ⟨h1, h2, ?_⟩
    unfold addGrad
    rw [if_pos rfl]
    simpa using h3
  · exact h rfl
  · exact h rfl

theorem Lasting.and {q r : Params F → Prop} (h : Lasting adam q) (h' : Lasting adam r) : Lasting adam (fun P => q P ∧ r P) :=
  ⟨fun lr g k P hp => ⟨h.grad lr g k P hp.1, h'.grad lr g k P hp.2⟩, fun lr d P hp => ⟨h.bias lr d P hp.1, h'.bias lr d P hp.2⟩,
    fun lr d P hp => ⟨h.biasFirst lr d P hp.1, h'.biasFirst lr d P hp.2⟩⟩

theorem finish_weight {lr : F} {f : Nat} {P : Params F} (hs : Square adam P) (h : BadWeight f P) : BadWeight f (finished adam lr P) := by
  unfold finished
  cases adam with
  | false => exact h
  | true =>
    obtain ⟨x, hx, hn⟩ := h
    obtain ⟨h1, h2, h3⟩ := hs rfl
    have hlt := (List.getElem?_eq_some_iff.mp hx).1
    rw [if_pos rfl]
    unfold BadWeight
    dsimp only
    simp only [List.getElem?_zipWith, List.zip, hx, List.getElem?_eq_getElem (show f < P.mom.length by omega), List.getElem?_eq_getElem (show f < P.vel.length by omega),
      List.getElem?_eq_getElem (show f < P.t.length by omega)]
    exact ⟨_, rfl, FloatNaN.add_left _ _ hn⟩

end Goslide.Network
