import Verif.Proofs.GradReal
/-
Over the real numbers the accumulated gradients are derivatives with respect to weights and biases.
-/
set_option linter.unusedSectionVars false
namespace Goslide.Network
open Goslide Node Spec.Node Spec.Network Xcrepo

theorem objective_cons (b m : ℝ) (labels : List Int) (vs : List (View ℝ)) {V : List (List (View ℝ))} (h : V ≠ []) (data : List (Pair ℝ)) (ids : List Int) (S : List (List Int)) :
    objective b m labels (vs :: V) data (ids :: S) = objective b m labels V (outputs false vs data ids) S := by
  cases V with
  | nil => exact absurd rfl h
  | cons us L => rfl

theorem set_ne_nil {α : Type} {V : List α} (h : V ≠ []) (j : Nat) (a : α) : V.set j a ≠ [] := by
  intro e
  exact h (by simpa using congrArg List.length e)

theorem netOk_length {b : ℝ} : ∀ {V : List (List (View ℝ))} {S : List (List Int)}, NetOk b V S → S.length = V.length
  | [], [], _ => rfl
  | [], _ :: _, h => h.elim
  | _ :: _, [], h => h.elim
  | _ :: _, _ :: _, h => by simp [netOk_length h.2]

theorem flags_length {α : Type} : ∀ (V : List α), (flags V).length = V.length
  | [] => rfl
  | _ :: L => by simp [flags, flags_length L]

/-- The change of the score when layer `j` varies: the deltas of the layer times the changes of its values. -/
theorem deriv_at (b : ℝ) (labels : List Int) (x : ℝ) (vary : ℝ → List (View ℝ)) (z : Int → ℝ → ℝ) (z' : Int → ℝ) : ∀ (j : Nat) (V : List (List (View ℝ)))
    (data : List (Pair ℝ)) (S : List (List Int)) (vs : List (View ℝ)) (ids : List Int) (m norm : ℝ), V[j]? = some vs → S[j]? = some ids → NetOk b V S →
    Smooth V data S → m = topMax V data S → norm = normOf (evaluate ((flags V).zip V) data S) → vary x = vs →
    (∀ id ∈ ids, HasDerivAt (z id) (z' id) x) →
    (∀ u, NodesOk b (decide (j + 1 = V.length)) (vary u) ids) →
    (∀ u, ∀ id ∈ ids, ∀ v, (vary u)[id.toNat]? = some v → preActivation v.params (inputsOf (flags V) V data S j) = z id u) →
    ∃ D, (deltas labels norm (V.zip (evaluate ((flags V).zip V) data S)))[j]? = some D ∧
      HasDerivAt (fun u => objective b m labels (V.set j (vary u)) data S) ((ids.map (fun id => D id.toNat * z' id)).sum) x
  | _, [], _, _, _, _, _, _, h, _, _, _, _, _, _, _, _, _ => by simp at h
  | _, _ :: _, _, [], _, _, _, _, _, h, _, _, _, _, _, _, _, _ => by simp at h
  | 0, vs :: L, data, ids :: S, _, _, m, norm, rfl, rfl, hN, hs, hm, hn, hx, hz, hf, hv => by
    obtain ⟨D, Ds, h1, h2⟩ := deriv_layers b m norm labels x L ids S vary (fun _ => data) z z' hz
      (fun u => by
        have := hf u
        cases L <;> simpa using this)
      (fun u id hi v h => hv u id hi v h) hN.2 (by rw [hx]; exact hs) (by rw [hx]; exact hm) (by rw [hx]; exact hn)
    rw [hx] at h1
    exact ⟨D, by rw [h1]; rfl, h2⟩
  | j + 1, vs0 :: [], data, ids0 :: S, _, _, _, _, h, _, _, _, _, _, _, _, _, _ => by simp at h
  | j + 1, vs0 :: us :: L, data, ids0 :: S, vs, ids, m, norm, h1, h2, hN, hs, hm, hn, hx, hz, hf, hv => by
    have hS : S ≠ [] := by
      have := netOk_length hN.2
      intro e
      rw [e] at this
      simp at this
    have e : ∀ i, inputsOf (flags (vs0 :: us :: L)) (vs0 :: us :: L) data (ids0 :: S) (i + 1) = inputsOf (flags (us :: L)) (us :: L) (outputs false vs0 data ids0) S i := by
      intro i
      simp [inputsOf, evaluate, flags]
    have hev : evaluate ((flags (us :: L)).zip (us :: L)) (outputs false vs0 data ids0) S ≠ [] := by
      intro e
      have := evaluate_length (flags (us :: L)) (us :: L) (outputs false vs0 data ids0) S (flags_length _) (netOk_length hN.2)
      rw [e] at this
      simp at this
    obtain ⟨D, h3, h4⟩ := deriv_at b labels x vary z z' j (us :: L) (outputs false vs0 data ids0) S vs ids m norm (by simpa using h1) (by simpa using h2)
      hN.2 hs.2 hm (by
        rw [hn]
        exact normOf_cons _ _ hev) hx hz
      (fun u => by
        have := hf u
        simpa using this)
      (fun u id hi v h => by
        rw [← e]
        exact hv u id hi v h)
    refine ⟨D, ?_, ?_⟩
    · rw [← h3]
      obtain ⟨a, A, hA⟩ := List.exists_cons_of_ne_nil hev
      show (deltas labels norm ((vs0 :: us :: L).zip (outputs false vs0 data ids0 :: evaluate ((flags (us :: L)).zip (us :: L)) (outputs false vs0 data ids0) S)))[j + 1]? = _
      rw [hA]
      rfl
    · refine h4.congr_of_eventuallyEq (Filter.Eventually.of_forall fun u => ?_)
      exact objective_cons b m labels vs0 (set_ne_nil (by simp) j (vary u)) data ids0 S

/-! ### Sums over one index -/

theorem sum_single (D : Nat → ℝ) (G : ℝ) (k : Nat) (ids : List Int) (hn : ids.Nodup) :
    (ids.map (fun id => D id.toNat * (if id = (k : Int) then G else 0))).sum = if (k : Int) ∈ ids then D k * G else 0 := by
  induction ids with
  | nil => simp
  | cons a l ih =>
    rw [List.map_cons, List.sum_cons, ih (List.nodup_cons.mp hn).2]
    by_cases ha : a = (k : Int)
    · subst ha
      rw [if_pos rfl, if_neg (List.nodup_cons.mp hn).1, if_pos (by simp)]
      simp
    · rw [if_neg ha]
      have : ((k : Int) ∈ a :: l) ↔ (k : Int) ∈ l := by
        rw [List.mem_cons]
        exact or_iff_right (fun h => ha h.symm)
      simp [this]

/-- The sum of the values listed for index `q`. -/
noncomputable def total (data : List (Pair ℝ)) (q : Nat) : ℝ := (data.map (fun y => if y.Index.toNat = q then y.Value else 0)).sum

theorem addGrads_get (d : ℝ) (q : Nat) : ∀ (data : List (Pair ℝ)) (t : List ℝ) (g : ℝ), t[q]? = some g → (addGrads d data t)[q]? = some (g + d * total data q)
  | [], t, g, h => by simpa [addGrads, total] using h
  | y :: data, t, g, h => by
    have e : addGrads d (y :: data) t = addGrads d data (t.modify y.Index.toNat (fun a => GoFloat.add a (GoFloat.mul d y.Value))) := rfl
    have ht : total (y :: data) q = (if y.Index.toNat = q then y.Value else 0) + total data q := by simp [total]
    rw [e, ht]
    by_cases hy : y.Index.toNat = q
    · rw [addGrads_get d q data _ (g + d * y.Value) (by rw [hy, List.getElem?_modify, h]; simp [GoFloat.add, GoFloat.mul]), if_pos hy]
      congr 1
      ring
    · rw [addGrads_get d q data _ g (by rw [List.getElem?_modify, h]; simp [hy]), if_neg hy]
      congr 1
      ring

theorem deriv_weight (P : Params ℝ) (data : List (Pair ℝ)) {q : Nat} (hq : q < P.weights.length) (x : ℝ) :
    HasDerivAt (fun u => preActivation { P with weights := P.weights.set q u } data) (total data q) x := by
  simp only [pre_sum]
  refine HasDerivAt.add_const _ ?_
  refine deriv_sum data (fun y u => ((P.weights.set q u)[y.Index.toNat]?).getD 0 * y.Value) (fun y => if y.Index.toNat = q then y.Value else 0) x (fun y _ => ?_)
  by_cases hy : y.Index.toNat = q
  · rw [if_pos hy]
    have : (fun u => ((P.weights.set q u)[y.Index.toNat]?).getD 0 * y.Value) = fun u => u * y.Value := by
      funext u
      rw [hy, List.getElem?_set_self hq]
      rfl
    rw [this]
    simpa using (hasDerivAt_id x).mul_const y.Value
  · rw [if_neg hy]
    have : (fun u => ((P.weights.set q u)[y.Index.toNat]?).getD 0 * y.Value) = fun _ => ((P.weights)[y.Index.toNat]?).getD 0 * y.Value := by
      funext u
      rw [List.getElem?_set_ne (Ne.symm hy)]
    rw [this]
    exact hasDerivAt_const x _

theorem deriv_bias (P : Params ℝ) (data : List (Pair ℝ)) (x : ℝ) :
    HasDerivAt (fun u => preActivation { P with bias := u } data) 1 x := by
  simp only [pre_sum]
  exact (hasDerivAt_id x).const_add _

/-! ### One parameter of one node -/

theorem modify_some {α : Type} (l : List α) (j : Nat) (f : α → α) {a : α} (h : l[j]? = some a) : l.modify j f = l.set j (f a) := by
  apply List.ext_getElem?
  intro i
  rw [List.getElem?_modify, List.getElem?_set]
  by_cases hi : j = i
  · subst hi
    obtain ⟨hl, rfl⟩ := List.getElem?_eq_some_iff.mp h
    simp [hl]
  · simp [hi]

theorem set_self {α : Type} (l : List α) (j : Nat) {a : α} (h : l[j]? = some a) : l.set j a = l := by
  apply List.ext_getElem?
  intro i
  rw [List.getElem?_set]
  by_cases hi : j = i
  · subst hi
    obtain ⟨hl, rfl⟩ := List.getElem?_eq_some_iff.mp h
    simp [hl]
  · simp [hi]

theorem netOk_get {b : ℝ} : ∀ {V : List (List (View ℝ))} {S : List (List Int)} (j : Nat) {vs : List (View ℝ)} {ids : List Int}, NetOk b V S → V[j]? = some vs → S[j]? = some ids →
    NodesOk b (decide (j + 1 = V.length)) vs ids
  | [], _, _, _, _, _, h, _ => by simp at h
  | _ :: _, [], _, _, _, h, _, _ => h.elim
  | vs :: L, ids :: S, 0, _, _, h, rfl, rfl => by
    have := h.1
    cases L <;> simpa using this
  | _ :: _, _ :: _, j + 1, _, _, h, h1, h2 => by
    have := netOk_get j h.2 (by simpa using h1) (by simpa using h2)
    simpa using this

/-- The change of the score when one node `k` of layer `j` varies like `P u`. -/
theorem deriv_node {b : ℝ} {labels : List Int} {x : ℝ} {j k : Nat} {V : List (List (View ℝ))} {data : List (Pair ℝ)} {S : List (List Int)} {vs : List (View ℝ)}
    {v : View ℝ} (hV : V[j]? = some vs) (hk : vs[k]? = some v) {ids : List Int} (hS : S[j]? = some ids) (hN : NetOk b V S) (hs : Smooth V data S)
    (P : ℝ → Params ℝ) (hP : P x = v.params) (h1 : ∀ u, (P u).nodeType = v.params.nodeType) (h2 : ∀ u, (P u).id = v.params.id)
    (h3 : ∀ u, (P u).batch = v.params.batch) {G : ℝ} (hG : HasDerivAt (fun u => preActivation (P u) (inputsOf (flags V) V data S j)) G x) :
    ∃ D, (deltas labels (normOf (evaluate ((flags V).zip V) data S)) (V.zip (evaluate ((flags V).zip V) data S)))[j]? = some D ∧
      HasDerivAt (fun u => objective b (topMax V data S) labels (V.modify j (fun vs => vs.modify k (fun v => { v with params := P u }))) data S)
        (if (k : Int) ∈ ids then D k * G else 0) x := by
  have hok := netOk_get j hN hV hS
  have hget : ∀ u (i : Nat), (vs.set k { v with params := P u })[i]? = if k = i then some { v with params := P u } else vs[i]? := by
    intro u i
    have := (List.getElem?_eq_some_iff.mp hk).1
    rw [List.getElem?_set]
    by_cases hi : k = i
    · subst hi
      simp [this]
    · simp [hi]
  obtain ⟨D, hD, hd⟩ := deriv_at b labels x (fun u => vs.set k { v with params := P u })
    (fun id u => match (vs.set k { v with params := P u })[id.toNat]? with
      | none => 0
      | some v => preActivation v.params (inputsOf (flags V) V data S j))
    (fun id => if id = (k : Int) then G else 0) j V data S vs ids (topMax V data S) _ hV hS hN hs rfl rfl
    (by
      rw [hP]
      exact set_self vs k hk)
    (fun id hi => by
      obtain ⟨h0, v2, hv2, -⟩ := hok.node id hi
      by_cases he : id = (k : Int)
      · rw [if_pos he]
        subst he
        simp only [hget, Int.toNat_natCast, if_true]
        exact hG
      · rw [if_neg he]
        have : k ≠ id.toNat := by omega
        simp only [hget, this, if_false]
        exact hasDerivAt_const x _)
    (fun u => ⟨hok.nodup, fun id hi => by
      obtain ⟨h0, v2, q1, q2, q3, q4⟩ := hok.node id hi
      by_cases he : k = id.toNat
      · rw [← he, hk] at q1
        cases q1
        exact ⟨h0, { v with params := P u }, by rw [hget, if_pos he], by rw [← q2]; exact h1 u, by rw [← q3]; exact h2 u, by rw [← q4]; exact congrArg _ (h3 u)⟩
      · exact ⟨h0, v2, by rw [hget, if_neg he]; exact q1, q2, q3, q4⟩⟩)
    (fun u id hi v2 hv2 => by
      rw [hv2])
  refine ⟨D, hD, ?_⟩
  rw [sum_single D G k ids hok.nodup] at hd
  refine hd.congr_of_eventuallyEq (Filter.Eventually.of_forall fun u => ?_)
  show objective _ _ _ (V.modify j _) data S = objective _ _ _ (V.set j _) data S
  rw [modify_some V j _ hV, modify_some vs k _ hk]

/-- Both passes of an example with Adam: the accumulators grow by the derivatives of the score. -/
theorem example_deriv {b : ℝ} {lr : ℝ} {i : Nat} {ex : Example ℝ} {S : List (List Int)} {V : List (List (View ℝ))} (hN : NetOk b V S)
    (hs : Smooth V ex.Features S)
    (hR : ∀ (j : Nat) (vs : List (View ℝ)) (ids : List Int), V[j]? = some vs → S[j]? = some ids → Rested i ids vs)
    {j k : Nat} {vs : List (View ℝ)} {v : View ℝ} (hV : V[j]? = some vs) (hk : vs[k]? = some v) :
    ∃ vs' v', (exampleV true lr (flags V) i ex S V)[j]? = some vs' ∧ vs'[k]? = some v' ∧
      (∀ (q : Nat) (y t : ℝ), v.params.weights[q]? = some y → v.params.t[q]? = some t → ∃ t', v'.params.t[q]? = some t' ∧
        HasDerivAt (fun u => objective b (topMax V ex.Features S) ex.Labels (withWeight V j k q u) ex.Features S) (t' - t) y) ∧
      HasDerivAt (fun u => objective b (topMax V ex.Features S) ex.Labels (withBias V j k u) ex.Features S) (v'.params.tBias - v.params.tBias) v.params.bias := by
  have lS := netOk_length hN
  have hlt := (List.getElem?_eq_some_iff.mp hV).1
  have hS : S[j]? = some S[j] := List.getElem?_eq_getElem (by omega)
  generalize S[j] = ids at hS
  have hev : evaluate ((flags V).zip V) ex.Features S ≠ [] := by
    intro e
    have := evaluate_length (flags V) V ex.Features S (flags_length _) lS
    rw [e] at this
    simp at this
    omega
  have hrun := example_grad lr (flags V) i ex S V (flags_length V) lS hR
  rw [normOf_cons _ _ hev] at hrun
  generalize hnorm : normOf (evaluate ((flags V).zip V) ex.Features S) = norm at hrun
  have hD0 : ∃ D, (deltas ex.Labels norm (V.zip (evaluate ((flags V).zip V) ex.Features S)))[j]? = some D := by
    refine ⟨_, List.getElem?_eq_getElem ?_⟩
    rw [deltas_length, List.length_zip, evaluate_length (flags V) V ex.Features S (flags_length _) lS]
    omega
  obtain ⟨D, hD⟩ := hD0
  have hget := accumulate_get i (flags V) V ex.Features S _ j vs ids D (flags_length V) hV hS hD
  rw [← hrun] at hget
  refine ⟨_, if (k : Int) ∈ ids then accView i (inputsOf (flags V) V ex.Features S j) (D k) v else v, hget, ?_, ?_, ?_⟩
  · unfold accumulate
    rw [List.getElem?_mapIdx, hk]
    rfl
  · intro q y t hy ht
    have hq := (List.getElem?_eq_some_iff.mp hy).1
    obtain ⟨D', hD', hd⟩ := deriv_node (labels := ex.Labels) hV hk hS hN hs (fun u => { v.params with weights := v.params.weights.set q u }) (x := y)
      (by dsimp only; rw [set_self _ _ hy]) (fun _ => rfl) (fun _ => rfl) (fun _ => rfl) (deriv_weight v.params _ hq y)
    rw [hnorm, hD] at hD'
    cases hD'
    by_cases hi : (k : Int) ∈ ids
    · rw [if_pos hi] at hd ⊢
      refine ⟨_, addGrads_get (D k) q _ _ t ht, ?_⟩
      rw [show t + D k * total (inputsOf (flags V) V ex.Features S j) q - t = D k * total (inputsOf (flags V) V ex.Features S j) q by ring]
      refine hd.congr_of_eventuallyEq (Filter.Eventually.of_forall fun u => ?_)
      unfold withWeight
      beta_reduce
      rw [modify_some V j _ hV, modify_some vs k _ hk, modify_some V j _ hV, modify_some vs k _ hk]
    · rw [if_neg hi] at hd ⊢
      refine ⟨t, ht, ?_⟩
      rw [sub_self]
      refine hd.congr_of_eventuallyEq (Filter.Eventually.of_forall fun u => ?_)
      unfold withWeight
      beta_reduce
      rw [modify_some V j _ hV, modify_some vs k _ hk, modify_some V j _ hV, modify_some vs k _ hk]
  · obtain ⟨D', hD', hd⟩ := deriv_node (labels := ex.Labels) hV hk hS hN hs (fun u => { v.params with bias := u }) (x := v.params.bias)
      rfl (fun _ => rfl) (fun _ => rfl) (fun _ => rfl) (deriv_bias v.params _ _)
    rw [hnorm, hD] at hD'
    cases hD'
    have e : ∀ u, withBias V j k u = V.modify j (fun vs => vs.modify k (fun w => { w with params := { v.params with bias := u } })) := by
      intro u
      unfold withBias
      rw [modify_some V j _ hV, modify_some vs k _ hk, modify_some V j _ hV, modify_some vs k _ hk]
    simp only [e]
    by_cases hi : (k : Int) ∈ ids
    · rw [if_pos hi] at hd ⊢
      refine hd.congr_deriv ?_
      show D k * 1 = (v.params.tBias + D k) - v.params.tBias
      ring
    · rw [if_neg hi] at hd ⊢
      rw [sub_self]
      exact hd

end Goslide.Network
