import Verif.Proofs.LayerQuery
import Verif.Proofs.NodeMore
import Verif.Go.FloatEq
import Verif.Spec.Mode3
/-
Mode 3: the scores and the order of the nodes.
-/
set_option linter.unusedSectionVars false
namespace Goslide.Layer
open Goslide.Node Spec.Node Spec.Layer
variable {F : Type} [GoFloat F]

theorem innerproduct_eq {w : List F} : ∀ {cur : List (Pair F)} {t u : F}, innerproduct w cur t = .ok u →
    u = cur.foldl (fun acc x => GoFloat.add acc (GoFloat.mul x.Value ((w[x.Index.toNat]?).getD GoFloat.zero))) t
  | [], t, u, h => by cases h; rfl
  | p :: cur, t, u, h => by
    simp only [innerproduct] at h
    rw [bind_ok_iff] at h
    obtain ⟨v, h1, h⟩ := h
    have := innerproduct_eq h
    rw [this, List.foldl_cons, ((goGet_ok_iff _ _ _).mp h1).2, Option.getD_some]

theorem nodeScores_params {h : Heap F} : ∀ {ps : List Ptr} {ws : List (List F × F)} {h' : Heap F},
    nodeScores ps h = .ok (ws, h') → ∀ (i : Nat) (p : Ptr) (P : Params F), ps[i]? = some p → params h p = some P →
    ws[i]? = some (P.weights, P.bias)
  | [], ws, h', e, i, p, P, hi, _ => by simp at hi
  | q :: ps, ws, h', e, i, p, P, hi, hP => by
    unfold nodeScores at e
    replace e := M.bind_eq_ok e
    obtain ⟨s, h1, e1, e⟩ := e
    replace e := M.bind_eq_ok e
    obtain ⟨w, h2, e2, e⟩ := e
    replace e := M.bind_eq_ok e
    obtain ⟨b, h3, e3, e⟩ := e
    replace e := M.bind_eq_ok e
    obtain ⟨rest, h4, e4, e⟩ := e
    cases e
    unfold Node.weights baseOf at e1
    replace e1 := M.bind_eq_ok e1
    obtain ⟨b1, h5, e5, e1⟩ := e1
    cases e1
    replace e5 := M.bind_eq_ok e5
    obtain ⟨n1, h6, e6, e5⟩ := e5
    unfold node deref at e6
    cases hn : h.nodes[q]? with
    | none => rw [hn] at e6; cases e6
    | some nd =>
      rw [hn] at e6
      obtain ⟨rfl, rfl⟩ : nd = n1 ∧ h = h6 := by cases e6; exact ⟨rfl, rfl⟩
      unfold base deref at e5
      cases hb : h.bases[nd.base]? with
      | none => rw [hb] at e5; cases e5
      | some bs =>
        rw [hb] at e5
        obtain ⟨rfl, rfl⟩ : bs = b1 ∧ h = h1 := by cases e5; exact ⟨rfl, rfl⟩
        unfold floatsOf at e2
        cases hf : readSlice h.floats bs.weights with
        | none => rw [hf] at e2; cases e2
        | some l =>
          rw [hf] at e2
          cases e2
          have e3' : getBias q h = .ok (bs.bias, h) := by
            unfold getBias baseOf
            rw [M.bind_ok (a := bs) (s' := h)]
            · rfl
            · rw [M.bind_ok (node_ok hn)]
              exact base_ok hb
          rw [e3'] at e3
          cases e3
          cases i with
          | zero =>
            simp only [List.getElem?_cons_zero, Option.some.injEq] at hi ⊢
            subst hi
            unfold params at hP
            rw [hn] at hP
            dsimp only at hP
            rw [hb] at hP
            dsimp only at hP
            unfold baseParams at hP
            rw [hf] at hP
            split at hP
            · rename_i h1 _ _ _ _
              cases h1; cases hP; rfl
            · cases hP
          | succ i =>
            rw [List.getElem?_cons_succ] at hi ⊢
            exact nodeScores_params e4 i p P hi hP

theorem mode3Scores_value {label : List Int} {cur : List (Pair F)} : ∀ {ws : List (List F × F)} {s : Nat} {out : List (Pair F)},
    mode3Scores label cur s ws = .ok out → ∀ (i : Nat) (w : List F) (b : F), ws[i]? = some (w, b) →
      out[i]? = some ⟨((s + i : Nat) : Int),
        if ((s + i : Nat) : Int) ∈ label then GoFloat.const (-1000000000) else GoFloat.neg (GoFloat.add
          (cur.foldl (fun acc x => GoFloat.add acc (GoFloat.mul x.Value ((w[x.Index.toNat]?).getD GoFloat.zero))) GoFloat.zero) b)⟩
  | [], s, out, h, i, w, b, hi => by simp at hi
  | (w', b') :: ws, s, out, h, i, w, b, hi => by
    simp only [mode3Scores] at h
    rw [bind_ok_iff] at h
    obtain ⟨t, h1, h⟩ := h
    rw [bind_ok_iff] at h
    obtain ⟨rest, h2, h⟩ := h
    cases h
    cases i with
    | zero =>
      simp only [List.getElem?_cons_zero, Option.some.injEq, Prod.mk.injEq] at hi ⊢
      obtain ⟨rfl, rfl⟩ := hi
      rw [innerproduct_eq h1]
      simp only [intSliceContains_iff, Nat.add_zero]
    | succ i =>
      rw [List.getElem?_cons_succ] at hi ⊢
      have := mode3Scores_value h2 i w b hi
      rw [show s + 1 + i = s + (i + 1) by omega] at this
      exact this

section
variable [FloatOrder F] [FloatEq F]

/-- Both values are numbers. -/
def Fine (a : Pair F) : Prop := FloatOrder.isNaN a.Value = false

theorem pairLess_iff {a b : Pair F} (ha : Fine a) (hb : Fine b) :
    pairLess a b = true ↔ GoFloat.lt a.Value b.Value = true ∨ GoFloat.lt b.Value a.Value = false ∧ a.Index < b.Index := by
  unfold pairLess
  by_cases h : GoFloat.eq a.Value b.Value = true
  · rw [if_pos h]
    have := (FloatEq.eq_iff _ _ ha hb).mp h
    simp [this.1, this.2]
  · rw [if_neg h]
    constructor
    · exact Or.inl
    · rintro (h1 | ⟨h1, h2⟩)
      · exact h1
      · cases h3 : GoFloat.lt a.Value b.Value with
        | true => rfl
        | false => exact absurd ((FloatEq.eq_iff _ _ ha hb).mpr ⟨h3, h1⟩) h

theorem lt_asym {a b : F} (h : GoFloat.lt a b = true) : GoFloat.lt b a = false := by
  cases h2 : GoFloat.lt b a with
  | false => rfl
  | true =>
    have := FloatOrder.lt_trans _ _ _ h h2
    rw [FloatOrder.lt_irrefl] at this
    cases this

theorem pairLess_total {a b : Pair F} (ha : Fine a) (hb : Fine b) (hne : a.Index ≠ b.Index) (h : ¬ pairLess a b = true) :
    pairLess b a = true := by
  rw [pairLess_iff ha hb] at h
  rw [pairLess_iff hb ha]
  cases h1 : GoFloat.lt b.Value a.Value with
  | true => exact .inl rfl
  | false =>
    cases h2 : GoFloat.lt a.Value b.Value with
    | true => exact absurd (.inl h2) h
    | false =>
      refine .inr ⟨rfl, ?_⟩
      have : ¬ a.Index < b.Index := fun h3 => h (.inr ⟨h1, h3⟩)
      omega

theorem pairLess_trans {a b c : Pair F} (ha : Fine a) (hb : Fine b) (hc : Fine c) (h1 : pairLess a b = true)
    (h2 : pairLess b c = true) : pairLess a c = true := by
  rw [pairLess_iff ha hb] at h1
  rw [pairLess_iff hb hc] at h2
  rw [pairLess_iff ha hc]
  rcases h1 with h1 | ⟨h1, i1⟩ <;> rcases h2 with h2 | ⟨h2, i2⟩
  · exact .inl (FloatOrder.lt_trans _ _ _ h1 h2)
  · rcases FloatOrder.lt_weak _ _ c.Value hc h1 with h | h
    · exact .inl h
    · rw [h] at h2; cases h2
  · rcases FloatOrder.lt_weak _ _ a.Value ha h2 with h | h
    · rw [h] at h1; cases h1
    · exact .inl h
  · refine .inr ⟨?_, by omega⟩
    cases h3 : GoFloat.lt c.Value a.Value with
    | false => rfl
    | true =>
      rcases FloatOrder.lt_weak _ _ b.Value hb h3 with h | h
      · rw [h] at h2; cases h2
      · rw [h] at h1; cases h1

theorem insertPair_strict (x : Pair F) (hx : Fine x) : ∀ l : List (Pair F), (∀ y ∈ l, Fine y) → (∀ y ∈ l, y.Index ≠ x.Index) →
    l.Pairwise (fun a b => pairLess a b = true) → (insertPair x l).Pairwise (fun a b => pairLess a b = true)
  | [], _, _, _ => by simp [insertPair]
  | y :: l, hf, hi, hp => by
    rw [List.pairwise_cons] at hp
    unfold insertPair
    split
    · rename_i hlt
      rw [List.pairwise_cons]
      refine ⟨?_, insertPair_strict x hx l (fun z hz => hf z (List.mem_cons_of_mem _ hz))
        (fun z hz => hi z (List.mem_cons_of_mem _ hz)) hp.2⟩
      intro z hz
      rcases List.mem_cons.mp ((insertPair_perm x l).mem_iff.mp hz) with rfl | hz
      · exact hlt
      · exact hp.1 z hz
    · rename_i hlt
      have hxy := pairLess_total (hf y (by simp)) hx (hi y (by simp)) hlt
      rw [List.pairwise_cons]
      refine ⟨?_, List.pairwise_cons.mpr hp⟩
      intro z hz
      rcases List.mem_cons.mp hz with rfl | hz
      · exact hxy
      · exact pairLess_trans hx (hf y (by simp)) (hf z (List.mem_cons_of_mem _ hz)) hxy (hp.1 z hz)

theorem sortPairs_strict : ∀ l : List (Pair F), (∀ y ∈ l, Fine y) → (l.map Pair.Index).Nodup →
    (sortPairs l).Pairwise (fun a b => pairLess a b = true)
  | [], _, _ => by simp [sortPairs]
  | x :: l, hf, hn => by
    rw [List.map_cons, List.nodup_cons] at hn
    have hm := fun {a} => (sortPairs_perm l).mem_iff (a := a)
    refine insertPair_strict x (hf x (by simp)) _ (fun y hy => hf y (List.mem_cons_of_mem _ (hm.mp hy))) ?_
      (sortPairs_strict l (fun y hy => hf y (List.mem_cons_of_mem _ hy)) hn.2)
    intro y hy he
    exact hn.1 (he ▸ List.mem_map_of_mem (hm.mp hy))

end
end Goslide.Layer
