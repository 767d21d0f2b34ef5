import Verif.Proofs.ShuffleUniform
import Mathlib.Data.Nat.Factorial.Basic
/-
How often a shuffle puts elements of a set into given positions, and a given element into another one.
-/
namespace Goslide
open Spec GoHeap

theorem fact_eq (n : Nat) : fact n = n.factorial := by
  induction n with
  | zero => rfl
  | succ n ih => rw [fact, ih, Nat.factorial_succ]

theorem swapAt_take {α : Type} (l : List α) (n a b : Nat) (ha : a < n) (hb : b < n) (hn : n ≤ l.length) :
    (swapAt l a b).take n = swapAt (l.take n) a b := by
  refine List.ext_getElem? (fun k => ?_)
  have hl : (l.take n).length = n := by rw [List.length_take]; omega
  rw [getElem?_swapAt _ _ _ _ (by omega) (by omega)]
  by_cases hk : k < n
  · have : sw a b k < n := by unfold sw; split <;> [exact hb; (split <;> omega)]
    rw [List.getElem?_take_of_lt hk, List.getElem?_take_of_lt this, getElem?_swapAt _ _ _ _ (by omega) (by omega)]
  · rw [List.getElem?_eq_none (by rw [List.length_take, swapAt_length]; omega), List.getElem?_eq_none]
    unfold sw
    rw [if_neg (by omega), if_neg (by omega)]
    omega

/-- The draw at position `i + 1` takes one element out of the first `i + 2`. -/
theorem swapAt_rest {α : Type} (l : List α) (i d : Nat) (hi : i + 1 < l.length) (hd : d < i + 2) :
    (l[d] :: (swapAt l (i + 1) d).take (i + 1)).Perm (l.take (i + 2)) := by
  have h : (swapAt l (i + 1) d).take (i + 2) = (swapAt l (i + 1) d).take (i + 1) ++ [l[d]] := by
    rw [List.take_succ_eq_append_getElem (by rw [swapAt_length]; exact hi)]
    congr 2
    apply Option.some.inj
    rw [← List.getElem?_eq_getElem, getElem?_swapAt _ _ _ _ hi (by omega), sw, if_pos rfl, List.getElem?_eq_getElem]
  have hp := swapAt_perm (l.take (i + 2)) (i + 1) d
  rw [← swapAt_take _ _ _ _ (by omega) hd (by omega), h] at hp
  exact (List.perm_append_singleton _ _).symm.trans hp

/-- What the position just exposed holds. -/
theorem shuffleFrom_top (l : List Nat) (i d : Nat) (r : Rng) (hi : i + 1 < l.length) (hd : d < i + 2) :
    (shuffleFrom (swapAt l (i + 1) d) i r).1.getD (i + 1) 0 = l[d] := by
  rw [List.getD_eq_getElem?_getD, shuffleFrom_above i _ _ _ (by rw [swapAt_length]; omega) (by omega), getElem?_swapAt _ _ _ _ hi (by omega), sw, if_pos rfl,
    List.getElem?_eq_getElem (by omega)]
  rfl

/-- A sum over the draws is a sum over the elements drawn. -/
theorem sum_draws (l : List Nat) (n : Nat) (hn : n ≤ l.length) (g h : Nat → Nat) (hg : ∀ d (hd : d < n), g d = h l[d]) :
    ((List.range n).map g).sum = ((l.take n).map h).sum := by
  congr 1
  refine List.ext_getElem (by simp; omega) (fun k h1 h2 => ?_)
  simp only [List.length_map, List.length_range] at h1
  simp [hg k h1]

theorem sum_two (L : Nat → Prop) [DecidablePred L] (u v : Nat) (m : List Nat) :
    (m.map (fun a => if L a then u else v)).sum = m.countP (fun a => decide (L a)) * u + (m.length - m.countP (fun a => decide (L a))) * v := by
  induction m with
  | nil => simp
  | cons a m ih =>
    have := List.countP_le_length (p := fun a => decide (L a)) (l := m)
    rw [List.map_cons, List.sum_cons, ih, List.countP_cons, List.length_cons]
    by_cases h : L a
    · simp only [h, if_true, decide_true, Nat.add_sub_add_right]
      rw [Nat.add_mul]; omega
    · simp only [h, if_false, decide_false, Nat.add_zero, Bool.false_eq_true]
      rw [Nat.succ_sub this, Nat.succ_mul]; omega

theorem sum_nat_perm {a b : List Nat} (h : a.Perm b) : a.sum = b.sum := by
  induction h with
  | nil => rfl
  | cons x _ ih => simp [ih]
  | swap x y l => simp only [List.sum_cons]; omega
  | trans _ _ h1 h2 => exact h1.trans h2

theorem sum_three (L : Nat → Prop) [DecidablePred L] (f : Nat) (hf : ¬ L f) (u v : Nat) (m : List Nat) (hn : m.Nodup) (hm : f ∈ m) :
    (m.map (fun a => if L a then u else if a = f then 0 else v)).sum =
      m.countP (fun a => decide (L a)) * u + (m.length - 1 - m.countP (fun a => decide (L a))) * v := by
  have hp := List.perm_cons_erase hm
  have hne : ∀ a ∈ m.erase f, a ≠ f := fun a ha => (List.Nodup.mem_erase_iff hn |>.mp ha).1
  rw [sum_nat_perm (hp.map _), hp.countP_eq, List.map_cons, List.sum_cons, if_neg hf, if_pos rfl, Nat.zero_add, List.countP_cons]
  simp only [hf, decide_false, Bool.false_eq_true, if_false, Nat.add_zero]
  rw [hp.length_eq, List.length_cons, Nat.add_sub_cancel, ← sum_two]
  congr 1
  refine List.map_congr_left (fun a ha => ?_)
  rw [if_neg (hne a ha)]

/-- Choosing for a free position. -/
theorem free_step (n s N : Nat) (hs : s ≤ N) (hn : n ≤ N) :
    n * (n - 1).descFactorial s + (N - n) * n.descFactorial s = (N - s) * n.descFactorial s := by
  have e : n * (n - 1).descFactorial s = (n - s) * n.descFactorial s := by
    cases n with
    | zero => simp
    | succ n => rw [Nat.add_sub_cancel, ← Nat.succ_descFactorial_succ, Nat.descFactorial_succ]
  rw [e, ← Nat.add_mul]
  by_cases h : s ≤ n
  · congr 1; omega
  · rw [Nat.descFactorial_of_lt (by omega)]; simp

variable (S : Nat → Prop) [DecidablePred S] (L : Nat → Prop) [DecidablePred L]

/-- The number of positions up to `i` in `S`. -/
def places (i : Nat) : Nat := (List.range (i + 1)).countP (fun k => decide (S k))

/-- The number of elements in `L` among the first `i + 1`. -/
def goods (l : List Nat) (i : Nat) : Nat := (l.take (i + 1)).countP (fun a => decide (L a))

theorem places_succ (i : Nat) : places S (i + 1) = places S i + if S (i + 1) then 1 else 0 := by
  unfold places
  rw [List.range_succ, List.countP_append, List.countP_singleton]
  by_cases h : S (i + 1) <;> simp [h]

theorem places_le (i : Nat) : places S i ≤ i + 1 := by
  unfold places
  refine Nat.le_trans List.countP_le_length ?_
  simp

theorem places_lt (i t : Nat) (ht : t ≤ i) (hS : ¬ S t) : places S i ≤ i := by
  induction i with
  | zero =>
    obtain rfl : t = 0 := by omega
    simp [places, hS]
  | succ i ih =>
    rw [places_succ]
    by_cases h : t = i + 1
    · subst h
      rw [if_neg hS]
      exact places_le S i
    · have := ih (by omega)
      split <;> omega

theorem goods_le (l : List Nat) (i : Nat) (hi : i < l.length) : goods L l i ≤ i + 1 := by
  unfold goods
  refine Nat.le_trans List.countP_le_length ?_
  rw [List.length_take]; omega

theorem goods_swap (l : List Nat) (i d : Nat) (hi : i + 1 < l.length) (hd : d < i + 2) :
    goods L l (i + 1) = goods L (swapAt l (i + 1) d) i + if L l[d] then 1 else 0 := by
  unfold goods
  rw [← (swapAt_rest l i d hi hd).countP_eq, List.countP_cons]
  by_cases h : L l[d] <;> simp [h]

/-- How often the positions in `S` all receive elements in `L`. -/
theorem pattern_count (r : Rng) (i : Nat) : ∀ (l : List Nat), i < l.length →
    countOutcomes (shuffleBounds i) (fun ds => ∀ k, k ≤ i → S k → L ((shuffleFrom l i (fed ds r)).1.getD k 0)) =
      (goods L l i).descFactorial (places S i) * (i + 1 - places S i).factorial := by
  induction i with
  | zero =>
    intro l hi
    have h1 : shuffleBounds 0 = [] := rfl
    obtain ⟨a, l, rfl⟩ : ∃ a m, l = a :: m := by cases l with | nil => simp at hi | cons a m => exact ⟨a, m, rfl⟩
    have h2 : places S 0 = if S 0 then 1 else 0 := by unfold places; by_cases h : S 0 <;> simp [h]
    have h3 : goods L (a :: l) 0 = if L a then 1 else 0 := by unfold goods; by_cases h : L a <;> simp [h]
    rw [h1, h2, h3]
    have h4 : ∀ ds, (∀ k, k ≤ 0 → S k → L ((shuffleFrom (a :: l) 0 (fed ds r)).1.getD k 0)) ↔ (S 0 → L a) := by
      intro ds
      constructor
      · intro h; exact h 0 (by omega)
      · intro h k hk hs
        obtain rfl : k = 0 := by omega
        exact h hs
    rw [countOutcomes_congr h4]
    unfold countOutcomes
    by_cases hS : S 0 <;> by_cases hL : L a <;> simp [hS, hL, outcomes]
  | succ i ih =>
    intro l hi
    have key : ∀ d (hd : d < i + 2) ds, (∀ k, k ≤ i + 1 → S k → L ((shuffleFrom l (i + 1) (fed (d :: ds) r)).1.getD k 0)) ↔
        (S (i + 1) → L l[d]) ∧ ∀ k, k ≤ i → S k → L ((shuffleFrom (swapAt l (i + 1) d) i (fed ds r)).1.getD k 0) := by
      intro d hd ds
      rw [shuffleFrom_fed _ _ _ _ _ hd]
      constructor
      · intro h
        refine ⟨fun hs => ?_, fun k hk => h k (by omega)⟩
        have := h (i + 1) (by omega) hs
        rwa [shuffleFrom_top l i d _ hi hd] at this
      · rintro ⟨h1, h2⟩ k hk hs
        by_cases hki : k = i + 1
        · subst hki
          rw [shuffleFrom_top l i d _ hi hd]
          exact h1 hs
        · exact h2 k (by omega) hs
    have hle := places_le S i
    have hgle := goods_le L l (i + 1) hi
    rw [shuffleBounds, countOutcomes_cons]
    by_cases hS : S (i + 1)
    · have e : places S (i + 1) = places S i + 1 := by rw [places_succ, if_pos hS]
      rw [sum_draws l (i + 2) (by omega) _ (fun a => if L a then (goods L l (i + 1) - 1).descFactorial (places S i) * (i + 1 - places S i).factorial else 0)]
      · rw [sum_two, Nat.mul_zero, Nat.add_zero, e]
        show goods L l (i + 1) * _ = _
        rw [Nat.add_sub_add_right, ← Nat.mul_assoc]
        congr 1
        cases goods L l (i + 1) with
        | zero => simp
        | succ n => rw [Nat.add_sub_cancel, Nat.succ_descFactorial_succ]
      · intro d hd
        rw [countOutcomes_congr (key d hd)]
        have hg := goods_swap L l i d hi hd
        by_cases hL : L l[d]
        · rw [if_pos hL] at hg ⊢
          rw [countOutcomes_congr (q := fun ds => ∀ k, k ≤ i → S k → L ((shuffleFrom (swapAt l (i + 1) d) i (fed ds r)).1.getD k 0)) (fun ds => by simp [hL]),
            ih _ (by rw [swapAt_length]; omega), hg, Nat.add_sub_cancel]
        · rw [if_neg hL]
          exact countOutcomes_false _ _ (fun ds h => hL (h.1 hS))
    · have e : places S (i + 1) = places S i := by rw [places_succ, if_neg hS, Nat.add_zero]
      rw [sum_draws l (i + 2) (by omega) _ (fun a => if L a then (goods L l (i + 1) - 1).descFactorial (places S i) * (i + 1 - places S i).factorial
        else (goods L l (i + 1)).descFactorial (places S i) * (i + 1 - places S i).factorial)]
      · rw [sum_two, e, show (l.take (i + 2)).length = i + 2 by rw [List.length_take]; omega]
        show goods L l (i + 1) * _ + (i + 2 - goods L l (i + 1)) * _ = _
        rw [← Nat.mul_assoc, ← Nat.mul_assoc, ← Nat.add_mul, free_step _ _ _ (by omega) hgle,
          show i + 1 + 1 - places S i = (i + 1 - places S i) + 1 by omega, Nat.factorial_succ]
        rw [Nat.mul_comm (_ + 1), Nat.mul_assoc]
      · intro d hd
        have hg := goods_swap L l i d hi hd
        rw [countOutcomes_congr (q := fun ds => ∀ k, k ≤ i → S k → L ((shuffleFrom (swapAt l (i + 1) d) i (fed ds r)).1.getD k 0))
          (fun ds => by rw [key d hd ds]; simp [hS]), ih _ (by rw [swapAt_length]; omega)]
        by_cases hL : L l[d]
        · rw [if_pos hL] at hg ⊢; rw [hg, Nat.add_sub_cancel]
        · rw [if_neg hL] at hg; rw [if_neg hL, show goods L (swapAt l (i + 1) d) i = goods L l (i + 1) from hg.symm]

/-- How often, in addition, position `t` receives `f`. -/
theorem pattern_count_at (r : Rng) (t f : Nat) (hSt : ¬ S t) (hLf : ¬ L f) (i : Nat) : ∀ (l : List Nat), l.Nodup → i < l.length → t ≤ i → f ∈ l.take (i + 1) →
    countOutcomes (shuffleBounds i) (fun ds => (shuffleFrom l i (fed ds r)).1.getD t 0 = f ∧ ∀ k, k ≤ i → S k → L ((shuffleFrom l i (fed ds r)).1.getD k 0)) =
      (goods L l i).descFactorial (places S i) * (i - places S i).factorial := by
  induction i with
  | zero =>
    intro l hn hi ht hf
    obtain rfl : t = 0 := by omega
    obtain ⟨a, l, rfl⟩ : ∃ a m, l = a :: m := by cases l with | nil => simp at hi | cons a m => exact ⟨a, m, rfl⟩
    have hf : f = a := by simpa using hf
    have h2 : places S 0 = 0 := by unfold places; simp [hSt]
    rw [h2, countOutcomes_true]
    · simp [shuffleBounds]
    · intro ds
      refine ⟨hf.symm, fun k hk hs => ?_⟩
      obtain rfl : k = 0 := by omega
      exact absurd hs hSt
  | succ i ih =>
    intro l hn hi ht hf
    have key : ∀ d (hd : d < i + 2) ds, (∀ k, k ≤ i + 1 → S k → L ((shuffleFrom l (i + 1) (fed (d :: ds) r)).1.getD k 0)) ↔
        (S (i + 1) → L l[d]) ∧ ∀ k, k ≤ i → S k → L ((shuffleFrom (swapAt l (i + 1) d) i (fed ds r)).1.getD k 0) := by
      intro d hd ds
      rw [shuffleFrom_fed _ _ _ _ _ hd]
      constructor
      · intro h
        refine ⟨fun hs => ?_, fun k hk => h k (by omega)⟩
        have := h (i + 1) (by omega) hs
        rwa [shuffleFrom_top l i d _ hi hd] at this
      · rintro ⟨h1, h2⟩ k hk hs
        by_cases hki : k = i + 1
        · subst hki
          rw [shuffleFrom_top l i d _ hi hd]
          exact h1 hs
        · exact h2 k (by omega) hs
    have hgle := goods_le L l (i + 1) hi
    have hnt : (l.take (i + 2)).Nodup := hn.sublist (List.take_sublist _ _)
    rw [shuffleBounds, countOutcomes_cons]
    by_cases hti : t = i + 1
    · subst hti
      have e : places S (i + 1) = places S i := by rw [places_succ, if_neg hSt, Nat.add_zero]
      obtain ⟨j, hj, hjf⟩ := List.getElem_of_mem hf
      have hj2 : j < i + 2 := by rw [List.length_take] at hj; omega
      rw [List.getElem_take] at hjf
      refine sum_single _ j _ _ ?_ ?_ (by omega)
      · intro d hd hdj
        refine countOutcomes_false _ _ (fun ds h => hdj ?_)
        have h := h.1
        rw [shuffleFrom_fed _ _ _ _ _ hd, shuffleFrom_top l i d _ hi hd, ← hjf] at h
        exact nodup_inj hn h
      · have hg := goods_swap L l i j hi hj2
        rw [if_neg (by rw [hjf]; exact hLf)] at hg
        rw [countOutcomes_congr (q := fun ds => ∀ k, k ≤ i → S k → L ((shuffleFrom (swapAt l (i + 1) j) i (fed ds r)).1.getD k 0))
          (fun ds => by
            rw [key j hj2 ds, shuffleFrom_fed _ _ _ _ _ hj2, shuffleFrom_top l i j _ hi hj2]
            simp [hSt, hjf]), pattern_count S L r i _ (by rw [swapAt_length]; omega), e,
            show goods L (swapAt l (i + 1) j) i = goods L l (i + 1) from hg.symm]
    · have hti' : t ≤ i := by omega
      have hle := places_lt S i t hti' hSt
      have key2 : ∀ d (hd : d < i + 2) ds, ((shuffleFrom l (i + 1) (fed (d :: ds) r)).1.getD t 0 = f ∧
          ∀ k, k ≤ i + 1 → S k → L ((shuffleFrom l (i + 1) (fed (d :: ds) r)).1.getD k 0)) ↔
          (S (i + 1) → L l[d]) ∧ ((shuffleFrom (swapAt l (i + 1) d) i (fed ds r)).1.getD t 0 = f ∧
            ∀ k, k ≤ i → S k → L ((shuffleFrom (swapAt l (i + 1) d) i (fed ds r)).1.getD k 0)) := by
        intro d hd ds
        rw [key d hd ds, shuffleFrom_fed _ _ _ _ _ hd]
        exact and_left_comm
      have stays : ∀ d (hd : d < i + 2), l[d] ≠ f → f ∈ (swapAt l (i + 1) d).take (i + 1) := by
        intro d hd hne
        have := (swapAt_rest l i d hi hd).mem_iff.mpr hf
        rcases List.mem_cons.mp this with h | h
        · exact absurd h.symm hne
        · exact h
      have gone : ∀ d (hd : d < i + 2), l[d] = f → ∀ ds, (shuffleFrom (swapAt l (i + 1) d) i (fed ds r)).1.getD t 0 ≠ f := by
        intro d hd he ds h
        have h0 := shuffleFrom_top l i d (fed ds r) hi hd
        rw [he] at h0
        have hlen : (shuffleFrom (swapAt l (i + 1) d) i (fed ds r)).1.length = l.length := by
          rw [(shuffleFrom_perm i _ _).length_eq, swapAt_length]
        have hnd := ((shuffleFrom_perm i (swapAt l (i + 1) d) (fed ds r)).trans (swapAt_perm _ _ _)).nodup_iff.mpr hn
        rw [List.getD_eq_getElem?_getD, List.getElem?_eq_getElem (by omega), Option.getD_some] at h h0
        have := nodup_inj hnd (h.trans h0.symm)
        omega
      by_cases hS : S (i + 1)
      · have e : places S (i + 1) = places S i + 1 := by rw [places_succ, if_pos hS]
        rw [sum_draws l (i + 2) (by omega) _ (fun a => if L a then (goods L l (i + 1) - 1).descFactorial (places S i) * (i - places S i).factorial else 0)]
        · rw [sum_two, Nat.mul_zero, Nat.add_zero, e]
          show goods L l (i + 1) * _ = _
          rw [Nat.add_sub_add_right, ← Nat.mul_assoc]
          congr 1
          cases goods L l (i + 1) with
          | zero => simp
          | succ n => rw [Nat.add_sub_cancel, Nat.succ_descFactorial_succ]
        · intro d hd
          rw [countOutcomes_congr (key2 d hd)]
          have hg := goods_swap L l i d hi hd
          by_cases hL : L l[d]
          · rw [if_pos hL] at hg ⊢
            rw [countOutcomes_congr (q := fun ds => (shuffleFrom (swapAt l (i + 1) d) i (fed ds r)).1.getD t 0 = f ∧
                ∀ k, k ≤ i → S k → L ((shuffleFrom (swapAt l (i + 1) d) i (fed ds r)).1.getD k 0)) (fun ds => by simp only [hL, implies_true, true_and]),
              ih _ ((swapAt_perm _ _ _).nodup_iff.mpr hn) (by rw [swapAt_length]; omega) hti' (stays d hd (fun h => hLf (h ▸ hL))), hg, Nat.add_sub_cancel]
          · rw [if_neg hL]
            exact countOutcomes_false _ _ (fun ds h => hL (h.1 hS))
      · have e : places S (i + 1) = places S i := by rw [places_succ, if_neg hS, Nat.add_zero]
        have hglt : goods L l (i + 1) ≤ i + 1 := by
          have hp := List.perm_cons_erase hf
          show List.countP _ (l.take (i + 2)) ≤ i + 1
          rw [hp.countP_eq, List.countP_cons]
          have h1 := List.countP_le_length (p := fun a => decide (L a)) (l := (l.take (i + 2)).erase f)
          have h2 := hp.length_eq
          rw [List.length_take, List.length_cons] at h2
          rw [if_neg (by simp [hLf])]
          show List.countP _ ((l.take (i + 2)).erase f) + 0 ≤ i + 1
          have h2 : min (i + 2) l.length = ((l.take (i + 2)).erase f).length + 1 := h2
          omega
        rw [sum_draws l (i + 2) (by omega) _ (fun a => if L a then (goods L l (i + 1) - 1).descFactorial (places S i) * (i - places S i).factorial
          else if a = f then 0 else (goods L l (i + 1)).descFactorial (places S i) * (i - places S i).factorial)]
        · rw [sum_three L f hLf _ _ _ hnt hf, e, show (l.take (i + 2)).length = i + 2 by rw [List.length_take]; omega]
          show goods L l (i + 1) * _ + (i + 1 - goods L l (i + 1)) * _ = _
          rw [← Nat.mul_assoc, ← Nat.mul_assoc, ← Nat.add_mul, free_step _ _ _ (by omega) hglt,
            show i + 1 - places S i = (i - places S i) + 1 by omega, Nat.factorial_succ]
          rw [Nat.mul_comm (_ + 1), Nat.mul_assoc]
        · intro d hd
          have hg := goods_swap L l i d hi hd
          rw [countOutcomes_congr (q := fun ds => (shuffleFrom (swapAt l (i + 1) d) i (fed ds r)).1.getD t 0 = f ∧
            ∀ k, k ≤ i → S k → L ((shuffleFrom (swapAt l (i + 1) d) i (fed ds r)).1.getD k 0))
            (fun ds => by rw [key2 d hd ds]; simp only [hS, false_imp_iff, true_and])]
          by_cases hL : L l[d]
          · rw [if_pos hL] at hg ⊢
            rw [ih _ ((swapAt_perm _ _ _).nodup_iff.mpr hn) (by rw [swapAt_length]; omega) hti' (stays d hd (fun h => hLf (h ▸ hL))), hg, Nat.add_sub_cancel]
          · rw [if_neg hL] at hg
            rw [if_neg hL]
            by_cases he : l[d] = f
            · rw [if_pos he]
              exact countOutcomes_false _ _ (fun ds h => gone d hd he ds h.1)
            · rw [if_neg he, ih _ ((swapAt_perm _ _ _).nodup_iff.mpr hn) (by rw [swapAt_length]; omega) hti' (stays d hd he),
                show goods L (swapAt l (i + 1) d) i = goods L l (i + 1) from hg.symm]

end Goslide
