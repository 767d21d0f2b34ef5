import Verif.Proofs.Shuffle
import Verif.Proofs.Heap
import Verif.Spec.Random
/-
The Fisher–Yates shuffle reaches every order in exactly one way.
-/
namespace Goslide
open Spec GoHeap

theorem nodup_inj {α : Type} {l : List α} (h : l.Nodup) {i j : Nat} {hi : i < l.length} {hj : j < l.length} (e : l[i] = l[j]) : i = j := by
  rcases Nat.lt_trichotomy i j with h' | h' | h'
  · exact absurd e (List.pairwise_iff_getElem.mp h i j hi hj h')
  · exact h'
  · exact absurd e.symm (List.pairwise_iff_getElem.mp h j i hj hi h')

theorem fed_tail (d : Nat) (ds : List Nat) (r : Rng) : (fed (d :: ds) r).tail = fed ds r := by
  funext n
  simp [fed, Rng.tail]

theorem fed_head (d : Nat) (ds : List Nat) (r : Rng) : fed (d :: ds) r 0 = d := by simp [fed]

theorem fed_nil (r : Rng) : fed [] r = r := by funext n; simp [fed]

theorem countP_flatMap_range {α : Type} (p : α → Bool) (g : Nat → List α) : ∀ n : Nat,
    ((List.range n).flatMap g).countP p = ((List.range n).map (fun d => (g d).countP p)).sum := by
  intro n
  rw [List.countP_flatMap]
  rfl

theorem sum_single (f : Nat → Nat) (j c : Nat) : ∀ n, (∀ d < n, d ≠ j → f d = 0) → f j = c → j < n → ((List.range n).map f).sum = c := by
  intro n
  induction n with
  | zero => intro _ _ h; omega
  | succ n ih =>
    intro h0 hj hlt
    rw [List.range_succ, List.map_append, List.sum_append]
    simp only [List.map_cons, List.map_nil, List.sum_cons, List.sum_nil, Nat.add_zero]
    by_cases h : j = n
    · subst h
      have : ((List.range j).map f).sum = 0 := by
        rw [show (List.range j).map f = (List.range j).map (fun _ => 0) from
          List.map_congr_left (fun d hd => h0 d (by have := List.mem_range.mp hd; omega) (by have := List.mem_range.mp hd; omega)), List.map_const', List.sum_replicate_nat,
          Nat.mul_zero]
      omega
    · rw [ih (fun d hd => h0 d (by omega)) hj (by omega), h0 n (by omega) (by omega), Nat.add_zero]

theorem sum_all_but (f : Nat → Nat) (j c : Nat) : ∀ n, (∀ d < n, d ≠ j → f d = c) → f j = 0 → j < n → ((List.range n).map f).sum = (n - 1) * c := by
  intro n
  induction n with
  | zero => intro _ _ h; omega
  | succ n ih =>
    intro h0 hj hlt
    rw [List.range_succ, List.map_append, List.sum_append]
    simp only [List.map_cons, List.map_nil, List.sum_cons, List.sum_nil, Nat.add_zero]
    by_cases h : j = n
    · subst h
      have hc : ∀ m, m ≤ j → ((List.range m).map f).sum = m * c := by
        intro m
        induction m with
        | zero => intro _; simp
        | succ m ihm =>
          intro hm
          rw [List.range_succ, List.map_append, List.sum_append, ihm (by omega)]
          simp only [List.map_cons, List.map_nil, List.sum_cons, List.sum_nil, Nat.add_zero]
          rw [h0 m (by omega) (by omega), Nat.succ_mul]
      rw [hc j (Nat.le_refl _), hj]
      simp
    · rw [ih (fun d hd => h0 d (by omega)) hj (by omega), h0 n (by omega) (by omega)]
      obtain ⟨n, rfl⟩ := Nat.exists_eq_succ_of_ne_zero (show n ≠ 0 by omega)
      simp [Nat.succ_mul]

theorem countOutcomes_cons (b : Nat) (bs : List Nat) (event : List Nat → Prop) [DecidablePred event] :
    countOutcomes (b :: bs) event = ((List.range b).map (fun d => countOutcomes bs (fun ds => event (d :: ds)))).sum := by
  unfold countOutcomes
  rw [outcomes, countP_flatMap_range]
  congr 1
  refine List.map_congr_left (fun d _ => ?_)
  rw [List.countP_map]
  rfl

theorem outcomes_length : ∀ bs : List Nat, (outcomes bs).length = bs.prod
  | [] => rfl
  | b :: bs => by
    rw [outcomes, List.length_flatMap, List.prod_cons]
    simp only [List.length_map, outcomes_length bs]
    rw [List.map_const', List.length_range, List.sum_replicate_nat]

theorem countOutcomes_congr {bs : List Nat} {p q : List Nat → Prop} [DecidablePred p] [DecidablePred q] (h : ∀ ds, p ds ↔ q ds) :
    countOutcomes bs p = countOutcomes bs q := by
  unfold countOutcomes
  congr 1
  funext ds
  exact decide_eq_decide.mpr (h ds)

theorem countOutcomes_true (bs : List Nat) (p : List Nat → Prop) [DecidablePred p] (h : ∀ ds, p ds) : countOutcomes bs p = bs.prod := by
  unfold countOutcomes
  rw [List.countP_eq_length.mpr (fun ds _ => by simp [h]), outcomes_length]

theorem countOutcomes_false (bs : List Nat) (p : List Nat → Prop) [DecidablePred p] (h : ∀ ds, ¬ p ds) : countOutcomes bs p = 0 := by
  unfold countOutcomes
  rw [List.countP_eq_zero]
  intro ds _
  simp [h]

theorem shuffleBounds_prod : ∀ i, (shuffleBounds i).prod = fact (i + 1)
  | 0 => rfl
  | i + 1 => by rw [shuffleBounds, List.prod_cons, shuffleBounds_prod i]; rfl

theorem shuffleFrom_above {α : Type} (i : Nat) : ∀ (l : List α) (r : Rng) (k : Nat), i < l.length → i < k → (shuffleFrom l i r).1[k]? = l[k]? := by
  induction i with
  | zero => intro l r k _ _; rfl
  | succ i ih =>
    intro l r k hi hk
    rw [shuffleFrom]
    have hj' : r 0 % (i + 2) < i + 2 := Nat.mod_lt _ (by omega)
    rw [ih _ _ _ (by rw [swapAt_length]; omega) (by omega), getElem?_swapAt _ _ _ _ hi (by omega), sw, if_neg (by omega), if_neg (by omega)]

/-- One step of the shuffle, for a draw below its bound. -/
theorem shuffleFrom_fed {α : Type} (l : List α) (i d : Nat) (ds : List Nat) (r : Rng) (hd : d < i + 2) :
    (shuffleFrom l (i + 1) (fed (d :: ds) r)) = shuffleFrom (swapAt l (i + 1) d) i (fed ds r) := by
  rw [shuffleFrom, fed_tail, fed_head, Nat.mod_eq_of_lt hd]

theorem perm_of_above {α : Type} {l l' : List α} (hn : l.Nodup) (hp : l'.Perm l) (hk : ∀ k, 0 < k → l'[k]? = l[k]?) : l' = l := by
  have hlen := hp.length_eq
  match l, l', hlen with
  | [], [], _ => rfl
  | a :: l, a' :: l', hlen =>
    have : l' = l := List.ext_getElem? (fun k => by have := hk (k + 1) (by omega); simpa using this)
    subst this
    have h1 : a' ∈ a :: l' := hp.mem_iff.mp List.mem_cons_self
    have h2 : (a' :: l').Nodup := hp.nodup_iff.mpr hn
    rcases List.mem_cons.mp h1 with rfl | h
    · rfl
    · exact absurd h (List.nodup_cons.mp h2).1

theorem shuffleFrom_count {α : Type} [DecidableEq α] (r : Rng) (i : Nat) : ∀ (l l' : List α), l.Nodup → i < l.length → l'.Perm l →
    (∀ k, i < k → l'[k]? = l[k]?) → countOutcomes (shuffleBounds i) (fun ds => (shuffleFrom l i (fed ds r)).1 = l') = 1 := by
  induction i with
  | zero =>
    intro l l' hn hi hp hk
    obtain rfl := perm_of_above hn hp hk
    exact (countOutcomes_true _ (fun ds => (shuffleFrom l' 0 (fed ds r)).1 = l') (fun ds => rfl)).trans rfl
  | succ i ih =>
    intro l l' hn hi hp hk
    have hlen := hp.length_eq
    obtain ⟨j, hj, hjl⟩ := List.getElem_of_mem (hp.mem_iff.mp (List.getElem_mem (l := l') (n := i + 1) (by omega)))
    have hn' := hp.nodup_iff.mpr hn
    have hji : j ≤ i + 1 := by
      refine Decidable.byContradiction fun h => ?_
      have h1 := hk j (by omega)
      rw [List.getElem?_eq_getElem hj, hjl, List.getElem?_eq_getElem (by omega)] at h1
      have h2 := nodup_inj hn' (Option.some.inj h1)
      omega
    rw [shuffleBounds, countOutcomes_cons]
    refine sum_single _ j 1 _ ?_ ?_ (by omega)
    · intro d hd hdj
      refine countOutcomes_false _ _ (fun ds h => hdj ?_)
      rw [shuffleFrom_fed _ _ _ _ _ hd] at h
      have h1 := shuffleFrom_above i (swapAt l (i + 1) d) (fed ds r) (i + 1) (by rw [swapAt_length]; omega) (by omega)
      rw [h, getElem?_swapAt _ _ _ _ hi (by omega), sw, if_pos rfl, List.getElem?_eq_getElem (by omega), ← hjl, List.getElem?_eq_getElem (by omega)] at h1
      exact (nodup_inj hn (Option.some.inj h1)).symm
    · rw [countOutcomes_congr (q := fun ds => (shuffleFrom (swapAt l (i + 1) j) i (fed ds r)).1 = l') (fun ds => by rw [shuffleFrom_fed _ _ _ _ _ (by omega)])]
      refine ih _ _ ((swapAt_perm _ _ _).nodup_iff.mpr hn) (by rw [swapAt_length]; omega) (hp.trans (swapAt_perm _ _ _).symm) ?_
      intro k hk'
      rw [getElem?_swapAt _ _ _ _ hi hj]
      unfold sw
      by_cases h1 : k = i + 1
      · rw [if_pos h1, h1, List.getElem?_eq_getElem hj, hjl, List.getElem?_eq_getElem (by omega)]
      · rw [if_neg h1, if_neg (by omega), hk k (by omega)]

/-- How often an item of the first `i + 1` positions ends up at position `p`. -/
theorem shuffleFrom_position {α : Type} [DecidableEq α] (r : Rng) (i : Nat) : ∀ (l : List α) (q p : Nat) (hq : q < l.length), l.Nodup → i < l.length → q ≤ i → p ≤ i →
    countOutcomes (shuffleBounds i) (fun ds => (shuffleFrom l i (fed ds r)).1[p]? = some l[q]) = fact i := by
  induction i with
  | zero =>
    intro l q p hq hn hi hq' hp'
    obtain rfl : q = 0 := by omega
    obtain rfl : p = 0 := by omega
    exact (countOutcomes_true _ (fun ds => (shuffleFrom l 0 (fed ds r)).1[0]? = some l[0]) (fun ds => List.getElem?_eq_getElem hq)).trans rfl
  | succ i ih =>
    intro l q p hq hn hi hq' hp'
    rw [shuffleBounds, countOutcomes_cons]
    by_cases hpi : p = i + 1
    · subst hpi
      refine sum_single _ q _ _ ?_ ?_ (by omega)
      · intro d hd hdq
        refine countOutcomes_false _ _ (fun ds h => hdq ?_)
        rw [shuffleFrom_fed _ _ _ _ _ hd, shuffleFrom_above i _ _ _ (by rw [swapAt_length]; omega) (by omega), getElem?_swapAt _ _ _ _ hi (by omega), sw, if_pos rfl,
          List.getElem?_eq_getElem (by omega)] at h
        exact nodup_inj hn (Option.some.inj h)
      · rw [countOutcomes_true, shuffleBounds_prod]
        intro ds
        rw [shuffleFrom_fed _ _ _ _ _ (by omega), shuffleFrom_above i _ _ _ (by rw [swapAt_length]; omega) (by omega), getElem?_swapAt _ _ _ _ hi (by omega), sw, if_pos rfl,
          List.getElem?_eq_getElem hq]
    · have key : ∀ d < i + 2, ∀ ds, (shuffleFrom l (i + 1) (fed (d :: ds) r)).1[p]? = some l[q] ↔
          (shuffleFrom (swapAt l (i + 1) d) i (fed ds r)).1[p]? = some l[q] := fun d hd ds => by rw [shuffleFrom_fed _ _ _ _ _ hd]
      show _ = (i + 1) * fact i
      rw [show (i + 1) * fact i = (i + 2 - 1) * fact i from rfl]
      refine sum_all_but _ q _ _ ?_ ?_ (by omega)
      · intro d hd hdq
        rw [countOutcomes_congr (key d hd)]
        have hs : ∃ q', q' ≤ i ∧ (swapAt l (i + 1) d)[q']? = some l[q] := by
          by_cases h : q = i + 1
          · refine ⟨d, by omega, ?_⟩
            rw [getElem?_swapAt _ _ _ _ hi (by omega), sw, if_neg (by omega), if_pos rfl]
            subst h
            exact List.getElem?_eq_getElem hq
          · refine ⟨q, by omega, ?_⟩
            rw [getElem?_swapAt _ _ _ _ hi (by omega), sw, if_neg h, if_neg (by omega)]
            exact List.getElem?_eq_getElem hq
        obtain ⟨q', h1, h2⟩ := hs
        obtain ⟨h3, h4⟩ := List.getElem?_eq_some_iff.mp h2
        rw [← h4]
        exact ih _ q' p h3 ((swapAt_perm _ _ _).nodup_iff.mpr hn) (by rw [swapAt_length]; omega) h1 (by omega)
      · rw [countOutcomes_congr (key q (by omega))]
        refine countOutcomes_false _ _ (fun ds h => hpi ?_)
        have h0 : (shuffleFrom (swapAt l (i + 1) q) i (fed ds r)).1[i + 1]? = some l[q] := by
          rw [shuffleFrom_above i _ _ _ (by rw [swapAt_length]; omega) (by omega), getElem?_swapAt _ _ _ _ hi (by omega), sw, if_pos rfl]
          exact List.getElem?_eq_getElem hq
        have hnd := ((shuffleFrom_perm i (swapAt l (i + 1) q) (fed ds r)).trans (swapAt_perm _ _ _)).nodup_iff.mpr hn
        obtain ⟨a1, a2⟩ := List.getElem?_eq_some_iff.mp h
        obtain ⟨b1, b2⟩ := List.getElem?_eq_some_iff.mp h0
        exact nodup_inj hnd (a2.trans b2.symm)

end Goslide

namespace Goslide
open Spec GoHeap

/-- The bounds of the draws of `rand.Shuffle` for `n` items. -/
theorem shuffle_count {α : Type} [DecidableEq α] (r : Rng) (l l' : List α) (hn : l.Nodup) (hp : l'.Perm l) :
    countOutcomes (shuffleBounds (l.length - 1)) (fun ds => (shuffle l (fed ds r)).1 = l') = 1 := by
  cases l with
  | nil =>
    obtain rfl := hp.eq_nil
    exact (countOutcomes_true _ (fun ds => (shuffle ([] : List α) (fed ds r)).1 = []) (fun ds => rfl)).trans rfl
  | cons a l =>
    refine shuffleFrom_count r _ _ _ hn (by simp) hp (fun k hk => ?_)
    have := hp.length_eq
    rw [List.getElem?_eq_none (by simp at *; omega), List.getElem?_eq_none (by simp at *; omega)]

theorem shuffleBounds_length : ∀ i, (shuffleBounds i).length = i
  | 0 => rfl
  | i + 1 => by rw [shuffleBounds, List.length_cons, shuffleBounds_length i]

theorem mem_outcomes_length : ∀ (bs ds : List Nat), ds ∈ outcomes bs → ds.length = bs.length
  | [], ds, h => by rw [outcomes, List.mem_singleton] at h; subst h; rfl
  | b :: bs, ds, h => by
    rw [outcomes, List.mem_flatMap] at h
    obtain ⟨d, -, h⟩ := h
    obtain ⟨ds, h', rfl⟩ := List.mem_map.mp h
    rw [List.length_cons, List.length_cons, mem_outcomes_length bs ds h']

theorem outcomes_append : ∀ as bs : List Nat, outcomes (as ++ bs) = (outcomes as).flatMap (fun x => (outcomes bs).map (x ++ ·))
  | [], bs => by simp [outcomes]
  | a :: as, bs => by
    rw [List.cons_append, outcomes, outcomes_append as bs, outcomes, List.flatMap_assoc]
    congr 1
    funext d
    rw [List.map_flatMap, List.flatMap_map]
    simp
    rfl

/-- Two groups of draws: first the outcomes of the first group that pass, and for each of them those of the second. -/
theorem countOutcomes_append (as bs : List Nat) (p : List Nat → Prop) [DecidablePred p] (event : List Nat → Prop) [DecidablePred event] (c : Nat)
    (hc : ∀ x ∈ outcomes as, p x → countOutcomes bs (fun y => event (x ++ y)) = c) (h0 : ∀ x ∈ outcomes as, ¬ p x → countOutcomes bs (fun y => event (x ++ y)) = 0) :
    countOutcomes (as ++ bs) event = countOutcomes as p * c := by
  unfold countOutcomes at *
  rw [outcomes_append, List.countP_flatMap]
  generalize outcomes as = L at *
  induction L with
  | nil => simp
  | cons x L ih =>
    rw [List.map_cons, List.sum_cons, ih (fun x hx => hc x (List.mem_cons_of_mem _ hx)) (fun x hx => h0 x (List.mem_cons_of_mem _ hx)), List.countP_cons]
    simp only [Function.comp_apply, List.countP_map]
    have e : List.countP ((fun d => decide (event d)) ∘ fun y => x ++ y) (outcomes bs) = List.countP (fun y => decide (event (x ++ y))) (outcomes bs) := rfl
    rw [e]
    by_cases hp : p x
    · rw [hc x List.mem_cons_self hp, if_pos (by simpa using hp), Nat.add_mul, Nat.one_mul, Nat.add_comm]
    · rw [h0 x List.mem_cons_self hp, if_neg (by simpa using hp)]
      simp

theorem fed_append (as bs : List Nat) (r : Rng) : fed (as ++ bs) r = fed as (fed bs r) := by
  funext n
  unfold fed
  simp only [List.length_append, List.getD_eq_getElem?_getD]
  by_cases h : n < as.length
  · rw [if_pos (by omega), if_pos h, List.getElem?_append_left h]
  · rw [if_neg h, List.getElem?_append_right (by omega)]
    by_cases h2 : n < as.length + bs.length
    · rw [if_pos h2, if_pos (by omega)]
    · rw [if_neg h2, if_neg (by omega)]
      congr 1
      omega

/-- A shuffle uses the draws it is given and nothing else. -/
theorem shuffleFrom_fed_rest {α : Type} (i : Nat) : ∀ (l : List α) (ds : List Nat) (r : Rng), ds.length = i → (shuffleFrom l i (fed ds r)).2 = r := by
  induction i with
  | zero =>
    intro l ds r h
    obtain rfl := List.length_eq_zero_iff.mp h
    exact fed_nil r
  | succ i ih =>
    intro l ds r h
    match ds, h with
    | d :: ds, h =>
      rw [shuffleFrom, fed_tail]
      exact ih _ _ _ (by simpa using h)

theorem shuffleFrom_fed_any {α : Type} (i : Nat) : ∀ (l : List α) (ds : List Nat) (r r' : Rng), ds.length = i →
    (shuffleFrom l i (fed ds r)).1 = (shuffleFrom l i (fed ds r')).1 := by
  induction i with
  | zero => intro l ds r r' h; rfl
  | succ i ih =>
    intro l ds r r' h
    match ds, h with
    | d :: ds, h =>
      rw [shuffleFrom, shuffleFrom, fed_tail, fed_tail, fed_head, fed_head]
      exact ih _ _ _ _ (by simpa using h)

/-- Two groups of draws. -/
theorem countOutcomes_append_sum (as bs : List Nat) (event : List Nat → Prop) [DecidablePred event] :
    countOutcomes (as ++ bs) event = ((outcomes as).map (fun x => countOutcomes bs (fun y => event (x ++ y)))).sum := by
  unfold countOutcomes
  rw [outcomes_append, List.countP_flatMap]
  congr 1
  refine List.map_congr_left (fun x _ => ?_)
  simp only [Function.comp_apply, List.countP_map]
  rfl

/-- Events that exclude each other. -/
theorem countOutcomes_exists (bs : List Nat) (event : Nat → List Nat → Prop) [∀ p, DecidablePred (event p)] (c : Nat) : ∀ m : Nat,
    (∀ p, p < m → countOutcomes bs (event p) = c) → (∀ p q ds, p < m → q < m → event p ds → event q ds → p = q) →
    countOutcomes bs (fun ds => ∃ p, p < m ∧ event p ds) = m * c := by
  intro m
  induction m with
  | zero =>
    intro _ _
    rw [countOutcomes_false _ _ (fun ds ⟨p, h, _⟩ => absurd h (by omega)), Nat.zero_mul]
  | succ m ih =>
    intro hc hex
    have h1 := ih (fun p hp => hc p (by omega)) (fun p q ds hp hq => hex p q ds (by omega) (by omega))
    rw [Nat.succ_mul, ← h1, ← hc m (by omega)]
    unfold countOutcomes
    generalize outcomes bs = L
    induction L with
    | nil => rfl
    | cons ds L ihL =>
      rw [List.countP_cons, List.countP_cons, List.countP_cons, ihL]
      by_cases a : event m ds
      · have h2 : ¬ ∃ p, p < m ∧ event p ds := fun ⟨p, hp, he⟩ => absurd (hex p m ds (by omega) (by omega) he a) (by omega)
        have h3 : ∃ p, p < m + 1 ∧ event p ds := ⟨m, by omega, a⟩
        simp only [decide_eq_true h3, decide_eq_false h2, decide_eq_true a]
        simp
        omega
      · have h2 : (∃ p, p < m + 1 ∧ event p ds) ↔ ∃ p, p < m ∧ event p ds := by
          constructor
          · rintro ⟨p, hp, he⟩
            refine ⟨p, ?_, he⟩
            rcases Nat.lt_or_ge p m with h | h
            · exact h
            · obtain rfl : p = m := by omega
              exact absurd he a
          · rintro ⟨p, hp, he⟩
            exact ⟨p, by omega, he⟩
        simp only [decide_eq_decide.mpr h2, decide_eq_false a]
        simp
        omega

end Goslide
