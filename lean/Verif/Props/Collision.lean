import Verif.Props.WtaRandom
import Verif.Proofs.Pattern
import Mathlib.Data.Nat.Choose.Basic
/-
C99: how often two vectors get the same code from the winner-take-all hashes.
-/
namespace Goslide.Props
open Spec GoHeap
variable {F : Type} [GoFloat F]

/-- The number of features that both vectors put below feature `f`. -/
def agree (dim : Nat) (x y : Nat → F) (f : Nat) : Nat :=
  (List.range dim).countP (fun g => GoFloat.lt (x g) (x f) && GoFloat.lt (y g) (y f))

/-- The number of sets of 8 features in which both vectors have the same largest feature: feature `f` and 7 of those below it. -/
def sameTop (dim : Nat) (x y : Nat → F) : Nat := ((List.range dim).map (fun f => (agree dim x y f).choose 7)).sum

/-- A vector whose values are different and above -2^63. -/
def Spread (dim : Nat) (val : Nat → F) : Prop :=
  (∀ f, f < dim → GoFloat.lt (GoFloat.const (-9223372036854775808)) (val f) = true) ∧
  (∀ f g, f < dim → g < dim → f ≠ g → GoFloat.lt (val f) (val g) = true ∨ GoFloat.lt (val g) (val f) = true)

/-- Events that exclude each other. -/
theorem countOutcomes_exists_sum (bs : List Nat) (event : Nat → List Nat → Prop) [∀ p, DecidablePred (event p)] : ∀ m : Nat,
    (∀ p q ds, p < m → q < m → event p ds → event q ds → p = q) →
    countOutcomes bs (fun ds => ∃ p, p < m ∧ event p ds) = ((List.range m).map (fun p => countOutcomes bs (event p))).sum := by
  intro m
  induction m with
  | zero =>
    intro _
    rw [countOutcomes_false _ _ (fun ds ⟨p, h, _⟩ => absurd h (by omega))]
    rfl
  | succ m ih =>
    intro hex
    have h1 := ih (fun p q ds hp hq => hex p q ds (by omega) (by omega))
    rw [List.range_succ, List.map_append, List.sum_append, ← h1]
    simp only [List.map_cons, List.map_nil, List.sum_cons, List.sum_nil, Nat.add_zero]
    unfold countOutcomes
    generalize outcomes bs = L
    induction L with
    | nil => rfl
    | cons ds L ihL =>
      rw [List.countP_cons, List.countP_cons, List.countP_cons, ihL]
      by_cases a : event m ds
      · have h2 : ¬ ∃ p, p < m ∧ event p ds := fun ⟨p, hp, he⟩ => absurd (hex p m ds (by omega) (by omega) he a) (by omega)
        have h3 : ∃ p, p < m + 1 ∧ event p ds := ⟨m, by omega, a⟩
        simp only [decide_eq_true h3, decide_eq_false h2, decide_eq_true a]
        simp
        omega
      · have h2 : (∃ p, p < m + 1 ∧ event p ds) ↔ ∃ p, p < m ∧ event p ds := by
          constructor
          · rintro ⟨p, hp, he⟩
            refine ⟨p, ?_, he⟩
            rcases Nat.lt_or_ge p m with h | h
            · exact h
            · obtain rfl : p = m := by omega
              exact absurd he a
          · rintro ⟨p, hp, he⟩
            exact ⟨p, by omega, he⟩
        simp only [h2, a]
        simp
        omega

theorem sum_mul_same {α : Type} (g : α → Nat) (l : List α) (n K : Nat) (h : ∀ a ∈ l, g a * n = K) : (l.map g).sum * n = l.length * K := by
  induction l with
  | nil => simp
  | cons a l ih =>
    rw [List.map_cons, List.sum_cons, Nat.add_mul, h a List.mem_cons_self, ih (fun b hb => h b (List.mem_cons_of_mem _ hb)), List.length_cons, Nat.succ_mul,
      Nat.add_comm]

theorem sum_mul_each {α : Type} (g : α → Nat) (l : List α) (n : Nat) (f : α → Nat) (K : Nat) (h : ∀ a ∈ l, g a * n = f a * K) :
    (l.map g).sum * n = (l.map f).sum * K := by
  induction l with
  | nil => simp
  | cons a l ih =>
    rw [List.map_cons, List.sum_cons, Nat.add_mul, h a List.mem_cons_self, ih (fun b hb => h b (List.mem_cons_of_mem _ hb)), List.map_cons, List.sum_cons,
      Nat.add_mul]

/-- An event about one of the permutations, when it happens equally often after a shuffle of any arrangement. -/
theorem perms_event (dim : Nat) (r : Rng) (E : List Nat → Prop) [DecidablePred E] (N : Nat)
    (hE : ∀ a : List Nat, a.Perm (List.range dim) → countOutcomes (shuffleBounds (dim - 1)) (fun ds => E (shuffle a (fed ds r)).1) = N) :
    ∀ (p q : Nat) (a : List Nat), a.Perm (List.range dim) → q < p →
      countOutcomes (wtaBounds dim p) (fun ds => E ((permsList p a (fed ds r)).getD q [])) * (outcomes (shuffleBounds (dim - 1))).length =
        N * (outcomes (wtaBounds dim p)).length := by
  intro p
  induction p with
  | zero => intro q a _ h; omega
  | succ p ih =>
    intro q a ha hq
    have hlen : a.length = dim := by simpa using ha.length_eq
    have e1 : ∀ x ∈ outcomes (shuffleBounds (dim - 1)), ∀ y, permsList (p + 1) a (fed (x ++ y) r) =
        (shuffle a (fed x r)).1 :: permsList p (shuffle a (fed x r)).1 (fed y r) := by
      intro x hx y
      have hxl : x.length = a.length - 1 := by rw [mem_outcomes_length _ _ hx, shuffleBounds_length, hlen]
      rw [permsList, show (shuffle a (fed (x ++ y) r)).1 = (shuffle a (fed x r)).1 by rw [fed_append]; exact shuffleFrom_fed_any _ _ _ _ _ hxl,
        show (shuffle a (fed (x ++ y) r)).2 = fed y r by rw [fed_append]; exact shuffleFrom_fed_rest _ _ _ _ hxl]
    have hprod : (outcomes (wtaBounds dim (p + 1))).length = (outcomes (shuffleBounds (dim - 1))).length * (outcomes (wtaBounds dim p)).length := by
      rw [outcomes_length, outcomes_length, outcomes_length, wtaBounds, List.prod_append]
    cases q with
    | zero =>
      rw [wtaBounds, countOutcomes_append _ _ (fun x => E (shuffle a (fed x r)).1) _ (outcomes (wtaBounds dim p)).length, hE a ha]
      · have hprod : (outcomes (shuffleBounds (dim - 1) ++ wtaBounds dim p)).length =
          (outcomes (shuffleBounds (dim - 1))).length * (outcomes (wtaBounds dim p)).length := hprod
        rw [hprod, Nat.mul_assoc]
        congr 1
        exact Nat.mul_comm _ _
      · intro x hx hEx
        rw [outcomes_length]
        refine countOutcomes_true _ _ (fun y => ?_)
        rw [e1 x hx y]
        exact hEx
      · intro x hx hEx
        refine countOutcomes_false _ _ (fun y h => hEx ?_)
        rw [e1 x hx y] at h
        exact h
    | succ q =>
      rw [hprod, wtaBounds, countOutcomes_append_sum]
      have e2 : ∀ x ∈ outcomes (shuffleBounds (dim - 1)),
          countOutcomes (wtaBounds dim p) (fun y => E ((permsList (p + 1) a (fed (x ++ y) r)).getD (q + 1) [])) * (outcomes (shuffleBounds (dim - 1))).length =
            N * (outcomes (wtaBounds dim p)).length := by
        intro x hx
        rw [← ih q (shuffle a (fed x r)).1 ((shuffle_perm _ _).trans ha) (by omega)]
        congr 1
        refine countOutcomes_congr (fun y => ?_)
        rw [e1 x hx y]
        rfl
      rw [sum_mul_same _ _ _ _ e2, Nat.mul_left_comm]

theorem wins_unique [FloatOrder F] (val : Nat → F) (perms : List (List Nat)) (q o c d : Nat) (hc : c < 8) (hd : d < 8) (h1 : Wins val perms q o c)
    (h2 : Wins val perms q o d) : c = d := by
  refine Decidable.byContradiction (fun h => ?_)
  have a1 := h1 d hd (fun e => h e.symm)
  have a2 := h2 c hc h
  rw [float_asymm _ _ a1] at a2
  simp at a2

/-- The code of a bin inside one permutation is the feature with the largest value. -/
theorem wta_wins [FloatOrder F] (numHashes dim : Nat) (hd : 0 < dim) (r : Rng) (val : Nat → F) (hs : Spread dim val)
    (b : Nat) (hb : b < numHashes) (q : Nat) (h1 : q * dim ≤ 8 * b) (h2 : 8 * b + 8 ≤ (q + 1) * dim) :
    ∃ w : Nat, w < 8 ∧ wtaCode numHashes dim val b r =
        some ((place (permsList (Wta.permuteCount numHashes dim) (List.range dim) r) q (8 * b - q * dim + w) : Nat) : Int) ∧
      Wins val (permsList (Wta.permuteCount numHashes dim) (List.range dim) r) q (8 * b - q * dim) w := by
  have hq := block_lt hd hb h1
  rw [Nat.succ_mul q dim] at h2
  have hl : (permsList (Wta.permuteCount numHashes dim) (List.range dim) r).length = Wta.permuteCount numHashes dim := permsList_length _ _ _
  have hp : ∀ τ ∈ permsList (Wta.permuteCount numHashes dim) (List.range dim) r, τ.Perm (List.range dim) := permsList_perm _ _ _ (List.Perm.refl _)
  obtain ⟨codes, e1, e2, e3⟩ := C14_dense_argmax numHashes dim hd r val
  obtain ⟨feats, k1, k2, k3, k4⟩ := e3 b hb
  have hfeats : ∀ j, j < 8 → feats[j]? = some (place (permsList (Wta.permuteCount numHashes dim) (List.range dim) r) q (8 * b - q * dim + j)) := by
    intro j hj
    obtain ⟨π, g1, g2, g3⟩ := place_get hl hp hq (x := 8 * b - q * dim + j) (by omega)
    rw [k1, List.getElem?_take_of_lt hj, List.getElem?_drop, ← g3]
    show (Wta.permLoop _ _ _).1[_]? = _
    rw [permLoop_flatten, show 8 * b + j = q * dim + (8 * b - q * dim + j) from by omega]
    exact flatten_get dim _ q _ π (fun a ha => by simpa using (hp a ha).length_eq) g1 (by omega)
  rcases k4 with ⟨c, c1, c2, pre, post, c3, c4, c5⟩ | ⟨c1, c2⟩
  · have hw : pre.length < 8 := by
      rw [c3, List.length_append, List.length_cons] at k2
      omega
    have hcw : place (permsList (Wta.permuteCount numHashes dim) (List.range dim) r) q (8 * b - q * dim + pre.length) = c := by
      have := hfeats pre.length hw
      rw [c3, List.getElem?_append_right (Nat.le_refl _), Nat.sub_self, List.getElem?_cons_zero] at this
      exact (Option.some.inj this).symm
    refine ⟨pre.length, hw, ?_, fun j hj hjw => ?_⟩
    · unfold wtaCode
      rw [e1]
      dsimp only
      rw [c1, hcw]
    · rw [hcw]
      have hm := hfeats j hj
      have hlt : place (permsList (Wta.permuteCount numHashes dim) (List.range dim) r) q (8 * b - q * dim + j) < dim := k3 _ (List.mem_of_getElem? hm)
      have hclt : c < dim := k3 c (by rw [c3]; simp)
      have hne : place (permsList (Wta.permuteCount numHashes dim) (List.range dim) r) q (8 * b - q * dim + j) ≠ c := by
        intro h
        rw [← hcw] at h
        have := place_inj hl hp hq (by omega) (by omega) h
        omega
      rw [c3] at hm
      rcases Nat.lt_or_gt_of_ne hjw with h | h
      · rw [List.getElem?_append_left h] at hm
        rcases c4 _ (List.mem_of_getElem? hm) with h' | h'
        · have := hs.1 _ hlt
          rw [FloatOrder.lt_nan_right _ _ h'] at this
          simp at this
        · exact h'
      · rw [List.getElem?_append_right (by omega), show j - pre.length = (j - pre.length - 1) + 1 by omega, List.getElem?_cons_succ] at hm
        have h' := c5 _ (List.mem_of_getElem? hm)
        rcases hs.2 _ c hlt hclt hne with h | h
        · exact h
        · rw [h'] at h; simp at h
  · have hm := hfeats 0 (by omega)
    have := c2 _ (List.mem_of_getElem? hm)
    rw [hs.1 _ (k3 _ (List.mem_of_getElem? hm))] at this
    simp at this

/-- Both vectors have their largest value of the bin in place `c`. -/
def Both (x y : Nat → F) (perms : List (List Nat)) (q o c : Nat) : Prop := Wins x perms q o c ∧ Wins y perms q o c

instance (x y : Nat → F) (perms : List (List Nat)) (q o c : Nat) : Decidable (Both x y perms q o c) := by unfold Both; infer_instance

/-- The two codes of a bin inside one permutation are the same when both vectors have their largest value in the same place. -/
theorem wta_collision [FloatOrder F] (numHashes dim : Nat) (hd : 0 < dim) (r : Rng) (x y : Nat → F) (hx : Spread dim x) (hy : Spread dim y)
    (b : Nat) (hb : b < numHashes) (q : Nat) (h1 : q * dim ≤ 8 * b) (h2 : 8 * b + 8 ≤ (q + 1) * dim) :
    wtaCode numHashes dim x b r = wtaCode numHashes dim y b r ↔
      ∃ c : Nat, c < 8 ∧ Both x y (permsList (Wta.permuteCount numHashes dim) (List.range dim) r) q (8 * b - q * dim) c := by
  obtain ⟨w, w1, w2, w3⟩ := wta_wins numHashes dim hd r x hx b hb q h1 h2
  obtain ⟨v, v1, v2, v3⟩ := wta_wins numHashes dim hd r y hy b hb q h1 h2
  rw [Nat.succ_mul q dim] at h2
  rw [w2, v2, Option.some.injEq]
  constructor
  · intro h
    have := place_inj (permsList_length _ _ _) (permsList_perm _ _ _ (List.Perm.refl _)) (block_lt hd hb h1) (by omega) (by omega) (Int.ofNat.inj h)
    obtain rfl : w = v := by omega
    exact ⟨w, w1, w3, v3⟩
  · rintro ⟨c, c1, c2, c3⟩
    rw [wins_unique _ _ _ _ _ _ w1 c1 w3 c2, wins_unique _ _ _ _ _ _ v1 c1 v3 c3]

theorem dwta_collision [FloatOrder F] (numHashes dim : Nat) (hd : 0 < dim) (r : Rng) (x y : Nat → F) (hx : Spread dim x) (hy : Spread dim y)
    (b : Nat) (hb : b < numHashes) (q : Nat) (h1 : q * dim ≤ 8 * b) (h2 : 8 * b + 8 ≤ (q + 1) * dim) :
    dwtaCode numHashes dim x b r = dwtaCode numHashes dim y b r ↔
      ∃ c : Nat, c < 8 ∧ Both x y (permsList (Wta.permuteCount numHashes dim) (List.range dim) r) q (8 * b - q * dim) c := by
  obtain ⟨w, w1, w2⟩ := dwta_wins numHashes dim hd r x hx.1 hx.2 b hb q h1 h2
  obtain ⟨v, v1, v2⟩ := dwta_wins numHashes dim hd r y hy.1 hy.2 b hb q h1 h2
  rw [(w2 w w1).1.mpr rfl, (v2 v v1).1.mpr rfl, Option.some.injEq]
  constructor
  · intro h
    obtain rfl : w = v := by omega
    exact ⟨w, w1, (w2 w w1).2.mpr rfl, (v2 w w1).2.mpr rfl⟩
  · rintro ⟨c, c1, c2, c3⟩
    rw [← (w2 c c1).2.mp c2, ← (v2 c c1).2.mp c3]

theorem window_count (o c n : Nat) (hc : c < 8) (hn : o + 8 ≤ n) :
    (List.range n).countP (fun k => decide (o ≤ k ∧ k < o + 8 ∧ k ≠ o + c)) = 7 := by
  obtain ⟨m, rfl⟩ : ∃ m, n = o + (8 + m) := ⟨n - o - 8, by omega⟩
  have z1 : (List.range o).countP (fun k => decide (o ≤ k ∧ k < o + 8 ∧ k ≠ o + c)) = 0 := by
    rw [List.countP_eq_zero]
    intro k hk
    have := List.mem_range.mp hk
    simp
    omega
  have z2 : (List.range m).countP ((fun k => decide (o ≤ k ∧ k < o + 8 ∧ k ≠ o + c)) ∘ (fun x => o + x) ∘ fun x => 8 + x) = 0 := by
    rw [List.countP_eq_zero]
    intro k _
    simp
    omega
  rw [List.range_add, List.countP_append, List.range_add, List.map_append, List.countP_append, List.countP_map, List.map_map, List.countP_map, z1, z2]
  · rw [Nat.zero_add, Nat.add_zero]
    have : ((fun k => decide (o ≤ k ∧ k < o + 8 ∧ k ≠ o + c)) ∘ fun x => o + x) = fun k => decide (k < 8 ∧ k ≠ c) := by
      funext k
      refine decide_eq_decide.mpr ?_
      show o ≤ o + k ∧ o + k < o + 8 ∧ o + k ≠ o + c ↔ _
      exact ⟨fun h => ⟨by omega, by omega⟩, fun h => ⟨by omega, by omega, by omega⟩⟩
    rw [this]
    have : ∀ c < 8, (List.range 8).countP (fun k => decide (k < 8 ∧ k ≠ c)) = 7 := by decide
    exact this c hc

/-- How often both vectors have their largest value in place `c` of the bin. -/
theorem both_count [FloatOrder F] (dim p q o c : Nat) (r : Rng) (x y : Nat → F) (hq : q < p) (ho : o + 8 ≤ dim) (hc : c < 8) :
    countOutcomes (wtaBounds dim p) (fun ds => Both x y (permsList p (List.range dim) (fed ds r)) q o c) * dim.factorial =
      ((List.range dim).map (fun f => (agree dim x y f).descFactorial 7)).sum * (dim - 8).factorial * (outcomes (wtaBounds dim p)).length := by
  have hl : ∀ ds, (permsList p (List.range dim) (fed ds r)).length = p := fun ds => permsList_length _ _ _
  have hp : ∀ ds, ∀ τ ∈ permsList p (List.range dim) (fed ds r), τ.Perm (List.range dim) := fun ds => permsList_perm _ _ _ (List.Perm.refl _)
  have hlen : (outcomes (shuffleBounds (dim - 1))).length = dim.factorial := by
    rw [outcomes_length, shuffleBounds_prod, fact_eq]; congr 1; omega
  -- the event for feature `f`
  have one : ∀ f, f < dim → countOutcomes (wtaBounds dim p) (fun ds => (((permsList p (List.range dim) (fed ds r)).getD q []).getD (o + c) 0 = f ∧
      ∀ k, k ≤ dim - 1 → (o ≤ k ∧ k < o + 8 ∧ k ≠ o + c) → (GoFloat.lt (x (((permsList p (List.range dim) (fed ds r)).getD q []).getD k 0)) (x f) = true ∧
        GoFloat.lt (y (((permsList p (List.range dim) (fed ds r)).getD q []).getD k 0)) (y f) = true))) * dim.factorial =
      (agree dim x y f).descFactorial 7 * (dim - 8).factorial * (outcomes (wtaBounds dim p)).length := by
    intro f hf
    rw [← hlen]
    refine perms_event dim r (fun π => π.getD (o + c) 0 = f ∧ ∀ k, k ≤ dim - 1 → (o ≤ k ∧ k < o + 8 ∧ k ≠ o + c) →
      (GoFloat.lt (x (π.getD k 0)) (x f) = true ∧ GoFloat.lt (y (π.getD k 0)) (y f) = true)) _ ?_ p q _ (List.Perm.refl _) hq
    intro a ha
    have hal : a.length = dim := by simpa using ha.length_eq
    have hta : a.take (dim - 1 + 1) = a := List.take_of_length_le (by omega)
    have h := pattern_count_at (fun k => o ≤ k ∧ k < o + 8 ∧ k ≠ o + c) (fun g => GoFloat.lt (x g) (x f) = true ∧ GoFloat.lt (y g) (y f) = true) r (o + c) f
      (by omega) (by rw [FloatOrder.lt_irrefl]; simp) (dim - 1) a (ha.nodup_iff.mpr List.nodup_range) (by omega) (by omega)
      (by rw [hta]; exact ha.mem_iff.mpr (List.mem_range.mpr hf))
    have hpl : places (fun k => o ≤ k ∧ k < o + 8 ∧ k ≠ o + c) (dim - 1) = 7 := by
      unfold places
      exact window_count o c _ hc (by omega)
    have hgd : goods (fun g => GoFloat.lt (x g) (x f) = true ∧ GoFloat.lt (y g) (y f) = true) a (dim - 1) = agree dim x y f := by
      unfold goods agree
      rw [hta, ha.countP_eq]
      congr 1
      funext g
      simp
    rw [hpl, hgd, show dim - 1 - 7 = dim - 8 by omega] at h
    unfold shuffle
    rw [hal]
    exact h
  rw [countOutcomes_congr (q := fun ds => ∃ f, f < dim ∧ (((permsList p (List.range dim) (fed ds r)).getD q []).getD (o + c) 0 = f ∧
      ∀ k, k ≤ dim - 1 → (o ≤ k ∧ k < o + 8 ∧ k ≠ o + c) → (GoFloat.lt (x (((permsList p (List.range dim) (fed ds r)).getD q []).getD k 0)) (x f) = true ∧
        GoFloat.lt (y (((permsList p (List.range dim) (fed ds r)).getD q []).getD k 0)) (y f) = true)))]
  · rw [countOutcomes_exists_sum _ _ dim (fun f g ds _ _ h1 h2 => h1.1.symm.trans h2.1), Nat.mul_assoc, sum_mul_each _ (List.range dim) _
      (fun f => (agree dim x y f).descFactorial 7) ((dim - 8).factorial * (outcomes (wtaBounds dim p)).length)]
    intro f hf
    rw [one f (List.mem_range.mp hf), Nat.mul_assoc]
  · intro ds
    constructor
    · rintro ⟨h1, h2⟩
      obtain ⟨π, g1, g2, g3⟩ := place_get (hl ds) (hp ds) hq (x := o + c) (by omega)
      refine ⟨place (permsList p (List.range dim) (fed ds r)) q (o + c), List.mem_range.mp (g2.mem_iff.mp (List.mem_of_getElem? g3)), rfl, ?_⟩
      rintro k - ⟨k1, k2, k3⟩
      have a1 := h1 (k - o) (by omega) (by omega)
      have a2 := h2 (k - o) (by omega) (by omega)
      rw [show o + (k - o) = k by omega] at a1 a2
      exact ⟨a1, a2⟩
    · rintro ⟨f, hf, rfl, h⟩
      refine ⟨fun j hj hjc => (h (o + j) (by omega) ⟨by omega, by omega, by omega⟩).1, fun j hj hjc => (h (o + j) (by omega) ⟨by omega, by omega, by omega⟩).2⟩

/-- How often both vectors have their largest value in the same place of the bin. -/
theorem collision_count [FloatOrder F] (dim p q o : Nat) (r : Rng) (x y : Nat → F) (hq : q < p) (ho : o + 8 ≤ dim) :
    dim.choose 8 * countOutcomes (wtaBounds dim p) (fun ds => ∃ c : Nat, c < 8 ∧ Both x y (permsList p (List.range dim) (fed ds r)) q o c) = sameTop dim x y * (outcomes (wtaBounds dim p)).length := by
  rw [countOutcomes_exists_sum _ (fun c ds => Both x y (permsList p (List.range dim) (fed ds r)) q o c) 8
    (fun c d ds hc hd h1 h2 => wins_unique _ _ _ _ _ _ hc hd h1.1 h2.1)]
  have h := sum_mul_same (fun c => countOutcomes (wtaBounds dim p) (fun ds => Both x y (permsList p (List.range dim) (fed ds r)) q o c)) (List.range 8) _ _ (fun c hc => both_count dim p q o c r x y hq ho (List.mem_range.mp hc))
  have e : ((List.range dim).map (fun f => (agree dim x y f).descFactorial 7)).sum = Nat.factorial 7 * sameTop dim x y := by
    unfold sameTop
    generalize List.range dim = l
    induction l with
    | nil => rfl
    | cons f l ih => rw [List.map_cons, List.sum_cons, List.map_cons, List.sum_cons, ih, Nat.descFactorial_eq_factorial_mul_choose, Nat.mul_add]
  have hdim := Nat.choose_mul_factorial_mul_factorial (n := dim) (k := 8) (by omega)
  rw [e, List.length_range, ← hdim] at h
  have h8 : Nat.factorial 8 = 8 * Nat.factorial 7 := rfl
  have hpos : 0 < Nat.factorial 8 * (dim - 8).factorial := Nat.mul_pos (Nat.factorial_pos _) (Nat.factorial_pos _)
  refine Nat.eq_of_mul_eq_mul_left hpos ?_
  calc _ = _ * (dim.choose 8 * Nat.factorial 8 * (dim - 8).factorial) := by
        rw [Nat.mul_comm _ (dim.choose 8 * _ * _), ← Nat.mul_assoc]; congr 1; rw [Nat.mul_comm (dim.choose 8), Nat.mul_right_comm]
    _ = _ := h
    _ = _ := by
      rw [h8]
      generalize Nat.factorial 7 = a, (dim - 8).factorial = b', sameTop dim x y = s, (outcomes (wtaBounds dim p)).length = n
      simp only [Nat.mul_assoc, Nat.mul_comm, Nat.mul_left_comm]

/-- C99 (WTA). Two vectors of different values above -2^63 get the same code in a bin inside one permutation with the probability that both have the
same largest feature among 8 random features. -/
theorem C99_wta [FloatOrder F] (numHashes dim : Nat) (hd : 0 < dim) (r : Rng) (x y : Nat → F) (hx : Spread dim x) (hy : Spread dim y)
    (b : Nat) (hb : b < numHashes) (q : Nat) (h1 : q * dim ≤ 8 * b) (h2 : 8 * b + 8 ≤ (q + 1) * dim) :
    let bounds := wtaBounds dim (Wta.permuteCount numHashes dim)
    dim.choose 8 * countOutcomes bounds (fun ds => wtaCode numHashes dim x b (fed ds r) = wtaCode numHashes dim y b (fed ds r)) =
      sameTop dim x y * (outcomes bounds).length := by
  intro bounds
  rw [countOutcomes_congr (fun ds => wta_collision numHashes dim hd (fed ds r) x y hx hy b hb q h1 h2)]
  rw [Nat.succ_mul q dim] at h2
  exact collision_count dim _ q (8 * b - q * dim) r x y (block_lt hd hb h1) (by omega)

/-- C99 (DWTA). The same for the densified hash. -/
theorem C99_dwta [FloatOrder F] (numHashes dim : Nat) (hd : 0 < dim) (r : Rng) (x y : Nat → F) (hx : Spread dim x) (hy : Spread dim y)
    (b : Nat) (hb : b < numHashes) (q : Nat) (h1 : q * dim ≤ 8 * b) (h2 : 8 * b + 8 ≤ (q + 1) * dim) :
    let bounds := wtaBounds dim (Wta.permuteCount numHashes dim)
    dim.choose 8 * countOutcomes bounds (fun ds => dwtaCode numHashes dim x b (fed ds r) = dwtaCode numHashes dim y b (fed ds r)) =
      sameTop dim x y * (outcomes bounds).length := by
  intro bounds
  rw [countOutcomes_congr (fun ds => dwta_collision numHashes dim hd (fed ds r) x y hx hy b hb q h1 h2)]
  rw [Nat.succ_mul q dim] at h2
  exact collision_count dim _ q (8 * b - q * dim) r x y (block_lt hd hb h1) (by omega)

theorem sameTop_mono (dim : Nat) (x y z : Nat → F)
    (h : ∀ f g, f < dim → g < dim → GoFloat.lt (x g) (x f) = true → GoFloat.lt (y g) (y f) = true → GoFloat.lt (z g) (z f) = true) :
    sameTop dim x y ≤ sameTop dim x z := by
  have ha : ∀ f, f < dim → agree dim x y f ≤ agree dim x z f := by
    intro f hf
    refine List.countP_mono_left (fun g hg hgf => ?_)
    rw [Bool.and_eq_true] at hgf ⊢
    exact ⟨hgf.1, h f g hf (List.mem_range.mp hg) hgf.1 hgf.2⟩
  unfold sameTop
  have : ∀ l : List Nat, (∀ f ∈ l, f < dim) →
      (l.map (fun f => (agree dim x y f).choose 7)).sum ≤ (l.map (fun f => (agree dim x z f).choose 7)).sum := by
    intro l
    induction l with
    | nil => intro _; exact Nat.le_refl _
    | cons f l ih =>
      intro hl
      rw [List.map_cons, List.sum_cons, List.map_cons, List.sum_cons]
      exact Nat.add_le_add (Nat.choose_le_choose 7 (ha f (hl f List.mem_cons_self))) (ih (fun g hg => hl g (List.mem_cons_of_mem _ hg)))
  exact this _ (fun f hf => List.mem_range.mp hf)

/-- C99 (similar vectors). If `z` orders every two features as `x` does that `y` orders as `x` does, then `z` gets the code of `x` at least as often as `y`. -/
theorem C99_similar [FloatOrder F] (numHashes dim : Nat) (hd : 0 < dim) (r : Rng) (x y z : Nat → F) (hx : Spread dim x) (hy : Spread dim y) (hz : Spread dim z)
    (h : ∀ f g, f < dim → g < dim → GoFloat.lt (x g) (x f) = true → GoFloat.lt (y g) (y f) = true → GoFloat.lt (z g) (z f) = true)
    (b : Nat) (hb : b < numHashes) (q : Nat) (h1 : q * dim ≤ 8 * b) (h2 : 8 * b + 8 ≤ (q + 1) * dim) :
    let bounds := wtaBounds dim (Wta.permuteCount numHashes dim)
    countOutcomes bounds (fun ds => wtaCode numHashes dim x b (fed ds r) = wtaCode numHashes dim y b (fed ds r)) ≤
      countOutcomes bounds (fun ds => wtaCode numHashes dim x b (fed ds r) = wtaCode numHashes dim z b (fed ds r)) ∧
    countOutcomes bounds (fun ds => dwtaCode numHashes dim x b (fed ds r) = dwtaCode numHashes dim y b (fed ds r)) ≤
      countOutcomes bounds (fun ds => dwtaCode numHashes dim x b (fed ds r) = dwtaCode numHashes dim z b (fed ds r)) := by
  intro bounds
  have hm := Nat.mul_le_mul_right (outcomes bounds).length (sameTop_mono dim x y z h)
  have hdim : 8 ≤ dim := by rw [Nat.succ_mul q dim] at h2; omega
  have hpos : 0 < dim.choose 8 := Nat.choose_pos hdim
  have w1 := C99_wta numHashes dim hd r x y hx hy b hb q h1 h2
  have w2 := C99_wta numHashes dim hd r x z hx hz b hb q h1 h2
  have d1 := C99_dwta numHashes dim hd r x y hx hy b hb q h1 h2
  have d2 := C99_dwta numHashes dim hd r x z hx hz b hb q h1 h2
  dsimp only at w1 w2 d1 d2
  constructor
  · refine Nat.le_of_mul_le_mul_left ?_ hpos
    rw [w1, w2]; exact hm
  · refine Nat.le_of_mul_le_mul_left ?_ hpos
    rw [d1, d2]; exact hm

/-- C99 (opposite order). Two vectors that order all features the opposite way never get the same code. -/
theorem C99_opposite [FloatOrder F] (numHashes dim : Nat) (hd : 0 < dim) (r : Rng) (x y : Nat → F) (hx : Spread dim x) (hy : Spread dim y)
    (h : ∀ f g, f < dim → g < dim → GoFloat.lt (x g) (x f) = true → GoFloat.lt (y f) (y g) = true)
    (b : Nat) (hb : b < numHashes) (q : Nat) (h1 : q * dim ≤ 8 * b) (h2 : 8 * b + 8 ≤ (q + 1) * dim) :
    wtaCode numHashes dim x b r ≠ wtaCode numHashes dim y b r ∧ dwtaCode numHashes dim x b r ≠ dwtaCode numHashes dim y b r := by
  have hno : ¬ ∃ c : Nat, c < 8 ∧ Both x y (permsList (Wta.permuteCount numHashes dim) (List.range dim) r) q (8 * b - q * dim) c := by
    rintro ⟨c, hc, w1, w2⟩
    have hq := block_lt hd hb h1
    rw [Nat.succ_mul q dim] at h2
    have hlt : ∀ j, j < 8 → place (permsList (Wta.permuteCount numHashes dim) (List.range dim) r) q (8 * b - q * dim + j) < dim := by
      intro j hj
      obtain ⟨π, g1, g2, g3⟩ := place_get (permsList_length _ _ _) (permsList_perm (dim := dim) _ (List.range dim) r (List.Perm.refl _)) hq
        (x := 8 * b - q * dim + j) (by omega)
      exact List.mem_range.mp (g2.mem_iff.mp (List.mem_of_getElem? g3))
    obtain ⟨j, hj, hjc⟩ : ∃ j, j < 8 ∧ j ≠ c := by
      by_cases h0 : c = 0
      · exact ⟨1, by omega, by omega⟩
      · exact ⟨0, by omega, by omega⟩
    have a1 := h _ _ (hlt c hc) (hlt j hj) (w1 j hj hjc)
    rw [float_asymm _ _ (w2 j hj hjc)] at a1
    simp at a1
  exact ⟨fun e => hno ((wta_collision numHashes dim hd r x y hx hy b hb q h1 h2).mp e),
    fun e => hno ((dwta_collision numHashes dim hd r x y hx hy b hb q h1 h2).mp e)⟩

theorem spread_nat (dim : Nat) (v : Nat → Nat) (h : ∀ f g, f < dim → g < dim → f ≠ g → v f ≠ v g) : Spread dim (fun f => (v f : Rat)) := by
  refine ⟨fun f _ => ?_, fun f g hf hg hne => ?_⟩
  · refine decide_eq_true (show (-9223372036854775808 : Rat) < (v f : Rat) from ?_)
    have : (0 : Rat) ≤ (v f : Rat) := by exact_mod_cast Nat.zero_le _
    grind
  · rcases Nat.lt_or_gt_of_ne (h f g hf hg hne) with h | h
    · exact .inl (decide_eq_true (Rat.natCast_lt_natCast.mpr h))
    · exact .inr (decide_eq_true (Rat.natCast_lt_natCast.mpr h))

/-- 0, 1, .., 6, 8, 7: the order of 0, 1, .., 8 except for the two largest. -/
def almost (f : Nat) : Nat := if f = 7 then 8 else if f = 8 then 7 else f

-- 9 features, the two largest exchanged: the codes are the same in 2 of 9 outcomes (those where one of the two is not in the bin)
example (r : Rng) : 9 * countOutcomes (wtaBounds 9 1) (fun ds => wtaCode 1 9 (fun f => (f : Rat)) 0 (fed ds r) =
    wtaCode 1 9 (fun f => (almost f : Rat)) 0 (fed ds r)) = 2 * (outcomes (wtaBounds 9 1)).length := by
  have h := C99_wta 1 9 (by decide) r (fun f => (f : Rat)) (fun f => (almost f : Rat)) (spread_nat 9 (fun f => f) (fun _ _ _ _ h => h))
    (spread_nat 9 almost (by intro f g _ _ h; unfold almost; (repeat' split) <;> omega)) 0 (by decide) 0 (by decide) (by decide)
  rw [show sameTop 9 (fun f => (f : Rat)) (fun f => (almost f : Rat)) = 2 by decide +kernel] at h
  have hp : Wta.permuteCount 1 9 = 1 := by decide
  have e : Nat.choose 9 8 = 9 := by decide
  simp only [hp, e] at h
  exact h

-- two draws: in the first both vectors have the code 8, in the second the codes differ
example : wtaCode 1 9 (fun f => (f : Rat)) 0 (fed [7, 0, 0, 0, 0, 0, 0, 0] (fun _ => 0)) = some 8 ∧
    wtaCode 1 9 (fun f => (almost f : Rat)) 0 (fed [7, 0, 0, 0, 0, 0, 0, 0] (fun _ => 0)) = some 8 ∧
    wtaCode 1 9 (fun f => (f : Rat)) 0 (fed [0, 0, 0, 0, 0, 0, 0, 0] (fun _ => 0)) = some 8 ∧
    wtaCode 1 9 (fun f => (almost f : Rat)) 0 (fed [0, 0, 0, 0, 0, 0, 0, 0] (fun _ => 0)) = some 7 := by decide +kernel

end Goslide.Props
