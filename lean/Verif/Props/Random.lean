import Verif.Proofs.ShuffleUniform
import Verif.Model.Wta
import Verif.Props.Srp
import Verif.Model.Bucket
/-
C81: the random orders are uniform. Probabilities are counted: `countOutcomes bounds event` of the `(outcomes bounds).length` sequences of draws,
which are equally likely if the draws are independent and uniform below their bounds.
-/
namespace Goslide.Props
open Spec

/-- C81. `rand.Shuffle` of `n` different items has `n!` outcomes, and every order of the items arises from exactly one of them, whatever is drawn later. -/
theorem C81_shuffle {α : Type} [DecidableEq α] (l : List α) (hn : l.Nodup) (r : Rng) :
    (outcomes (shuffleBounds (l.length - 1))).length = fact l.length ∧
    ∀ l', l'.Perm l → countOutcomes (shuffleBounds (l.length - 1)) (fun ds => (shuffle l (fed ds r)).1 = l') = 1 := by
  refine ⟨?_, fun l' hp => shuffle_count r l l' hn hp⟩
  rw [outcomes_length, shuffleBounds_prod]
  cases l with
  | nil => rfl
  | cons a l => simp

/-- Every item is at every position in `(n-1)!` of the `n!` outcomes: with probability `1/n`. -/
theorem C81_position {α : Type} [DecidableEq α] (l : List α) (hn : l.Nodup) (r : Rng) (q p : Nat) (hq : q < l.length) (hp : p < l.length) :
    countOutcomes (shuffleBounds (l.length - 1)) (fun ds => (shuffle l (fed ds r)).1[p]? = some l[q]) = fact (l.length - 1) :=
  shuffleFrom_position r _ l q p hq hn (by omega) (by omega) (by omega)

-- three items: each of the 6 orders once, and the first item in the last place in 2 of the 6 outcomes
example : (outcomes (shuffleBounds 2)).map (fun ds => (shuffle ["a", "b", "c"] (fed ds (fun _ => 0))).1) =
    [["b", "c", "a"], ["c", "b", "a"], ["c", "a", "b"], ["a", "c", "b"], ["b", "a", "c"], ["a", "b", "c"]] ∧
    countOutcomes (shuffleBounds 2) (fun ds => (shuffle ["a", "b", "c"] (fed ds (fun _ => 0))).1[2]? = some "a") = 2 := by decide +kernel

/-- The bounds of the draws of `wta_hash.New`: one shuffle after the other. -/
def wtaBounds (dim : Nat) : Nat → List Nat
  | 0 => []
  | p + 1 => shuffleBounds (dim - 1) ++ wtaBounds dim p

theorem permLoop_count (dim : Nat) (r : Rng) : ∀ (p : Nat) (a : List Nat) (perms : List (List Nat)), perms.length = p → a.Perm (List.range dim) →
    (∀ τ ∈ perms, τ.Perm (List.range dim)) → countOutcomes (wtaBounds dim p) (fun ds => (Wta.permLoop p a (fed ds r)).1 = perms.flatten) = 1 := by
  intro p
  induction p with
  | zero =>
    intro a perms hl _ _
    obtain rfl := List.length_eq_zero_iff.mp hl
    exact (countOutcomes_true _ (fun ds => (Wta.permLoop 0 a (fed ds r)).1 = [].flatten) (fun ds => rfl)).trans rfl
  | succ p ih =>
    intro a perms hl ha hperms
    match perms, hl with
    | τ :: perms, hl =>
      have hlen : a.length = dim := by simpa using ha.length_eq
      have hτ : τ.length = dim := by simpa using (hperms τ List.mem_cons_self).length_eq
      have step : ∀ x ∈ outcomes (shuffleBounds (dim - 1)), ∀ y, (Wta.permLoop (p + 1) a (fed (x ++ y) r)).1 = (τ :: perms).flatten ↔
          (shuffle a (fed x r)).1 = τ ∧ (Wta.permLoop p (shuffle a (fed x r)).1 (fed y r)).1 = perms.flatten := by
        intro x hx y
        have hxl : x.length = a.length - 1 := by rw [mem_outcomes_length _ _ hx, shuffleBounds_length, hlen]
        have e1 : (shuffle a (fed (x ++ y) r)).1 = (shuffle a (fed x r)).1 := by rw [fed_append]; exact shuffleFrom_fed_any _ _ _ _ _ hxl
        have e2 : (shuffle a (fed (x ++ y) r)).2 = fed y r := by rw [fed_append]; exact shuffleFrom_fed_rest _ _ _ _ hxl
        rw [Wta.permLoop]
        simp only [e1, e2, List.flatten_cons]
        constructor
        · intro h
          exact List.append_inj h (by rw [shuffle_length, hlen, hτ])
        · rintro ⟨h1, h2⟩
          rw [h2, h1]
      rw [wtaBounds, countOutcomes_append _ _ (fun x => (shuffle a (fed x r)).1 = τ) _ 1]
      · have := shuffle_count r a τ (ha.nodup_iff.mpr List.nodup_range) ((hperms τ List.mem_cons_self).trans ha.symm)
        rw [hlen] at this
        rw [this]
      · intro x hx hp
        have hperm : τ.Perm (List.range dim) := hperms τ List.mem_cons_self
        rw [countOutcomes_congr (q := fun y => (Wta.permLoop p τ (fed y r)).1 = perms.flatten)]
        · exact ih τ perms (by simpa using hl) hperm (fun σ hσ => hperms σ (List.mem_cons_of_mem _ hσ))
        · intro y
          rw [step x hx y, hp]
          exact ⟨fun h => h.2, fun h => ⟨rfl, h⟩⟩
      · intro x hx hp
        exact countOutcomes_false _ _ (fun y h => hp ((step x hx y).mp h).1)

/-- The permutations of `wta_hash.New` are uniform and independent: every sequence of permutations of the features arises from exactly one outcome of the draws,
although every round shuffles the array that the round before has left. -/
theorem C81_wta (numHashes dim : Nat) (r : Rng) (perms : List (List Nat)) (hl : perms.length = Wta.permuteCount numHashes dim)
    (hp : ∀ τ ∈ perms, τ.Perm (List.range dim)) :
    countOutcomes (wtaBounds dim perms.length) (fun ds => (Wta.new numHashes dim (fed ds r)).1.indices = perms.flatten) = 1 := by
  rw [hl]
  exact permLoop_count dim r _ _ perms hl (List.Perm.refl _) hp

/-! ### Sparse random projections -/

theorem rowsLoop_head {dim m : Nat} (hm : m ≤ dim) (n : Nat) {a : List Nat} (ha : a.Perm (List.range dim)) (r : Rng) :
    ∃ rest r', Srp.rowsLoop m (n + 1) a r = .ok ((Srp.sortInts ((shuffle a r).1.take m)).zip ((List.range m).map (fun j => decide ((shuffle a r).2 j % 2 = 0))) :: rest, r') := by
  have hp : (shuffle a r).1.Perm (List.range dim) := (shuffle_perm a r).trans ha
  have hlen : (shuffle a r).1.length = dim := by rw [hp.length_eq]; simp
  obtain ⟨rows, r', h1, -⟩ := Srp.rowsLoop_ok dim m hm n (shuffle a r).1 (fun j => (shuffle a r).2 (j + m)) hp
  have hsam : (List.range m).mapM (fun (j : Nat) => goGet (shuffle a r).1 (j : Int)) = .ok ((shuffle a r).1.take m) := by
    rw [mapM_ok_iff]
    refine ⟨by simp [hlen, hm], ?_⟩
    intro i j hj
    by_cases hi : i < m
    · rw [List.getElem?_range hi] at hj
      simp only [Option.some.injEq] at hj
      subst hj
      have hil : i < (shuffle a r).1.length := by omega
      exact ⟨_, by rw [List.getElem?_take_of_lt hi, List.getElem?_eq_getElem hil], goGet_ok_of_lt _ _ hil⟩
    · rw [List.getElem?_eq_none (by simp; omega)] at hj; simp at hj
  refine ⟨rows, r', ?_⟩
  rw [Srp.rowsLoop]
  dsimp only
  rw [hsam, ok_bind, h1, ok_bind]
  rfl

/-- The features of the first row of a result. -/
def firstRow (x : Go (List (List (Nat × Bool)) × Rng)) : List Nat :=
  match x with
  | .ok (row :: _, _) => row.map Prod.fst
  | _ => []

/-- C81. Each round of `sparse_random_projection.New` samples every feature with probability `m / dim`: in `m (dim-1)!` of the `dim!` outcomes of its shuffle,
whatever order `a` the rounds before have left. -/
theorem C81_srp (dim m : Nat) (hm : m ≤ dim) (n : Nat) (a : List Nat) (ha : a.Perm (List.range dim)) (r : Rng) (f : Nat) (hf : f < dim) :
    countOutcomes (shuffleBounds (dim - 1)) (fun ds => f ∈ firstRow (Srp.rowsLoop m (n + 1) a (fed ds r))) = m * fact (dim - 1) := by
  have hlen : a.length = dim := by simpa using ha.length_eq
  have hnd : a.Nodup := ha.nodup_iff.mpr List.nodup_range
  have hfa : f ∈ a := ha.mem_iff.mpr (List.mem_range.mpr hf)
  obtain ⟨q, hq, hqf⟩ := List.getElem_of_mem hfa
  rw [countOutcomes_congr (q := fun ds => ∃ p, p < m ∧ (shuffle a (fed ds r)).1[p]? = some a[q])]
  · refine countOutcomes_exists _ _ _ m ?_ ?_
    · intro p hp
      have := C81_position a hnd r q p hq (by omega)
      rw [hlen] at this
      exact this
    · intro p p' ds _ _ h1 h2
      have hnd' := (shuffle_perm a (fed ds r)).nodup_iff.mpr hnd
      obtain ⟨a1, a2⟩ := List.getElem?_eq_some_iff.mp h1
      obtain ⟨b1, b2⟩ := List.getElem?_eq_some_iff.mp h2
      exact nodup_inj hnd' (a2.trans b2.symm)
  · intro ds
    obtain ⟨rest, r', e⟩ := rowsLoop_head hm n ha (fed ds r)
    rw [e]
    unfold firstRow
    dsimp only
    have hl : (shuffle a (fed ds r)).1.length = dim := by rw [shuffle_length, hlen]
    rw [List.map_fst_zip (by rw [(Srp.sortInts_perm _).length_eq]; simp only [List.length_take, List.length_map, List.length_range]; omega), (Srp.sortInts_perm _).mem_iff, List.mem_iff_getElem?, hqf]
    constructor
    · rintro ⟨p, hp⟩
      obtain ⟨hp1, hp2⟩ := List.getElem?_eq_some_iff.mp hp
      have : p < m := by rw [List.length_take] at hp1; omega
      exact ⟨p, this, by rw [← List.getElem?_take_of_lt this]; exact hp⟩
    · rintro ⟨p, hp, h⟩
      exact ⟨p, by rw [List.getElem?_take_of_lt hp]; exact h⟩

-- 2 of 3 features are sampled: feature 0 in 4 of the 6 outcomes
example : countOutcomes (shuffleBounds 2) (fun ds => 0 ∈ firstRow (Srp.rowsLoop 2 1 (List.range 3) (fed ds (fun _ => 0)))) = 4 := by decide +kernel

/-! ### C82 -/

/-- All signs reversed. -/
def flip (ds : List Nat) : List Nat := ds.map (fun d => 1 - d)

theorem countOutcomes_flip : ∀ (m : Nat) (event : List Nat → Prop) [DecidablePred event],
    countOutcomes (List.replicate m 2) (fun ds => event (flip ds)) = countOutcomes (List.replicate m 2) event
  | 0, event, _ => rfl
  | m + 1, event, _ => by
    rw [List.replicate_succ, countOutcomes_cons, countOutcomes_cons]
    simp only [List.range_succ, List.range_zero, List.nil_append, List.map_append, List.map_cons, List.map_nil, List.sum_append, List.sum_cons, List.sum_nil, Nat.add_zero]
    have h0 := countOutcomes_flip m (fun ds => event (1 :: ds))
    have h1 := countOutcomes_flip m (fun ds => event (0 :: ds))
    have e0 : countOutcomes (List.replicate m 2) (fun ds => event (flip (0 :: ds))) = countOutcomes (List.replicate m 2) (fun ds => event (1 :: flip ds)) := rfl
    have e1 : countOutcomes (List.replicate m 2) (fun ds => event (flip (1 :: ds))) = countOutcomes (List.replicate m 2) (fun ds => event (0 :: flip ds)) := rfl
    rw [e0, e1, h0, h1, Nat.add_comm]

/-- The signs that the draws stand for: `rand.Int()%2 == 0`. -/
def bitsOf (ds : List Nat) : List Bool := ds.map (fun d => decide (d % 2 = 0))

theorem signedSum_flip (v : Nat → Rat) : ∀ (idx ds : List Nat), (∀ d ∈ ds, d < 2) →
    signedSum (idx.zip (bitsOf (flip ds))) v = - signedSum (idx.zip (bitsOf ds)) v
  | [], ds, _ => by simp [signedSum]
  | i :: idx, [], _ => by simp [signedSum, bitsOf, flip]
  | i :: idx, d :: ds, h => by
    have ih := signedSum_flip v idx ds (fun x hx => h x (List.mem_cons_of_mem _ hx))
    have hd := h d List.mem_cons_self
    unfold signedSum bitsOf flip at *
    simp only [List.map_cons, List.zip_cons_cons, List.foldr_cons] at *
    rw [ih, Rat.neg_add]
    have : d = 0 ∨ d = 1 := by omega
    rcases this with rfl | rfl <;> simp

theorem mem_outcomes_two : ∀ (m : Nat) (ds : List Nat), ds ∈ outcomes (List.replicate m 2) → ∀ d ∈ ds, d < 2
  | 0, ds, h => by rw [List.replicate_zero, outcomes, List.mem_singleton] at h; subst h; simp
  | m + 1, ds, h => by
    rw [List.replicate_succ, outcomes, List.mem_flatMap] at h
    obtain ⟨d, hd, h⟩ := h
    obtain ⟨ds', h', rfl⟩ := List.mem_map.mp h
    intro x hx
    rcases List.mem_cons.mp hx with rfl | hx
    · exact List.mem_range.mp hd
    · exact mem_outcomes_two m ds' h' x hx

theorem countOutcomes_congr_mem {bs : List Nat} {p q : List Nat → Prop} [DecidablePred p] [DecidablePred q] (h : ∀ ds ∈ outcomes bs, p ds ↔ q ds) :
    countOutcomes bs p = countOutcomes bs q := by
  unfold countOutcomes
  refine List.countP_congr (fun ds hds => ?_)
  simpa using h ds hds

/-- C82 for one sampled set of features: as many choices of the signs make the sum positive as negative. -/
theorem C82_balanced (idx : List Nat) (v : Nat → Rat) (m : Nat) :
    countOutcomes (List.replicate m 2) (fun ds => signedSum (idx.zip (bitsOf ds)) v < 0) =
    countOutcomes (List.replicate m 2) (fun ds => 0 < signedSum (idx.zip (bitsOf ds)) v) := by
  rw [← countOutcomes_flip m (fun ds => 0 < signedSum (idx.zip (bitsOf ds)) v)]
  refine countOutcomes_congr_mem (fun ds hds => ?_)
  rw [signedSum_flip v idx ds (mem_outcomes_two m ds hds)]
  constructor
  · intro h; have := Rat.neg_lt_neg h; simpa using this
  · intro h; have := Rat.neg_lt_neg h; simpa using this

/-- The code of a vector under the only hash of a new projection. -/
def firstCode (dim ratio : Nat) (v : Nat → Rat) (r : Rng) : Option Int :=
  match Srp.new Rat dim 1 ratio r with
  | .ok (srp, _) =>
    match Srp.getHash srp ((List.range dim).map v) with
    | .ok [c] => some c
    | _ => none
  | .error _ => none

theorem samples_le (dim : Nat) {ratio : Nat} (hr : 0 < ratio) : (dim + ratio - 1) / ratio ≤ dim := by
  apply Nat.le_of_lt_succ
  rw [Nat.div_lt_iff_lt_mul hr, Nat.succ_mul]
  have := Nat.le_mul_of_pos_right dim hr
  omega

theorem new_one {dim ratio : Nat} (hr : 0 < ratio) (hd : dim ≤ 2 ^ 53) (hr2 : ratio ≤ 2 ^ 53) (v : Nat → Rat) (x y : List Nat) (r : Rng)
    (hx : x.length = dim - 1) (hy : y.length = (dim + ratio - 1) / ratio) :
    firstCode dim ratio v (fed (x ++ y) r) =
      some (if 0 ≤ signedSum ((Srp.sortInts ((shuffle (List.range dim) (fed x r)).1.take ((dim + ratio - 1) / ratio))).zip (bitsOf y)) v then 0 else 1) := by
  obtain ⟨srp, r', h1, -, -, h2, h3, h4⟩ := C27_samples Rat dim 1 ratio (fed (x ++ y) r) hr hd hr2
  have hle : (dim + ratio - 1) / ratio ≤ dim := samples_le dim hr
  unfold firstCode
  rw [h1]
  dsimp only
  rw [C30_sign_of_sum srp v dim (fun row hrow => (h4 row hrow).2.2)]
  have hrows : srp.rows = [(Srp.sortInts ((shuffle (List.range dim) (fed x r)).1.take ((dim + ratio - 1) / ratio))).zip (bitsOf y)] := by
    unfold Srp.new at h1
    dsimp only at h1
    generalize GoFloat.ceilInt (GoFloat.div (GoFloat.ofInt (dim : Int) : Rat) (GoFloat.ofInt (ratio : Int))) = z at h1
    split at h1
    · cases h1
    · rw [bind_ok_iff] at h1
      obtain ⟨⟨rows, r1⟩, g1, g2⟩ := h1
      simp only [pure, Except.pure, Except.ok.injEq, Prod.mk.injEq] at g2
      obtain ⟨g2, -⟩ := g2
      have hz : z.toNat = (dim + ratio - 1) / ratio := by rw [← h3, ← g2]
      obtain ⟨rest, r2, e⟩ := rowsLoop_head hle 0 (List.Perm.refl (List.range dim)) (fed (x ++ y) r)
      rw [hz, e] at g1
      simp only [Except.ok.injEq, Prod.mk.injEq] at g1
      rw [← g2] at h2 ⊢
      obtain ⟨g1, -⟩ := g1
      subst g1
      have hrest : rest = [] := by simpa using h2
      subst hrest
      have e1 : (shuffle (List.range dim) (fed (x ++ y) r)).1 = (shuffle (List.range dim) (fed x r)).1 := by
        rw [fed_append]; exact shuffleFrom_fed_any _ _ _ _ _ (by simpa using hx)
      have e2 : (shuffle (List.range dim) (fed (x ++ y) r)).2 = fed y r := by
        rw [fed_append]; exact shuffleFrom_fed_rest _ _ _ _ (by simpa using hx)
      dsimp only
      rw [e1, e2]
      congr 2
      refine List.ext_getElem? (fun j => ?_)
      unfold bitsOf
      by_cases hj : j < y.length
      · simp [hj, hy ▸ hj, fed]
      · rw [List.getElem?_eq_none (by simp; omega), List.getElem?_eq_none (by simp; omega)]
  rw [hrows]
  rfl

theorem countP_two {α β : Type} [DecidableEq β] (f : α → β) {a b : β} (hab : a ≠ b) : ∀ L : List α, (∀ d ∈ L, f d = a ∨ f d = b) →
    L.countP (fun d => decide (f d = a)) + L.countP (fun d => decide (f d = b)) = L.length
  | [], _ => rfl
  | d :: L, h => by
    have ih := countP_two f hab L (fun d hd => h d (List.mem_cons_of_mem _ hd))
    rw [List.countP_cons, List.countP_cons, List.length_cons, ← ih]
    rcases h d List.mem_cons_self with h | h
    · rw [h]; simp [hab]; omega
    · rw [h]; simp [hab.symm]; omega

/-- C82. Over the draws of `New` (a shuffle and one bit for each sampled feature) the code of a vector is 0 at least as often as 1; and exactly half of the
outcomes give each code if no signed sum of the coordinates of as many different features vanishes. -/
theorem C82_codes {dim ratio : Nat} (hr : 0 < ratio) (hd : dim ≤ 2 ^ 53) (hr2 : ratio ≤ 2 ^ 53) (v : Nat → Rat) (r : Rng) :
    let bounds := shuffleBounds (dim - 1) ++ List.replicate ((dim + ratio - 1) / ratio) 2
    countOutcomes bounds (fun ds => firstCode dim ratio v (fed ds r) = some 1) ≤ countOutcomes bounds (fun ds => firstCode dim ratio v (fed ds r) = some 0) ∧
    ((∀ row : List (Nat × Bool), (row.map Prod.fst).Nodup → row.length = (dim + ratio - 1) / ratio → (∀ x ∈ row, x.1 < dim) → signedSum row v ≠ 0) →
      countOutcomes bounds (fun ds => firstCode dim ratio v (fed ds r) = some 1) = countOutcomes bounds (fun ds => firstCode dim ratio v (fed ds r) = some 0)) ∧
    countOutcomes bounds (fun ds => firstCode dim ratio v (fed ds r) = some 0) + countOutcomes bounds (fun ds => firstCode dim ratio v (fed ds r) = some 1) =
      (outcomes bounds).length := by
  dsimp only
  have hle : (dim + ratio - 1) / ratio ≤ dim := samples_le dim hr
  generalize hm : (dim + ratio - 1) / ratio = m at hle
  have hone : ∀ x ∈ outcomes (shuffleBounds (dim - 1)), ∀ y ∈ outcomes (List.replicate m 2), firstCode dim ratio v (fed (x ++ y) r) =
      some (if 0 ≤ signedSum ((Srp.sortInts ((shuffle (List.range dim) (fed x r)).1.take m)).zip (bitsOf y)) v then 0 else 1) := by
    intro x hx y hy
    have := new_one hr hd hr2 v x y r (by rw [mem_outcomes_length _ _ hx, shuffleBounds_length]) (by rw [mem_outcomes_length _ _ hy, hm]; simp)
    rw [hm] at this
    exact this
  have hcode : ∀ c : Int, countOutcomes (shuffleBounds (dim - 1) ++ List.replicate m 2) (fun ds => firstCode dim ratio v (fed ds r) = some c) =
      ((outcomes (shuffleBounds (dim - 1))).map (fun x => countOutcomes (List.replicate m 2)
        (fun y => (if 0 ≤ signedSum ((Srp.sortInts ((shuffle (List.range dim) (fed x r)).1.take m)).zip (bitsOf y)) v then (0 : Int) else 1) = c))).sum := by
    intro c
    rw [countOutcomes_append_sum]
    congr 1
    refine List.map_congr_left (fun x hx => countOutcomes_congr_mem (fun y hy => ?_))
    rw [hone x hx y hy, Option.some.injEq]
  have h1 : ∀ x, countOutcomes (List.replicate m 2)
        (fun y => (if 0 ≤ signedSum ((Srp.sortInts ((shuffle (List.range dim) (fed x r)).1.take m)).zip (bitsOf y)) v then (0 : Int) else 1) = 1) =
      countOutcomes (List.replicate m 2) (fun y => 0 < signedSum ((Srp.sortInts ((shuffle (List.range dim) (fed x r)).1.take m)).zip (bitsOf y)) v) := by
    intro x
    rw [← C82_balanced]
    refine countOutcomes_congr (fun y => ?_)
    split
    · rename_i h; exact ⟨fun h' => absurd h' (by decide), fun h' => absurd h (Rat.not_le.mpr h')⟩
    · rename_i h; exact ⟨fun _ => Rat.not_le.mp h, fun _ => rfl⟩
  have h0 : ∀ x, countOutcomes (List.replicate m 2)
        (fun y => (if 0 ≤ signedSum ((Srp.sortInts ((shuffle (List.range dim) (fed x r)).1.take m)).zip (bitsOf y)) v then (0 : Int) else 1) = 0) =
      countOutcomes (List.replicate m 2) (fun y => 0 ≤ signedSum ((Srp.sortInts ((shuffle (List.range dim) (fed x r)).1.take m)).zip (bitsOf y)) v) := by
    intro x
    refine countOutcomes_congr (fun y => ?_)
    split
    · rename_i h; exact ⟨fun _ => h, fun _ => rfl⟩
    · rename_i h; exact ⟨fun h' => absurd h' (by decide), fun h' => absurd h' h⟩
  refine ⟨?_, fun hne => ?_, ?_⟩
  · rw [hcode 1, hcode 0]
    simp only [h1, h0]
    generalize outcomes (shuffleBounds (dim - 1)) = L
    induction L with
    | nil => exact Nat.le_refl _
    | cons x L ih =>
      simp only [List.map_cons, List.sum_cons]
      refine Nat.add_le_add ?_ ih
      unfold countOutcomes
      refine List.countP_mono_left (fun y _ h => ?_)
      simp only [decide_eq_true_eq] at h ⊢
      exact Rat.le_of_lt h
  · rw [hcode 1, hcode 0]
    simp only [h1, h0]
    congr 1
    refine List.map_congr_left (fun x hx => countOutcomes_congr_mem (fun y hy => ?_))
    constructor
    · exact fun h => Rat.le_of_lt h
    · intro h
      rcases Rat.le_iff_lt_or_eq.mp h with h | h
      · exact h
      · have hp := shuffle_perm (List.range dim) (fed x r)
        have hsp := Srp.sortInts_perm ((shuffle (List.range dim) (fed x r)).1.take m)
        have hyl : (bitsOf y).length = m := by unfold bitsOf; rw [List.length_map, mem_outcomes_length _ _ hy, List.length_replicate]
        have hsl : (Srp.sortInts ((shuffle (List.range dim) (fed x r)).1.take m)).length = m := by
          rw [hsp.length_eq, List.length_take, shuffle_length, List.length_range]
          omega
        refine absurd h.symm (hne _ ?_ ?_ ?_)
        · rw [List.map_fst_zip (by omega)]
          exact hsp.nodup_iff.mpr ((hp.nodup_iff.mpr List.nodup_range).sublist (List.take_sublist _ _))
        · rw [List.length_zip]; omega
        · intro z hz
          have h1 := (List.of_mem_zip hz).1
          exact List.mem_range.mp (hp.mem_iff.mp (List.mem_of_mem_take (hsp.mem_iff.mp h1)))
  · refine countP_two (fun ds => firstCode dim ratio v (fed ds r)) (by decide) _ (fun ds hds => ?_)
    rw [outcomes_append, List.mem_flatMap] at hds
    obtain ⟨x, hx, h⟩ := hds
    obtain ⟨y, hy, rfl⟩ := List.mem_map.mp h
    rw [hone x hx y hy]
    split
    · exact .inl rfl
    · exact .inr rfl

-- one of the values 1, 2, 4 in pairs: both codes in 12 of the 24 outcomes; with equal values the sums can vanish, and 0 is the more frequent code
example : countOutcomes (shuffleBounds 2 ++ [2, 2]) (fun ds => firstCode 3 2 (fun i => 2 ^ i) (fed ds (fun _ => 0)) = some 0) = 12 ∧
    countOutcomes (shuffleBounds 2 ++ [2, 2]) (fun ds => firstCode 3 2 (fun i => 2 ^ i) (fed ds (fun _ => 0)) = some 1) = 12 ∧
    countOutcomes (shuffleBounds 2 ++ [2, 2]) (fun ds => firstCode 3 2 (fun _ => 1) (fed ds (fun _ => 0)) = some 0) = 18 := by decide +kernel

theorem countOutcomes_eq_zero (bs : List Nat) (p : List Nat → Prop) [DecidablePred p] (h : ∀ ds ∈ outcomes bs, ¬ p ds) : countOutcomes bs p = 0 := by
  unfold countOutcomes
  rw [List.countP_eq_zero]
  intro ds hds
  simp [h ds hds]

/-! ### C83: the disabled reservoir sampling of `bucket.Add` -/

/-- The slot where the reservoir variant of `Add` stores the id, if it does not panic. -/
def storedAt (b : Bucket.Bucket) (id : Int) (r : Rng) : Option Int :=
  match Bucket.addReservoir b id r with
  | .ok (slot, _, _) => some slot
  | .error _ => none

theorem storedAt_full (b : Bucket.Bucket) (hfull : b.index = 128) (hlen : b.arr.length = 128) (c : Nat) (hc : b.counts.toNat = c) (hc2 : c + 1 < 2 ^ 63) (id : Int)
    (d e : Nat) (hd : d < c + 1) (he : e < 128) (r : Rng) : storedAt b id (fed [d, e] r) = some (if d = 1 then (e : Int) else -1) := by
  have h1 : (b.counts + 1#64).toInt = ((c + 1 : Nat) : Int) := by
    rw [BitVec.toInt_eq_toNat_of_lt (by rw [BitVec.toNat_add, hc]; simp; omega), BitVec.toNat_add, hc]
    simp
    omega
  unfold storedAt Bucket.addReservoir
  dsimp only
  rw [if_pos (by rw [hfull]; rfl), if_neg (by rw [h1]; omega), h1, Int.toNat_natCast]
  unfold randIntn
  rw [if_neg (by omega), ok_bind, fed_head, Nat.mod_eq_of_lt hd]
  dsimp only
  by_cases h : d = 1
  · subst h
    rw [if_pos (by decide), fed_tail, fed_head, if_neg (by decide), ok_bind, if_pos rfl]
    have hm : e % Bucket.bucketSize = e := Nat.mod_eq_of_lt he
    dsimp only
    rw [hm]
    unfold goSet
    rw [if_neg (by omega), if_pos (by rw [hlen]; omega)]
    rfl
  · rw [if_neg (by omega), if_neg h]

/-- The slot is determined by the two draws: a fixed slot is used in one outcome. -/
theorem storedAt_count (b : Bucket.Bucket) (hfull : b.index = 128) (hlen : b.arr.length = 128) (c : Nat) (hc : b.counts.toNat = c) (h1 : 1 ≤ c)
    (hc2 : c + 1 < 2 ^ 63) (id : Int) (r : Rng) (slot : Nat) (hs : slot < 128) :
    countOutcomes [c + 1, 128] (fun ds => storedAt b id (fed ds r) = some (slot : Int)) = 1 := by
  have key := storedAt_full b hfull hlen c hc hc2 id
  rw [countOutcomes_cons]
  refine sum_single _ 1 1 _ (fun d hd hne => ?_) ?_ (by omega)
  · rw [countOutcomes_cons]
    rw [List.map_congr_left (g := fun _ => 0) (fun e he => ?_), List.map_const', List.sum_replicate_nat, Nat.mul_zero]
    refine countOutcomes_eq_zero _ _ (fun ds hds => ?_)
    rw [outcomes, List.mem_singleton] at hds
    subst hds
    rw [key d e hd (List.mem_range.mp he) r, if_neg hne, Option.some.injEq]
    omega
  · rw [countOutcomes_cons]
    refine sum_single _ slot 1 _ (fun e he hne => ?_) ?_ hs
    · refine countOutcomes_eq_zero _ _ (fun ds hds => ?_)
      rw [outcomes, List.mem_singleton] at hds
      subst hds
      rw [key 1 e (by omega) he r, if_pos rfl, Option.some.injEq]
      omega
    · rw [countOutcomes_congr_mem (q := fun _ => True)]
      · rfl
      · intro ds hds
        rw [outcomes, List.mem_singleton] at hds
        subst hds
        rw [key 1 slot (by omega) hs r, if_pos rfl]
        exact ⟨fun _ => trivial, fun _ => rfl⟩

/-- C83 is false. When a full bucket has seen `c` ids, the next one is kept in 128 of the `(c + 1) · 128` outcomes of the two draws: with probability
`1 / (c + 1)`, where a uniform sample of 128 out of the `c + 1` ids has to keep it with probability `128 / (c + 1)`. -/
theorem C83_reservoir_partial (b : Bucket.Bucket) (hfull : b.index = 128) (hlen : b.arr.length = 128) (c : Nat) (hc : b.counts.toNat = c) (h1 : 1 ≤ c)
    (hc2 : c + 1 < 2 ^ 63) (id : Int) (r : Rng) :
    (outcomes [c + 1, 128]).length = (c + 1) * 128 ∧
    countOutcomes [c + 1, 128] (fun ds => ∃ slot : Nat, slot < 128 ∧ storedAt b id (fed ds r) = some (slot : Int)) = 128 := by
  refine ⟨by rw [outcomes_length]; simp, ?_⟩
  refine (countOutcomes_exists _ (fun (slot : Nat) ds => storedAt b id (fed ds r) = some (slot : Int)) 1 128 (fun slot hs => storedAt_count b hfull hlen c hc h1 hc2 id r slot hs) ?_).trans rfl
  intro p q ds _ _ e1 e2
  rw [e1, Option.some.injEq] at e2
  omega

/-- Stated as the failure of the definition of a uniform sample: with `c + 1 > 128` ids seen, each of them should be in the bucket in `128 / (c + 1)` of the outcomes. -/
theorem C83_not_uniform (b : Bucket.Bucket) (hfull : b.index = 128) (hlen : b.arr.length = 128) (c : Nat) (hc : b.counts.toNat = c) (h1 : 1 ≤ c)
    (hc2 : c + 1 < 2 ^ 63) (id : Int) (r : Rng) :
    (c + 1) * countOutcomes [c + 1, 128] (fun ds => ∃ slot : Nat, slot < 128 ∧ storedAt b id (fed ds r) = some (slot : Int)) ≠ 128 * (outcomes [c + 1, 128]).length := by
  obtain ⟨e1, e2⟩ := C83_reservoir_partial b hfull hlen c hc h1 hc2 id r
  rw [e1, e2]
  omega

-- a full bucket that has seen 128 ids: draws 1 and 5 store the newcomer in slot 5, every other first draw drops it
example : storedAt { arr := List.replicate 128 0, isInit := 0, index := 128, counts := 128 } 7 (fed [1, 5] (fun _ => 0)) = some 5 ∧
    storedAt { arr := List.replicate 128 0, isInit := 0, index := 128, counts := 128 } 7 (fed [0, 5] (fun _ => 0)) = some (-1) ∧
    storedAt { arr := List.replicate 128 0, isInit := 0, index := 128, counts := 128 } 7 (fed [128, 5] (fun _ => 0)) = some (-1) := by decide +kernel

end Goslide.Props
