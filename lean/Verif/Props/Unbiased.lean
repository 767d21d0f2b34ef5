import Verif.Props.Random
/-
C98: sparse random projections keep inner products on average.
-/
namespace Goslide.Props
open Spec

/-! ### Sums -/

theorem sum_append (l l' : List Rat) : (l ++ l').sum = l.sum + l'.sum := by
  induction l with
  | nil => simp [Rat.zero_add]
  | cons a l ih => rw [List.cons_append, List.sum_cons, List.sum_cons, ih, Rat.add_assoc]

theorem sum_map_add {α : Type} (f g : α → Rat) (l : List α) : (l.map (fun a => f a + g a)).sum = (l.map f).sum + (l.map g).sum := by
  induction l with
  | nil => simp [Rat.zero_add]
  | cons a l ih => simp only [List.map_cons, List.sum_cons, ih]; grind

theorem sum_map_mul {α : Type} (c : Rat) (f : α → Rat) (l : List α) : (l.map (fun a => c * f a)).sum = c * (l.map f).sum := by
  induction l with
  | nil => simp
  | cons a l ih => simp only [List.map_cons, List.sum_cons, ih]; grind

theorem sum_const {α : Type} (c : Rat) (l : List α) : (l.map (fun _ => c)).sum = l.length * c := by
  induction l with
  | nil => simp
  | cons a l ih => simp only [List.map_cons, List.sum_cons, ih, List.length_cons]; push_cast; grind

theorem sum_comm {α β : Type} (f : α → β → Rat) (l : List α) (l' : List β) :
    (l.map (fun a => (l'.map (f a)).sum)).sum = (l'.map (fun b => (l.map (fun a => f a b)).sum)).sum := by
  induction l with
  | nil => simp only [List.map_nil, List.sum_nil, sum_const]; simp
  | cons a l ih => simp only [List.map_cons, List.sum_cons, ih, sum_map_add]

theorem sum_perm {l l' : List Rat} (h : l.Perm l') : l.sum = l'.sum := by
  induction h with
  | nil => rfl
  | cons a _ ih => rw [List.sum_cons, List.sum_cons, ih]
  | swap a b l => simp only [List.sum_cons]; grind
  | trans _ _ h1 h2 => rw [h1, h2]

theorem sum_flatMap {α : Type} (g : α → List Rat) (l : List α) : (l.flatMap g).sum = (l.map (fun a => (g a).sum)).sum := by
  induction l with
  | nil => rfl
  | cons a l ih => rw [List.flatMap_cons, sum_append, ih, List.map_cons, List.sum_cons]

/-- A sum sorted by the values of a function. -/
theorem sum_group {α β : Type} [DecidableEq β] (h : α → β) (g : β → Rat) (vals : List β) (hn : vals.Nodup) (l : List α) (hl : ∀ a ∈ l, h a ∈ vals) :
    (l.map (fun a => g (h a))).sum = (vals.map (fun v => (l.countP (fun a => decide (h a = v)) : Rat) * g v)).sum := by
  induction l with
  | nil => simp only [List.map_nil, List.sum_nil, List.countP_nil]; rw [show (fun v : β => ((0 : Nat) : Rat) * g v) = fun _ => 0 from by funext v; simp, sum_const]; simp
  | cons a l ih =>
    have ih := ih (fun b hb => hl b (List.mem_cons_of_mem _ hb))
    have e : ∀ v, (((a :: l).countP (fun a => decide (h a = v)) : Nat) : Rat) * g v =
        (l.countP (fun a => decide (h a = v)) : Rat) * g v + (if h a = v then g v else 0) := by
      intro v
      rw [List.countP_cons]
      by_cases hv : h a = v
      · simp only [hv, decide_true, if_true]; push_cast; grind
      · simp only [hv, decide_false, if_false, Bool.false_eq_true, Nat.add_zero]; grind
    simp only [e, sum_map_add, ← ih, List.map_cons, List.sum_cons]
    have : ∀ vals : List β, vals.Nodup → h a ∈ vals → (vals.map (fun v => if h a = v then g v else 0)).sum = g (h a) := by
      intro vals
      induction vals with
      | nil => intro _ hm; cases hm
      | cons w vals ihv =>
        intro hn hm
        rw [List.nodup_cons] at hn
        rw [List.map_cons, List.sum_cons]
        by_cases hw : h a = w
        · rw [if_pos hw]
          have hz : ∀ vals : List β, h a ∉ vals → (vals.map (fun v => if h a = v then g v else 0)).sum = 0 := by
            intro vals
            induction vals with
            | nil => intro _; rfl
            | cons u vals ihz =>
              intro hu
              rw [List.mem_cons, not_or] at hu
              rw [List.map_cons, List.sum_cons, if_neg hu.1, ihz hu.2, Rat.zero_add]
          rw [hz vals (hw ▸ hn.1), Rat.add_zero, hw]
        · rw [if_neg hw, Rat.zero_add]
          exact ihv hn.2 ((List.mem_cons.mp hm).resolve_left hw)
    rw [this vals hn (hl a List.mem_cons_self)]
    grind

/-! ### Expectations -/

/-- The mean of a quantity over all outcomes of the draws. -/
def mean (bounds : List Nat) (f : List Nat → Rat) : Rat := ((outcomes bounds).map f).sum / (outcomes bounds).length

/-- Over the signs, the product of two projections is on average the inner product over the sampled features. -/
theorem signs_sum (x y : Nat → Rat) : ∀ (idx : List Nat) (P Q : Rat),
    ((outcomes (List.replicate idx.length 2)).map (fun bs => (P + signedSum (idx.zip (bitsOf bs)) x) * (Q + signedSum (idx.zip (bitsOf bs)) y))).sum =
      2 ^ idx.length * (P * Q + (idx.map (fun i => x i * y i)).sum)
  | [], P, Q => by
    simp only [List.length_nil, List.replicate_zero, outcomes, List.map_cons, List.map_nil, List.sum_cons, List.sum_nil, List.zip_nil_left, signedSum, List.foldr_nil]
    grind
  | i :: idx, P, Q => by
    have key : ∀ (d : Nat) (b : Bool), decide (d % 2 = 0) = b →
        ((outcomes (List.replicate idx.length 2)).map (fun bs => (P + signedSum ((i :: idx).zip (bitsOf (d :: bs))) x) * (Q + signedSum ((i :: idx).zip (bitsOf (d :: bs))) y))).sum =
        2 ^ idx.length * ((P + if b then x i else - x i) * (Q + if b then y i else - y i) + (idx.map (fun i => x i * y i)).sum) := by
      intro d b hb
      rw [← signs_sum x y idx]
      congr 1
      refine List.map_congr_left (fun bs _ => ?_)
      unfold bitsOf signedSum
      simp only [List.map_cons, List.zip_cons_cons, List.foldr_cons, hb]
      grind
    have e : outcomes (List.replicate (i :: idx).length 2) =
        (outcomes (List.replicate idx.length 2)).map (0 :: ·) ++ (outcomes (List.replicate idx.length 2)).map (1 :: ·) := by
      rw [List.length_cons, List.replicate_succ, outcomes]
      simp [List.range_succ]
    rw [e, List.map_append, sum_append, List.map_map, List.map_map]
    have k0 := key 0 true (by decide)
    have k1 := key 1 false (by decide)
    simp only [Function.comp_def]
    rw [k0, k1, List.length_cons, List.map_cons, List.sum_cons, Rat.pow_succ]
    simp only [if_true, Bool.false_eq_true, if_false]
    grind

/-- Over the draws of a shuffle, the sum over the first `m` places. -/
theorem places_sum (a : List Nat) (hn : a.Nodup) (r : Rng) (m : Nat) (hm : m ≤ a.length) (g : Nat → Rat) :
    ((outcomes (shuffleBounds (a.length - 1))).map (fun ds => (((shuffle a (fed ds r)).1.take m).map g).sum)).sum =
      m * fact (a.length - 1) * (a.map g).sum := by
  have e1 : ∀ ds, (((shuffle a (fed ds r)).1.take m).map g).sum = ((List.range m).map (fun p => g ((shuffle a (fed ds r)).1.getD p 0))).sum := by
    intro ds
    congr 1
    refine List.ext_getElem? (fun j => ?_)
    by_cases hj : j < m
    · have hl : j < (shuffle a (fed ds r)).1.length := by rw [shuffle_length]; omega
      simp [hj, List.getElem?_take_of_lt hj, List.getD, List.getElem?_eq_getElem hl]
    · rw [List.getElem?_eq_none (by simp; omega), List.getElem?_eq_none (by simp; omega)]
  rw [List.map_congr_left (fun ds _ => e1 ds), sum_comm]
  have e2 : ∀ p ∈ List.range m, ((outcomes (shuffleBounds (a.length - 1))).map (fun ds => g ((shuffle a (fed ds r)).1.getD p 0))).sum =
      fact (a.length - 1) * (a.map g).sum := by
    intro p hp
    have hp := List.mem_range.mp hp
    rw [sum_group (fun ds => (shuffle a (fed ds r)).1.getD p 0) g a hn, ← sum_map_mul]
    · congr 1
      refine List.map_congr_left (fun v hv => ?_)
      obtain ⟨q, hq, rfl⟩ := List.getElem_of_mem hv
      congr 2
      rw [← C81_position a hn r q p hq (by omega)]
      unfold countOutcomes
      refine List.countP_congr (fun ds _ => ?_)
      have hl : p < (shuffle a (fed ds r)).1.length := by rw [shuffle_length]; omega
      simp [List.getD, List.getElem?_eq_getElem hl]
    · intro ds _
      have hl : p < (shuffle a (fed ds r)).1.length := by rw [shuffle_length]; omega
      have : (shuffle a (fed ds r)).1.getD p 0 ∈ (shuffle a (fed ds r)).1 := by
        simp only [List.getD, List.getElem?_eq_getElem hl, Option.getD_some]
        exact List.getElem_mem hl
      exact (shuffle_perm a (fed ds r)).mem_iff.mp this
  rw [List.map_congr_left e2, sum_const]
  simp
  grind

/-- The first row of a result. -/
def headRow (x : Go (List (List (Nat × Bool)) × Rng)) : List (Nat × Bool) :=
  match x with
  | .ok (row :: _, _) => row
  | _ => []

theorem headRow_eq {dim m : Nat} (hm : m ≤ dim) (n : Nat) {a : List Nat} (ha : a.Perm (List.range dim)) (r : Rng) {ds bs : List Nat}
    (hds : ds.length = dim - 1) (hbs : bs.length = m) :
    headRow (Srp.rowsLoop m (n + 1) a (fed (ds ++ bs) r)) = (Srp.sortInts ((shuffle a (fed ds r)).1.take m)).zip (bitsOf bs) := by
  have hlen : a.length = dim := by simpa using ha.length_eq
  obtain ⟨rest, r', e⟩ := rowsLoop_head hm n ha (fed (ds ++ bs) r)
  rw [e]
  have e1 : (shuffle a (fed (ds ++ bs) r)).1 = (shuffle a (fed ds r)).1 := by
    rw [fed_append]; exact shuffleFrom_fed_any _ _ _ _ _ (by omega)
  have e2 : (shuffle a (fed (ds ++ bs) r)).2 = fed bs r := by
    rw [fed_append]; exact shuffleFrom_fed_rest _ _ _ _ (by omega)
  show (Srp.sortInts _).zip _ = _
  rw [e1, e2]
  congr 1
  refine List.ext_getElem? (fun j => ?_)
  unfold bitsOf
  by_cases hj : j < bs.length
  · simp [hj, hbs ▸ hj, fed]
  · rw [List.getElem?_eq_none (by simp; omega), List.getElem?_eq_none (by simp; omega)]

/-- The draws of one round of `sparse_random_projection.New`: a shuffle and a sign for each of the `m` sampled features. -/
abbrev srpBounds (dim m : Nat) : List Nat := shuffleBounds (dim - 1) ++ List.replicate m 2

theorem fact_pos : ∀ n, 0 < fact n
  | 0 => by decide
  | n + 1 => Nat.mul_pos (by omega) (fact_pos n)

theorem cast_ne_zero {n : Nat} (h : 0 < n) : (n : Rat) ≠ 0 := by
  intro h0
  have : n = 0 := Rat.natCast_inj.mp (h0.trans (rfl : (0 : Rat) = ((0 : Nat) : Rat)))
  omega

theorem prod_twos : ∀ m, (List.replicate m 2).prod = 2 ^ m
  | 0 => rfl
  | m + 1 => by rw [List.replicate_succ, List.prod_cons, prod_twos m, Nat.pow_succ, Nat.mul_comm]

/-- One round: all outcomes together. -/
theorem round_sum {dim m : Nat} (hd : 0 < dim) (hm : m ≤ dim) (n : Nat) {a : List Nat} (ha : a.Perm (List.range dim)) (r : Rng) (x y : Nat → Rat) (P Q : Rat) :
    mean (srpBounds dim m) (fun ds => (P + signedSum (headRow (Srp.rowsLoop m (n + 1) a (fed ds r))) x) *
      (Q + signedSum (headRow (Srp.rowsLoop m (n + 1) a (fed ds r))) y)) = P * Q + m / dim * ((List.range dim).map (fun i => x i * y i)).sum := by
  have hlen : a.length = dim := by simpa using ha.length_eq
  have hnd : a.Nodup := ha.nodup_iff.mpr List.nodup_range
  have hf := fact_pos (dim - 1)
  have shuf : (outcomes (shuffleBounds (dim - 1))).length = dim * fact (dim - 1) := by
    obtain ⟨k, rfl⟩ : ∃ k, dim = k + 1 := ⟨dim - 1, by omega⟩
    rw [outcomes_length, shuffleBounds_prod]
    rfl
  have total : ((outcomes (srpBounds dim m)).map (fun ds => (P + signedSum (headRow (Srp.rowsLoop m (n + 1) a (fed ds r))) x) *
      (Q + signedSum (headRow (Srp.rowsLoop m (n + 1) a (fed ds r))) y))).sum =
      2 ^ m * ((dim * fact (dim - 1) : Nat) * (P * Q) + m * fact (dim - 1) * ((List.range dim).map (fun i => x i * y i)).sum) := by
    unfold srpBounds
    rw [outcomes_append, List.map_flatMap, sum_flatMap]
    have e : ∀ ds ∈ outcomes (shuffleBounds (dim - 1)), (((outcomes (List.replicate m 2)).map (ds ++ ·)).map (fun ds =>
        (P + signedSum (headRow (Srp.rowsLoop m (n + 1) a (fed ds r))) x) * (Q + signedSum (headRow (Srp.rowsLoop m (n + 1) a (fed ds r))) y))).sum =
        2 ^ m * (P * Q + (((shuffle a (fed ds r)).1.take m).map (fun i => x i * y i)).sum) := by
      intro ds hds
      have hdl : ds.length = dim - 1 := by rw [mem_outcomes_length _ _ hds, shuffleBounds_length]
      have hidx : (Srp.sortInts ((shuffle a (fed ds r)).1.take m)).length = m := by
        rw [(Srp.sortInts_perm _).length_eq, List.length_take, shuffle_length]; omega
      have hs := signs_sum x y (Srp.sortInts ((shuffle a (fed ds r)).1.take m)) P Q
      rw [hidx, sum_perm ((Srp.sortInts_perm _).map (fun i => x i * y i))] at hs
      rw [← hs, List.map_map]
      congr 1
      refine List.map_congr_left (fun bs hbs => ?_)
      have hbl : bs.length = m := by rw [mem_outcomes_length _ _ hbs, List.length_replicate]
      simp only [Function.comp_apply]
      rw [headRow_eq hm n ha r hdl hbl]
    rw [List.map_congr_left e, sum_map_mul, sum_map_add, sum_const, shuf]
    have hp := places_sum a hnd r m (by omega) (fun i => x i * y i)
    rw [hlen, sum_perm (ha.map (fun i => x i * y i))] at hp
    rw [hp]
  have count : ((outcomes (srpBounds dim m)).length : Rat) = (2 ^ m : Nat) * ((dim : Nat) * (fact (dim - 1) : Nat)) := by
    rw [outcomes_length, srpBounds, List.prod_append, prod_twos, ← outcomes_length, shuf, Nat.mul_comm]
    push_cast
    rfl
  unfold mean
  rw [total, count]
  have d0 := cast_ne_zero hd
  have f0 := cast_ne_zero hf
  have p0 := cast_ne_zero (Nat.pow_pos (n := m) (show 0 < 2 by omega))
  have pe : (2 : Rat) ^ m = ((2 ^ m : Nat) : Rat) := by push_cast; rfl
  rw [pe]
  push_cast at *
  generalize (2 ^ m : Rat) = pw at p0
  grind

/-- C98. In a round of `sparse_random_projection.New` that samples `m` of `dim` features, the product of the projections of two vectors is on
average `m / dim` times their inner product, whatever order `a` the rounds before have left. -/
theorem C98_product (dim m : Nat) (hd : 0 < dim) (hm : m ≤ dim) (n : Nat) (a : List Nat) (ha : a.Perm (List.range dim)) (r : Rng) (x y : Nat → Rat) :
    mean (srpBounds dim m) (fun ds => signedSum (headRow (Srp.rowsLoop m (n + 1) a (fed ds r))) x *
      signedSum (headRow (Srp.rowsLoop m (n + 1) a (fed ds r))) y) = m / dim * ((List.range dim).map (fun i => x i * y i)).sum := by
  have := round_sum hd hm n ha r x y 0 0
  simpa only [Rat.zero_add, Rat.zero_mul] using this

theorem signedSum_sub (row : List (Nat × Bool)) (x y : Nat → Rat) :
    signedSum row (fun i => x i - y i) = signedSum row x - signedSum row y := by
  induction row with
  | nil => simp only [signedSum, List.map_nil, List.foldr_nil]; grind
  | cons p row ih =>
    unfold signedSum at *
    simp only [List.map_cons, List.foldr_cons, ih]
    split <;> grind

/-- C98. The squared distance of the projections of two vectors is on average `m / dim` times the squared distance of the vectors. -/
theorem C98_distance (dim m : Nat) (hd : 0 < dim) (hm : m ≤ dim) (n : Nat) (a : List Nat) (ha : a.Perm (List.range dim)) (r : Rng) (x y : Nat → Rat) :
    mean (srpBounds dim m) (fun ds => (signedSum (headRow (Srp.rowsLoop m (n + 1) a (fed ds r))) x -
      signedSum (headRow (Srp.rowsLoop m (n + 1) a (fed ds r))) y) ^ 2) = m / dim * ((List.range dim).map (fun i => (x i - y i) ^ 2)).sum := by
  have := C98_product dim m hd hm n a ha r (fun i => x i - y i) (fun i => x i - y i)
  simp only [signedSum_sub] at this
  have sq : ∀ q : Rat, q ^ 2 = q * q := fun q => by grind
  simp only [sq]
  exact this

/-- C98. The projection of a vector is 0 on average. -/
theorem C98_centred (dim m : Nat) (hd : 0 < dim) (hm : m ≤ dim) (n : Nat) (a : List Nat) (ha : a.Perm (List.range dim)) (r : Rng) (x : Nat → Rat) :
    mean (srpBounds dim m) (fun ds => signedSum (headRow (Srp.rowsLoop m (n + 1) a (fed ds r))) x) = 0 := by
  have := round_sum hd hm n ha r x (fun _ => 0) 0 1
  have z : ∀ row : List (Nat × Bool), signedSum row (fun _ => 0) = 0 := by
    intro row
    induction row with
    | nil => rfl
    | cons p row ih =>
      unfold signedSum at *
      simp only [List.map_cons, List.foldr_cons, ih]
      split <;> grind
  simp only [z, Rat.zero_add, Rat.add_zero, Rat.mul_one, Rat.mul_zero] at this
  rw [this, sum_const]
  simp

/-- The rows of a projection, which decide the codes (C30), are the first rows of the rounds, each starting from an order of the features. -/
theorem C98_rounds (numHashes m dim : Nat) (rows : List (List (Nat × Bool))) (r r' : Rng) (a : List Nat) (h : Srp.rowsLoop m (numHashes + 1) a r = .ok (rows, r')) :
    rows.head? = some (headRow (Srp.rowsLoop m (numHashes + 1) a r)) ∧
    ∃ a' r'', Srp.rowsLoop m numHashes a' r'' = .ok (rows.tail, r') ∧ (a.Perm (List.range dim) → a'.Perm (List.range dim)) := by
  rw [h]
  rw [Srp.rowsLoop] at h
  dsimp only at h
  rw [bind_ok_iff] at h
  obtain ⟨sampled, -, h⟩ := h
  rw [bind_ok_iff] at h
  obtain ⟨⟨rest, r2⟩, h1, h2⟩ := h
  cases h2
  exact ⟨rfl, _, _, h1, fun hp => (shuffle_perm a r).trans hp⟩

-- one of two features with a sign: the mean product of (1, 2) and (3, 4) is 11 / 2; all 4 outcomes give 3, 8, 3 and 8
example : mean (srpBounds 2 1) (fun ds => signedSum (headRow (Srp.rowsLoop 1 1 [0, 1] (fed ds (fun _ => 0)))) (fun i => i + 1) *
      signedSum (headRow (Srp.rowsLoop 1 1 [0, 1] (fed ds (fun _ => 0)))) (fun i => i + 3)) = 11 / 2 ∧
    (outcomes (srpBounds 2 1)).length = 4 := by decide +kernel

end Goslide.Props
