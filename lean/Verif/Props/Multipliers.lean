import Verif.Props.Random
import Verif.Props.Lsh
import Verif.Props.Dwta
import Verif.Props.Srp
import Verif.Model.Minhash
import Verif.Proofs.PermTables
/-
C86: the random multipliers of the tables and of the densified hashes are uniform on the odd numbers below 2^63 and independent of each other.
A draw of `rand.Int()` is uniform below 2^63.
-/
namespace Goslide.Props
open Spec
variable {F : Type} [GoFloat F]

/-- The next odd number. -/
def nextOdd (d : Nat) : Nat := if d % 2 = 0 then d + 1 else d

theorem sum_nextOdd (x c : Nat) (hx : x % 2 = 1) : ∀ m : Nat,
    ((List.range (2 * m)).map (fun d => if nextOdd d = x then c else 0)).sum = if x < 2 * m then 2 * c else 0 := by
  intro m
  induction m with
  | zero => simp
  | succ m ih =>
    rw [show 2 * (m + 1) = 2 * m + 1 + 1 by omega, List.range_succ, List.range_succ, List.map_append, List.map_append, List.sum_append, List.sum_append, ih]
    simp only [List.map_cons, List.map_nil, List.sum_cons, List.sum_nil, Nat.add_zero]
    have e1 : nextOdd (2 * m) = 2 * m + 1 := by unfold nextOdd; rw [if_pos (by omega)]
    have e2 : nextOdd (2 * m + 1) = 2 * m + 1 := by unfold nextOdd; rw [if_neg (by omega)]
    rw [e1, e2]
    by_cases h : 2 * m + 1 = x
    · rw [if_pos h, if_neg (by omega), if_pos (by omega)]; omega
    · rw [if_neg h]
      by_cases h' : x < 2 * m
      · rw [if_pos h', if_pos (by omega)]; rfl
      · rw [if_neg h', if_neg (by omega)]

/-- Every list of odd numbers below an even bound comes from the same number of outcomes. -/
theorem count_nextOdd (m : Nat) : ∀ (xs : List Nat), (∀ x ∈ xs, x % 2 = 1 ∧ x < 2 * m) →
    countOutcomes (List.replicate xs.length (2 * m)) (fun ds => ds.map nextOdd = xs) = 2 ^ xs.length
  | [], _ => rfl
  | x :: xs, h => by
    rw [List.length_cons, List.replicate_succ, countOutcomes_cons]
    have h0 := h x (List.mem_cons_self ..)
    have e : ∀ d, countOutcomes (List.replicate xs.length (2 * m)) (fun ds => (d :: ds).map nextOdd = x :: xs) = if nextOdd d = x then 2 ^ xs.length else 0 := by
      intro d
      by_cases hd : nextOdd d = x
      · rw [if_pos hd, ← count_nextOdd m xs (fun y hy => h y (List.mem_cons_of_mem _ hy))]
        refine countOutcomes_congr (fun ds => ?_)
        simp [hd]
      · rw [if_neg hd]
        refine countOutcomes_false _ _ (fun ds hc => ?_)
        simp [hd] at hc
    simp only [e]
    rw [sum_nextOdd x _ h0.1, if_pos h0.2, Nat.pow_succ, Nat.mul_comm]

theorem mem_outcomes_lt (N : Nat) : ∀ (m : Nat) (ds : List Nat), ds ∈ outcomes (List.replicate m N) → ∀ d ∈ ds, d < N
  | 0, ds, h => by rw [List.replicate_zero, outcomes, List.mem_singleton] at h; subst h; simp
  | m + 1, ds, h => by
    rw [List.replicate_succ, outcomes, List.mem_flatMap] at h
    obtain ⟨d, hd, h⟩ := h
    rw [List.mem_map] at h
    obtain ⟨ds', h, rfl⟩ := h
    intro e he
    rcases List.mem_cons.mp he with rfl | he
    · exact List.mem_range.mp hd
    · exact mem_outcomes_lt N m ds' h e he

theorem positiveOdd_eq (d : Nat) (h : d < 2 ^ 63) : (Lsh.positiveOddRandomInt (Lsh.randInt d)).toInt = (nextOdd d : Int) := by
  unfold Lsh.positiveOddRandomInt Lsh.randInt nextOdd
  have h' : d < 9223372036854775808 := h
  have e : (BitVec.ofNat 64 (d % 2 ^ 63)).toInt = (d : Int) := by
    rw [Nat.mod_eq_of_lt h, BitVec.toInt_ofNat', Int.bmod_def]
    omega
  rw [e]
  by_cases hd : d % 2 = 0
  · rw [if_pos (by omega), if_pos hd, BitVec.toInt_add, e, show (1#64).toInt = 1 from rfl, Int.bmod_def]
    omega
  · rw [if_neg (by omega), if_neg hd, e]

theorem positiveOdd_toNat (d : Nat) (h : d < 2 ^ 63) : (Lsh.positiveOddRandomInt (Lsh.randInt d)).toNat = nextOdd d := by
  have h1 := positiveOdd_eq d h
  have h' : d < 9223372036854775808 := h
  have h2 : nextOdd d < 9223372036854775808 := by unfold nextOdd; split <;> omega
  rw [BitVec.toInt_eq_toNat_cond] at h1
  have := (Lsh.positiveOddRandomInt (Lsh.randInt d)).isLt
  split at h1 <;> omega

/-- The multipliers of new tables; none if `New` panics. -/
def multipliers (k l rangePow : Nat) (r : Rng) : Option (List Int) :=
  match Lsh.new k l rangePow r with
  | .ok (s, _) => some s.rand1
  | .error _ => none

theorem multipliers_fed (k l rangePow : Nat) (hr : rangePow ≠ 63) (r : Rng) (ds : List Nat) (hl : ds.length = k * l) (hd : ∀ d ∈ ds, d < 2 ^ 63) :
    multipliers k l rangePow (fed ds r) = some (ds.map (fun d => (nextOdd d : Int))) := by
  have hn : ∃ n r', Lsh.new k l rangePow (fed ds r) =
      .ok (⟨List.replicate l (List.replicate n Fifo.new), k, l, rangePow, (Lsh.drawMultipliers (k * l) (fed ds r)).1⟩, r') := by
    unfold Lsh.new
    by_cases h0 : l = 0
    · rw [if_pos h0]; exact ⟨_, _, rfl⟩
    · rw [if_neg h0]
      unfold Lsh.numBuckets
      by_cases h1 : rangePow < 63
      · rw [if_pos h1]; exact ⟨_, _, rfl⟩
      · rw [if_neg h1, if_neg hr]; exact ⟨_, _, rfl⟩
  obtain ⟨n, r', hn⟩ := hn
  unfold multipliers
  rw [hn]
  simp only [Lsh.drawMultipliers, Option.some.injEq]
  apply List.ext_getElem
  · simp [hl]
  · intro i h1 h2
    simp only [List.length_map, List.length_range] at h1 h2
    simp only [List.getElem_map, List.getElem_range]
    rw [show fed ds r i = ds[i] by simp [fed, h2]]
    exact positiveOdd_eq _ (hd _ (List.getElem_mem _))

/-- C86 (tables). Every sequence of odd numbers below 2^63 is equally likely to be the `k * l` multipliers of new tables:
2^(k l) of the (2^63)^(k l) outcomes. -/
theorem C86_tables (k l rangePow : Nat) (hr : rangePow ≠ 63) (r : Rng) (xs : List Nat) (hl : xs.length = k * l)
    (hx : ∀ x ∈ xs, x % 2 = 1 ∧ x < 2 ^ 63) :
    countOutcomes (List.replicate (k * l) (2 ^ 63)) (fun ds => multipliers k l rangePow (fed ds r) = some (xs.map Int.ofNat)) = 2 ^ (k * l) := by
  have h := count_nextOdd (2 ^ 62) xs (fun x h => ⟨(hx x h).1, by have := (hx x h).2; omega⟩)
  rw [hl, show 2 * 2 ^ 62 = 2 ^ 63 by decide] at h
  rw [← h]
  refine countOutcomes_congr_mem (fun ds hds => ?_)
  rw [multipliers_fed k l rangePow hr r ds (by rw [mem_outcomes_length _ _ hds, List.length_replicate]) (mem_outcomes_lt _ _ ds hds)]
  rw [Option.some.injEq, show (fun d => (nextOdd d : Int)) = Int.ofNat ∘ nextOdd from rfl, ← List.map_map]
  refine ⟨fun h => ?_, fun h => by rw [h]⟩
  exact (List.map_inj_right (fun a b h => Int.ofNat.inj h)).mp h

/-- The three multipliers of a densified minhash, as numbers. -/
def minhashMultipliers (d : Minhash.DensifiedMinhash) : List Nat := [d.randHash0.toNat, d.randHash1.toNat, d.randa.toNat]

/-- The three multipliers of a densified winner-take-all hash. -/
def dwtaMultipliers (d : Dwta.DensifiedWtaHash) : List Nat := [d.randHash0.toNat, d.randHash1.toNat, d.randa.toNat]

theorem three_draws (r : Rng) (ds : List Nat) (hds : ds ∈ outcomes (List.replicate 3 (2 ^ 63))) :
    [(Lsh.positiveOddRandomInt (Lsh.randInt (fed ds r 0))).toNat, (Lsh.positiveOddRandomInt (Lsh.randInt (fed ds r 1))).toNat,
      (Lsh.positiveOddRandomInt (Lsh.randInt (fed ds r 2))).toNat] = ds.map nextOdd := by
  have hl := mem_outcomes_length _ _ hds
  have hd := mem_outcomes_lt _ _ ds hds
  rw [List.length_replicate] at hl
  match ds, hl, hd with
  | [a, b, c], _, hd =>
    rw [positiveOdd_toNat _ (by exact hd a (by simp)), positiveOdd_toNat _ (by exact hd b (by simp)), positiveOdd_toNat _ (by exact hd c (by simp))]
    rfl

theorem three_count (x y z : Nat) (hx : x % 2 = 1 ∧ x < 2 ^ 63) (hy : y % 2 = 1 ∧ y < 2 ^ 63) (hz : z % 2 = 1 ∧ z < 2 ^ 63) :
    countOutcomes (List.replicate 3 (2 ^ 63)) (fun ds => ds.map nextOdd = [x, y, z]) = 8 := by
  have h := count_nextOdd (2 ^ 62) [x, y, z] (by
    intro w hw
    simp only [List.mem_cons, List.not_mem_nil, or_false] at hw
    rcases hw with rfl | rfl | rfl
    · exact ⟨hx.1, by omega⟩
    · exact ⟨hy.1, by omega⟩
    · exact ⟨hz.1, by omega⟩)
  exact h

/-- C86 (minhash). Every triple of odd numbers below 2^63 is equally likely, in 8 of the (2^63)^3 outcomes, and the first draw makes `randHash0`,
the second `randHash1`, the third `randa`. -/
theorem C86_minhash (numHashes bits : Nat) (hash : Nat → BitVec 64) (r : Rng) (x y z : Nat) (hx : x % 2 = 1 ∧ x < 2 ^ 63) (hy : y % 2 = 1 ∧ y < 2 ^ 63)
    (hz : z % 2 = 1 ∧ z < 2 ^ 63) :
    countOutcomes (List.replicate 3 (2 ^ 63)) (fun ds => minhashMultipliers (Minhash.new numHashes bits hash (fed ds r)).1 = [x, y, z]) = 8 := by
  rw [← three_count x y z hx hy hz]
  refine countOutcomes_congr_mem (fun ds hds => ?_)
  rw [← three_draws r ds hds]
  rfl

/-- The permutations of a densified winner-take-all hash use the draws they are given and nothing else. -/
theorem fillLoop_fed_rest (dim : Nat) : ∀ (n p : Nat) (a : List Nat) (t : List Nat × List Nat) (ds : List Nat) (r : Rng), a.length = dim →
    ds.length = n * (dim - 1) → (Dwta.fillLoop dim n p a t (fed ds r)).2 = r
  | 0, p, a, t, ds, r, _, h => by
    obtain rfl := List.length_eq_zero_iff.mp (h.trans (Nat.zero_mul _))
    exact fed_nil r
  | n + 1, p, a, t, ds, r, ha, h => by
    rw [Nat.succ_mul n (dim - 1)] at h
    rw [Dwta.fillLoop]
    have hs : (shuffle a (fed ds r)).2 = fed (ds.drop (dim - 1)) r := by
      conv => lhs; rw [← List.take_append_drop (dim - 1) ds, fed_append]
      unfold shuffle
      exact shuffleFrom_fed_rest _ _ _ _ (by rw [ha, List.length_take]; omega)
    have hperm : (shuffle a (fed ds r)).1.length = dim := by
      rw [(shuffle_perm a _).length_eq, ha]
    show (Dwta.fillLoop dim n (p + 1) (shuffle a (fed ds r)).1 _ (shuffle a (fed ds r)).2).2 = r
    rw [hs]
    exact fillLoop_fed_rest dim n (p + 1) _ _ _ r hperm (by rw [List.length_drop]; omega)

/-- C86 (DWTA). Whatever the draws of the permutations were, every triple of odd numbers below 2^63 is equally likely. -/
theorem C86_dwta (numHashes dim : Nat) (r : Rng) (before : List Nat) (hb : before.length = Wta.permuteCount numHashes dim * (dim - 1))
    (x y z : Nat) (hx : x % 2 = 1 ∧ x < 2 ^ 63) (hy : y % 2 = 1 ∧ y < 2 ^ 63) (hz : z % 2 = 1 ∧ z < 2 ^ 63) :
    countOutcomes (List.replicate 3 (2 ^ 63)) (fun ds => dwtaMultipliers (Dwta.new numHashes dim (fed (before ++ ds) r)).1 = [x, y, z]) = 8 := by
  rw [← three_count x y z hx hy hz]
  refine countOutcomes_congr_mem (fun ds hds => ?_)
  rw [← three_draws r ds hds, fed_append]
  have h := fillLoop_fed_rest dim (Wta.permuteCount numHashes dim) 0 (List.range dim)
    (List.replicate (dim * Wta.permuteCount numHashes dim) 0, List.replicate (dim * Wta.permuteCount numHashes dim) 0) before (fed ds r)
    List.length_range hb
  unfold Dwta.new dwtaMultipliers
  dsimp only
  rw [h]

/-- The conditions hold: one multiplier, drawn as 4 or as 5, is 5. -/
example : multipliers 1 1 3 (fed [4] (fun _ => 0)) = some [5] ∧ multipliers 1 1 3 (fed [5] (fun _ => 0)) = some [5] ∧
    multipliers 1 1 3 (fed [6] (fun _ => 0)) = some [7] := by decide

example : minhashMultipliers (Minhash.new 4 8 (fun _ => 0) (fed [4, 9, 12] (fun _ => 0))).1 = [5, 9, 13] := by decide

example : dwtaMultipliers (Dwta.new 2 8 (fed ([0, 1, 2, 3, 2, 1, 0] ++ [0, 1, 2] ++ [4, 9, 12]) (fun _ => 0))).1 ≠ [5, 9, 13] := by decide

example : Wta.permuteCount 1 8 = 1 ∧ dwtaMultipliers (Dwta.new 1 8 (fed ([0, 1, 2, 3, 2, 1, 0] ++ [4, 9, 12]) (fun _ => 0))).1 = [5, 9, 13] := by decide

end Goslide.Props
