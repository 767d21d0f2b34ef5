import Verif.Proofs.Binary64
import Verif.Props.Srp
import Verif.Props.Minhash
/-
The laws of floats that other theorems assume hold of IEEE-754 binary64: C77.
-/
set_option linter.unusedSectionVars false
namespace Goslide.Props
open Goslide Binary64

/-- C77, rounding: a finite result is the nearest number to the exact one, at most half a unit in the last place away, and with
an even last place in case of a tie. -/
theorem C77_nearest {q r : ℚ} (h0 : q ≠ 0) {h : Rep r} (hr : Binary64.round q = .fin r h) :
    (∀ s, Rep s → |q - r| ≤ |q - s|) ∧ ∃ m : ℤ, r = m * (2 : ℚ) ^ expo q ∧ |q - r| ≤ 2 ^ expo q / 2 ∧
      (|q - r| = 2 ^ expo q / 2 → m % 2 = 0) := by
  unfold Binary64.round at hr
  split at hr
  · cases hr
  · split at hr
    · injection hr with hr
      subst hr
      exact ⟨fun s hs => mant_best h0 hs, mant q, rfl, mant_error q, mant_even⟩
    · cases hr

/-- The constant 0.1 is 7205759403792794 / 2^56. -/
example : mant (1 / 10) = 7205759403792794 ∧ expo (1 / 10) = -56 := by decide +kernel
/-- 0.1 + 0.2 is not 0.3: 5404319552844596 / 2^54 and 5404319552844595 / 2^54. -/
example : mant (7205759403792794 / 2 ^ 56 + 7205759403792794 / 2 ^ 55) = 5404319552844596 ∧ mant (3 / 10) = 5404319552844595 := by
  decide +kernel
/-- A tie: 2^53 + 1 becomes 2^53, 2^53 + 3 becomes 2^53 + 4. -/
example : mant (2 ^ 53 + 1) = 2 ^ 52 ∧ mant (2 ^ 53 + 3) = 2 ^ 52 + 2 := by decide +kernel

/-- C77, rounding: numbers are not changed. -/
theorem C77_exact {q : ℚ} (h : Rep q) : Binary64.round q = .fin q h := round_exact h

/-- C77: comparison, division of integers, and addition of zeros obey the laws that the theorems assume. -/
theorem C77_laws (L : Lib) :
    Nonempty (@FloatOrder B64 (float64 L)) ∧ @FloatIntDiv B64 (float64 L) ∧ Nonempty (@FloatZero B64 (float64 L)) ∧
      @FloatEq B64 (float64 L) (float64Order L) :=
  ⟨⟨float64Order L⟩, float64IntDiv L, ⟨float64Zero L⟩, float64Eq L⟩

/-- C77 applied to C28: sparse and dense projections agree bit for bit in binary64. -/
theorem C77_srp (L : Lib) (dim numHashes ratio : Nat) (r : Rng) (hr : 0 < ratio) (hd : dim ≤ 2 ^ 53) (hr2 : ratio ≤ 2 ^ 53)
    (pairs : List (Pair B64)) (data : List B64) (hlen : data.length = dim) (hinc : Spec.Increasing pairs)
    (hden : letI := float64 L; Spec.Denotes pairs data) :
    letI := float64 L
    ∃ srp r', Srp.new B64 dim numHashes ratio r = .ok (srp, r') ∧ (Srp.getHashSparse srp pairs).length = numHashes ∧
      Srp.getHash srp data = .ok (Srp.getHashSparse srp pairs) :=
  letI := float64 L
  letI := float64Zero L
  haveI := float64IntDiv L
  C28_new_sparse_eq_dense dim numHashes ratio r hr hd hr2 pairs data hlen hinc hden

/-- C77 applied to C27: with a ratio of 0 the quotient is an infinity, which amd64 converts to -2^63, and `New` panics. -/
theorem C77_srp_ratio_zero (L : Lib) (hL : L.wild (.inf false) = -2 ^ 63) (dim numHashes : Nat) (h0 : 0 < dim) (hd : dim ≤ 2 ^ 53) (hn : numHashes ≠ 0) (r : Rng) :
    letI := float64 L
    Srp.new B64 dim numHashes 0 r = .error .makeLen := by
  let := float64 L
  refine (C27_negative B64 dim numHashes 0 r ?_).1 hn
  have hrep : Rep ((dim : ℤ) : ℚ) := rep_int (by omega) (by rw [abs_of_nonneg (by omega)]; exact_mod_cast hd)
  have e1 : (GoFloat.ofInt (dim : Int) : B64) = .fin _ hrep := by
    show ofRat ((dim : ℤ) : ℚ) = _
    unfold ofRat
    rw [if_neg hrep.1, C77_exact hrep]
  have e2 : (GoFloat.ofInt ((0 : Nat) : Int) : B64) = .zero false := by
    show ofRat (((0 : ℕ) : ℤ) : ℚ) = _
    simp [ofRat]
  rw [e1, e2]
  have e3 : decide (((dim : ℤ) : ℚ) < 0) = false := by
    rw [decide_eq_false_iff_not, not_lt]
    exact_mod_cast Nat.zero_le dim
  show convert L _ (B64.inf (decide (((dim : ℤ) : ℚ) < 0) ^^ false)) < 0
  rw [e3]
  show L.wild (.inf false) < 0
  rw [hL]
  norm_num

/-- C77 applied to C23: the bins of minhash are in range in binary64. -/
theorem C77_minhash (L : Lib) (dm : Minhash.DensifiedMinhash) (n : Nat) (hr : dm.rangePow ≤ 53) (h0 : 0 < dm.numHashes) (hn : dm.numHashes ≤ 2 ^ 53) :
    letI := float64 L
    ∀ b ∈ Minhash.getMap B64 dm n, 0 ≤ b ∧ b < dm.numHashes :=
  letI := float64 L
  haveI := float64IntDiv L
  (C23_map_range_partial dm n hr h0 hn).2

theorem rep_pow {k : Nat} (h : k ≤ 971) : Rep ((2 : ℚ) ^ k) :=
  ⟨by positivity, 1, k, by norm_num, by omega, by omega, by simp⟩

theorem ofRat_pow {k : Nat} (h : k ≤ 971) : ofRat ((2 : ℚ) ^ k) = .fin _ (rep_pow h) := by
  unfold ofRat
  rw [if_neg (rep_pow h).1, C77_exact]

theorem ofRat_below {r : Nat} (h1 : 54 ≤ r) (h2 : r ≤ 62) : ofRat ((2 : ℚ) ^ r - 1) = .fin _ (rep_pow (k := r) (by omega)) := by
  have hm : mant ((2 : ℚ) ^ r - 1) = 2 ^ 53 ∧ expo ((2 : ℚ) ^ r - 1) = r - 53 := by
    have : ∀ r : Nat, r < 63 → 54 ≤ r → mant ((2 : ℚ) ^ r - 1) = 2 ^ 53 ∧ expo ((2 : ℚ) ^ r - 1) = r - 53 := by decide +kernel
    exact this r (by omega) h1
  have hne : (2 : ℚ) ^ r - 1 ≠ 0 := by
    have : (1 : ℚ) < 2 ^ r := one_lt_pow₀ (by norm_num) (by omega)
    linarith
  have hv : ((mant ((2 : ℚ) ^ r - 1) : ℤ) : ℚ) * 2 ^ expo ((2 : ℚ) ^ r - 1) = 2 ^ r := by
    rw [hm.1, hm.2]
    push_cast
    rw [show (9007199254740992 : ℚ) = 2 ^ (53 : ℤ) by norm_num, ← zpow_add₀ (by norm_num)]
    rw [show (53 + ((r : ℤ) - 53)) = (r : ℤ) by ring, zpow_natCast]
  unfold ofRat Binary64.round
  rw [if_neg hne, dif_neg (by rw [hm.1]; norm_num), dif_pos (by rw [hv]; exact (rep_pow (k := r) (by omega)).lt_max)]
  congr

/-- C23 is false from 54 bits on, for every power of two of hashes: a hash whose low bits are all set is rounded up to `2^rangePow`, and the bin is one too large. -/
theorem C23_false_from_54 (L : Lib) (dm : Minhash.DensifiedMinhash) (h1 : 54 ≤ dm.rangePow) (h2 : dm.rangePow ≤ 62) {a : Nat} (ha : a ≤ dm.rangePow)
    (hn : dm.numHashes = 2 ^ a) {n i : Nat} (hi : i < n) (hh : dm.hash i = BitVec.allOnes 64) :
    letI := float64 L
    (Minhash.getMap B64 dm n)[i]? = some (dm.numHashes : Int) := by
  let := float64 L
  have hdiv : ∀ {x y : Nat} (hx : x ≤ 971) (hy : y ≤ x), B64.div (.fin _ (rep_pow hx)) (.fin ((2 : ℚ) ^ y) (rep_pow (by omega))) = .fin ((2 : ℚ) ^ (x - y)) (rep_pow (by omega)) := by
    intro x y hx hy
    show (if (2 : ℚ) ^ x = 0 then _ else Binary64.round ((2 : ℚ) ^ x / 2 ^ y)) = _
    rw [if_neg (by positivity)]
    have : (2 : ℚ) ^ x / 2 ^ y = 2 ^ (x - y) := by rw [pow_sub₀ _ (by norm_num) hy]; rfl
    simp only [this]
    exact C77_exact _
  have hint : ∀ {x : Nat} (hx : x ≤ 62), convert L (fun q => ⌈q⌉) (.fin _ (rep_pow (k := x) (by omega))) = 2 ^ x ∧
      convert L (fun q => ⌊q⌋) (.fin _ (rep_pow (k := x) (by omega))) = 2 ^ x := by
    intro x hx
    have e : ((2 : ℚ) ^ x) = ((2 ^ x : ℤ) : ℚ) := by push_cast; rfl
    have hlt : (2 : ℤ) ^ x < 2 ^ 63 := pow_lt_pow_right₀ (by norm_num) (by omega)
    have hpos : (0 : ℤ) < 2 ^ x := by positivity
    constructor <;>
    · show toInt L _ _ = _
      unfold toInt
      have e1 : ⌈(2 : ℚ) ^ x⌉ = 2 ^ x := by rw [e, Int.ceil_intCast]
      have e2 : ⌊(2 : ℚ) ^ x⌋ = 2 ^ x := by rw [e, Int.floor_intCast]
      dsimp only
      simp only [e1, e2]
      rw [if_pos ⟨by omega, hlt⟩]
  have hof : ∀ {x : Nat} (hx : x ≤ 971), (GoFloat.ofInt ((2 : Int) ^ x) : B64) = .fin _ (rep_pow hx) := by
    intro x hx
    show ofRat (((2 : ℤ) ^ x : ℤ) : ℚ) = _
    push_cast
    exact ofRat_pow hx
  have hc : ((dm.hash i &&& (1#64 <<< dm.rangePow - 1#64)).toNat : Int) = 2 ^ dm.rangePow - 1 := by
    rw [hh]
    have : ∀ r : Nat, r < 63 → 54 ≤ r → ((BitVec.allOnes 64 &&& (1#64 <<< r - 1#64)).toNat : Int) = 2 ^ r - 1 := by decide +kernel
    exact this _ (by omega) h1
  unfold Minhash.getMap
  dsimp only
  rw [List.getElem?_map, List.getElem?_range hi, Option.map_some, hc, rangeOf_small _ (by omega), hn]
  push_cast
  rw [hof (by omega), hof (by omega)]
  have e1 : (GoFloat.ceilInt (GoFloat.div (B64.fin _ (rep_pow (k := dm.rangePow) (by omega))) (B64.fin _ (rep_pow (k := a) (by omega))) : B64)) = 2 ^ (dm.rangePow - a) := by
    show convert L _ (B64.div _ _) = _
    rw [hdiv (by omega) ha, (hint (by omega)).1]
  rw [e1, hof (by omega)]
  have e2 : (GoFloat.ofInt ((2 : Int) ^ dm.rangePow - 1) : B64) = .fin _ (rep_pow (k := dm.rangePow) (by omega)) := by
    show ofRat ((((2 : ℤ) ^ dm.rangePow - 1 : ℤ)) : ℚ) = _
    push_cast
    exact ofRat_below h1 h2
  rw [e2]
  show some (convert L _ (B64.div _ _)) = _
  rw [hdiv (by omega) (by omega), (hint (by omega)).2, Nat.sub_sub_self ha]

-- 64 hashes of 60 bits
example (L : Lib) : letI := float64 L
    (Minhash.getMap B64 (Minhash.new 64 60 (fun i => if i = 3 then BitVec.allOnes 64 else 0#64) (fun _ => 0)).1 5)[3]? = some 64 :=
  C23_false_from_54 L (Minhash.new 64 60 (fun i => if i = 3 then BitVec.allOnes 64 else 0#64) (fun _ => 0)).1 (by decide) (by decide) (a := 6) (by decide) (by decide) (by decide) rfl

end Goslide.Props
