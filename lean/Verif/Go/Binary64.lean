import Mathlib.Data.Int.Log
import Mathlib.Data.Rat.Floor
import Mathlib.Algebra.Order.Round
import Mathlib.Tactic.Linarith
import Mathlib.Tactic.NormNum
import Mathlib.Tactic.Positivity
import Mathlib.Tactic.FieldSimp
import Verif.Go.FloatEq
/-
IEEE-754 binary64 (Go's `float64`) as an instance of `GoFloat`, with round to nearest, ties to even, gradual
underflow, signed zeros, infinities and one NaN. It shows that the law classes of `Go/Float.lean` and
`Go/FloatEq.lean`, which the theorems with such hypotheses assume, hold of the floats of the code.

`exp`, `sqrt` and `pow` of Go's `math` package, and the conversion to `int` of values that do not fit, are parameters:
no law speaks about them.
-/
namespace Goslide.Binary64

/-- Nonzero finite binary64 numbers: at most 53 significant bits, least exponent -1074, greatest 971. -/
def Rep (q : ℚ) : Prop := q ≠ 0 ∧ ∃ m e : ℤ, |m| < 2 ^ 53 ∧ -1074 ≤ e ∧ e ≤ 971 ∧ q = m * (2 : ℚ) ^ e

/-- The values. In `inf` and `zero` the flag is the sign (`true`: negative). -/
inductive B64 where
  | nan
  | inf (neg : Bool)
  | zero (neg : Bool)
  | fin (q : ℚ) (h : Rep q)

/-- Rounding to the nearest integer, ties to even. -/
def nearest (x : ℚ) : ℤ :=
  if x - ⌊x⌋ < 1 / 2 then ⌊x⌋
  else if 1 / 2 < x - ⌊x⌋ then ⌊x⌋ + 1
  else if ⌊x⌋ % 2 = 0 then ⌊x⌋ else ⌊x⌋ + 1

/-- The exponent of the last place of the numbers near `q`. -/
def expo (q : ℚ) : ℤ := max (Int.log 2 |q| - 52) (-1074)

/-- `q` in units of the last place, rounded. -/
def mant (q : ℚ) : ℤ := nearest (q / 2 ^ expo q)

theorem nearest_ge {x : ℚ} {k : ℤ} (h : (k : ℚ) ≤ x) : k ≤ nearest x := by
  have h1 : k ≤ ⌊x⌋ := Int.le_floor.mpr h
  unfold nearest
  split_ifs <;> omega

theorem nearest_le {x : ℚ} {k : ℤ} (h : x ≤ (k : ℚ)) : nearest x ≤ k := by
  have h1 : ⌊x⌋ ≤ k := by
    have := (Int.floor_le x).trans h
    exact_mod_cast this
  rcases h1.lt_or_eq with h2 | h2
  · unfold nearest
    split_ifs <;> omega
  · have hx : x = ⌊x⌋ := le_antisymm (by rw [h2]; exact h) (Int.floor_le x)
    unfold nearest
    rw [if_pos (by rw [← hx]; norm_num)]
    omega

theorem nearest_int (k : ℤ) : nearest (k : ℚ) = k :=
  le_antisymm (nearest_le le_rfl) (nearest_ge le_rfl)

theorem nearest_near (x : ℚ) : |(nearest x : ℚ) - x| ≤ 1 / 2 := by
  have h1 := Int.floor_le x
  have h2 := Int.lt_floor_add_one x
  rw [abs_le]
  unfold nearest
  split_ifs <;> push_cast <;> constructor <;> linarith

theorem two_pos (e : ℤ) : (0 : ℚ) < 2 ^ e := zpow_pos (by norm_num) e

theorem abs_lt_expo {q : ℚ} : |q| < 2 ^ (expo q + 53) := by
  have h : |q| < (2 : ℚ) ^ (Int.log 2 |q| + 1) := by
    exact_mod_cast Int.lt_zpow_succ_log_self (b := 2) (by norm_num) |q|
  refine h.trans_le ?_
  apply zpow_le_zpow_right₀ (by norm_num)
  unfold expo
  omega

theorem expo_le_abs {q : ℚ} (h0 : q ≠ 0) (h : -1074 < expo q) : (2 : ℚ) ^ (expo q + 52) ≤ |q| := by
  have h1 : (2 : ℚ) ^ (Int.log 2 |q|) ≤ |q| := by
    exact_mod_cast Int.zpow_log_le_self (b := 2) (by norm_num) (abs_pos.mpr h0)
  have : expo q + 52 = Int.log 2 |q| := by unfold expo at *; omega
  rw [this]; exact h1

theorem expo_ge (q : ℚ) : -1074 ≤ expo q := by unfold expo; omega

/-- A number with at most 53 bits is a multiple of the unit in its last place. -/
theorem mant_exact {q : ℚ} {m e : ℤ} (hm : |m| < 2 ^ 53) (he : -1074 ≤ e) (hq : q = m * (2 : ℚ) ^ e) (h0 : q ≠ 0) :
    (mant q : ℚ) * 2 ^ expo q = q := by
  have hle : expo q ≤ e := by
    by_contra hlt
    have h1 := expo_le_abs h0 (by omega)
    have h2 : |q| < (2 : ℚ) ^ (53 + e) := by
      rw [hq, abs_mul, abs_of_pos (two_pos e), zpow_add₀ (by norm_num)]
      apply mul_lt_mul_of_pos_right _ (two_pos e)
      exact_mod_cast hm
    have h3 : (2 : ℚ) ^ (53 + e) ≤ 2 ^ (expo q + 52) := zpow_le_zpow_right₀ (by norm_num) (by omega)
    linarith
  obtain ⟨k, hk⟩ := Int.eq_ofNat_of_zero_le (show 0 ≤ e - expo q by omega)
  have hint : q / 2 ^ expo q = ((m * 2 ^ k : ℤ) : ℚ) := by
    have : e = expo q + (k : ℤ) := by omega
    rw [div_eq_iff (two_pos _).ne']
    calc q = m * (2 : ℚ) ^ e := hq
      _ = m * ((2 : ℚ) ^ expo q * 2 ^ (k : ℤ)) := by rw [← zpow_add₀ (by norm_num), ← this]
      _ = _ := by push_cast; rw [zpow_natCast]; ring
  unfold mant
  rw [hint, nearest_int, ← hint, div_mul_cancel₀ _ (two_pos _).ne']

theorem mant_abs_le (q : ℚ) : |mant q| ≤ 2 ^ 53 := by
  have h : |q / 2 ^ expo q| < 2 ^ 53 := by
    rw [abs_div, abs_of_pos (two_pos _), div_lt_iff₀ (two_pos _)]
    have := abs_lt_expo (q := q)
    rw [add_comm, zpow_add₀ (by norm_num)] at this
    exact_mod_cast this
  rw [abs_lt] at h
  rw [abs_le]
  constructor
  · apply nearest_ge; push_cast; linarith
  · apply nearest_le; push_cast; linarith

theorem mant_abs_ge {q : ℚ} (h0 : q ≠ 0) (h : -1074 < expo q) : 2 ^ 52 ≤ |mant q| := by
  have h1 : (2 : ℚ) ^ 52 ≤ |q / 2 ^ expo q| := by
    rw [abs_div, abs_of_pos (two_pos _), le_div_iff₀ (two_pos _)]
    have := expo_le_abs h0 h
    rw [add_comm, zpow_add₀ (by norm_num)] at this
    exact_mod_cast this
  unfold mant
  rcases le_abs.mp h1 with h2 | h2
  · have := nearest_ge (x := q / 2 ^ expo q) (k := 2 ^ 52) (by push_cast; exact h2)
    exact this.trans (le_abs_self _)
  · have := nearest_le (x := q / 2 ^ expo q) (k := -2 ^ 52) (by push_cast; linarith)
    exact (by omega : (2 : ℤ) ^ 52 ≤ -nearest (q / 2 ^ expo q)).trans (neg_le_abs _)

/-- The rounded value is a binary64 number unless it is too large. -/
theorem rep_round {q : ℚ} (hm : mant q ≠ 0) (hb : |(mant q : ℚ) * 2 ^ expo q| < 2 ^ (1024 : ℤ)) :
    Rep ((mant q : ℚ) * 2 ^ expo q) := by
  have hr0 : (mant q : ℚ) * 2 ^ expo q ≠ 0 := mul_ne_zero (by exact_mod_cast hm) (two_pos _).ne'
  have hq0 : q ≠ 0 := by
    rintro rfl
    apply hm
    unfold mant
    rw [zero_div]
    exact_mod_cast nearest_int 0
  refine ⟨hr0, ?_⟩
  have hle := mant_abs_le q
  have hge := expo_ge q
  rw [abs_mul, abs_of_pos (two_pos (expo q))] at hb
  rcases hle.lt_or_eq with hlt | heq
  · refine ⟨mant q, expo q, hlt, hge, ?_, rfl⟩
    by_contra hgt
    have h1 := mant_abs_ge hq0 (by omega)
    have h2 : (2 : ℚ) ^ (1024 : ℤ) ≤ 2 ^ (52 + expo q) := zpow_le_zpow_right₀ (by norm_num) (by omega)
    have h3 : (2 : ℚ) ^ (52 + expo q) ≤ |(mant q : ℚ)| * 2 ^ expo q := by
      rw [zpow_add₀ (by norm_num)]
      apply mul_le_mul_of_nonneg_right _ (two_pos _).le
      exact_mod_cast h1
    linarith
  · have hs : mant q = 2 * (mant q / 2) := by
      rcases abs_choice (mant q) with h | h <;> rw [h] at heq <;> omega
    refine ⟨mant q / 2, expo q + 1, ?_, by omega, ?_, ?_⟩
    · rw [abs_lt]
      rcases abs_choice (mant q) with h | h <;> rw [h] at heq <;> constructor <;> omega
    · by_contra hgt
      have h2 : (2 : ℚ) ^ (1024 : ℤ) ≤ 2 ^ (53 + expo q) := zpow_le_zpow_right₀ (by norm_num) (by omega)
      have h3 : (2 : ℚ) ^ (53 + expo q) ≤ |(mant q : ℚ)| * 2 ^ expo q := by
        rw [zpow_add₀ (by norm_num)]
        apply mul_le_mul_of_nonneg_right _ (two_pos _).le
        rw [← Int.cast_abs, heq]
        norm_num
      linarith
    · rw [zpow_add₀ (by norm_num), zpow_one]
      conv_lhs => rw [hs]
      push_cast
      ring

/-- Rounding of an exact nonzero result. Results that are too large become infinite, results that are too small
become a zero of the same sign. -/
def round (q : ℚ) : B64 :=
  if hm : mant q = 0 then .zero (decide (q < 0))
  else if hb : |(mant q : ℚ) * 2 ^ expo q| < 2 ^ (1024 : ℤ) then .fin (mant q * 2 ^ expo q) (rep_round hm hb)
  else .inf (decide (q < 0))

/-- The value of a finite number. -/
def B64.val : B64 → ℚ
  | .fin q _ => q
  | _ => 0

/-- The sign bit. -/
def B64.sign : B64 → Bool
  | .nan => false
  | .inf s => s
  | .zero s => s
  | .fin q _ => decide (q < 0)

theorem Rep.neg {q : ℚ} (h : Rep q) : Rep (-q) := by
  obtain ⟨h0, m, e, hm, h1, h2, hq⟩ := h
  exact ⟨neg_ne_zero.mpr h0, -m, e, by rwa [abs_neg], h1, h2, by rw [hq]; push_cast; ring⟩

/-- Negation. -/
def B64.neg : B64 → B64
  | .nan => .nan
  | .inf s => .inf (!s)
  | .zero s => .zero (!s)
  | .fin q h => .fin (-q) h.neg

/-- Addition; an exact zero is negative only if both operands are. -/
def B64.add : B64 → B64 → B64
  | .nan, _ => .nan
  | _, .nan => .nan
  | .inf a, .inf b => if a = b then .inf a else .nan
  | .inf a, _ => .inf a
  | _, .inf b => .inf b
  | x, y => if x.val + y.val = 0 then .zero (x.sign && y.sign) else round (x.val + y.val)

/-- Multiplication. -/
def B64.mul : B64 → B64 → B64
  | .nan, _ => .nan
  | _, .nan => .nan
  | .inf _, .zero _ => .nan
  | .zero _, .inf _ => .nan
  | .inf a, y => .inf (a ^^ y.sign)
  | x, .inf b => .inf (x.sign ^^ b)
  | x, y => if x.val * y.val = 0 then .zero (x.sign ^^ y.sign) else round (x.val * y.val)

/-- Division. -/
def B64.div : B64 → B64 → B64
  | .nan, _ => .nan
  | _, .nan => .nan
  | .inf _, .inf _ => .nan
  | .zero _, .zero _ => .nan
  | .inf a, y => .inf (a ^^ y.sign)
  | x, .inf b => .zero (x.sign ^^ b)
  | x, .zero b => .inf (x.sign ^^ b)
  | x, y => if x.val = 0 then .zero (x.sign ^^ y.sign) else round (x.val / y.val)

/-- `<` -/
def B64.lt : B64 → B64 → Bool
  | .nan, _ => false
  | _, .nan => false
  | .inf a, .inf b => a && !b
  | .inf a, _ => a
  | _, .inf b => !b
  | x, y => decide (x.val < y.val)

/-- `==` -/
def B64.eq : B64 → B64 → Bool
  | .nan, _ => false
  | _, .nan => false
  | .inf a, .inf b => a == b
  | .inf _, _ => false
  | _, .inf _ => false
  | x, y => decide (x.val = y.val)

/-- The float64 value of an exact constant. -/
def ofRat (q : ℚ) : B64 := if q = 0 then .zero false else round q

/-- What is left open: three functions of Go's `math` package and the conversion of unsuitable values to `int`. -/
structure Lib where
  exp : B64 → B64
  sqrt : B64 → B64
  pow : B64 → B64 → B64
  wild : B64 → ℤ

/-- `int(x)` of a number with integral value `n`. -/
def toInt (L : Lib) (x : B64) (n : ℤ) : ℤ := if -2 ^ 63 ≤ n ∧ n < 2 ^ 63 then n else L.wild x

/-- Conversion to `int` after `math.Floor` or `math.Ceil` (`f`). -/
def convert (L : Lib) (f : ℚ → ℤ) : B64 → ℤ
  | .zero s => toInt L (.zero s) 0
  | .fin q h => toInt L (.fin q h) (f q)
  | x => L.wild x

/-- The instance. -/
@[reducible] def float64 (L : Lib) : GoFloat B64 where
  const := ofRat
  add := B64.add
  sub x y := x.add y.neg
  mul := B64.mul
  div := B64.div
  neg := B64.neg
  lt := B64.lt
  le x y := x.lt y || x.eq y
  eq := B64.eq
  floorInt := convert L (fun q => ⌊q⌋)
  ceilInt := convert L (fun q => ⌈q⌉)
  exp := L.exp
  sqrt := L.sqrt
  pow := L.pow

/-- NaN or not. -/
def B64.isNaN : B64 → Bool
  | .nan => true
  | _ => false

/-- The order laws. -/
@[reducible] def float64Order (L : Lib) : @FloatOrder B64 (float64 L) :=
  letI := float64 L
  { isNaN := B64.isNaN
    lt_nan_left := by
      rintro (_ | _ | _ | _) (_ | _ | _ | _) h <;> simp_all [B64.isNaN, GoFloat.lt, B64.lt]
    lt_nan_right := by
      rintro (_ | _ | _ | _) (_ | _ | _ | _) h <;> simp_all [B64.isNaN, GoFloat.lt, B64.lt]
    lt_irrefl := by
      rintro (_ | s | _ | _) <;> simp [GoFloat.lt, B64.lt]
    lt_trans := by
      rintro (_ | a | _ | _) (_ | b | _ | _) (_ | c | _ | _) h1 h2 <;>
        simp only [GoFloat.lt, B64.lt, decide_eq_true_eq, Bool.and_eq_true, Bool.not_eq_true', reduceCtorEq] at h1 h2 ⊢ <;>
        first | linarith | simp_all
    lt_weak := by
      rintro (_ | a | _ | _) (_ | b | _ | _) (_ | c | _ | _) h0 h1 <;>
        simp only [GoFloat.lt, B64.lt, B64.isNaN, decide_eq_true_eq, Bool.and_eq_true, Bool.not_eq_true', reduceCtorEq] at h0 h1 ⊢ <;>
        first
          | (by_contra h; push Not at h; linarith [h.1, h.2])
          | simp_all }

theorem float64Eq (L : Lib) : @FloatEq B64 (float64 L) (float64Order L) :=
  letI := float64 L
  letI := float64Order L
  { eq_iff := by
      rintro (_ | a | _ | _) (_ | b | _ | _) h1 h2 <;>
        simp only [GoFloat.lt, GoFloat.eq, FloatOrder.isNaN, B64.lt, B64.eq, B64.isNaN, decide_eq_true_eq,
          decide_eq_false_iff_not, Bool.and_eq_false_iff, reduceCtorEq] at h1 h2 ⊢ <;>
        first
          | (constructor
             · intro h; constructor <;> linarith
             · rintro ⟨h3, h4⟩; linarith)
          | (cases a <;> cases b <;> simp)
          | (cases a <;> simp)
          | (cases b <;> simp) }

/-- Numbers are multiples of the smallest one. -/
theorem Rep.multiple {q : ℚ} (h : Rep q) : ∃ k : ℤ, q = k * (2 : ℚ) ^ (-1074 : ℤ) := by
  obtain ⟨-, m, e, -, h1, -, hq⟩ := h
  obtain ⟨k, hk⟩ := Int.eq_ofNat_of_zero_le (show 0 ≤ e + 1074 by omega)
  refine ⟨m * 2 ^ k, ?_⟩
  have : e = (k : ℤ) + (-1074) := by omega
  rw [hq, this, zpow_add₀ (by norm_num), zpow_natCast]
  push_cast
  ring

/-- A nonzero multiple of the smallest number is not rounded to zero. -/
theorem mant_ne_zero {q : ℚ} {k : ℤ} (h0 : q ≠ 0) (hq : q = k * (2 : ℚ) ^ (-1074 : ℤ)) : mant q ≠ 0 := by
  rcases (expo_ge q).lt_or_eq with h | h
  · have := mant_abs_ge h0 h
    intro h1
    rw [h1] at this
    norm_num at this
  · unfold mant
    rw [← h]
    conv => lhs; rw [hq, mul_div_cancel_right₀ _ (two_pos _).ne', nearest_int]
    rintro rfl
    exact h0 (by rw [hq]; simp)

theorem Rep.lt_max {q : ℚ} (h : Rep q) : |q| < 2 ^ (1024 : ℤ) := by
  obtain ⟨-, m, e, hm, -, h2, hq⟩ := h
  have h3 : (2 : ℚ) ^ (53 + e) ≤ 2 ^ (1024 : ℤ) := zpow_le_zpow_right₀ (by norm_num) (by omega)
  refine lt_of_lt_of_le ?_ h3
  rw [hq, abs_mul, abs_of_pos (two_pos e), zpow_add₀ (by norm_num)]
  apply mul_lt_mul_of_pos_right _ (two_pos e)
  exact_mod_cast hm

/-- Numbers are not changed by rounding. -/
theorem round_exact {q : ℚ} (h : Rep q) : round q = .fin q h := by
  obtain ⟨k, hk⟩ := h.multiple
  have hm := mant_ne_zero h.1 hk
  obtain ⟨m, e, h1, h2, -, h3⟩ := h.2
  have he := mant_exact h1 h2 h3 h.1
  have hb : |(mant q : ℚ) * 2 ^ expo q| < 2 ^ (1024 : ℤ) := by rw [he]; exact h.lt_max
  unfold round
  rw [dif_neg hm, dif_pos hb]
  congr 1

/-- A rounded sum of numbers is not a zero. -/
theorem round_ne_zero {q : ℚ} {k : ℤ} (h0 : q ≠ 0) (hq : q = k * (2 : ℚ) ^ (-1074 : ℤ)) (s : Bool) : round q ≠ .zero s := by
  unfold round
  rw [dif_neg (mant_ne_zero h0 hq)]
  split <;> simp

theorem add_ok {s v : B64} (hs : s ≠ .zero true) : s.add v ≠ .zero true := by
  rcases s with _ | a | a | ⟨q, hq⟩ <;> rcases v with _ | b | b | ⟨r, hr⟩ <;> unfold B64.add <;> try simp
  · split <;> simp
  · simp only [B64.val, B64.sign, add_zero, if_true]
    intro h
    injection h with h
    apply hs
    simp only [Bool.and_eq_true] at h
    rw [h.1]
  · obtain ⟨k, hk⟩ := hr.multiple
    simp only [B64.val, zero_add]
    rw [if_neg hr.1]
    exact round_ne_zero hr.1 hk _
  · obtain ⟨k, hk⟩ := hq.multiple
    simp only [B64.val, add_zero]
    rw [if_neg hq.1]
    exact round_ne_zero hq.1 hk _
  · change ¬ (if q + r = 0 then B64.zero (decide (q < 0) && decide (r < 0)) else round (q + r)) = B64.zero true
    by_cases h : q + r = 0
    · rw [if_pos h]
      intro h2
      injection h2 with h2
      simp only [Bool.and_eq_true, decide_eq_true_eq] at h2
      linarith [h2.1, h2.2]
    · rw [if_neg h]
      obtain ⟨k, hk⟩ := hq.multiple
      obtain ⟨l, hl⟩ := hr.multiple
      exact round_ne_zero (k := k + l) h (by rw [hk, hl]; push_cast; ring) _

theorem add_signed_zero {s : B64} (b : Bool) (hs : s ≠ .zero true) : s.add (.zero b) = s := by
  rcases s with _ | a | a | ⟨q, hq⟩ <;> unfold B64.add <;> try simp
  · simp only [B64.val, B64.sign, add_zero, if_true]
    cases a
    · simp
    · exact absurd rfl hs
  · simp only [B64.val, add_zero]
    rw [if_neg hq.1]
    exact round_exact hq

/-- The laws of zero. -/
@[reducible] def float64Zero (L : Lib) : @FloatZero B64 (float64 L) :=
  letI := float64 L
  { NotNegZero := fun x => x ≠ .zero true
    zero_ok := by
      show ofRat 0 ≠ _
      unfold ofRat
      simp
    add_ok := fun s v hs => add_ok hs
    sub_ok := fun s v hs => add_ok hs
    add_zero := fun s hs => by
      show s.add (ofRat 0) = s
      unfold ofRat
      rw [if_pos rfl]
      exact add_signed_zero _ hs
    sub_zero := fun s hs => by
      show s.add (ofRat 0).neg = s
      unfold ofRat
      rw [if_pos rfl]
      exact add_signed_zero _ hs }

/-- Integers up to 2^53 are numbers. -/
theorem rep_int {a : ℤ} (h0 : a ≠ 0) (h : |a| ≤ 2 ^ 53) : Rep (a : ℚ) := by
  refine ⟨by exact_mod_cast h0, ?_⟩
  rcases h.lt_or_eq with h1 | h1
  · exact ⟨a, 0, h1, by norm_num, by norm_num, by simp⟩
  · have hs : a = 2 * (a / 2) := by
      rcases abs_choice a with h | h <;> rw [h] at h1 <;> omega
    refine ⟨a / 2, 1, ?_, by norm_num, by norm_num, ?_⟩
    · rw [abs_lt]
      rcases abs_choice a with h | h <;> rw [h] at h1 <;> constructor <;> omega
    · conv_lhs => rw [hs]
      push_cast
      ring

theorem ofRat_int {a : ℤ} (h0 : a ≠ 0) (h : |a| ≤ 2 ^ 53) : ofRat (a : ℚ) = .fin a (rep_int h0 h) := by
  unfold ofRat
  rw [if_neg (by exact_mod_cast h0), round_exact (rep_int h0 h)]

/-- The rounded quotient of two integers up to 2^53 lies between the same integers as the exact one. -/
theorem round_quot {a b : ℤ} (ha : 0 < a) (ha2 : a ≤ 2 ^ 53) (hb : 0 < b) (hb2 : b ≤ 2 ^ 53) :
    ∃ r h, round ((a : ℚ) / b) = .fin r h ∧ ⌊r⌋ = a / b ∧ ⌈r⌉ = -(-a / b) := by
  have hbq : (0 : ℚ) < b := by exact_mod_cast hb
  have haq : (0 : ℚ) < a := by exact_mod_cast ha
  have hab : a / b ≤ a := Int.ediv_le_self _ ha.le
  by_cases hd : b ∣ a
  · obtain ⟨k, rfl⟩ := hd
    have hk : 0 < k := by
      by_contra h
      have : b * k ≤ 0 := mul_nonpos_of_nonneg_of_nonpos hb.le (by omega)
      omega
    rw [Int.mul_ediv_cancel_left _ hb.ne'] at hab
    have hk2 : |k| ≤ 2 ^ 53 := by rw [abs_of_pos hk]; omega
    have hq : ((b * k : ℤ) : ℚ) / b = k := by push_cast; field_simp
    refine ⟨k, rep_int hk.ne' hk2, ?_, ?_, ?_⟩
    · rw [hq, round_exact (rep_int hk.ne' hk2)]
    · rw [Int.floor_intCast, Int.mul_ediv_cancel_left _ hb.ne']
    · rw [Int.ceil_intCast, ← mul_neg, Int.mul_ediv_cancel_left _ hb.ne', neg_neg]
  · obtain ⟨q, hqd⟩ : ∃ q : ℚ, q = a / b := ⟨_, rfl⟩
    obtain ⟨k, hkd⟩ : ∃ k : ℤ, k = a / b := ⟨_, rfl⟩
    have hqpos : 0 < q := by rw [hqd]; exact div_pos haq hbq
    have hqb : q * b = a := by rw [hqd]; field_simp
    have hmod := Int.emod_add_mul_ediv a b
    have hm0 : 0 < a % b := lt_of_le_of_ne (Int.emod_nonneg _ hb.ne') (fun h => hd (Int.dvd_of_emod_eq_zero h.symm))
    have hm1 := Int.emod_lt_of_pos a hb
    rw [← hkd] at hmod hab
    have hk0 : 0 ≤ k := by rw [hkd]; exact Int.ediv_nonneg ha.le hb.le
    have hlo : (k : ℚ) * b + 1 ≤ a := by
      have : k * b + 1 ≤ a := by linarith [mul_comm b k]
      exact_mod_cast this
    have hhi : (a : ℚ) + 1 ≤ (k + 1) * b := by
      have : a + 1 ≤ (k + 1) * b := by linarith [mul_comm b k, add_mul k 1 b]
      exact_mod_cast this
    have hkq : (k : ℚ) < q := by rw [hqd, lt_div_iff₀ hbq]; linarith
    have hqk : q < k + 1 := by rw [hqd, div_lt_iff₀ hbq]; linarith
    have ha2q : (a : ℚ) ≤ 2 ^ 53 := by exact_mod_cast ha2
    have hb2q : (b : ℚ) ≤ 2 ^ 53 := by exact_mod_cast hb2
    have hb1q : (1 : ℚ) ≤ b := by exact_mod_cast hb
    have ha1q : (1 : ℚ) ≤ a := by exact_mod_cast ha
    -- the exponent
    have he1 : -1074 < expo q := by
      by_contra h
      have h1 := abs_lt_expo (q := q)
      have h2 : (2 : ℚ) ^ (expo q + 53) ≤ 2 ^ (-53 : ℤ) := zpow_le_zpow_right₀ (by norm_num) (by omega)
      rw [abs_of_pos hqpos] at h1
      have h3 : (2 : ℚ) ^ (-53 : ℤ) * 2 ^ 53 = 1 := by norm_num
      have h4 : q * b ≤ q * 2 ^ 53 := mul_le_mul_of_nonneg_left hb2q hqpos.le
      have h5 : q * 2 ^ 53 < 2 ^ (-53 : ℤ) * 2 ^ 53 := mul_lt_mul_of_pos_right (h1.trans_le h2) (by norm_num)
      linarith
    have hel := expo_le_abs hqpos.ne' he1
    rw [abs_of_pos hqpos] at hel
    have he0 : expo q ≤ 0 := by
      by_contra h
      have h2 : (2 : ℚ) ^ (53 : ℤ) ≤ 2 ^ (expo q + 52) := zpow_le_zpow_right₀ (by norm_num) (by omega)
      have h3 : q * 1 ≤ q * b := mul_le_mul_of_nonneg_left hb1q hqpos.le
      have h4 : (2 : ℚ) ^ (53 : ℤ) = 2 ^ 53 := by norm_num
      have h5 : q = 2 ^ 53 := by linarith
      have h6 : q = ((2 ^ 53 : ℤ) : ℚ) := by rw [h5]; norm_num
      rw [h6] at hkq hqk
      have h7 : k < 2 ^ 53 := by exact_mod_cast hkq
      have h8 : (2 : ℤ) ^ 53 < k + 1 := by exact_mod_cast hqk
      omega
    obtain ⟨n, hn⟩ := Int.eq_ofNat_of_zero_le (show 0 ≤ -expo q by omega)
    have hE : (2 : ℚ) ^ expo q * 2 ^ n = 1 := by
      rw [← zpow_natCast, ← zpow_add₀ (by norm_num)]
      rw [show expo q + (n : ℤ) = 0 by omega, zpow_zero]
    have hEpos := two_pos (expo q)
    have hdiv : q / 2 ^ expo q = q * 2 ^ n := by
      rw [div_eq_iff hEpos.ne', mul_assoc, mul_comm ((2 : ℚ) ^ n), hE, mul_one]
    have hnpos : (0 : ℚ) < 2 ^ n := by positivity
    obtain ⟨m, hmd⟩ : ∃ m, m = mant q := ⟨_, rfl⟩
    have hm : m = nearest (q * 2 ^ n) := by rw [hmd, mant, hdiv]
    have hmlo : k * 2 ^ n ≤ m := by
      rw [hm]; apply nearest_ge; push_cast
      exact mul_le_mul_of_nonneg_right hkq.le hnpos.le
    have hmhi : m ≤ (k + 1) * 2 ^ n := by
      rw [hm]; apply nearest_le; push_cast
      exact mul_le_mul_of_nonneg_right hqk.le hnpos.le
    have hnear := nearest_near (q * 2 ^ n)
    rw [← hm, abs_le] at hnear
    -- no integer is hit
    have hbad : ¬ (2 : ℚ) * 2 ^ n ≤ b := by
      intro h
      -- 2 ^ 52 ≤ q * 2 ^ n
      have h1 : (2 : ℚ) ^ 52 ≤ q * 2 ^ n := by
        have : (2 : ℚ) ^ (expo q + 52) * 2 ^ n = 2 ^ 52 := by
          rw [zpow_add₀ (by norm_num), mul_right_comm, hE, one_mul]
          norm_num
        rw [← this]
        exact mul_le_mul_of_nonneg_right hel hnpos.le
      have h2 : q * (2 * 2 ^ n) ≤ q * b := mul_le_mul_of_nonneg_left h hqpos.le
      have h3 : (a : ℚ) = 2 ^ 53 := by nlinarith
      have h4 : q * b = q * (2 * 2 ^ n) := by nlinarith
      have h5 : (b : ℚ) = 2 * 2 ^ n := mul_left_cancel₀ hqpos.ne' h4
      have h6 : b = 2 ^ (n + 1) := by
        have : (b : ℚ) = ((2 ^ (n + 1) : ℤ) : ℚ) := by rw [h5]; push_cast; ring
        exact_mod_cast this
      have h7 : a = 2 ^ 53 := by exact_mod_cast h3
      have h8 : n + 1 ≤ 53 := by
        rw [h6] at hb2
        exact (pow_le_pow_iff_right₀ (by norm_num : (1 : ℤ) < 2)).mp hb2
      exact hd (by rw [h6, h7]; exact pow_dvd_pow _ h8)
    have hkb : (q - k) * b ≥ 1 := by rw [sub_mul, hqb]; linarith
    have hkb' : (k + 1 - q) * b ≥ 1 := by rw [sub_mul, hqb]; linarith
    have hne1 : m ≠ k * 2 ^ n := by
      intro h
      have h1 : (m : ℚ) = k * 2 ^ n := by rw [h]; push_cast; ring
      rw [h1] at hnear
      have h2 : (q - k) * 2 ^ n ≤ 1 / 2 := by linarith [hnear.1]
      apply hbad
      have h3 : 0 < q - k := by linarith
      have : (q - k) * (2 * 2 ^ n) ≤ (q - k) * b := by linarith
      exact le_of_mul_le_mul_left this h3
    have hne2 : m ≠ (k + 1) * 2 ^ n := by
      intro h
      have h1 : (m : ℚ) = (k + 1) * 2 ^ n := by rw [h]; push_cast; ring
      rw [h1] at hnear
      have h2 : (k + 1 - q) * 2 ^ n ≤ 1 / 2 := by linarith [hnear.2]
      apply hbad
      have h3 : 0 < k + 1 - q := by linarith
      have : (k + 1 - q) * (2 * 2 ^ n) ≤ (k + 1 - q) * b := by linarith
      exact le_of_mul_le_mul_left this h3
    obtain ⟨r, hr⟩ : ∃ r : ℚ, r = m * 2 ^ expo q := ⟨_, rfl⟩
    have hrm : r * 2 ^ n = m := by rw [hr, mul_assoc, hE, mul_one]
    have hrlo : (k : ℚ) < r := by
      have : (k : ℚ) * 2 ^ n < r * 2 ^ n := by
        rw [hrm]
        exact_mod_cast lt_of_le_of_ne hmlo (Ne.symm hne1)
      exact lt_of_mul_lt_mul_right this hnpos.le
    have hrhi : r < k + 1 := by
      have : r * 2 ^ n < (k + 1) * 2 ^ n := by
        rw [hrm]
        exact_mod_cast lt_of_le_of_ne hmhi hne2
      exact lt_of_mul_lt_mul_right this hnpos.le
    have hk0q : (0 : ℚ) ≤ k := by exact_mod_cast hk0
    have hm0' : mant q ≠ 0 := by
      rw [← hmd]
      rintro h
      rw [h] at hr
      simp only [Int.cast_zero, zero_mul] at hr
      linarith
    have hbig : |(mant q : ℚ) * 2 ^ expo q| < 2 ^ (1024 : ℤ) := by
      rw [← hmd, ← hr, abs_of_pos (by linarith)]
      have h1 : (k : ℚ) ≤ 2 ^ 53 := by exact_mod_cast hab.trans ha2
      have h2 : (2 : ℚ) ^ (54 : ℤ) ≤ 2 ^ (1024 : ℤ) := zpow_le_zpow_right₀ (by norm_num) (by norm_num)
      have h3 : (2 : ℚ) ^ (54 : ℤ) = 2 ^ 53 + 2 ^ 53 := by norm_num
      have h4 : (1 : ℚ) < 2 ^ 53 := by norm_num
      have h5 : r < 2 ^ 53 + 2 ^ 53 := by linarith
      rw [← h3] at h5
      exact h5.trans_le h2
    refine ⟨(mant q : ℚ) * 2 ^ expo q, rep_round hm0' hbig, ?_, ?_, ?_⟩
    · rw [← hqd]
      unfold round
      rw [dif_neg hm0', dif_pos hbig]
    · rw [← hmd, ← hr, ← hkd, Int.floor_eq_iff]
      exact ⟨hrlo.le, hrhi⟩
    · rw [← hmd, ← hr]
      have h1 : -a / b = -(k + 1) := by
        rw [Int.ediv_eq_iff_of_pos hb]
        constructor <;> linarith [mul_comm b k, add_mul k 1 b, neg_mul (k + 1) b]
      rw [h1, neg_neg, Int.ceil_eq_iff]
      push_cast
      exact ⟨by linarith, hrhi.le⟩

theorem convert_div {L : Lib} {a b : ℤ} (ha : 0 ≤ a) (ha2 : a ≤ 2 ^ 53) (hb : 0 < b) (hb2 : b ≤ 2 ^ 53) :
    convert L (fun q => ⌊q⌋) ((ofRat a).div (ofRat b)) = a / b ∧ convert L (fun q => ⌈q⌉) ((ofRat a).div (ofRat b)) = -(-a / b) := by
  have hb' : |b| ≤ 2 ^ 53 := by rw [abs_of_pos hb]; exact hb2
  rw [ofRat_int hb.ne' hb']
  rcases ha.eq_or_lt with rfl | ha
  · have h0 : ofRat ((0 : ℤ) : ℚ) = .zero false := by unfold ofRat; simp
    rw [h0]
    simp [B64.div, B64.val, convert, toInt]
  · have ha' : |a| ≤ 2 ^ 53 := by rw [abs_of_pos ha]; exact ha2
    rw [ofRat_int ha.ne' ha']
    obtain ⟨r, h, e, e1, e2⟩ := round_quot ha ha2 hb hb2
    have hdiv : (B64.fin (a : ℚ) (rep_int ha.ne' ha')).div (.fin b (rep_int hb.ne' hb')) = .fin r h := by
      rw [← e]
      exact if_neg (rep_int ha.ne' ha').1
    rw [hdiv]
    have h1 : 0 ≤ a / b := Int.ediv_nonneg ha.le hb.le
    have h2 : a / b ≤ a := Int.ediv_le_self _ ha.le
    have h3 : -a ≤ -a / b := by
      rw [Int.le_ediv_iff_mul_le hb]
      have : a * 1 ≤ a * b := mul_le_mul_of_nonneg_left hb ha.le
      linarith [neg_mul a b]
    have h4 : -a / b ≤ 0 := Int.ediv_nonpos_of_nonpos_of_neg (by omega) hb
    simp only [convert, toInt, e1, e2]
    constructor <;> rw [if_pos (by omega)]

/-- Division of integers through floats. -/
theorem float64IntDiv (L : Lib) : @FloatIntDiv B64 (float64 L) :=
  letI := float64 L
  { floor_div := fun _ _ h1 h2 h3 h4 => (convert_div h1 h2 h3 h4).1
    ceil_div := fun _ _ h1 h2 h3 h4 => (convert_div h1 h2 h3 h4).2 }

end Goslide.Binary64
