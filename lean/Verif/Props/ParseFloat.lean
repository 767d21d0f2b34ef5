import Verif.Proofs.ParseFloat
import Verif.Proofs.Binary64Range
import Verif.Props.Binary64
import Verif.Props.Json
import Verif.Props.Xcrepo
/-
The texts of floating-point numbers: C92.
-/
set_option linter.unusedSectionVars false
namespace Goslide.Props
open Goslide Binary64 ParseFloat Configuration Spec Spec.Float Xcrepo

theorem magnitude_nonneg {t : Bytes} {v : ℚ} {n : Nat} (h : Magnitude t v n) : 0 ≤ v := by
  have hM : ∀ {b : Nat} {t : Bytes} {v : ℚ}, Mantissa b t v → 0 ≤ v := by
    rintro b t v ⟨int, frac, m, -, -, -, rfl⟩
    positivity
  cases h with
  | plain t v h => exact hM h
  | dec t x v n e h _ => exact mul_nonneg (hM h) (zpow_nonneg (by norm_num) _)
  | hex p t x v n e _ h _ => exact mul_nonneg (hM h) (zpow_nonneg (by norm_num) _)

/-- The exact value with its sign. -/
def signed (neg : Bool) (v : ℚ) : ℚ := if neg then -v else v

theorem abs_signed (neg : Bool) {v : ℚ} (h : 0 ≤ v) : |signed neg v| = v := by
  unfold signed
  split
  · rw [abs_neg, abs_of_nonneg h]
  · exact abs_of_nonneg h

theorem signed_neg {neg : Bool} {v : ℚ} (h : 0 < v) : decide (signed neg v < 0) = neg := by
  unfold signed
  cases neg
  · simp [h.le]
  · simp [h]

/-- C92: a number (with an exponent below 100000) is read as the nearest float64. Zero keeps its sign, as does what is too small; from
`2^1024 - 2^970` on it is an error. -/
theorem C92_value {bs : Bytes} {neg : Bool} {v : ℚ} {n : Nat} (h : Spec.Float.Number bs neg v n) (hn : n < 100000) :
    0 ≤ v ∧
    (v ≤ 2 ^ (-1075 : ℤ) → parseFloat bs = some (.zero neg)) ∧
    (2 ^ (1024 : ℤ) - 2 ^ (970 : ℤ) ≤ v → parseFloat bs = none) ∧
    (2 ^ (-1075 : ℤ) < v → v < 2 ^ (1024 : ℤ) - 2 ^ (970 : ℤ) → ∃ r hr, parseFloat bs = some (.fin r hr) ∧
      (∀ s, Rep s → |signed neg v - r| ≤ |signed neg v - s|) ∧ ∃ m : ℤ, r = m * (2 : ℚ) ^ expo (signed neg v) ∧
        |signed neg v - r| ≤ 2 ^ expo (signed neg v) / 2 ∧ (|signed neg v - r| = 2 ^ expo (signed neg v) / 2 → m % 2 = 0)) := by
  have h0 : 0 ≤ v := by obtain ⟨s, t, -, -, -, hm⟩ := h; exact magnitude_nonneg hm
  have hp := parse_value h hn
  have habs := abs_signed neg h0
  have hne : v ≠ 0 → signed neg v ≠ 0 := fun hv e => hv (by rw [← habs, e, abs_zero])
  have hres : v ≠ 0 → parseFloat bs = match Binary64.round (signed neg v) with
      | .inf _ => none
      | x => some x := by
    intro hv
    rw [hp]
    unfold result signed
    rw [if_neg hv]
    rfl
  have p1 := two_pos (-1075)
  have p2 : (0 : ℚ) < 2 ^ (1024 : ℤ) - 2 ^ (970 : ℤ) := sub_pos.mpr (pow_lt_iff.mpr (by norm_num))
  refine ⟨h0, fun hv => ?_, fun hv => ?_, fun h1 h2 => ?_⟩
  · rcases h0.eq_or_lt with e | hpos
    · rw [hp, ← e]; rfl
    · rw [hres hpos.ne']
      have := (mant_zero_iff (hne hpos.ne')).mpr (by rw [habs]; exact hv)
      unfold Binary64.round
      rw [dif_pos this, signed_neg hpos]
  · have hpos := p2.trans_le hv
    rw [hres hpos.ne']
    have hb : ¬ |(mant (signed neg v) : ℚ) * 2 ^ expo (signed neg v)| < 2 ^ (1024 : ℤ) := by
      rw [mant_lt_iff (hne hpos.ne'), habs]; exact not_lt.mpr hv
    have hm : mant (signed neg v) ≠ 0 := by
      intro e
      rw [e, Int.cast_zero, zero_mul, abs_zero] at hb
      exact hb (two_pos _)
    unfold Binary64.round
    rw [dif_neg hm, dif_neg hb]
  · have hpos := p1.trans h1
    have hb : |(mant (signed neg v) : ℚ) * 2 ^ expo (signed neg v)| < 2 ^ (1024 : ℤ) := by
      rw [mant_lt_iff (hne hpos.ne'), habs]; exact h2
    have hm : mant (signed neg v) ≠ 0 := by
      rw [Ne, mant_zero_iff (hne hpos.ne'), habs]; exact not_le.mpr h1
    have hround : Binary64.round (signed neg v) = .fin _ (rep_round hm hb) := by
      unfold Binary64.round
      rw [dif_neg hm, dif_pos hb]
    refine ⟨_, rep_round hm hb, ?_, C77_nearest (hne hpos.ne') hround⟩
    rw [hres hpos.ne', hround]

/-- C92: the words `nan`, `inf` and `infinity` are read in any case of letters; what is no word and no number is an error. -/
theorem C92_syntax (bs : Bytes) :
    (∀ x, Word bs x → parseFloat bs = some x) ∧
    ((¬ ∃ x, Word bs x) → (¬ ∃ neg v n, Spec.Float.Number bs neg v n) → parseFloat bs = none) :=
  ⟨fun _ h => parse_word h, parse_rejects⟩

/-- C92: every float64, also NaN, the infinities and the zeros, has a text that is read back. -/
theorem C92_roundtrip (x : B64) : parseFloat (show64 x) = some x := parse_show x

theorem digit_chars {ds : Bytes} (h : ∀ c ∈ ds, IsDigit c) : ∀ c : UInt8, ¬ IsDigit c → c ∉ ds := fun c hc hm => hc (h c hm)

theorem show64_plain (x : B64) : PlainToken (show64 x) := by
  cases x with
  | nan => exact ⟨by decide, by decide, by decide, by decide⟩
  | inf neg => cases neg <;> exact ⟨by decide, by decide, by decide, by decide⟩
  | zero neg => cases neg <;> exact ⟨by decide, by decide, by decide, by decide⟩
  | fin q h =>
    have key : ∀ c : UInt8, ¬ IsDigit c → c ≠ 101 → c ≠ 45 → c ∉ showExact q := by
      intro c hc h1 h2 hm
      have nd : ∀ n, c ∉ showNat n := fun n => digit_chars (showNat_numeral n).2.2 c hc
      unfold showExact at hm
      dsimp only at hm
      simp only [List.mem_append, List.mem_cons, List.not_mem_nil, or_false] at hm
      rcases hm with ((hm | hm) | hm | hm) | hm
      · split at hm <;> simp_all
      · exact nd _ hm
      · exact h1 hm
      · exact h2 hm
      · exact nd _ hm
    exact ⟨key _ (by unfold IsDigit; decide) (by decide) (by decide), key _ (by unfold IsDigit; decide) (by decide) (by decide),
      key _ (by unfold IsDigit; decide) (by decide) (by decide), key _ (by unfold IsDigit; decide) (by decide) (by decide)⟩

/-- C92, data files: any examples with float64 values (infinite ones and NaN too) that are written to a file are read from it. -/
theorem C92_data_file (L : Lib) (points nF nL : Nat) (hP : 0 < points ∧ points < 2 ^ 63) (hF : 0 < nF ∧ nF < 2 ^ 63) (hL : 0 < nL ∧ nL < 2 ^ 63)
    (es : List (Example B64)) (lines : List (Bytes × Bytes))
    (hes : ∀ e ∈ es, e.Features ≠ [] ∧ (∀ p ∈ e.Features, 0 ≤ p.Index ∧ p.Index < nF) ∧ (∀ l ∈ e.Labels, 0 ≤ l ∧ l < (nL : Int)))
    (hlines : lines.map (·.1) = showHeader points nF nL :: es.map (showExample show64))
    (heols : ∀ l ∈ lines.dropLast, IsEol l.2) (hlast : ∀ l ∈ lines.getLast?, IsEol l.2 ∨ l.2 = []) (hlen : ∀ l ∈ lines, l.1.length < 65535) :
    let _ := float64 L
    let s := (newScanner (fileOf lines) : Scanner B64)
    s.Err = none ∧ s.totalPoints = points ∧ s.numFeatures = nF ∧ s.numLabels = nL ∧
    ∃ s', Delivers (scan parseFloat) Scanner.ex s es s' ∧ (scan parseFloat s').1 = false ∧ (scan parseFloat s').2.Err = none := by
  intro _
  refine C33_roundtrip parseFloat show64 points nF nL hP hF hL es lines (fun e he => ?_) hlines heols hlast hlen
  obtain ⟨h1, h2, h3⟩ := hes e he
  exact ⟨h1, fun p hp => ⟨(h2 p hp).1, (h2 p hp).2, parse_show _, show64_plain _⟩, h3⟩

/-- Not infinite and not NaN. -/
def Finite : B64 → Prop
  | .nan => False
  | .inf _ => False
  | _ => True

theorem show64_json {x : B64} (h : Finite x) : Spec.Json.Number (show64 x) := by
  cases x with
  | nan => exact absurd h id
  | inf => exact absurd h id
  | zero neg =>
    cases neg with
    | false => exact ⟨[], [48], [], [], rfl, .inl rfl, .inl rfl, .inl rfl, .inl rfl⟩
    | true => exact ⟨[45], [48], [], [], rfl, .inr rfl, .inl rfl, .inl rfl, .inl rfl⟩
  | fin q hq =>
    have hn : 0 < q.num.natAbs * 5 ^ Nat.log 2 q.den := by
      have : 0 < q.num.natAbs := Int.natAbs_pos.mpr (by simpa using hq.1)
      positivity
    refine ⟨if q < 0 then [45] else [], showNat (q.num.natAbs * 5 ^ Nat.log 2 q.den), [], [101, 45] ++ showNat (Nat.log 2 q.den), ?_, ?_, .inr ?_, .inl rfl,
      .inr ⟨101, [45], showNat (Nat.log 2 q.den), rfl, .inl rfl, .inr (.inr rfl), (showNat_numeral _).2⟩⟩
    · rw [List.append_nil, ← List.append_assoc]; rfl
    · split
      · exact .inr rfl
      · exact .inl rfl
    · exact ⟨(showNat_numeral _).2, showDigits_head _ _ (by omega) hn⟩

/-- Values that a JSON file can hold. -/
def JsonValue (text : Bytes → List Char) : Val B64 → Prop
  | .ints l => ∀ n ∈ l, -(2 : Int) ^ 63 ≤ n ∧ n < (2 : Int) ^ 63
  | .floats l => ∀ x ∈ l, Finite x
  | .int n => -(2 : Int) ^ 63 ≤ n ∧ n < (2 : Int) ^ 63
  | .int8 n => -128 ≤ n ∧ n ≤ 127
  | .float x => Finite x
  | .str s => (text s).flatMap String.utf8EncodeChar = s
  | .bool _ => True

/-- C92, configurations: a configuration with finite float64 values that is written to a file is read from it. -/
theorem C92_config (L : Lib) (text : Bytes → List Char) (c : Config B64) (h : ∀ f : Field, JsonValue text (c.get f)) :
    let _ := float64 L
    fromJsonFile parseFloat Json.parse (some (Spec.Json.showConfig text show64 c)) = some c := by
  intro _
  refine C91_roundtrip parseFloat text show64 c (fun f => ?_)
  have hf := h f
  generalize c.get f = v at hf
  cases v with
  | ints l => exact hf
  | floats l => exact fun x hx => ⟨show64_json (hf x hx), parse_show x⟩
  | int n => exact hf
  | int8 n => exact hf
  | float x => exact ⟨show64_json hf, parse_show x⟩
  | str s => exact hf
  | bool b => exact hf

/-- C92: a number of a JSON text is a number for `ParseFloat`, too. -/
theorem C92_json {lit : Bytes} (h : Spec.Json.Number lit) : ∃ neg v n, Spec.Float.Number lit neg v n := json_number h

/-- `0.00…01e100000` with 20001 digits behind the point. -/
def huge : Bytes := ([48, 46] ++ List.replicate 20000 48 ++ [49]) ++ bytes "e100000"

theorem huge_mantissa : Mantissa 10 ([48, 46] ++ List.replicate 20000 48 ++ [49]) (1 / 10 ^ 20001) := by
  have zeros : ∀ n, Numeral 10 (List.replicate n 48) 0 := by
    intro n
    induction n with
    | zero => exact .nil
    | succ n ih =>
      rw [List.replicate_succ']
      exact .snoc _ 0 48 0 ih ⟨by decide, .inl ⟨by decide, by decide⟩⟩
  refine ⟨[48], List.replicate 20000 48 ++ [49], 1, .inl ?_, List.cons_ne_nil _ _, ?_, ?_⟩
  · rw [List.append_assoc]; rfl
  · have := Numeral.snoc _ 0 49 1 (zeros 20001) ⟨by decide, .inl ⟨by decide, by decide⟩⟩
    rw [List.replicate_succ] at this
    rw [← List.append_assoc]
    exact this
  · rw [List.length_append, List.length_replicate]; simp

/-- C92, the limit on the exponent is needed: `huge` is a number far beyond the range of float64 and is read as 0 without an error (the
digits of the exponent after 10000 are ignored). -/
theorem C92_huge_exponent : (∃ v n, Spec.Float.Number huge false v n ∧ 2 ^ (1024 : ℤ) ≤ v) ∧ parseFloat huge = some (.zero false) := by
  have hE : Exponent 101 69 (bytes "e100000") 100000 (100000 : ℤ) :=
    ⟨101, [], bytes "100000", rfl, .inl rfl, by decide, numeral_of_digits (ds := bytes "100000") (by unfold IsDigit; decide), .inl ⟨.inl rfl, rfl⟩⟩
  have hm := Magnitude.dec _ _ _ _ _ huge_mantissa hE
  have h95 : 95 ∉ huge := by
    unfold huge
    simp only [List.mem_append, List.mem_replicate, not_or]
    exact ⟨⟨⟨by decide, by decide⟩, by decide⟩, by decide⟩
  have hnum := plain_number (s := []) (neg := false) (.inl ⟨.inl rfl, rfl⟩) h95 hm
  refine ⟨⟨_, _, hnum, ?_⟩, ?_⟩
  · have e : (1 : ℚ) / 10 ^ 20001 * 10 ^ (100000 : ℤ) = 10 ^ 79999 := by
      rw [show (100000 : ℤ) = ((20001 + 79999 : ℕ) : ℤ) by norm_num, zpow_natCast, pow_add, ← mul_assoc, div_mul_cancel₀ _ (by positivity), one_mul]
    rw [e, show (1024 : ℤ) = ((1024 : ℕ) : ℤ) by norm_num, zpow_natCast]
    exact (pow_le_pow_left₀ (by norm_num) (by norm_num) 1024).trans (pow_le_pow_right₀ (by norm_num) (by norm_num))
  · have hfilter : huge.filter (· != 95) = huge := List.filter_eq_self.mpr (fun c hc => by simpa using fun e : c = 95 => h95 (e ▸ hc))
    obtain ⟨h1, h2⟩ := number_sign (s := []) (neg := false) (t := huge) (.inl ⟨.inl rfl, rfl⟩) (by rw [hfilter]; exact hm)
    rw [List.nil_append] at h1 h2
    have hsep : Separated huge := fun a b e => absurd (by rw [e]; simp) h95
    obtain ⟨m, k, hmant, hv⟩ := mantissa_complete (.inl rfl) huge_mantissa (r := bytes "e100000")
      (fun c r e => by cases e; decide) (fun r e => by cases e)
    have hx : isHex huge = false := rfl
    have hmg : magnitude huge = some (1 / 10 ^ 20001 * 10 ^ (10000 : ℤ)) := by
      unfold magnitude
      rw [hx, if_neg (by decide)]
      rw [show huge = ([48, 46] ++ List.replicate 20000 48 ++ [49]) ++ bytes "e100000" from rfl, hmant, Option.bind_some]
      dsimp only
      rw [if_neg (by decide), show exponent 101 69 (bytes "e100000") = some 10000 by decide, Option.map_some]
      rw [← hv]
      rfl
    have hv0 : (1 : ℚ) / 10 ^ 20001 * 10 ^ (10000 : ℤ) = 1 / 10 ^ 10001 := by
      rw [show (10000 : ℤ) = ((10000 : ℕ) : ℤ) by norm_num, zpow_natCast, show (20001 : ℕ) = 10001 + 10000 by norm_num, pow_add]
      field_simp
    have hpos : (0 : ℚ) < 1 / 10 ^ 10001 := by positivity
    unfold parseFloat
    rw [h2, h1]
    dsimp only
    rw [check_iff.mpr hsep, hfilter, hmg, hv0]
    rw [if_neg (by decide), Option.bind_some, if_neg hpos.ne']
    have hz : mant (1 / 10 ^ 10001) = 0 := by
      rw [mant_zero_iff hpos.ne', abs_of_pos hpos, zpow_neg, show (1075 : ℤ) = ((1075 : ℕ) : ℤ) by norm_num, zpow_natCast, one_div]
      refine inv_anti₀ (by positivity) ?_
      exact (pow_le_pow_left₀ (by norm_num) (by norm_num) 1075).trans (pow_le_pow_right₀ (by norm_num) (by norm_num))
    rw [if_neg (by decide)]
    unfold Binary64.round
    rw [dif_pos hz, decide_eq_false (not_lt.mpr hpos.le)]

-- texts and their values: the fraction 1/8 as 0.125, 125e-3 and 0x1p-3, with an underscore, with a sign
example : magnitude (bytes "0.125") = some (1 / 8) ∧ magnitude (bytes "125E-3") = some (1 / 8) ∧ magnitude (bytes "0x1p-3") = some (1 / 8) ∧
    magnitude (bytes ".5") = some (1 / 2) ∧ magnitude (bytes "5.") = some 5 := by decide +kernel
-- what is no number
example : ((["", ".", "e5", "1e", "1e+", "0x1", "1.2.3", "1 ", "+-1", "1_", "_1", "1__0", "nane", "+nan", "infin", "0b1"] : List String).map
    (fun t => (parseFloat (bytes t)).isNone)).all id = true := by decide +kernel
-- words, the underscore, the smallest number, and what is too large or too small
example : parseFloat (bytes "-INFINITY") = some (.inf true) ∧ parseFloat (bytes "NaN") = some .nan := by
  exact ⟨(C92_syntax _).1 _ (.inf [45] (bytes "INFINITY") true (.inr ⟨rfl, rfl⟩) (.inr ((map_lower_iff (by decide)).mp (by decide)))),
    (C92_syntax _).1 _ (.nan _ ((map_lower_iff (by decide)).mp (by decide)))⟩
example : (parseFloat (bytes "1_000.5")).map B64.val = some (2001 / 2) ∧ (parseFloat (bytes "5e-324")).map B64.val = some (1 / 2 ^ 1074) ∧
    (parseFloat (bytes "1e400")).isNone = true ∧ (parseFloat (bytes "-1e-400")).map B64.sign = some true ∧ (parseFloat (bytes "-1e-400")).map B64.val = some 0 := by
  decide +kernel
-- the learning rate 0.0001 of the default configuration is not exactly 1/10000
example : (parseFloat (bytes "0.0001")).map B64.val = some (7378697629483821 / 2 ^ 66) := by decide +kernel
-- exact texts
example : showExact (1 / 8) = bytes "125e-3" ∧ showExact (-3 / 2) = bytes "-15e-1" ∧ showExact 40 = bytes "40e-0" := by decide +kernel

end Goslide.Props
