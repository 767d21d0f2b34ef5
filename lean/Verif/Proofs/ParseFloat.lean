import Verif.Model.ParseFloat
import Verif.Spec.ParseFloat
import Verif.Proofs.Json
import Verif.Proofs.Strings
import Verif.Proofs.Binary64
import Mathlib.Data.Nat.Prime.Basic
/-
`ParseFloat` against the grammar of Spec/ParseFloat.lean.
-/
namespace Goslide.ParseFloat
open Binary64 Spec Spec.Float

theorem fraction_cons (b n : Nat) (c : UInt8) (r : Bytes) : fraction b n (c :: r) = if c = 46 then numeral b n r else (n, 0, c :: r) := rfl
theorem exponent_cons (a b c : UInt8) (r : Bytes) : exponent a b (c :: r) = if c = a ∨ c = b then expSigned r else none := rfl
theorem expSigned_cons (s : UInt8) (ds : Bytes) : expSigned (s :: ds) = if s = 43 then (expNat ds).map (fun e : Nat => Int.ofNat e)
    else if s = 45 then (expNat ds).map (fun e : Nat => -Int.ofNat e) else (expNat (s :: ds)).map (fun e : Nat => Int.ofNat e) := rfl

theorem digit_iff {b : Nat} (hb : b = 10 ∨ b = 16) {c : UInt8} {v : Nat} : digit b c = some v ↔ DigitOf b c v := by
  unfold digit DigitOf Spec.Json.Hex
  have := c.toNat_lt
  rcases hb with rfl | rfl
  · simp only [show ¬ ((10 : Nat) = 16) by decide, false_and, if_false]
    split
    · rw [Option.some.injEq]; omega
    · simp only [reduceCtorEq, false_iff]; omega
  · simp only [true_and]
    split
    · rw [Option.some.injEq]; omega
    · split
      · rw [Option.some.injEq]; omega
      · split
        · rw [Option.some.injEq]; omega
        · simp only [reduceCtorEq, false_iff]; omega

theorem digit_unique {b : Nat} {c : UInt8} {v v' : Nat} (h : DigitOf b c v) (h' : DigitOf b c v') : v = v' := by
  unfold DigitOf Spec.Json.Hex at *; omega

/-- Digits appended to `acc`. -/
inductive Digs (b : Nat) : Nat → Bytes → Nat → Prop
  | nil (acc : Nat) : Digs b acc [] acc
  | cons (acc : Nat) (c : UInt8) (v : Nat) (ds : Bytes) (n : Nat) : DigitOf b c v → Digs b (acc * b + v) ds n → Digs b acc (c :: ds) n

theorem Digs.snoc {b : Nat} {acc : Nat} {ds : Bytes} {n : Nat} {c : UInt8} {v : Nat} (h : Digs b acc ds n) (hd : DigitOf b c v) :
    Digs b acc (ds ++ [c]) (n * b + v) := by
  induction h with
  | nil acc => exact .cons _ _ _ _ _ hd (.nil _)
  | cons acc c v ds n h _ ih => exact .cons _ _ _ _ _ h ih

theorem Digs.append {b : Nat} {acc : Nat} {a c : Bytes} {n m : Nat} (h : Digs b acc a n) (h' : Digs b n c m) : Digs b acc (a ++ c) m := by
  induction h with
  | nil acc => exact h'
  | cons acc c v ds n h _ ih => exact .cons _ _ _ _ _ h (ih h')

theorem digs_split {b : Nat} {c : Bytes} : ∀ {a : Bytes} {acc m : Nat}, Digs b acc (a ++ c) m → ∃ n, Digs b acc a n ∧ Digs b n c m
  | [], _, _, h => ⟨_, .nil _, h⟩
  | _ :: a, _, _, h => by
    cases h with
    | cons _ _ v _ _ hd h =>
      obtain ⟨n, h1, h2⟩ := digs_split (a := a) h
      exact ⟨n, .cons _ _ _ _ _ hd h1, h2⟩

theorem numeral_digs {b : Nat} {ds : Bytes} {n : Nat} (h : Numeral b ds n) : Digs b 0 ds n := by
  induction h with
  | nil => exact .nil _
  | snoc ds n c v _ hd ih => exact ih.snoc hd

theorem digs_numeral' {b : Nat} {ds : Bytes} {acc n : Nat} (h : Digs b acc ds n) : ∀ {pre : Bytes}, Numeral b pre acc → Numeral b (pre ++ ds) n := by
  induction h with
  | nil acc => intro pre hp; rwa [List.append_nil]
  | cons acc c v ds n hd _ ih =>
    intro pre hp
    have := ih (hp.snoc _ _ _ _ hd)
    rwa [List.append_assoc] at this

theorem numeral_iff {b : Nat} {ds : Bytes} {n : Nat} : Numeral b ds n ↔ Digs b 0 ds n :=
  ⟨numeral_digs, fun h => by simpa using digs_numeral' h .nil⟩

/-- What stops the digits. -/
def Stops (b : Nat) (r : Bytes) : Prop := ∀ c r', r = c :: r' → digit b c = none

theorem numeral_sound {b : Nat} (hb : b = 10 ∨ b = 16) : ∀ (bs : Bytes) (acc : Nat), ∃ ds,
    bs = ds ++ (numeral b acc bs).2.2 ∧ Digs b acc ds (numeral b acc bs).1 ∧ ds.length = (numeral b acc bs).2.1 ∧ Stops b (numeral b acc bs).2.2
  | [], acc => ⟨[], rfl, .nil _, rfl, fun _ _ h => by cases h⟩
  | c :: cs, acc => by
    unfold numeral
    cases hd : digit b c with
    | none => exact ⟨[], rfl, .nil _, rfl, fun c' r' h => by cases h; exact hd⟩
    | some d =>
      obtain ⟨ds, h1, h2, h3, h4⟩ := numeral_sound hb cs (acc * b + d)
      exact ⟨c :: ds, congrArg (c :: ·) h1, .cons _ _ _ _ _ ((digit_iff hb).mp hd) h2, congrArg (· + 1) h3, h4⟩

theorem numeral_complete {b : Nat} (hb : b = 10 ∨ b = 16) {ds r : Bytes} {acc n : Nat} (h : Digs b acc ds n) (hr : Stops b r) :
    numeral b acc (ds ++ r) = (n, ds.length, r) := by
  induction h with
  | nil acc =>
    cases r with
    | nil => rfl
    | cons c r =>
      show numeral b acc (c :: r) = _
      unfold numeral
      rw [hr c r rfl]
      rfl
  | cons acc c v ds n hd _ ih =>
    show numeral b acc (c :: (ds ++ r)) = _
    unfold numeral
    rw [(digit_iff hb).mpr hd]
    simp only [ih]
    rfl

theorem point_stops (b : Nat) (r : Bytes) : Stops b (46 :: r) := by
  intro c r' h
  cases h
  unfold digit
  rw [if_neg (by decide), if_neg (by rintro ⟨-, h, -⟩; exact absurd h (by decide)), if_neg (by rintro ⟨-, h, -⟩; exact absurd h (by decide))]

theorem mantissa_sound {b : Nat} (hb : b = 10 ∨ b = 16) {bs r : Bytes} {m k : Nat} (h : mantissa b bs = some (m, k, r)) :
    ∃ t, bs = t ++ r ∧ Mantissa b t ((m : ℚ) / (b : ℚ) ^ k) := by
  unfold mantissa at h
  obtain ⟨ds, h1, h2, h3, h4⟩ := numeral_sound hb bs 0
  generalize hA : numeral b 0 bs = A at h h1 h2 h3 h4
  obtain ⟨a, ka, ra⟩ := A
  dsimp only at h h1 h2 h3 h4
  split at h
  · cases h
  · rename_i hne
    have h := Option.some.inj h
    have dot : ∀ r0, ra = 46 :: r0 → ∃ t, bs = t ++ r ∧ Mantissa b t ((m : ℚ) / (b : ℚ) ^ k) := by
      intro r0 e
      subst e
      change numeral b a r0 = _ at h
      obtain ⟨fs, g1, g2, g3, -⟩ := numeral_sound hb r0 a
      have hne : ¬ (ka + (numeral b a r0).2.1 = 0) := hne
      rw [h] at g1 g2 g3 hne
      refine ⟨ds ++ 46 :: fs, by rw [h1, g1]; simp, ds, fs, m, .inl rfl, ?_, numeral_iff.mpr (h2.append g2), by rw [g3]⟩
      intro e
      rw [List.append_eq_nil_iff] at e
      rw [e.1] at h3; rw [e.2] at g3
      exact hne (by rw [← h3, ← g3]; rfl)
    have nodot : fraction b a ra = (a, 0, ra) → ∃ t, bs = t ++ r ∧ Mantissa b t ((m : ℚ) / (b : ℚ) ^ k) := by
      intro e
      rw [e] at h hne
      injection h with h5 h6
      injection h6 with h6 h7
      subst h5 h6 h7
      refine ⟨ds, h1, ds, [], a, .inr ⟨rfl, rfl⟩, ?_, by rw [List.append_nil]; exact numeral_iff.mpr h2, rfl⟩
      rintro e
      rw [List.append_nil] at e
      rw [e] at h3
      exact hne (by rw [← h3]; rfl)
    cases ra with
    | nil => exact nodot rfl
    | cons c r0 =>
      by_cases hc : c = 46
      · subst hc; exact dot r0 rfl
      · exact nodot (by rw [fraction_cons, if_neg hc])

theorem mantissa_complete {b : Nat} (hb : b = 10 ∨ b = 16) {t r : Bytes} {v : ℚ} (h : Mantissa b t v) (hr : Stops b r) (hdot : ∀ r', r ≠ 46 :: r') :
    ∃ m k, mantissa b (t ++ r) = some (m, k, r) ∧ (m : ℚ) / (b : ℚ) ^ k = v := by
  obtain ⟨int, frac, m, ht, hne, hm, rfl⟩ := h
  obtain ⟨n, h1, h2⟩ := digs_split (numeral_iff.mp hm)
  refine ⟨m, frac.length, ?_, rfl⟩
  have hlen : ¬ (int.length + frac.length = 0) := by
    intro e
    exact hne (by rw [List.append_eq_nil_iff]; exact ⟨List.eq_nil_of_length_eq_zero (by omega), List.eq_nil_of_length_eq_zero (by omega)⟩)
  unfold mantissa
  rcases ht with rfl | ⟨rfl, rfl⟩
  · rw [List.append_assoc, List.cons_append, numeral_complete hb h1 (point_stops b _)]
    dsimp only
    have e : fraction b n (46 :: (frac ++ r)) = (m, frac.length, r) := numeral_complete hb h2 hr
    rw [e, if_neg hlen]
  · rw [numeral_complete hb h1 hr]
    dsimp only
    have e : fraction b n r = (n, 0, r) := by
      cases r with
      | nil => rfl
      | cons c r =>
        rw [fraction_cons, if_neg (fun e => hdot r (by rw [e]))]
    rw [e]
    dsimp only
    rw [if_neg (show ¬ (List.length _ + 0 = 0) from hlen)]
    cases h2
    rfl

theorem expDigits_sound : ∀ {ds : Bytes} {e e' : Nat}, expDigits e ds = some e' → ∀ acc, ∃ n, Digs 10 acc ds n
  | [], _, _, _, acc => ⟨_, .nil _⟩
  | c :: cs, e, e', h, acc => by
    unfold expDigits at h
    cases hd : digit 10 c with
    | none => rw [hd] at h; cases h
    | some d =>
      rw [hd] at h
      obtain ⟨n, hn⟩ := expDigits_sound h (acc * 10 + d)
      exact ⟨n, .cons _ _ _ _ _ ((digit_iff (.inl rfl)).mp hd) hn⟩

theorem digs_ge {ds : Bytes} {acc n : Nat} (h : Digs 10 acc ds n) : acc ≤ n := by
  induction h with
  | nil => exact Nat.le_refl _
  | cons acc c v ds n _ _ ih => omega

theorem expDigits_complete {ds : Bytes} {e n : Nat} (h : Digs 10 e ds n) (hn : n < 100000) : expDigits e ds = some n := by
  induction h with
  | nil => rfl
  | cons acc c v ds n hd h ih =>
    unfold expDigits
    rw [(digit_iff (.inl rfl)).mpr hd]
    have := digs_ge h
    show expDigits (if acc < 10000 then acc * 10 + v else acc) ds = _
    rw [if_pos (by omega)]
    exact ih hn

/-- The loop accepts all digits, also if it ignores some. -/
theorem expDigits_total {ds : Bytes} {acc n : Nat} (h : Digs 10 acc ds n) : ∀ e, ∃ e', expDigits e ds = some e' := by
  induction h with
  | nil => intro e; exact ⟨e, rfl⟩
  | cons acc c v ds n hd h ih =>
    intro e
    unfold expDigits
    rw [(digit_iff (.inl rfl)).mpr hd]
    exact ih _

theorem expNat_iff {ds : Bytes} : (∃ e, expNat ds = some e) ↔ ds ≠ [] ∧ ∃ n, Numeral 10 ds n := by
  cases ds with
  | nil => exact ⟨fun ⟨_, h⟩ => by (cases h), fun h => absurd rfl h.1⟩
  | cons c cs =>
    constructor
    · rintro ⟨e, h⟩
      obtain ⟨n, hn⟩ := expDigits_sound h 0
      exact ⟨by simp, n, numeral_iff.mpr hn⟩
    · rintro ⟨-, n, hn⟩
      exact expDigits_total (numeral_iff.mp hn) 0

theorem expNat_exact {ds : Bytes} {n : Nat} (hne : ds ≠ []) (h : Numeral 10 ds n) (hn : n < 100000) : expNat ds = some n := by
  cases ds with
  | nil => exact absurd rfl hne
  | cons c cs => exact expDigits_complete (numeral_iff.mp h) hn

theorem numeral_head {c : UInt8} {cs : Bytes} {n : Nat} (h : Numeral 10 (c :: cs) n) : c ≠ 43 ∧ c ≠ 45 := by
  cases numeral_iff.mp h with
  | cons _ _ v _ _ hd _ =>
    constructor <;> rintro rfl <;> (unfold DigitOf Spec.Json.Hex at hd; revert hd; simp; omega)

theorem exponent_sound {a b : UInt8} {bs : Bytes} {e : ℤ} (h : exponent a b bs = some e) : ∃ n e', Exponent a b bs n e' := by
  cases bs with
  | nil => cases h
  | cons c cs =>
    rw [exponent_cons] at h
    split at h
    · rename_i hc
      cases cs with
      | nil => cases h
      | cons s ds =>
        rw [expSigned_cons] at h
        split at h
        · rename_i hs; subst hs
          obtain ⟨e0, h0, -⟩ := Option.map_eq_some_iff.mp h
          obtain ⟨hne, n, hn⟩ := expNat_iff.mp ⟨_, h0⟩
          exact ⟨n, n, c, [43], ds, rfl, hc, hne, hn, .inl ⟨.inr rfl, rfl⟩⟩
        · split at h
          · rename_i hs; subst hs
            obtain ⟨e0, h0, -⟩ := Option.map_eq_some_iff.mp h
            obtain ⟨hne, n, hn⟩ := expNat_iff.mp ⟨_, h0⟩
            exact ⟨n, -n, c, [45], ds, rfl, hc, hne, hn, .inr ⟨rfl, rfl⟩⟩
          · obtain ⟨e0, h0, -⟩ := Option.map_eq_some_iff.mp h
            obtain ⟨hne, n, hn⟩ := expNat_iff.mp ⟨_, h0⟩
            exact ⟨n, n, c, [], s :: ds, rfl, hc, hne, hn, .inl ⟨.inl rfl, rfl⟩⟩
    · cases h

theorem exponent_complete {a b : UInt8} {bs : Bytes} {n : Nat} {e : ℤ} (h : Exponent a b bs n e) (hn : n < 100000) : exponent a b bs = some e := by
  obtain ⟨c, s, ds, rfl, hc, hne, hds, he⟩ := h
  have hx := expNat_exact hne hds hn
  rcases he with ⟨rfl | rfl, rfl⟩ | ⟨rfl, rfl⟩
  · show exponent a b (c :: ds) = _
    rw [exponent_cons, if_pos hc]
    cases ds with
    | nil => exact absurd rfl hne
    | cons d ds =>
      obtain ⟨h1, h2⟩ := numeral_head hds
      rw [expSigned_cons, if_neg h1, if_neg h2, hx]
      rfl
  · show exponent a b (c :: 43 :: ds) = _
    rw [exponent_cons, if_pos hc]
    rw [expSigned_cons, if_pos rfl, hx]
    rfl
  · show exponent a b (c :: 45 :: ds) = _
    rw [exponent_cons, if_pos hc]
    rw [expSigned_cons, if_neg (by decide), if_pos rfl, hx]
    rfl

theorem digit10_none {c : UInt8} (h : ¬ (48 ≤ c.toNat ∧ c.toNat ≤ 57)) : digit 10 c = none := by
  unfold digit
  rw [if_neg h, if_neg (by simp), if_neg (by simp)]

/-- The exponent stops the digits. -/
theorem exponent_stops {b : Nat} {sm la : UInt8} (h1 : digit b sm = none) (h2 : digit b la = none) (d1 : sm ≠ 46) (d2 : la ≠ 46) {x : Bytes} {n : Nat} {e : ℤ}
    (h : Exponent sm la x n e) : Stops b x ∧ (∀ r', x ≠ 46 :: r') ∧ x ≠ [] := by
  obtain ⟨c, s, ds, rfl, hc, -⟩ := h
  refine ⟨?_, ?_, by simp⟩
  · intro c' r' e; cases e; rcases hc with rfl | rfl
    · exact h1
    · exact h2
  · intro r' e; injection e with e1 _; rcases hc with rfl | rfl
    · exact d1 e1
    · exact d2 e1

theorem mantissa10_not_hex {t x : Bytes} {v : ℚ} (h : Mantissa 10 t v) (hx : x = [] ∨ ∃ c r, x = c :: r ∧ (c = 101 ∨ c = 69)) : isHex (t ++ x) = false := by
  -- the second byte is no x
  have key : ∀ p r, t ++ x = 48 :: p :: r → p ≠ 120 ∧ p ≠ 88 := by
    intro p r e
    have hmem : ∀ c ∈ t ++ x.take 1, c = 46 ∨ c = 101 ∨ c = 69 ∨ (48 ≤ c.toNat ∧ c.toNat ≤ 57) := by
      obtain ⟨int, frac, m, ht, -, hm, -⟩ := h
      have hd : ∀ {acc n : Nat} {ds : Bytes}, Digs 10 acc ds n → ∀ c ∈ ds, 48 ≤ c.toNat ∧ c.toNat ≤ 57 := by
        intro acc n ds h
        induction h with
        | nil => intro c hc; cases hc
        | cons acc c v ds n hd _ ih =>
          intro c' hc'
          rcases List.mem_cons.mp hc' with rfl | hc'
          · unfold DigitOf Spec.Json.Hex at hd; omega
          · exact ih _ hc'
      have hd := hd (numeral_iff.mp hm)
      intro c hc
      rcases List.mem_append.mp hc with hc | hc
      · rcases ht with rfl | ⟨rfl, rfl⟩
        · rcases List.mem_append.mp hc with hc | hc
          · exact .inr (.inr (.inr (hd c (by simp [hc]))))
          · rcases List.mem_cons.mp hc with rfl | hc
            · exact .inl rfl
            · exact .inr (.inr (.inr (hd c (by simp [hc]))))
        · exact .inr (.inr (.inr (hd c (by simp [hc]))))
      · rcases hx with rfl | ⟨c', r', rfl, hc'⟩
        · simp at hc
        · simp at hc; subst hc; rcases hc' with h | h <;> simp [h]
    have : p ∈ t ++ x.take 1 := by
      match t, e with
      | [], e =>
        obtain ⟨int, frac, m, ht, hne, -⟩ := h
        rcases ht with ht | ⟨rfl, rfl⟩
        · cases int <;> simp at ht
        · exact absurd rfl hne
      | [a], e =>
        injection e with _ e
        change x = _ at e
        rw [e]; simp
      | a :: b :: t, e =>
        injection e with _ e
        injection e with e _
        simp [e]
    have := hmem p this
    constructor <;> rintro rfl <;> revert this <;> decide
  cases hcat : t ++ x with
  | nil => rfl
  | cons a l =>
    cases l with
    | nil => rfl
    | cons p l =>
      cases l with
      | nil => rfl
      | cons q l =>
        show (a == 48 && (p == 120 || p == 88)) = false
        by_cases ha : a = 48
        · subst ha
          obtain ⟨h1, h2⟩ := key p (q :: l) hcat
          simp [h1, h2]
        · simp [ha]

theorem magnitude_sound {bs : Bytes} {q : ℚ} (h : magnitude bs = some q) : ∃ v n, Magnitude bs v n := by
  unfold magnitude at h
  split at h
  · rename_i hx
    obtain ⟨⟨m, k, r⟩, hm, h⟩ := Option.bind_eq_some_iff.mp h
    obtain ⟨e, he, -⟩ := Option.map_eq_some_iff.mp h
    obtain ⟨t, ht, hM⟩ := mantissa_sound (.inr rfl) hm
    obtain ⟨n, e', hE⟩ := exponent_sound he
    match bs, hx with
    | a :: p :: c :: l, hx =>
      have hx : (a == 48 && (p == 120 || p == 88)) = true := hx
      simp only [Bool.and_eq_true, Bool.or_eq_true, beq_iff_eq] at hx
      obtain ⟨rfl, hp⟩ := hx
      have := Magnitude.hex p t r _ n e' hp hM hE
      rw [show (48 :: p :: c :: l : Bytes) = 48 :: p :: t ++ r from congrArg (fun z => 48 :: p :: z) ht]
      exact ⟨_, _, this⟩
  · obtain ⟨⟨m, k, r⟩, hm, h⟩ := Option.bind_eq_some_iff.mp h
    obtain ⟨t, ht, hM⟩ := mantissa_sound (.inl rfl) hm
    dsimp only at h
    split at h
    · rename_i hr
      subst hr
      rw [List.append_nil] at ht
      subst ht
      exact ⟨_, _, .plain _ _ hM⟩
    · obtain ⟨e, he, -⟩ := Option.map_eq_some_iff.mp h
      obtain ⟨n, e', hE⟩ := exponent_sound he
      subst ht
      exact ⟨_, _, .dec _ _ _ _ _ hM hE⟩

theorem magnitude_complete {bs : Bytes} {v : ℚ} {n : Nat} (h : Magnitude bs v n) (hn : n < 100000) : magnitude bs = some v := by
  unfold magnitude
  cases h with
  | plain t v hM =>
    have hx := mantissa10_not_hex hM (.inl rfl)
    obtain ⟨m, k, hm, hv⟩ := mantissa_complete (.inl rfl) hM (r := []) (fun _ _ h => by cases h) (fun _ h => by cases h)
    rw [List.append_nil] at hm hx
    rw [hx, hm]
    simp only [Bool.false_eq_true, if_false, Option.bind_some, if_true, Option.some.injEq]
    exact_mod_cast hv
  | dec t x v _ e hM hE =>
    obtain ⟨h1, h2, h3⟩ := exponent_stops (b := 10) (digit10_none (by decide)) (digit10_none (by decide)) (by decide) (by decide) hE
    have hx := mantissa10_not_hex hM (x := x) (.inr (by obtain ⟨c, s, ds, rfl, hc, -⟩ := hE; exact ⟨c, _, rfl, hc⟩))
    obtain ⟨m, k, hm, hv⟩ := mantissa_complete (.inl rfl) hM h1 h2
    rw [hx, hm]
    simp only [Bool.false_eq_true, if_false, Option.bind_some, if_neg h3, exponent_complete hE hn, Option.map_some, Option.some.injEq]
    rw [← hv]
    norm_num
  | hex p t x v _ e hp hM hE =>
    obtain ⟨h1, h2, h3⟩ := exponent_stops (b := 16) (by decide) (by decide) (by decide) (by decide) hE
    obtain ⟨m, k, hm, hv⟩ := mantissa_complete (.inr rfl) hM h1 h2
    have hx : isHex (48 :: p :: t ++ x) = true := by
      cases hc : t ++ x with
      | nil => rw [List.append_eq_nil_iff] at hc; exact absurd hc.2 h3
      | cons a l =>
        rw [List.cons_append, List.cons_append, hc]
        show (48 == (48 : UInt8) && (p == 120 || p == 88)) = true
        simpa using hp
    rw [if_pos hx, show (48 :: p :: t ++ x : Bytes).drop 2 = t ++ x from rfl, hm]
    simp only [Option.bind_some, exponent_complete hE hn, Option.map_some, Option.some.injEq]
    rw [← hv]
    norm_num

/-! Underscores. -/

/-- `c` is a digit. -/
def IsDig (b : Nat) (c : UInt8) : Prop := ∃ v, DigitOf b c v

theorem isSome_iff {b : Nat} (hb : b = 10 ∨ b = 16) {c : UInt8} : (digit b c).isSome = true ↔ IsDig b c := by
  rw [Option.isSome_iff_exists]
  exact ⟨fun ⟨v, h⟩ => ⟨v, (digit_iff hb).mp h⟩, fun ⟨v, h⟩ => ⟨v, (digit_iff hb).mpr h⟩⟩

theorem underscore_not_digit (b : Nat) : ¬ IsDig b 95 := by
  rintro ⟨v, -, h⟩
  unfold Spec.Json.Hex at h
  have : (95 : UInt8).toNat = 95 := rfl
  omega

theorem underscores_iff {b : Nat} (hb : b = 10 ∨ b = 16) : ∀ (cs : Bytes) (saw : Saw), underscores b saw cs = true ↔
    (∀ x y, cs = x ++ 95 :: y → ((x = [] ∧ saw = .digit) ∨ ∃ x' c, x = x' ++ [c] ∧ IsDig b c) ∧ ∃ c y', y = c :: y' ∧ IsDig b c) ∧
    (saw = .underscore → ∃ c r, cs = c :: r ∧ IsDig b c)
  | [], saw => by
    unfold underscores
    constructor
    · intro h
      refine ⟨fun x y e => by simp at e, fun e => ?_⟩
      subst e
      simp at h
    · rintro ⟨-, h⟩
      simp only [bne_iff_ne, ne_eq]
      intro e
      obtain ⟨c, r, h, -⟩ := h e
      cases h
  | c :: cs, saw => by
    unfold underscores
    have nd := underscore_not_digit b
    by_cases hd : (digit b c).isSome = true
    · rw [if_pos hd, underscores_iff hb cs .digit]
      have hd := (isSome_iff hb).mp hd
      constructor
      · rintro ⟨h1, -⟩
        refine ⟨fun x y e => ?_, fun _ => ⟨c, cs, rfl, hd⟩⟩
        cases x with
        | nil => injection e with e _; rw [e] at hd; exact absurd hd nd
        | cons a x =>
          injection e with e1 e2
          obtain ⟨h3, h4⟩ := h1 x y e2
          refine ⟨.inr ?_, h4⟩
          rcases h3 with ⟨rfl, -⟩ | ⟨x', c', rfl, hc'⟩
          · exact ⟨[], a, rfl, e1 ▸ hd⟩
          · exact ⟨a :: x', c', rfl, hc'⟩
      · rintro ⟨h1, -⟩
        refine ⟨fun x y e => ?_, fun h => by cases h⟩
        obtain ⟨h3, h4⟩ := h1 (c :: x) y (by rw [e]; rfl)
        refine ⟨?_, h4⟩
        rcases h3 with ⟨h, -⟩ | ⟨x', c', e', hc'⟩
        · cases h
        · cases x with
          | nil => exact .inl ⟨rfl, rfl⟩
          | cons a x =>
            cases x' with
            | nil => injection e' with _ e'; cases e'
            | cons a' x' => injection e' with _ e'; exact .inr ⟨x', c', e', hc'⟩
    · rw [if_neg hd]
      have hd : ¬ IsDig b c := fun h => hd ((isSome_iff hb).mpr h)
      by_cases h95 : c = 95
      · subst h95
        rw [if_pos rfl]
        by_cases hs : saw = .digit
        · rw [if_pos hs, underscores_iff hb cs .underscore]
          constructor
          · rintro ⟨h1, h2⟩
            refine ⟨fun x y e => ?_, fun h => by rw [hs] at h; cases h⟩
            cases x with
            | nil =>
              injection e with _ e
              subst e
              obtain ⟨c, r, e, hc⟩ := h2 rfl
              exact ⟨.inl ⟨rfl, hs⟩, c, r, e, hc⟩
            | cons a x =>
              injection e with e1 e2
              obtain ⟨h3, h4⟩ := h1 x y e2
              refine ⟨.inr ?_, h4⟩
              rcases h3 with ⟨-, h⟩ | ⟨x', c', rfl, hc'⟩
              · cases h
              · exact ⟨a :: x', c', rfl, hc'⟩
          · rintro ⟨h1, -⟩
            have h0 := (h1 [] cs rfl).2
            refine ⟨fun x y e => ?_, fun _ => h0⟩
            obtain ⟨h3, h4⟩ := h1 (95 :: x) y (by rw [e]; rfl)
            refine ⟨?_, h4⟩
            rcases h3 with ⟨h, -⟩ | ⟨x', c', e', hc'⟩
            · cases h
            · cases x' with
              | nil => injection e' with e' _; rw [← e'] at hc'; exact absurd hc' nd
              | cons a' x' => injection e' with _ e'; exact .inr ⟨x', c', e', hc'⟩
        · rw [if_neg hs]
          constructor
          · intro h; cases h
          · rintro ⟨h1, -⟩
            rcases (h1 [] cs rfl).1 with ⟨-, h⟩ | ⟨x', c', e, -⟩
            · exact absurd h hs
            · simp at e
      · rw [if_neg h95]
        by_cases hs : saw = .underscore
        · rw [if_pos hs]
          constructor
          · intro h; cases h
          · rintro ⟨-, h⟩
            obtain ⟨c', r, e, hc⟩ := h hs
            injection e with e _
            exact absurd (e ▸ hc) hd
        · rw [if_neg hs, underscores_iff hb cs .other]
          constructor
          · rintro ⟨h1, -⟩
            refine ⟨fun x y e => ?_, fun h => absurd h hs⟩
            cases x with
            | nil => injection e with e _; exact absurd e h95
            | cons a x =>
              injection e with e1 e2
              obtain ⟨h3, h4⟩ := h1 x y e2
              refine ⟨.inr ?_, h4⟩
              rcases h3 with ⟨-, h⟩ | ⟨x', c', rfl, hc'⟩
              · cases h
              · exact ⟨a :: x', c', rfl, hc'⟩
          · rintro ⟨h1, -⟩
            refine ⟨fun x y e => ?_, fun h => by cases h⟩
            obtain ⟨h3, h4⟩ := h1 (c :: x) y (by rw [e]; rfl)
            refine ⟨?_, h4⟩
            rcases h3 with ⟨h, -⟩ | ⟨x', c', e', hc'⟩
            · cases h
            · cases x' with
              | nil => injection e' with e' _; rw [← e'] at hc'; exact absurd hc' hd
              | cons a' x' => injection e' with _ e'; exact .inr ⟨x', c', e', hc'⟩

theorem hasPrefix_iff {t : Bytes} : hasPrefix t = true ↔ HexPrefix t := by
  constructor
  · intro h
    match t, h with
    | a :: p :: r, h =>
      have h : (a == 48 && (p == 120 || p == 88)) = true := h
      simp only [Bool.and_eq_true, Bool.or_eq_true, beq_iff_eq] at h
      exact ⟨p, r, by rw [h.1], h.2⟩
  · rintro ⟨p, r, rfl, hp⟩
    show (48 == (48 : UInt8) && (p == 120 || p == 88)) = true
    simpa using hp

theorem digitIn_hex {t : Bytes} (h : HexPrefix t) {c : UInt8} : DigitIn t c ↔ IsDig 16 c := by
  constructor
  · rintro (⟨v, h1, h2⟩ | ⟨-, h⟩)
    · exact ⟨v, by omega, h2⟩
    · exact h
  · exact fun h' => .inr ⟨h, h'⟩

theorem digitIn_dec {t : Bytes} (h : ¬ HexPrefix t) {c : UInt8} : DigitIn t c ↔ IsDig 10 c :=
  ⟨fun h' => h'.elim id (fun h' => absurd h'.1 h), .inl⟩

theorem underscoreOk_iff {t : Bytes} : underscoreOk t = true ↔ Separated t := by
  unfold underscoreOk Separated
  by_cases hp : HexPrefix t
  · rw [if_pos (hasPrefix_iff.mpr hp), underscores_iff (.inr rfl)]
    simp only [digitIn_hex hp]
    obtain ⟨p, r, rfl, hpx⟩ := id hp
    have p95 : p ≠ 95 := by rcases hpx with rfl | rfl <;> decide
    constructor
    · rintro ⟨h, -⟩ a b e
      match a, e with
      | [], e => injection e with e _; exact absurd e (by decide)
      | [_], e => injection e with _ e; injection e with e _; exact absurd e p95
      | q1 :: q2 :: a, e =>
        injection e with _ e; injection e with _ e
        obtain ⟨h1, h2⟩ := h a b e
        refine ⟨?_, h2⟩
        rcases h1 with ⟨rfl, -⟩ | ⟨a', c, rfl, hc⟩
        · exact .inr ⟨hp, rfl⟩
        · exact .inl ⟨q1 :: q2 :: a', c, rfl, hc⟩
    · intro h
      refine ⟨fun x y e => ?_, fun h => by cases h⟩
      obtain ⟨h1, h2⟩ := h (48 :: p :: x) y (congrArg (fun z => 48 :: p :: z) e)
      refine ⟨?_, h2⟩
      cases x with
      | nil => exact .inl ⟨rfl, by trivial⟩
      | cons a x =>
        rcases h1 with ⟨a', c, e', hc⟩ | ⟨-, h⟩
        · match a', e' with
          | [], e' => injection e' with _ e'; cases e'
          | [_], e' => injection e' with _ e'; injection e' with _ e'; cases e'
          | _ :: _ :: a', e' =>
            injection e' with _ e'; injection e' with _ e'
            exact .inr ⟨a', c, e', hc⟩
        · simp at h
  · rw [if_neg (fun h => hp (hasPrefix_iff.mp h)), underscores_iff (.inl rfl)]
    simp only [digitIn_dec hp, hp, false_and, or_false, reduceCtorEq, and_false, false_or, false_implies, and_true]

theorem check_iff {t : Bytes} : (t.contains 95 && !underscoreOk t) = false ↔ Separated t := by
  by_cases h : 95 ∈ t
  · have : t.contains 95 = true := List.contains_iff_mem.mpr h
    rw [this, Bool.true_and, Bool.not_eq_false', underscoreOk_iff]
  · have : t.contains 95 = false := by
      rw [← Bool.not_eq_true]; exact fun h' => h (List.contains_iff_mem.mp h')
    rw [this, Bool.false_and]
    refine ⟨fun _ a b e => absurd (by rw [e]; simp) h, fun _ => rfl⟩

/-! Signs and words. -/

theorem sign_spec (bs : Bytes) : ∃ s, bs = s ++ (sign bs).2 ∧ (((s = [] ∨ s = [43]) ∧ (sign bs).1 = false) ∨ (s = [45] ∧ (sign bs).1 = true)) := by
  cases bs with
  | nil => exact ⟨[], rfl, .inl ⟨.inl rfl, rfl⟩⟩
  | cons c cs =>
    unfold sign
    by_cases h1 : c = 43
    · subst h1; exact ⟨[43], rfl, .inl ⟨.inr rfl, rfl⟩⟩
    · by_cases h2 : c = 45
      · subst h2; exact ⟨[45], rfl, .inr ⟨rfl, rfl⟩⟩
      · simp only [h1, h2, if_false]; exact ⟨[], rfl, .inl ⟨.inl rfl, by trivial⟩⟩

theorem sign_complete {s t : Bytes} {neg : Bool} (h : ((s = [] ∨ s = [43]) ∧ neg = false) ∨ (s = [45] ∧ neg = true))
    (ht : ∀ c r, t = c :: r → c ≠ 43 ∧ c ≠ 45) : sign (s ++ t) = (neg, t) := by
  rcases h with ⟨rfl | rfl, rfl⟩ | ⟨rfl, rfl⟩
  · cases t with
    | nil => rfl
    | cons c r =>
      obtain ⟨h1, h2⟩ := ht c r rfl
      simp [sign, h1, h2]
  · rfl
  · rfl

theorem lower_iff {c l : UInt8} (hl : 97 ≤ l ∧ l ≤ 122) : lower c = l ↔ c = l ∨ (97 ≤ l ∧ l ≤ 122 ∧ c = l - 32) := by
  unfold lower
  have hc := c.toNat_lt
  have e2 : (c + 32).toNat = (c.toNat + 32) % 256 := by rw [UInt8.toNat_add]; rfl
  have e3 : (l - 32).toNat = (256 - 32 + l.toNat) % 256 := by rw [UInt8.toNat_sub]; rfl
  simp only [UInt8.le_iff_toNat_le, ← UInt8.toNat_inj] at hl ⊢
  rw [e3]
  have a1 : (97 : UInt8).toNat = 97 := rfl
  have a2 : (122 : UInt8).toNat = 122 := rfl
  have a3 : (65 : UInt8).toNat = 65 := rfl
  have a4 : (90 : UInt8).toNat = 90 := rfl
  rw [a1, a2] at hl ⊢
  rw [a3, a4]
  split
  · rw [e2]; omega
  · omega

theorem map_lower_iff : ∀ {t w : Bytes}, (∀ l ∈ w, 97 ≤ l ∧ l ≤ 122) → (t.map lower = w ↔ SameWord t w)
  | [], [], _ => ⟨fun _ => .nil, fun _ => rfl⟩
  | [], l :: w, _ => ⟨fun h => (by cases h), fun h => (by cases h)⟩
  | c :: t, [], _ => ⟨fun h => (by cases h), fun h => (by cases h)⟩
  | c :: t, l :: w, h => by
    rw [List.map_cons, List.cons.injEq, map_lower_iff (fun x hx => h x (by simp [hx])), lower_iff (h l (by simp))]
    exact ⟨fun ⟨h1, h2⟩ => .cons h1 h2, fun h => by cases h with | cons h1 h2 => exact ⟨h1, h2⟩⟩

theorem special_iff {bs : Bytes} {x : B64} : special bs = some x ↔ Word bs x := by
  have hnan : ∀ l ∈ bytes "nan", (97 : UInt8) ≤ l ∧ l ≤ 122 := by decide
  have hinf : ∀ l ∈ bytes "inf", (97 : UInt8) ≤ l ∧ l ≤ 122 := by decide
  have hinf' : ∀ l ∈ bytes "infinity", (97 : UInt8) ≤ l ∧ l ≤ 122 := by decide
  unfold special
  constructor
  · intro h
    split at h
    · rename_i e
      rw [← Option.some.inj h]
      exact .nan _ ((map_lower_iff hnan).mp e)
    · split at h
      · rename_i e
        rw [← Option.some.inj h]
        obtain ⟨s, hs, hn⟩ := sign_spec bs
        have := Word.inf s (sign bs).2 (sign bs).1 hn (e.imp (map_lower_iff hinf).mp (map_lower_iff hinf').mp)
        rwa [← hs] at this
      · cases h
  · intro h
    cases h with
    | nan t h => rw [if_pos ((map_lower_iff hnan).mpr h)]
    | inf s t neg hs ht =>
      have ht := ht.imp (map_lower_iff hinf).mpr (map_lower_iff hinf').mpr
      have hhead : ∃ c r, t = c :: r ∧ lower c = 105 := by
        cases t with
        | nil => rcases ht with h | h <;> cases h
        | cons c r =>
          refine ⟨c, r, rfl, ?_⟩
          rcases ht with h | h <;> exact (List.cons.inj h).1
      have hsign : sign (s ++ t) = (neg, t) := sign_complete hs (fun c r e => by
        obtain ⟨c', r', e', hl⟩ := hhead
        rw [e] at e'
        injection e' with e' _
        subst e'
        constructor <;> (rintro rfl; exact absurd hl (by decide)))
      have hne : ¬ ((s ++ t).map lower = bytes "nan") := by
        obtain ⟨c, r, rfl, hl⟩ := hhead
        intro e
        rcases hs with ⟨rfl | rfl, -⟩ | ⟨rfl, -⟩
        · have e := (List.cons.inj e).1
          rw [hl] at e
          exact absurd e (by decide)
        · exact absurd (List.cons.inj e).1 (by decide)
        · exact absurd (List.cons.inj e).1 (by decide)
      rw [if_neg hne, hsign, if_pos ht]

theorem digs_head {b : Nat} {ds : Bytes} {acc n : Nat} (h : Digs b acc ds n) : ∀ {c : UInt8} {r : Bytes}, ds = c :: r → IsDig b c := by
  intro c r e
  cases h with
  | nil => cases e
  | cons _ c' v _ _ hd _ => injection e with e _; exact ⟨v, e ▸ hd⟩

theorem mantissa_head {t : Bytes} {v : ℚ} (h : Mantissa 10 t v) : ∃ c r, t = c :: r ∧ (c = 46 ∨ IsDig 10 c) := by
  obtain ⟨int, frac, m, ht, hne, hm, -⟩ := h
  have hd := numeral_iff.mp hm
  cases int with
  | nil =>
    rcases ht with rfl | ⟨rfl, rfl⟩
    · exact ⟨46, frac, rfl, .inl rfl⟩
    · exact absurd rfl hne
  | cons c r =>
    have := digs_head hd (c := c) (r := r ++ frac) rfl
    rcases ht with rfl | ⟨rfl, rfl⟩
    · exact ⟨c, r ++ 46 :: frac, rfl, .inr this⟩
    · exact ⟨c, r, rfl, .inr this⟩

theorem magnitude_head {t : Bytes} {v : ℚ} {n : Nat} (h : Magnitude t v n) : ∃ c r, t = c :: r ∧ (c = 46 ∨ IsDig 10 c) := by
  cases h with
  | plain t v h => exact mantissa_head h
  | dec t x v n e h _ =>
    obtain ⟨c, r, rfl, hc⟩ := mantissa_head h
    exact ⟨c, r ++ x, rfl, hc⟩
  | hex p t x v n e => exact ⟨48, _, rfl, .inr ⟨0, by decide, .inl ⟨by decide, by decide⟩⟩⟩

theorem isDig10 {c : UInt8} (h : c = 46 ∨ IsDig 10 c) : c.toNat = 46 ∨ (48 ≤ c.toNat ∧ c.toNat ≤ 57) := by
  rcases h with rfl | ⟨v, h1, h2⟩
  · exact .inl rfl
  · unfold Spec.Json.Hex at h2; omega

/-- The sign of a number is found. -/
theorem number_sign {s t : Bytes} {neg : Bool} {v : ℚ} {n : Nat} (hs : ((s = [] ∨ s = [43]) ∧ neg = false) ∨ (s = [45] ∧ neg = true))
    (h : Magnitude (t.filter (· != 95)) v n) : sign (s ++ t) = (neg, t) ∧ special (s ++ t) = none := by
  obtain ⟨c0, r0, e0, hc0⟩ := magnitude_head h
  have hc0 := isDig10 hc0
  have hhead : ∀ c r, t = c :: r → c = 95 ∨ c = c0 := by
    rintro c r rfl
    by_cases h95 : c = 95
    · exact .inl h95
    · rw [List.filter_cons_of_pos (by simpa using h95)] at e0
      exact .inr (List.cons.inj e0).1
  have hsign : sign (s ++ t) = (neg, t) := sign_complete hs (fun c r e => by
    rcases hhead c r e with rfl | rfl
    · decide
    · constructor <;> (rintro rfl; revert hc0; decide))
  refine ⟨hsign, ?_⟩
  have low : ∀ l : UInt8, lower l = 110 ∨ lower l = 105 → l ≠ 95 ∧ l ≠ c0 ∧ l ≠ 43 ∧ l ≠ 45 := by
    intro l hl
    refine ⟨?_, ?_, ?_, ?_⟩
    · rintro rfl; revert hl; decide
    · rintro rfl
      unfold lower at hl
      rw [if_neg (by rw [UInt8.le_iff_toNat_le]; have : (65 : UInt8).toNat = 65 := rfl; omega)] at hl
      rcases hl with rfl | rfl <;> (revert hc0; decide)
    · rintro rfl; revert hl; decide
    · rintro rfl; revert hl; decide
  unfold special
  rw [hsign]
  have nt : ∀ w : Bytes, w.head? = some 110 ∨ w.head? = some 105 → t.map lower ≠ w := by
    intro w hw e
    cases t with
    | nil => rw [← e] at hw; rcases hw with h | h <;> cases h
    | cons c r =>
      rw [← e, List.map_cons, List.head?_cons, Option.some.injEq, Option.some.injEq] at hw
      have := low c hw
      rcases hhead c r rfl with h | h
      · exact this.1 h
      · exact this.2.1 h
  have nb : (s ++ t).map lower ≠ bytes "nan" := by
    intro e
    rcases hs with ⟨rfl | rfl, -⟩ | ⟨rfl, -⟩
    · exact nt _ (.inl rfl) e
    · exact absurd (List.cons.inj e).1 (by decide)
    · exact absurd (List.cons.inj e).1 (by decide)
  rw [if_neg nb, if_neg (by rintro (h | h); exact nt _ (.inr rfl) h; exact nt _ (.inr rfl) h)]

/-- The result for a value. -/
def result (neg : Bool) (v : ℚ) : Option B64 :=
  if v = 0 then some (.zero neg)
  else
    match Binary64.round (if neg then -v else v) with
    | .inf _ => none
    | x => some x

theorem parse_value {bs : Bytes} {neg : Bool} {v : ℚ} {n : Nat} (h : Number bs neg v n) (hn : n < 100000) : parseFloat bs = result neg v := by
  obtain ⟨s, t, rfl, hs, hsep, hm⟩ := h
  obtain ⟨h1, h2⟩ := number_sign hs hm
  unfold parseFloat
  rw [h2, h1]
  dsimp only
  rw [check_iff.mpr hsep, magnitude_complete hm hn]
  rfl

theorem parse_word {bs : Bytes} {x : B64} (h : Word bs x) : parseFloat bs = some x := by
  unfold parseFloat
  rw [special_iff.mpr h]

theorem parse_rejects {bs : Bytes} (h1 : ¬ ∃ x, Word bs x) (h2 : ¬ ∃ neg v n, Number bs neg v n) : parseFloat bs = none := by
  unfold parseFloat
  cases hs : special bs with
  | some x => exact absurd ⟨x, special_iff.mp hs⟩ h1
  | none =>
    dsimp only
    cases hc : ((sign bs).2.contains 95 && !underscoreOk (sign bs).2) with
    | true => rfl
    | false =>
      cases hm : magnitude ((sign bs).2.filter (· != 95)) with
      | none => rfl
      | some q =>
        obtain ⟨v, n, hv⟩ := magnitude_sound hm
        obtain ⟨s, e, hn⟩ := sign_spec bs
        exact absurd ⟨(sign bs).1, v, n, s, (sign bs).2, e, hn, check_iff.mp hc, hv⟩ h2

/-- No underscores. -/
theorem plain_number {s t : Bytes} {neg : Bool} {v : ℚ} {n : Nat} (hs : ((s = [] ∨ s = [43]) ∧ neg = false) ∨ (s = [45] ∧ neg = true))
    (ht : 95 ∉ t) (hm : Magnitude t v n) : Number (s ++ t) neg v n := by
  refine ⟨s, t, rfl, hs, fun a b e => absurd (by rw [e]; simp) ht, ?_⟩
  rwa [List.filter_eq_self.mpr (fun c hc => by simpa using fun e : c = 95 => ht (e ▸ hc))]

/-! Digits. -/

theorem digs_of_digits {ds : Bytes} : ∀ (acc : Nat), (∀ c ∈ ds, IsDigit c) → Digs 10 acc ds (ds.foldl (fun a c => a * 10 + (c.toNat - 48)) acc) := by
  induction ds with
  | nil => intro acc _; exact .nil _
  | cons c cs ih =>
    intro acc h
    have hc := h c (by simp)
    unfold IsDigit at hc
    exact .cons _ _ (c.toNat - 48) _ _ ⟨by omega, .inl ⟨by omega, by omega⟩⟩ (ih _ (fun x hx => h x (by simp [hx])))

theorem numeral_of_digits {ds : Bytes} (h : ∀ c ∈ ds, IsDigit c) : Numeral 10 ds (natOfDigits ds) := numeral_iff.mpr (digs_of_digits 0 h)

theorem showNat_numeral (n : Nat) : Numeral 10 (showNat n) n ∧ showNat n ≠ [] ∧ ∀ c ∈ showNat n, IsDigit c := by
  obtain ⟨h1, h2, h3⟩ := showDigits_spec (n + 1) n (by omega)
  have := numeral_of_digits h2
  rw [h3] at this
  exact ⟨this, h1, h2⟩

/-- The numbers of JSON are numbers. -/
theorem json_number {lit : Bytes} (h : Spec.Json.Number lit) : ∃ neg v n, Number lit neg v n := by
  obtain ⟨sign, int, frac, exp, rfl, hs, hi, hf, he⟩ := h
  have hint : int ≠ [] ∧ ∀ c ∈ int, IsDigit c := by
    rcases hi with rfl | ⟨h, -⟩
    · exact ⟨by simp, by unfold IsDigit; decide⟩
    · exact h
  have d95 : ∀ {ds : Bytes}, (∀ c ∈ ds, IsDigit c) → 95 ∉ ds := by
    intro ds h h95
    have := h 95 h95
    revert this; unfold IsDigit; decide
  obtain ⟨neg, hsn⟩ : ∃ neg, ((sign = [] ∨ sign = [43]) ∧ neg = false) ∨ (sign = [45] ∧ neg = true) := by
    rcases hs with rfl | rfl
    · exact ⟨false, .inl ⟨.inl rfl, rfl⟩⟩
    · exact ⟨true, .inr ⟨rfl, rfl⟩⟩
  obtain ⟨v, hM⟩ : ∃ v, Mantissa 10 (int ++ frac) v := by
    rcases hf with rfl | ⟨ds, rfl, hds⟩
    · rw [List.append_nil]
      exact ⟨_, int, [], _, .inr ⟨rfl, rfl⟩, by simpa using hint.1, numeral_of_digits (by simpa using hint.2), rfl⟩
    · exact ⟨_, int, ds, _, .inl rfl, by simp [hint.1], numeral_of_digits (fun c hc => (List.mem_append.mp hc).elim (hint.2 c) (hds.2 c)), rfl⟩
  have nM : 95 ∉ int ++ frac := by
    intro h
    rcases List.mem_append.mp h with h | h
    · exact d95 hint.2 h
    · rcases hf with rfl | ⟨ds, rfl, hds⟩
      · cases h
      · rcases List.mem_cons.mp h with h | h
        · exact absurd h (by decide)
        · exact d95 hds.2 h
  rcases he with rfl | ⟨e, s, ds, rfl, hee, hes, hds⟩
  · have := plain_number hsn nM (.plain _ _ hM)
    simp only [List.append_nil, ← List.append_assoc] at this ⊢
    exact ⟨_, _, _, this⟩
  · obtain ⟨e', hE⟩ : ∃ e', Exponent 101 69 (e :: s ++ ds) (natOfDigits ds) e' := by
      rcases hes with rfl | rfl | rfl
      · exact ⟨_, e, [], ds, rfl, hee, hds.1, numeral_of_digits hds.2, .inl ⟨.inl rfl, rfl⟩⟩
      · exact ⟨_, e, [43], ds, rfl, hee, hds.1, numeral_of_digits hds.2, .inl ⟨.inr rfl, rfl⟩⟩
      · exact ⟨_, e, [45], ds, rfl, hee, hds.1, numeral_of_digits hds.2, .inr ⟨rfl, rfl⟩⟩
    have nE : 95 ∉ e :: s ++ ds := by
      intro h
      rcases List.mem_append.mp h with h | h
      · rcases List.mem_cons.mp h with h | h
        · rcases hee with rfl | rfl <;> exact absurd h (by decide)
        · rcases hes with rfl | rfl | rfl <;> revert h <;> decide
      · exact d95 hds.2 h
    have := plain_number hsn (fun h => (List.mem_append.mp h).elim nM nE) (.dec _ _ _ _ _ hM hE)
    rw [← List.append_assoc, ← List.append_assoc sign] at this
    exact ⟨_, _, _, this⟩

/-! Exact decimals. -/

theorem den_pow {q : ℚ} (h : Rep q) : q.den = 2 ^ Nat.log 2 q.den ∧ Nat.log 2 q.den ≤ 1074 := by
  have key : ∃ k ≤ 1074, q.den = 2 ^ k := by
    obtain ⟨-, m, e, -, h1, -, hq⟩ := h
    rcases le_or_gt 0 e with he | he
    · refine ⟨0, by omega, ?_⟩
      obtain ⟨k, rfl⟩ := Int.eq_ofNat_of_zero_le he
      have : q = ((m * 2 ^ k : ℤ) : ℚ) := by rw [hq]; push_cast; rw [zpow_natCast]
      rw [this, Rat.den_intCast, pow_zero]
    · obtain ⟨k, hk⟩ := Int.eq_ofNat_of_zero_le (show 0 ≤ -e by omega)
      have : q = Rat.divInt m ((2 ^ k : ℕ) : ℤ) := by
        rw [hq, show e = -(k : ℤ) by omega, zpow_neg, zpow_natCast, Rat.divInt_eq_div]
        push_cast
        rw [div_eq_mul_inv]
      have hd : (q.den : ℤ) ∣ ((2 ^ k : ℕ) : ℤ) := by rw [this]; exact Rat.den_dvd _ _
      obtain ⟨j, hj, hj'⟩ := (Nat.dvd_prime_pow Nat.prime_two).mp (Int.natCast_dvd_natCast.mp hd)
      exact ⟨j, by omega, hj'⟩
  obtain ⟨k, hk, e⟩ := key
  rw [e, Nat.log_pow (by norm_num)]
  exact ⟨rfl, hk⟩

theorem showExact_number {q : ℚ} (h : Rep q) : Number (showExact q) (decide (q < 0)) |q| (Nat.log 2 q.den) := by
  obtain ⟨hden, -⟩ := den_pow h
  unfold showExact
  generalize Nat.log 2 q.den = k at hden
  dsimp only
  rw [List.append_assoc, List.append_assoc]
  obtain ⟨a1, a2, a3⟩ := showNat_numeral (q.num.natAbs * 5 ^ k)
  obtain ⟨b1, b2, b3⟩ := showNat_numeral k
  have hM : Mantissa 10 (showNat (q.num.natAbs * 5 ^ k)) _ := ⟨_, [], _, .inr ⟨rfl, rfl⟩, by simpa using a2, by simpa using a1, rfl⟩
  have hE : Exponent 101 69 ([101, 45] ++ showNat k) k (-(k : ℤ)) := ⟨101, [45], showNat k, rfl, .inl rfl, b2, b1, .inr ⟨rfl, rfl⟩⟩
  have hv : ((q.num.natAbs * 5 ^ k : ℕ) : ℚ) / ((10 : ℕ) : ℚ) ^ ([] : Bytes).length * 10 ^ (-(k : ℤ)) = |q| := by
    rw [zpow_neg, zpow_natCast, List.length_nil, pow_zero, div_one, ← div_eq_mul_inv]
    conv_rhs => rw [← Rat.num_div_den q, abs_div]
    rw [hden]
    push_cast
    rw [abs_of_pos (show (0 : ℚ) < 2 ^ k by positivity), show (10 : ℚ) = 2 * 5 by norm_num, mul_pow, Nat.cast_natAbs]
    push_cast
    rw [mul_div_mul_right _ _ (by positivity)]
  have hm := Magnitude.dec _ _ _ _ _ hM hE
  rw [hv] at hm
  refine plain_number ?_ ?_ hm
  · by_cases hq : q < 0
    · exact .inr ⟨if_pos hq, decide_eq_true hq⟩
    · exact .inl ⟨.inl (if_neg hq), decide_eq_false hq⟩
  · have d95 : ∀ {ds : Bytes}, (∀ c ∈ ds, IsDigit c) → 95 ∉ ds := by
      intro ds h h95
      have := h 95 h95
      revert this; unfold IsDigit; decide
    intro h
    rcases List.mem_append.mp h with h | h
    · exact d95 a3 h
    · rcases List.mem_append.mp h with h | h
      · revert h; decide
      · exact d95 b3 h

theorem parse_show (x : B64) : parseFloat (show64 x) = some x := by
  cases x with
  | nan => exact parse_word (.nan _ ((map_lower_iff (by decide)).mp (by decide)))
  | inf neg =>
    cases neg with
    | false => exact parse_word (.inf [43] (bytes "Inf") false (.inl ⟨.inr rfl, rfl⟩) (.inl ((map_lower_iff (by decide)).mp (by decide))))
    | true => exact parse_word (.inf [45] (bytes "Inf") true (.inr ⟨rfl, rfl⟩) (.inl ((map_lower_iff (by decide)).mp (by decide))))
  | zero neg =>
    have hM : Magnitude [48] 0 0 := .plain _ _ ⟨[48], [], 0, .inr ⟨rfl, rfl⟩, by simp, .snoc [] 0 48 0 .nil ⟨by decide, .inl ⟨by decide, by decide⟩⟩, by simp⟩
    cases neg with
    | false =>
      have := parse_value (plain_number (s := []) (neg := false) (.inl ⟨.inl rfl, rfl⟩) (by decide) hM) (by decide)
      exact this
    | true =>
      have := parse_value (plain_number (s := [45]) (neg := true) (.inr ⟨rfl, rfl⟩) (by decide) hM) (by decide)
      exact this
  | fin q h =>
    have hk := (den_pow h).2
    rw [show show64 (.fin q h) = showExact q from rfl, parse_value (showExact_number h) (by omega)]
    unfold result
    rw [if_neg (by simpa using h.1)]
    have : (if decide (q < 0) = true then -|q| else |q|) = q := by
      by_cases hq : q < 0
      · rw [if_pos (decide_eq_true hq), abs_of_neg hq, neg_neg]
      · rw [if_neg (by simpa using hq), abs_of_nonneg (not_lt.mp hq)]
    rw [this, round_exact h]

end Goslide.ParseFloat
