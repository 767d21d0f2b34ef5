import Verif.Model.Json
import Verif.Spec.Json
/-
The JSON parser and the grammar.
-/
namespace Goslide.Json
open Configuration Spec

theorem code_lt (c : Char) : c.toNat < 0xD800 ∨ (0xDFFF < c.toNat ∧ c.toNat < 0x110000) := by
  have := c.valid
  simp only [UInt32.isValidChar, Nat.isValidChar] at this
  exact this

theorem ofNat_congr {a b : Nat} (h : a % 256 = b % 256) : UInt8.ofNat a = UInt8.ofNat b := by
  apply UInt8.toNat.inj
  simpa using h

theorem encodeRune_eq (c : Char) : encodeRune c = String.utf8EncodeChar c := by
  have hv := code_lt c
  unfold encodeRune String.utf8EncodeChar
  simp only [show c.val.toNat = c.toNat from rfl]
  generalize c.toNat = v at hv
  by_cases h1 : v < 0x80
  · rw [if_pos h1, if_pos (by omega)]
  rw [if_neg h1, if_neg (show ¬ v ≤ 0x7f by omega)]
  by_cases h2 : v < 0x800
  · rw [if_pos h2, if_pos (show v ≤ 0x7ff by omega), ofNat_congr (a := 0xC0 + v / 64) (b := v / 64 % 0x20 + 0xc0) (by omega),
      ofNat_congr (a := 0x80 + v % 64) (b := v % 0x40 + 0x80) (by omega)]
  rw [if_neg h2, if_neg (show ¬ v ≤ 0x7ff by omega)]
  by_cases h3 : v < 0x10000
  · rw [if_pos h3, if_pos (show v ≤ 0xffff by omega), ofNat_congr (a := 0xE0 + v / 4096) (b := v / 4096 % 0x10 + 0xe0) (by omega),
      ofNat_congr (a := 0x80 + v / 64 % 64) (b := v / 64 % 0x40 + 0x80) (by omega), ofNat_congr (a := 0x80 + v % 64) (b := v % 0x40 + 0x80) (by omega)]
  rw [if_neg h3, if_neg (show ¬ v ≤ 0xffff by omega), ofNat_congr (a := 0xF0 + v / 262144) (b := v / 262144 % 0x08 + 0xf0) (by omega),
    ofNat_congr (a := 0x80 + v / 4096 % 64) (b := v / 4096 % 0x40 + 0x80) (by omega), ofNat_congr (a := 0x80 + v / 64 % 64) (b := v / 64 % 0x40 + 0x80) (by omega),
    ofNat_congr (a := 0x80 + v % 64) (b := v % 0x40 + 0x80) (by omega)]

theorem toNat_ofNat {a : Nat} (h : a < 256) : (UInt8.ofNat a).toNat = a := by
  simpa using h

theorem charOfNat {a : Nat} (h : a < 0xD800 ∨ (0xDFFF < a ∧ a < 0x110000)) : (Char.ofNat a).toNat = a :=
  by
    have : a.isValidChar := h
    simp [Char.ofNat, this, Char.ofNatAux, Char.toNat]

theorem char_ext {c d : Char} (h : c.toNat = d.toNat) : c = d := by
  apply Char.ext
  exact UInt32.toNat.inj h

theorem within_iff {lo hi : Nat} {c : UInt8} : within lo hi c = true ↔ lo ≤ c.toNat ∧ c.toNat ≤ hi := by
  simp [within]

theorem byte_eq_iff {c : UInt8} {n : Nat} (h : n < 256) : c = UInt8.ofNat n ↔ c.toNat = n := by
  constructor
  · rintro rfl; exact toNat_ofNat h
  · intro e; apply UInt8.toNat.inj; rw [toNat_ofNat h, e]

/-- Decoding what has been encoded. -/
theorem decode_encode (c : Char) (r : Bytes) : decodeRune (encodeRune c ++ r) = some (c, r) := by
  have hv := code_lt c
  have hc : c = Char.ofNat c.toNat := char_ext (charOfNat hv).symm
  generalize hn : c.toNat = v at hv hc
  unfold encodeRune
  rw [hn]
  dsimp only
  by_cases h1 : v < 0x80
  · rw [if_pos h1, List.cons_append, List.nil_append]
    unfold decodeRune
    dsimp only
    rw [toNat_ofNat (by omega), if_pos h1, ← hc]
  rw [if_neg h1]
  by_cases h2 : v < 0x800
  · rw [if_pos h2]
    simp only [List.cons_append, List.nil_append]
    unfold decodeRune
    dsimp only
    rw [toNat_ofNat (by omega), toNat_ofNat (by omega), if_neg (by omega), if_pos (within_iff.mpr (by rw [toNat_ofNat (by omega)]; omega)),
      if_pos (within_iff.mpr (by rw [toNat_ofNat (by omega)]; omega)), show (0xC0 + v / 64 - 0xC0) * 64 + (0x80 + v % 64 - 0x80) = v by omega, ← hc]
  rw [if_neg h2]
  by_cases h3 : v < 0x10000
  · rw [if_pos h3]
    simp only [List.cons_append, List.nil_append]
    unfold decodeRune
    dsimp only
    rw [toNat_ofNat (by omega), toNat_ofNat (by omega), toNat_ofNat (by omega), if_neg (by omega),
      if_neg (by rw [within_iff, toNat_ofNat (by omega)]; omega), if_pos (within_iff.mpr (by rw [toNat_ofNat (by omega)]; omega))]
    have hs : within (second (UInt8.ofNat (0xE0 + v / 4096))).1 (second (UInt8.ofNat (0xE0 + v / 4096))).2 (UInt8.ofNat (0x80 + v / 64 % 64)) = true := by
      rw [within_iff, toNat_ofNat (by omega)]
      unfold second
      simp only [show (0xE0 : UInt8) = UInt8.ofNat 0xE0 from rfl, show (0xED : UInt8) = UInt8.ofNat 0xED from rfl, show (0xF0 : UInt8) = UInt8.ofNat 0xF0 from rfl,
        show (0xF4 : UInt8) = UInt8.ofNat 0xF4 from rfl, byte_eq_iff (show 0xE0 < 256 by decide), byte_eq_iff (show 0xED < 256 by decide),
        byte_eq_iff (show 0xF0 < 256 by decide), byte_eq_iff (show 0xF4 < 256 by decide), toNat_ofNat (show 0xE0 + v / 4096 < 256 by omega)]
      split
      · dsimp only; omega
      · split
        · dsimp only; omega
        · rw [if_neg (by omega), if_neg (by omega)]; dsimp only; omega
    rw [hs, Bool.true_and, if_pos (within_iff.mpr (by rw [toNat_ofNat (by omega)]; omega)),
      show ((0xE0 + v / 4096 - 0xE0) * 64 + (0x80 + v / 64 % 64 - 0x80)) * 64 + (0x80 + v % 64 - 0x80) = v by omega, ← hc]
  rw [if_neg h3]
  simp only [List.cons_append, List.nil_append]
  unfold decodeRune
  dsimp only
  rw [toNat_ofNat (by omega), toNat_ofNat (by omega), toNat_ofNat (by omega), toNat_ofNat (by omega), if_neg (by omega),
    if_neg (by rw [within_iff, toNat_ofNat (by omega)]; omega), if_neg (by rw [within_iff, toNat_ofNat (by omega)]; omega),
    if_pos (within_iff.mpr (by rw [toNat_ofNat (by omega)]; omega))]
  have hs : within (second (UInt8.ofNat (0xF0 + v / 262144))).1 (second (UInt8.ofNat (0xF0 + v / 262144))).2 (UInt8.ofNat (0x80 + v / 4096 % 64)) = true := by
    rw [within_iff, toNat_ofNat (by omega)]
    unfold second
    simp only [show (0xE0 : UInt8) = UInt8.ofNat 0xE0 from rfl, show (0xED : UInt8) = UInt8.ofNat 0xED from rfl, show (0xF0 : UInt8) = UInt8.ofNat 0xF0 from rfl,
      show (0xF4 : UInt8) = UInt8.ofNat 0xF4 from rfl, byte_eq_iff (show 0xE0 < 256 by decide), byte_eq_iff (show 0xED < 256 by decide),
      byte_eq_iff (show 0xF0 < 256 by decide), byte_eq_iff (show 0xF4 < 256 by decide), toNat_ofNat (show 0xF0 + v / 262144 < 256 by omega)]
    rw [if_neg (by omega), if_neg (by omega)]
    split
    · dsimp only; omega
    · split
      · dsimp only; omega
      · dsimp only; omega
  rw [hs, Bool.true_and, within_iff.mpr (show 0x80 ≤ (UInt8.ofNat (0x80 + v / 64 % 64)).toNat ∧ (UInt8.ofNat (0x80 + v / 64 % 64)).toNat ≤ 0xBF by
      rw [toNat_ofNat (by omega)]; omega), Bool.true_and, if_pos (within_iff.mpr (by rw [toNat_ofNat (by omega)]; omega)),
    show (((0xF0 + v / 262144 - 0xF0) * 64 + (0x80 + v / 4096 % 64 - 0x80)) * 64 + (0x80 + v / 64 % 64 - 0x80)) * 64 + (0x80 + v % 64 - 0x80) = v by omega, ← hc]

theorem ofNat_eq {c : UInt8} {n : Nat} (h : c.toNat = n) : UInt8.ofNat n = c := by
  apply UInt8.toNat.inj
  have := c.toNat_lt
  rw [toNat_ofNat (by omega), h]

theorem second_range {c : UInt8} {x : Nat} (h : (second c).1 ≤ x ∧ x ≤ (second c).2) :
    0x80 ≤ x ∧ x ≤ 0xBF ∧ (c.toNat = 0xE0 → 0xA0 ≤ x) ∧ (c.toNat = 0xED → x ≤ 0x9F) ∧ (c.toNat = 0xF0 → 0x90 ≤ x) ∧ (c.toNat = 0xF4 → x ≤ 0x8F) := by
  unfold second at h
  simp only [show (0xE0 : UInt8) = UInt8.ofNat 0xE0 from rfl, show (0xED : UInt8) = UInt8.ofNat 0xED from rfl, show (0xF0 : UInt8) = UInt8.ofNat 0xF0 from rfl,
    show (0xF4 : UInt8) = UInt8.ofNat 0xF4 from rfl, byte_eq_iff (show 0xE0 < 256 by decide), byte_eq_iff (show 0xED < 256 by decide),
    byte_eq_iff (show 0xF0 < 256 by decide), byte_eq_iff (show 0xF4 < 256 by decide)] at h
  split at h
  · dsimp only at h; omega
  · split at h
    · dsimp only at h; omega
    · split at h
      · dsimp only at h; omega
      · split at h <;> (dsimp only at h; omega)

/-- What is decoded is the encoding of the character. -/
theorem decode_inv {bs : Bytes} {c : Char} {r : Bytes} (h : decodeRune bs = some (c, r)) : bs = encodeRune c ++ r := by
  unfold decodeRune at h
  split at h
  · cases h
  rename_i c0 cs
  split at h
  · rename_i hlt
    simp only [Option.some.injEq, Prod.mk.injEq] at h
    obtain ⟨rfl, rfl⟩ := h
    unfold encodeRune
    rw [charOfNat (by omega)]
    dsimp only
    rw [if_pos hlt, ofNat_eq rfl]
    rfl
  split at h
  · rename_i h0
    rw [within_iff] at h0
    split at h
    · rename_i c1 cs'
      split at h
      · rename_i h1
        rw [within_iff] at h1
        simp only [Option.some.injEq, Prod.mk.injEq] at h
        obtain ⟨rfl, rfl⟩ := h
        unfold encodeRune
        rw [charOfNat (by omega)]
        dsimp only
        rw [if_neg (by omega), if_pos (by omega), ofNat_eq (c := c0) (by omega), ofNat_eq (c := c1) (by omega)]
        rfl
      · cases h
    · cases h
  split at h
  · rename_i h0
    rw [within_iff] at h0
    split at h
    · rename_i c1 c2 cs'
      split at h
      · rename_i h1
        rw [Bool.and_eq_true, within_iff, within_iff] at h1
        obtain ⟨h1, h2⟩ := h1
        have := second_range h1
        simp only [Option.some.injEq, Prod.mk.injEq] at h
        obtain ⟨rfl, rfl⟩ := h
        unfold encodeRune
        rw [charOfNat (by omega)]
        dsimp only
        rw [if_neg (by omega), if_neg (by omega), if_pos (by omega), ofNat_eq (c := c0) (by omega), ofNat_eq (c := c1) (by omega), ofNat_eq (c := c2) (by omega)]
        rfl
      · cases h
    · cases h
  split at h
  · rename_i h0
    rw [within_iff] at h0
    split at h
    · rename_i c1 c2 c3 cs'
      split at h
      · rename_i h1
        rw [Bool.and_eq_true, Bool.and_eq_true, within_iff, within_iff, within_iff] at h1
        obtain ⟨⟨h1, h2⟩, h3⟩ := h1
        have := second_range h1
        simp only [Option.some.injEq, Prod.mk.injEq] at h
        obtain ⟨rfl, rfl⟩ := h
        unfold encodeRune
        rw [charOfNat (by omega)]
        dsimp only
        rw [if_neg (by omega), if_neg (by omega), if_neg (by omega), ofNat_eq (c := c0) (by omega), ofNat_eq (c := c1) (by omega), ofNat_eq (c := c2) (by omega),
          ofNat_eq (c := c3) (by omega)]
        rfl
      · cases h
    · cases h
  · cases h

/-! Strings -/

theorem isDigit_iff {c : UInt8} : isDigit c = true ↔ IsDigit c := by
  simp only [isDigit, Bool.and_eq_true, decide_eq_true_eq, UInt8.le_iff_toNat_le]
  exact Iff.rfl

theorem hex_iff {c : UInt8} : isHex c = true ↔ ∃ v, Spec.Json.Hex c v := by
  simp only [isHex, isDigit, Bool.or_eq_true, Bool.and_eq_true, decide_eq_true_eq, UInt8.le_iff_toNat_le, Spec.Json.Hex]
  have e : (48 : UInt8).toNat = 48 ∧ (57 : UInt8).toNat = 57 ∧ (97 : UInt8).toNat = 97 ∧ (102 : UInt8).toNat = 102 ∧ (65 : UInt8).toNat = 65 ∧
    (70 : UInt8).toNat = 70 := by decide
  rw [e.1, e.2.1, e.2.2.1, e.2.2.2.1, e.2.2.2.2.1, e.2.2.2.2.2]
  constructor
  · rintro ((h | h) | h)
    · exact ⟨c.toNat - 48, by omega⟩
    · exact ⟨c.toNat - 87, by omega⟩
    · exact ⟨c.toNat - 55, by omega⟩
  · rintro ⟨v, h⟩
    omega

theorem hexVal_eq {c : UInt8} {v : Nat} (h : Spec.Json.Hex c v) : hexVal c = v := by
  unfold hexVal
  simp only [UInt8.le_iff_toNat_le]
  have e : (57 : UInt8).toNat = 57 ∧ (97 : UInt8).toNat = 97 := by decide
  rw [e.1, e.2]
  unfold Spec.Json.Hex at h
  split
  · omega
  · split <;> omega

theorem getu4_iff {bs : Bytes} {n : Nat} : getu4 bs = some n ↔ ∃ t rest, bs = t ++ rest ∧ Spec.Json.Code t n := by
  constructor
  · intro h
    unfold getu4 at h
    split at h
    · rename_i h1 h2 h3 h4 rest
      split at h
      · rename_i hh
        simp only [Bool.and_eq_true, hex_iff] at hh
        obtain ⟨⟨⟨⟨a, ha⟩, b, hb⟩, c, hc⟩, d, hd⟩ := hh
        rw [hexVal_eq ha, hexVal_eq hb, hexVal_eq hc, hexVal_eq hd, Option.some.injEq] at h
        exact ⟨[92, 117, h1, h2, h3, h4], rest, rfl, h1, h2, h3, h4, a, b, c, d, rfl, ha, hb, hc, hd, by omega⟩
      · cases h
    · cases h
  · rintro ⟨t, rest, rfl, h1, h2, h3, h4, a, b, c, d, rfl, ha, hb, hc, hd, rfl⟩
    simp only [List.cons_append, List.nil_append]
    change (if (isHex h1 && isHex h2 && isHex h3 && isHex h4) = true then some (((hexVal h1 * 16 + hexVal h2) * 16 + hexVal h3) * 16 + hexVal h4) else none) = _
    rw [if_pos (by simp only [Bool.and_eq_true, hex_iff]; exact ⟨⟨⟨⟨a, ha⟩, b, hb⟩, c, hc⟩, d, hd⟩), hexVal_eq ha, hexVal_eq hb, hexVal_eq hc, hexVal_eq hd,
      Option.some.injEq]
    omega

theorem Code.unique {t : Bytes} {n m : Nat} (h : Spec.Json.Code t n) (h' : Spec.Json.Code t m) : n = m := by
  have e1 := getu4_iff.mpr ⟨t, [], rfl, h⟩
  have e2 := getu4_iff.mpr ⟨t, [], rfl, h'⟩
  rw [e1] at e2
  exact Option.some.inj e2

/-- The inside of a string literal, as far as the scanner looks at it. -/
inductive Raw : Bytes → Prop
  | nil : Raw []
  | plain (c : UInt8) (raw : Bytes) : 32 ≤ c.toNat → c ≠ 34 → c ≠ 92 → Raw raw → Raw (c :: raw)
  | short (e : UInt8) (raw : Bytes) : e = 98 ∨ e = 102 ∨ e = 110 ∨ e = 114 ∨ e = 116 ∨ e = 92 ∨ e = 47 ∨ e = 34 → Raw raw → Raw (92 :: e :: raw)
  | code (h1 h2 h3 h4 : UInt8) (raw : Bytes) : isHex h1 → isHex h2 → isHex h3 → isHex h4 → Raw raw → Raw (92 :: 117 :: h1 :: h2 :: h3 :: h4 :: raw)

theorem strBody_raw {raw : Bytes} (h : Raw raw) (r : Bytes) : strBody (raw ++ 34 :: r) = some (raw, r) := by
  induction h with
  | nil => rw [List.nil_append, strBody.eq_def]; rfl
  | plain c raw h1 h2 h3 _ ih =>
    rw [List.cons_append, strBody.eq_def]
    dsimp only
    rw [if_neg h2, if_neg (by rw [UInt8.lt_iff_toNat_lt]; exact Nat.not_lt.mpr h1), if_neg h3, ih]
    rfl
  | short e raw he _ ih =>
    rw [List.cons_append, List.cons_append, strBody.eq_def]
    dsimp only
    rw [if_neg (by decide), if_neg (by decide), if_pos rfl, if_pos he, ih]
    rfl
  | code h1 h2 h3 h4 raw e1 e2 e3 e4 _ ih =>
    simp only [List.cons_append]
    rw [strBody.eq_def]
    dsimp only
    rw [if_neg (by decide), if_neg (by decide), if_pos rfl, if_neg (by decide), if_pos rfl, e1, e2, e3, e4, Bool.true_and, Bool.true_and, Bool.true_and, if_pos rfl, ih]
    rfl

theorem raw_strBody : ∀ (n : Nat) (bs raw r : Bytes), bs.length ≤ n → strBody bs = some (raw, r) → Raw raw ∧ bs = raw ++ 34 :: r
  | _, [], raw, r, _, h => by rw [strBody.eq_def] at h; cases h
  | 0, c :: cs, _, _, hn, _ => by simp at hn
  | n + 1, c :: cs, raw, r, hn, h => by
    rw [strBody.eq_def] at h
    dsimp only at h
    simp only [List.length_cons] at hn
    split at h
    · rename_i e
      cases h
      subst e
      exact ⟨.nil, rfl⟩
    rename_i n34
    split at h
    · cases h
    rename_i n32
    split at h
    · rename_i e92
      subst e92
      split at h
      · cases h
      rename_i e cs
      split at h
      · rename_i he
        rw [Option.map_eq_some_iff] at h
        obtain ⟨⟨raw', r'⟩, h, e⟩ := h
        cases e
        simp only [List.length_cons] at hn
        obtain ⟨i1, i2⟩ := raw_strBody n _ _ _ (by omega) h
        exact ⟨.short _ _ he i1, by rw [i2]; rfl⟩
      split at h
      · rename_i e117
        subst e117
        split at h
        · rename_i h1 h2 h3 h4 cs
          split at h
          · rename_i hh
            simp only [Bool.and_eq_true] at hh
            rw [Option.map_eq_some_iff] at h
            obtain ⟨⟨raw', r'⟩, h, e⟩ := h
            cases e
            simp only [List.length_cons] at hn
            obtain ⟨i1, i2⟩ := raw_strBody n _ _ _ (by omega) h
            exact ⟨.code _ _ _ _ _ hh.1.1.1 hh.1.1.2 hh.1.2 hh.2 i1, by rw [i2]; rfl⟩
          · cases h
        · cases h
      · cases h
    · rename_i n92
      rw [Option.map_eq_some_iff] at h
      obtain ⟨⟨raw', r'⟩, h, e⟩ := h
      cases e
      obtain ⟨i1, i2⟩ := raw_strBody n _ _ _ (by omega) h
      rw [UInt8.lt_iff_toNat_lt] at n32
      exact ⟨.plain _ _ (Nat.not_lt.mp n32) n34 n92 i1, by rw [i2]; rfl⟩

theorem high_bytes {c : Char} (h : 0x80 ≤ c.toNat) : ∀ b ∈ encodeRune c, 0x80 ≤ b.toNat := by
  have hv := code_lt c
  unfold encodeRune
  generalize c.toNat = v at h hv
  dsimp only
  rw [if_neg (by omega)]
  split
  · simp only [List.mem_cons, List.not_mem_nil, or_false, forall_eq_or_imp, forall_eq]
    rw [toNat_ofNat (by omega), toNat_ofNat (by omega)]
    omega
  split
  · simp only [List.mem_cons, List.not_mem_nil, or_false, forall_eq_or_imp, forall_eq]
    rw [toNat_ofNat (by omega), toNat_ofNat (by omega), toNat_ofNat (by omega)]
    omega
  · simp only [List.mem_cons, List.not_mem_nil, or_false, forall_eq_or_imp, forall_eq]
    rw [toNat_ofNat (by omega), toNat_ofNat (by omega), toNat_ofNat (by omega), toNat_ofNat (by omega)]
    omega

theorem low_byte {c : Char} (h : c.toNat < 0x80) : encodeRune c = [UInt8.ofNat c.toNat] := by
  unfold encodeRune
  dsimp only
  rw [if_pos h]

theorem raw_high {hs raw : Bytes} (hh : ∀ b ∈ hs, 0x80 ≤ b.toNat) (h : Raw raw) : Raw (hs ++ raw) := by
  induction hs with
  | nil => exact h
  | cons b hs ih =>
    have hb := hh b (by simp)
    refine .plain _ _ (by omega) ?_ ?_ (ih (fun b hb => hh b (by simp [hb])))
    · rintro rfl; exact absurd hb (by decide)
    · rintro rfl; exact absurd hb (by decide)

theorem Raw.tail_high {b : UInt8} {raw : Bytes} (hb : 0x80 ≤ b.toNat) (h : Raw (b :: raw)) : Raw raw := by
  cases h with
  | plain _ _ _ _ _ h => exact h
  | short => exact absurd hb (by decide)
  | code => exact absurd hb (by decide)

theorem Raw.drop_high {hs raw : Bytes} (hh : ∀ b ∈ hs, 0x80 ≤ b.toNat) (h : Raw (hs ++ raw)) : Raw raw := by
  induction hs with
  | nil => exact h
  | cons b hs ih => exact ih (fun b hb => hh b (by simp [hb])) (h.tail_high (hh b (by simp)))

theorem str_raw {raw : Bytes} {cs : List Char} (h : Spec.Json.Str raw cs) : Raw raw := by
  induction h with
  | nil => exact .nil
  | char c raw cs h1 h2 h3 _ ih =>
    rw [← encodeRune_eq]
    by_cases hc : c.toNat < 0x80
    · rw [low_byte hc]
      refine .plain _ _ (by rw [toNat_ofNat (by omega)]; exact h1) ?_ ?_ ih
      · intro e
        apply h2
        apply char_ext
        have := congrArg UInt8.toNat e
        rw [toNat_ofNat (by omega)] at this
        exact this
      · intro e
        apply h3
        apply char_ext
        have := congrArg UInt8.toNat e
        rw [toNat_ofNat (by omega)] at this
        exact this
    · exact raw_high (high_bytes (by omega)) ih
  | short e c raw cs he _ ih =>
    refine .short _ _ ?_ ih
    simp only [Spec.Json.escapes, List.mem_cons, Prod.mk.injEq, List.not_mem_nil, or_false] at he
    rcases he with ⟨rfl, -⟩ | ⟨rfl, -⟩ | ⟨rfl, -⟩ | ⟨rfl, -⟩ | ⟨rfl, -⟩ | ⟨rfl, -⟩ | ⟨rfl, -⟩ | ⟨rfl, -⟩ <;> decide
  | code t n raw cs ht _ _ _ ih =>
    obtain ⟨h1, h2, h3, h4, a, b, c, d, rfl, ha, hb, hc, hd, rfl⟩ := ht
    exact .code _ _ _ _ _ (hex_iff.mpr ⟨a, ha⟩) (hex_iff.mpr ⟨b, hb⟩) (hex_iff.mpr ⟨c, hc⟩) (hex_iff.mpr ⟨d, hd⟩) ih
  | pair t1 t2 n1 n2 raw cs ht1 ht2 _ _ _ ih =>
    obtain ⟨h1, h2, h3, h4, a, b, c, d, rfl, ha, hb, hc, hd, rfl⟩ := ht1
    obtain ⟨k1, k2, k3, k4, a', b', c', d', rfl, ha', hb', hc', hd', rfl⟩ := ht2
    exact .code _ _ _ _ _ (hex_iff.mpr ⟨a, ha⟩) (hex_iff.mpr ⟨b, hb⟩) (hex_iff.mpr ⟨c, hc⟩) (hex_iff.mpr ⟨d, hd⟩)
      (.code _ _ _ _ _ (hex_iff.mpr ⟨a', ha'⟩) (hex_iff.mpr ⟨b', hb'⟩) (hex_iff.mpr ⟨c', hc'⟩) (hex_iff.mpr ⟨d', hd'⟩) ih)
  | lone t n raw cs ht _ _ _ ih =>
    obtain ⟨h1, h2, h3, h4, a, b, c, d, rfl, ha, hb, hc, hd, rfl⟩ := ht
    exact .code _ _ _ _ _ (hex_iff.mpr ⟨a, ha⟩) (hex_iff.mpr ⟨b, hb⟩) (hex_iff.mpr ⟨c, hc⟩) (hex_iff.mpr ⟨d, hd⟩) ih
  | invalid b raw cs hb _ ih =>
    have : 0x80 ≤ b.toNat := by
      apply Classical.byContradiction
      intro hlt
      apply hb
      refine ⟨Char.ofNat b.toNat, raw, ?_⟩
      rw [← encodeRune_eq, low_byte (by rw [charOfNat (by omega)]; omega), charOfNat (by omega), ofNat_eq rfl]
      rfl
    exact raw_high (hs := [b]) (by simpa using this) ih

theorem decode_none {bs : Bytes} : decodeRune bs = none ↔ ¬ ∃ c rest, bs = String.utf8EncodeChar c ++ rest := by
  constructor
  · rintro h ⟨c, rest, rfl⟩
    rw [← encodeRune_eq, decode_encode] at h
    cases h
  · intro h
    cases hd : decodeRune bs with
    | none => rfl
    | some p => exact absurd ⟨p.1, p.2, by rw [← encodeRune_eq]; exact decode_inv hd⟩ h

theorem encodeRune_ne_nil (c : Char) : encodeRune c ≠ [] := by
  rw [encodeRune_eq]; exact String.utf8EncodeChar_ne_nil

theorem getu4_no_u {e : UInt8} {raw : Bytes} (h : e ≠ 117) : getu4 (92 :: e :: raw) = none := by
  cases hg : getu4 (92 :: e :: raw) with
  | none => rfl
  | some n =>
    obtain ⟨t, rest, he, h1, h2, h3, h4, a, b, c, d, rfl, -⟩ := getu4_iff.mp hg
    simp only [List.cons_append, List.cons.injEq] at he
    exact absurd he.2.1 h

/-- Unquoting computes the characters of the grammar. -/
theorem unquote_str {raw : Bytes} {cs : List Char} (h : Spec.Json.Str raw cs) : ∀ n, raw.length ≤ n → unquote n raw = cs := by
  induction h with
  | nil => intro n _; cases n <;> rfl
  | char c raw cs h1 h2 h3 _ ih =>
    intro n hn
    rw [← encodeRune_eq] at hn ⊢
    have hd := decode_encode c raw
    cases he : encodeRune c with
    | nil => exact absurd he (encodeRune_ne_nil c)
    | cons b bs =>
      rw [he] at hn hd
      rw [List.cons_append] at hn hd ⊢
      simp only [List.length_cons, List.length_append] at hn
      obtain ⟨n, rfl⟩ : ∃ k, n = k + 1 := ⟨n - 1, by omega⟩
      have hb : b ≠ 92 := by
        rintro rfl
        by_cases hc : c.toNat < 0x80
        · rw [low_byte hc, List.cons.injEq] at he
          have := congrArg UInt8.toNat he.1
          rw [toNat_ofNat (by omega)] at this
          exact h3 (char_ext this)
        · have := high_bytes (c := c) (by omega) 92 (by rw [he]; simp)
          exact absurd this (by decide)
      rw [unquote.eq_def]
      dsimp only
      rw [if_neg hb, hd]
      dsimp only
      rw [ih n (by omega)]
  | short e c raw cs he _ ih =>
    intro n hn
    simp only [List.length_cons] at hn
    obtain ⟨n, rfl⟩ : ∃ k, n = k + 1 := ⟨n - 1, by omega⟩
    have hu : e ≠ 117 := by
      rintro rfl
      simp [Spec.Json.escapes] at he
    rw [unquote.eq_def]
    dsimp only
    rw [if_pos rfl, getu4_no_u hu]
    dsimp only
    rw [ih n (by omega)]
    simp only [Spec.Json.escapes, List.mem_cons, Prod.mk.injEq, List.not_mem_nil, or_false] at he
    rcases he with ⟨rfl, rfl⟩ | ⟨rfl, rfl⟩ | ⟨rfl, rfl⟩ | ⟨rfl, rfl⟩ | ⟨rfl, rfl⟩ | ⟨rfl, rfl⟩ | ⟨rfl, rfl⟩ | ⟨rfl, rfl⟩ <;> rfl
  | code t n raw cs ht hh hl _ ih =>
    intro k hn
    have hg := getu4_iff.mpr ⟨t, raw, rfl, ht⟩
    obtain ⟨h1, h2, h3, h4, a, b, c, d, rfl, -⟩ := ht
    simp only [List.cons_append, List.nil_append, List.length_cons] at hn hg ⊢
    obtain ⟨k, rfl⟩ : ∃ j, k = j + 1 := ⟨k - 1, by omega⟩
    rw [unquote.eq_def]
    dsimp only
    rw [if_pos rfl, hg]
    dsimp only
    unfold Spec.Json.High at hh
    unfold Spec.Json.Low at hl
    rw [if_neg (by omega), List.drop_succ_cons, List.drop_succ_cons, List.drop_succ_cons, List.drop_succ_cons, List.drop_succ_cons, List.drop_zero, ih k (by omega)]
  | pair t1 t2 n1 n2 raw cs ht1 ht2 hh hl _ ih =>
    intro k hn
    have hg := getu4_iff.mpr ⟨t1, t2 ++ raw, rfl, ht1⟩
    have hg2 := getu4_iff.mpr ⟨t2, raw, rfl, ht2⟩
    obtain ⟨h1, h2, h3, h4, a, b, c, d, rfl, -⟩ := ht1
    obtain ⟨k1, k2, k3, k4, a', b', c', d', rfl, -⟩ := ht2
    simp only [List.cons_append, List.nil_append, List.length_cons] at hn hg hg2 ⊢
    obtain ⟨k, rfl⟩ : ∃ j, k = j + 1 := ⟨k - 1, by omega⟩
    unfold Spec.Json.High at hh
    unfold Spec.Json.Low at hl
    rw [unquote.eq_def]
    dsimp only
    rw [if_pos rfl, hg]
    dsimp only
    rw [if_pos (by omega)]
    simp only [List.drop_succ_cons, List.drop_zero]
    rw [hg2]
    dsimp only
    rw [if_pos (by omega), ih k (by omega), show (n1 - 0xD800) * 1024 + (n2 - 0xDC00) + 0x10000 = 0x10000 + (n1 - 0xD800) * 0x400 + (n2 - 0xDC00) by omega]
  | lone t n raw cs ht hs hno _ ih =>
    intro k hn
    have hg := getu4_iff.mpr ⟨t, raw, rfl, ht⟩
    obtain ⟨h1, h2, h3, h4, a, b, c, d, rfl, -⟩ := ht
    simp only [List.cons_append, List.nil_append, List.length_cons] at hn hg ⊢
    obtain ⟨k, rfl⟩ : ∃ j, k = j + 1 := ⟨k - 1, by omega⟩
    unfold Spec.Json.High at hs hno
    unfold Spec.Json.Low at hs hno
    rw [unquote.eq_def]
    dsimp only
    rw [if_pos rfl, hg]
    dsimp only
    rw [if_pos (by omega)]
    simp only [List.drop_succ_cons, List.drop_zero]
    cases hg2 : getu4 raw with
    | none => dsimp only; rw [ih k (by omega)]; rfl
    | some r1 =>
      dsimp only
      rw [if_neg, ih k (by omega)]
      · rfl
      · intro hc
        obtain ⟨t2, rest, e, hc2⟩ := getu4_iff.mp hg2
        exact hno (by omega) ⟨t2, r1, rest, e, hc2, hc.2⟩
  | invalid b raw cs hb _ ih =>
    intro n hn
    simp only [List.length_cons] at hn
    obtain ⟨n, rfl⟩ : ∃ k, n = k + 1 := ⟨n - 1, by omega⟩
    have hb92 : b ≠ 92 := by
      rintro rfl
      exact hb ⟨'\\', raw, rfl⟩
    rw [unquote.eq_def]
    dsimp only
    rw [if_neg hb92, decode_none.mpr hb]
    dsimp only
    rw [ih n (by omega)]
    rfl

/-- Every string literal that the scanner accepts stands for some characters. -/
theorem raw_str : ∀ (n : Nat) (raw : Bytes), raw.length ≤ n → Raw raw → ∃ cs, Spec.Json.Str raw cs
  | _, [], _, _ => ⟨[], .nil⟩
  | 0, c :: cs, hn, _ => by simp at hn
  | n + 1, c :: raw, hn, h => by
    simp only [List.length_cons] at hn
    cases h with
    | plain _ _ h1 h2 h3 h =>
      cases hd : decodeRune (c :: raw) with
      | none =>
        obtain ⟨cs, hcs⟩ := raw_str n raw (by omega) h
        exact ⟨_, .invalid c raw cs (decode_none.mp hd) hcs⟩
      | some p =>
        obtain ⟨ch, rest⟩ := p
        have he := decode_inv hd
        by_cases hc : ch.toNat < 0x80
        · have hch := low_byte hc
          rw [hch, List.cons_append, List.nil_append, List.cons.injEq] at he
          obtain ⟨e1, rfl⟩ := he
          have e1' := congrArg UInt8.toNat e1
          rw [toNat_ofNat (by omega)] at e1'
          obtain ⟨cs, hcs⟩ := raw_str n raw (by omega) h
          refine ⟨ch :: cs, ?_⟩
          rw [show c :: raw = String.utf8EncodeChar ch ++ raw by rw [← encodeRune_eq, hch, ← e1]; rfl]
          refine .char ch raw cs (by omega) ?_ ?_ hcs
          · rintro rfl; exact h2 (by rw [e1]; rfl)
          · rintro rfl; exact h3 (by rw [e1]; rfl)
        · have hr : Raw rest := by
            have : Raw (encodeRune ch ++ rest) := by rw [← he]; exact .plain _ _ h1 h2 h3 h
            exact this.drop_high (high_bytes (by omega))
          have hl : rest.length ≤ n := by
            have := congrArg List.length he
            have h0 : 0 < (encodeRune ch).length := List.length_pos_iff.mpr (encodeRune_ne_nil ch)
            simp only [List.length_cons, List.length_append] at this
            omega
          obtain ⟨cs, hcs⟩ := raw_str n rest hl hr
          refine ⟨ch :: cs, ?_⟩
          rw [he, encodeRune_eq]
          refine .char ch rest cs (by omega) ?_ ?_ hcs
          · rintro rfl; exact hc (by decide)
          · rintro rfl; exact hc (by decide)
    | short e raw he h =>
      simp only [List.length_cons] at hn
      obtain ⟨cs, hcs⟩ := raw_str n raw (by omega) h
      have : ∃ c, (e, c) ∈ Spec.Json.escapes := by
        rcases he with rfl | rfl | rfl | rfl | rfl | rfl | rfl | rfl
        · exact ⟨'\x08', by simp [Spec.Json.escapes]⟩
        · exact ⟨'\x0c', by simp [Spec.Json.escapes]⟩
        · exact ⟨'\n', by simp [Spec.Json.escapes]⟩
        · exact ⟨'\r', by simp [Spec.Json.escapes]⟩
        · exact ⟨'\t', by simp [Spec.Json.escapes]⟩
        · exact ⟨'\\', by simp [Spec.Json.escapes]⟩
        · exact ⟨'/', by simp [Spec.Json.escapes]⟩
        · exact ⟨'"', by simp [Spec.Json.escapes]⟩
      obtain ⟨c, hc⟩ := this
      exact ⟨_, .short e c raw cs hc hcs⟩
    | code h1 h2 h3 h4 raw e1 e2 e3 e4 h =>
      simp only [List.length_cons] at hn
      obtain ⟨a, ha⟩ := hex_iff.mp e1
      obtain ⟨b, hb⟩ := hex_iff.mp e2
      obtain ⟨c, hc⟩ := hex_iff.mp e3
      obtain ⟨d, hd⟩ := hex_iff.mp e4
      have ht : Spec.Json.Code [92, 117, h1, h2, h3, h4] (a * 4096 + b * 256 + c * 16 + d) := ⟨h1, h2, h3, h4, a, b, c, d, rfl, ha, hb, hc, hd, rfl⟩
      generalize a * 4096 + b * 256 + c * 16 + d = m at ht
      obtain ⟨cs, hcs⟩ := raw_str n raw (by omega) h
      by_cases hs : Spec.Json.High m ∨ Spec.Json.Low m
      · by_cases hp : Spec.Json.High m ∧ ∃ t2 n2 raw2, raw = t2 ++ raw2 ∧ Spec.Json.Code t2 n2 ∧ Spec.Json.Low n2
        · obtain ⟨hh, t2, n2, raw2, rfl, hc2, hl⟩ := hp
          have hr2 : Raw raw2 := by
            obtain ⟨k1, k2, k3, k4, a', b', c', d', rfl, -⟩ := hc2
            cases h with
            | plain _ _ _ _ h3 _ => exact absurd rfl h3
            | short _ _ he _ => exact absurd he (by decide)
            | code _ _ _ _ _ _ _ _ _ h => exact h
          obtain ⟨cs, hcs⟩ := raw_str n raw2 (by simp only [List.length_append] at hn; omega) hr2
          exact ⟨_, .pair [92, 117, h1, h2, h3, h4] t2 m n2 raw2 cs ht hc2 hh hl hcs⟩
        · exact ⟨_, .lone [92, 117, h1, h2, h3, h4] m raw cs ht hs (fun hh hx => hp ⟨hh, hx⟩) hcs⟩
      · rw [not_or] at hs
        exact ⟨_, .code [92, 117, h1, h2, h3, h4] m raw cs ht hs.1 hs.2 hcs⟩

/-- String literals: the scanner accepts those of the grammar. -/
theorem strBody_iff {bs raw r : Bytes} : strBody bs = some (raw, r) ↔ bs = raw ++ 34 :: r ∧ Spec.Json.Str raw (chars raw) := by
  constructor
  · intro h
    obtain ⟨h1, h2⟩ := raw_strBody _ _ _ _ (Nat.le_refl _) h
    obtain ⟨cs, hcs⟩ := raw_str _ _ (Nat.le_refl _) h1
    refine ⟨h2, ?_⟩
    unfold chars
    rw [unquote_str hcs _ (Nat.le_refl _)]
    exact hcs
  · rintro ⟨rfl, h⟩
    exact strBody_raw (str_raw h) r

theorem chars_str {raw : Bytes} {cs : List Char} (h : Spec.Json.Str raw cs) : chars raw = cs := unquote_str h _ (Nat.le_refl _)

/-! Numbers -/

theorem takeWhile_all {p : UInt8 → Bool} {ds r : Bytes} (hd : ∀ c ∈ ds, p c = true) (hr : ∀ c, r.head? = some c → p c = false) :
    (ds ++ r).takeWhile p = ds ∧ (ds ++ r).dropWhile p = r := by
  induction ds with
  | nil =>
    cases r with
    | nil => exact ⟨rfl, rfl⟩
    | cons c r => rw [List.nil_append, List.takeWhile_cons, List.dropWhile_cons, hr c rfl]; exact ⟨rfl, rfl⟩
  | cons d ds ih =>
    have := ih (fun c hc => hd c (by simp [hc]))
    rw [List.cons_append, List.takeWhile_cons, List.dropWhile_cons, hd d (by simp), if_pos rfl, if_pos rfl, this.1, this.2]
    exact ⟨rfl, rfl⟩

theorem head_dropWhile {p : UInt8 → Bool} : ∀ (bs : Bytes) (c : UInt8), (bs.dropWhile p).head? = some c → p c = false
  | [], c, h => by cases h
  | b :: bs, c, h => by
    rw [List.dropWhile_cons] at h
    cases hp : p b with
    | true => rw [hp, if_pos rfl] at h; exact head_dropWhile bs c h
    | false => rw [hp, if_neg (by decide)] at h; cases h; exact hp

theorem digits1_iff {bs ds r : Bytes} : digits1 bs = some (ds, r) ↔ Spec.Json.Digits ds ∧ bs = ds ++ r ∧ ∀ c, r.head? = some c → ¬ IsDigit c := by
  constructor
  · intro h
    unfold digits1 at h
    split at h
    · cases h
    · rename_i d ds' ht
      cases h
      refine ⟨⟨by simp, fun c hc => isDigit_iff.mp ?_⟩, ?_, fun c hc hd => ?_⟩
      · rw [← ht] at hc
        exact List.all_eq_true.mp List.all_takeWhile c hc
      · rw [← ht, List.takeWhile_append_dropWhile]
      · have := head_dropWhile bs c hc
        rw [isDigit_iff.mpr hd] at this
        cases this
  · rintro ⟨⟨h1, h2⟩, rfl, h3⟩
    obtain ⟨e1, e2⟩ := takeWhile_all (p := isDigit) (ds := ds) (r := r) (fun c hc => isDigit_iff.mpr (h2 c hc)) (fun c hc => by
      cases hd : isDigit c with
      | false => rfl
      | true => exact absurd (isDigit_iff.mp hd) (h3 c hc))
    unfold digits1
    rw [e1, e2]
    cases ds with
    | nil => exact absurd rfl h1
    | cons d ds => rfl

/-- What may follow a number. -/
def Stop (r : Bytes) : Prop := ∀ c, r.head? = some c → ¬ IsDigit c ∧ c ≠ 46 ∧ c ≠ 101 ∧ c ≠ 69

theorem number_sound {bs lit r : Bytes} (h : number bs = some (lit, r)) : Spec.Json.Number lit ∧ bs = lit ++ r := by
  unfold number at h
  dsimp only at h
  rw [Option.bind_eq_some_iff] at h
  obtain ⟨⟨i, r1⟩, hi, h⟩ := h
  rw [Option.bind_eq_some_iff] at h
  obtain ⟨⟨f, r2⟩, hf, h⟩ := h
  rw [Option.map_eq_some_iff] at h
  obtain ⟨⟨e, r3⟩, he, h⟩ := h
  cases h
  dsimp only at hf he ⊢
  have hs : ((signPart bs).1 = [] ∨ (signPart bs).1 = [45]) ∧ bs = (signPart bs).1 ++ (signPart bs).2 := by
    unfold signPart
    split
    · exact ⟨.inl rfl, rfl⟩
    · split
      · rename_i e; subst e; exact ⟨.inr rfl, rfl⟩
      · exact ⟨.inl rfl, rfl⟩
  have hI : (i = [48] ∨ (Spec.Json.Digits i ∧ i.head? ≠ some 48)) ∧ (signPart bs).2 = i ++ r1 := by
    generalize (signPart bs).2 = x at hi
    unfold intPart at hi
    split at hi
    · cases hi
    · split at hi
      · rename_i e; cases hi; subst e; exact ⟨.inl rfl, rfl⟩
      · rename_i c cs n48
        obtain ⟨h1, h2, -⟩ := digits1_iff.mp hi
        refine ⟨.inr ⟨h1, ?_⟩, h2⟩
        cases i with
        | nil => simp
        | cons d i =>
          rw [List.cons_append, List.cons.injEq] at h2
          simpa [← h2.1] using n48
  have hF : (f = [] ∨ ∃ ds, f = 46 :: ds ∧ Spec.Json.Digits ds) ∧ r1 = f ++ r2 := by
    unfold fracPart at hf
    split at hf
    · cases hf; exact ⟨.inl rfl, rfl⟩
    · split at hf
      · rename_i e
        subst e
        rw [Option.map_eq_some_iff] at hf
        obtain ⟨⟨ds, r'⟩, hd, e⟩ := hf
        cases e
        obtain ⟨h1, rfl, -⟩ := digits1_iff.mp hd
        exact ⟨.inr ⟨ds, rfl, h1⟩, rfl⟩
      · cases hf; exact ⟨.inl rfl, rfl⟩
  have hE : (e = [] ∨ ∃ x s ds, e = x :: s ++ ds ∧ (x = 101 ∨ x = 69) ∧ (s = [] ∨ s = [43] ∨ s = [45]) ∧ Spec.Json.Digits ds) ∧ r2 = e ++ r3 := by
    unfold expPart at he
    split at he
    · cases he; exact ⟨.inl rfl, rfl⟩
    · split at he
      · rename_i hx
        split at he
        · cases he
        · split at he
          · rename_i hs
            rw [Option.map_eq_some_iff] at he
            obtain ⟨⟨ds, r'⟩, hd, e⟩ := he
            cases e
            obtain ⟨h1, rfl, -⟩ := digits1_iff.mp hd
            refine ⟨.inr ⟨_, [_], ds, rfl, hx, .inr ?_, h1⟩, rfl⟩
            rcases hs with rfl | rfl
            · exact .inl rfl
            · exact .inr rfl
          · rw [Option.map_eq_some_iff] at he
            obtain ⟨⟨ds, r'⟩, hd, e⟩ := he
            cases e
            obtain ⟨h1, h2, -⟩ := digits1_iff.mp hd
            exact ⟨.inr ⟨_, [], ds, rfl, hx, .inl rfl, h1⟩, by rw [h2]; rfl⟩
      · cases he; exact ⟨.inl rfl, rfl⟩
  refine ⟨⟨_, i, f, e, rfl, hs.1, hI.1, hF.1, hE.1⟩, ?_⟩
  calc bs = (signPart bs).1 ++ (signPart bs).2 := hs.2
    _ = (signPart bs).1 ++ (i ++ (f ++ (e ++ r3))) := by rw [hI.2, hF.2, hE.2]
    _ = _ := by simp only [List.append_assoc]

theorem expPart_complete {e r : Bytes} (h : e = [] ∨ ∃ x s ds, e = x :: s ++ ds ∧ (x = 101 ∨ x = 69) ∧ (s = [] ∨ s = [43] ∨ s = [45]) ∧ Spec.Json.Digits ds)
    (hr : Stop r) : expPart (e ++ r) = some (e, r) := by
  rcases h with rfl | ⟨x, s, ds, rfl, hx, hs, hd⟩
  · rw [List.nil_append]
    unfold expPart
    split
    · rfl
    · rename_i c cs
      have := hr c rfl
      rw [if_neg (by rintro (h | h); exact this.2.2.1 h; exact this.2.2.2 h)]
  · have hdr := digits1_iff.mpr ⟨hd, rfl, fun c hc => (hr c hc).1⟩
    rcases hs with rfl | rfl | rfl
    · obtain ⟨h1, h2⟩ := hd
      cases ds with
      | nil => exact absurd rfl h1
      | cons d ds =>
        have hdd := h2 d (by simp)
        rw [List.cons_append] at hdr
        simp only [List.cons_append, List.nil_append]
        unfold expPart
        dsimp only
        rw [if_pos hx, if_neg, hdr]
        · rfl
        · rintro (rfl | rfl)
          · exact absurd hdd (by unfold IsDigit; decide)
          · exact absurd hdd (by unfold IsDigit; decide)
    · simp only [List.cons_append, List.nil_append]
      unfold expPart
      dsimp only
      rw [if_pos hx, if_pos (.inl rfl), hdr]
      rfl
    · simp only [List.cons_append, List.nil_append]
      unfold expPart
      dsimp only
      rw [if_pos hx, if_pos (.inr rfl), hdr]
      rfl

/-- The head of what follows the integer part or the fraction. -/
theorem exp_head {e r : Bytes} (h : e = [] ∨ ∃ x s ds, e = x :: s ++ ds ∧ (x = 101 ∨ x = 69) ∧ (s = [] ∨ s = [43] ∨ s = [45]) ∧ Spec.Json.Digits ds)
    (hr : Stop r) : ∀ c, (e ++ r).head? = some c → ¬ IsDigit c ∧ c ≠ 46 := by
  rcases h with rfl | ⟨x, s, ds, rfl, hx, hs, hd⟩
  · exact fun c hc => ⟨(hr c hc).1, (hr c hc).2.1⟩
  · intro c hc
    simp only [List.cons_append, List.head?_cons, Option.some.injEq] at hc
    subst hc
    rcases hx with rfl | rfl
    · exact ⟨by unfold IsDigit; decide, by decide⟩
    · exact ⟨by unfold IsDigit; decide, by decide⟩

theorem fracPart_complete {f r : Bytes} (h : f = [] ∨ ∃ ds, f = 46 :: ds ∧ Spec.Json.Digits ds) (hr : ∀ c, r.head? = some c → ¬ IsDigit c ∧ c ≠ 46) :
    fracPart (f ++ r) = some (f, r) := by
  rcases h with rfl | ⟨ds, rfl, hd⟩
  · rw [List.nil_append]
    unfold fracPart
    split
    · rfl
    · rename_i c cs
      rw [if_neg (hr c rfl).2]
  · rw [List.cons_append]
    unfold fracPart
    dsimp only
    rw [if_pos rfl, digits1_iff.mpr ⟨hd, rfl, fun c hc => (hr c hc).1⟩]
    rfl

theorem number_complete {lit r : Bytes} (h : Spec.Json.Number lit) (hr : Stop r) : number (lit ++ r) = some (lit, r) := by
  obtain ⟨s, i, f, e, rfl, hs, hi, hf, he⟩ := h
  have h1 := expPart_complete he hr
  have hh := exp_head he hr
  have h2 := fracPart_complete hf hh
  have hh2 : ∀ c, (f ++ (e ++ r)).head? = some c → ¬ IsDigit c := by
    rcases hf with rfl | ⟨ds, rfl, hd⟩
    · exact fun c hc => (hh c hc).1
    · intro c hc
      simp only [List.cons_append, List.head?_cons, Option.some.injEq] at hc
      subst hc
      unfold IsDigit; decide
  have h3 : intPart (i ++ (f ++ (e ++ r))) = some (i, f ++ (e ++ r)) := by
    rcases hi with rfl | ⟨hd, h48⟩
    · rfl
    · have hdr := digits1_iff.mpr ⟨hd, rfl, hh2⟩
      cases i with
      | nil => exact absurd rfl hd.1
      | cons d i =>
        rw [List.cons_append] at hdr ⊢
        unfold intPart
        dsimp only
        rw [if_neg (by rintro rfl; exact h48 rfl), hdr]
  have h4 : signPart (s ++ (i ++ (f ++ (e ++ r)))) = (s, i ++ (f ++ (e ++ r))) := by
    rcases hs with rfl | rfl
    · rw [List.nil_append]
      unfold signPart
      split
      · rename_i heq; rw [heq]
      · rename_i c cs heq
        rw [if_neg, ← heq]
        rintro rfl
        rcases hi with rfl | ⟨hd, h48⟩
        · cases heq
        · cases i with
          | nil => exact hd.1 rfl
          | cons d i =>
            cases heq
            have := hd.2 45 (by simp)
            exact absurd this (by unfold IsDigit; decide)
    · rfl
  unfold number
  simp only [List.append_assoc]
  rw [h4]
  dsimp only
  rw [h3, Option.bind_some, h2, Option.bind_some, h1]
  simp only [Option.map_some]

/-- The first byte of a number. -/
theorem number_head {lit : Bytes} (h : Spec.Json.Number lit) : ∃ c cs, lit = c :: cs ∧ (c = 45 ∨ IsDigit c) := by
  obtain ⟨s, i, f, e, rfl, hs, hi, -⟩ := h
  rcases hs with rfl | rfl
  · rcases hi with rfl | ⟨hd, -⟩
    · exact ⟨48, _, rfl, .inr (by unfold IsDigit; decide)⟩
    · cases i with
      | nil => exact absurd rfl hd.1
      | cons d i => exact ⟨d, _, rfl, .inr (hd.2 d (by simp))⟩
  · exact ⟨45, _, rfl, .inl rfl⟩

/-! Values -/

theorem isSpace_iff {c : UInt8} : isSpace c = true ↔ c = 32 ∨ c = 9 ∨ c = 13 ∨ c = 10 := by
  simp [isSpace, or_assoc]

theorem skip_white {w : Bytes} (hw : Spec.Json.White w) {c : UInt8} (hc : isSpace c = false) (cs : Bytes) : skip (w ++ c :: cs) = c :: cs :=
  (takeWhile_all (fun c hc => isSpace_iff.mpr (hw c hc)) (fun d hd => by cases hd; exact hc)).2

theorem skip_all {w : Bytes} (hw : Spec.Json.White w) : skip w = [] := by
  have := (takeWhile_all (p := isSpace) (ds := w) (r := []) (fun c hc => isSpace_iff.mpr (hw c hc)) (fun d hd => by cases hd)).2
  rw [List.append_nil] at this
  exact this

theorem skip_spec (bs : Bytes) : ∃ w, Spec.Json.White w ∧ bs = w ++ skip bs :=
  ⟨bs.takeWhile isSpace, fun c hc => isSpace_iff.mp (List.all_eq_true.mp List.all_takeWhile c hc), (List.takeWhile_append_dropWhile).symm⟩

theorem literal_iff {name : Bytes} {j j' : Json} {bs r : Bytes} : literal name j bs = some (j', r) ↔ j' = j ∧ bs = name ++ r := by
  unfold literal
  constructor
  · intro h
    split at h
    · rename_i e
      cases h
      exact ⟨rfl, by conv => lhs; rw [← List.take_append_drop name.length bs, e]⟩
    · cases h
  · rintro ⟨rfl, rfl⟩
    rw [if_pos (by simp), List.drop_left]

/-- The parser accepts only texts of the grammar. -/
theorem sound : ∀ (n : Nat),
    (∀ d bs j r, value n d bs = some (j, r) → ∃ w t, Spec.Json.White w ∧ Spec.Json.Text d t j ∧ bs = w ++ t ++ r) ∧
    (∀ d bs js r, elements n d bs = some (js, r) → ∃ t, Spec.Json.Elements d t js ∧ bs = t ++ 93 :: r) ∧
    (∀ d bs kvs r, members n d bs = some (kvs, r) → ∃ t, Spec.Json.Members d t kvs ∧ bs = t ++ 125 :: r)
  | 0 => ⟨fun d bs j r h => (by rw [value.eq_def] at h; cases h), fun d bs j r h => (by rw [elements.eq_def] at h; cases h),
      fun d bs j r h => (by rw [members.eq_def] at h; cases h)⟩
  | n + 1 => by
    obtain ⟨ihv, ihe, ihm⟩ := sound n
    refine ⟨?_, ?_, ?_⟩
    · intro d bs j r h
      obtain ⟨w, hw, hbs⟩ := skip_spec bs
      rw [value.eq_def] at h
      dsimp only at h
      split at h
      · cases h
      rename_i c cs hsk
      rw [hsk] at hbs
      refine ⟨w, ?_⟩
      suffices ∃ t, Spec.Json.Text d t j ∧ c :: cs = t ++ r by
        obtain ⟨t, h1, h2⟩ := this
        exact ⟨t, hw, h1, by rw [hbs, h2, List.append_assoc]⟩
      obtain ⟨w', hw', hcs⟩ := skip_spec cs
      split at h
      · rename_i e
        subst e
        split at h
        · cases h
        rename_i d
        split at h
        · cases h
        rename_i c' rest hsk'
        rw [hsk'] at hcs
        split at h
        · rename_i e
          subst e
          cases h
          exact ⟨_, .emptyObj d w' hw', by rw [hcs]; simp⟩
        · rw [Option.map_eq_some_iff] at h
          obtain ⟨⟨kvs, r'⟩, hm, e⟩ := h
          cases e
          obtain ⟨t, h1, h2⟩ := ihm _ _ _ _ hm
          exact ⟨_, .obj d t kvs h1, by rw [h2]; simp⟩
      split at h
      · rename_i e
        subst e
        split at h
        · cases h
        rename_i d
        split at h
        · cases h
        rename_i c' rest hsk'
        rw [hsk'] at hcs
        split at h
        · rename_i e
          subst e
          cases h
          exact ⟨_, .emptyArr d w' hw', by rw [hcs]; simp⟩
        · rw [Option.map_eq_some_iff] at h
          obtain ⟨⟨kvs, r'⟩, hm, e⟩ := h
          cases e
          obtain ⟨t, h1, h2⟩ := ihe _ _ _ _ hm
          exact ⟨_, .arr d t kvs h1, by rw [h2]; simp⟩
      split at h
      · rename_i e
        subst e
        rw [Option.map_eq_some_iff] at h
        obtain ⟨⟨raw, r'⟩, hm, e⟩ := h
        cases e
        obtain ⟨h1, h2⟩ := strBody_iff.mp hm
        refine ⟨34 :: raw ++ [34], ?_, by rw [h1]; simp⟩
        have := Spec.Json.Text.str d raw _ h2
        rw [show (chars raw).flatMap encodeRune = (chars raw).flatMap String.utf8EncodeChar by congr 1; funext c; exact encodeRune_eq c]
        exact this
      split at h
      · obtain ⟨rfl, h2⟩ := literal_iff.mp h
        exact ⟨_, .true d, h2⟩
      split at h
      · obtain ⟨rfl, h2⟩ := literal_iff.mp h
        exact ⟨_, .false d, h2⟩
      split at h
      · obtain ⟨rfl, h2⟩ := literal_iff.mp h
        exact ⟨_, .null d, h2⟩
      · rw [Option.map_eq_some_iff] at h
        obtain ⟨⟨lit, r'⟩, hm, e⟩ := h
        cases e
        obtain ⟨h1, h2⟩ := number_sound hm
        exact ⟨_, .num d lit h1, h2⟩
    · intro d bs js r h
      rw [elements.eq_def] at h
      dsimp only at h
      split at h
      · cases h
      rename_i j rest hv
      obtain ⟨w, t, hw, ht, rfl⟩ := ihv _ _ _ _ hv
      obtain ⟨w', hw', hr⟩ := skip_spec rest
      split at h
      · cases h
      rename_i c rest' hsk
      rw [hsk] at hr
      subst hr
      split at h
      · rename_i e
        subst e
        rw [Option.map_eq_some_iff] at h
        obtain ⟨⟨js', r'⟩, hm, e⟩ := h
        cases e
        obtain ⟨t', h1, rfl⟩ := ihe _ _ _ _ hm
        exact ⟨_, .more d w t w' t' j js' hw ht hw' h1, by simp⟩
      · split at h
        · rename_i e
          subst e
          cases h
          exact ⟨_, .one d w t w' j hw ht hw', by simp⟩
        · cases h
    · intro d bs kvs r h
      rw [members.eq_def] at h
      dsimp only at h
      obtain ⟨w1, hw1, hbs⟩ := skip_spec bs
      split at h
      · cases h
      rename_i q cs hsk
      rw [hsk] at hbs
      subst hbs
      split at h
      · rename_i e
        subst e
        split at h
        · cases h
        rename_i key rest hk
        obtain ⟨rfl, hkey⟩ := strBody_iff.mp hk
        obtain ⟨w2, hw2, hr⟩ := skip_spec rest
        split at h
        · cases h
        rename_i c rest' hsk'
        rw [hsk'] at hr
        subst hr
        split at h
        · rename_i e
          subst e
          split at h
          · cases h
          rename_i j rest hv
          obtain ⟨w3, t, hw3, ht, rfl⟩ := ihv _ _ _ _ hv
          obtain ⟨w4, hw4, hr⟩ := skip_spec rest
          split at h
          · cases h
          rename_i c rest' hsk'
          rw [hsk'] at hr
          subst hr
          split at h
          · rename_i e
            subst e
            rw [Option.map_eq_some_iff] at h
            obtain ⟨⟨js', r'⟩, hm, e⟩ := h
            cases e
            obtain ⟨t', h1, rfl⟩ := ihm _ _ _ _ hm
            exact ⟨_, .more d w1 key w2 w3 t w4 t' _ j js' hw1 hkey hw2 hw3 ht hw4 h1, by simp⟩
          · split at h
            · rename_i e
              subst e
              cases h
              exact ⟨_, .one d w1 key w2 w3 t w4 _ j hw1 hkey hw2 hw3 ht hw4, by simp⟩
            · cases h
        · cases h
      · cases h

/-- The first byte of a value. -/
theorem text_head {d : Nat} {t : Bytes} {j : Json} (h : Spec.Json.Text d t j) : ∃ c cs, t = c :: cs ∧ isSpace c = false ∧ c ≠ 93 ∧ c ≠ 125 := by
  have hnum : ∀ c : UInt8, c = 45 ∨ IsDigit c → isSpace c = false ∧ c ≠ 93 ∧ c ≠ 125 := by
    intro c hc
    refine ⟨?_, ?_, ?_⟩
    · cases hs : isSpace c with
      | false => rfl
      | true =>
        rcases isSpace_iff.mp hs with rfl | rfl | rfl | rfl <;> exact absurd hc (by unfold IsDigit; decide)
    · rintro rfl; exact absurd hc (by unfold IsDigit; decide)
    · rintro rfl; exact absurd hc (by unfold IsDigit; decide)
  cases h with
  | num _ _ h =>
    obtain ⟨c, cs, e, hc⟩ := number_head h
    exact ⟨c, cs, e, hnum c hc⟩
  | null => exact ⟨_, _, rfl, by decide, by decide, by decide⟩
  | true => exact ⟨_, _, rfl, by decide, by decide, by decide⟩
  | false => exact ⟨_, _, rfl, by decide, by decide, by decide⟩
  | str => exact ⟨_, _, rfl, by decide, by decide, by decide⟩
  | emptyArr => exact ⟨_, _, rfl, by decide, by decide, by decide⟩
  | arr => exact ⟨_, _, rfl, by decide, by decide, by decide⟩
  | emptyObj => exact ⟨_, _, rfl, by decide, by decide, by decide⟩
  | obj => exact ⟨_, _, rfl, by decide, by decide, by decide⟩

theorem stop_white {w : Bytes} (hw : Spec.Json.White w) {r : Bytes} (hr : Stop r) : Stop (w ++ r) := by
  cases w with
  | nil => exact hr
  | cons c w =>
    intro x hx
    cases hx
    rcases hw c (by simp) with rfl | rfl | rfl | rfl <;> (unfold IsDigit; decide)

theorem stop_cons {c : UInt8} (h : c = 44 ∨ c = 93 ∨ c = 125) (r : Bytes) : Stop (c :: r) := by
  intro x hx
  cases hx
  rcases h with rfl | rfl | rfl <;> (unfold IsDigit; decide)

theorem elements_head {d : Nat} {bs : Bytes} {js : List Json} (h : Spec.Json.Elements d bs js) (r : Bytes) :
    ∃ c cs, skip (bs ++ r) = c :: cs ∧ c ≠ 93 := by
  cases h with
  | one _ w1 t w2 j hw1 ht hw2 =>
    obtain ⟨c, cs, rfl, hs, h93, -⟩ := text_head ht
    exact ⟨c, cs ++ w2 ++ r, by rw [show w1 ++ c :: cs ++ w2 ++ r = w1 ++ c :: (cs ++ w2 ++ r) by simp, skip_white hw1 hs], h93⟩
  | more _ w1 t w2 bs j js hw1 ht hw2 =>
    obtain ⟨c, cs, rfl, hs, h93, -⟩ := text_head ht
    exact ⟨c, cs ++ w2 ++ 44 :: bs ++ r, by rw [show w1 ++ c :: cs ++ w2 ++ 44 :: bs ++ r = w1 ++ c :: (cs ++ w2 ++ 44 :: bs ++ r) by simp, skip_white hw1 hs], h93⟩

theorem members_head {d : Nat} {bs : Bytes} {kvs : List (String × Json)} (h : Spec.Json.Members d bs kvs) (r : Bytes) :
    ∃ cs, skip (bs ++ r) = 34 :: cs := by
  cases h with
  | one _ w1 raw w2 w3 t w4 cs j hw1 =>
    refine ⟨raw ++ 34 :: w2 ++ 58 :: w3 ++ t ++ w4 ++ r, ?_⟩
    rw [show w1 ++ 34 :: raw ++ 34 :: w2 ++ 58 :: w3 ++ t ++ w4 ++ r = w1 ++ 34 :: (raw ++ 34 :: w2 ++ 58 :: w3 ++ t ++ w4 ++ r) by simp, skip_white hw1 (by decide)]
  | more _ w1 raw w2 w3 t w4 bs cs j kvs hw1 =>
    refine ⟨raw ++ 34 :: w2 ++ 58 :: w3 ++ t ++ w4 ++ 44 :: bs ++ r, ?_⟩
    rw [show w1 ++ 34 :: raw ++ 34 :: w2 ++ 58 :: w3 ++ t ++ w4 ++ 44 :: bs ++ r = w1 ++ 34 :: (raw ++ 34 :: w2 ++ 58 :: w3 ++ t ++ w4 ++ 44 :: bs ++ r) by simp,
      skip_white hw1 (by decide)]

mutual

/-- The parser accepts every text of the grammar. -/
theorem complete_text {d : Nat} {t : Bytes} {j : Json} (h : Spec.Json.Text d t j) : ∀ (n : Nat) (w r : Bytes), t.length < n → Spec.Json.White w → Stop r →
    value n d (w ++ t ++ r) = some (j, r) := by
  intro n w r hn hw hr
  obtain ⟨c, cs, hc, hs, -⟩ := text_head h
  obtain ⟨n, rfl⟩ : ∃ k, n = k + 1 := ⟨n - 1, by omega⟩
  have hsk : skip (w ++ t ++ r) = t ++ r := by rw [hc, List.append_assoc, List.cons_append, skip_white hw hs]
  rw [value.eq_def]
  dsimp only
  rw [hsk]
  cases h with
  | null => rfl
  | true => rfl
  | false => rfl
  | num _ _ h =>
    have hnum := number_complete h hr
    obtain ⟨c', cs', e, hc'⟩ := number_head h
    rw [e] at hnum ⊢
    rw [List.cons_append] at hnum ⊢
    dsimp only
    have hne : ∀ x : UInt8, ¬ (x = 45 ∨ IsDigit x) → c' ≠ x := fun x hx hcx => hx (hcx ▸ hc')
    rw [if_neg (hne _ (by unfold IsDigit; decide)), if_neg (hne _ (by unfold IsDigit; decide)), if_neg (hne _ (by unfold IsDigit; decide)),
      if_neg (hne _ (by unfold IsDigit; decide)), if_neg (hne _ (by unfold IsDigit; decide)), if_neg (hne _ (by unfold IsDigit; decide)), hnum]
    rfl
  | str _ raw cs' hstr =>
    have hb : strBody (raw ++ 34 :: r) = some (raw, r) := strBody_iff.mpr ⟨rfl, by rw [chars_str hstr]; exact hstr⟩
    rw [show 34 :: raw ++ [34] ++ r = 34 :: (raw ++ 34 :: r) by simp]
    dsimp only
    rw [if_neg (by decide), if_neg (by decide), if_pos rfl, hb]
    simp only [Option.map_some, chars_str hstr]
    rw [show cs'.flatMap encodeRune = cs'.flatMap String.utf8EncodeChar by congr 1; funext c; exact encodeRune_eq c]
  | emptyArr d w' hw' =>
    rw [show 91 :: w' ++ [93] ++ r = 91 :: (w' ++ 93 :: r) by simp]
    dsimp only
    rw [if_neg (by decide), if_pos rfl, skip_white hw' (by decide)]
    dsimp only
    rw [if_pos rfl]
  | arr d bs js h =>
    rw [show 91 :: bs ++ [93] ++ r = 91 :: (bs ++ 93 :: r) by simp]
    dsimp only
    obtain ⟨c', cs', hsk', hne⟩ := elements_head h (93 :: r)
    rw [if_neg (by decide), if_pos rfl, hsk']
    dsimp only
    simp only [List.cons_append, List.length_cons, List.length_append, List.length_nil] at hn
    rw [if_neg hne, complete_elements h n r (by omega)]
    rfl
  | emptyObj d w' hw' =>
    rw [show 123 :: w' ++ [125] ++ r = 123 :: (w' ++ 125 :: r) by simp]
    dsimp only
    rw [if_pos rfl, skip_white hw' (by decide)]
    dsimp only
    rw [if_pos rfl]
  | obj d bs kvs h =>
    rw [show 123 :: bs ++ [125] ++ r = 123 :: (bs ++ 125 :: r) by simp]
    dsimp only
    obtain ⟨cs', hsk'⟩ := members_head h (125 :: r)
    rw [if_pos rfl, hsk']
    dsimp only
    simp only [List.cons_append, List.length_cons, List.length_append, List.length_nil] at hn
    rw [if_neg (by decide), complete_members h n r (by omega)]
    rfl

theorem complete_elements {d : Nat} {bs : Bytes} {js : List Json} (h : Spec.Json.Elements d bs js) : ∀ (n : Nat) (r : Bytes), bs.length + 1 < n →
    elements n d (bs ++ 93 :: r) = some (js, r) := by
  intro n r hn
  obtain ⟨n, rfl⟩ : ∃ k, n = k + 1 := ⟨n - 1, by omega⟩
  rw [elements.eq_def]
  dsimp only
  cases h with
  | one _ w1 t w2 j hw1 ht hw2 =>
    simp only [List.length_append] at hn
    have := complete_text ht n w1 (w2 ++ 93 :: r) (by omega) hw1 (stop_white hw2 (stop_cons (.inr (.inl rfl)) r))
    rw [show w1 ++ t ++ w2 ++ 93 :: r = w1 ++ t ++ (w2 ++ 93 :: r) by simp, this]
    dsimp only
    rw [skip_white hw2 (by decide)]
    dsimp only
    rw [if_neg (by decide), if_pos rfl]
  | more _ w1 t w2 bs' j js' hw1 ht hw2 he =>
    simp only [List.length_append, List.length_cons] at hn
    have := complete_text ht n w1 (w2 ++ 44 :: (bs' ++ 93 :: r)) (by omega) hw1 (stop_white hw2 (stop_cons (.inl rfl) _))
    rw [show w1 ++ t ++ w2 ++ 44 :: bs' ++ 93 :: r = w1 ++ t ++ (w2 ++ 44 :: (bs' ++ 93 :: r)) by simp, this]
    dsimp only
    rw [skip_white hw2 (by decide)]
    dsimp only
    rw [if_pos rfl, complete_elements he n r (by omega)]
    rfl

theorem complete_members {d : Nat} {bs : Bytes} {kvs : List (String × Json)} (h : Spec.Json.Members d bs kvs) : ∀ (n : Nat) (r : Bytes), bs.length + 1 < n →
    members n d (bs ++ 125 :: r) = some (kvs, r) := by
  intro n r hn
  obtain ⟨n, rfl⟩ : ∃ k, n = k + 1 := ⟨n - 1, by omega⟩
  rw [members.eq_def]
  dsimp only
  cases h with
  | one _ w1 raw w2 w3 t w4 cs j hw1 hs hw2 hw3 ht hw4 =>
    simp only [List.length_append, List.length_cons] at hn
    have hb : strBody (raw ++ 34 :: (w2 ++ 58 :: (w3 ++ t ++ (w4 ++ 125 :: r)))) = some (raw, _) := strBody_iff.mpr ⟨rfl, by rw [chars_str hs]; exact hs⟩
    have := complete_text ht n w3 (w4 ++ 125 :: r) (by omega) hw3 (stop_white hw4 (stop_cons (.inr (.inr rfl)) r))
    rw [show w1 ++ 34 :: raw ++ 34 :: w2 ++ 58 :: w3 ++ t ++ w4 ++ 125 :: r = w1 ++ 34 :: (raw ++ 34 :: (w2 ++ 58 :: (w3 ++ t ++ (w4 ++ 125 :: r)))) by simp,
      skip_white hw1 (by decide)]
    dsimp only
    rw [if_pos rfl, hb]
    dsimp only
    rw [skip_white hw2 (by decide)]
    dsimp only
    rw [if_pos rfl, this]
    dsimp only
    rw [skip_white hw4 (by decide)]
    dsimp only
    rw [if_neg (by decide), if_pos rfl, chars_str hs]
  | more _ w1 raw w2 w3 t w4 bs' cs j kvs' hw1 hs hw2 hw3 ht hw4 hm =>
    simp only [List.length_append, List.length_cons] at hn
    have hb : strBody (raw ++ 34 :: (w2 ++ 58 :: (w3 ++ t ++ (w4 ++ 44 :: (bs' ++ 125 :: r))))) = some (raw, _) :=
      strBody_iff.mpr ⟨rfl, by rw [chars_str hs]; exact hs⟩
    have := complete_text ht n w3 (w4 ++ 44 :: (bs' ++ 125 :: r)) (by omega) hw3 (stop_white hw4 (stop_cons (.inl rfl) _))
    rw [show w1 ++ 34 :: raw ++ 34 :: w2 ++ 58 :: w3 ++ t ++ w4 ++ 44 :: bs' ++ 125 :: r =
        w1 ++ 34 :: (raw ++ 34 :: (w2 ++ 58 :: (w3 ++ t ++ (w4 ++ 44 :: (bs' ++ 125 :: r))))) by simp, skip_white hw1 (by decide)]
    dsimp only
    rw [if_pos rfl, hb]
    dsimp only
    rw [skip_white hw2 (by decide)]
    dsimp only
    rw [if_pos rfl, this]
    dsimp only
    rw [skip_white hw4 (by decide)]
    dsimp only
    rw [if_pos rfl, complete_members hm n r (by omega), chars_str hs]
    rfl

end

theorem parse_iff {bs : Bytes} {j : Json} : parse bs = some j ↔ Spec.Json.Document bs j := by
  unfold parse
  constructor
  · intro h
    split at h
    · cases h
    · rename_i j' rest hv
      split at h
      · rename_i hs
        cases h
        obtain ⟨w, t, hw, ht, rfl⟩ := (sound _).1 _ _ _ _ hv
        obtain ⟨w', hw', hr⟩ := skip_spec rest
        rw [hs, List.append_nil] at hr
        subst hr
        exact ⟨w, t, _, hw, hw', ht, rfl⟩
      · cases h
  · rintro ⟨w1, t, w2, hw1, hw2, ht, rfl⟩
    have hst : Stop w2 := by
      have := stop_white hw2 (r := []) (fun c hc => by cases hc)
      rwa [List.append_nil] at this
    rw [show maxDepth = 10000 from rfl, complete_text ht _ w1 w2 (by simp only [List.length_append]; omega) hw1 hst]
    dsimp only
    rw [if_pos (skip_all hw2)]

end Goslide.Json
