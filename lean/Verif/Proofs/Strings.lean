import Verif.Spec.Xcrepo
/-
Lemmas on `split`, `atoi`, lines.
-/
namespace Goslide
open Spec

theorem split_ne_nil (sep : UInt8) (s : Bytes) : split sep s ≠ [] := by
  cases s with
  | nil => simp [split]
  | cons c cs =>
    unfold split
    split
    · simp
    · split <;> simp

theorem join_split (sep : UInt8) (s : Bytes) : joinWith sep (split sep s) = s := by
  induction s with
  | nil => rfl
  | cons c cs ih =>
    unfold split
    by_cases h : c = sep
    · rw [if_pos h]
      obtain ⟨t, ts, ht⟩ := List.exists_cons_of_ne_nil (split_ne_nil sep cs)
      rw [ht] at ih ⊢
      show [] ++ sep :: joinWith sep (t :: ts) = _
      rw [ih, h]; rfl
    · rw [if_neg h]
      obtain ⟨t, ts, ht⟩ := List.exists_cons_of_ne_nil (split_ne_nil sep cs)
      rw [ht] at ih ⊢
      cases ts with
      | nil =>
        simp only [joinWith] at ih ⊢
        rw [ih]
      | cons t' ts =>
        simp only [joinWith] at ih ⊢
        rw [List.cons_append, ih]

theorem split_free (sep : UInt8) (s : Bytes) : ∀ t ∈ split sep s, sep ∉ t := by
  induction s with
  | nil => simp [split]
  | cons c cs ih =>
    unfold split
    by_cases h : c = sep
    · rw [if_pos h]
      intro t ht
      rcases List.mem_cons.mp ht with rfl | ht
      · simp
      · exact ih t ht
    · rw [if_neg h]
      obtain ⟨t, ts, hts⟩ := List.exists_cons_of_ne_nil (split_ne_nil sep cs)
      rw [hts] at ih ⊢
      intro u hu
      rcases List.mem_cons.mp hu with rfl | hu
      · have := ih t (by simp)
        simp only [List.mem_cons, not_or]
        exact ⟨fun e => h e.symm, this⟩
      · exact ih u (by simp [hu])

theorem split_single (sep : UInt8) (t : Bytes) (h : sep ∉ t) : split sep t = [t] := by
  induction t with
  | nil => rfl
  | cons c cs ih =>
    simp only [List.mem_cons, not_or] at h
    unfold split
    rw [if_neg (fun e => h.1 e.symm), ih h.2]

theorem split_append (sep : UInt8) (t rest : Bytes) (h : sep ∉ t) :
    split sep (t ++ sep :: rest) = t :: split sep rest := by
  induction t with
  | nil => simp [split]
  | cons c cs ih =>
    simp only [List.mem_cons, not_or] at h
    rw [List.cons_append]
    conv => lhs; unfold split
    rw [if_neg (fun e => h.1 e.symm), ih h.2]

/-- Splitting a joined list, the last part of which may contain separators. -/
theorem split_join_append (sep : UInt8) (pre post : List Bytes) (bad : Bytes)
    (h : ∀ t ∈ pre, sep ∉ t) (hb : sep ∉ bad) :
    ∃ post', split sep (joinWith sep (pre ++ bad :: post)) = pre ++ bad :: post' := by
  induction pre with
  | nil =>
    cases post with
    | nil => exact ⟨[], split_single sep bad hb⟩
    | cons p post => exact ⟨_, split_append sep bad _ hb⟩
  | cons t pre ih =>
    obtain ⟨post', hp⟩ := ih (fun t ht => h t (by simp [ht]))
    refine ⟨post', ?_⟩
    have : ∃ u us, pre ++ bad :: post = u :: us := by
      cases pre with
      | nil => exact ⟨_, _, rfl⟩
      | cons a as => exact ⟨_, _, rfl⟩
    obtain ⟨u, us, hu⟩ := this
    rw [hu] at hp
    rw [List.cons_append, hu]
    show split sep (t ++ sep :: joinWith sep (u :: us)) = _
    rw [split_append sep t _ (h t (by simp)), hp]; rfl

theorem split_join (sep : UInt8) (toks : List Bytes) (hne : toks ≠ []) (h : ∀ t ∈ toks, sep ∉ t) :
    split sep (joinWith sep toks) = toks := by
  induction toks with
  | nil => exact absurd rfl hne
  | cons t ts ih =>
    cases ts with
    | nil => exact split_single sep t (h t (by simp))
    | cons u us =>
      show split sep (t ++ sep :: joinWith sep (u :: us)) = _
      rw [split_append sep t _ (h t (by simp)), ih (by simp) (fun t ht => h t (by simp [ht]))]

theorem mem_joinWith (sep c : UInt8) (toks : List Bytes) (h : c ∈ joinWith sep toks) :
    c = sep ∨ ∃ t ∈ toks, c ∈ t := by
  induction toks with
  | nil => simp [joinWith] at h
  | cons t ts ih =>
    cases ts with
    | nil => exact Or.inr ⟨t, by simp, h⟩
    | cons u us =>
      rw [joinWith, List.mem_append, List.mem_cons] at h
      · rcases h with h | h | h
        · exact Or.inr ⟨t, by simp, h⟩
        · exact Or.inl h
        · rcases ih h with h | ⟨v, hv, h⟩
          · exact Or.inl h
          · exact Or.inr ⟨v, by simp [hv], h⟩
      · simp

theorem mem_joinWith_of (sep c : UInt8) (toks : List Bytes) (t : Bytes) (ht : t ∈ toks) (hc : c ∈ t) :
    c ∈ joinWith sep toks := by
  induction toks with
  | nil => simp at ht
  | cons u us ih =>
    cases us with
    | nil =>
      simp only [List.mem_singleton] at ht
      subst ht; exact hc
    | cons v vs =>
      show c ∈ u ++ sep :: joinWith sep (v :: vs)
      rw [List.mem_append, List.mem_cons]
      rcases List.mem_cons.mp ht with rfl | ht
      · exact Or.inl hc
      · exact Or.inr (Or.inr (ih ht))

/-! ### Numbers -/

theorem digitsVal_digits (ds : Bytes) : ∀ acc : Nat, (∀ c ∈ ds, IsDigit c) →
    digitsVal acc ds = some (ds.foldl (fun a c => a * 10 + (c.toNat - 48)) acc) := by
  induction ds with
  | nil => intro acc _; rfl
  | cons c cs ih =>
    intro acc h
    have hc := h c (by simp)
    unfold digitsVal digitVal
    rw [if_pos (show 48 ≤ c.toNat ∧ c.toNat ≤ 57 from hc)]
    exact ih _ (fun d hd => h d (by simp [hd]))

theorem digitsVal_some (ds : Bytes) : ∀ (acc n : Nat), digitsVal acc ds = some n → ∀ c ∈ ds, IsDigit c := by
  induction ds with
  | nil => intro _ _ _ c hc; simp at hc
  | cons c cs ih =>
    intro acc n h d hd
    unfold digitsVal digitVal at h
    by_cases hc : 48 ≤ c.toNat ∧ c.toNat ≤ 57
    · rw [if_pos hc] at h
      rcases List.mem_cons.mp hd with rfl | hd
      · exact hc
      · exact ih _ _ h d hd
    · rw [if_neg hc] at h; simp at h

theorem unsigned_iff (ds : Bytes) (n : Nat) :
    unsigned ds = some n ↔ ds ≠ [] ∧ (∀ c ∈ ds, IsDigit c) ∧ n = natOfDigits ds := by
  unfold unsigned
  by_cases h : ds = []
  · rw [if_pos h]
    constructor
    · intro h2; simp at h2
    · intro h2; exact absurd h h2.1
  · rw [if_neg h]
    constructor
    · intro hd
      have hdig := digitsVal_some _ _ _ hd
      refine ⟨h, hdig, ?_⟩
      rw [digitsVal_digits ds 0 hdig, Option.some.injEq] at hd
      exact hd.symm
    · rintro ⟨-, hdig, rfl⟩
      exact digitsVal_digits ds 0 hdig

theorem atoi_iff (t : Bytes) (v : Int) : atoi t = some v ↔ WritesInt t v := by
  cases t with
  | nil =>
    constructor
    · intro h; simp [atoi] at h
    · rintro ⟨-, -, ds, hne, -, h | h | h⟩
      · exact absurd h.1.symm hne
      · simp at h
      · simp at h
  | cons c cs =>
    rw [atoi]
    by_cases hc : c = 45
    · rw [if_pos hc, Option.bind_eq_some_iff]
      subst hc
      constructor
      · rintro ⟨n, hn, h⟩
        obtain ⟨h1, h2, h3⟩ := (unsigned_iff cs n).mp hn
        by_cases hle : n ≤ 2 ^ 63
        · rw [if_pos hle, Option.some.injEq] at h
          refine ⟨by omega, by omega, cs, h1, h2, Or.inr (Or.inr ⟨rfl, ?_⟩)⟩
          rw [← h, h3]
        · rw [if_neg hle] at h; simp at h
      · rintro ⟨h1, h2, ds, hne, hdig, h | h | h⟩
        · have := hdig 45 (by rw [← h.1]; simp)
          exact absurd this.1 (by decide)
        · exact absurd (List.cons.inj h.1).1 (by decide)
        · have := (List.cons.inj h.1).2
          subst this
          refine ⟨natOfDigits cs, (unsigned_iff cs _).mpr ⟨hne, hdig, rfl⟩, ?_⟩
          rw [if_pos (by have := h.2; omega), h.2]
    · rw [if_neg hc, Option.bind_eq_some_iff]
      constructor
      · rintro ⟨n, hn, h⟩
        obtain ⟨h1, h2, h3⟩ := (unsigned_iff _ n).mp hn
        by_cases hle : n < 2 ^ 63
        · rw [if_pos hle, Option.some.injEq] at h
          refine ⟨by omega, by omega, _, h1, h2, ?_⟩
          by_cases hp : c = 43
          · subst hp
            rw [if_pos rfl] at h3 ⊢
            exact Or.inr (Or.inl ⟨rfl, by rw [← h, h3]⟩)
          · rw [if_neg hp] at h3 ⊢
            exact Or.inl ⟨rfl, by rw [← h, h3]⟩
        · rw [if_neg hle] at h; simp at h
      · rintro ⟨h1, h2, ds, hne, hdig, h | h | h⟩
        · have hp : c ≠ 43 := by
            intro e
            have := hdig c (by rw [← h.1]; simp)
            rw [e] at this
            exact absurd this.1 (by decide)
          rw [if_neg hp, h.1]
          exact ⟨natOfDigits ds, (unsigned_iff ds _).mpr ⟨hne, hdig, rfl⟩,
            by rw [if_pos (by have := h.2; omega), h.2]⟩
        · have he := List.cons.inj h.1
          rw [if_pos he.1, he.2]
          exact ⟨natOfDigits ds, (unsigned_iff ds _).mpr ⟨hne, hdig, rfl⟩,
            by rw [if_pos (by have := h.2; omega), h.2]⟩
        · exact absurd (List.cons.inj h.1).1 hc

theorem atoi_none_iff (t : Bytes) : atoi t = none ↔ ¬ ∃ v, WritesInt t v := by
  constructor
  · rintro h ⟨v, hv⟩
    rw [(atoi_iff t v).mpr hv] at h; simp at h
  · intro h
    cases hv : atoi t with
    | none => rfl
    | some v => exact absurd ⟨v, (atoi_iff t v).mp hv⟩ h

theorem Spec.WritesInt.unique {t : Bytes} {v w : Int} (h1 : WritesInt t v) (h2 : WritesInt t w) : v = w := by
  have := (atoi_iff t v).mpr h1
  rw [(atoi_iff t w).mpr h2] at this
  exact (Option.some.inj this).symm

/-- An integer token consists of sign and digit bytes. -/
theorem Spec.WritesInt.not_mem {t : Bytes} {v : Int} (h : WritesInt t v) (c : UInt8)
    (hc : c.toNat < 43 ∨ c.toNat = 44 ∨ 57 < c.toNat) : c ∉ t := by
  obtain ⟨-, -, ds, -, hdig, h⟩ := h
  have hd : c ∉ ds := by
    intro hm
    have := hdig c hm
    unfold IsDigit at this
    omega
  rcases h with h | h | h
  · rw [h.1]; exact hd
  · rw [h.1, List.mem_cons, not_or]
    refine ⟨?_, hd⟩
    intro e; subst e; revert hc; decide
  · rw [h.1, List.mem_cons, not_or]
    refine ⟨?_, hd⟩
    intro e; subst e; revert hc; decide

theorem Spec.WritesInt.ne_nil {t : Bytes} {v : Int} (h : WritesInt t v) : t ≠ [] := by
  obtain ⟨-, -, ds, hne, -, h⟩ := h
  rcases h with h | h | h
  · rw [h.1]; exact hne
  · rw [h.1]; simp
  · rw [h.1]; simp

/-! ### Decimal output -/

theorem foldl_digits_append (a b : Bytes) : natOfDigits (a ++ b) =
    b.foldl (fun a c => a * 10 + (c.toNat - 48)) (natOfDigits a) := by
  unfold natOfDigits; rw [List.foldl_append]

theorem digitByte (d : Nat) (h : d < 10) : (UInt8.ofNat (48 + d)).toNat = 48 + d := by
  simp [UInt8.toNat_ofNat']; omega

theorem showDigits_spec : ∀ (fuel n : Nat), n < fuel →
    showDigits fuel n ≠ [] ∧ (∀ c ∈ showDigits fuel n, IsDigit c) ∧ natOfDigits (showDigits fuel n) = n := by
  intro fuel
  induction fuel with
  | zero => intro n h; omega
  | succ fuel ih =>
    intro n h
    have hb := digitByte (n % 10) (Nat.mod_lt _ (by omega))
    unfold showDigits
    by_cases hn : n < 10
    · rw [if_pos hn]
      refine ⟨by simp, ?_, ?_⟩
      · intro c hc
        simp only [List.nil_append, List.mem_singleton] at hc
        subst hc
        unfold IsDigit
        rw [hb]; omega
      · show 0 * 10 + _ = n
        rw [hb]; omega
    · rw [if_neg hn]
      obtain ⟨h1, h2, h3⟩ := ih (n / 10) (by omega)
      refine ⟨by simp, ?_, ?_⟩
      · intro c hc
        rcases List.mem_append.mp hc with hc | hc
        · exact h2 c hc
        · simp only [List.mem_singleton] at hc
          subst hc
          unfold IsDigit
          rw [hb]; omega
      · rw [foldl_digits_append, h3]
        show _ * 10 + _ = n
        rw [hb]; omega

theorem showNat_writes (n : Nat) (h : n < 2 ^ 63) : WritesInt (showNat n) n := by
  obtain ⟨h1, h2, h3⟩ := showDigits_spec (n + 1) n (by omega)
  exact ⟨by omega, by omega, showNat n, h1, h2, Or.inl ⟨rfl, by unfold showNat; rw [h3]⟩⟩

theorem takeLine_append (l rest : Bytes) (h : 10 ∉ l) : takeLine (l ++ 10 :: rest) = l := by
  unfold takeLine
  induction l with
  | nil => simp
  | cons c cs ih =>
    simp only [List.mem_cons, not_or] at h
    rw [List.cons_append, List.takeWhile_cons, if_pos (by simp; exact fun e => h.1 e.symm), ih h.2]

theorem dropLine_append (l rest : Bytes) (h : 10 ∉ l) : dropLine (l ++ 10 :: rest) = rest := by
  unfold dropLine
  induction l with
  | nil => simp
  | cons c cs ih =>
    simp only [List.mem_cons, not_or] at h
    rw [List.cons_append, List.dropWhile_cons, if_pos (by simp; exact fun e => h.1 e.symm), ih h.2]

theorem takeLine_all (l : Bytes) (h : 10 ∉ l) : takeLine l = l := by
  unfold takeLine
  induction l with
  | nil => rfl
  | cons c cs ih =>
    simp only [List.mem_cons, not_or] at h
    rw [List.takeWhile_cons, if_pos (by simp; exact fun e => h.1 e.symm), ih h.2]

theorem dropLine_all (l : Bytes) (h : 10 ∉ l) : dropLine l = [] := by
  unfold dropLine
  induction l with
  | nil => rfl
  | cons c cs ih =>
    simp only [List.mem_cons, not_or] at h
    rw [List.dropWhile_cons, if_pos (by simp; exact fun e => h.1 e.symm), ih h.2]

theorem takeLine_free (l : Bytes) : 10 ∉ takeLine l := by
  unfold takeLine
  induction l with
  | nil => simp
  | cons c cs ih =>
    rw [List.takeWhile_cons]
    by_cases h : (c != 10) = true
    · rw [if_pos h, List.mem_cons, not_or]
      simp only [bne_iff_ne, ne_eq] at h
      exact ⟨fun e => h e.symm, ih⟩
    · rw [if_neg h]; simp

theorem dropCR_cr (l : Bytes) : dropCR (l ++ [13]) = l := by
  unfold dropCR
  rw [if_pos (by simp)]; simp

theorem dropCR_id (l : Bytes) (h : 13 ∉ l) : dropCR l = l := by
  unfold dropCR
  rw [if_neg]
  intro he
  exact h (List.mem_of_getLast? he)

end Goslide
