import Verif.Proofs.GoBasic
import Verif.Proofs.Lsh
import Verif.Spec.Positional
namespace Goslide.Lsh
open Spec

theorem positional_acc (base : Int) (cs : List Int) (a : Int) :
    cs.foldl (fun acc c => acc * base + c) a = a * base ^ cs.length + positional base cs := by
  unfold positional
  induction cs generalizing a with
  | nil => simp
  | cons c cs ih =>
    simp only [List.foldl_cons, List.length_cons]
    rw [ih, ih (0 * base + c)]
    rw [Int.pow_succ]
    simp only [Int.zero_mul, Int.zero_add, Int.add_mul]
    rw [Int.mul_assoc, Int.mul_comm base, Int.add_assoc]

theorem positional_cons (base c : Int) (cs : List Int) :
    positional base (c :: cs) = c * base ^ cs.length + positional base cs := by
  have := positional_acc base cs (0 * base + c)
  simp only [Int.zero_mul, Int.zero_add] at this
  simpa [positional] using this

theorem positional_nonneg (base : Int) (hb : 0 ≤ base) (cs : List Int) (h : ∀ c ∈ cs, 0 ≤ c) :
    0 ≤ positional base cs := by
  induction cs with
  | nil => simp [positional]
  | cons c cs ih =>
    rw [positional_cons]
    have h1 := h c (by simp)
    have h2 := ih (fun c hc => h c (by simp [hc]))
    have h3 : 0 ≤ base ^ cs.length := Int.pow_nonneg hb
    have := Int.mul_nonneg h1 h3
    omega

/-- Upper bound for codes at most `m`: `(base-1) * value ≤ m * (base^k - 1)`. -/
theorem positional_le (base m : Int) (hb : 0 ≤ base) (cs : List Int)
    (h : ∀ c ∈ cs, c ≤ m) (hb1 : 0 ≤ base - 1) :
    (base - 1) * positional base cs ≤ m * (base ^ cs.length - 1) := by
  induction cs with
  | nil => simp [positional]
  | cons c cs ih =>
    rw [positional_cons]
    have h1 := h c (by simp)
    have h2 := ih (fun c hc => h c (by simp [hc]))
    have h3 : 0 ≤ base ^ cs.length := Int.pow_nonneg hb
    have h4 : (base - 1) * (c * base ^ cs.length) ≤ (base - 1) * (m * base ^ cs.length) :=
      Int.mul_le_mul_of_nonneg_left (Int.mul_le_mul_of_nonneg_right h1 h3) hb1
    rw [List.length_cons, Int.pow_succ]
    have e1 : (base - 1) * (c * base ^ cs.length + positional base cs) =
        (base - 1) * (c * base ^ cs.length) + (base - 1) * positional base cs := Int.mul_add ..
    have e2 : m * (base ^ cs.length * base - 1) =
        (base - 1) * (m * base ^ cs.length) + m * (base ^ cs.length - 1) := by
      simp only [Int.mul_sub, Int.sub_mul, Int.mul_one, Int.one_mul]
      have : m * (base ^ cs.length * base) = base * (m * base ^ cs.length) := by
        rw [← Int.mul_assoc, Int.mul_comm]
      omega
    omega

theorem positional_lt (base : Int) (hb : 1 ≤ base) (cs : List Int)
    (h : ∀ c ∈ cs, c < base) : positional base cs < base ^ cs.length := by
  induction cs with
  | nil => simp [positional]
  | cons c cs ih =>
    rw [positional_cons, List.length_cons, Int.pow_succ]
    have h1 := h c (by simp)
    have h2 := ih (fun c hc => h c (by simp [hc]))
    have h3 : 0 ≤ base ^ cs.length := Int.pow_nonneg (by omega)
    have h4 : c * base ^ cs.length ≤ (base - 1) * base ^ cs.length :=
      Int.mul_le_mul_of_nonneg_right (by omega) h3
    rw [Int.sub_mul, Int.one_mul, Int.mul_comm base] at h4
    omega

theorem positional_inj (base : Int) (hb : 1 ≤ base) :
    ∀ (cs ds : List Int), cs.length = ds.length →
      (∀ c ∈ cs, 0 ≤ c ∧ c < base) → (∀ c ∈ ds, 0 ≤ c ∧ c < base) →
      positional base cs = positional base ds → cs = ds := by
  intro cs
  induction cs with
  | nil => intro ds hl _ _ _; simp at hl; exact (List.length_eq_zero_iff.mp hl.symm).symm
  | cons c cs ih =>
    intro ds hl hc hd he
    cases ds with
    | nil => simp at hl
    | cons d ds =>
      rw [positional_cons, positional_cons] at he
      simp only [List.length_cons, Nat.add_right_cancel_iff] at hl
      have l1 := positional_lt base hb cs (fun x hx => (hc x (by simp [hx])).2)
      have l2 := positional_lt base hb ds (fun x hx => (hd x (by simp [hx])).2)
      have n1 := positional_nonneg base (by omega) cs (fun x hx => (hc x (by simp [hx])).1)
      have n2 := positional_nonneg base (by omega) ds (fun x hx => (hd x (by simp [hx])).1)
      rw [hl] at l1 he
      have hpos : 0 < base ^ ds.length := Int.pow_pos (by omega)
      have hcd : c = d := by
        have e : (c - d) * base ^ ds.length = positional base ds - positional base cs := by
          rw [Int.sub_mul]; omega
        rcases Int.lt_trichotomy c d with h | h | h
        · exfalso
          have : (c - d) * base ^ ds.length ≤ (-1) * base ^ ds.length :=
            Int.mul_le_mul_of_nonneg_right (by omega) (by omega)
          omega
        · exact h
        · exfalso
          have : 1 * base ^ ds.length ≤ (c - d) * base ^ ds.length :=
            Int.mul_le_mul_of_nonneg_right (by omega) (by omega)
          omega
      subst hcd
      rw [ih ds hl (fun x hx => hc x (by simp [hx])) (fun x hx => hd x (by simp [hx])) (by omega)]

/-- The bit width of one code in the index: 2 for the WTA hashes, 1 for SRP. -/
def codeBits : HashFunction → Option Nat
  | .wta | .densifiedWta => some logBinSize
  | .sparseRandomProjection => some 1
  | _ => none

theorem shl_eq (x : Int) (e n : Nat) :
    BitVec.ofInt 64 x <<< (n * e) = BitVec.ofInt 64 (x * (2 ^ e) ^ n) := by
  rw [BitVec.shiftLeft_eq_mul_twoPow, BitVec.ofInt_mul]
  congr 1
  rw [BitVec.twoPow_eq]
  apply BitVec.eq_of_toNat_eq
  simp only [BitVec.toNat_shiftLeft]
  have h1 : (1#64).toNat = 1 := rfl
  rw [h1, Nat.shiftLeft_eq, Nat.one_mul]
  have : ((2:Int) ^ e) ^ n = ((2 ^ (n * e) : Nat) : Int) := by
    rw [← Int.pow_mul, Nat.mul_comm e n]; simp
  rw [this, BitVec.ofInt_natCast, BitVec.toNat_ofNat]

theorem group_getElem? (k : Nat) (hashes : List Int) (i j : Nat) (hj : j < k) :
    (group k hashes i)[j]? = hashes[k * i + j]? := by
  unfold group
  rw [List.getElem?_take_of_lt hj, List.getElem?_drop]

theorem group_length (k : Nat) (hashes : List Int) (i : Nat) (h : k * i + k ≤ hashes.length) :
    (group k hashes i).length = k := by
  unfold group
  simp only [List.length_take, List.length_drop]; omega

theorem term_positional (hf : HashFunction) (e : Nat) (he : codeBits hf = some e) (s : LSH)
    (hashes : List Int) (i j : Nat) (c : Int) (hc : hashes[s.k * i + j]? = some c) :
    term hf s hashes i j = .ok (BitVec.ofInt 64 (c * (2 ^ e) ^ (s.k - 1 - j))) := by
  cases hf <;> simp only [codeBits, Option.some.injEq, reduceCtorEq] at he
  · subst he
    simp only [term]; rw [goGet_ofNat, hc]
    simp only [ok_bind, pure, Except.pure]; rw [shl_eq]
  · subst he
    simp only [term]; rw [goGet_ofNat, hc]
    simp only [ok_bind, pure, Except.pure]; rw [shl_eq]
  · subst he
    simp only [term]; rw [goGet_ofNat, hc]
    simp only [ok_bind, pure, Except.pure]
    have := shl_eq c 1 (s.k - 1 - j)
    rw [Nat.mul_one] at this
    rw [this]

theorem indexLoop_positional (hf : HashFunction) (e : Nat) (he : codeBits hf = some e) (s : LSH)
    (hashes : List Int) (i : Nat) (hlen : s.k * i + s.k ≤ hashes.length) :
    ∀ (n j : Nat) (acc : BitVec 64), j + n = s.k →
      indexLoop hf s hashes i n j acc =
        .ok (acc + BitVec.ofInt 64 (positional (2 ^ e) ((group s.k hashes i).drop j))) := by
  intro n
  induction n with
  | zero =>
    intro j acc hj
    rw [List.drop_of_length_le (by rw [group_length _ _ _ hlen]; omega)]
    simp [indexLoop, positional]
  | succ n ih =>
    intro j acc hj
    have hlt : j < (group s.k hashes i).length := by rw [group_length _ _ _ hlen]; omega
    have hget := group_getElem? s.k hashes i j (by omega)
    rw [List.getElem?_eq_getElem hlt] at hget
    rw [indexLoop, term_positional hf e he s hashes i j _ hget.symm, ok_bind, ih (j + 1) _ (by omega)]
    rw [List.drop_eq_getElem_cons hlt, positional_cons, BitVec.ofInt_add, BitVec.add_assoc]
    congr 4
    rw [List.length_drop, group_length _ _ _ hlen]
    congr 2
    omega

theorem tableIndex_positional (hf : HashFunction) (e : Nat) (he : codeBits hf = some e) (s : LSH)
    (hashes : List Int) (i : Nat) (hlen : s.k * i + s.k ≤ hashes.length) :
    tableIndex hf s hashes i =
      .ok (BitVec.ofInt 64 (positional (2 ^ e) (group s.k hashes i))).toInt := by
  unfold tableIndex
  rw [indexLoop_positional hf e he s hashes i hlen s.k 0 _ (by omega), ok_bind]
  have hne : hf ≠ .densifiedMinhash := by
    intro h; subst h; simp [codeBits] at he
  rw [if_neg hne]
  simp only [pure, Except.pure]
  simp

theorem toInt_ofInt_small (v : Int) (h0 : 0 ≤ v) (h : v < 2 ^ 63) :
    (BitVec.ofInt 64 v).toInt = v := by
  rw [BitVec.toInt_ofInt]
  rw [Int.bmod_def]
  have e : ((2 ^ 64 : Nat) : Int) = 18446744073709551616 := rfl
  rw [e]
  have e' : (2:Int) ^ 63 = 9223372036854775808 := rfl
  rw [e'] at h
  split <;> omega

theorem mul_add_le (k l i len : Nat) (hi : i < l) (h : k * l ≤ len) : k * i + k ≤ len := by
  have : k * (i + 1) ≤ k * l := Nat.mul_le_mul_left k hi
  rw [Nat.mul_add, Nat.mul_one] at this
  omega

theorem hashesToIndex_positional (hf : HashFunction) (e : Nat) (he : codeBits hf = some e) (s : LSH)
    (hashes : List Int) (hlen : s.k * s.l ≤ hashes.length)
    (hb : ∀ i, i < s.l → 0 ≤ positional (2 ^ e) (group s.k hashes i) ∧
      positional (2 ^ e) (group s.k hashes i) < 2 ^ 63) :
    hashesToIndex hf s hashes =
      .ok ((List.range s.l).map (fun i => positional (2 ^ e) (group s.k hashes i))) := by
  unfold hashesToIndex
  apply mapM_ok_of_forall
  intro i hi
  have hi := List.mem_range.mp hi
  rw [tableIndex_positional hf e he s hashes i (mul_add_le _ _ _ _ hi hlen),
    toInt_ofInt_small _ (hb i hi).1 (hb i hi).2]

theorem indexLoop_minhash_ok (s : LSH) (hashes : List Int) (i : Nat)
    (hlen : s.k * i + s.k ≤ hashes.length) (hrl : s.k * i + s.k ≤ s.rand1.length) :
    ∀ (n j : Nat) (acc : BitVec 64), j + n = s.k →
      ∃ v, indexLoop .densifiedMinhash s hashes i n j acc = .ok v := by
  intro n
  induction n with
  | zero => intro j acc _; exact ⟨acc, rfl⟩
  | succ n ih =>
    intro j acc hj
    rw [indexLoop]
    simp only [term]
    rw [goGet_ok_of_lt _ _ (by omega), goGet_ok_of_lt hashes _ (by omega)]
    simp only [ok_bind, pure, Except.pure]
    exact ih (j + 1) _ (by omega)

theorem hashesToIndex_minhash (s : LSH) (hashes : List Int)
    (hlen : s.k * s.l ≤ hashes.length) (hrl : s.k * s.l ≤ s.rand1.length)
    (hrp : s.rangePow < 63) :
    ∃ indices, hashesToIndex .densifiedMinhash s hashes = .ok indices ∧
      indices.length = s.l ∧ ∀ v ∈ indices, 0 ≤ v ∧ v < ((2 ^ s.rangePow : Nat) : Int) := by
  have key : ∀ i, i < s.l → ∃ v, tableIndex .densifiedMinhash s hashes i = .ok v ∧
      0 ≤ v ∧ v < ((2 ^ s.rangePow : Nat) : Int) := by
    intro i hi
    obtain ⟨v, hv⟩ := indexLoop_minhash_ok s hashes i (mul_add_le _ _ _ _ hi hlen)
      (mul_add_le _ _ _ _ hi hrl) s.k 0 0#64 (by omega)
    refine ⟨(v &&& ((1#64 <<< s.rangePow) - 1#64)).toInt, ?_, ?_⟩
    · unfold tableIndex; rw [hv]; rfl
    · have hp : 2 ^ s.rangePow ≤ 2 ^ 62 := Nat.pow_le_pow_right (by omega) (by omega)
      have hpos : 0 < 2 ^ s.rangePow := Nat.pow_pos (by omega)
      have e62 : (2:Nat) ^ 62 = 4611686018427387904 := rfl
      have h1 : ((1#64 <<< s.rangePow) - 1#64).toNat = 2 ^ s.rangePow - 1 := by
        rw [BitVec.toNat_sub, BitVec.toNat_shiftLeft]
        have : (1#64).toNat = 1 := rfl
        rw [this, Nat.shiftLeft_eq, Nat.one_mul]
        omega
      have h2 : (v &&& ((1#64 <<< s.rangePow) - 1#64)).toNat < 2 ^ s.rangePow := by
        rw [BitVec.toNat_and, h1, Nat.and_two_pow_sub_one_eq_mod]
        exact Nat.mod_lt _ hpos
      rw [BitVec.toInt_eq_toNat_of_lt (by omega)]
      omega
  cases h : hashesToIndex .densifiedMinhash s hashes with
  | error e =>
    exfalso
    unfold hashesToIndex at h
    have hne : ∃ i ∈ List.range s.l, ∀ b, tableIndex .densifiedMinhash s hashes i ≠ .ok b := by
      apply Classical.byContradiction
      intro hn
      have hall : ∀ i ∈ List.range s.l, tableIndex .densifiedMinhash s hashes i =
          .ok (match tableIndex .densifiedMinhash s hashes i with | .ok v => v | .error _ => 0) := by
        intro i hi
        obtain ⟨v, hv, -⟩ := key i (List.mem_range.mp hi)
        rw [hv]
      rw [mapM_ok_of_forall _ _ _ hall] at h
      simp at h
    obtain ⟨i, hi, hb⟩ := hne
    obtain ⟨v, hv, -⟩ := key i (List.mem_range.mp hi)
    exact hb v hv
  | ok indices =>
    refine ⟨indices, rfl, ?_, ?_⟩
    · have := ((mapM_ok_iff _ _ _).mp h).1; simpa using this
    · intro v hv
      obtain ⟨hl, hm⟩ := (mapM_ok_iff _ _ _).mp h
      obtain ⟨i, hi⟩ := List.mem_iff_getElem?.mp hv
      have hil : i < s.l := by
        rcases Nat.lt_or_ge i s.l with h' | h'
        · exact h'
        · rw [List.getElem?_eq_none (by simp at hl; omega)] at hi; simp at hi
      obtain ⟨b, hb, hf⟩ := hm i i (List.getElem?_range hil)
      rw [hi] at hb
      simp only [Option.some.injEq] at hb
      subst hb
      obtain ⟨v', hv', hr⟩ := key i hil
      rw [hf] at hv'
      simp only [Except.ok.injEq] at hv'
      subst hv'
      exact hr

end Goslide.Lsh
