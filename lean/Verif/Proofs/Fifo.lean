import Verif.Model.Fifo
import Verif.Spec.Bucket
namespace Goslide.Fifo
open Spec

/-- Representation invariant: `b` stores the history `h` of ids since the last reset. -/
structure Rep (b : FifoBucket) (h : List Int) : Prop where
  back_len : b.back.length = 128
  len_eq : b.len = min h.length 128
  count_eq : b.count = BitVec.ofNat 64 h.length
  cells : ∀ p, p < h.length → h.length ≤ p + 128 → b.back[p % 128]? = h[p]?

theorem count_and_mask (n : Nat) :
    (BitVec.ofNat 64 n &&& bitMask).toNat = n % 128 := by
  have : bitMask.toNat = 2 ^ 7 - 1 := rfl
  rw [BitVec.toNat_and, this, Nat.and_two_pow_sub_one_eq_mod, BitVec.toNat_ofNat]
  omega

theorem count_and_mask_toInt (n : Nat) :
    (BitVec.ofNat 64 n &&& bitMask).toInt = ((n % 128 : Nat) : Int) := by
  rw [BitVec.toInt_eq_toNat_of_lt, count_and_mask]
  rw [count_and_mask]; omega

theorem Rep.new : Rep new [] := by
  constructor <;> simp [Fifo.new, bucketSize]

theorem Rep.reset {b h} (hr : Rep b h) : Rep (reset b) [] := by
  constructor <;> simp [Fifo.reset, hr.back_len]

theorem Rep.add {b h} (hr : Rep b h) (id : Int) :
    Rep (Fifo.add b id).2 (h ++ [id]) ∧ (Fifo.add b id).1 = ((h.length % 128 : Nat) : Int) := by
  obtain ⟨h1, h2, h3, h4⟩ := hr
  have key : ∀ k, k = h.length % 128 → ∀ p, p < (h ++ [id]).length → (h ++ [id]).length ≤ p + 128 →
      (b.back.set k id)[p % 128]? = (h ++ [id])[p]? := by
    intro k hk p hp hle
    subst hk
    simp only [List.length_append, List.length_cons, List.length_nil] at hp hle
    by_cases hpe : p = h.length
    · subst hpe
      rw [List.getElem?_set_self (by omega)]
      simp
    · rw [List.getElem?_set_ne (by omega), h4 p (by omega) (by omega),
        List.getElem?_append_left (by omega)]
  unfold Fifo.add
  by_cases hf : b.len = bucketSize
  · simp only [hf, if_true]
    rw [h3]
    have hge : 128 ≤ h.length := by simp [bucketSize] at hf; omega
    refine ⟨⟨by simp [h1], ?_, ?_, ?_⟩, by rw [count_and_mask_toInt]⟩
    · simp; omega
    · simp [BitVec.ofNat_add]
    · simp only [count_and_mask]
      exact key _ rfl
  · simp only [hf, if_false]
    have hlt : h.length < 128 := by simp [bucketSize] at hf; omega
    refine ⟨⟨by simp [h1], ?_, ?_, ?_⟩, ?_⟩
    · simp [h2]; omega
    · simp [h3, BitVec.ofNat_add]
    · exact key b.len (by omega)
    · simp; omega

theorem rep_foldl (ops : List BucketOp) : ∀ (b : FifoBucket) (h : List Int), Rep b h →
    Rep (ops.foldl step b)
      (ops.foldl (fun h op => match op with | .add id => h ++ [id] | .reset => []) h) := by
  induction ops with
  | nil => intro b h hr; simpa using hr
  | cons op ops ih =>
    intro b h hr
    simp only [List.foldl_cons]
    cases op with
    | add id => exact ih _ _ (hr.add id).1
    | reset => exact ih _ _ hr.reset

theorem rep_run (ops : List BucketOp) : Rep (run ops) (sinceReset ops) :=
  rep_foldl ops _ _ Rep.new

theorem Rep.isRing {b h} (hr : Rep b h) : IsRing h (content b) := by
  refine ⟨?_, ?_⟩
  · simp [content, hr.back_len, hr.len_eq]
  · intro p hp hle
    have hlt : p % 128 < b.len := by
      rw [hr.len_eq]
      by_cases h1 : h.length ≤ 128
      · have : p % 128 = p := Nat.mod_eq_of_lt (by omega)
        omega
      · omega
    rw [content, List.getElem?_take_of_lt hlt, hr.cells p hp hle]

theorem IsRing.mem_iff {h xs : List Int} (hr : IsRing h xs) (v : Int) :
    v ∈ xs ↔ v ∈ newest128 h := by
  obtain ⟨hl, hc⟩ := hr
  constructor
  · intro hv
    obtain ⟨s, hs, rfl⟩ := List.mem_iff_getElem.mp hv
    -- the largest position congruent to s
    have : ∃ p, p < h.length ∧ h.length ≤ p + 128 ∧ p % 128 = s := by
      by_cases h1 : h.length ≤ 128
      · exact ⟨s, by omega, by omega, Nat.mod_eq_of_lt (by omega)⟩
      · refine ⟨h.length - 1 - (h.length - 1 - s) % 128, by omega, by omega, by omega⟩
    obtain ⟨p, hp, hle, rfl⟩ := this
    have := hc p hp hle
    rw [List.getElem?_eq_getElem hs, List.getElem?_eq_getElem hp] at this
    simp only [Option.some.injEq] at this
    rw [this, newest128, List.mem_iff_getElem?]
    refine ⟨p - (h.length - 128), ?_⟩
    rw [List.getElem?_drop]
    have e : h.length - 128 + (p - (h.length - 128)) = p := by omega
    rw [e, List.getElem?_eq_getElem hp]
  · intro hv
    rw [newest128, List.mem_iff_getElem?] at hv
    obtain ⟨i, hi⟩ := hv
    rw [List.getElem?_drop] at hi
    have hp : h.length - 128 + i < h.length := by
      rcases Nat.lt_or_ge (h.length - 128 + i) h.length with h' | h'
      · exact h'
      · rw [List.getElem?_eq_none h'] at hi; simp at hi
    have := hc _ hp (by omega)
    rw [hi] at this
    exact List.mem_of_getElem? this

theorem IsRing.perm {h xs : List Int} (hr : IsRing h xs) : xs.Perm (newest128 h) := by
  obtain ⟨hl, hc⟩ := hr
  by_cases h1 : h.length ≤ 128
  · have : xs = newest128 h := by
      have hd : h.length - 128 = 0 := by omega
      rw [newest128, hd, List.drop_zero]
      apply List.ext_getElem?
      intro i
      by_cases hi : i < h.length
      · have := hc i hi (by omega)
        rwa [Nat.mod_eq_of_lt (by omega)] at this
      · rw [List.getElem?_eq_none (by omega), List.getElem?_eq_none (by omega)]
    rw [this]
  · have e : xs = (newest128 h).drop (128 - h.length % 128) ++
        (newest128 h).take (128 - h.length % 128) := by
      have hlen : (newest128 h).length = 128 := by simp [newest128]; omega
      apply List.ext_getElem?
      intro s
      by_cases hs : s < 128
      · by_cases hsr : s < h.length % 128
        · rw [List.getElem?_append_left (by simp [hlen]; omega), List.getElem?_drop, newest128,
            List.getElem?_drop]
          have := hc (h.length - h.length % 128 + s) (by omega) (by omega)
          have e2 : (h.length - h.length % 128 + s) % 128 = s := by omega
          rw [e2] at this
          rw [this]; exact congrArg (fun i => h[i]?) (by omega)
        · rw [List.getElem?_append_right (by simp [hlen]; omega), List.length_drop, hlen,
            List.getElem?_take_of_lt (by omega), newest128, List.getElem?_drop]
          have := hc (h.length - 128 - h.length % 128 + s) (by omega) (by omega)
          have e2 : (h.length - 128 - h.length % 128 + s) % 128 = s := by omega
          rw [e2] at this
          rw [this]; exact congrArg (fun i => h[i]?) (by omega)
      · rw [List.getElem?_eq_none (by omega), List.getElem?_eq_none]
        simp [hlen]; omega
    rw [e]
    exact (List.perm_append_comm).trans (by rw [List.take_append_drop])

end Goslide.Fifo
