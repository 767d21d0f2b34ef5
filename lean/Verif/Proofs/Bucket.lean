import Verif.Model.Bucket
import Verif.Proofs.Fifo
namespace Goslide.Bucket
open Spec

/-- Induction on a history from its end. -/
@[elab_as_elim] theorem snoc_rec {α : Type} {P : List α → Prop} (nil : P []) (append_singleton : ∀ l a, P l → P (l ++ [a])) (l : List α) : P l := by
  rw [← List.reverse_reverse l]
  induction l.reverse with
  | nil => exact nil
  | cons a t ih => rw [List.reverse_cons]; exact append_singleton _ _ ih

/-- `b` stores history `h`; `sent` says that unwritten cells may hold the sentinel -1. -/
structure Rep (b : Bucket) (h : List Int) (sent : Bool) : Prop where
  arr_len : b.arr.length = 128
  init_eq : b.isInit = BitVec.ofNat 64 h.length - 1#64
  count_eq : b.counts = BitVec.ofNat 64 h.length
  cells : ∀ p, p < h.length → h.length ≤ p + 128 → b.arr[p % 128]? = h[p]?
  unwritten : ∀ p, h.length ≤ p → p < 128 →
    b.arr[p]? = some 0 ∨ (sent = true ∧ p = h.length ∧ b.arr[p]? = some (-1))

theorem Rep.new (s) : Rep new [] s := by
  constructor
  · rfl
  · rfl
  · rfl
  · simp
  · intro p _ hp
    left
    show (List.replicate 128 (0:Int))[p]? = some 0
    rw [List.getElem?_replicate, if_pos hp]

theorem Rep.reset {b h s} (s') (_ : Rep b h s) : Rep (reset b) [] s' := Rep.new s'

theorem Rep.add {b h s} (hr : Rep b h s) (id : Int) :
    Rep (Bucket.add b id).2 (h ++ [id]) s ∧
      (Bucket.add b id).1 = ((h.length % 128 : Nat) : Int) := by
  obtain ⟨h1, h2, h3, h4, h5⟩ := hr
  have hm : (b.counts &&& 127#64).toNat = h.length % 128 := by
    rw [h3]; exact Fifo.count_and_mask _
  have hi : (b.counts &&& 127#64).toInt = ((h.length % 128 : Nat) : Int) := by
    rw [h3]; exact Fifo.count_and_mask_toInt _
  unfold Bucket.add
  refine ⟨⟨by simp [h1], ?_, ?_, ?_, ?_⟩, hi⟩
  · show b.isInit + 1#64 = _
    rw [h2, List.length_append, List.length_singleton, BitVec.ofNat_add]
    rw [BitVec.sub_add_cancel, BitVec.add_sub_cancel]
  · simp [h3, BitVec.ofNat_add]
  · intro p hp hle
    simp only [hm]
    simp only [List.length_append, List.length_cons, List.length_nil] at hp hle
    by_cases hpe : p = h.length
    · subst hpe
      rw [List.getElem?_set_self (by omega)]; simp
    · rw [List.getElem?_set_ne (by omega), h4 p (by omega) (by omega),
        List.getElem?_append_left (by omega)]
  · intro p hp hlt
    simp only [List.length_append, List.length_cons, List.length_nil] at hp
    simp only [hm]
    rw [List.getElem?_set_ne (by omega)]
    rcases h5 p (by omega) hlt with h' | ⟨_, h', _⟩
    · exact Or.inl h'
    · omega

theorem rep_foldl (ops : List BucketOp) : ∀ (b : Bucket) (h : List Int), Rep b h false →
    Rep (ops.foldl step b)
      (ops.foldl (fun h op => match op with | .add id => h ++ [id] | .reset => []) h) false := by
  induction ops with
  | nil => intro b h hr; simpa using hr
  | cons op ops ih =>
    intro b h hr
    simp only [List.foldl_cons]
    cases op with
    | add id => exact ih _ _ (hr.add id).1
    | reset => exact ih _ _ (hr.reset _)

theorem rep_run (ops : List BucketOp) : Rep (run ops) (sinceReset ops) false :=
  rep_foldl ops _ _ (Rep.new _)

theorem ofNat_sub_one_ne (n : Nat) (hn : 0 < n) (hlt : n < 2 ^ 63) :
    BitVec.ofNat 64 n - 1#64 ≠ -1#64 := by
  intro h
  have := congrArg BitVec.toNat h
  simp [BitVec.toNat_sub] at this
  omega

theorem toInt_ofNat_small (n : Nat) (hlt : n < 2 ^ 63) : (BitVec.ofNat 64 n).toInt = (n : Int) := by
  rw [BitVec.toInt_eq_toNat_of_lt]
  · simp; omega
  · simp; omega

/-- `GetAll` under the invariant. -/
theorem Rep.getAll {b h s} (hr : Rep b h s) (hlt : h.length < 2 ^ 63) :
    ∃ r b', Bucket.getAll b = .ok (r, b') ∧ Rep b' h true ∧
      (r = none ↔ h = []) ∧
      (∀ xs, r = some xs → xs = b'.arr) ∧
      (∀ p : Nat, p < 128 → b'.arr[p]? = if h ≠ [] ∧ p = h.length then some (-1) else b.arr[p]?) := by
  have hr0 := hr
  obtain ⟨h1, h2, h3, h4, h5⟩ := hr
  unfold Bucket.getAll
  cases h with
  | nil =>
    have : b.isInit = -1#64 := by rw [h2]; rfl
    simp only [this, if_true]
    refine ⟨none, b, rfl, ⟨h1, h2, h3, h4, ?_⟩, by simp, by simp, by simp⟩
    intro p hp hl
    rcases h5 p hp hl with h' | ⟨_, h', h''⟩
    · exact Or.inl h'
    · exact Or.inr ⟨rfl, h', h''⟩
  | cons x t =>
    have hne : b.isInit ≠ -1#64 := by
      rw [h2]; exact ofNat_sub_one_ne _ (by simp) hlt
    simp only [hne, if_false]
    rw [h3, toInt_ofNat_small _ hlt]
    by_cases hc : (((x :: t).length : Nat) : Int) < (bucketSize : Int)
    · simp only [hc, if_true]
      have hb : (x :: t).length < 128 := by simp [bucketSize] at hc ⊢; omega
      have hset : goSet b.arr (((x :: t).length : Nat) : Int) (-1) =
          .ok (b.arr.set (x :: t).length (-1)) := by
        unfold goSet
        rw [if_neg (by omega), if_pos (by simpa [h1] using hb)]
        simp
      rw [hset]
      refine ⟨_, _, rfl, ⟨by simp [h1], h2, rfl, ?_, ?_⟩, by simp, by simp, ?_⟩
      · intro p hp hle
        show (b.arr.set _ _)[_]? = _
        rw [List.getElem?_set_ne (by omega)]
        exact h4 p hp hle
      · intro p hp hl
        show (b.arr.set _ _)[_]? = _ ∨ (_ ∧ _ ∧ (b.arr.set _ _)[_]? = _)
        by_cases hpe : p = (x :: t).length
        · right; refine ⟨rfl, hpe, ?_⟩
          rw [hpe, List.getElem?_set_self (by omega)]
        · rw [List.getElem?_set_ne (by omega)]
          rcases h5 p hp hl with h' | ⟨_, h', _⟩
          · exact Or.inl h'
          · omega
      · intro p hp
        show (b.arr.set _ _)[_]? = _
        by_cases hpe : p = (x :: t).length
        · rw [if_pos ⟨by simp, hpe⟩, hpe, List.getElem?_set_self (by omega)]
        · rw [if_neg (by simp; simpa using hpe), List.getElem?_set_ne (by omega)]
    · simp only [hc, if_false]
      have hb : 128 ≤ (x :: t).length := by simp [bucketSize] at hc ⊢; omega
      refine ⟨_, _, rfl, ⟨h1, h2, h3, h4, ?_⟩, by simp, by simp, ?_⟩
      · intro p hp hl; omega
      · intro p hp
        rw [if_neg (by omega)]

end Goslide.Bucket
