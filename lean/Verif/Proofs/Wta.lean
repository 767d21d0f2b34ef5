import Verif.Proofs.GoBasic
import Verif.Proofs.Shuffle
import Verif.Proofs.Argmax
import Verif.Model.Wta
namespace Goslide.Wta
open Spec
variable {F : Type} [GoFloat F]

theorem permLoop_length (dim : Nat) : ∀ (p : Nat) (nArray : List Nat) (r : Rng),
    nArray.length = dim → (permLoop p nArray r).1.length = p * dim := by
  intro p
  induction p with
  | zero => intro n r _; simp [permLoop]
  | succ p ih =>
    intro n r hn
    simp only [permLoop, List.length_append]
    rw [ih _ _ (by rw [shuffle_length, hn]), shuffle_length, hn, Nat.succ_mul, Nat.add_comm]

theorem permLoop_block (dim : Nat) : ∀ (p : Nat) (nArray : List Nat) (r : Rng),
    nArray.Perm (List.range dim) → ∀ q, q < p →
      (((permLoop p nArray r).1.drop (q * dim)).take dim).Perm (List.range dim) := by
  intro p
  induction p with
  | zero => intro n r _ q hq; omega
  | succ p ih =>
    intro n r hn q hq
    have hp := (shuffle_perm n r).trans hn
    have hl : (shuffle n r).1.length = dim := by simpa using hp.length_eq
    simp only [permLoop]
    cases q with
    | zero =>
      rw [Nat.zero_mul, List.drop_zero, ← hl, List.take_left, hl]
      exact hp
    | succ q =>
      have e : (q + 1) * dim = (shuffle n r).1.length + q * dim := by rw [hl, Nat.succ_mul]; omega
      rw [e, List.drop_length_add_append]
      exact ih _ _ hp q (by omega)

theorem permLoop_mem (dim : Nat) : ∀ (p : Nat) (nArray : List Nat) (r : Rng),
    nArray.Perm (List.range dim) → ∀ x ∈ (permLoop p nArray r).1, x < dim := by
  intro p
  induction p with
  | zero => intro n r _ x hx; simp [permLoop] at hx
  | succ p ih =>
    intro n r hn x hx
    have hp := (shuffle_perm n r).trans hn
    simp only [permLoop, List.mem_append] at hx
    rcases hx with hx | hx
    · exact List.mem_range.mp (hp.mem_iff.mp hx)
    · exact ih _ _ hp x hx

theorem permuteCount_mul (numHashes dim : Nat) (h : 0 < dim) :
    numHashes * 8 ≤ permuteCount numHashes dim * dim := by
  unfold permuteCount binSize
  have h1 := Nat.div_add_mod (numHashes * 8 + dim - 1) dim
  have h2 := Nat.mod_lt (numHashes * 8 + dim - 1) h
  have h3 := Nat.mul_comm dim ((numHashes * 8 + dim - 1) / dim)
  omega

/-- The features of bin `i`. -/
def feats (wh : WtaHash) (i : Nat) : List Nat := (wh.indices.drop (i * 8)).take 8

theorem feats_length (wh : WtaHash) (i : Nat) (h : i * 8 + 8 ≤ wh.indices.length) :
    (feats wh i).length = 8 := by simp [feats]; omega

theorem feats_getElem? (wh : WtaHash) (i j : Nat) (hj : j < 8) :
    (feats wh i)[j]? = wh.indices[i * 8 + j]? := by
  unfold feats
  rw [List.getElem?_take_of_lt hj, List.getElem?_drop]

theorem foldlM_range {α β : Type} (f : β → Nat → Go β) (g : β → α → β) (xs : List α)
    (h : ∀ (st : β) (j : Nat) (x : α), xs[j]? = some x → f st j = .ok (g st x)) :
    ∀ (n j : Nat) (st : β), j + n = xs.length →
      (List.range' j n).foldlM f st = .ok ((xs.drop j).foldl g st) := by
  intro n
  induction n with
  | zero =>
    intro j st hj
    rw [List.drop_of_length_le (by omega)]; rfl
  | succ n ih =>
    intro j st hj
    have hlt : j < xs.length := by omega
    rw [List.range'_succ, List.foldlM_cons, h st j _ (List.getElem?_eq_getElem hlt), ok_bind,
      ih (j + 1) _ (by omega), List.drop_eq_getElem_cons hlt, List.foldl_cons]

theorem bin_eq (wh : WtaHash) (value : Nat → Go F) (val : Nat → F) (i : Nat)
    (hlen : i * 8 + 8 ≤ wh.indices.length) (hv : ∀ c ∈ feats wh i, value c = .ok (val c)) :
    bin wh value i =
      .ok ((feats wh i).foldl (argStep val (fun c => (c : Int))) (minInt64, floorValue)).1 := by
  unfold bin
  have hr : List.range binSize = List.range' 0 8 := by simp [binSize, List.range_eq_range']
  rw [hr]
  have := foldlM_range (binStep wh value i) (argStep val (fun c => (c : Int))) (feats wh i) (by
      intro st j x hx
      have hj : j < 8 := by
        rcases Nat.lt_or_ge j 8 with h | h
        · exact h
        · rw [List.getElem?_eq_none (by rw [feats_length _ _ hlen]; exact h)] at hx; simp at hx
      have hmem := List.mem_of_getElem? hx
      rw [feats_getElem? _ _ _ hj] at hx
      unfold binStep binSize
      rw [goGet_ofNat, hx, ok_bind, hv x hmem, ok_bind]
      unfold argStep
      split <;> rfl) 8 0 (minInt64, floorValue) (by rw [feats_length _ _ hlen])
  rw [this, ok_bind, List.drop_zero]
  rfl

theorem new_len (numHashes dim : Nat) (hd : 0 < dim) (r : Rng) (i : Nat) (hi : i < numHashes) :
    i * 8 + 8 ≤ (new numHashes dim r).1.indices.length := by
  have h1 := permLoop_length dim (permuteCount numHashes dim) (List.range dim) r (by simp)
  have h2 := permuteCount_mul numHashes dim hd
  show _ ≤ (permLoop _ _ _).1.length
  omega

theorem new_mem (numHashes dim : Nat) (r : Rng) (x : Nat)
    (hx : x ∈ (new numHashes dim r).1.indices) : x < dim :=
  permLoop_mem dim _ _ _ (List.Perm.refl _) x hx

theorem feats_mem (wh : WtaHash) (i x : Nat) (hx : x ∈ feats wh i) : x ∈ wh.indices :=
  List.mem_of_mem_drop (List.mem_of_mem_take hx)

end Goslide.Wta
