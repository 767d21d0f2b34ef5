import Verif.Proofs.ShuffleUniform
import Verif.Proofs.Heap
import Verif.Proofs.Wta
import Verif.Proofs.Dwta
/-
The sequence of permutations behind the tables of the two winner-take-all hashes, and counting with an involution.
-/
namespace Goslide
open Spec GoHeap

/-- The arrays after each of `p` shuffles, each of the result of the one before. -/
def permsList : (p : Nat) → List Nat → Rng → List (List Nat)
  | 0, _, _ => []
  | p + 1, a, r => (shuffle a r).1 :: permsList p (shuffle a r).1 (shuffle a r).2

theorem permsList_length : ∀ (p : Nat) (a : List Nat) (r : Rng), (permsList p a r).length = p
  | 0, _, _ => rfl
  | p + 1, a, r => by rw [permsList, List.length_cons, permsList_length p]

theorem permsList_perm {dim : Nat} : ∀ (p : Nat) (a : List Nat) (r : Rng), a.Perm (List.range dim) → ∀ π ∈ permsList p a r, π.Perm (List.range dim)
  | 0, _, _, _ => by simp [permsList]
  | p + 1, a, r, ha => by
    intro π hπ
    have h := (shuffle_perm a r).trans ha
    rcases List.mem_cons.mp hπ with rfl | hπ
    · exact h
    · exact permsList_perm p _ _ h π hπ

theorem permLoop_flatten : ∀ (p : Nat) (a : List Nat) (r : Rng), (Wta.permLoop p a r).1 = (permsList p a r).flatten
  | 0, _, _ => rfl
  | p + 1, a, r => by rw [Wta.permLoop, permsList, List.flatten_cons, ← permLoop_flatten p]

theorem flatten_inj (dim : Nat) : ∀ A B : List (List Nat), A.length = B.length → (∀ a ∈ A, a.length = dim) → (∀ b ∈ B, b.length = dim) →
    A.flatten = B.flatten → A = B
  | [], [], _, _, _, _ => rfl
  | [], _ :: _, h, _, _, _ => by simp at h
  | _ :: _, [], h, _, _, _ => by simp at h
  | a :: A, b :: B, h, hA, hB, e => by
    rw [List.flatten_cons, List.flatten_cons] at e
    obtain ⟨e1, e2⟩ := List.append_inj e (by rw [hA a List.mem_cons_self, hB b List.mem_cons_self])
    rw [e1, flatten_inj dim A B (by simpa using h) (fun x hx => hA x (List.mem_cons_of_mem _ hx)) (fun x hx => hB x (List.mem_cons_of_mem _ hx)) e2]

theorem flatten_get (dim : Nat) : ∀ (A : List (List Nat)) (q j : Nat) (π : List Nat), (∀ a ∈ A, a.length = dim) → A[q]? = some π → j < dim →
    A.flatten[q * dim + j]? = π[j]?
  | [], q, j, π, _, h, _ => by simp at h
  | a :: A, 0, j, π, hA, h, hj => by
    simp only [List.getElem?_cons_zero, Option.some.injEq] at h
    subst h
    rw [List.flatten_cons, Nat.zero_mul, Nat.zero_add, List.getElem?_append_left (by rw [hA a List.mem_cons_self]; exact hj)]
  | a :: A, q + 1, j, π, hA, h, hj => by
    rw [List.getElem?_cons_succ] at h
    have ha := hA a List.mem_cons_self
    rw [List.flatten_cons, List.getElem?_append_right (by rw [ha, Nat.succ_mul]; omega), ha,
      show (q + 1) * dim + j - dim = q * dim + j from by rw [Nat.succ_mul]; omega]
    exact flatten_get dim A q j π (fun x hx => hA x (List.mem_cons_of_mem _ hx)) h hj

/-- If `g` hits every member of `V` in exactly one outcome and nothing else, an involution of `V` does not change how often an event happens. -/
theorem countOutcomes_involution {β : Type} [DecidableEq β] (bs : List Nat) (g : List Nat → β) (V : β → Prop) (hV : ∀ ds ∈ outcomes bs, V (g ds))
    (h1 : ∀ v, V v → countOutcomes bs (fun ds => g ds = v) = 1) (σ : β → β) (hσ : ∀ v, V v → V (σ v)) (hσσ : ∀ v, V v → σ (σ v) = v)
    (event : β → Prop) [DecidablePred event] :
    countOutcomes bs (fun ds => event (σ (g ds))) = countOutcomes bs (fun ds => event (g ds)) := by
  have e1 : countOutcomes bs (fun ds => event (g ds)) = ((outcomes bs).map g).countP (fun v => decide (event v)) := by
    rw [List.countP_map]; rfl
  have e2 : countOutcomes bs (fun ds => event (σ (g ds))) = (((outcomes bs).map g).map σ).countP (fun v => decide (event v)) := by
    rw [List.countP_map, List.countP_map]; rfl
  rw [e1, e2]
  refine List.Perm.countP_eq _ ?_
  rw [List.perm_iff_count]
  have hV' : ∀ v ∈ (outcomes bs).map g, V v := by
    intro v hv
    obtain ⟨ds, hds, rfl⟩ := List.mem_map.mp hv
    exact hV ds hds
  have hc : ∀ v, V v → ((outcomes bs).map g).count v = 1 := by
    intro v hv
    rw [← h1 v hv, List.count_eq_countP, List.countP_map]
    unfold countOutcomes
    refine List.countP_congr (fun ds _ => ?_)
    simp
  intro v
  by_cases hv : V v
  · rw [hc v hv, ← hc (σ v) (hσ v hv), List.count_eq_countP, List.countP_map, List.count_eq_countP]
    refine List.countP_congr (fun x hx => ?_)
    simp only [Function.comp, beq_iff_eq]
    constructor
    · rintro rfl; exact (hσσ x (hV' x hx)).symm
    · rintro rfl; exact hσσ v hv
  · rw [List.count_eq_zero.mpr (fun h => hv (hV' v h)), List.count_eq_zero.mpr]
    intro h
    obtain ⟨x, hx, rfl⟩ := List.mem_map.mp h
    exact hv (hσ x (hV' x hx))

theorem swapAt_swapAt {α : Type} (l : List α) (i j : Nat) (hi : i < l.length) (hj : j < l.length) : swapAt (swapAt l i j) i j = l := by
  refine List.ext_getElem? (fun k => ?_)
  rw [getElem?_swapAt _ _ _ _ (by rw [swapAt_length]; exact hi) (by rw [swapAt_length]; exact hj), getElem?_swapAt _ _ _ _ hi hj]
  congr 1
  unfold sw
  split <;> split <;> (try split) <;> omega

/-- The permutations behind the slots of the DWTA table. -/
theorem fillLoop_perms (dim : Nat) : ∀ (n p : Nat) (a : List Nat) (t : List Nat × List Nat) (r : Rng),
    a.Perm (List.range dim) → (p + n) * dim ≤ t.1.length → (p + n) * dim ≤ t.2.length →
    ∀ (q : Nat) (π : List Nat), (permsList n a r)[q]? = some π → ∀ (j v : Nat), π[j]? = some v →
      (Dwta.fillLoop dim n p a t r).1.1[(p + q) * dim + v]? = some (((p + q) * dim + j) / 8) ∧
      (Dwta.fillLoop dim n p a t r).1.2[(p + q) * dim + v]? = some (((p + q) * dim + j) % 8) := by
  intro n
  induction n with
  | zero => intro p a t r _ _ _ q π h; simp [permsList] at h
  | succ n ih =>
    intro p a t r hp hl1 hl2 q π hπ j v hv
    have hperm := (shuffle_perm a r).trans hp
    have hnd : (shuffle a r).1.Nodup := hperm.nodup_iff.mpr List.nodup_range
    obtain ⟨b1, b2, b3, b4⟩ := Dwta.fillBlock_spec (p * dim) (shuffle a r).1 0 t hnd
    have hpn : p + 1 + n = p + (n + 1) := by omega
    have hmulp : p * dim + dim = (p + 1) * dim := by rw [Nat.succ_mul]
    have hmuln : (p + 1) * dim ≤ (p + (n + 1)) * dim := Nat.mul_le_mul_right _ (by omega)
    rw [permsList] at hπ
    simp only [Dwta.fillLoop]
    cases q with
    | zero =>
      simp only [List.getElem?_cons_zero, Option.some.injEq] at hπ
      subst hπ
      have hvd : v < dim := List.mem_range.mp (hperm.mem_iff.mp (List.mem_of_getElem? hv))
      obtain ⟨-, -, c3, -⟩ := Dwta.fillLoop_spec dim n (p + 1) (shuffle a r).1 (Dwta.fillBlock (p * dim) 0 (shuffle a r).1 t) (shuffle a r).2 hperm
        (by rw [b1, hpn]; exact hl1) (by rw [b2, hpn]; exact hl2)
      obtain ⟨x, y⟩ := c3 (p * dim + v) (by omega)
      obtain ⟨x', y'⟩ := b4 j v hv (by omega) (by omega)
      rw [Nat.zero_add] at x' y'
      exact ⟨x.trans x', y.trans y'⟩
    | succ q =>
      rw [List.getElem?_cons_succ] at hπ
      have := ih (p + 1) (shuffle a r).1 (Dwta.fillBlock (p * dim) 0 (shuffle a r).1 t) (shuffle a r).2 hperm
        (by rw [b1, hpn]; exact hl1) (by rw [b2, hpn]; exact hl2) q π hπ j v hv
      rw [show p + 1 + q = p + (q + 1) from by omega] at this
      exact this

theorem new_perms (numHashes dim : Nat) (r : Rng) (q : Nat) (π : List Nat)
    (hπ : (permsList (Wta.permuteCount numHashes dim) (List.range dim) r)[q]? = some π) (j v : Nat) (hv : π[j]? = some v) :
    (Dwta.new numHashes dim r).1.indices[q * dim + v]? = some ((q * dim + j) / 8) ∧
    (Dwta.new numHashes dim r).1.pos[q * dim + v]? = some ((q * dim + j) % 8) := by
  have hm : dim * Wta.permuteCount numHashes dim = Wta.permuteCount numHashes dim * dim := Nat.mul_comm _ _
  have := fillLoop_perms dim (Wta.permuteCount numHashes dim) 0 (List.range dim)
    (List.replicate (dim * Wta.permuteCount numHashes dim) 0, List.replicate (dim * Wta.permuteCount numHashes dim) 0) r (List.Perm.refl _)
    (by simp [hm]) (by simp [hm]) q π hπ j v hv
  rw [Nat.zero_add] at this
  exact this

end Goslide
