import Verif.Proofs.NodeBack
import Verif.Spec.Network
/-
Groups of nodes as lists of pairs (pointer, observation), up to permutation.
-/
set_option linter.unusedSectionVars false
namespace Goslide.Node
open Spec.Node Configuration
variable {F : Type} [GoFloat F]

theorem groupZ_iff {h : Heap F} {Z : List (Ptr × View F)} :
    GroupZ h Z ↔ (∀ z ∈ Z, Handle h z.1 z.2 ∧ Inner h z.1) ∧ Z.Pairwise (fun a b => Sep h a.1 b.1 ∧ Sep h b.1 a.1) := by
  constructor
  · intro g
    refine ⟨?_, ?_⟩
    · intro z hz
      obtain ⟨k, hk⟩ := List.mem_iff_getElem?.mp hz
      exact ⟨g.handle k z.1 z.2 (by simp [hk]) (by simp [hk]), g.inner z.1 (List.mem_map_of_mem hz)⟩
    · rw [List.pairwise_iff_getElem]
      intro i j hi hj hij
      exact ⟨g.sep i j _ _ (by omega) (by simp [hi]) (by simp [hj]), g.sep j i _ _ (by omega) (by simp [hj]) (by simp [hi])⟩
  · rintro ⟨h1, h2⟩
    refine ⟨by simp, ?_, ?_, ?_⟩
    · intro k p v hp hv
      rw [List.getElem?_map, Option.map_eq_some_iff] at hp hv
      obtain ⟨z, hz, rfl⟩ := hp
      obtain ⟨z', hz', rfl⟩ := hv
      rw [hz] at hz'; cases hz'
      exact (h1 z (List.mem_of_getElem? hz)).1
    · intro p hp
      obtain ⟨z, hz, rfl⟩ := List.mem_map.mp hp
      exact (h1 z hz).2
    · intro j k p p' hjk hp hp'
      rw [List.getElem?_map, Option.map_eq_some_iff] at hp hp'
      obtain ⟨z, hz, rfl⟩ := hp
      obtain ⟨z', hz', rfl⟩ := hp'
      obtain ⟨lj, rfl⟩ := List.getElem?_eq_some_iff.mp hz
      obtain ⟨lk, rfl⟩ := List.getElem?_eq_some_iff.mp hz'
      rw [List.pairwise_iff_getElem] at h2
      rcases Nat.lt_or_gt_of_ne hjk with h | h
      · exact (h2 j k lj lk h).1
      · exact (h2 k j lk lj h).2

theorem GroupZ.perm {h : Heap F} {Z Z' : List (Ptr × View F)} (g : GroupZ h Z) (hp : Z.Perm Z') : GroupZ h Z' := by
  rw [groupZ_iff] at g ⊢
  refine ⟨fun z hz => g.1 z (hp.mem_iff.mpr hz), ?_⟩
  exact hp.pairwise g.2 (fun h => ⟨h.2, h.1⟩)

theorem GroupZ.handle {h : Heap F} {Z : List (Ptr × View F)} (g : GroupZ h Z) {z : Ptr × View F} (hz : z ∈ Z) : Handle h z.1 z.2 :=
  ((groupZ_iff.mp g).1 z hz).1

theorem GroupZ.inner {h : Heap F} {Z : List (Ptr × View F)} (g : GroupZ h Z) {z : Ptr × View F} (hz : z ∈ Z) : Inner h z.1 :=
  ((groupZ_iff.mp g).1 z hz).2

theorem OwnedZ.perm {h : Heap F} {Z Z' : List (Ptr × View F)} {c : Int} (g : OwnedZ h Z c) (hp : Z.Perm Z') : OwnedZ h Z' c := by
  intro p hp'
  exact g p ((hp.map _).mem_iff.mpr hp')

theorem ownedZ_cons {h : Heap F} {z : Ptr × View F} {Z : List (Ptr × View F)} {c : Int} :
    OwnedZ h (z :: Z) c ↔ Owned h z.1 c ∧ OwnedZ h Z c := by
  unfold OwnedZ AllOwned; simp

/-- An operation on the first node. -/
theorem GroupZ.op {h h' : Heap F} {p n : Ptr} {v v' : View F} {R : List (Ptr × View F)} {c : Int} (g : GroupZ h ((p, v) :: R))
    (ho : Op h h' p n c v') : GroupZ h' ((n, v') :: R) ∧ (∀ z ∈ R, Keep h h' z.1) ∧
      (OwnedZ h ((p, v) :: R) c → n = p ∧ OwnedZ h' ((p, v') :: R) c) := by
  have h1 := Group.op g (k := 0) (p := p) (v := v) rfl rfl ho
  refine ⟨by simpa [GroupZ] using h1.1, ?_, ?_⟩
  · intro z hz
    obtain ⟨k, hk⟩ := List.mem_iff_getElem?.mp hz
    exact h1.2 (k + 1) z.1 (by omega) (by simp [hk])
  · intro ho'
    obtain ⟨e, -, ha⟩ := Group.op_owned g (k := 0) (p := p) (v := v) rfl rfl ho ho'
    exact ⟨e, by simpa [OwnedZ] using ha⟩

theorem GroupZ.arrs {h : Heap F} {Z : List (Ptr × View F)} (g : GroupZ h Z) (a : List (List Ptr)) :
    GroupZ { h with nodeArrs := a } Z := Group.arrs g a

/-- One element of a list, up to permutation. -/
theorem split_at {α : Type} {l : List α} {k : Nat} {x : α} (h : l[k]? = some x) :
    ∃ R, (∀ y, (l.set k y).Perm (y :: R)) ∧ l.Perm (x :: R) := by
  obtain ⟨hk, rfl⟩ := List.getElem?_eq_some_iff.mp h
  have key : ∀ y, (l.set k y).Perm (y :: (l.take k ++ l.drop (k + 1))) := by
    intro y
    rw [List.set_eq_take_append_cons_drop, if_pos hk]
    exact List.perm_middle
  refine ⟨l.take k ++ l.drop (k + 1), key, ?_⟩
  have := key l[k]
  rwa [List.set_getElem_self] at this

/-- An operation on one node of the first part. -/
theorem GroupZ.op_at {h h' : Heap F} {n : Ptr} {v' : View F} {z R : List (Ptr × View F)} {c : Int} {k : Nat} {x : Ptr × View F}
    (g : GroupZ h (z ++ R)) (hx : z[k]? = some x) (ho : Op h h' x.1 n c v') : GroupZ h' (z.set k (n, v') ++ R) ∧
      (OwnedZ h (z ++ R) c → n = x.1 ∧ OwnedZ h' (z.set k (n, v') ++ R) c) := by
  obtain ⟨p, v⟩ := x
  obtain ⟨S, h1, h2⟩ := split_at hx
  have g1 := (g.perm (h2.append_right R)).op ho
  refine ⟨g1.1.perm ((h1 _).append_right R).symm, ?_⟩
  intro ow
  obtain ⟨e, o⟩ := g1.2.2 (ow.perm (h2.append_right R))
  refine ⟨e, ?_⟩
  subst e
  exact o.perm ((h1 _).append_right R).symm

/-- One part of a concatenation, up to permutation. -/
theorem flat_split {α β : Type} {l : List α} {j : Nat} {x : α} (h : l[j]? = some x) (f : α → List β) :
    ∃ R, (∀ y, ((l.set j y).flatMap f).Perm (f y ++ R)) ∧ (l.flatMap f).Perm (f x ++ R) := by
  obtain ⟨R, h1, h2⟩ := split_at h
  exact ⟨R.flatMap f, fun y => (h1 y).flatMap_right f, h2.flatMap_right f⟩

theorem split_at2 {α : Type} : ∀ {l : List α} {j k : Nat} {x y : α}, l[j]? = some x → l[k]? = some y → j ≠ k →
    ∃ R, (∀ x' y', ((l.set j x').set k y').Perm (x' :: y' :: R)) ∧ l.Perm (x :: y :: R)
  | [], _, _, _, _, h, _, _ => by simp at h
  | a :: t, 0, 0, _, _, _, _, hn => absurd rfl hn
  | a :: t, 0, k + 1, x, y, hx, hy, _ => by
    obtain ⟨R, h1, h2⟩ := split_at (show t[k]? = some y by simpa using hy)
    simp only [List.getElem?_cons_zero, Option.some.injEq] at hx
    subst hx
    exact ⟨R, fun x' y' => (h1 y').cons x', h2.cons a⟩
  | a :: t, j + 1, 0, x, y, hx, hy, _ => by
    obtain ⟨R, h1, h2⟩ := split_at (show t[j]? = some x by simpa using hx)
    simp only [List.getElem?_cons_zero, Option.some.injEq] at hy
    subst hy
    exact ⟨R, fun x' y' => ((h1 x').cons y').trans (.swap _ _ _), (h2.cons a).trans (.swap _ _ _)⟩
  | a :: t, j + 1, k + 1, x, y, hx, hy, hn => by
    obtain ⟨R, h1, h2⟩ := split_at2 (show t[j]? = some x by simpa using hx) (show t[k]? = some y by simpa using hy) (by omega)
    refine ⟨a :: R, fun x' y' => ((h1 x' y').cons a).trans ?_, (h2.cons a).trans ?_⟩
    · exact (List.Perm.swap _ _ _).trans ((List.Perm.swap _ _ _).cons _)
    · exact (List.Perm.swap _ _ _).trans ((List.Perm.swap _ _ _).cons _)

theorem flat_split2 {α β : Type} {l : List α} {j k : Nat} {x y : α} (hx : l[j]? = some x) (hy : l[k]? = some y) (hjk : j ≠ k)
    (f : α → List β) : ∃ R, (∀ x' y', (((l.set j x').set k y').flatMap f).Perm (f x' ++ (f y' ++ R))) ∧
      (l.flatMap f).Perm (f x ++ (f y ++ R)) := by
  obtain ⟨R, h1, h2⟩ := split_at2 hx hy hjk
  exact ⟨R.flatMap f, fun x' y' => (h1 x' y').flatMap_right f, h2.flatMap_right f⟩

end Goslide.Node
