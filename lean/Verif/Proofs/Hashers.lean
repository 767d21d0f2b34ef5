import Verif.Model.Network
import Verif.Proofs.Memory
import Verif.Spec.Family
/-
Which steps of the construction of a network touch the layers and the seeds of `maphash`.
-/
set_option linter.unusedSectionVars false
namespace Goslide.Network
open Configuration Node Layer Spec.Network
variable {F : Type} [GoFloat F]

/-- The computation adds no layer and takes no seed. -/
def Still (x : WM F α) : Prop := ∀ w a w', x w = .ok (a, w') → w'.hashes = w.hashes ∧ w'.layers = w.layers ∧ w'.networks = w.networks ∧ w'.layerArrs = w.layerArrs

theorem Still.pure (a : α) : Still (pure a : WM F α) := by
  intro w b w' h
  cases h
  exact ⟨rfl, rfl, rfl, rfl⟩

theorem Still.throw (e : Panic) : Still (M.throw e : WM F α) := by
  intro w b w' h
  cases h

theorem Still.lift (x : Go α) : Still (M.lift x : WM F α) := by
  intro w b w' h
  cases x with
  | ok a => cases h; exact ⟨rfl, rfl, rfl, rfl⟩
  | error e => cases h

theorem Still.bind {x : WM F α} {f : α → WM F β} (hx : Still x) (hf : ∀ a, Still (f a)) : Still (x >>= f) := by
  intro w b w' h
  obtain ⟨a, s, h1, h2⟩ := M.bind_eq_ok h
  obtain ⟨p1, p2, p3, p4⟩ := hx _ _ _ h1
  obtain ⟨q1, q2, q3, q4⟩ := hf _ _ _ _ h2
  exact ⟨q1.trans p1, q2.trans p2, q3.trans p3, q4.trans p4⟩

theorem Still.ite {c : Prop} [Decidable c] {x y : WM F α} (hx : Still x) (hy : Still y) : Still (if c then x else y) := by
  by_cases h : c
  · rw [if_pos h]; exact hx
  · rw [if_neg h]; exact hy

theorem Still.onHeap (m : NM F α) : Still (onHeap m : WM F α) := by
  intro w b w' h
  unfold Layer.onHeap at h
  cases hm : m w.heap with
  | error e => rw [hm] at h; cases h
  | ok a => rw [hm] at h; cases h; exact ⟨rfl, rfl, rfl, rfl⟩

theorem Still.draw (f : Rng → Go (α × Rng)) : Still (draw f : WM F α) := by
  intro w b w' h
  unfold Layer.draw at h
  cases hm : f w.rng with
  | error e => rw [hm] at h; cases h
  | ok a => rw [hm] at h; cases h; exact ⟨rfl, rfl, rfl, rfl⟩

theorem Still.forM {f : β → WM F PUnit} (h : ∀ b, Still (f b)) : ∀ l : List β, Still (l.forM f)
  | [] => Still.pure _
  | b :: l => by
    show Still (f b >>= fun _ => l.forM f)
    exact (h b).bind (fun _ => Still.forM h l)

theorem still_checkLen (n : Int) : Still (checkLen n : WM F Unit) := Still.ite (Still.throw _) (Still.pure _)

theorem still_drawNormals (n : Nat) : Still (drawNormals n : WM F (List F)) := by
  intro w b w' h
  cases h
  exact ⟨rfl, rfl, rfl, rfl⟩

theorem still_allocInts (l : List Int) : Still (allocInts l : WM F Slice) := by
  intro w b w' h
  cases h
  exact ⟨rfl, rfl, rfl, rfl⟩

theorem still_allocTables (x : Lsh.LSH) : Still (allocTables x : WM F Ptr) := by
  intro w b w' h
  cases h
  exact ⟨rfl, rfl, rfl, rfl⟩

theorem still_setTables (p : Ptr) (x : Lsh.LSH) : Still (setTables p x : WM F Unit) := by
  intro w b w' h
  cases h
  exact ⟨rfl, rfl, rfl, rfl⟩

theorem still_tables (p : Ptr) : Still (tables p : WM F Lsh.LSH) := by
  intro w b w' h
  unfold tables at h
  cases hm : deref w.lshs p with
  | error e => rw [hm] at h; cases h
  | ok a => rw [hm] at h; cases h; exact ⟨rfl, rfl, rfl, rfl⟩

theorem still_newConsts (ty : NodeType) (b : Int) : Still (newConsts ty b : WM F Slice) := by
  unfold newConsts
  refine Still.ite ?_ (Still.pure _)
  intro w x w' h
  unfold allocConsts at h
  split at h
  · cases h
  · cases h; exact ⟨rfl, rfl, rfl, rfl⟩

theorem still_newArrays (cfg : Config F) (n p : Int) (a b c d : Slice) : Still (newArrays cfg n p a b c d : WM F _) := by
  unfold newArrays
  refine Still.ite (Still.ite (Still.pure _) (Still.pure _)) ?_
  refine (still_checkLen _).bind fun _ => (still_drawNormals _).bind fun _ => (Still.onHeap _).bind fun _ => (still_drawNormals _).bind fun _ =>
    (Still.onHeap _).bind fun _ => Still.ite ?_ (Still.pure _)
  exact (Still.onHeap _).bind fun _ => (Still.onHeap _).bind fun _ => Still.pure _

theorem still_addToHashTable (cfg : Config F) (h : Hasher) (t : Ptr) (ws : Slice) (id : Int) : Still (addToHashTable cfg h t ws id : WM F Unit) := by
  unfold addToHashTable
  exact (Still.onHeap _).bind fun _ => (Still.onHeap _).bind fun _ => (Still.lift _).bind fun _ => (still_tables _).bind fun _ =>
    (Still.lift _).bind fun _ => (Still.lift _).bind fun _ => still_setTables _ _

theorem still_initNode (cfg : Config F) (c prev : Int) (ty : NodeType) (b : Int) (h : Hasher) (t : Ptr) (ar : Slice × Slice × Slice × Slice) (tr ns : Slice) (i : Int) :
    Still (initNode cfg c prev ty b h t ar tr ns i : WM F Unit) := by
  unfold initNode
  have hs : ∀ m v x y, Still (adamSlices cfg m v x y : WM F _) := fun m v x y => by
    unfold adamSlices
    exact Still.ite ((Still.lift _).bind fun _ => (Still.lift _).bind fun _ => Still.pure _) (Still.pure _)
  exact (hs _ _ _ _).bind fun _ => (Still.onHeap _).bind fun _ => (Still.lift _).bind fun _ => (Still.onHeap _).bind fun _ => (Still.lift _).bind fun _ =>
    (Still.onHeap _).bind fun _ => (Still.onHeap _).bind fun _ => (Still.onHeap _).bind fun _ => still_addToHashTable _ _ _ _ _

/-- The new hash function takes the next seed if it needs one. -/
theorem newHasher_seed {cfg : Config F} (hf : cfg.HashFunction = 3) {kl dim : Nat} {w w' : World F} {h : Hasher} (e : newHasher cfg kl dim w = .ok (h, w')) :
    seedOf h = some (w.hashes 0) ∧ w'.hashes = (fun i => w.hashes (i + 1)) ∧ w'.layers = w.layers := by
  unfold newHasher at e
  rw [hf] at e
  cases e
  exact ⟨rfl, rfl, rfl⟩

/-- A new layer is the last one in the memory and has taken the next seed. -/
theorem new_seed {cfg : Config F} (hf : cfg.HashFunction = 3) {c n prev : Int} {ty : NodeType} {b k l rp : Int} {s1 s2 s3 s4 : Slice} {w w' : World F} {p : Ptr}
    (e : Layer.new cfg c n prev ty b k l rp s1 s2 s3 s4 w = .ok (p, w')) :
    ∃ x, p = w.layers.length ∧ w'.layers = w.layers ++ [x] ∧ seedOf x.hasher = some (w.hashes 0) ∧ w'.hashes = fun i => w.hashes (i + 1) := by
  unfold Layer.new at e
  obtain ⟨_, v1, h1, e⟩ := M.bind_eq_ok e
  obtain ⟨_, v2, h2, e⟩ := M.bind_eq_ok e
  obtain ⟨_, v3, h3, e⟩ := M.bind_eq_ok e
  obtain ⟨_, v4, h4, e⟩ := M.bind_eq_ok e
  obtain ⟨_, v5, h5, e⟩ := M.bind_eq_ok e
  obtain ⟨_, v6, h6, e⟩ := M.bind_eq_ok e
  obtain ⟨_, v7, h7, e⟩ := M.bind_eq_ok e
  obtain ⟨_, v8, h8, e⟩ := M.bind_eq_ok e
  obtain ⟨_, v9, h9, e⟩ := M.bind_eq_ok e
  obtain ⟨g, v10, h10, e⟩ := M.bind_eq_ok e
  have a1 := still_checkLen _ _ _ _ h1
  have a2 := Still.draw _ _ _ _ h2
  have a3 := still_allocInts _ _ _ _ h3
  have a4 := still_checkLen _ _ _ _ h4
  have a5 := still_checkLen _ _ _ _ h5
  have a6 := still_checkLen _ _ _ _ h6
  have a7 := still_checkLen _ _ _ _ h7
  have a8 := Still.draw _ _ _ _ h8
  have a9 := still_allocTables _ _ _ _ h9
  have hh : v9.hashes = w.hashes := by rw [a9.1, a8.1, a7.1, a6.1, a5.1, a4.1, a3.1, a2.1, a1.1]
  have hl : v9.layers = w.layers := by rw [a9.2.1, a8.2.1, a7.2.1, a6.2.1, a5.2.1, a4.2.1, a3.2.1, a2.2.1, a1.2.1]
  obtain ⟨b1, b2, b3⟩ := newHasher_seed hf h10
  obtain ⟨_, v11, h11, e⟩ := M.bind_eq_ok e
  obtain ⟨_, v12, h12, e⟩ := M.bind_eq_ok e
  obtain ⟨_, v13, h13, e⟩ := M.bind_eq_ok e
  obtain ⟨_, v14, h14, e⟩ := M.bind_eq_ok e
  obtain ⟨_, v15, h15, e⟩ := M.bind_eq_ok e
  obtain ⟨_, v16, h16, e⟩ := M.bind_eq_ok e
  obtain ⟨_, v17, h17, e⟩ := M.bind_eq_ok e
  obtain ⟨_, v18, h18, e⟩ := M.bind_eq_ok e
  have a11 := still_newArrays _ _ _ _ _ _ _ _ _ _ h11
  have a12 := still_checkLen _ _ _ _ h12
  have a13 := Still.onHeap _ _ _ _ h13
  have a14 := Still.onHeap _ _ _ _ h14
  have a15 := Still.onHeap _ _ _ _ h15
  have a16 := Still.onHeap _ _ _ _ h16
  have a17 := Still.forM (fun i => still_initNode _ _ _ _ _ _ _ _ _ _ i) _ _ _ _ h17
  have a18 := still_newConsts _ _ _ _ _ h18
  have hh' : v18.hashes = v10.hashes := by rw [a18.1, a17.1, a16.1, a15.1, a14.1, a13.1, a12.1, a11.1]
  have hl' : v18.layers = w.layers := by rw [a18.2.1, a17.2.1, a16.2.1, a15.2.1, a14.2.1, a13.2.1, a12.2.1, a11.2.1, b3, hl]
  cases e
  exact ⟨_, by rw [hl'], by rw [hl'], by rw [← hh]; exact b1, by show v18.hashes = _; rw [hh', b2, hh]⟩

/-- A new layer needs a hash function. -/
theorem new_hasher {cfg : Config F} {c n prev : Int} {ty : NodeType} {b k l rp : Int} {s1 s2 s3 s4 : Slice} {w w' : World F} {p : Ptr}
    (e : Layer.new cfg c n prev ty b k l rp s1 s2 s3 s4 w = .ok (p, w')) : ∃ kl dim v g v', newHasher cfg kl dim v = .ok (g, v') := by
  unfold Layer.new at e
  obtain ⟨_, v1, h1, e⟩ := M.bind_eq_ok e
  obtain ⟨_, v2, h2, e⟩ := M.bind_eq_ok e
  obtain ⟨_, v3, h3, e⟩ := M.bind_eq_ok e
  obtain ⟨_, v4, h4, e⟩ := M.bind_eq_ok e
  obtain ⟨_, v5, h5, e⟩ := M.bind_eq_ok e
  obtain ⟨_, v6, h6, e⟩ := M.bind_eq_ok e
  obtain ⟨_, v7, h7, e⟩ := M.bind_eq_ok e
  obtain ⟨_, v8, h8, e⟩ := M.bind_eq_ok e
  obtain ⟨_, v9, h9, e⟩ := M.bind_eq_ok e
  obtain ⟨g, v10, h10, e⟩ := M.bind_eq_ok e
  exact ⟨_, _, _, _, _, h10⟩

/-- The new layers take the seeds in turn. -/
theorem newLayers_seeds {cfg : Config F} (hf : cfg.HashFunction = 3) {c : Int} {sizes types : List Int} {b : Int} {k l rp : List Int} {sp : List F} :
    ∀ (n i : Nat) (prev : Int) (w w' : World F) (ps : List Ptr), newLayers cfg c sizes types b k l rp sp n i prev w = .ok (ps, w') →
      ps.length = n ∧ (∃ more, w'.layers = w.layers ++ more) ∧
      ∀ j q, ps[j]? = some q → ∃ x, w'.layers[q]? = some x ∧ seedOf x.hasher = some (w.hashes j)
  | 0, i, prev, w, w', ps, e => by
    unfold newLayers at e
    cases e
    exact ⟨rfl, ⟨[], by simp⟩, fun j q h => by simp at h⟩
  | n + 1, i, prev, w, w', ps, e => by
    unfold newLayers at e
    obtain ⟨_, v1, h1, e⟩ := M.bind_eq_ok e
    obtain ⟨_, v2, h2, e⟩ := M.bind_eq_ok e
    obtain ⟨_, v3, h3, e⟩ := M.bind_eq_ok e
    obtain ⟨_, v4, h4, e⟩ := M.bind_eq_ok e
    obtain ⟨_, v5, h5, e⟩ := M.bind_eq_ok e
    obtain ⟨_, v6, h6, e⟩ := M.bind_eq_ok e
    obtain ⟨p, v7, h7, e⟩ := M.bind_eq_ok e
    obtain ⟨qs, v8, h8, e⟩ := M.bind_eq_ok e
    have a1 := Still.lift _ _ _ _ h1
    have a2 := Still.lift _ _ _ _ h2
    have a3 := Still.lift _ _ _ _ h3
    have a4 := Still.lift _ _ _ _ h4
    have a5 := Still.lift _ _ _ _ h5
    have a6 := Still.lift _ _ _ _ h6
    have hh : v6.hashes = w.hashes := by rw [a6.1, a5.1, a4.1, a3.1, a2.1, a1.1]
    have hl : v6.layers = w.layers := by rw [a6.2.1, a5.2.1, a4.2.1, a3.2.1, a2.2.1, a1.2.1]
    obtain ⟨x, hp, hx, hs, hv⟩ := new_seed hf h7
    obtain ⟨len, ⟨more, hm⟩, rest⟩ := newLayers_seeds hf n (i + 1) _ v7 v8 qs h8
    cases e
    refine ⟨by simp [len], ⟨[x] ++ more, by rw [hm, hx, hl, List.append_assoc]⟩, fun j q hq => ?_⟩
    cases j with
    | zero =>
      rw [List.getElem?_cons_zero, Option.some.injEq] at hq
      subst hq
      exact ⟨x, by rw [hm, hx, hp, List.append_assoc, List.getElem?_append_right (Nat.le_refl _)]; simp, by rw [hs, hh]⟩
    | succ j =>
      rw [List.getElem?_cons_succ] at hq
      obtain ⟨y, hy, hsy⟩ := rest j q hq
      exact ⟨y, hy, by rw [hsy, hv, hh]⟩

end Goslide.Network
