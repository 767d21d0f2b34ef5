import Verif.Proofs.LayerQuery
import Verif.Spec.Network
/-
Parts of the memory that a computation leaves alone.
-/
set_option linter.unusedSectionVars false
namespace Goslide.Layer
open Goslide Node Lsh Configuration
variable {F : Type} [GoFloat F]

/-- `m` never changes the part `f` of the memory. -/
def Keeps (f : World F → β) (m : WM F α) : Prop := ∀ w a w', m w = .ok (a, w') → f w' = f w

namespace Keeps
variable {β γ α α' : Type} {f : World F → β}

theorem pure (a : α) : Keeps f (Pure.pure a : WM F α) := by intro w b w' h; cases h; rfl
theorem throw (e : Panic) : Keeps f (M.throw e : WM F α) := by intro w b w' h; cases h
theorem lift (x : Go α) : Keeps f (M.lift x : WM F α) := by intro w a w' h; rw [(lift_ok h).2]
theorem bind {m : WM F α} {g : α → WM F α'} (hm : Keeps f m) (hg : ∀ a, Keeps f (g a)) : Keeps f (m >>= g) := by
  intro w a w' h
  obtain ⟨b, w1, h1, h2⟩ := M.bind_eq_ok h
  rw [hg b _ _ _ h2, hm _ _ _ h1]
theorem ite {c : Prop} [Decidable c] {m m' : WM F α} (hm : Keeps f m) (hm' : Keeps f m') : Keeps f (if c then m else m') := by
  split
  · exact hm
  · exact hm'
theorem onHeap {m : NM F α} (hf : ∀ (w : World F) (h : Heap F), f { w with heap := h } = f w) : Keeps f (Layer.onHeap m) := by
  intro w a w' h
  obtain ⟨h', _, rfl⟩ := onHeap_ok h
  exact hf _ _
theorem draw {m : Rng → Go (α × Rng)} (hf : ∀ (w : World F) (r : Rng), f { w with rng := r } = f w) : Keeps f (Layer.draw m : WM F α) := by
  intro w a w' h
  obtain ⟨h', _, rfl⟩ := draw_ok h
  exact hf _ _
theorem forM {g : α → WM F PUnit} (hg : ∀ a, Keeps f (g a)) : ∀ l : List α, Keeps f (l.forM g)
  | [] => pure _
  | a :: l => bind (hg a) (fun _ => forM hg l)
theorem layer (p : Ptr) : Keeps f (Layer.layer p) := by intro w a w' h; rw [(layer_ok h).2]
theorem tables (p : Ptr) : Keeps f (Layer.tables p) := by intro w a w' h; rw [(tables_ok h).2]
end Keeps

/-- The parts that the construction of a layer changes only at known places. -/
def outer (w : World F) := (w.ints, w.layers, w.layerArrs, w.networks)

theorem keeps_newHasher (cfg : Config F) (kl dim : Nat) : Keeps outer (newHasher cfg kl dim) := by
  unfold newHasher
  split
  · exact Keeps.draw (fun _ _ => rfl)
  · exact Keeps.draw (fun _ _ => rfl)
  · intro w a w' h; cases h; rfl
  · exact Keeps.draw (fun _ _ => rfl)
  · exact Keeps.throw _

theorem keeps_onHeap (m : NM F α) : Keeps outer (onHeap m) := Keeps.onHeap (fun _ _ => rfl)

theorem keeps_checkLen {β : Type} {f : World F → β} (n : Int) : Keeps f (checkLen n : WM F Unit) := by
  unfold checkLen; exact Keeps.ite (Keeps.throw _) (Keeps.pure _)

theorem keeps_drawNormals (n : Nat) : Keeps (outer (F := F)) (drawNormals n) := by intro w a w' h; cases h; rfl

theorem keeps_newArrays (cfg : Config F) (n p : Int) (a b c d : Slice) : Keeps outer (newArrays cfg n p a b c d) := by
  unfold newArrays
  refine Keeps.ite (Keeps.ite (Keeps.pure _) (Keeps.pure _)) ?_
  refine Keeps.bind (keeps_checkLen _) (fun _ => Keeps.bind (keeps_drawNormals _) (fun _ => Keeps.bind (keeps_onHeap _) (fun _ =>
    Keeps.bind (keeps_drawNormals _) (fun _ => Keeps.bind (keeps_onHeap _) (fun _ => Keeps.ite ?_ (Keeps.pure _))))))
  exact Keeps.bind (keeps_onHeap _) (fun _ => Keeps.bind (keeps_onHeap _) (fun _ => Keeps.pure _))

theorem keeps_setTables (p : Ptr) (s : LSH) : Keeps (outer (F := F)) (setTables p s) := by intro w a w' h; cases h; rfl

theorem keeps_addToHashTable (cfg : Config F) (hs : Hasher) (t : Ptr) (ws : Slice) (id : Int) :
    Keeps outer (addToHashTable cfg hs t ws id) := by
  unfold addToHashTable
  refine Keeps.bind (keeps_onHeap _) (fun _ => Keeps.bind (keeps_onHeap _) (fun _ => Keeps.bind (Keeps.lift _) (fun _ =>
    Keeps.bind (Keeps.tables _) (fun _ => Keeps.bind (Keeps.lift _) (fun _ => Keeps.bind (Keeps.lift _) (fun _ => ?_))))))
  exact keeps_setTables _ _

theorem keeps_initNode (cfg : Config F) (c prev : Int) (ty : NodeType) (b : Int) (hs : Hasher) (t : Ptr)
    (arrays : Slice × Slice × Slice × Slice) (tr ns : Slice) (i : Int) :
    Keeps outer (initNode cfg c prev ty b hs t arrays tr ns i) := by
  unfold initNode
  dsimp only
  refine Keeps.bind ?_ (fun _ => Keeps.bind (keeps_onHeap _) (fun _ => Keeps.bind (Keeps.lift _) (fun _ =>
    Keeps.bind (keeps_onHeap _) (fun _ => Keeps.bind (Keeps.lift _) (fun _ => Keeps.bind (keeps_onHeap _) (fun _ =>
    Keeps.bind (keeps_onHeap _) (fun _ => Keeps.bind (keeps_onHeap _) (fun _ => keeps_addToHashTable _ _ _ _ _))))))))
  unfold adamSlices
  exact Keeps.ite (Keeps.bind (Keeps.lift _) (fun _ => Keeps.bind (Keeps.lift _) (fun _ => Keeps.pure _))) (Keeps.pure _)

theorem keeps_newConsts (ty : NodeType) (b : Int) : Keeps (outer (F := F)) (newConsts ty b) := by
  unfold newConsts
  refine Keeps.ite ?_ (Keeps.pure _)
  intro w a w' h
  unfold allocConsts at h
  split at h
  · cases h
  · cases h; rfl

/-- What a successful `New` does to these parts. -/
theorem new_outer {cfg : Config F} {c n prev : Int} {ty : NodeType} {b k l rp : Int} {s1 s2 s3 s4 : Slice} {p : Ptr} {w w' : World F}
    (h : new cfg c n prev ty b k l rp s1 s2 s3 s4 w = .ok (p, w')) :
    ∃ (order : List Int) (x : Layer), 0 ≤ n ∧ order.Perm ((List.range n.toNat).map (fun (i : Nat) => (i : Int))) ∧
      p = w.layers.length ∧ w'.layers = w.layers ++ [x] ∧ w'.ints = w.ints ++ [order] ∧ w'.layerArrs = w.layerArrs ∧
      w'.networks = w.networks ∧ x.randNode = { arr := w.ints.length, off := 0, len := order.length } ∧
      x.cowId = c ∧ x.nodeType = ty ∧ x.k = k ∧ x.l = l ∧ x.previousLayerNumOfNodes = prev ∧ x.nodes.len = n.toNat ∧
      0 ≤ k ∧ 0 ≤ l := by
  have chk : ∀ (m : Int) (u : Unit) (w w' : World F), checkLen m w = .ok (u, w') → 0 ≤ m ∧ w' = w := by
    intro m u w w' h
    unfold checkLen at h
    split at h
    · cases h
    · cases h; exact ⟨by omega, rfl⟩
  unfold new at h
  replace h := M.bind_eq_ok h
  obtain ⟨_, w1, h1, h⟩ := h
  obtain ⟨hn, rfl⟩ := chk _ _ _ _ h1
  replace h := M.bind_eq_ok h
  obtain ⟨order, w2, h2, h⟩ := h
  obtain ⟨r, hr, rfl⟩ := draw_ok h2
  have hperm : order.Perm ((List.range n.toNat).map (fun (i : Nat) => (i : Int))) := by
    have e := congrArg Prod.fst (Except.ok.inj hr)
    dsimp only at e
    rw [← e]; exact shuffle_perm _ _
  replace h := M.bind_eq_ok h
  obtain ⟨rn, w3, h3, h⟩ := h
  cases h3
  replace h := M.bind_eq_ok h
  obtain ⟨_, w4, h4, h⟩ := h
  obtain ⟨hk, rfl⟩ := chk _ _ _ _ h4
  replace h := M.bind_eq_ok h
  obtain ⟨_, w5, h5, h⟩ := h
  obtain ⟨hl, rfl⟩ := chk _ _ _ _ h5
  replace h := M.bind_eq_ok h
  obtain ⟨_, w6, h6, h⟩ := h
  obtain ⟨_, rfl⟩ := chk _ _ _ _ h6
  replace h := M.bind_eq_ok h
  obtain ⟨_, w7, h7, h⟩ := h
  obtain ⟨_, rfl⟩ := chk _ _ _ _ h7
  replace h := M.bind_eq_ok h
  obtain ⟨s, w8, h8, h⟩ := h
  have k8 : outer w8 = outer _ := Keeps.draw (fun _ _ => rfl) _ _ _ h8
  replace h := M.bind_eq_ok h
  obtain ⟨t, w9, h9, h⟩ := h
  have k9 : outer w9 = outer w8 := by cases h9; rfl
  replace h := M.bind_eq_ok h
  obtain ⟨hs, w10, h10, h⟩ := h
  have k10 := keeps_newHasher _ _ _ _ _ _ h10
  replace h := M.bind_eq_ok h
  obtain ⟨arrays, w11, h11, h⟩ := h
  have k11 := keeps_newArrays _ _ _ _ _ _ _ _ _ _ h11
  replace h := M.bind_eq_ok h
  obtain ⟨_, w12, h12, h⟩ := h
  obtain ⟨_, rfl⟩ := chk _ _ _ _ h12
  replace h := M.bind_eq_ok h
  obtain ⟨trains, w13, h13, h⟩ := h
  have k13 := keeps_onHeap _ _ _ _ h13
  replace h := M.bind_eq_ok h
  obtain ⟨ta, w14, h14, h⟩ := h
  have k14 := keeps_onHeap _ _ _ _ h14
  replace h := M.bind_eq_ok h
  obtain ⟨ps, w15, h15, h⟩ := h
  have k15 := keeps_onHeap _ _ _ _ h15
  have hps : ps.length = n.toNat := by
    have gen : ∀ (m : Nat) (h h' : Heap F) (ps : List Ptr), newEmptyNodes c m h = .ok (ps, h') → ps.length = m := by
      intro m
      induction m with
      | zero => intro h h' ps hr; cases hr; rfl
      | succ m ih =>
        intro h h' ps hr
        unfold newEmptyNodes at hr
        replace hr := M.bind_eq_ok hr
        obtain ⟨p, h1, _, hr⟩ := hr
        replace hr := M.bind_eq_ok hr
        obtain ⟨qs, h2, hq, hr⟩ := hr
        cases hr
        simp [ih _ _ _ hq]
    obtain ⟨h', hh, _⟩ := onHeap_ok h15
    exact gen _ _ _ _ hh
  replace h := M.bind_eq_ok h
  obtain ⟨ns, w16, h16, h⟩ := h
  have k16 := keeps_onHeap _ _ _ _ h16
  have hns : ns.len = n.toNat := by
    obtain ⟨h', hh, _⟩ := onHeap_ok h16
    cases hh; exact hps
  replace h := M.bind_eq_ok h
  obtain ⟨_, w17, h17, h⟩ := h
  have k17 := Keeps.forM (fun i => keeps_initNode _ _ _ _ _ _ _ _ _ _ i) _ _ _ _ h17
  replace h := M.bind_eq_ok h
  obtain ⟨nm, w18, h18, h⟩ := h
  have k18 := keeps_newConsts _ _ _ _ _ h18
  have k := k18.trans (k17.trans (k16.trans (k15.trans (k14.trans (k13.trans (k11.trans (k10.trans (k9.trans k8))))))))
  unfold outer at k
  simp only [Prod.mk.injEq] at k
  obtain ⟨ki, kl, ka, kn⟩ := k
  cases h
  refine ⟨order, _, hn, hperm, by rw [kl], by rw [kl], ki, ka, kn, rfl, rfl, rfl, rfl, rfl, rfl, hns, hk, hl⟩

theorem OrderAt.read {w : World F} {x : Layer} {order : List Int} (h : OrderAt w x order) :
    readSlice w.ints x.randNode = some order := by
  unfold readSlice
  obtain ⟨h1, h2, h3⟩ := h
  split
  · have : order = [] := List.eq_nil_of_length_eq_zero (by omega)
    rw [this]
  · rw [h1]
    dsimp only
    rw [h2, h3, if_pos (by omega)]
    simp

theorem updateRandomNodes_run {w : World F} {p : Ptr} {x : Layer} {order : List Int} (hx : w.layers[p]? = some x)
    (ho : OrderAt w x order) (hn : x.nodes.len ≤ order.length) :
    ∃ order' r, updateRandomNodes p w = .ok ((), { w with ints := w.ints.set x.randNode.arr order', rng := r }) ∧
      order'.Perm order ∧ OrderAt { w with ints := w.ints.set x.randNode.arr order', rng := r } x order' := by
  have hr : shuffleNodes x.nodes.len order w.rng = .ok (shuffleFrom order (x.nodes.len - 1) w.rng) := by
    unfold shuffleNodes; rw [if_pos hn]
  have hp := shuffleFrom_perm (x.nodes.len - 1) order w.rng
  refine ⟨(shuffleFrom order (x.nodes.len - 1) w.rng).1, (shuffleFrom order (x.nodes.len - 1) w.rng).2, ?_, hp, ?_⟩
  · unfold updateRandomNodes
    rw [M.bind_ok (layer_run hx), M.bind_ok (intsOf_run ho.read), M.bind_ok (draw_run hr)]
    rfl
  · obtain ⟨h1, h2, h3⟩ := ho
    have hlt := (List.getElem?_eq_some_iff.mp h1).1
    exact ⟨by rw [List.getElem?_set, if_pos rfl, if_pos hlt], h2, by rw [h3, hp.length_eq]⟩

end Goslide.Layer
