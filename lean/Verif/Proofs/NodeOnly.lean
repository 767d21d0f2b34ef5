import Verif.Proofs.NodeBack
/-
An operation for `c` changes only objects that `c` owns: no hypothesis on the memory other than that nodes
do not share cells of train arrays.
-/
set_option linter.unusedSectionVars false
namespace Goslide
variable {α : Type}

theorem writeCell_inv {store st : List (List α)} {s : Slice} {i : Int} {v : α} (h : writeCell store s i v = .ok st) :
    ∃ a, store[s.arr]? = some a ∧ 0 ≤ i ∧ i < s.len ∧ s.off + i.toNat < a.length ∧
      st = store.set s.arr (a.set (s.off + i.toNat) v) := by
  unfold writeCell at h
  split at h
  · rename_i hi
    split at h
    · cases h
    · rename_i a ha
      split at h
      · rename_i hl
        cases h; exact ⟨a, ha, hi.1, hi.2, hl, rfl⟩
      · cases h
  · cases h

theorem writeCell_length {store st : List (List α)} {s : Slice} {i : Int} {v : α} (h : writeCell store s i v = .ok st) :
    st.length = store.length := by
  replace h := writeCell_inv h; obtain ⟨a, _, _, _, _, rfl⟩ := h
  simp

theorem readSlice_frame {store st : List (List α)} {s s' : Slice} {i : Int} {v : α}
    (h : writeCell store s i v = .ok st) (hd : s.Disjoint s') : readSlice st s' = readSlice store s' := by
  replace h := writeCell_inv h; obtain ⟨a, ha, h0, h1, hl, rfl⟩ := h
  have harr := (List.getElem?_eq_some_iff.mp ha).1
  unfold readSlice
  by_cases h0 : s'.len = 0
  · rw [if_pos h0, if_pos h0]
  · rw [if_neg h0, if_neg h0]
    by_cases hk : s'.arr = s.arr
    · rw [hk, List.getElem?_set_self harr, ha]
      dsimp only
      rw [List.length_set]
      split
      · rename_i hle
        congr 1
        apply List.ext_getElem?
        intro k
        rw [List.getElem?_take, List.getElem?_drop, List.getElem?_take, List.getElem?_drop]
        by_cases hk' : k < s'.len
        · rw [if_pos hk', if_pos hk', List.getElem?_set_ne]
          unfold Slice.Disjoint at hd
          rcases hd with hd | hd | hd | hd | hd <;> first | omega | exact absurd hk.symm hd
        · rw [if_neg hk', if_neg hk']
      · rfl
    · rw [List.getElem?_set_ne (Ne.symm hk)]

theorem readCell_frame {store st : List (List α)} {s s' : Slice} {i j : Int} {v : α}
    (h : writeCell store s i v = .ok st) (hd : s.Disjoint s') : readCell st s' j = readCell store s' j := by
  replace h := writeCell_inv h; obtain ⟨a, ha, h0, h1, hl, rfl⟩ := h
  have harr := (List.getElem?_eq_some_iff.mp ha).1
  unfold readCell
  by_cases hj : 0 ≤ j ∧ j < s'.len
  · rw [if_pos hj, if_pos hj]
    by_cases hk : s'.arr = s.arr
    · rw [hk, List.getElem?_set_self harr, ha]
      dsimp only
      rw [List.getElem?_set_ne]
      unfold Slice.Disjoint at hd
      rcases hd with hd | hd | hd | hd | hd <;> first | omega | exact absurd hk.symm hd
    · rw [List.getElem?_set_ne (Ne.symm hk)]
  · rw [if_neg hj, if_neg hj]

theorem readCell_self {store st : List (List α)} {s : Slice} {i : Int} {v : α}
    (h : writeCell store s i v = .ok st) : readCell st s i = .ok v := by
  replace h := writeCell_inv h; obtain ⟨a, ha, h0, h1, hl, rfl⟩ := h
  have harr := (List.getElem?_eq_some_iff.mp ha).1
  unfold readCell
  rw [if_pos ⟨h0, h1⟩, List.getElem?_set_self harr]
  dsimp only
  rw [List.getElem?_set_self hl]

theorem readCell_append {store : List (List α)} {s : Slice} {i : Int} {v : α} (h : readCell store s i = .ok v)
    (ext : List (List α)) : readCell (store ++ ext) s i = .ok v := by
  unfold readCell at *
  split at h
  · rename_i hi
    rw [if_pos hi]
    split at h
    · cases h
    · rename_i a ha
      rw [List.getElem?_append_left (List.getElem?_eq_some_iff.mp ha).1, ha]
      exact h
  · cases h
end Goslide

namespace Goslide.Node
theorem getElem?_new {β : Type} (l : List β) (a : β) : (l ++ [a])[l.length]? = some a := by simp
open Spec.Node Configuration
variable {F : Type} [GoFloat F]

/-- Everything in `h` that does not belong to `c` is the same in `h'`, except the content of vectors. -/
structure Only (c : Int) (h h' : Heap F) : Prop where
  nodes : ∀ (p : Ptr) nd, h.nodes[p]? = some nd → nd.cowId ≠ c → h'.nodes[p]? = some nd
  bases : ∀ (p : Ptr) b, h.bases[p]? = some b → b.cowId ≠ c → h'.bases[p]? = some b
  trains : ∀ (p : Ptr) t, h.trains[p]? = some t → t.cowId ≠ c → h'.trains[p]? = some t
  arrs : ∀ (p : Ptr) nd l, h.nodes[p]? = some nd → nd.cowId ≠ c → readSlice h.trainArrs nd.train = some l →
    readSlice h'.trainArrs nd.train = some l
  disj : Disj h'

theorem Only.refl {h : Heap F} (hd : Disj h) (c : Int) : Only c h h :=
  ⟨fun _ _ h _ => h, fun _ _ h _ => h, fun _ _ h _ => h, fun _ _ _ _ _ h => h, hd⟩

theorem Only.trans {c : Int} {h h1 h2 : Heap F} (a : Only c h h1) (b : Only c h1 h2) : Only c h h2 :=
  ⟨fun p nd h1 h2 => b.nodes p nd (a.nodes p nd h1 h2) h2, fun p nd h1 h2 => b.bases p nd (a.bases p nd h1 h2) h2,
    fun p nd h1 h2 => b.trains p nd (a.trains p nd h1 h2) h2,
    fun p nd l h1 h2 h3 => b.arrs p nd l (a.nodes p nd h1 h2) h2 (a.arrs p nd l h1 h2 h3), b.disj⟩

/-! ### What success says -/

theorem deref_inv {β : Type} {l : List β} {p : Ptr} {x : β} (h : deref l p = .ok x) : l[p]? = some x := by
  unfold deref at h
  split at h
  · rename_i a ha; cases h; exact ha
  · cases h

theorem map_inv {β γ : Type} {x : Go β} {f : β → γ} {y : γ} (h : x.map f = .ok y) : ∃ a, x = .ok a ∧ f a = y := by
  cases x with
  | error e => cases h
  | ok a => exact ⟨a, rfl, by injection h⟩

theorem node_inv {h h1 : Heap F} {p : Ptr} {nd : Node} (hr : node p h = .ok (nd, h1)) : h1 = h ∧ h.nodes[p]? = some nd := by
  replace hr := map_inv hr; obtain ⟨a, h2, h3⟩ := hr
  cases h3; exact ⟨rfl, deref_inv h2⟩
theorem base_inv {h h1 : Heap F} {p : Ptr} {nd : BaseNode F} (hr : base p h = .ok (nd, h1)) : h1 = h ∧ h.bases[p]? = some nd := by
  replace hr := map_inv hr; obtain ⟨a, h2, h3⟩ := hr
  cases h3; exact ⟨rfl, deref_inv h2⟩
theorem train_inv {h h1 : Heap F} {p : Ptr} {nd : NodeTrain F} (hr : train p h = .ok (nd, h1)) : h1 = h ∧ h.trains[p]? = some nd := by
  replace hr := map_inv hr; obtain ⟨a, h2, h3⟩ := hr
  cases h3; exact ⟨rfl, deref_inv h2⟩
theorem trainPtr_inv {h h1 : Heap F} {s : Slice} {i : Int} {q : Ptr} (hr : trainPtr s i h = .ok (q, h1)) :
    h1 = h ∧ readCell h.trainArrs s i = .ok q := by
  replace hr := map_inv hr; obtain ⟨a, h2, h3⟩ := hr
  cases h3; exact ⟨rfl, h2⟩
theorem nodePtr_inv {h h1 : Heap F} {s : Slice} {i : Int} {q : Ptr} (hr : nodePtr s i h = .ok (q, h1)) :
    h1 = h ∧ readCell h.nodeArrs s i = .ok q := by
  replace hr := map_inv hr; obtain ⟨a, h2, h3⟩ := hr
  cases h3; exact ⟨rfl, h2⟩
theorem float_inv {h h1 : Heap F} {s : Slice} {i : Int} {x : F} (hr : float s i h = .ok (x, h1)) :
    h1 = h ∧ readCell h.floats s i = .ok x := by
  replace hr := map_inv hr; obtain ⟨a, h2, h3⟩ := hr
  cases h3; exact ⟨rfl, h2⟩
theorem setFloat_inv {h h1 : Heap F} {s : Slice} {i : Int} {x : F} {u : Unit} (hr : setFloat s i x h = .ok (u, h1)) :
    ∃ fs, h1 = { h with floats := fs } := by
  replace hr := map_inv hr; obtain ⟨a, h2, h3⟩ := hr
  cases h3; exact ⟨a, rfl⟩
theorem setNodePtr_inv {h h1 : Heap F} {s : Slice} {i : Int} {x : Ptr} {u : Unit} (hr : setNodePtr s i x h = .ok (u, h1)) :
    ∃ fs, h1 = { h with nodeArrs := fs } := by
  replace hr := map_inv hr; obtain ⟨a, h2, h3⟩ := hr
  cases h3; exact ⟨a, rfl⟩
theorem trainOf_inv {h h1 : Heap F} {p : Ptr} {i : Int} {t : NodeTrain F} (hr : trainOf p i h = .ok (t, h1)) :
    h1 = h ∧ ∃ nd q, h.nodes[p]? = some nd ∧ readCell h.trainArrs nd.train i = .ok q ∧ h.trains[q]? = some t := by
  unfold trainOf at hr
  replace hr := M.bind_eq_ok hr; obtain ⟨nd, s1, e1, hr⟩ := hr
  replace e1 := node_inv e1; obtain ⟨rfl, e1⟩ := e1
  replace hr := M.bind_eq_ok hr; obtain ⟨q, s2, e2, hr⟩ := hr
  replace e2 := trainPtr_inv e2; obtain ⟨rfl, e2⟩ := e2
  replace hr := train_inv hr; obtain ⟨rfl, e3⟩ := hr
  exact ⟨rfl, nd, q, e1, e2, e3⟩
theorem baseOf_inv {h h1 : Heap F} {p : Ptr} {b : BaseNode F} (hr : baseOf p h = .ok (b, h1)) :
    h1 = h ∧ ∃ nd, h.nodes[p]? = some nd ∧ h.bases[nd.base]? = some b := by
  unfold baseOf at hr
  replace hr := M.bind_eq_ok hr; obtain ⟨nd, s1, e1, hr⟩ := hr
  replace e1 := node_inv e1; obtain ⟨rfl, e1⟩ := e1
  replace hr := base_inv hr; obtain ⟨rfl, e3⟩ := hr
  exact ⟨rfl, nd, e1, e3⟩

/-- `c` owns the node. -/
def Mine (h : Heap F) (n : Ptr) (c : Int) : Prop := ∃ nd, h.nodes[n]? = some nd ∧ nd.cowId = c

/-- `c` owns the training state of input `i` and the base of node `n`. -/
structure MineAt (h : Heap F) (n : Ptr) (nd : Node) (i c : Int) : Prop where
  node : h.nodes[n]? = some nd
  cow : nd.cowId = c
  slot : ∃ q t, readCell h.trainArrs nd.train i = .ok q ∧ h.trains[q]? = some t ∧ t.cowId = c

theorem only_floats {h : Heap F} (hd : Disj h) (c : Int) (fs : List (List F)) : Only c h { h with floats := fs } :=
  ⟨fun _ _ h _ => h, fun _ _ h _ => h, fun _ _ h _ => h, fun _ _ _ _ _ h => h, hd⟩
theorem only_nodeArrs {h : Heap F} (hd : Disj h) (c : Int) (fs : List (List Ptr)) : Only c h { h with nodeArrs := fs } :=
  ⟨fun _ _ h _ => h, fun _ _ h _ => h, fun _ _ h _ => h, fun _ _ _ _ _ h => h, hd⟩

theorem only_setTrain {h : Heap F} (hd : Disj h) {c : Int} {q : Ptr} {t : NodeTrain F} (ht : h.trains[q]? = some t)
    (hc : t.cowId = c) (t' : NodeTrain F) : Only c h (trainHeap h q t') := by
  refine ⟨fun _ _ h _ => h, fun _ _ h _ => h, fun p t2 h2 hc2 => ?_, fun _ _ _ _ _ h => h, hd⟩
  show (h.trains.set q t')[p]? = _
  rw [List.getElem?_set_ne]
  · exact h2
  · rintro rfl; rw [ht] at h2; cases h2; exact hc2 hc

theorem only_setBase {h : Heap F} (hd : Disj h) {c : Int} {q : Ptr} {t : BaseNode F} (ht : h.bases[q]? = some t)
    (hc : t.cowId = c) (t' : BaseNode F) : Only c h (setBaseHeap h q t') := by
  refine ⟨fun _ _ h _ => h, fun p t2 h2 hc2 => ?_, fun _ _ h _ => h, fun _ _ _ _ _ h => h, hd⟩
  show (h.bases.set q t')[p]? = _
  rw [List.getElem?_set_ne]
  · exact h2
  · rintro rfl; rw [ht] at h2; cases h2; exact hc2 hc

theorem only_clone {h h1 : Heap F} {p n : Ptr} {c : Int} (hd : Disj h) (hr : cloneIfNeeded p c h = .ok (n, h1)) :
    Only c h h1 ∧ Mine h1 n c ∧ h1.trains = h.trains ∧ h1.bases = h.bases ∧ (∀ (p' : Ptr) nd, h.nodes[p']? = some nd → h1.nodes[p']? = some nd) ∧
      (∀ s i (v : Ptr), readCell h.trainArrs s i = .ok v → readCell h1.trainArrs s i = .ok v) ∧ h1.floats = h.floats := by
  unfold cloneIfNeeded at hr
  replace hr := M.bind_eq_ok hr; obtain ⟨nd, s1, e1, hr⟩ := hr
  replace e1 := node_inv e1; obtain ⟨rfl, e1⟩ := e1
  by_cases hc : nd.cowId = c
  · rw [if_neg (by simp [hc])] at hr
    cases hr
    exact ⟨Only.refl hd c, ⟨nd, e1, hc⟩, rfl, rfl, fun _ _ h => h, fun _ _ _ h => h, rfl⟩
  · rw [if_pos hc] at hr
    unfold clone at hr
    rw [M.bind_ok (node_ok e1)] at hr
    replace hr := M.bind_eq_ok hr; obtain ⟨qs, s2, e2, hr⟩ := hr
    have : s2 = s1 := by
      unfold trainPtrsOf at e2
      split at e2 <;> cases e2; rfl
    subst this
    cases hr
    refine ⟨⟨fun p' nd' h1 _ => getElem?_app h1 _, fun _ _ h _ => h, fun _ _ h _ => h,
      fun _ _ _ _ _ h => readSlice_append h _, ?_⟩, ⟨_, getElem?_new _ _, rfl⟩, rfl, rfl, fun _ _ h => getElem?_app h _,
      fun _ _ _ h => readCell_append h _, rfl⟩
    obtain ⟨hd1, hd2⟩ := hd
    refine ⟨?_, ?_⟩
    · intro p' n' hn
      show _ ∨ _ < (s2.trainArrs ++ [qs]).length
      rw [List.length_append]
      rcases getElem?_snoc _ _ _ _ hn with ⟨_, hn⟩ | ⟨_, rfl⟩
      · rcases hd1 p' n' hn with h | h
        · exact .inl h
        · exact .inr (Nat.lt_add_right _ h)
      · right; simp
    · intro p1 p2 n1 n2 hne h1 h2
      rcases getElem?_snoc _ _ _ _ h1 with ⟨l1, h1⟩ | ⟨l1, rfl⟩ <;>
      rcases getElem?_snoc _ _ _ _ h2 with ⟨l2, h2⟩ | ⟨l2, rfl⟩
      · exact hd2 p1 p2 n1 n2 hne h1 h2
      · rcases hd1 p1 n1 h1 with h | h
        · exact .inl h
        · exact .inr (.inr (.inl (Nat.ne_of_lt h)))
      · rcases hd1 p2 n2 h2 with h | h
        · exact .inr (.inl h)
        · exact .inr (.inr (.inl (Nat.ne_of_gt h)))
      · exact absurd (l1.trans l2.symm) hne

theorem disj_arrs {h : Heap F} (hd : Disj h) {arrs : List (List Ptr)} (hl : arrs.length = h.trainArrs.length)
    (tr : List (NodeTrain F)) : Disj { h with trains := tr, trainArrs := arrs } :=
  ⟨fun p n hn => by rcases hd.1 p n hn with h | h
                    · exact .inl h
                    · exact .inr (by rw [← hl] at h; exact h), hd.2⟩

theorem only_ownTrain {h h1 : Heap F} {n q : Ptr} {nd : Node} {c i : Int} (hd : Disj h) (hn : h.nodes[n]? = some nd)
    (hc : nd.cowId = c) (hr : ownTrain n c i h = .ok (q, h1)) :
    Only c h h1 ∧ h1.nodes = h.nodes ∧ h1.bases = h.bases ∧ h1.floats = h.floats ∧
      readCell h1.trainArrs nd.train i = .ok q ∧ (∃ t, h1.trains[q]? = some t ∧ t.cowId = c) ∧
      (∀ (p : Ptr) t, h.trains[p]? = some t → h1.trains[p]? = some t) ∧
      (∀ s j, nd.train.Disjoint s → readCell h1.trainArrs s j = readCell h.trainArrs s j) := by
  unfold ownTrain at hr
  rw [M.bind_ok (node_ok hn)] at hr
  replace hr := M.bind_eq_ok hr; obtain ⟨q0, s1, e1, hr⟩ := hr
  replace e1 := trainPtr_inv e1; obtain ⟨rfl, e1⟩ := e1
  replace hr := M.bind_eq_ok hr; obtain ⟨q1, s2, e2, hr⟩ := hr
  replace hr := M.bind_eq_ok hr; obtain ⟨u, s3, e3, hr⟩ := hr
  cases hr
  unfold cloneTrainIfNeeded at e2
  replace e2 := M.bind_eq_ok e2; obtain ⟨t, s4, e4, e2⟩ := e2
  replace e4 := train_inv e4; obtain ⟨rfl, e4⟩ := e4
  replace e3 := map_inv e3; obtain ⟨arrs, e5, e6⟩ := e3
  by_cases htc : t.cowId = c
  · rw [if_neg (by simp [htc])] at e2
    cases e2; cases e6
    refine ⟨⟨fun _ _ h _ => h, fun _ _ h _ => h, fun _ _ h _ => h, fun p' nd' l hn' hc' hl => ?_, ?_⟩, rfl, rfl, rfl,
      readCell_self e5, ⟨t, e4, htc⟩, fun _ _ h => h, fun s j hs => readCell_frame e5 hs⟩
    · have hne : n ≠ p' := by rintro rfl; rw [hn] at hn'; cases hn'; exact hc' hc
      show readSlice arrs _ = _
      rw [readSlice_frame e5 (hd.2 n p' nd nd' hne hn hn')]; exact hl
    · exact disj_arrs hd (writeCell_length e5) _
  · rw [if_pos htc] at e2
    unfold cloneTrain at e2
    rw [M.bind_ok (train_ok e4)] at e2
    cases e2; cases e6
    refine ⟨⟨fun _ _ h _ => h, fun _ _ h _ => h, fun _ _ h _ => getElem?_app h _, fun p' nd' l hn' hc' hl => ?_, ?_⟩, rfl, rfl, rfl,
      readCell_self e5, ⟨{ t with cowId := c }, by simp, rfl⟩, fun _ _ h => getElem?_app h _, fun s j hs => readCell_frame e5 hs⟩
    · have hne : n ≠ p' := by rintro rfl; rw [hn] at hn'; cases hn'; exact hc' hc
      show readSlice arrs _ = _
      have := readSlice_frame e5 (hd.2 n p' nd nd' hne hn hn')
      rw [this]; exact hl
    · exact disj_arrs hd (writeCell_length e5) _

theorem only_ownBase {h h1 : Heap F} {n bp : Ptr} {nd : Node} {c : Int} (hd : Disj h) (hn : h.nodes[n]? = some nd)
    (hc : nd.cowId = c) (hr : ownBase n c h = .ok (bp, h1)) :
    Only c h h1 ∧ h1.trains = h.trains ∧ h1.trainArrs = h.trainArrs ∧ h1.floats = h.floats ∧
      h1.nodes[n]? = some { nd with base := bp } ∧ ∃ b, h1.bases[bp]? = some b ∧ b.cowId = c := by
  unfold ownBase at hr
  rw [M.bind_ok (node_ok hn)] at hr
  replace hr := M.bind_eq_ok hr; obtain ⟨q1, s2, e2, hr⟩ := hr
  unfold cloneBaseIfNeeded at e2
  replace e2 := M.bind_eq_ok e2; obtain ⟨b, s4, e4, e2⟩ := e2
  replace e4 := base_inv e4; obtain ⟨rfl, e4⟩ := e4
  have hlt := (List.getElem?_eq_some_iff.mp hn).1
  have hset : ∀ (x : Node) (bs : List (BaseNode F)), x.train = nd.train → Disj { s4 with bases := bs, nodes := s4.nodes.set n x } := by
    intro x bs hx
    have get : ∀ (p' : Ptr) (n' : Node), (s4.nodes.set n x)[p']? = some n' → ∃ n0, s4.nodes[p']? = some n0 ∧ n'.train = n0.train := by
      intro p' n' hn'
      by_cases hpn : n = p'
      · subst hpn
        rw [List.getElem?_set_self hlt] at hn'; cases hn'
        exact ⟨nd, hn, hx⟩
      · rw [List.getElem?_set_ne hpn] at hn'
        exact ⟨n', hn', rfl⟩
    refine ⟨fun p' n' hn' => ?_, fun p1 p2 n1 n2 hne h1 h2 => ?_⟩
    · obtain ⟨n0, h0, e⟩ := get p' n' hn'
      rw [e]; exact hd.1 p' n0 h0
    · obtain ⟨m1, h1, e1⟩ := get p1 n1 h1
      obtain ⟨m2, h2, e2⟩ := get p2 n2 h2
      rw [e1, e2]; exact hd.2 p1 p2 m1 m2 hne h1 h2
  have hnodes : ∀ (x : Node) (p : Ptr) (nd' : Node), s4.nodes[p]? = some nd' → nd'.cowId ≠ c → (s4.nodes.set n x)[p]? = some nd' := by
    intro x p nd' h1 h2
    rw [List.getElem?_set_ne]
    · exact h1
    · rintro rfl; rw [hn] at h1; cases h1; exact h2 hc
  by_cases hbc : b.cowId = c
  · rw [if_neg (by simp [hbc])] at e2
    cases e2; cases hr
    exact ⟨⟨hnodes _, fun _ _ h _ => h, fun _ _ h _ => h, fun _ _ _ _ _ h => h, hset _ _ rfl⟩, rfl, rfl, rfl,
      List.getElem?_set_self hlt, b, e4, hbc⟩
  · rw [if_pos hbc] at e2
    unfold cloneBase at e2
    rw [M.bind_ok (base_ok e4)] at e2
    cases e2; cases hr
    exact ⟨⟨hnodes _, fun _ _ h _ => getElem?_app h _, fun _ _ h _ => h, fun _ _ _ _ _ h => h, hset _ _ rfl⟩, rfl, rfl, rfl,
      List.getElem?_set_self hlt, { b with cowId := c }, by simp, rfl⟩

/-! ### The operations -/

theorem only_incrementDelta {h h' : Heap F} {p n : Ptr} {c i : Int} {x : F} (hd : Disj h)
    (hr : incrementDelta p c i x h = .ok (n, h')) : Only c h h' ∧ h'.floats = h.floats ∧ h'.bases = h.bases ∧
      ∀ m nd, MineAt h m nd i c → MineAt h' m nd i c := by
  unfold incrementDelta at hr
  replace hr := M.bind_eq_ok hr; obtain ⟨t, s1, e1, hr⟩ := hr
  replace e1 := trainOf_inv e1; obtain ⟨rfl, _⟩ := e1
  split at hr
  · cases hr
  · split at hr
    · cases hr; exact ⟨Only.refl hd c, rfl, rfl, fun _ _ h => h⟩
    · replace hr := M.bind_eq_ok hr; obtain ⟨n1, h1, r1, hr⟩ := hr
      obtain ⟨o1, ⟨nd1, m1, c1⟩, tr1, b1, keep1, cell1, f1⟩ := only_clone hd r1
      replace hr := M.bind_eq_ok hr; obtain ⟨q, h2, r2, hr⟩ := hr
      obtain ⟨o2, en2, eb2, ef2, cell2, ⟨t2, et2, ct2⟩, tr2, fr2⟩ := only_ownTrain o1.disj m1 c1 r2
      replace hr := M.bind_eq_ok hr; obtain ⟨t3, h3, r3, hr⟩ := hr
      replace r3 := train_inv r3; obtain ⟨rfl, e3⟩ := r3
      rw [et2] at e3; cases e3
      cases hr
      refine ⟨(o1.trans o2).trans (only_setTrain o2.disj et2 ct2 _), by rw [← f1, ← ef2], by rw [← b1, ← eb2], ?_⟩
      rintro m nd ⟨k1, k2, qm, tm, k3, k4, k5⟩
      have g1 := keep1 m nd k1
      have g2 := cell1 _ _ _ k3
      have g3 : h1.trains[qm]? = some tm := by rw [tr1]; exact k4
      have gcell : readCell h3.trainArrs nd.train i = .ok qm ∨ (qm ≠ q ∧ readCell h3.trainArrs nd.train i = .ok q) := by
        by_cases hmn : n = m
        · subst hmn
          rw [m1] at g1; cases g1
          by_cases hqq : qm = q
          · left; rw [hqq]; exact cell2
          · right; exact ⟨hqq, cell2⟩
        · left
          rw [fr2 _ _ (o1.disj.2 n m nd1 nd hmn m1 g1)]; exact g2
      have hset : ∀ (a : Ptr) (ta : NodeTrain F), h3.trains[a]? = some ta → ta.cowId = c →
          ∃ tb, (h3.trains.set q { t2 with lastDeltaforBPs := GoFloat.add t2.lastDeltaforBPs x })[a]? = some tb ∧ tb.cowId = c := by
        intro a ta ha hca
        by_cases hqa : q = a
        · subst hqa
          exact ⟨_, List.getElem?_set_self (List.getElem?_eq_some_iff.mp et2).1, ct2⟩
        · rw [List.getElem?_set_ne hqa]; exact ⟨ta, ha, hca⟩
      refine ⟨?_, k2, ?_⟩
      · show h3.nodes[m]? = _
        rw [en2]; exact g1
      · rcases gcell with hg | ⟨_, hg⟩
        · obtain ⟨tb, hb, cb⟩ := hset qm tm (tr2 qm tm g3) k5
          exact ⟨qm, tb, hg, hb, cb⟩
        · obtain ⟨tb, hb, cb⟩ := hset q t2 et2 ct2
          exact ⟨q, tb, hg, hb, cb⟩

theorem only_setlastActivation {h h' : Heap F} {p n : Ptr} {c i : Int} {x : F} (hd : Disj h)
    (hr : setlastActivation p c i x h = .ok (n, h')) : Only c h h' ∧ h'.floats = h.floats := by
  unfold setlastActivation at hr
  replace hr := M.bind_eq_ok hr; obtain ⟨n1, h1, r1, hr⟩ := hr
  obtain ⟨o1, ⟨nd1, m1, c1⟩, tr1, b1, keep1, cell1, f1⟩ := only_clone hd r1
  replace hr := M.bind_eq_ok hr; obtain ⟨q, h2, r2, hr⟩ := hr
  obtain ⟨o2, en2, eb2, ef2, cell2, ⟨t2, et2, ct2⟩, tr2, fr2⟩ := only_ownTrain o1.disj m1 c1 r2
  replace hr := M.bind_eq_ok hr; obtain ⟨t3, h3, r3, hr⟩ := hr
  replace r3 := train_inv r3; obtain ⟨rfl, e3⟩ := r3
  cases hr
  exact ⟨(o1.trans o2).trans (only_setTrain o2.disj et2 ct2 _), by rw [← f1, ← ef2]⟩

theorem only_computeExta {h h' : Heap F} {p n : Ptr} {c i : Int} {x : F} {labels : List Int} (hd : Disj h)
    (hr : computeExtaStatsForSoftMax p c x i labels h = .ok (n, h')) : Only c h h' ∧ h'.floats = h.floats := by
  unfold computeExtaStatsForSoftMax at hr
  replace hr := M.bind_eq_ok hr; obtain ⟨t, s1, e1, hr⟩ := hr
  replace e1 := trainOf_inv e1; obtain ⟨rfl, _⟩ := e1
  split at hr
  · cases hr
  · replace hr := M.bind_eq_ok hr; obtain ⟨n1, h1, r1, hr⟩ := hr
    obtain ⟨o1, ⟨nd1, m1, c1⟩, tr1, b1, keep1, cell1, f1⟩ := only_clone hd r1
    replace hr := M.bind_eq_ok hr; obtain ⟨q, h2, r2, hr⟩ := hr
    obtain ⟨o2, en2, eb2, ef2, cell2, ⟨t2, et2, ct2⟩, tr2, fr2⟩ := only_ownTrain o1.disj m1 c1 r2
    replace hr := M.bind_eq_ok hr; obtain ⟨t3, h3, r3, hr⟩ := hr
    replace r3 := train_inv r3; obtain ⟨rfl, e3⟩ := r3
    replace hr := M.bind_eq_ok hr; obtain ⟨b, h4, r4, hr⟩ := hr
    replace r4 := baseOf_inv r4; obtain ⟨rfl, _⟩ := r4
    cases hr
    exact ⟨(o1.trans o2).trans (only_setTrain o2.disj et2 ct2 _), by rw [← f1, ← ef2]⟩

theorem weightedSum_inv {s : Slice} (data : List (Pair F)) : ∀ {h h1 : Heap F} {acc x : F},
    weightedSum s acc data h = .ok (x, h1) → h1 = h := by
  induction data with
  | nil => intro h h1 acc x hr; cases hr; rfl
  | cons y l ih =>
    intro h h1 acc x hr
    rw [weightedSum] at hr
    replace hr := M.bind_eq_ok hr; obtain ⟨w, s1, e1, hr⟩ := hr
    replace e1 := float_inv e1; obtain ⟨rfl, _⟩ := e1
    exact ih hr

theorem only_getActivation {h h' : Heap F} {p n : Ptr} {c i : Int} {x : F} {data : List (Pair F)} (hd : Disj h)
    (hr : getActivation p c data i h = .ok ((x, n), h')) : Only c h h' ∧ h'.floats = h.floats := by
  unfold getActivation at hr
  replace hr := M.bind_eq_ok hr; obtain ⟨b, s1, e1, hr⟩ := hr
  replace e1 := baseOf_inv e1; obtain ⟨rfl, _⟩ := e1
  split at hr
  · cases hr
  · replace hr := M.bind_eq_ok hr; obtain ⟨n1, h1, r1, hr⟩ := hr
    obtain ⟨o1, ⟨nd1, m1, c1⟩, tr1, b1, keep1, cell1, f1⟩ := only_clone hd r1
    replace hr := M.bind_eq_ok hr; obtain ⟨q, h2, r2, hr⟩ := hr
    obtain ⟨o2, en2, eb2, ef2, cell2, ⟨t2, et2, ct2⟩, tr2, fr2⟩ := only_ownTrain o1.disj m1 c1 r2
    replace hr := M.bind_eq_ok hr; obtain ⟨t3, h3, r3, hr⟩ := hr
    replace r3 := train_inv r3; obtain ⟨rfl, e3⟩ := r3
    replace hr := M.bind_eq_ok hr; obtain ⟨u, h4, r4, hr⟩ := hr
    have hub : Only c h3 h4 ∧ h4.trains = h3.trains ∧ h4.floats = h3.floats := by
      unfold ownBaseUnless at r4
      split at r4
      · cases r4; exact ⟨Only.refl o2.disj c, rfl, rfl⟩
      · replace r4 := M.bind_eq_ok r4; obtain ⟨bp, h5, r5, r4⟩ := r4
        cases r4
        obtain ⟨o5, a5, _, f5, _⟩ := only_ownBase o2.disj (by rw [en2]; exact m1) c1 r5
        exact ⟨o5, a5, f5⟩
    obtain ⟨o4, a4, f4⟩ := hub
    replace hr := M.bind_eq_ok hr; obtain ⟨b5, h5, r5, hr⟩ := hr
    replace r5 := baseOf_inv r5; obtain ⟨rfl, _⟩ := r5
    replace hr := M.bind_eq_ok hr; obtain ⟨sum, h6, r6, hr⟩ := hr
    have := weightedSum_inv data r6
    subst this
    have fin : ∀ t', Only c s1 (trainHeap h6 q t') ∧ (trainHeap h6 q t').floats = s1.floats := fun t' =>
      ⟨((o1.trans o2).trans o4).trans (only_setTrain o4.disj (by rw [a4]; exact et2) ct2 t'),
        by show h6.floats = _; rw [f4, ef2, f1]⟩
    split at hr
    · split at hr
      · cases hr; exact fin _
      · cases hr; exact fin _
    · split at hr
      · cases hr; exact fin _
      · cases hr

theorem only_setScalar {h h' : Heap F} {p n : Ptr} {c : Int} {f : BaseNode F → BaseNode F} (hd : Disj h)
    (hr : setScalar p c f h = .ok (n, h')) : Only c h h' ∧ h'.floats = h.floats := by
  unfold setScalar at hr
  replace hr := M.bind_eq_ok hr; obtain ⟨n1, h1, r1, hr⟩ := hr
  obtain ⟨o1, ⟨nd1, m1, c1⟩, tr1, b1, keep1, cell1, f1⟩ := only_clone hd r1
  replace hr := M.bind_eq_ok hr; obtain ⟨bp, h2, r2, hr⟩ := hr
  obtain ⟨o2, et2, ea2, ef2, en2, b, eb2, cb2⟩ := only_ownBase o1.disj m1 c1 r2
  replace hr := M.bind_eq_ok hr; obtain ⟨b3, h3, r3, hr⟩ := hr
  replace r3 := base_inv r3; obtain ⟨rfl, e3⟩ := r3
  cases hr
  exact ⟨(o1.trans o2).trans (only_setBase o2.disj eb2 cb2 _), by rw [← f1, ← ef2]⟩

theorem only_setVec {k : Vec} {h h' : Heap F} {p n : Ptr} {c i : Int} {x : F} (hd : Disj h)
    (hr : setVec k p c i x h = .ok (n, h')) : Only c h h' := by
  unfold setVec at hr
  replace hr := M.bind_eq_ok hr; obtain ⟨n1, h1, r1, hr⟩ := hr
  obtain ⟨o1, ⟨nd1, m1, c1⟩, _⟩ := only_clone hd r1
  replace hr := M.bind_eq_ok hr; obtain ⟨bp, h2, r2, hr⟩ := hr
  obtain ⟨o2, _⟩ := only_ownBase o1.disj m1 c1 r2
  replace hr := M.bind_eq_ok hr; obtain ⟨b3, h3, r3, hr⟩ := hr
  replace r3 := base_inv r3; obtain ⟨rfl, e3⟩ := r3
  replace hr := M.bind_eq_ok hr; obtain ⟨u, h4, r4, hr⟩ := hr
  replace r4 := setFloat_inv r4; obtain ⟨fs, rfl⟩ := r4
  cases hr
  exact (o1.trans o2).trans (only_floats o2.disj c fs)

theorem addFloat_inv {h h1 : Heap F} {s : Slice} {i : Int} {x : F} {u : Unit} (hr : addFloat s i x h = .ok (u, h1)) :
    ∃ fs, h1 = { h with floats := fs } := by
  unfold addFloat at hr
  replace hr := M.bind_eq_ok hr; obtain ⟨y, s1, e1, hr⟩ := hr
  replace e1 := float_inv e1; obtain ⟨rfl, _⟩ := e1
  exact setFloat_inv hr

theorem only_purturbWeight {h h' : Heap F} {p n : Ptr} {c i : Int} {x w : F} (hd : Disj h)
    (hr : purturbWeight p c i x h = .ok ((w, n), h')) : Only c h h' := by
  unfold purturbWeight at hr
  replace hr := M.bind_eq_ok hr; obtain ⟨n1, h1, r1, hr⟩ := hr
  obtain ⟨o1, ⟨nd1, m1, c1⟩, _⟩ := only_clone hd r1
  replace hr := M.bind_eq_ok hr; obtain ⟨bp, h2, r2, hr⟩ := hr
  obtain ⟨o2, _⟩ := only_ownBase o1.disj m1 c1 r2
  replace hr := M.bind_eq_ok hr; obtain ⟨b3, h3, r3, hr⟩ := hr
  replace r3 := base_inv r3; obtain ⟨rfl, e3⟩ := r3
  replace hr := M.bind_eq_ok hr; obtain ⟨u, h4, r4, hr⟩ := hr
  replace r4 := addFloat_inv r4; obtain ⟨fs, rfl⟩ := r4
  replace hr := M.bind_eq_ok hr; obtain ⟨y, h5, r5, hr⟩ := hr
  replace r5 := float_inv r5; obtain ⟨rfl, _⟩ := r5
  cases hr
  exact (o1.trans o2).trans (only_floats o2.disj c fs)

theorem forM_floats {β : Type} {f : β → NM F Unit} (hf : ∀ x h u h1, f x h = .ok (u, h1) → ∃ fs, h1 = { h with floats := fs })
    (l : List β) : ∀ {h h1 : Heap F} {u : Unit}, l.forM f h = .ok (u, h1) → ∃ fs, h1 = { h with floats := fs } := by
  induction l with
  | nil => intro h h1 u hr; cases hr; exact ⟨h.floats, rfl⟩
  | cons x l ih =>
    intro h h1 u hr
    rw [forM_cons] at hr
    replace hr := M.bind_eq_ok hr; obtain ⟨_, s1, e1, hr⟩ := hr
    obtain ⟨f1, rfl⟩ := hf _ _ _ _ e1
    obtain ⟨f2, rfl⟩ := ih hr
    exact ⟨f2, rfl⟩

theorem copyFloats_inv {h h1 : Heap F} {s s' : Slice} {u : Unit} (hr : copyFloats s s' h = .ok (u, h1)) :
    ∃ fs, h1 = { h with floats := fs } := by
  unfold copyFloats at hr
  replace hr := M.bind_eq_ok hr; obtain ⟨l, s1, e1, hr⟩ := hr
  have : s1 = h := by
    unfold floatsOf at e1
    split at e1 <;> cases e1; rfl
  subst this
  exact forM_floats (fun x h u h1 hr => setFloat_inv hr) _ hr

theorem only_copyWeights {h h' : Heap F} {p n : Ptr} {c : Int} (hd : Disj h)
    (hr : copyWeightsAndBiasFromMirror p c h = .ok (n, h')) : Only c h h' := by
  unfold copyWeightsAndBiasFromMirror at hr
  replace hr := M.bind_eq_ok hr; obtain ⟨n1, h1, r1, hr⟩ := hr
  obtain ⟨o1, ⟨nd1, m1, c1⟩, _⟩ := only_clone hd r1
  replace hr := M.bind_eq_ok hr; obtain ⟨bp, h2, r2, hr⟩ := hr
  obtain ⟨o2, _, _, _, _, b, eb, cb⟩ := only_ownBase o1.disj m1 c1 r2
  replace hr := M.bind_eq_ok hr; obtain ⟨b3, h3, r3, hr⟩ := hr
  replace r3 := base_inv r3; obtain ⟨rfl, e3⟩ := r3
  replace hr := M.bind_eq_ok hr; obtain ⟨u, h4, r4, hr⟩ := hr
  replace r4 := copyFloats_inv r4; obtain ⟨fs, rfl⟩ := r4
  cases hr
  exact ((o1.trans o2).trans (only_floats o2.disj c fs)).trans
    (only_setBase (h := { h3 with floats := fs }) o2.disj eb cb _)

/-- Own the node, the training state and the base. -/
theorem only_back {h h0 h1 h2 : Heap F} {p n q bp : Ptr} {c i : Int} (hd : Disj h)
    (r0 : cloneIfNeeded p c h = .ok (n, h0)) (r1 : ownTrain n c i h0 = .ok (q, h1)) (r2 : ownBase n c h1 = .ok (bp, h2)) :
    Only c h h2 ∧ ∃ nd nd1, MineAt h2 n nd i c ∧ h1.nodes[n]? = some nd1 ∧ nd.train = nd1.train ∧
      readCell h2.trainArrs nd.train i = .ok q ∧ ∃ b, h2.bases[nd.base]? = some b ∧ b.cowId = c := by
  obtain ⟨o1, ⟨nd1, m1, c1⟩, _⟩ := only_clone hd r0
  obtain ⟨o2, en2, eb2, ef2, cell2, ⟨t2, et2, ct2⟩, tr2, fr2⟩ := only_ownTrain o1.disj m1 c1 r1
  rw [← en2] at m1
  obtain ⟨o3, et3, ea3, ef3, en3, b, eb, cb⟩ := only_ownBase o2.disj m1 c1 r2
  refine ⟨(o1.trans o2).trans o3, { nd1 with base := bp }, nd1, ⟨en3, c1, q, t2, ?_, ?_, ct2⟩, m1, rfl, ?_, b, eb, cb⟩
  · rw [ea3]; exact cell2
  · rw [et3]; exact et2
  · rw [ea3]; exact cell2

theorem only_finish (cfg : Config F) {h h' : Heap F} {n q : Ptr} {nd : Node} {b : BaseNode F} {t : NodeTrain F} {c : Int}
    {u : Unit} {bs : F → F → F} (hd : Disj h) (hn : h.nodes[n]? = some nd) (hb : h.bases[nd.base]? = some b)
    (hbc : b.cowId = c) (ht : h.trains[q]? = some t) (htc : t.cowId = c) (hr : finishBackProp cfg n q bs h = .ok (u, h')) :
    Only c h h' ∧ h'.nodes = h.nodes ∧ h'.trainArrs = h.trainArrs ∧
      ∃ t', h'.trains[q]? = some t' ∧ slot t' = idle := by
  unfold finishBackProp at hr
  rw [M.bind_ok (node_ok hn), M.bind_ok (base_ok hb), M.bind_ok (train_ok ht)] at hr
  cases hr
  refine ⟨(only_setBase hd hb hbc _).trans (only_setTrain (h := setBaseHeap h nd.base _) hd ht htc _), rfl, rfl, _,
    List.getElem?_set_self (List.getElem?_eq_some_iff.mp ht).1, rfl⟩

theorem only_backPropStep (cfg : Config F) {h h' : Heap F} {prevS : Slice} {n : Ptr} {nd : Node} {c i : Int} {lr : F}
    {x : Pair F} {u : Unit} (hd : Disj h) (hm : MineAt h n nd i c)
    (hr : backPropStep cfg c prevS lr i n nd.train x h = .ok (u, h')) :
    Only c h h' ∧ MineAt h' n nd i c ∧ h'.bases = h.bases := by
  unfold backPropStep at hr
  replace hr := M.bind_eq_ok hr; obtain ⟨p, s1, e1, hr⟩ := hr
  replace e1 := nodePtr_inv e1; obtain ⟨rfl, _⟩ := e1
  replace hr := M.bind_eq_ok hr; obtain ⟨q, s2, e2, hr⟩ := hr
  replace e2 := trainPtr_inv e2; obtain ⟨rfl, _⟩ := e2
  replace hr := M.bind_eq_ok hr; obtain ⟨t, s3, e3, hr⟩ := hr
  replace e3 := train_inv e3; obtain ⟨rfl, _⟩ := e3
  replace hr := M.bind_eq_ok hr; obtain ⟨b, s4, e4, hr⟩ := hr
  replace e4 := baseOf_inv e4; obtain ⟨rfl, _⟩ := e4
  replace hr := M.bind_eq_ok hr; obtain ⟨w, s5, e5, hr⟩ := hr
  replace e5 := float_inv e5; obtain ⟨rfl, _⟩ := e5
  replace hr := M.bind_eq_ok hr; obtain ⟨m, s6, e6, hr⟩ := hr
  obtain ⟨o6, f6, b6, k6⟩ := only_incrementDelta hd e6
  have hm6 := k6 n nd hm
  replace hr := M.bind_eq_ok hr; obtain ⟨_, s7, e7, hr⟩ := hr
  replace e7 := setNodePtr_inv e7; obtain ⟨arrs, rfl⟩ := e7
  have hm7 : MineAt { s6 with nodeArrs := arrs } n nd i c := ⟨hm6.node, hm6.cow, hm6.slot⟩
  replace hr := M.bind_eq_ok hr; obtain ⟨q8, s8, e8, hr⟩ := hr
  replace e8 := trainPtr_inv e8; obtain ⟨rfl, _⟩ := e8
  replace hr := M.bind_eq_ok hr; obtain ⟨t9, s9, e9, hr⟩ := hr
  replace e9 := train_inv e9; obtain ⟨rfl, _⟩ := e9
  replace hr := M.bind_eq_ok hr; obtain ⟨a, s10, e10, hr⟩ := hr
  have : s10 = { s6 with nodeArrs := arrs } := by
    unfold getLastActivation at e10
    replace e10 := M.bind_eq_ok e10; obtain ⟨t, s1, e1, e10⟩ := e10
    replace e1 := trainOf_inv e1; obtain ⟨rfl, _⟩ := e1
    split at e10 <;> cases e10 <;> rfl
  subst this
  replace hr := M.bind_eq_ok hr; obtain ⟨b11, s11, e11, hr⟩ := hr
  replace e11 := baseOf_inv e11; obtain ⟨rfl, _⟩ := e11
  have : ∃ fs, h' = { s6 with nodeArrs := arrs, floats := fs } := by
    split at hr
    · obtain ⟨fs, rfl⟩ := addFloat_inv hr; exact ⟨fs, rfl⟩
    · obtain ⟨fs, rfl⟩ := addFloat_inv hr; exact ⟨fs, rfl⟩
  obtain ⟨fs, rfl⟩ := this
  exact ⟨(o6.trans (only_nodeArrs o6.disj c arrs)).trans (only_floats (h := { s6 with nodeArrs := arrs }) o6.disj c fs),
    ⟨hm6.node, hm6.cow, hm6.slot⟩, b6⟩

theorem only_backPropLoop (cfg : Config F) {prevS : Slice} {n : Ptr} {nd : Node} {c i : Int} {lr : F} (l : List (Pair F)) :
    ∀ {h h' : Heap F} {u : Unit}, Disj h → MineAt h n nd i c →
    l.forM (backPropStep cfg c prevS lr i n nd.train) h = .ok (u, h') →
    Only c h h' ∧ MineAt h' n nd i c ∧ h'.bases = h.bases := by
  induction l with
  | nil => intro h h' u hd hm hr; cases hr; exact ⟨Only.refl hd c, hm, rfl⟩
  | cons x l ih =>
    intro h h' u hd hm hr
    rw [forM_cons] at hr
    replace hr := M.bind_eq_ok hr; obtain ⟨_, s1, e1, hr⟩ := hr
    obtain ⟨o1, m1, b1⟩ := only_backPropStep cfg hd hm e1
    obtain ⟨o2, m2, b2⟩ := ih o1.disj m1 hr
    exact ⟨o1.trans o2, m2, b2.trans b1⟩

theorem only_backPropagate (cfg : Config F) {h h' : Heap F} {prevS : Slice} {p n : Ptr} {c i : Int} {lr : F}
    {pairs : List (Pair F)} (hd : Disj h) (hr : backPropagate cfg p c prevS pairs lr i h = .ok (n, h')) :
    Only c h h' ∧ ∃ t, trainOf n i h' = .ok (t, h') ∧ slot t = idle := by
  unfold backPropagate at hr
  replace hr := M.bind_eq_ok hr; obtain ⟨t, s1, e1, hr⟩ := hr
  replace e1 := trainOf_inv e1; obtain ⟨rfl, _⟩ := e1
  split at hr
  · cases hr
  · replace hr := M.bind_eq_ok hr; obtain ⟨n1, h0, r0, hr⟩ := hr
    replace hr := M.bind_eq_ok hr; obtain ⟨q, h1, r1, hr⟩ := hr
    replace hr := M.bind_eq_ok hr; obtain ⟨nd1, s2, e2, hr⟩ := hr
    replace e2 := node_inv e2; obtain ⟨rfl, e2⟩ := e2
    replace hr := M.bind_eq_ok hr; obtain ⟨bp, h2, r2, hr⟩ := hr
    obtain ⟨o2, nd, nd', hm, e3, e4, _, b, eb, cb⟩ := only_back hd r0 r1 r2
    rw [e2] at e3; cases e3
    rw [← e4] at hr
    replace hr := M.bind_eq_ok hr; obtain ⟨_, h3, r3, hr⟩ := hr
    obtain ⟨o3, m3, b3⟩ := only_backPropLoop cfg pairs o2.disj hm r3
    replace hr := M.bind_eq_ok hr; obtain ⟨q4, s4, e4, hr⟩ := hr
    replace e4 := trainPtr_inv e4; obtain ⟨rfl, e4⟩ := e4
    replace hr := M.bind_eq_ok hr; obtain ⟨_, h5, r5, hr⟩ := hr
    cases hr
    obtain ⟨qa, ta, k1, k2, k3⟩ := m3.slot
    rw [e4] at k1; cases k1
    obtain ⟨o5, en5, ea5, t', et', ht'⟩ := only_finish cfg o3.disj m3.node (by rw [b3]; exact eb) cb k2 k3 r5
    refine ⟨(o2.trans o3).trans o5, t', ?_, ht'⟩
    unfold trainOf
    rw [M.bind_ok (node_ok (by rw [en5]; exact m3.node))]
    have : trainPtr nd.train i h' = .ok (q4, h') := by unfold trainPtr; rw [ea5, e4]; rfl
    rw [M.bind_ok this]
    exact train_ok et'

theorem only_backPropagateFirstLayer (cfg : Config F) {h h' : Heap F} {p n : Ptr} {c i : Int} {lr : F}
    {pairs : List (Pair F)} (hd : Disj h) (hr : backPropagateFirstLayer cfg p c pairs lr i h = .ok (n, h')) :
    Only c h h' ∧ ∃ t, trainOf n i h' = .ok (t, h') ∧ slot t = idle := by
  unfold backPropagateFirstLayer at hr
  replace hr := M.bind_eq_ok hr; obtain ⟨t, s1, e1, hr⟩ := hr
  replace e1 := trainOf_inv e1; obtain ⟨rfl, _⟩ := e1
  split at hr
  · cases hr
  · replace hr := M.bind_eq_ok hr; obtain ⟨n1, h0, r0, hr⟩ := hr
    replace hr := M.bind_eq_ok hr; obtain ⟨q, h1, r1, hr⟩ := hr
    replace hr := M.bind_eq_ok hr; obtain ⟨bp, h2, r2, hr⟩ := hr
    obtain ⟨o2, nd, nd', hm, e3, e4, hq, b, eb, cb⟩ := only_back hd r0 r1 r2
    replace hr := M.bind_eq_ok hr; obtain ⟨_, h3, r3, hr⟩ := hr
    have : ∃ fs, h3 = { h2 with floats := fs } := by
      refine forM_floats (fun x h u h1 hr => ?_) _ r3
      unfold firstLayerStep at hr
      replace hr := M.bind_eq_ok hr; obtain ⟨t, s1, e1, hr⟩ := hr
      replace e1 := train_inv e1; obtain ⟨rfl, _⟩ := e1
      replace hr := M.bind_eq_ok hr; obtain ⟨t, s2, e1, hr⟩ := hr
      replace e1 := baseOf_inv e1; obtain ⟨rfl, _⟩ := e1
      split at hr
      · exact addFloat_inv hr
      · exact addFloat_inv hr
    obtain ⟨fs, rfl⟩ := this
    have o3 := only_floats o2.disj c fs
    replace hr := M.bind_eq_ok hr; obtain ⟨_, h5, r5, hr⟩ := hr
    cases hr
    obtain ⟨qa, ta, k1, k2, k3⟩ := hm.slot
    rw [hq] at k1; cases k1
    obtain ⟨o5, en5, ea5, t', et', ht'⟩ := only_finish cfg (h := { h2 with floats := fs }) o3.disj hm.node eb cb k2 k3 r5
    refine ⟨(o2.trans o3).trans o5, t', ?_, ht'⟩
    unfold trainOf
    rw [M.bind_ok (node_ok (by rw [en5]; exact hm.node))]
    have : trainPtr nd.train i h' = .ok (q, h') := by unfold trainPtr; rw [ea5]; dsimp only; rw [hq]; rfl
    rw [M.bind_ok this]
    exact train_ok et'

end Goslide.Node
