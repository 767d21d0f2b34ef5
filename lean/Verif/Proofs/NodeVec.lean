import Verif.Proofs.NodeOps
/-
Operations on the scalars and vectors of a node.
-/
set_option linter.unusedSectionVars false
namespace Goslide.Node
open Spec.Node Configuration
variable {F : Type} [GoFloat F]

/-- An operation that changed parameters of the node `p` for `c`, not its training state. -/
structure ParamOp (h h' : Heap F) (p n : Ptr) (c : Int) (v : View F) (P' : Params F) : Prop
    extends Op h h' p n c { v with params := P' } where
  slots : ∀ p' T, slots h p' = some T → slots h' p' = some T

theorem Cow.slots {h h1 : Heap F} {p n : Ptr} {c : Int} (hc : Cow h h1 p n c) {p' : Ptr} {v' : View F}
    (hv : Handle h p' v') : slots h1 p' = some v'.train := ((view_iff _ _ _).mp (hc.keep p' v' hv).view).2

/-- Own the node and its base. -/
theorem cow_node_base {h : Heap F} {p : Ptr} {v : View F} (hv : Handle h p v) (c : Int) :
    ∃ n h0 h1 nd b qs, cloneIfNeeded p c h = .ok (n, h0) ∧ ownBase n c h0 = .ok (nd.base, h1) ∧ Cow h h1 p n c ∧
      Parts h1 n v nd b qs ∧ b.cowId = c := by
  obtain ⟨n, h0, hr0, hc0⟩ := cow_clone hv c
  obtain ⟨bp, h1, hr1, hc1, _, _, nd, b, e1, e2, e3, e4⟩ := cow_base hv hc0
  subst e2
  obtain ⟨nd', b', qs, hp⟩ := (hc1.new v hv).parts
  have e := hp.node
  rw [e1] at e; cases e
  have e := hp.base
  rw [e3] at e; cases e
  exact ⟨n, h0, h1, nd, b, qs, hr0, hr1, hc1, hp, e4⟩

/-- The scalar setters. `f` changes scalars of the base, `g` says how this is seen. -/
theorem setScalar_run {h : Heap F} {p : Ptr} {v : View F} (hv : Handle h p v) (c : Int) (f : BaseNode F → BaseNode F)
    (g : Params F → Params F) (hfg : ∀ fs b P, baseParams fs b = some P → baseParams fs (f b) = some (g P))
    (hcow : ∀ b, (f b).cowId = b.cowId) (hvec : ∀ b, vecs (f b) = vecs b) (hbatch : ∀ P, (g P).batch = P.batch) :
    ∃ n h', setScalar p c f h = .ok (n, h') ∧ Op h h' p n c { v with params := g v.params } ∧ Isolates h h' p c ∧
      h'.floats = h.floats ∧ (∀ p' v', Handle h p' v' → slots h' p' = some v'.train) := by
  obtain ⟨n, h0, h1, nd, b, qs, hr0, hr1, hc, hp, hb⟩ := cow_node_base hv c
  refine ⟨n, setBaseHeap h1 nd.base (f b), ?_, ⟨?_, ?_, ?_, hc.nodeArrs, ?_, ?_, ?_⟩, ?_, hc.floats, ?_⟩
  · unfold setScalar
    rw [M.bind_ok hr0, M.bind_ok hr1, M.bind_ok (base_ok hp.base)]
    rfl
  · exact (hp.setBase_at (hfg _ _ _ hp.par) (hbatch _)).handle
  · intro p' v' hv'
    obtain ⟨nd', b', qs', hp'⟩ := (hc.keep p' v' hv').parts
    by_cases he : nd'.base = nd.base
    · have e := hp'.base
      rw [he, hp.base] at e; cases e
      have := hp'.setBase_at (hfg _ _ _ hp'.par) (hbatch _)
      rw [he] at this
      exact ⟨_, this.handle⟩
    · exact ⟨_, (hp'.setBase_other he (f b)).handle⟩
  · intro hd; exact hc.disj hd
  · intro hin n' b' hn hb'
    have hp2 := hp.setBase_at (hfg _ _ _ hp.par) (hbatch _)
    rw [hp2.node] at hn; cases hn
    rw [hp2.base] at hb'; cases hb'
    have := hc.inner hin nd b hp.node hp.base
    have hv' := hvec b
    simp only [vecs, List.cons.injEq, and_true] at hv'
    obtain ⟨e1, e2, e3, e4, e5⟩ := hv'
    rw [e1, e2, e3, e4, e5]; exact this
  · intro p' v' hv' hne hs
    obtain ⟨hk, hs0, hne0⟩ := hc.sep p' v' hv' hne hs
    obtain ⟨nd', b', qs', hp0⟩ := hv'.parts
    have hp' := (hk v' nd' b' qs' hp0).1
    obtain ⟨s1, s2, s3, s4⟩ := (sep_of hp hp').mp hs0
    refine ⟨hk.trans (fun v2 nd2 b2 qs2 h2 => ?_), ?_, hne0⟩
    · have e := h2.node
      rw [hp'.node] at e; cases e
      exact ⟨h2.setBase_other (Ne.symm s2) (f b), fun _ _ => rfl⟩
    · rw [sep_of (hp.setBase_at (hfg _ _ _ hp.par) (hbatch _)) (hp'.setBase_other (Ne.symm s2) (f b)), hvec]
      exact ⟨s1, s2, s3, s4⟩
  · intro ho
    obtain ⟨rfl, rfl⟩ := hc.same ho
    have ho' := (owned_of hp c).mp ho
    exact ⟨rfl, (owned_of (hp.setBase_at (hfg _ _ _ hp.par) (hbatch _)) c).mpr ⟨ho'.1, by rw [hcow]; exact hb, ho'.2.2⟩⟩
  · intro p' v' hv' hf hor
    obtain ⟨hf1, hne, _⟩ := hc.iso p' v' hv' hf hor
    obtain ⟨nd', b', qs', hp'⟩ := (hc.keep p' v' hv').parts
    have hf2 := (foreign_of hp' c).mp hf1
    have hne2 : nd'.base ≠ nd.base := by
      intro he
      have e := hp'.base
      rw [he, hp.base] at e; cases e
      exact hf2.2.1 hb
    have hp2 := hp'.setBase_other hne2 (f b)
    exact ⟨hp2.handle, (foreign_of hp2 c).mpr hf2⟩
  · intro p' v' hv'
    have := hc.slots hv'
    rw [slots_iff] at this ⊢
    exact this

/-! ### Writing to a vector -/

theorem setFloat_run {h : Heap F} {s : Slice} {l : List F} (hs : readSlice h.floats s = some l) {i : Nat}
    (hi : i < l.length) (x : F) : ∃ fs, writeCell h.floats s i x = .ok fs ∧
      setFloat s i x h = .ok ((), { h with floats := fs }) ∧ readSlice fs s = some (l.set i x) ∧
      ∀ s' : Slice, s.Disjoint s' → readSlice fs s' = readSlice h.floats s' := by
  obtain ⟨fs, h1, _, _, _, h2, h3, _⟩ := writeCell_of hs i x hi
  refine ⟨fs, h1, ?_, h2, h3⟩
  unfold setFloat; rw [h1]; rfl

theorem setFloat_out {h : Heap F} {s : Slice} {l : List F} (hs : readSlice h.floats s = some l) {i : Int}
    (hi : ¬ (0 ≤ i ∧ i < l.length)) (x : F) : setFloat s i x h = .error .index := by
  unfold setFloat
  rw [writeCell_out x (by rw [← readSlice_length hs]; exact hi)]; rfl

theorem readSlice_write_some {store store' : List (List F)} {s : Slice} {i : Nat} {x : F} {l : List F}
    (hs : readSlice store s = some l) (hi : i < l.length) (hw : writeCell store s i x = .ok store')
    {s' : Slice} {l' : List F} (h' : readSlice store s' = some l') : ∃ l2, readSlice store' s' = some l2 := by
  have hr := readCell_ok_of hs (List.getElem?_eq_getElem hi)
  rcases readSlice_write hw hr h' with h | ⟨j, _, h⟩
  · exact ⟨_, h⟩
  · exact ⟨_, h⟩

theorem baseParams_write {store store' : List (List F)} {s : Slice} {i : Nat} {x : F} {l : List F}
    (hs : readSlice store s = some l) (hi : i < l.length) (hw : writeCell store s i x = .ok store')
    {b : BaseNode F} {P : Params F} (hP : baseParams store b = some P) :
    ∃ P', baseParams store' b = some P' ∧ P'.batch = P.batch := by
  obtain ⟨h1, h2, h3, h4, h5, h6⟩ := baseParams_iff.mp hP
  obtain ⟨l1, e1⟩ := readSlice_write_some hs hi hw h1
  obtain ⟨l2, e2⟩ := readSlice_write_some hs hi hw h2
  obtain ⟨l3, e3⟩ := readSlice_write_some hs hi hw h3
  obtain ⟨l4, e4⟩ := readSlice_write_some hs hi hw h4
  obtain ⟨l5, e5⟩ := readSlice_write_some hs hi hw h5
  exact ⟨{ P with weights := l1, mirrorWeights := l2, mom := l3, vel := l4, t := l5 },
    baseParams_iff.mpr ⟨e1, e2, e3, e4, e5, h6⟩, rfl⟩

theorem baseParams_keep {store store' : List (List F)} {b : BaseNode F} {P : Params F}
    (hP : baseParams store b = some P) (hk : ∀ s ∈ vecs b, readSlice store' s = readSlice store s) :
    baseParams store' b = some P := by
  obtain ⟨h1, h2, h3, h4, h5, h6⟩ := baseParams_iff.mp hP
  unfold vecs at hk
  exact baseParams_iff.mpr ⟨(hk _ (by simp)).trans h1, (hk _ (by simp)).trans h2, (hk _ (by simp)).trans h3,
    (hk _ (by simp)).trans h4, (hk _ (by simp)).trans h5, h6⟩

theorem Parts.floats {h : Heap F} {p : Ptr} {v : View F} {nd b qs} (hp : Parts h p v nd b qs) {fs : List (List F)}
    {P : Params F} (hP : baseParams fs b = some P) (hb : P.batch = v.params.batch) :
    Parts { h with floats := fs } p { v with params := P } nd b qs :=
  ⟨hp.node, hp.base, hP, hp.ptrs, hp.slots, hp.nodup, by rw [hb]; exact hp.batch⟩

/-- A write to a vector of the base of `n`. -/
theorem cow_vec {h h1 : Heap F} {p n : Ptr} {v : View F} {c : Int} {nd : Node} {b : BaseNode F} {qs : List Ptr}
    (hv : Handle h p v) (hc : Cow h h1 p n c) (hp : Parts h1 n v nd b qs) {s : Slice} (hs : s ∈ vecs b)
    {l : List F} (hl : readSlice h1.floats s = some l) {i : Nat} (hi : i < l.length) {x : F} {fs : List (List F)}
    (hw : writeCell h1.floats s i x = .ok fs) {P' : Params F} (hP : baseParams fs b = some P')
    (hbatch : P'.batch = v.params.batch) :
    Op h { h1 with floats := fs } p n c { v with params := P' } ∧
    (∀ p' v', Handle h p' v' → slots { h1 with floats := fs } p' = some v'.train) ∧
    Handle { h1 with floats := fs } p { v with params := P' } := by
  refine ⟨⟨(hp.floats hP hbatch).handle, ?_, fun hd => hc.disj hd, hc.nodeArrs, ?_, ?_, ?_⟩, ?_, ?_⟩
  · intro p' v' hv'
    obtain ⟨nd', b', qs', hp'⟩ := (hc.keep p' v' hv').parts
    obtain ⟨P2, g1, g2⟩ := baseParams_write hl hi hw hp'.par
    exact ⟨_, (hp'.floats g1 g2).handle⟩
  · intro hin; exact hc.inner hin
  · intro p' v' hv' hne hsep
    obtain ⟨hk, hs0, hne0⟩ := hc.sep p' v' hv' hne hsep
    obtain ⟨nd', b', qs', hp0⟩ := hv'.parts
    have hp' := (hk v' nd' b' qs' hp0).1
    have hsp := (sep_of hp hp').mp hs0
    obtain ⟨st, hst, _, _, _, _, hdis, _⟩ := writeCell_of hl i x hi
    rw [hw] at hst; cases hst
    have hkeep : Keep h1 { h1 with floats := fs } p' := by
      intro v2 nd2 b2 qs2 h2
      have e := h2.node
      rw [hp'.node] at e; cases e
      have e := h2.base
      rw [hp'.base] at e; cases e
      have : baseParams fs b' = some v2.params :=
        baseParams_keep h2.par (fun s' hs' => hdis s' (hsp.2.2.1 s hs s' hs'))
      exact ⟨⟨h2.node, h2.base, this, h2.ptrs, h2.slots, h2.nodup, h2.batch⟩, fun _ _ => rfl⟩
    refine ⟨hk.trans hkeep, ?_, hne0⟩
    rw [sep_of (hp.floats hP hbatch) (hkeep _ _ _ _ hp').1]
    exact hsp
  · intro ho
    obtain ⟨rfl, rfl⟩ := hc.same ho
    exact ⟨rfl, (owned_of (hp.floats hP hbatch) c).mpr ((owned_of hp c).mp ho)⟩
  · intro p' v' hv'
    have := hc.slots hv'
    rw [slots_iff] at this ⊢
    exact this
  · obtain ⟨nd0, b0, qs0, hp0⟩ := (hc.keep p v hv).parts
    have ha := hc.alias nd0 nd b0 b hp0.node hp0.base hp.node hp.base
    have : baseParams fs b0 = some P' := by
      have e : baseParams fs b0 = baseParams fs { b0 with cowId := c } := rfl
      rw [e, ← ha]; exact hP
    exact (hp0.floats this hbatch).handle

/-- The four vectors of a node. -/
inductive Vec where
  | weights | mom | vel | t
deriving DecidableEq

/-- The slice of the base. -/
def Vec.slice : Vec → BaseNode F → Slice
  | .weights, b => b.weights
  | .mom, b => b.adamAvgMom
  | .vel, b => b.adamAvgVel
  | .t, b => b.t
/-- The observed content. -/
def Vec.get : Vec → Params F → List F
  | .weights, P => P.weights
  | .mom, P => P.mom
  | .vel, P => P.vel
  | .t, P => P.t
/-- The observation after the content of the vector has changed. -/
def Vec.put : Vec → Params F → List F → Params F
  | .weights, P, l => { P with weights := l, mirrorWeights := l }
  | .mom, P, l => { P with mom := l }
  | .vel, P, l => { P with vel := l }
  | .t, P, l => { P with t := l }

theorem Vec.mem (k : Vec) (b : BaseNode F) : k.slice b ∈ vecs b := by
  cases k <;> simp [Vec.slice, vecs]
theorem Vec.read (k : Vec) {fs : List (List F)} {b : BaseNode F} {P : Params F} (hP : baseParams fs b = some P) :
    readSlice fs (k.slice b) = some (k.get P) := by
  obtain ⟨h1, h2, h3, h4, h5, h6⟩ := baseParams_iff.mp hP
  cases k
  · exact h1
  · exact h3
  · exact h4
  · exact h5
theorem Vec.put_batch (k : Vec) (P : Params F) (l : List F) : (k.put P l).batch = P.batch := by cases k <;> rfl

/-- A write to one vector of a node changes only this vector. -/
theorem Vec.write (k : Vec) {h : Heap F} {n : Ptr} {v : View F} {nd : Node} {b : BaseNode F} {qs : List Ptr}
    (hp : Parts h n v nd b qs) (hin : Inner h n) {i : Nat} (hi : i < (k.get v.params).length) {x : F}
    {fs : List (List F)} (hw : writeCell h.floats (k.slice b) i x = .ok fs) :
    baseParams fs b = some (k.put v.params ((k.get v.params).set i x)) := by
  obtain ⟨h1, h2, h3, h4, h5, h6⟩ := baseParams_iff.mp hp.par
  obtain ⟨i1, i2, i3, i4, i5, i6, i7⟩ := hin nd b hp.node hp.base
  obtain ⟨st, hst, _, _, _, hself, hdis, _⟩ := writeCell_of (k.read hp.par) i x hi
  rw [hw] at hst; cases hst
  cases k
  · exact baseParams_iff.mpr ⟨hself, by rw [i1]; exact hself, (hdis _ i2).trans h3, (hdis _ i3).trans h4,
      (hdis _ i4).trans h5, h6⟩
  · exact baseParams_iff.mpr ⟨(hdis _ i2.symm).trans h1, (hdis _ (by rw [i1]; exact i2.symm)).trans h2, hself,
      (hdis _ i5).trans h4, (hdis _ i6).trans h5, h6⟩
  · exact baseParams_iff.mpr ⟨(hdis _ i3.symm).trans h1, (hdis _ (by rw [i1]; exact i3.symm)).trans h2,
      (hdis _ i5.symm).trans h3, hself, (hdis _ i7).trans h5, h6⟩
  · exact baseParams_iff.mpr ⟨(hdis _ i4.symm).trans h1, (hdis _ (by rw [i1]; exact i4.symm)).trans h2,
      (hdis _ i6.symm).trans h3, (hdis _ i7.symm).trans h4, hself, h6⟩

/-- The setters `SetT`, `SetAdamAvgMom`, `SetAdamAvgVel` have this form. -/
def setVec (k : Vec) (p : Ptr) (cowId i : Int) (value : F) : NM F Ptr := do
  let n ← cloneIfNeeded p cowId
  let b ← base (← ownBase n cowId)
  setFloat (k.slice b) i value
  pure n

theorem setT_eq (p : Ptr) (c i : Int) (x : F) : setT p c i x = setVec .t p c i x := rfl
theorem setAdamAvgMom_eq (p : Ptr) (c i : Int) (x : F) : setAdamAvgMom p c i x = setVec .mom p c i x := rfl
theorem setAdamAvgVel_eq (p : Ptr) (c i : Int) (x : F) : setAdamAvgVel p c i x = setVec .vel p c i x := rfl

theorem setVec_run (k : Vec) {h : Heap F} {p : Ptr} {v : View F} (hv : Handle h p v) (hin : Inner h p) (c : Int)
    {i : Nat} (hi : i < (k.get v.params).length) (x : F) :
    ∃ n h', setVec k p c i x h = .ok (n, h') ∧
      Op h h' p n c { v with params := k.put v.params ((k.get v.params).set i x) } ∧
      (∀ p' v', Handle h p' v' → slots h' p' = some v'.train) ∧
      Handle h' p { v with params := k.put v.params ((k.get v.params).set i x) } := by
  obtain ⟨n, h0, h1, nd, b, qs, hr0, hr1, hc, hp, hb⟩ := cow_node_base hv c
  obtain ⟨fs, hw, hr2, _, _⟩ := setFloat_run (k.read hp.par) hi x
  obtain ⟨g1, g2, g3⟩ := cow_vec hv hc hp (k.mem b) (k.read hp.par) hi hw (k.write hp (hc.inner hin) hi hw) (k.put_batch _ _)
  refine ⟨n, _, ?_, g1, g2, g3⟩
  unfold setVec
  rw [M.bind_ok hr0, M.bind_ok hr1, M.bind_ok (base_ok hp.base), M.bind_ok hr2]
  rfl

end Goslide.Node
