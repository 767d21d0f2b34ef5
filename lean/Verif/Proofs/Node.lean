import Verif.Spec.Node
import Verif.Proofs.Memory
import Verif.Proofs.GoBasic
/-
Lemmas on the node model: what allocation, copy-on-write and the writes do to the observations.
-/
set_option linter.unusedSectionVars false
namespace Goslide.Node
open Spec.Node Configuration
variable {F : Type} [GoFloat F]

theorem slotsAt_iff (tr : List (NodeTrain F)) (qs : List Ptr) (T : List (Slot F)) :
    slotsAt tr qs = some T ↔ T.length = qs.length ∧
      ∀ (i : Nat) (q : Ptr), qs[i]? = some q → ∃ t, tr[q]? = some t ∧ T[i]? = some (slot t) := by
  induction qs generalizing T with
  | nil =>
    simp only [slotsAt, Option.some.injEq, List.length_nil]
    constructor
    · rintro rfl; simp
    · rintro ⟨h, _⟩; exact (List.length_eq_zero_iff.mp h).symm
  | cons q qs ih =>
    rw [slotsAt]
    constructor
    · intro h
      split at h
      · rename_i t ts ht hts
        cases h
        obtain ⟨h1, h2⟩ := (ih ts).mp hts
        refine ⟨by simp [h1], ?_⟩
        intro i q' hi
        cases i with
        | zero => simp only [List.getElem?_cons_zero, Option.some.injEq] at hi; subst hi; exact ⟨t, ht, by simp⟩
        | succ i => simp only [List.getElem?_cons_succ] at hi ⊢; exact h2 i q' hi
      · cases h
    · rintro ⟨hl, h⟩
      cases T with
      | nil => simp at hl
      | cons s T =>
        obtain ⟨t, ht, hs⟩ := h 0 q (by simp)
        simp only [List.getElem?_cons_zero, Option.some.injEq] at hs
        have := (ih T).mpr ⟨by simpa using hl, fun i q' hi => by
          have := h (i + 1) q' (by simpa using hi)
          simpa using this⟩
        rw [ht, this, hs]

/-- The objects behind a well-formed handle. -/
structure Parts (h : Heap F) (p : Ptr) (v : View F) (nd : Node) (b : BaseNode F) (qs : List Ptr) : Prop where
  node : h.nodes[p]? = some nd
  base : h.bases[nd.base]? = some b
  par : baseParams h.floats b = some v.params
  ptrs : readSlice h.trainArrs nd.train = some qs
  slots : slotsAt h.trains qs = some v.train
  nodup : qs.Nodup
  batch : (v.train.length : Int) = v.params.batch

theorem view_iff (h : Heap F) (p : Ptr) (v : View F) :
    view h p = some v ↔ params h p = some v.params ∧ slots h p = some v.train := by
  unfold view
  constructor
  · intro hv
    split at hv
    · rename_i P T hP hT; cases hv; exact ⟨hP, hT⟩
    · cases hv
  · rintro ⟨h1, h2⟩; rw [h1, h2]

theorem params_iff (h : Heap F) (p : Ptr) (P : Params F) :
    params h p = some P ↔ ∃ nd b, h.nodes[p]? = some nd ∧ h.bases[nd.base]? = some b ∧ baseParams h.floats b = some P := by
  unfold params
  constructor
  · intro hv
    split at hv
    · cases hv
    · rename_i nd hnd
      split at hv
      · cases hv
      · rename_i b hb; exact ⟨nd, b, hnd, hb, hv⟩
  · rintro ⟨nd, b, h1, h2, h3⟩; rw [h1]; dsimp only; rw [h2]; exact h3

theorem slotPtrs_of {h : Heap F} {p : Ptr} {nd : Node} (hn : h.nodes[p]? = some nd) :
    slotPtrs h p = readSlice h.trainArrs nd.train := by
  unfold slotPtrs; rw [hn]

theorem slots_iff (h : Heap F) (p : Ptr) (T : List (Slot F)) :
    slots h p = some T ↔ ∃ qs, slotPtrs h p = some qs ∧ slotsAt h.trains qs = some T := by
  unfold slots
  constructor
  · intro hv
    split at hv
    · cases hv
    · rename_i qs hqs; exact ⟨qs, hqs, hv⟩
  · rintro ⟨qs, h1, h2⟩; rw [h1]; exact h2

theorem Parts.handle {h : Heap F} {p : Ptr} {v : View F} {nd b qs} (hp : Parts h p v nd b qs) : Handle h p v := by
  have hsp : slotPtrs h p = some qs := by rw [slotPtrs_of hp.node, hp.ptrs]
  refine ⟨(view_iff _ _ _).mpr ⟨(params_iff _ _ _).mpr ⟨nd, b, hp.node, hp.base, hp.par⟩,
    (slots_iff _ _ _).mpr ⟨qs, hsp, hp.slots⟩⟩, hp.batch, ?_⟩
  intro qs' h'
  rw [hsp] at h'; cases h'; exact hp.nodup

theorem _root_.Goslide.Spec.Node.Handle.parts {h : Heap F} {p : Ptr} {v : View F} (hp : Handle h p v) : ∃ nd b qs, Parts h p v nd b qs := by
  obtain ⟨hP, hT⟩ := (view_iff _ _ _).mp hp.view
  obtain ⟨nd, b, h1, h2, h3⟩ := (params_iff _ _ _).mp hP
  obtain ⟨qs, h4, h5⟩ := (slots_iff _ _ _).mp hT
  exact ⟨nd, b, qs, h1, h2, h3, by rw [← slotPtrs_of h1]; exact h4, h5, hp.nodup qs h4, hp.batch⟩

theorem Parts.len {h : Heap F} {p : Ptr} {v : View F} {nd b qs} (hp : Parts h p v nd b qs) :
    v.train.length = qs.length := ((slotsAt_iff _ _ _).mp hp.slots).1

theorem Parts.slot_at {h : Heap F} {p : Ptr} {v : View F} {nd b qs} (hp : Parts h p v nd b qs) {i : Nat} {q : Ptr}
    (hq : qs[i]? = some q) : ∃ t, h.trains[q]? = some t ∧ v.train[i]? = some (slot t) :=
  ((slotsAt_iff _ _ _).mp hp.slots).2 i q hq

theorem Parts.lt {h : Heap F} {p : Ptr} {v : View F} {nd b qs} (hp : Parts h p v nd b qs) {q : Ptr}
    (hq : q ∈ qs) : q < h.trains.length := by
  obtain ⟨i, hi⟩ := List.mem_iff_getElem?.mp hq
  obtain ⟨t, ht, _⟩ := hp.slot_at hi
  exact (List.getElem?_eq_some_iff.mp ht).1

/-! ### Allocation -/

theorem getElem?_app {α : Type} {l : List α} {i : Nat} {a : α} (h : l[i]? = some a) (l' : List α) :
    (l ++ l')[i]? = some a := by
  rw [List.getElem?_append_left (List.getElem?_eq_some_iff.mp h).1, h]

theorem slotsAt_append {tr : List (NodeTrain F)} {qs : List Ptr} {T : List (Slot F)} (h : slotsAt tr qs = some T)
    (ext : List (NodeTrain F)) : slotsAt (tr ++ ext) qs = some T := by
  rw [slotsAt_iff] at h ⊢
  refine ⟨h.1, fun i q hi => ?_⟩
  obtain ⟨t, h1, h2⟩ := h.2 i q hi
  exact ⟨t, getElem?_app h1 _, h2⟩

/-- The memory after `clone`. -/
def cloneHeap (h : Heap F) (nd : Node) (qs : List Ptr) (c : Int) : Heap F :=
  { h with
    trainArrs := h.trainArrs ++ [qs]
    nodes := h.nodes ++ [{ cowId := c, base := nd.base, train := { arr := h.trainArrs.length, off := 0, len := qs.length } }] }

theorem node_ok {h : Heap F} {p : Ptr} {nd : Node} (hn : h.nodes[p]? = some nd) : node p h = .ok (nd, h) := by
  unfold node; rw [deref_of hn]; rfl
theorem base_ok {h : Heap F} {p : Ptr} {b : BaseNode F} (hn : h.bases[p]? = some b) : base p h = .ok (b, h) := by
  unfold base; rw [deref_of hn]; rfl
theorem train_ok {h : Heap F} {p : Ptr} {t : NodeTrain F} (hn : h.trains[p]? = some t) : train p h = .ok (t, h) := by
  unfold train; rw [deref_of hn]; rfl

theorem clone_run {h : Heap F} {p : Ptr} {nd : Node} {qs : List Ptr} (hn : h.nodes[p]? = some nd)
    (hq : readSlice h.trainArrs nd.train = some qs) (c : Int) :
    clone p c h = .ok (h.nodes.length, cloneHeap h nd qs c) := by
  have h2 : trainPtrsOf nd.train h = .ok (qs, h) := by unfold trainPtrsOf; rw [hq]
  unfold clone
  rw [M.bind_ok (node_ok hn), M.bind_ok h2]
  rfl

/-- `cloneIfNeeded` either returns the node or makes a copy. -/
theorem cloneIfNeeded_run {h : Heap F} {p : Ptr} {nd : Node} {qs : List Ptr} (hn : h.nodes[p]? = some nd)
    (hq : readSlice h.trainArrs nd.train = some qs) (c : Int) :
    (nd.cowId = c ∧ cloneIfNeeded p c h = .ok (p, h)) ∨
    (nd.cowId ≠ c ∧ cloneIfNeeded p c h = .ok (h.nodes.length, cloneHeap h nd qs c)) := by
  unfold cloneIfNeeded
  rw [M.bind_ok (node_ok hn)]
  by_cases hc : nd.cowId = c
  · left; refine ⟨hc, ?_⟩
    rw [if_neg (by simp [hc])]; rfl
  · right; refine ⟨hc, ?_⟩
    rw [if_pos hc, clone_run hn hq]

theorem Parts.clone_old {h : Heap F} {p' : Ptr} {v' : View F} {nd' b' qs'} (hp : Parts h p' v' nd' b' qs')
    (nd : Node) (qs : List Ptr) (c : Int) : Parts (cloneHeap h nd qs c) p' v' nd' b' qs' :=
  ⟨getElem?_app hp.node _, hp.base, hp.par, readSlice_append hp.ptrs _, hp.slots, hp.nodup, hp.batch⟩

theorem Parts.clone_new {h : Heap F} {p : Ptr} {v : View F} {nd b qs} (hp : Parts h p v nd b qs) (c : Int) :
    Parts (cloneHeap h nd qs c) h.nodes.length v
      { cowId := c, base := nd.base, train := { arr := h.trainArrs.length, off := 0, len := qs.length } } b qs := by
  refine ⟨?_, hp.base, hp.par, ?_, hp.slots, hp.nodup, hp.batch⟩
  · simp [cloneHeap]
  · exact readSlice_new h.trainArrs qs []

/-! ### Owning a training state -/

theorem ownTrain_run {h : Heap F} {n : Ptr} {nd : Node} {qs : List Ptr} (hn : h.nodes[n]? = some nd)
    (hq : readSlice h.trainArrs nd.train = some qs) {i : Nat} {q : Ptr} (hqi : qs[i]? = some q)
    {t : NodeTrain F} (ht : h.trains[q]? = some t) (c : Int) :
    (t.cowId = c ∧ ownTrain n c i h = .ok (q, h)) ∨
    (t.cowId ≠ c ∧ ∃ arrs, writeCell h.trainArrs nd.train i h.trains.length = .ok arrs ∧
      ownTrain n c i h = .ok (h.trains.length,
        { h with trains := h.trains ++ [{ t with cowId := c }], trainArrs := arrs })) := by
  have hi : i < qs.length := (List.getElem?_eq_some_iff.mp hqi).1
  have hrd : trainPtr nd.train i h = .ok (q, h) := by
    unfold trainPtr; rw [readCell_ok_of hq hqi]; rfl
  unfold ownTrain
  rw [M.bind_ok (node_ok hn), M.bind_ok hrd]
  by_cases hc : t.cowId = c
  · left
    refine ⟨hc, ?_⟩
    have : cloneTrainIfNeeded q c h = .ok (q, h) := by
      unfold cloneTrainIfNeeded
      rw [M.bind_ok (train_ok ht), if_neg (by simp [hc])]; rfl
    rw [M.bind_ok this]
    obtain ⟨st, h1, _, _, _, _, _, h2⟩ := writeCell_of hq i q hi
    have hst := h2 hqi
    subst hst
    have : setTrainPtr nd.train i q h = .ok ((), h) := by
      unfold setTrainPtr; rw [h1]; rfl
    rw [M.bind_ok this]; rfl
  · right
    refine ⟨hc, ?_⟩
    have : cloneTrainIfNeeded q c h = .ok (h.trains.length, { h with trains := h.trains ++ [{ t with cowId := c }] }) := by
      unfold cloneTrainIfNeeded
      rw [M.bind_ok (train_ok ht), if_pos hc]
      unfold cloneTrain
      rw [M.bind_ok (train_ok ht)]; rfl
    rw [M.bind_ok this]
    obtain ⟨st, h1, _⟩ := writeCell_of hq i h.trains.length hi
    refine ⟨st, h1, ?_⟩
    have : setTrainPtr nd.train i h.trains.length { h with trains := h.trains ++ [{ t with cowId := c }] } =
        .ok ((), { h with trains := h.trains ++ [{ t with cowId := c }], trainArrs := st }) := by
      unfold setTrainPtr; dsimp only; rw [h1]; rfl
    rw [M.bind_ok this]; rfl

theorem slotsAt_swap {tr : List (NodeTrain F)} {qs : List Ptr} {T : List (Slot F)} (h : slotsAt tr qs = some T)
    {j : Nat} {q : Ptr} {t : NodeTrain F} (hj : qs[j]? = some q) (ht : tr[q]? = some t) (c : Int) :
    slotsAt (tr ++ [{ t with cowId := c }]) (qs.set j tr.length) = some T := by
  rw [slotsAt_iff] at h ⊢
  refine ⟨by simp [h.1], fun i q' hi => ?_⟩
  rw [List.getElem?_set] at hi
  by_cases hij : j = i
  · subst hij
    obtain ⟨hl, _⟩ := List.getElem?_eq_some_iff.mp hj
    rw [if_pos rfl, if_pos hl] at hi
    cases hi
    obtain ⟨t', h1, h2⟩ := h.2 j q hj
    rw [ht] at h1; cases h1
    exact ⟨{ t with cowId := c }, by simp, h2⟩
  · rw [if_neg hij] at hi
    obtain ⟨t', h1, h2⟩ := h.2 i q' hi
    exact ⟨t', getElem?_app h1 _, h2⟩

theorem nodup_set {l : List Ptr} (h : l.Nodup) {x : Ptr} (hx : x ∉ l) (j : Nat) : (l.set j x).Nodup := by
  induction l generalizing j with
  | nil => simp
  | cons a l ih =>
    simp only [List.mem_cons, not_or] at hx
    rw [List.nodup_cons] at h
    cases j with
    | zero => rw [List.set_cons_zero, List.nodup_cons]; exact ⟨hx.2, h.2⟩
    | succ j =>
      rw [List.set_cons_succ, List.nodup_cons]
      refine ⟨fun hm => ?_, ih h.2 hx.2 j⟩
      rcases List.mem_or_eq_of_mem_set hm with hm | hm
      · exact h.1 hm
      · exact hx.1 hm.symm

theorem Parts.swap {h : Heap F} {nd : Node} {qs : List Ptr}
    (hq : readSlice h.trainArrs nd.train = some qs) {i : Nat} {q : Ptr} (hqi : qs[i]? = some q)
    {t : NodeTrain F} (ht : h.trains[q]? = some t) (c : Int) {arrs : List (List Ptr)}
    (hw : writeCell h.trainArrs nd.train i h.trains.length = .ok arrs)
    {p' : Ptr} {v' : View F} {nd' b' qs'} (hp : Parts h p' v' nd' b' qs') :
    ∃ qs'', Parts { h with trains := h.trains ++ [{ t with cowId := c }], trainArrs := arrs } p' v' nd' b' qs'' ∧
      (nd.train.Disjoint nd'.train → qs'' = qs') := by
  have hfresh : h.trains.length ∉ qs' := fun hm => Nat.lt_irrefl _ (hp.lt hm)
  have hrd := readCell_ok_of hq hqi
  have hi : i < qs.length := (List.getElem?_eq_some_iff.mp hqi).1
  obtain ⟨st, hst, _, _, _, _, hdis, _⟩ := writeCell_of hq i h.trains.length hi
  rw [hw] at hst; cases hst
  by_cases hd : nd.train.Disjoint nd'.train
  · refine ⟨qs', ⟨hp.node, hp.base, hp.par, ?_, slotsAt_append hp.slots _, hp.nodup, hp.batch⟩, fun _ => rfl⟩
    show readSlice arrs _ = _
    rw [hdis _ hd]; exact hp.ptrs
  · rcases readSlice_write hw hrd hp.ptrs with hr | ⟨j, hj, hr⟩
    · exact ⟨qs', ⟨hp.node, hp.base, hp.par, hr, slotsAt_append hp.slots _, hp.nodup, hp.batch⟩, fun _ => rfl⟩
    · exact ⟨qs'.set j h.trains.length, ⟨hp.node, hp.base, hp.par, hr, slotsAt_swap hp.slots hj ht c,
        nodup_set hp.nodup hfresh j, hp.batch⟩, fun h => absurd h hd⟩

/-! ### Owning the base -/

theorem ownBase_run {h : Heap F} {n : Ptr} {nd : Node} {b : BaseNode F} (hn : h.nodes[n]? = some nd)
    (hb : h.bases[nd.base]? = some b) (c : Int) :
    (b.cowId = c ∧ ownBase n c h = .ok (nd.base, h)) ∨
    (b.cowId ≠ c ∧ ownBase n c h = .ok (h.bases.length,
        { h with bases := h.bases ++ [{ b with cowId := c }], nodes := h.nodes.set n { nd with base := h.bases.length } })) := by
  unfold ownBase
  rw [M.bind_ok (node_ok hn)]
  by_cases hc : b.cowId = c
  · left
    refine ⟨hc, ?_⟩
    have : cloneBaseIfNeeded nd.base c h = .ok (nd.base, h) := by
      unfold cloneBaseIfNeeded
      rw [M.bind_ok (base_ok hb), if_neg (by simp [hc])]; rfl
    rw [M.bind_ok this]
    have : setNode n { nd with base := nd.base } h = .ok ((), h) := by
      obtain ⟨hl, rfl⟩ := List.getElem?_eq_some_iff.mp hn
      show Except.ok ((), { h with nodes := h.nodes.set n h.nodes[n] }) = _
      rw [List.set_getElem_self]
    rw [M.bind_ok this]; rfl
  · right
    refine ⟨hc, ?_⟩
    have : cloneBaseIfNeeded nd.base c h = .ok (h.bases.length, { h with bases := h.bases ++ [{ b with cowId := c }] }) := by
      unfold cloneBaseIfNeeded
      rw [M.bind_ok (base_ok hb), if_pos hc]
      unfold cloneBase
      rw [M.bind_ok (base_ok hb)]; rfl
    rw [M.bind_ok this]; rfl

/-- The memory after the base of node `n` was copied. -/
def baseHeap (h : Heap F) (n : Ptr) (nd : Node) (b : BaseNode F) (c : Int) : Heap F :=
  { h with
    bases := h.bases ++ [{ b with cowId := c }]
    nodes := h.nodes.set n { nd with base := h.bases.length } }

theorem Parts.base_new {h : Heap F} {n : Ptr} {v : View F} {nd b qs} (hp : Parts h n v nd b qs) (c : Int) :
    Parts (baseHeap h n nd b c) n v { nd with base := h.bases.length } { b with cowId := c } qs := by
  refine ⟨?_, ?_, hp.par, hp.ptrs, hp.slots, hp.nodup, hp.batch⟩
  · show (h.nodes.set n _)[n]? = _
    rw [List.getElem?_set_self (List.getElem?_eq_some_iff.mp hp.node).1]
  · simp [baseHeap]

theorem Parts.base_old {h : Heap F} {p' : Ptr} {v' : View F} {nd' b' qs'} (hp : Parts h p' v' nd' b' qs')
    {n : Ptr} (hne : p' ≠ n) (nd : Node) (b : BaseNode F) (c : Int) : Parts (baseHeap h n nd b c) p' v' nd' b' qs' := by
  refine ⟨?_, getElem?_app hp.base _, hp.par, hp.ptrs, hp.slots, hp.nodup, hp.batch⟩
  show (h.nodes.set n _)[p']? = _
  rw [List.getElem?_set_ne (Ne.symm hne)]; exact hp.node

/-! ### Writes -/

/-- The memory after a training state was overwritten. -/
def trainHeap (h : Heap F) (q : Ptr) (t : NodeTrain F) : Heap F := { h with trains := h.trains.set q t }

theorem slotsAt_set_ne {tr : List (NodeTrain F)} {qs : List Ptr} {T : List (Slot F)} (h : slotsAt tr qs = some T)
    {q : Ptr} (hq : q ∉ qs) (t : NodeTrain F) : slotsAt (tr.set q t) qs = some T := by
  rw [slotsAt_iff] at h ⊢
  refine ⟨h.1, fun i q' hi => ?_⟩
  have hne : q ≠ q' := fun e => hq (e ▸ List.mem_of_getElem? hi)
  rw [List.getElem?_set_ne hne]
  exact h.2 i q' hi

theorem slotsAt_set {tr : List (NodeTrain F)} {qs : List Ptr} {T : List (Slot F)} (h : slotsAt tr qs = some T)
    {q : Ptr} {i : Nat} (hi : qs[i]? = some q) (hn : qs.Nodup) (t : NodeTrain F) :
    slotsAt (tr.set q t) qs = some (T.set i (slot t)) := by
  rw [slotsAt_iff] at h ⊢
  refine ⟨by simp [h.1], fun j q' hj => ?_⟩
  by_cases hij : i = j
  · subst hij
    rw [hi] at hj; cases hj
    obtain ⟨t', h1, h2⟩ := h.2 i q hi
    exact ⟨t, by rw [List.getElem?_set_self (List.getElem?_eq_some_iff.mp h1).1],
      by rw [List.getElem?_set_self (List.getElem?_eq_some_iff.mp h2).1]⟩
  · obtain ⟨t', h1, h2⟩ := h.2 j q' hj
    refine ⟨t', ?_, by rw [List.getElem?_set_ne hij]; exact h2⟩
    rw [List.getElem?_set_ne]
    · exact h1
    · rintro rfl
      exact hij ((List.getElem?_inj (List.getElem?_eq_some_iff.mp hi).1 hn).mp (hi.trans hj.symm))

theorem Parts.train_other {h : Heap F} {p' : Ptr} {v' : View F} {nd' b' qs'} (hp : Parts h p' v' nd' b' qs')
    {q : Ptr} (hq : q ∉ qs') (t : NodeTrain F) : Parts (trainHeap h q t) p' v' nd' b' qs' :=
  ⟨hp.node, hp.base, hp.par, hp.ptrs, slotsAt_set_ne hp.slots hq t, hp.nodup, hp.batch⟩

theorem Parts.train_at {h : Heap F} {p : Ptr} {v : View F} {nd b qs} (hp : Parts h p v nd b qs)
    {q : Ptr} {i : Nat} (hi : qs[i]? = some q) (t : NodeTrain F) :
    Parts (trainHeap h q t) p { v with train := v.train.set i (slot t) } nd b qs :=
  ⟨hp.node, hp.base, hp.par, hp.ptrs, slotsAt_set hp.slots hi hp.nodup t, hp.nodup, by simpa using hp.batch⟩

/-- The memory after a base was overwritten. -/
def setBaseHeap (h : Heap F) (bp : Ptr) (b : BaseNode F) : Heap F := { h with bases := h.bases.set bp b }

theorem Parts.setBase_other {h : Heap F} {p' : Ptr} {v' : View F} {nd' b' qs'} (hp : Parts h p' v' nd' b' qs')
    {bp : Ptr} (hne : nd'.base ≠ bp) (b : BaseNode F) : Parts (setBaseHeap h bp b) p' v' nd' b' qs' := by
  refine ⟨hp.node, ?_, hp.par, hp.ptrs, hp.slots, hp.nodup, hp.batch⟩
  show (h.bases.set bp b)[_]? = _
  rw [List.getElem?_set_ne (Ne.symm hne)]; exact hp.base

theorem Parts.setBase_at {h : Heap F} {p : Ptr} {v : View F} {nd b qs} (hp : Parts h p v nd b qs)
    {b' : BaseNode F} {P : Params F} (hP : baseParams h.floats b' = some P) (hb : P.batch = v.params.batch) :
    Parts (setBaseHeap h nd.base b') p { v with params := P } nd b' qs := by
  refine ⟨hp.node, ?_, hP, hp.ptrs, hp.slots, hp.nodup, by rw [hb]; exact hp.batch⟩
  show (h.bases.set nd.base b')[_]? = _
  rw [List.getElem?_set_self (List.getElem?_eq_some_iff.mp hp.base).1]

end Goslide.Node
