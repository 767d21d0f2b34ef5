import Verif.Proofs.Node
/-
Copy-on-write: what the `cloneIfNeeded` steps that start every operation guarantee.
-/
set_option linter.unusedSectionVars false
namespace Goslide.Node
open Spec.Node Configuration
variable {F : Type} [GoFloat F]

/-- Node `p'` is the same in both memories: same objects, same observation. -/
def Keep (h h1 : Heap F) (p' : Ptr) : Prop :=
  ∀ v nd b qs, Parts h p' v nd b qs → Parts h1 p' v nd b qs ∧ ∀ q ∈ qs, h1.trains[q]? = h.trains[q]?

theorem Keep.trans {h h1 h2 : Heap F} {p' : Ptr} (a : Keep h h1 p') (b : Keep h1 h2 p') : Keep h h2 p' := by
  intro v nd bb qs hp
  obtain ⟨h1, e1⟩ := a v nd bb qs hp
  obtain ⟨h2, e2⟩ := b v nd bb qs h1
  exact ⟨h2, fun q hq => (e2 q hq).trans (e1 q hq)⟩

theorem sep_of {h : Heap F} {p p' : Ptr} {v v' : View F} {nd b qs nd' b' qs'} (hp : Parts h p v nd b qs)
    (hp' : Parts h p' v' nd' b' qs') : Sep h p p' ↔ nd.train.Disjoint nd'.train ∧ nd.base ≠ nd'.base ∧
      (∀ s ∈ vecs b, ∀ s' ∈ vecs b', s.Disjoint s') ∧ ∀ q ∈ qs, q ∉ qs' := by
  constructor
  · rintro ⟨h1, h2⟩
    obtain ⟨a1, a2, a3⟩ := h1 nd nd' hp.node hp'.node
    exact ⟨a1, a2, a3 b b' hp.base hp'.base, h2 qs qs' (by rw [slotPtrs_of hp.node, hp.ptrs])
      (by rw [slotPtrs_of hp'.node, hp'.ptrs])⟩
  · rintro ⟨h1, h2, h3, h4⟩
    refine ⟨fun n n' hn hn' => ?_, fun a a' ha ha' => ?_⟩
    · rw [hp.node] at hn; cases hn
      rw [hp'.node] at hn'; cases hn'
      refine ⟨h1, h2, fun a a' ha ha' => ?_⟩
      rw [hp.base] at ha; cases ha
      rw [hp'.base] at ha'; cases ha'
      exact h3
    · rw [slotPtrs_of hp.node, hp.ptrs] at ha; cases ha
      rw [slotPtrs_of hp'.node, hp'.ptrs] at ha'; cases ha'
      exact h4

/-- Node `n` in the memory `h1` is node `p` of `h` made writable for `c`, at least its own fields; nothing
observable has changed. -/
structure Cow (h h1 : Heap F) (p n : Ptr) (c : Int) : Prop where
  floats : h1.floats = h.floats
  nodeArrs : h1.nodeArrs = h.nodeArrs
  keep : ∀ p' v', Handle h p' v' → Handle h1 p' v'
  new : ∀ v, Handle h p v → Handle h1 n v
  par : ∀ p' P, params h p' = some P → params h1 p' = some P
  disj : Disj h → Disj h1
  owner : ∀ nd, h1.nodes[n]? = some nd → nd.cowId = c
  iso : ∀ p' v', Handle h p' v' → Foreign h p' c → (p' = p ∨ Disj h) → Foreign h1 p' c ∧ p' ≠ n ∧
    ∀ nd nd' : Node, h1.nodes[n]? = some nd → h1.nodes[p']? = some nd' → nd.train.Disjoint nd'.train
  same : Owned h p c → h1 = h ∧ n = p
  inner : Inner h p → Inner h1 n
  sep : ∀ p' v', Handle h p' v' → p' ≠ p → Sep h p p' → Keep h h1 p' ∧ Sep h1 n p' ∧ p' ≠ n
  alias : ∀ (nd0 nd : Node) (b0 b : BaseNode F), h1.nodes[p]? = some nd0 → h1.bases[nd0.base]? = some b0 →
    h1.nodes[n]? = some nd → h1.bases[nd.base]? = some b → { b with cowId := c } = { b0 with cowId := c }

theorem Parts.valid {h : Heap F} {p : Ptr} {v : View F} {nd b qs} (hp : Parts h p v nd b qs) :
    nd.train.len = 0 ∨ nd.train.arr < h.trainArrs.length := by
  by_cases h0 : nd.train.len = 0
  · exact .inl h0
  · obtain ⟨a, ha, _⟩ := readSlice_pos hp.ptrs (by omega)
    exact .inr (List.getElem?_eq_some_iff.mp ha).1

theorem foreign_of {h : Heap F} {p : Ptr} {v : View F} {nd b qs} (hp : Parts h p v nd b qs) (c : Int) :
    Foreign h p c ↔ nd.cowId ≠ c ∧ b.cowId ≠ c ∧ ∀ q ∈ qs, ∀ t, h.trains[q]? = some t → t.cowId ≠ c := by
  unfold Foreign
  rw [slotPtrs_of hp.node, hp.ptrs]
  constructor
  · rintro ⟨h1, h2⟩
    exact ⟨(h1 nd hp.node).1, (h1 nd hp.node).2 b hp.base, h2 qs rfl⟩
  · rintro ⟨h1, h2, h3⟩
    refine ⟨fun n hn => ?_, fun qs' hq => by cases hq; exact h3⟩
    rw [hp.node] at hn; cases hn
    exact ⟨h1, fun b' hb => by rw [hp.base] at hb; cases hb; exact h2⟩

theorem owned_of {h : Heap F} {p : Ptr} {v : View F} {nd b qs} (hp : Parts h p v nd b qs) (c : Int) :
    Owned h p c ↔ nd.cowId = c ∧ b.cowId = c ∧ ∀ q ∈ qs, ∀ t, h.trains[q]? = some t → t.cowId = c := by
  unfold Owned
  rw [slotPtrs_of hp.node, hp.ptrs]
  constructor
  · rintro ⟨h1, h2⟩
    exact ⟨(h1 nd hp.node).1, (h1 nd hp.node).2 b hp.base, h2 qs rfl⟩
  · rintro ⟨h1, h2, h3⟩
    refine ⟨fun n hn => ?_, fun qs' hq => by cases hq; exact h3⟩
    rw [hp.node] at hn; cases hn
    exact ⟨h1, fun b' hb => by rw [hp.base] at hb; cases hb; exact h2⟩

theorem getElem?_snoc {α : Type} (l : List α) (a : α) (i : Nat) (x : α) (h : (l ++ [a])[i]? = some x) :
    (i < l.length ∧ l[i]? = some x) ∨ (i = l.length ∧ x = a) := by
  by_cases hi : i < l.length
  · left; rw [List.getElem?_append_left hi] at h; exact ⟨hi, h⟩
  · right
    have : i = l.length := by
      have := (List.getElem?_eq_some_iff.mp h).1
      simp at this; omega
    subst this
    simp at h
    exact ⟨rfl, h.symm⟩

/-- First step of every operation. -/
theorem cow_clone {h : Heap F} {p : Ptr} {v : View F} (hv : Handle h p v) (c : Int) :
    ∃ n h1, cloneIfNeeded p c h = .ok (n, h1) ∧ Cow h h1 p n c := by
  obtain ⟨nd, b, qs, hp⟩ := hv.parts
  rcases cloneIfNeeded_run hp.node hp.ptrs c with ⟨hc, hr⟩ | ⟨hc, hr⟩
  · refine ⟨p, h, hr, rfl, rfl, fun _ _ h => h, fun _ h => h, fun _ _ h => h, id, ?_, ?_, fun _ => ⟨rfl, rfl⟩, id,
      fun _ _ _ hne hs => ⟨fun _ _ _ _ h => ⟨h, fun _ _ => rfl⟩, hs, hne⟩, ?_⟩
    · intro nd' hn; rw [hp.node] at hn; cases hn; exact hc
    · intro p' v' hv' hf hor
      have hne : p' ≠ p := by
        rintro rfl
        exact (((foreign_of hp c).mp hf).1) hc
      refine ⟨hf, hne, ?_⟩
      rcases hor with rfl | hd
      · exact absurd rfl hne
      · intro n1 n2 h1 h2
        exact hd.2 p p' n1 n2 (Ne.symm hne) h1 h2
    · intro nd0 nd' b0 b' e1 e2 e3 e4
      rw [e1] at e3; cases e3
      rw [e2] at e4; cases e4; rfl
  · refine ⟨_, _, hr, rfl, rfl, ?_, ?_, ?_, ?_, ?_, ?_, ?_, ?_, ?_, ?_⟩
    · intro p' v' hv'
      obtain ⟨nd', b', qs', hp'⟩ := hv'.parts
      exact (hp'.clone_old nd qs c).handle
    · intro v' hv'
      obtain ⟨nd', b', qs', hp'⟩ := hv'.parts
      have e1 := hp'.node
      rw [hp.node] at e1; cases e1
      have e2 := hp'.ptrs
      rw [hp.ptrs] at e2; cases e2
      exact (hp'.clone_new c).handle
    · intro p' P hP
      rw [params_iff] at hP ⊢
      obtain ⟨nd', b', h1, h2, h3⟩ := hP
      exact ⟨nd', b', getElem?_app h1 _, h2, h3⟩
    · rintro ⟨hd1, hd2⟩
      refine ⟨?_, ?_⟩
      · intro p' n' hn
        show _ ∨ _ < (h.trainArrs ++ [qs]).length
        rw [List.length_append]
        rcases getElem?_snoc _ _ _ _ hn with ⟨_, hn⟩ | ⟨_, rfl⟩
        · rcases hd1 p' n' hn with h | h
          · exact .inl h
          · exact .inr (Nat.lt_add_right _ h)
        · right; simp
      · intro p1 p2 n1 n2 hne h1 h2
        rcases getElem?_snoc _ _ _ _ h1 with ⟨l1, h1⟩ | ⟨l1, rfl⟩ <;>
        rcases getElem?_snoc _ _ _ _ h2 with ⟨l2, h2⟩ | ⟨l2, rfl⟩
        · exact hd2 p1 p2 n1 n2 hne h1 h2
        · rcases hd1 p1 n1 h1 with h | h
          · exact .inl h
          · exact .inr (.inr (.inl (Nat.ne_of_lt h)))
        · rcases hd1 p2 n2 h2 with h | h
          · exact .inr (.inl h)
          · exact .inr (.inr (.inl (Nat.ne_of_gt h)))
        · exact absurd (l1.trans l2.symm) hne
    · intro nd' hn
      have : nd' = { cowId := c, base := nd.base, train := { arr := h.trainArrs.length, off := 0, len := qs.length } } := by
        simpa [cloneHeap] using hn.symm
      rw [this]
    · intro p' v' hv' hf hor
      obtain ⟨nd', b', qs', hp'⟩ := hv'.parts
      have hp2 := hp'.clone_old nd qs c
      have hlt : p' < h.nodes.length := (List.getElem?_eq_some_iff.mp hp'.node).1
      refine ⟨(foreign_of hp2 c).mpr ((foreign_of hp' c).mp hf), Nat.ne_of_lt hlt, ?_⟩
      intro n1 n2 h1 h2
      have e1 : n1 = { cowId := c, base := nd.base, train := { arr := h.trainArrs.length, off := 0, len := qs.length } } := by
        simpa [cloneHeap] using h1.symm
      rw [hp2.node] at h2
      cases h2; subst e1
      rcases hp'.valid with h | h
      · exact .inr (.inl h)
      · exact .inr (.inr (.inl (Nat.ne_of_gt h)))
    · intro ho
      exact absurd ((owned_of hp c).mp ho).1 hc
    · intro hin n' b' hn hb
      have hp2 := hp.clone_new c
      rw [hp2.node] at hn; cases hn
      exact hin nd b' hp.node hb
    · intro p' v' hv' hne hs
      obtain ⟨nd', b', qs', hp'⟩ := hv'.parts
      refine ⟨fun v2 nd2 b2 qs2 h2 => ⟨h2.clone_old nd qs c, fun _ _ => rfl⟩, ?_,
        Nat.ne_of_lt (List.getElem?_eq_some_iff.mp hp'.node).1⟩
      rw [sep_of (hp.clone_new c) (hp'.clone_old nd qs c)]
      obtain ⟨_, s2, s3, s4⟩ := (sep_of hp hp').mp hs
      refine ⟨?_, s2, s3, s4⟩
      rcases hp'.valid with h | h
      · exact .inr (.inl h)
      · exact .inr (.inr (.inl (Nat.ne_of_gt h)))
    · intro nd0 nd' b0 b' e1 e2 e3 e4
      rw [(hp.clone_old nd qs c).node] at e1; cases e1
      rw [(hp.clone_new c).node] at e3; cases e3
      rw [e2] at e4; cases e4; rfl

/-- Second step of the operations on the training state of one input. -/
theorem cow_train {h h0 : Heap F} {p n : Ptr} {v : View F} {c : Int} (hv : Handle h p v) (hc : Cow h h0 p n c)
    {i : Nat} (hi : i < v.train.length) :
    ∃ q h1, ownTrain n c i h0 = .ok (q, h1) ∧ Cow h h1 p n c ∧
      (∃ qs t, slotPtrs h1 n = some qs ∧ qs[i]? = some q ∧ h1.trains[q]? = some t ∧ t.cowId = c ∧
        v.train[i]? = some (slot t)) := by
  obtain ⟨nd, b, qs, hp⟩ := (hc.new v hv).parts
  obtain ⟨q, hq⟩ : ∃ q, qs[i]? = some q := ⟨_, List.getElem?_eq_getElem (hp.len ▸ hi)⟩
  obtain ⟨t, ht, hvt⟩ := hp.slot_at hq
  rcases ownTrain_run hp.node hp.ptrs hq ht c with ⟨hct, hr⟩ | ⟨hct, arrs, hw, hr⟩
  · exact ⟨q, h0, hr, hc, qs, t, by rw [slotPtrs_of hp.node, hp.ptrs], hq, ht, hct, hvt⟩
  · have hsw : ∀ {p' : Ptr} {v' : View F} {nd' b' qs'}, Parts h0 p' v' nd' b' qs' → _ :=
      fun {p' v' nd' b' qs'} hp' => Parts.swap (c := c) hp.ptrs hq ht hw hp' (p' := p') (v' := v')
    have hiq : i < qs.length := (List.getElem?_eq_some_iff.mp hq).1
    obtain ⟨st, hst, hlen, hlens, _, hself, _, _⟩ := writeCell_of hp.ptrs i h0.trains.length hiq
    rw [hw] at hst; cases hst
    refine ⟨h0.trains.length, _, hr, ⟨hc.floats, hc.nodeArrs, ?_, ?_, ?_, ?_, hc.owner, ?_, ?_, hc.inner, ?_, hc.alias⟩, ?_⟩
    · intro p' v' hv'
      obtain ⟨nd', b', qs', hp'⟩ := (hc.keep p' v' hv').parts
      obtain ⟨qs'', h1, _⟩ := hsw hp'
      exact h1.handle
    · intro v' hv'
      obtain ⟨nd', b', qs', hp'⟩ := (hc.new v' hv').parts
      obtain ⟨qs'', h1, _⟩ := hsw hp'
      exact h1.handle
    · intro p' P hP
      have := hc.par p' P hP
      rw [params_iff] at this ⊢
      exact this
    · intro hd
      obtain ⟨hd1, hd2⟩ := hc.disj hd
      refine ⟨fun p' n' hn => ?_, hd2⟩
      rcases hd1 p' n' hn with h | h
      · exact .inl h
      · right; rw [hlen]; exact h
    · intro p' v' hv' hf hor
      obtain ⟨hf0, hne, hdis⟩ := hc.iso p' v' hv' hf hor
      obtain ⟨nd', b', qs', hp'⟩ := (hc.keep p' v' hv').parts
      refine ⟨?_, hne, hdis⟩
      obtain ⟨qs'', h1, h2⟩ := hsw hp'
      have := h2 (hdis nd nd' hp.node hp'.node)
      subst this
      rw [foreign_of h1]
      rw [foreign_of hp'] at hf0
      refine ⟨hf0.1, hf0.2.1, ?_⟩
      intro q' hq' t' ht'
      have hlt := hp'.lt hq'
      have ht2 : h0.trains[q']? = some t' := by
        rw [← ht', List.getElem?_append_left hlt]
      exact hf0.2.2 q' hq' t' ht2
    · intro ho
      obtain ⟨rfl, rfl⟩ := hc.same ho
      exact absurd (((owned_of hp c).mp ho).2.2 q (List.mem_of_getElem? hq) t ht) hct
    · intro p' v' hv' hne hs
      obtain ⟨hk, hs0, hne0⟩ := hc.sep p' v' hv' hne hs
      obtain ⟨nd', b', qs', hp0⟩ := hv'.parts
      have hp' := (hk v' nd' b' qs' hp0).1
      obtain ⟨s1, s2, s3, s4⟩ := (sep_of hp hp').mp hs0
      have hkeep : Keep h0 { h0 with trains := h0.trains ++ [{ t with cowId := c }], trainArrs := arrs } p' := by
        intro v2 nd2 b2 qs2 h2
        have e := h2.node
        rw [hp'.node] at e; cases e
        obtain ⟨qs'', g1, g2⟩ := hsw h2
        have e := g2 s1
        subst e
        refine ⟨g1, fun q' hq' => ?_⟩
        show (h0.trains ++ _)[q']? = _
        rw [List.getElem?_append_left (h2.lt hq')]
      refine ⟨hk.trans hkeep, ?_, hne0⟩
      have hp2 : Parts { h0 with trains := h0.trains ++ [{ t with cowId := c }], trainArrs := arrs } n v nd b
          (qs.set i h0.trains.length) := by
        refine ⟨hp.node, hp.base, hp.par, hself, slotsAt_swap hp.slots hq ht c,
          nodup_set hp.nodup (fun hm => Nat.lt_irrefl _ (hp.lt hm)) i, hp.batch⟩
      rw [sep_of hp2 (hkeep _ _ _ _ hp').1]
      refine ⟨s1, s2, s3, fun q' hq' => ?_⟩
      rcases List.mem_or_eq_of_mem_set hq' with hm | rfl
      · exact s4 q' hm
      · exact fun hm => Nat.lt_irrefl _ (hp'.lt hm)
    · refine ⟨qs.set i h0.trains.length, { t with cowId := c }, ?_, ?_, ?_, rfl, hvt⟩
      · rw [slotPtrs_of (h := { h0 with trains := h0.trains ++ [{ t with cowId := c }], trainArrs := arrs }) hp.node]
        exact hself
      · rw [List.getElem?_set_self hiq]
      · simp

/-- The step before a change of the base. -/
theorem cow_base {h h0 : Heap F} {p n : Ptr} {v : View F} {c : Int} (hv : Handle h p v) (hc : Cow h h0 p n c) :
    ∃ bp h1, ownBase n c h0 = .ok (bp, h1) ∧ Cow h h1 p n c ∧ h1.trains = h0.trains ∧
      (∀ p', slotPtrs h1 p' = slotPtrs h0 p') ∧
      ∃ nd b, h1.nodes[n]? = some nd ∧ nd.base = bp ∧ h1.bases[bp]? = some b ∧ b.cowId = c := by
  obtain ⟨nd, b, qs, hp⟩ := (hc.new v hv).parts
  rcases ownBase_run hp.node hp.base c with ⟨hb, hr⟩ | ⟨hb, hr⟩
  · exact ⟨nd.base, h0, hr, hc, rfl, fun _ => rfl, nd, b, hp.node, rfl, hp.base, hb⟩
  · change _ = Except.ok (_, baseHeap h0 n nd b c) at hr
    have hnn : n < h0.nodes.length := (List.getElem?_eq_some_iff.mp hp.node).1
    have hget : ∀ (p' : Ptr) (n' : Node), (baseHeap h0 n nd b c).nodes[p']? = some n' →
        ∃ n0, h0.nodes[p']? = some n0 ∧ n'.train = n0.train ∧ n'.cowId = n0.cowId := by
      intro p' n' hn'
      by_cases hpn : n = p'
      · subst hpn
        have : n' = { nd with base := h0.bases.length } := by
          change (h0.nodes.set n _)[n]? = _ at hn'
          rw [List.getElem?_set_self hnn] at hn'
          cases hn'; rfl
        subst this
        exact ⟨nd, hp.node, rfl, rfl⟩
      · change (h0.nodes.set n _)[p']? = _ at hn'
        rw [List.getElem?_set_ne hpn] at hn'
        exact ⟨n', hn', rfl, rfl⟩
    refine ⟨h0.bases.length, _, hr, ⟨hc.floats, hc.nodeArrs, ?_, ?_, ?_, ?_, ?_, ?_, ?_, ?_, ?_, ?_⟩, rfl, ?_,
      { nd with base := h0.bases.length }, { b with cowId := c }, (hp.base_new c).node, rfl, (hp.base_new c).base, rfl⟩
    · intro p' v' hv'
      obtain ⟨nd', b', qs', hp'⟩ := (hc.keep p' v' hv').parts
      by_cases hpn : p' = n
      · subst hpn
        have e := hp'.node
        rw [hp.node] at e; cases e
        have e := hp'.base
        rw [hp.base] at e; cases e
        exact (hp'.base_new c).handle
      · exact (hp'.base_old hpn nd b c).handle
    · intro v' hv'
      obtain ⟨nd', b', qs', hp'⟩ := (hc.new v' hv').parts
      have e := hp'.node
      rw [hp.node] at e; cases e
      have e := hp'.base
      rw [hp.base] at e; cases e
      exact (hp'.base_new c).handle
    · intro p' P hP
      have := hc.par p' P hP
      rw [params_iff] at this ⊢
      obtain ⟨nd', b', h1, h2, h3⟩ := this
      by_cases hpn : p' = n
      · subst hpn
        rw [hp.node] at h1; cases h1
        rw [hp.base] at h2; cases h2
        exact ⟨_, _, (hp.base_new c).node, (hp.base_new c).base, h3⟩
      · refine ⟨nd', b', ?_, getElem?_app h2 _, h3⟩
        show (h0.nodes.set n _)[p']? = _
        rw [List.getElem?_set_ne (Ne.symm hpn)]; exact h1
    · intro hd
      obtain ⟨hd1, hd2⟩ := hc.disj hd
      refine ⟨fun p' n' hn => ?_, fun p1 p2 n1 n2 hne h1 h2 => ?_⟩
      · obtain ⟨n0, h1, h2, _⟩ := hget p' n' hn
        rw [h2]; exact hd1 p' n0 h1
      · obtain ⟨m1, h1, e1, _⟩ := hget p1 n1 h1
        obtain ⟨m2, h2, e2, _⟩ := hget p2 n2 h2
        rw [e1, e2]; exact hd2 p1 p2 m1 m2 hne h1 h2
    · intro nd' hn
      obtain ⟨m, h1, _, e⟩ := hget n nd' hn
      rw [e]; exact hc.owner m h1
    · intro p' v' hv' hf hor
      obtain ⟨hf0, hne, hdis⟩ := hc.iso p' v' hv' hf hor
      obtain ⟨nd', b', qs', hp'⟩ := (hc.keep p' v' hv').parts
      have hp2 := hp'.base_old hne nd b c
      refine ⟨(foreign_of hp2 c).mpr ((foreign_of hp' c).mp hf0), hne, ?_⟩
      intro n1 n2 h1 h2
      obtain ⟨m1, h1, e1, _⟩ := hget _ n1 h1
      obtain ⟨m2, h2, e2, _⟩ := hget _ n2 h2
      rw [e1, e2]; exact hdis m1 m2 h1 h2
    · intro ho
      obtain ⟨rfl, rfl⟩ := hc.same ho
      exact absurd ((owned_of hp c).mp ho).2.1 hb
    · intro hin n' b' hn hb'
      have hp2 := hp.base_new c
      rw [hp2.node] at hn; cases hn
      have e := hp2.base
      rw [hb'] at e; cases e
      exact hc.inner hin nd b hp.node hp.base
    · intro p' v' hv' hne hs
      obtain ⟨hk, hs0, hne0⟩ := hc.sep p' v' hv' hne hs
      obtain ⟨nd', b', qs', hp0⟩ := hv'.parts
      have hp' := (hk v' nd' b' qs' hp0).1
      obtain ⟨s1, s2, s3, s4⟩ := (sep_of hp hp').mp hs0
      refine ⟨hk.trans (fun v2 nd2 b2 qs2 h2 => ⟨h2.base_old hne0 nd b c, fun _ _ => rfl⟩), ?_, hne0⟩
      rw [sep_of (hp.base_new c) (hp'.base_old hne0 nd b c)]
      exact ⟨s1, Nat.ne_of_gt (List.getElem?_eq_some_iff.mp hp'.base).1, s3, s4⟩
    · intro nd0 nd' b0 b' e1 e2 e3 e4
      rw [(hp.base_new c).node] at e3; cases e3
      rw [(hp.base_new c).base] at e4; cases e4
      by_cases hpn : p = n
      · subst hpn
        rw [(hp.base_new c).node] at e1; cases e1
        rw [(hp.base_new c).base] at e2; cases e2; rfl
      · obtain ⟨nd2, b2, qs2, hp2⟩ := (hc.keep p v hv).parts
        have hp3 := hp2.base_old hpn nd b c
        rw [hp3.node] at e1; cases e1
        rw [hp3.base] at e2; cases e2
        exact hc.alias _ nd _ b hp2.node hp2.base hp.node hp.base
    · intro p'
      unfold slotPtrs
      by_cases hpn : n = p'
      · subst hpn
        rw [(hp.base_new c).node, hp.node]; rfl
      · have : (baseHeap h0 n nd b c).nodes[p']? = h0.nodes[p']? := by
          show (h0.nodes.set n _)[p']? = _
          rw [List.getElem?_set_ne hpn]
        rw [this]; rfl

/-- An operation on node `p` for `c`, which returned `n`: the new observation, and what it did not touch. -/
structure Op (h h' : Heap F) (p n : Ptr) (c : Int) (v' : View F) : Prop where
  result : Handle h' n v'
  wf : ∀ p' v1, Handle h p' v1 → ∃ v2, Handle h' p' v2
  disj : Disj h → Disj h'
  nodeArrs : h'.nodeArrs = h.nodeArrs
  inner : Inner h p → Inner h' n
  sep : ∀ p' v1, Handle h p' v1 → p' ≠ p → Sep h p p' → Keep h h' p' ∧ Sep h' n p' ∧ p' ≠ n
  same : Owned h p c → n = p ∧ Owned h' p c

/-- An operation that changed the training state of one input of the node `p` for `c`. -/
structure SlotOp (h h' : Heap F) (p n : Ptr) (c : Int) (i : Nat) (v : View F) (s' : Slot F) : Prop
    extends Op h h' p n c { v with train := v.train.set i s' } where
  par : ∀ p' P, params h p' = some P → params h' p' = some P
  iso : Isolates h h' p c
  floats : h'.floats = h.floats

theorem trainHeap_wf {h : Heap F} {p : Ptr} {v : View F} (hv : Handle h p v) (q : Ptr) (t : NodeTrain F) :
    ∃ v', Handle (trainHeap h q t) p v' := by
  obtain ⟨nd, b, qs, hp⟩ := hv.parts
  by_cases hq : q ∈ qs
  · obtain ⟨j, hj⟩ := List.mem_iff_getElem?.mp hq
    exact ⟨_, (hp.train_at hj t).handle⟩
  · exact ⟨_, (hp.train_other hq t).handle⟩

theorem cow_write {h h1 : Heap F} {p n q : Ptr} {v : View F} {c : Int} {i : Nat} {qs : List Ptr} {t t' : NodeTrain F}
    (hv : Handle h p v) (hc : Cow h h1 p n c) (hqs : slotPtrs h1 n = some qs) (hq : qs[i]? = some q)
    (ht : h1.trains[q]? = some t) (htc : t.cowId = c) (htc' : t'.cowId = c) :
    SlotOp h (trainHeap h1 q t') p n c i v (slot t') := by
  obtain ⟨nd, b, qs0, hp⟩ := (hc.new v hv).parts
  have e := hp.ptrs
  rw [← slotPtrs_of hp.node, hqs] at e; cases e
  refine ⟨⟨(hp.train_at hq t').handle, ?_, ?_, hc.nodeArrs, hc.inner, ?_, ?_⟩, ?_, ?_, hc.floats⟩
  · intro p' v' hv'
    exact trainHeap_wf (hc.keep p' v' hv') q t'
  · intro hd; exact hc.disj hd
  · intro p' v' hv' hne hs
    obtain ⟨hk, hs0, hne0⟩ := hc.sep p' v' hv' hne hs
    obtain ⟨nd', b', qs', hp0⟩ := hv'.parts
    have hp' := (hk v' nd' b' qs' hp0).1
    obtain ⟨s1, s2, s3, s4⟩ := (sep_of hp hp').mp hs0
    have hnq := s4 q (List.mem_of_getElem? hq)
    refine ⟨hk.trans (fun v2 nd2 b2 qs2 h2 => ?_), ?_, hne0⟩
    · have e := h2.node
      rw [hp'.node] at e; cases e
      have e := h2.ptrs
      rw [hp'.ptrs] at e; cases e
      refine ⟨h2.train_other hnq t', fun q' hq' => ?_⟩
      show (h1.trains.set q t')[q']? = _
      rw [List.getElem?_set_ne (fun e => hnq (by rw [e]; exact hq'))]
    · rw [sep_of (hp.train_at hq t') (hp'.train_other hnq t')]
      exact ⟨s1, s2, s3, s4⟩
  · intro ho
    obtain ⟨rfl, rfl⟩ := hc.same ho
    refine ⟨rfl, ?_⟩
    have ho' := (owned_of hp c).mp ho
    refine (owned_of (hp.train_at hq t') c).mpr ⟨ho'.1, ho'.2.1, ?_⟩
    intro q' hq' t2 ht2
    change (h1.trains.set q t')[q']? = _ at ht2
    rw [List.getElem?_set] at ht2
    split at ht2
    · split at ht2
      · cases ht2; exact htc'
      · cases ht2
    · exact ho'.2.2 q' hq' t2 ht2
  · intro p' P hP
    have := hc.par p' P hP
    rw [params_iff] at this ⊢
    exact this
  · intro p' v' hv' hf hor
    obtain ⟨hf1, hne, hdis⟩ := hc.iso p' v' hv' hf hor
    obtain ⟨nd', b', qs', hp'⟩ := (hc.keep p' v' hv').parts
    have hf2 := (foreign_of hp' c).mp hf1
    have hnq : q ∉ qs' := fun hm => hf2.2.2 q hm t ht htc
    have hp2 := hp'.train_other hnq t'
    refine ⟨hp2.handle, (foreign_of hp2 c).mpr ⟨hf2.1, hf2.2.1, ?_⟩⟩
    intro q' hq' t2 ht2
    have hne : q ≠ q' := fun e => hnq (e ▸ hq')
    change (h1.trains.set q t')[q']? = _ at ht2
    rw [List.getElem?_set_ne hne] at ht2
    exact hf2.2.2 q' hq' t2 ht2

/-! ### Reading through a handle -/

theorem trainOf_run {h : Heap F} {p : Ptr} {v : View F} (hv : Handle h p v) (i : Int) :
    (∃ t, 0 ≤ i ∧ v.train[i.toNat]? = some (slot t) ∧ trainOf p i h = .ok (t, h)) ∨
    (¬ (0 ≤ i ∧ i < v.train.length) ∧ trainOf p i h = .error .index) := by
  obtain ⟨nd, b, qs, hp⟩ := hv.parts
  have hlen := hp.len
  unfold trainOf
  by_cases hi : 0 ≤ i ∧ i < v.train.length
  · left
    obtain ⟨q, hq⟩ : ∃ q, qs[i.toNat]? = some q := ⟨_, List.getElem?_eq_getElem (by omega)⟩
    obtain ⟨t, ht, hvt⟩ := hp.slot_at hq
    refine ⟨t, hi.1, hvt, ?_⟩
    rw [M.bind_ok (node_ok hp.node)]
    have : trainPtr nd.train i h = .ok (q, h) := by
      have := readCell_ok_of hp.ptrs hq
      rw [Int.toNat_of_nonneg hi.1] at this
      unfold trainPtr; rw [this]; rfl
    rw [M.bind_ok this]
    exact train_ok ht
  · right
    refine ⟨hi, ?_⟩
    rw [M.bind_ok (node_ok hp.node)]
    have : trainPtr nd.train i h = .error .index := by
      unfold trainPtr; rw [readCell_of hp.ptrs, dif_neg (by omega)]; rfl
    rw [M.bind_error this]

theorem baseOf_run {h : Heap F} {p : Ptr} {v : View F} (hv : Handle h p v) :
    ∃ b, baseOf p h = .ok (b, h) ∧ baseParams h.floats b = some v.params := by
  obtain ⟨nd, b, qs, hp⟩ := hv.parts
  refine ⟨b, ?_, hp.par⟩
  unfold baseOf
  rw [M.bind_ok (node_ok hp.node)]
  exact base_ok hp.base

theorem ownTrain_out {h : Heap F} {n : Ptr} {v : View F} (hv : Handle h n v) {i : Int} (c : Int)
    (hi : ¬ (0 ≤ i ∧ i < v.train.length)) : ownTrain n c i h = .error .index := by
  obtain ⟨nd, b, qs, hp⟩ := hv.parts
  have hlen := hp.len
  unfold ownTrain
  rw [M.bind_ok (node_ok hp.node)]
  have : trainPtr nd.train i h = .error .index := by
    unfold trainPtr; rw [readCell_of hp.ptrs, dif_neg (by omega)]; rfl
  rw [M.bind_error this]

theorem baseParams_iff {fs : List (List F)} {b : BaseNode F} {P : Params F} : baseParams fs b = some P ↔
    readSlice fs b.weights = some P.weights ∧ readSlice fs b.mirrorWeights = some P.mirrorWeights ∧
    readSlice fs b.adamAvgMom = some P.mom ∧ readSlice fs b.adamAvgVel = some P.vel ∧ readSlice fs b.t = some P.t ∧
    b.nodeType = P.nodeType ∧ b.currentBatchsize = P.batch ∧ b.idInLayer = P.id ∧ b.bias = P.bias ∧
    b.mirrorBias = P.mirrorBias ∧ b.tBias = P.tBias ∧ b.adamAvgMomBias = P.momBias ∧ b.adamAvgVelBias = P.velBias := by
  unfold baseParams
  constructor
  · intro h
    split at h
    · rename_i w mw m v t h1 h2 h3 h4 h5
      cases h
      exact ⟨h1, h2, h3, h4, h5, rfl, rfl, rfl, rfl, rfl, rfl, rfl, rfl⟩
    · cases h
  · rintro ⟨h1, h2, h3, h4, h5, h6, h7, h8, h9, h10, h11, h12, h13⟩
    rw [h1, h2, h3, h4, h5]
    dsimp only
    rw [h6, h7, h8, h9, h10, h11, h12, h13]

theorem float_run {h : Heap F} {s : Slice} {l : List F} (hs : readSlice h.floats s = some l) (i : Int) :
    float s i h = if hi : 0 ≤ i ∧ i < l.length then .ok (l[i.toNat]'(by omega), h) else .error .index := by
  unfold float
  rw [readCell_of hs]
  split <;> rfl

/-- The loop of `GetActivation` when every feature has a weight. -/
theorem weightedSum_run {h : Heap F} {s : Slice} {l : List F} (hs : readSlice h.floats s = some l)
    (data : List (Pair F)) (acc : F) (hd : ∀ x ∈ data, 0 ≤ x.Index ∧ x.Index < l.length) :
    weightedSum s acc data h = .ok (data.foldl (fun acc x =>
      GoFloat.add acc (GoFloat.mul ((l[x.Index.toNat]?).getD GoFloat.zero) x.Value)) acc, h) := by
  induction data generalizing acc with
  | nil => rfl
  | cons x data ih =>
    rw [weightedSum]
    have hx := hd x (by simp)
    have : float s x.Index h = .ok ((l[x.Index.toNat]?).getD GoFloat.zero, h) := by
      rw [float_run hs, dif_pos hx, List.getElem?_eq_getElem (by omega)]; rfl
    rw [M.bind_ok this]
    exact ih _ (fun y hy => hd y (by simp [hy]))

theorem weightedSum_out {h : Heap F} {s : Slice} {l : List F} (hs : readSlice h.floats s = some l)
    (data : List (Pair F)) (acc : F) (hd : ¬ ∀ x ∈ data, 0 ≤ x.Index ∧ x.Index < l.length) :
    weightedSum s acc data h = .error .index := by
  induction data generalizing acc with
  | nil => exact absurd (by simp) hd
  | cons x data ih =>
    rw [weightedSum]
    by_cases hx : 0 ≤ x.Index ∧ x.Index < l.length
    · have : float s x.Index h = .ok ((l[x.Index.toNat]?).getD GoFloat.zero, h) := by
        rw [float_run hs, dif_pos hx, List.getElem?_eq_getElem (by omega)]; rfl
      rw [M.bind_ok this]
      apply ih
      intro hall
      exact hd (fun y hy => by
        rcases List.mem_cons.mp hy with rfl | hy
        · exact hx
        · exact hall y hy)
    · have : float s x.Index h = .error .index := by rw [float_run hs, dif_neg hx]
      rw [M.bind_error this]

end Goslide.Node
