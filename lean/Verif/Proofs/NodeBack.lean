import Verif.Proofs.NodeGroup
/-
Back-propagation in terms of observations.
-/
set_option linter.unusedSectionVars false
namespace Goslide.Node
open Spec.Node Configuration
variable {F : Type} [GoFloat F]

theorem Op.refl {h : Heap F} {p : Ptr} {c : Int} {v : View F} (hv : Handle h p v) : Op h h p p c v :=
  ⟨hv, fun _ v' hv' => ⟨v', hv'⟩, id, rfl, id, fun _ _ _ hne hs => ⟨fun _ _ _ _ h => ⟨h, fun _ _ => rfl⟩, hs, hne⟩,
    fun ho => ⟨rfl, ho⟩⟩

/-- `IncrementDelta` on an active node. -/
theorem incrementDelta_op {h : Heap F} {p : Ptr} {v : View F} (hv : Handle h p v) (c : Int) {i : Nat} {s : Slot F}
    (hs : v.train[i]? = some s) (ha : s.active = true) (x : F) :
    ∃ n h', incrementDelta p c i x h = .ok (n, h') ∧ Op h h' p n c { v with train := v.train.set i (bump x s) } := by
  obtain ⟨_, h1, h2⟩ := incrementDelta_run hv c hs x
  by_cases hle : GoFloat.le s.act GoFloat.zero = true
  · refine ⟨p, h, h1 ha hle, ?_⟩
    have : v.train.set i (bump x s) = v.train := by
      unfold bump; rw [if_pos hle]
      obtain ⟨hl, rfl⟩ := List.getElem?_eq_some_iff.mp hs
      exact List.set_getElem_self hl
    rw [this]; exact Op.refl hv
  · rw [Bool.not_eq_true] at hle
    obtain ⟨n, h', e, o⟩ := h2 ha hle
    refine ⟨n, h', e, ?_⟩
    have : bump x s = { s with delta := GoFloat.add s.delta x } := by
      unfold bump; rw [if_neg (by simp [hle])]
    rw [this]; exact o.toOp

theorem Parts.arrs {h : Heap F} {p : Ptr} {v : View F} {nd b qs} (hp : Parts h p v nd b qs) (a : List (List Ptr)) :
    Parts { h with nodeArrs := a } p v nd b qs :=
  ⟨hp.node, hp.base, hp.par, hp.ptrs, hp.slots, hp.nodup, hp.batch⟩

theorem handle_arrs {h : Heap F} {p : Ptr} {v : View F} (hv : Handle h p v) (a : List (List Ptr)) :
    Handle { h with nodeArrs := a } p v := ⟨hv.view, hv.batch, hv.nodup⟩

theorem _root_.Goslide.Spec.Node.Group.arrs {h : Heap F} {L : List Ptr} {vs : List (View F)} (g : Group h L vs) (a : List (List Ptr)) :
    Group { h with nodeArrs := a } L vs :=
  ⟨g.len, fun k p v h1 h2 => handle_arrs (g.handle k p v h1 h2) a, g.inner,
    fun j k p p' hjk h1 h2 => ⟨(g.sep j k p p' hjk h1 h2).cells, (g.sep j k p p' hjk h1 h2).slots⟩⟩

/-- `s[i] += x` on a vector of a node that `c` owns. -/
theorem addVec_run (k : Vec) {h : Heap F} {n : Ptr} {v : View F} {nd b qs} (hp : Parts h n v nd b qs) (hin : Inner h n)
    {c : Int} (hc : nd.cowId = c) {i : Nat} (hi : i < (k.get v.params).length) (x : F) :
    ∃ fs, addFloat (k.slice b) i x h = .ok ((), { h with floats := fs }) ∧
      Op h { h with floats := fs } n n c
        { v with params := k.put v.params ((k.get v.params).modify i (fun y => GoFloat.add y x)) } := by
  obtain ⟨fs, hw, hr2, _, _⟩ := setFloat_run (k.read hp.par) hi (GoFloat.add (k.get v.params)[i] x)
  have hset : (k.get v.params).modify i (fun y => GoFloat.add y x) =
      (k.get v.params).set i (GoFloat.add (k.get v.params)[i] x) :=
    (set_of_getElem? (List.getElem?_eq_getElem hi) (fun y => GoFloat.add y x)).symm
  refine ⟨fs, ?_, ?_⟩
  · unfold addFloat
    have : float (k.slice b) i h = .ok ((k.get v.params)[i], h) := by
      rw [float_run (k.read hp.par), dif_pos (by omega)]; rfl
    rw [M.bind_ok this]; exact hr2
  · rw [hset]
    exact (cow_vec hp.handle (cow_refl hp hc) hp (k.mem b) (k.read hp.par) hi hw (k.write hp hin hi hw) (k.put_batch _ _)).1

/-- Adding a gradient to a node that `c` owns. -/
theorem addGrad_run (cfg : Config F) {h : Heap F} {n : Ptr} {v : View F} {nd b qs} (hp : Parts h n v nd b qs)
    (hin : Inner h n) {c : Int} (hc : nd.cowId = c) {i : Nat} (hi : i < v.params.weights.length)
    (hti : cfg.UseAdam = true → i < v.params.t.length) (lr g : F) :
    ∃ fs, (if cfg.UseAdam then addFloat b.t i g else addFloat b.mirrorWeights i (GoFloat.mul lr g)) h =
        .ok ((), { h with floats := fs }) ∧
      Op h { h with floats := fs } n n c { v with params := addGrad cfg.UseAdam lr g i v.params } := by
  cases ha : cfg.UseAdam with
  | true =>
    obtain ⟨fs, h1, h2⟩ := addVec_run .t hp hin hc (hti ha) g
    refine ⟨fs, ?_, ?_⟩
    · rw [if_pos rfl]; exact h1
    · exact h2
  | false =>
    obtain ⟨fs, h1, h2⟩ := addVec_run .weights hp hin hc hi (GoFloat.mul lr g)
    refine ⟨fs, ?_, ?_⟩
    · rw [if_neg (by simp), (hin nd b hp.node hp.base).1]; exact h1
    · exact h2

theorem baseOf_of {h : Heap F} {n : Ptr} {v : View F} {nd b qs} (hp : Parts h n v nd b qs) : baseOf n h = .ok (b, h) := by
  unfold baseOf; rw [M.bind_ok (node_ok hp.node)]; exact base_ok hp.base

theorem trainPtr_of {h : Heap F} {n : Ptr} {v : View F} {nd b qs} (hp : Parts h n v nd b qs) {i : Nat} {q : Ptr}
    (hq : qs[i]? = some q) : trainPtr nd.train i h = .ok (q, h) := by
  unfold trainPtr; rw [readCell_ok_of hp.ptrs hq]; rfl

theorem getLastActivation_run {h : Heap F} {p : Ptr} {v : View F} (hv : Handle h p v) {i : Nat} {s : Slot F}
    (hs : v.train[i]? = some s) :
    getLastActivation p i h = .ok (if s.active then s.act else GoFloat.zero, h) := by
  have hlt := (List.getElem?_eq_some_iff.mp hs).1
  rcases trainOf_run hv i with ⟨t0, _, ht0, hr⟩ | ⟨h1, _⟩
  · rw [Int.toNat_natCast, hs] at ht0
    cases ht0
    unfold getLastActivation
    rw [M.bind_ok hr]
    cases ha : t0.activeinputIds
    · simp only [slot, ha]; rfl
    · simp only [slot, ha]; rfl
  · exact absurd ⟨by omega, by omega⟩ h1

theorem bump_act (x : F) (s : Slot F) : (bump x s).act = s.act := by unfold bump; split <;> rfl
theorem bump_active (x : F) (s : Slot F) : (bump x s).active = s.active := by unfold bump; split <;> rfl

/-- One iteration of the loop of `BackPropagate`. -/
theorem backPropStep_run (cfg : Config F) {h : Heap F} {n : Ptr} {ps rest : List Ptr} {w : View F} {vs ws : List (View F)}
    (g : Group h (n :: (ps ++ rest)) (w :: (vs ++ ws))) (hlen : ps.length = vs.length) {prevS : Slice}
    (hprev : readSlice h.nodeArrs prevS = some ps) {c : Int}
    {nd : Node} (hn : h.nodes[n]? = some nd) (hc : nd.cowId = c) {i : Nat} {s : Slot F} (hs : w.train[i]? = some s)
    (lr : F) (x : Pair F) (hr : Ready cfg.UseAdam w.params vs i [x]) :
    ∃ h' ps', backPropStep cfg c prevS lr i n nd.train x h = .ok ((), h') ∧
      Group h' (n :: (ps' ++ rest)) ({ w with params := (backStep cfg.UseAdam lr s.delta i (w.params, vs) x).1 } ::
        ((backStep cfg.UseAdam lr s.delta i (w.params, vs) x).2 ++ ws)) ∧
      ps'.length = (backStep cfg.UseAdam lr s.delta i (w.params, vs) x).2.length ∧
      readSlice h'.nodeArrs prevS = some ps' ∧ h'.nodes[n]? = some nd ∧
      (AllOwned h (n :: (ps ++ rest)) c → ps' = ps ∧ AllOwned h' (n :: (ps ++ rest)) c ∧ h'.nodeArrs = h.nodeArrs) := by
  obtain ⟨h0, hw, ht, v, sv, hv, hsv, hact⟩ := hr x (by simp)
  obtain ⟨k, hk⟩ := Int.eq_ofNat_of_zero_le h0
  rw [hk] at hw ht hv
  rw [Int.toNat_natCast] at hv
  have hkvs : k < vs.length := (List.getElem?_eq_some_iff.mp hv).1
  have hkps : k < ps.length := by omega
  have hp0 : ps[k]? = some ps[k] := List.getElem?_eq_getElem hkps
  have hp0' : (n :: (ps ++ rest))[k + 1]? = some ps[k] := by
    rw [List.getElem?_cons_succ, List.getElem?_append_left hkps, hp0]
  have hv' : (w :: (vs ++ ws))[k + 1]? = some v := by
    rw [List.getElem?_cons_succ, List.getElem?_append_left hkvs, hv]
  have hH := g.handle (k + 1) ps[k] v hp0' hv'
  obtain ⟨nd1, b, qs, hp⟩ := (g.handle 0 n w rfl rfl).parts
  have e := hp.node; rw [hn] at e; cases e
  have hlti : i < qs.length := by rw [← hp.len]; exact (List.getElem?_eq_some_iff.mp hs).1
  obtain ⟨q, hq⟩ : ∃ q, qs[i]? = some q := ⟨_, List.getElem?_eq_getElem hlti⟩
  obtain ⟨t, htq, hvt⟩ := hp.slot_at hq
  rw [hs] at hvt; cases hvt
  -- the delta of the previous node
  obtain ⟨m, h1, hi1, hop⟩ := incrementDelta_op hH c hsv hact
    (GoFloat.mul t.lastDeltaforBPs ((w.params.weights[k]?).getD GoFloat.zero))
  obtain ⟨g1, hkeep⟩ := g.op hp0' hv' hop
  obtain ⟨hp1, htr1⟩ := hkeep 0 n (by omega) rfl _ _ _ _ hp
  rw [List.set_cons_succ, List.set_cons_succ, List.set_append_left _ _ hkps, List.set_append_left _ _ hkvs] at g1
  obtain ⟨arrs, hw1, _, _, _, hrd, _, hsame⟩ := writeCell_of hprev k m hkps
  have hw1' : writeCell h1.nodeArrs prevS k m = .ok arrs := by rw [hop.nodeArrs]; exact hw1
  have g2 := g1.arrs arrs
  have hp2 := hp1.arrs arrs
  -- the gradient
  obtain ⟨fs, hf1, hf2⟩ := addGrad_run cfg hp2 (g2.inner n (by simp)) hc (i := k) (by omega) (fun ha => by have := ht ha; omega) lr
    (GoFloat.mul t.lastDeltaforBPs sv.act)
  obtain ⟨g3, hk3⟩ := g2.op (k := 0) rfl rfl hf2
  rw [List.set_cons_zero, List.set_cons_zero] at g3
  have hla : lastAct vs k i = sv.act := by unfold lastAct; rw [hv]; dsimp only; rw [hsv]
  have e2 : (backStep cfg.UseAdam lr (slot t).delta i (w.params, vs) x).2 =
      vs.set k { v with train := v.train.set i (bump (GoFloat.mul t.lastDeltaforBPs ((w.params.weights[k]?).getD GoFloat.zero)) sv) } := by
    unfold backStep
    rw [hk, Int.toNat_natCast]
    dsimp only
    rw [← set_of_getElem? hv, View.setSlot, ← set_of_getElem? hsv]
    rfl
  have e1 : (backStep cfg.UseAdam lr (slot t).delta i (w.params, vs) x).1 =
      addGrad cfg.UseAdam lr (GoFloat.mul t.lastDeltaforBPs sv.act) k w.params := by
    unfold backStep
    rw [hk, Int.toNat_natCast]
    dsimp only
    rw [hla]; rfl
  refine ⟨{ h1 with nodeArrs := arrs, floats := fs }, ps.set k m, ?_, ?_, ?_, hrd, hp1.node, ?_⟩
  rotate_left
  · rw [e1, e2]
    exact g3
  · rw [e2]; simp [hlen]
  · intro ho
    obtain ⟨hmp, e2, o1⟩ := g.op_owned hp0' hv' hop ho
    rw [List.set_cons_succ, List.set_append_left _ _ hkps] at e2
    have e2 : ps.set k m = ps := by
      injection e2 with _ e2; exact List.append_cancel_right e2
    refine ⟨e2, ?_, ?_⟩
    · have o2 : AllOwned { h1 with nodeArrs := arrs } (n :: (ps ++ rest)) c := o1
      have g2' := g2
      rw [e2] at g2'
      exact (g2'.op_owned (k := 0) rfl rfl hf2 o2).2.2
    · show arrs = h.nodeArrs
      exact hsame (by rw [hmp]; exact hp0)
  · have hm : Handle { h1 with nodeArrs := arrs } m { v with train := v.train.set i (bump (GoFloat.mul t.lastDeltaforBPs ((w.params.weights[k]?).getD GoFloat.zero)) sv) } :=
      handle_arrs hop.result arrs
    have hsl : ({ v with train := v.train.set i (bump (GoFloat.mul t.lastDeltaforBPs ((w.params.weights[k]?).getD GoFloat.zero)) sv) } : View F).train[i]? =
        some (bump (GoFloat.mul t.lastDeltaforBPs ((w.params.weights[k]?).getD GoFloat.zero)) sv) := by
      show (v.train.set i _)[i]? = _
      rw [List.getElem?_set_self (List.getElem?_eq_some_iff.mp hsv).1]
    have hga := getLastActivation_run hm hsl
    rw [bump_active, hact, if_pos rfl, bump_act] at hga
    have a1 : nodePtr prevS (k : Int) h = .ok (ps[k], h) := by
      unfold nodePtr; rw [readCell_ok_of hprev hp0]; rfl
    have a2 : float b.weights (k : Int) h = .ok ((w.params.weights[k]?).getD GoFloat.zero, h) := by
      rw [float_run (baseParams_iff.mp hp.par).1, dif_pos ⟨by omega, by omega⟩, List.getElem?_eq_getElem (by omega)]; rfl
    have a3 : setNodePtr prevS (k : Int) m h1 = .ok ((), { h1 with nodeArrs := arrs }) := by
      unfold setNodePtr; rw [hw1']; rfl
    have htq2 : ({ h1 with nodeArrs := arrs } : Heap F).trains[q]? = some t :=
      (htr1 q (List.mem_of_getElem? hq)).trans htq
    unfold backPropStep
    rw [hk, M.bind_ok a1, M.bind_ok (trainPtr_of hp hq), M.bind_ok (train_ok htq), M.bind_ok (baseOf_of hp),
      M.bind_ok a2, M.bind_ok hi1, M.bind_ok a3, M.bind_ok (trainPtr_of hp2 hq), M.bind_ok (train_ok htq2),
      M.bind_ok hga, M.bind_ok (baseOf_of hp2)]
    exact hf1

theorem forM_cons {S α : Type} (f : α → M S Unit) (x : α) (l : List α) :
    (x :: l).forM f = (f x >>= fun _ => l.forM f) := rfl

theorem addGrad_weights_length (adam : Bool) (lr g : F) (k : Nat) (P : Params F) :
    (addGrad adam lr g k P).weights.length = P.weights.length := by
  unfold addGrad; split <;> simp
theorem addGrad_t_length (adam : Bool) (lr g : F) (k : Nat) (P : Params F) :
    (addGrad adam lr g k P).t.length = P.t.length := by
  unfold addGrad; split <;> simp
theorem addGrad_batch (adam : Bool) (lr g : F) (k : Nat) (P : Params F) :
    (addGrad adam lr g k P).batch = P.batch := by
  unfold addGrad; split <;> rfl

theorem modify_self {α : Type} {l : List α} {i : Nat} {a : α} (h : l[i]? = some a) (f : α → α) :
    (l.modify i f)[i]? = some (f a) := by
  rw [List.getElem?_modify, h]; simp
theorem modify_ne {α : Type} {l : List α} {i j : Nat} (h : i ≠ j) (f : α → α) : (l.modify i f)[j]? = l[j]? := by
  rw [List.getElem?_modify]
  cases l[j]? <;> simp [h]

/-- The other requirements survive an iteration. -/
theorem ready_step {adam : Bool} {P : Params F} {vs : List (View F)} {i : Nat} {x : Pair F} {l : List (Pair F)}
    (h : Ready adam P vs i (x :: l)) (lr d : F) :
    Ready adam (backStep adam lr d i (P, vs) x).1 (backStep adam lr d i (P, vs) x).2 i l := by
  intro y hy
  obtain ⟨h1, h2, h3, v, s, h4, h5, h6⟩ := h y (by simp [hy])
  unfold backStep
  dsimp only
  refine ⟨h1, by rw [addGrad_weights_length]; exact h2, fun ha => by rw [addGrad_t_length]; exact h3 ha, ?_⟩
  by_cases he : x.Index.toNat = y.Index.toNat
  · rw [he, modify_self h4]
    refine ⟨_, bump (GoFloat.mul d ((P.weights[y.Index.toNat]?).getD GoFloat.zero)) s, rfl, ?_, by rw [bump_active]; exact h6⟩
    exact modify_self h5 _
  · rw [modify_ne he]
    exact ⟨v, s, h4, h5, h6⟩

/-- The loop of `BackPropagate`. -/
theorem backPropLoop_run (cfg : Config F) {n : Ptr} {rest : List Ptr} {ws : List (View F)}
    {prevS : Slice} {c : Int} {nd : Node} (hc : nd.cowId = c) {i : Nat} {s : Slot F} (lr : F) (l : List (Pair F)) :
    ∀ {h : Heap F} {ps : List Ptr} {w : View F} {vs : List (View F)},
    Group h (n :: (ps ++ rest)) (w :: (vs ++ ws)) → ps.length = vs.length →
    readSlice h.nodeArrs prevS = some ps → h.nodes[n]? = some nd → w.train[i]? = some s →
    Ready cfg.UseAdam w.params vs i l →
    ∃ h' ps', l.forM (backPropStep cfg c prevS lr i n nd.train) h = .ok ((), h') ∧
      Group h' (n :: (ps' ++ rest)) ({ w with params := (l.foldl (backStep cfg.UseAdam lr s.delta i) (w.params, vs)).1 } ::
        ((l.foldl (backStep cfg.UseAdam lr s.delta i) (w.params, vs)).2 ++ ws)) ∧
      ps'.length = (l.foldl (backStep cfg.UseAdam lr s.delta i) (w.params, vs)).2.length ∧
      readSlice h'.nodeArrs prevS = some ps' ∧ h'.nodes[n]? = some nd ∧
      (AllOwned h (n :: (ps ++ rest)) c → ps' = ps ∧ AllOwned h' (n :: (ps ++ rest)) c ∧ h'.nodeArrs = h.nodeArrs) := by
  induction l with
  | nil =>
    intro h ps w vs g hlen hprev hn hs hr
    exact ⟨h, ps, rfl, g, hlen, hprev, hn, fun ho => ⟨rfl, ho, rfl⟩⟩
  | cons x l ih =>
    intro h ps w vs g hlen hprev hn hs hr
    obtain ⟨h1, ps1, r1, g1, l1, p1, n1, o1⟩ := backPropStep_run cfg g hlen hprev hn hc hs lr x
      (fun y hy => hr y (by simp only [List.mem_singleton] at hy; simp [hy]))
    obtain ⟨h2, ps2, r2, g2, l2, p2, n2, o2⟩ := ih g1 l1 p1 n1 hs (ready_step hr lr s.delta)
    refine ⟨h2, ps2, ?_, g2, l2, p2, n2, fun ho => ?_⟩
    · rw [forM_cons, M.bind_ok r1]; exact r2
    · obtain ⟨rfl, a1, b1⟩ := o1 ho
      obtain ⟨e, a2, b2⟩ := o2 a1
      exact ⟨e, a2, b2.trans b1⟩

/-- Scalars of the base changed in place. -/
theorem scalar_op {h : Heap F} {n : Ptr} {v : View F} {nd b qs} (hp : Parts h n v nd b qs) (c : Int)
    (f : BaseNode F → BaseNode F) (g : Params F → Params F)
    (hfg : ∀ fs b P, baseParams fs b = some P → baseParams fs (f b) = some (g P))
    (hcow : ∀ b, (f b).cowId = b.cowId) (hvec : ∀ b, vecs (f b) = vecs b) (hbatch : ∀ P, (g P).batch = P.batch) :
    Op h (setBaseHeap h nd.base (f b)) n n c { v with params := g v.params } := by
  have hp2 := hp.setBase_at (hfg _ _ _ hp.par) (hbatch _)
  refine ⟨hp2.handle, ?_, id, rfl, ?_, ?_, ?_⟩
  · intro p' v' hv'
    obtain ⟨nd', b', qs', hp'⟩ := hv'.parts
    by_cases he : nd'.base = nd.base
    · have e := hp'.base
      rw [he, hp.base] at e; cases e
      have := hp'.setBase_at (hfg _ _ _ hp'.par) (hbatch _)
      rw [he] at this
      exact ⟨_, this.handle⟩
    · exact ⟨_, (hp'.setBase_other he (f b)).handle⟩
  · intro hin n' b' hn hb'
    rw [hp2.node] at hn; cases hn
    rw [hp2.base] at hb'; cases hb'
    have := hin nd b hp.node hp.base
    have hv' := hvec b
    simp only [vecs, List.cons.injEq, and_true] at hv'
    obtain ⟨e1, e2, e3, e4, e5⟩ := hv'
    rw [e1, e2, e3, e4, e5]; exact this
  · intro p' v' hv' hne hs
    obtain ⟨nd', b', qs', hp'⟩ := hv'.parts
    obtain ⟨s1, s2, s3, s4⟩ := (sep_of hp hp').mp hs
    refine ⟨(fun v2 nd2 b2 qs2 h2 => ?_), ?_, hne⟩
    · have e := h2.node
      rw [hp'.node] at e; cases e
      exact ⟨h2.setBase_other (Ne.symm s2) (f b), fun _ _ => rfl⟩
    · rw [sep_of hp2 (hp'.setBase_other (Ne.symm s2) (f b)), hvec]
      exact ⟨s1, s2, s3, s4⟩
  · intro ho
    have ho' := (owned_of hp c).mp ho
    exact ⟨rfl, (owned_of hp2 c).mpr ⟨ho'.1, by rw [hcow]; exact ho'.2.1, ho'.2.2⟩⟩

/-- A training state changed in place. -/
theorem train_op {h : Heap F} {n q : Ptr} {v : View F} {nd b qs} (hp : Parts h n v nd b qs) (c : Int) {i : Nat}
    {t t' : NodeTrain F} (hq : qs[i]? = some q) (ht : h.trains[q]? = some t) (htc : t'.cowId = t.cowId) :
    Op h (trainHeap h q t') n n c { v with train := v.train.set i (slot t') } := by
  refine ⟨(hp.train_at hq t').handle, fun p' v' hv' => trainHeap_wf hv' q t', id, rfl, id, ?_, ?_⟩
  · intro p' v' hv' hne hs
    obtain ⟨nd', b', qs', hp'⟩ := hv'.parts
    obtain ⟨s1, s2, s3, s4⟩ := (sep_of hp hp').mp hs
    have hnq := s4 q (List.mem_of_getElem? hq)
    refine ⟨(fun v2 nd2 b2 qs2 h2 => ?_), ?_, hne⟩
    · have e := h2.node
      rw [hp'.node] at e; cases e
      have e := h2.ptrs
      rw [hp'.ptrs] at e; cases e
      refine ⟨h2.train_other hnq t', fun q' hq' => ?_⟩
      show (h.trains.set q t')[q']? = _
      rw [List.getElem?_set_ne (fun e => hnq (by rw [e]; exact hq'))]
    · rw [sep_of (hp.train_at hq t') (hp'.train_other hnq t')]
      exact ⟨s1, s2, s3, s4⟩
  · intro ho
    refine ⟨rfl, ?_⟩
    have ho' := (owned_of hp c).mp ho
    refine (owned_of (hp.train_at hq t') c).mpr ⟨ho'.1, ho'.2.1, ?_⟩
    intro q' hq' t2 ht2
    change (h.trains.set q t')[q']? = _ at ht2
    rw [List.getElem?_set] at ht2
    split at ht2
    · split at ht2
      · cases ht2; rw [htc]; exact ho'.2.2 q (List.mem_of_getElem? hq) t ht
      · cases ht2
    · exact ho'.2.2 q' hq' t2 ht2

/-- The end of back-propagation. -/
theorem finishBackProp_run (cfg : Config F) {h : Heap F} {n q : Ptr} {v : View F} {nd b qs} (hp : Parts h n v nd b qs)
    (c : Int) {i : Nat} {s : Slot F} (hq : qs[i]? = some q) (hs : v.train[i]? = some s) (biasStep : F → F → F) :
    ∃ h', finishBackProp cfg n q biasStep h = .ok ((), h') ∧
      Op h h' n n c { params := biasGrad cfg.UseAdam biasStep s.delta v.params, train := v.train.set i idle } := by
  obtain ⟨t, ht, hvt⟩ := hp.slot_at hq
  rw [hs] at hvt; cases hvt
  have o1 := scalar_op hp c
    (fun b => if cfg.UseAdam then { b with tBias := GoFloat.add b.tBias t.lastDeltaforBPs }
      else { b with mirrorBias := biasStep b.mirrorBias t.lastDeltaforBPs })
    (biasGrad cfg.UseAdam biasStep t.lastDeltaforBPs)
    (by
      intro fs b P hP
      obtain ⟨h1, h2, h3, h4, h5, h6, h7, h8, h9, h10, h11, h12, h13⟩ := baseParams_iff.mp hP
      unfold biasGrad
      split
      · exact baseParams_iff.mpr ⟨h1, h2, h3, h4, h5, h6, h7, h8, h9, h10, by dsimp only; rw [h11], h12, h13⟩
      · exact baseParams_iff.mpr ⟨h1, h2, h3, h4, h5, h6, h7, h8, h9, by dsimp only; rw [h10], h11, h12, h13⟩)
    (by intro b; split <;> rfl) (by intro b; split <;> rfl)
    (by intro P; unfold biasGrad; split <;> rfl)
  obtain ⟨nd1, b1, qs1, hp1⟩ := o1.result.parts
  have e := hp1.node
  change h.nodes[n]? = _ at e
  rw [hp.node] at e; cases e
  have e := hp1.ptrs
  change readSlice h.trainArrs _ = _ at e
  rw [hp.ptrs] at e; cases e
  have o2 := train_op hp1 c (t' := { t with activeinputIds := false, lastDeltaforBPs := GoFloat.zero, lastActivations := GoFloat.zero }) hq ht rfl
  refine ⟨_, ?_, o1.trans o2⟩
  unfold finishBackProp
  rw [M.bind_ok (node_ok hp.node), M.bind_ok (base_ok hp.base), M.bind_ok (train_ok ht)]
  rfl

/-- Own the node, the training state and the base: the start of (first-layer) back-propagation. -/
theorem cow_back {h : Heap F} {p : Ptr} {v : View F} (hv : Handle h p v) (c : Int) {i : Nat} (hi : i < v.train.length) :
    ∃ n h0 q h1 bp h2 nd b qs, cloneIfNeeded p c h = .ok (n, h0) ∧ ownTrain n c i h0 = .ok (q, h1) ∧
      h1.nodes = h0.nodes ∧ ownBase n c h1 = .ok (bp, h2) ∧ Cow h h2 p n c ∧ Parts h2 n v nd b qs ∧ nd.cowId = c ∧
      qs[i]? = some q ∧ (∃ nd1, h1.nodes[n]? = some nd1 ∧ nd1.train = nd.train) := by
  obtain ⟨n, h0, hr0, hc0⟩ := cow_clone hv c
  obtain ⟨q, h1, hr1, hc1, qs, t, hqs, hq, ht, htc, hvt⟩ := cow_train hv hc0 hi
  obtain ⟨bp, h2, hr2, hc2, etr, esl, nd, b, e1, e2, e3, e4⟩ := cow_base hv hc1
  obtain ⟨nd', b', qs', hp⟩ := (hc2.new v hv).parts
  have e := hp.node; rw [e1] at e; cases e
  have hsl : slotPtrs h2 n = some qs := (esl n).trans hqs
  rw [slotPtrs_of hp.node, hp.ptrs] at hsl; cases hsl
  obtain ⟨nd1, b1, qs1, hp1⟩ := (hc1.new v hv).parts
  have hnode : h1.nodes = h0.nodes := by
    obtain ⟨nd0, b0, qs0, hp00⟩ := (hc0.new v hv).parts
    obtain ⟨q0, hq0⟩ : ∃ q, qs0[i]? = some q := ⟨_, List.getElem?_eq_getElem (hp00.len ▸ hi)⟩
    obtain ⟨t0, ht0, _⟩ := hp00.slot_at hq0
    rcases ownTrain_run hp00.node hp00.ptrs hq0 ht0 c with ⟨_, hr⟩ | ⟨_, arrs, _, hr⟩
    · rw [hr] at hr1; cases hr1; rfl
    · rw [hr] at hr1; cases hr1; rfl
  refine ⟨n, h0, q, h1, bp, h2, nd, b', qs, hr0, hr1, hnode, hr2, hc2, hp, hc2.owner nd e1, hq, nd1, hp1.node, ?_⟩
  rcases ownBase_run hp1.node hp1.base c with ⟨_, hr⟩ | ⟨_, hr⟩
  · rw [hr] at hr2; cases hr2
    rw [hp1.node] at e1; cases e1; rfl
  · rw [hr] at hr2; cases hr2
    have e := (hp1.base_new c).node
    change (h1.nodes.set n _)[n]? = _ at e1
    change (h1.nodes.set n _)[n]? = _ at e
    rw [e] at e1; cases e1; rfl

/-- `BackPropagate` of an active input. -/
theorem backPropagate_run (cfg : Config F) {h : Heap F} {p : Ptr} {ps rest : List Ptr} {v : View F} {vs ws : List (View F)}
    (g : Group h (p :: (ps ++ rest)) (v :: (vs ++ ws))) (hlen : ps.length = vs.length) {prevS : Slice}
    (hprev : readSlice h.nodeArrs prevS = some ps) (c : Int) {i : Nat} {s : Slot F} (hs : v.train[i]? = some s)
    (ha : s.active = true) (lr : F) (pairs : List (Pair F)) (hr : Ready cfg.UseAdam v.params vs i pairs) :
    ∃ n h' ps', backPropagate cfg p c prevS pairs lr i h = .ok (n, h') ∧
      Group h' (n :: (ps' ++ rest)) ((backProp cfg.UseAdam lr s.delta i v vs pairs).1 ::
        ((backProp cfg.UseAdam lr s.delta i v vs pairs).2 ++ ws)) ∧
      ps'.length = (backProp cfg.UseAdam lr s.delta i v vs pairs).2.length ∧
      readSlice h'.nodeArrs prevS = some ps' ∧
      (AllOwned h (p :: (ps ++ rest)) c → n = p ∧ ps' = ps ∧ AllOwned h' (p :: (ps ++ rest)) c ∧ h'.nodeArrs = h.nodeArrs) := by
  have hv := g.handle 0 p v rfl rfl
  have hlt := (List.getElem?_eq_some_iff.mp hs).1
  obtain ⟨n, h0, q, h1, bp, h2, nd, b, qs, r0, r1, en, r2, hc2, hp, hcow, hq, nd1, hn1, etr⟩ := cow_back hv c hlt
  have o1 := hc2.op hv
  obtain ⟨g2, _⟩ := g.op (k := 0) rfl rfl o1
  rw [List.set_cons_zero, List.set_cons_zero] at g2
  have hprev2 : readSlice h2.nodeArrs prevS = some ps := by rw [hc2.nodeArrs]; exact hprev
  obtain ⟨h3, ps3, r3, g3, l3, p3, n3, o3⟩ := backPropLoop_run cfg hcow lr pairs g2 hlen hprev2 hp.node hs hr
  obtain ⟨nd3, b3, qs3, hp3⟩ := (g3.handle 0 n _ rfl rfl).parts
  have e := hp3.node; rw [n3] at e; cases e
  have hlt3 : i < qs3.length := by rw [← hp3.len]; exact hlt
  obtain ⟨q3, hq3⟩ : ∃ q, qs3[i]? = some q := ⟨_, List.getElem?_eq_getElem hlt3⟩
  obtain ⟨h4, r4, o4⟩ := finishBackProp_run cfg hp3 c hq3 hs (fun m d => GoFloat.add m (GoFloat.mul lr d))
  obtain ⟨g4, _⟩ := g3.op (k := 0) rfl rfl o4
  rw [List.set_cons_zero, List.set_cons_zero] at g4
  refine ⟨n, h4, ps3, ?_, g4, l3, ?_, fun ho => ?_⟩
  · rcases trainOf_run hv i with ⟨t0, _, ht0, hr0⟩ | ⟨hx, _⟩
    · rw [Int.toNat_natCast, hs] at ht0
      cases ht0
      change t0.activeinputIds = true at ha
      unfold backPropagate
      rw [M.bind_ok hr0, if_neg (by simp [ha]), M.bind_ok r0, M.bind_ok r1, M.bind_ok (node_ok hn1), M.bind_ok r2, etr,
        M.bind_ok r3, M.bind_ok (trainPtr_of hp3 hq3), M.bind_ok r4]
      rfl
    · exact absurd ⟨by omega, by omega⟩ hx
  · rw [o4.nodeArrs]; exact p3
  · obtain ⟨rfl, _, a1⟩ := g.op_owned (k := 0) rfl rfl o1 ho
    obtain ⟨rfl, a3, b3⟩ := o3 a1
    refine ⟨rfl, rfl, ?_, ?_⟩
    · exact (g3.op_owned (k := 0) rfl rfl o4 a3).2.2
    · rw [o4.nodeArrs, b3, hc2.nodeArrs]

/-- The loop of `BackPropagateFirstLayer`. -/
theorem firstLayerLoop_run (cfg : Config F) {n q : Ptr} {c : Int} {nd : Node} {b : BaseNode F} {qs : List Ptr}
    {t : NodeTrain F} (hc : nd.cowId = c) (lr : F) (l : List (Pair F)) :
    ∀ {h : Heap F} {w : View F}, Parts h n w nd b qs → Inner h n → h.trains[q]? = some t →
    (∀ x ∈ l, 0 ≤ x.Index ∧ x.Index < w.params.weights.length ∧ (cfg.UseAdam = true → x.Index < w.params.t.length)) →
    ∃ h', l.forM (firstLayerStep cfg lr n q) h = .ok ((), h') ∧
      Parts h' n { w with params := firstGrads cfg.UseAdam lr t.lastDeltaforBPs w.params l } nd b qs ∧
      Op h h' n n c { w with params := firstGrads cfg.UseAdam lr t.lastDeltaforBPs w.params l } := by
  induction l with
  | nil =>
    intro h w hp hin ht hr
    exact ⟨h, rfl, hp, Op.refl hp.handle⟩
  | cons x l ih =>
    intro h w hp hin ht hr
    obtain ⟨x0, x1, x2⟩ := hr x (by simp)
    obtain ⟨k, hk⟩ := Int.eq_ofNat_of_zero_le x0
    obtain ⟨fs, r1, o1⟩ := addGrad_run cfg hp hin hc (i := k) (by omega) (fun ha => by have := x2 ha; omega) lr
      (GoFloat.mul t.lastDeltaforBPs x.Value)
    obtain ⟨nd1, b1, qs1, hp1⟩ := o1.result.parts
    have e := hp1.node
    change h.nodes[n]? = _ at e
    rw [hp.node] at e; cases e
    have e := hp1.base
    change h.bases[_]? = _ at e
    rw [hp.base] at e; cases e
    have e := hp1.ptrs
    change readSlice h.trainArrs _ = _ at e
    rw [hp.ptrs] at e; cases e
    obtain ⟨h2, r2, n2, o2⟩ := ih hp1 (o1.inner hin) ht (fun y hy => by
      have := hr y (by simp [hy])
      dsimp only
      rw [addGrad_weights_length, addGrad_t_length]; exact this)
    refine ⟨h2, ?_, ?_, ?_⟩
    · have : firstLayerStep cfg lr n q x h = .ok ((), { h with floats := fs }) := by
        unfold firstLayerStep
        rw [M.bind_ok (train_ok ht), M.bind_ok (baseOf_of hp), hk]
        exact r1
      rw [forM_cons, M.bind_ok this]; exact r2
    · unfold firstGrads at *
      rw [List.foldl_cons, hk, Int.toNat_natCast]
      exact n2
    · have := o1.trans o2
      unfold firstGrads at *
      rw [List.foldl_cons, hk, Int.toNat_natCast]
      exact this

/-- `BackPropagateFirstLayer` of an active input. -/
theorem backPropagateFirstLayer_run (cfg : Config F) {h : Heap F} {p : Ptr} {v : View F} (hv : Handle h p v)
    (hin : Inner h p) (c : Int) {i : Nat} {s : Slot F} (hs : v.train[i]? = some s)
    (ha : s.active = true) (lr : F) (pairs : List (Pair F))
    (hr : ∀ x ∈ pairs, 0 ≤ x.Index ∧ x.Index < v.params.weights.length ∧ (cfg.UseAdam = true → x.Index < v.params.t.length)) :
    ∃ n h', backPropagateFirstLayer cfg p c pairs lr i h = .ok (n, h') ∧
      Op h h' p n c (backPropFirst cfg.UseAdam lr s.delta i v pairs) := by
  have hlt := (List.getElem?_eq_some_iff.mp hs).1
  obtain ⟨n, h0, q, h1, bp, h2, nd, b, qs, r0, r1, en, r2, hc2, hp, hcow, hq, nd1, hn1, etr⟩ := cow_back hv c hlt
  have o1 := hc2.op hv
  obtain ⟨t, ht, hvt⟩ := hp.slot_at hq
  rw [hs] at hvt; cases hvt
  obtain ⟨h3, r3, n3, o3⟩ := firstLayerLoop_run cfg hcow lr pairs hp (o1.inner hin) ht hr
  obtain ⟨h4, r4, o4⟩ := finishBackProp_run cfg n3 c hq hs (fun m d => GoFloat.add m (GoFloat.add lr d))
  refine ⟨n, h4, ?_, (o1.trans o3).trans o4⟩
  rcases trainOf_run hv i with ⟨t0, _, ht0, hr0⟩ | ⟨hx, _⟩
  · rw [Int.toNat_natCast, hs] at ht0
    have ha0 : t0.activeinputIds = true := by
      injection ht0 with e
      have : (slot t).active = (slot t0).active := by rw [e]
      rw [ha] at this; exact this.symm
    unfold backPropagateFirstLayer
    rw [M.bind_ok hr0, if_neg (by simp [ha0]), M.bind_ok r0, M.bind_ok r1, M.bind_ok r2, M.bind_ok r3, M.bind_ok r4]
    rfl
  · exact absurd ⟨by omega, by omega⟩ hx

end Goslide.Node
