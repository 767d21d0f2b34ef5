import Verif.Proofs.LayerAct
import Verif.Proofs.LayerKeeps
import Verif.Model.Network
/-
The query of a layer that is part of a network.
-/
set_option linter.unusedSectionVars false
namespace Goslide.Layer
open Goslide Node Lsh Configuration Spec.Node Spec.Network
variable {F : Type} [GoFloat F]

/-- The computation changes nothing. -/
def Reads {S α : Type} (m : M S α) : Prop := ∀ s a s', m s = .ok (a, s') → s' = s

namespace Reads
variable {S α β : Type}
theorem pure (a : α) : Reads (Pure.pure a : M S α) := by intro s b s' h; cases h; rfl
theorem bind {m : M S α} {g : α → M S β} (hm : Reads m) (hg : ∀ a, Reads (g a)) : Reads (m >>= g) := by
  intro s a s' h
  obtain ⟨b, s1, h1, h2⟩ := M.bind_eq_ok h
  rw [hg b _ _ _ h2, hm _ _ _ h1]
theorem map {f : S → Go α} : Reads (fun s => (f s).map (fun x => (x, s))) := by
  intro s a s' h
  dsimp only at h
  cases e : f s with
  | error e' => rw [e] at h; cases h
  | ok b => rw [e] at h; cases h; rfl
end Reads

theorem reads_baseOf (p : Ptr) : Reads (baseOf p : NM F _) := Reads.bind Reads.map (fun _ => Reads.map)

theorem reads_floatsOf (s : Slice) : Reads (floatsOf s : NM F _) := by
  intro h a h' e
  unfold floatsOf at e
  split at e
  · cases e; rfl
  · cases e

theorem reads_nodeScores : ∀ l : List Ptr, Reads (nodeScores l : NM F _)
  | [] => Reads.pure _
  | p :: l => by
    unfold nodeScores
    exact Reads.bind (Reads.bind (reads_baseOf p) (fun _ => Reads.pure _)) (fun _ => Reads.bind (reads_floatsOf _) (fun _ =>
      Reads.bind (Reads.bind (reads_baseOf p) (fun _ => Reads.pure _)) (fun _ => Reads.bind (reads_nodeScores l) (fun _ => Reads.pure _))))

theorem reads_nodePtrsOf (s : Slice) : Reads (nodePtrsOf s : NM F _) := by
  intro h a h' e
  unfold nodePtrsOf at e
  split at e
  · cases e; rfl
  · cases e

/-- Everything but the random sources. -/
def fixed (w : World F) := (w.heap, w.ints, w.lshs, w.consts, w.layers, w.layerArrs, w.networks, w.norms, w.hashes)

theorem keeps_onHeap_reads {α : Type} {m : NM F α} (hm : Reads m) : Keeps fixed (onHeap m) := by
  intro w a w' h
  obtain ⟨h', e, rfl⟩ := onHeap_ok h
  rw [hm _ _ _ e]

theorem keeps_select (cfg : Config F) (fuel : Nat) (x : Layer) (cur : List (Pair F)) (label : List Int) (sp : F) :
    Keeps fixed (select cfg fuel x cur label sp) := by
  have hd : ∀ {α : Type} (f : Rng → Go (α × Rng)), Keeps (fixed (F := F)) (draw f) := fun f => Keeps.draw (fun _ _ => rfl)
  unfold select
  dsimp only
  refine Keeps.ite (Keeps.pure _) (Keeps.ite ?_ (Keeps.ite ?_ (Keeps.ite ?_ (Keeps.ite ?_ (Keeps.pure _)))))
  · refine Keeps.bind (Keeps.tables _) (fun _ => Keeps.bind (Keeps.lift _) (fun _ => Keeps.bind ?_ (fun _ => Keeps.pure _)))
    intro w a w' h; cases h; rfl
  · exact Keeps.ite (Keeps.bind (hd _) (fun _ => Keeps.pure _)) (Keeps.pure _)
  · exact Keeps.ite (Keeps.bind (keeps_onHeap_reads (reads_nodePtrsOf _)) (fun _ => Keeps.bind (keeps_onHeap_reads (reads_nodeScores _)) (fun _ =>
      Keeps.bind (Keeps.lift _) (fun _ => Keeps.pure _)))) (Keeps.pure _)
  · refine Keeps.bind (Keeps.tables _) (fun _ => Keeps.bind (Keeps.lift _) (fun _ => Keeps.bind ?_ (fun _ => Keeps.bind (hd _) (fun _ => Keeps.pure _))))
    intro w a w' h; rw [(intsOf_ok h).2]

/-- The selection only uses up random numbers. -/
theorem select_world {cfg : Config F} {fuel : Nat} {x : Layer} {cur : List (Pair F)} {label : List Int} {sp : F} {w w' : World F} {res}
    (h : select cfg fuel x cur label sp w = .ok (res, w')) : ∃ r r', w' = { w with rng := r, mapRng := r' } := by
  have := keeps_select cfg fuel x cur label sp w res w' h
  unfold fixed at this
  simp only [Prod.mk.injEq] at this
  obtain ⟨h1, h2, h3, h4, h5, h6, h7, h8, h9⟩ := this
  refine ⟨w'.rng, w'.mapRng, ?_⟩
  cases w'; cases w; simp_all

end Goslide.Layer

namespace Goslide.Network
open Goslide Node Lsh Configuration Spec.Node Spec.Network Layer
variable {F : Type} [GoFloat F]

theorem Layers.get {w : World F} {hidden : Slice} {Q : List (State F)} (L : Layers w hidden Q) {j : Nat} {g : State F} (hg : Q[j]? = some g) :
    Stored w g := L.stored g (List.mem_of_getElem? hg)

theorem pairwise_set {α : Type} {R : α → α → Prop} {l : List α} {j : Nat} {x y : α} (hp : l.Pairwise R) (hx : l[j]? = some x)
    (h1 : ∀ a ∈ l, R a x → R a y) (h2 : ∀ a ∈ l, R x a → R y a) : (l.set j y).Pairwise R := by
  rw [List.pairwise_iff_getElem] at hp ⊢
  obtain ⟨hj, rfl⟩ := List.getElem?_eq_some_iff.mp hx
  intro a b ha hb hab
  simp only [List.length_set] at ha hb
  rw [List.getElem_set, List.getElem_set]
  have := hp a b ha hb hab
  split
  · rw [if_neg (by omega)]
    subst_vars
    exact h2 _ (List.getElem_mem (by simpa using hb)) this
  · split
    · subst_vars
      exact h1 _ (List.getElem_mem (by simpa using ha)) this
    · exact this

/-- An index belongs to the set list. -/
theorem mem_set_iff' {α : Type} {l : List α} {j : Nat} {y z : α} (h : z ∈ l.set j y) : z = y ∨ ∃ k, k ≠ j ∧ l[k]? = some z := by
  obtain ⟨k, hk⟩ := List.mem_iff_getElem?.mp h
  rw [List.getElem?_set] at hk
  split at hk
  · split at hk
    · exact Or.inl (Option.some.inj hk).symm
    · cases hk
  · exact Or.inr ⟨k, by omega, hk⟩

theorem apart_get {Q : List (State F)} (hp : Q.Pairwise (fun a b => Apart a b ∧ Apart b a)) {j k : Nat} {a b : State F} (hjk : j ≠ k)
    (ha : Q[j]? = some a) (hb : Q[k]? = some b) : Apart a b := by
  rw [List.pairwise_iff_getElem] at hp
  obtain ⟨hj, rfl⟩ := List.getElem?_eq_some_iff.mp ha
  obtain ⟨hk, rfl⟩ := List.getElem?_eq_some_iff.mp hb
  rcases Nat.lt_or_gt_of_ne hjk with h | h
  · exact (hp j k hj hk h).1
  · exact (hp k j hk hj h).2

theorem setLayerPtr_run {w : World F} {hidden : Slice} {P : List Ptr} (hp : readSlice w.layerArrs hidden = some P) {j : Nat} (hj : j < P.length) (l : Ptr) :
    ∃ a, setLayerPtr hidden j l w = .ok ((), { w with layerArrs := a }) ∧ readSlice a hidden = some (P.set j l) ∧
      (∀ s : Slice, hidden.Disjoint s → readSlice a s = readSlice w.layerArrs s) ∧ (P[j]? = some l → a = w.layerArrs) := by
  obtain ⟨a, e, -, -, -, h1, h2, h3⟩ := writeCell_of hp j l hj
  exact ⟨a, by unfold setLayerPtr; rw [e]; rfl, h1, h2, h3⟩

theorem layerPtr_run {w : World F} {hidden : Slice} {P : List Ptr} (hp : readSlice w.layerArrs hidden = some P) {j : Nat} {p : Ptr} (hj : P[j]? = some p) :
    layerPtr hidden j w = .ok (p, w) := by
  unfold layerPtr; rw [readCell_ok_of hp hj]; rfl

/-- What a forward step of one layer leaves of the memory. -/
structure After (w w' : World F) (Q Q' : List (State F)) (c : Int) : Prop where
  networks : w'.networks = w.networks
  lshs : w'.lshs = w.lshs
  ints : w'.ints = w.ints
  norms : w'.norms = w.norms
  hashes : w'.hashes = w.hashes
  floats : w'.heap.floats = w.heap.floats
  layers : ∃ ext, w'.layers = w.layers ++ ext
  owned : OwnedBy w Q c → OwnedBy w' Q' c ∧ Q'.map State.ptr = Q.map State.ptr ∧ Q'.map State.obj = Q.map State.obj ∧
    Q'.map (fun g => g.nodes.map Prod.fst) = Q.map (fun g => g.nodes.map Prod.fst) ∧
    w'.layers = w.layers ∧ w'.layerArrs = w.layerArrs ∧ w'.heap.nodeArrs = w.heap.nodeArrs

theorem After.refl (w : World F) (Q : List (State F)) (c : Int) : After w w Q Q c :=
  ⟨rfl, rfl, rfl, rfl, rfl, rfl, ⟨[], by simp⟩, fun h => ⟨h, rfl, rfl, rfl, rfl, rfl, rfl⟩⟩

theorem After.trans {w w1 w2 : World F} {Q Q1 Q2 : List (State F)} {c : Int} (a : After w w1 Q Q1 c) (b : After w1 w2 Q1 Q2 c) :
    After w w2 Q Q2 c := by
  obtain ⟨a1, a2, a3, a4, a5, a6, ⟨e1, a7⟩, a8⟩ := a
  obtain ⟨b1, b2, b3, b4, b5, b6, ⟨e2, b7⟩, b8⟩ := b
  refine ⟨b1.trans a1, b2.trans a2, b3.trans a3, b4.trans a4, b5.trans a5, b6.trans a6, ⟨e1 ++ e2, by rw [b7, a7, List.append_assoc]⟩, fun o => ?_⟩
  obtain ⟨o1, p1, q1, r1, s1, t1, u1⟩ := a8 o
  obtain ⟨o2, p2, q2, r2, s2, t2, u2⟩ := b8 o1
  exact ⟨o2, p2.trans p1, q2.trans q1, r2.trans r1, s2.trans s1, t2.trans t1, u2.trans u1⟩

theorem map_set_self {α β : Type} {l : List α} {j : Nat} {x y : α} (hx : l[j]? = some x) {f : α → β} (h : f y = f x) : (l.set j y).map f = l.map f := by
  rw [List.map_set, h]
  apply List.ext_getElem?
  intro k
  rw [List.getElem?_set]
  split
  · next e =>
    subst e
    obtain ⟨hl, rfl⟩ := List.getElem?_eq_some_iff.mp hx
    simp [hl]
  · rfl

/-- The selection of a query on the layer `g` for `c` in the memory `w`. -/
def Selects (cfg : Config F) (fuel : Nat) (g : State F) (c : Int) (cur : List (Pair F)) (label : List Int) (sp : F) (w : World F)
    (found : Int) (ids : List Int) : Prop :=
  ∃ ids' w', select cfg fuel { g.obj with cowId := c } cur label sp (cloned w g.ptr g.obj c).2 = .ok ((found, ids'), w') ∧ ids = ids'.getD []

/-- The layer after a query. -/
def _root_.Goslide.Layer.State.next (g : State F) (l : Ptr) (c : Int) (z' : List (Ptr × View F)) (i : Nat) (cur : List (Pair F)) (ids : List Int) : State F :=
  { g with
    ptr := l
    obj := { g.obj with cowId := c }
    nodes := z'
    norm := if g.softmax then g.norm.set i (sum ((outputs g.softmax g.views cur ids).map Pair.Value)) else g.norm }

/-- A query whose selected nodes fit. -/
theorem query_run {cfg : Config F} {fuel : Nat} {w : World F} {hidden : Slice} {Q : List (State F)} {j : Nat} {g : State F} {c : Int}
    {cur : List (Pair F)} {i : Nat} {label : List Int} {sp : F} {found : Int} {ids : List Int}
    (L : Layers w hidden Q) (hg : Q[j]? = some g) (hs : Selects cfg fuel g c cur label sp w found ids) (hc : CanFire i g.views cur ids)
    (hf : g.softmax = true → i < g.norm.length) :
    ∃ g' w1 w2, query cfg fuel g.ptr c cur i label sp w = .ok ((found, outputs g.softmax g.views cur ids, g'.ptr), w1) ∧
      setLayerPtr hidden j g'.ptr w1 = .ok ((), w2) ∧ Forwarded c i cur ids g g' ∧ Layers w2 hidden (Q.set j g') ∧
      After w w2 Q (Q.set j g') c := by
  obtain ⟨ids', w3, hsel, rfl⟩ := hs
  have S := L.get hg
  have hcl := cloned_layer S.obj c
  have hce := cloned_eq w g.ptr g.obj c
  have hrun := cloneIfNeeded_run S.obj c
  have hptr : ∀ k g2, k ≠ j → Q[k]? = some g2 → g2.ptr ≠ (cloned w g.ptr g.obj c).1 := by
    intro k g2 hk h2 e
    unfold cloned at e
    split at e
    · have := (L.get h2).obj
      rw [e] at this
      simp at this
    · exact (apart_get L.apart hk h2 hg).ptr e
  have hown : g.obj.cowId = c → cloned w g.ptr g.obj c = (g.ptr, w) := by
    intro e; unfold cloned; rw [if_neg (by omega)]
  generalize hq : cloned w g.ptr g.obj c = q at *
  obtain ⟨l, w0⟩ := q
  obtain ⟨ls, e0⟩ := hce
  dsimp only at e0 hcl hsel hptr
  obtain ⟨r, r', e3⟩ := select_world hsel
  subst e0 e3
  obtain ⟨R, hR1, hR2⟩ := flat_split hg State.nodes
  have hG := L.group.perm hR2
  obtain ⟨h', cs', z', ea, lo, ez, co⟩ := activations_run (w := { w with layers := w.layers ++ ls, rng := r, mapRng := r' })
    c (x := { g.obj with cowId := c }) cur (ids := ids'.getD []) (i := i) (R := R) (z := g.nodes) (N := g.norm) hG S.nodes hc S.norm
    (fun h => hf (by simpa [State.softmax] using h))
  have hlP : j < (Q.map State.ptr).length := by
    rw [List.length_map]; exact (List.getElem?_eq_some_iff.mp hg).1
  obtain ⟨a, es, ra, rf, ri⟩ := setLayerPtr_run (w := { w with heap := h', consts := cs', layers := w.layers ++ ls, rng := r, mapRng := r' }) L.ptrs hlP l
  refine ⟨g.next l c z' i cur (ids'.getD []), _, _, ?_, es, ?_, ?_, ?_⟩
  · unfold query
    rw [M.bind_ok hrun, M.bind_ok (layer_run hcl), M.bind_ok hsel]
    dsimp only
    rw [M.bind_ok ea]
    rfl
  · exact ⟨hc, rfl, by simpa [State.views, State.softmax, State.next] using ez, rfl, rfl, hf, rfl⟩
  · constructor
    · rw [List.map_set]; exact ra
    · intro g2 hg2
      rcases mem_set_iff' hg2 with rfl | ⟨k, hk, h2⟩
      · refine ⟨hcl, lo.ptrs, S.order, ?_, S.tables⟩
        have := co.read
        simpa [State.views, State.softmax, State.next] using this
      · have S2 := L.get h2
        have A2 := apart_get L.apart (Ne.symm hk) hg h2
        refine ⟨?_, ?_, S2.order, ?_, S2.tables⟩
        · show (w.layers ++ ls)[g2.ptr]? = _
          rw [List.getElem?_append_left (List.getElem?_eq_some_iff.mp S2.obj).1]
          exact S2.obj
        · exact (lo.frame _ A2.nodes).trans S2.nodes
        · exact (co.frame _ A2.norm).trans S2.norm
    · exact lo.group.perm (hR1 (g.next l c z' i cur (ids'.getD []))).symm
    · rw [List.pairwise_iff_getElem]
      have hset : ∀ (m : Nat) (hm : m < (Q.set j (g.next l c z' i cur (ids'.getD []))).length) (hm' : m < Q.length), (m ≠ j ∧ Q[m] = (Q.set j (g.next l c z' i cur (ids'.getD [])))[m]) ∨ (m = j) := by
        intro m hm hm'
        by_cases e : m = j
        · exact Or.inr e
        · exact Or.inl ⟨e, by rw [List.getElem_set_ne (by omega)]⟩
      intro m n hm hn hmn
      have hm' : m < Q.length := by simpa using hm
      have hn' : n < Q.length := by simpa using hn
      rcases hset m hm hm' with ⟨em, e⟩ | rfl
      · rw [← e]
        rcases hset n hn hn' with ⟨en, e'⟩ | rfl
        · rw [← e']
          exact ⟨apart_get L.apart (by omega) (List.getElem?_eq_getElem hm') (List.getElem?_eq_getElem hn'),
            apart_get L.apart (by omega) (List.getElem?_eq_getElem hn') (List.getElem?_eq_getElem hm')⟩
        · rw [List.getElem_set_self]
          have a1 := apart_get L.apart em (List.getElem?_eq_getElem hm') hg
          have a2 := apart_get L.apart (Ne.symm em) hg (List.getElem?_eq_getElem hm')
          have hp := hptr m _ em (List.getElem?_eq_getElem hm')
          exact ⟨⟨hp, a1.nodes, a1.order, a1.norm, a1.tables⟩, ⟨Ne.symm hp, a2.nodes, a2.order, a2.norm, a2.tables⟩⟩
      · rw [List.getElem_set_self]
        rcases hset n hn hn' with ⟨en, e'⟩ | rfl
        · rw [← e']
          have a1 := apart_get L.apart en (List.getElem?_eq_getElem hn') hg
          have a2 := apart_get L.apart (Ne.symm en) hg (List.getElem?_eq_getElem hn')
          have hp := hptr n _ en (List.getElem?_eq_getElem hn')
          exact ⟨⟨Ne.symm hp, a2.nodes, a2.order, a2.norm, a2.tables⟩, ⟨hp, a1.nodes, a1.order, a1.norm, a1.tables⟩⟩
        · omega
  · refine ⟨rfl, rfl, rfl, rfl, rfl, lo.floats, ⟨ls, rfl⟩, ?_⟩
    rintro ⟨o1, o2⟩
    have hcow := o2 g (List.mem_of_getElem? hg)
    have e1 := hown hcow
    have el : l = g.ptr := congrArg Prod.fst e1
    have ew : w.layers ++ ls = w.layers := congrArg (fun t => t.2.layers) e1
    obtain ⟨p1, p2, p3⟩ := lo.owned (o1.perm hR2)
    have eobj : ({ g.obj with cowId := c } : Layer) = g.obj := by
      rw [← hcow]
    refine ⟨⟨p2.perm (hR1 (g.next l c z' i cur (ids'.getD []))).symm, ?_⟩, map_set_self hg el, map_set_self hg eobj, map_set_self hg p1, ew, ri ?_, p3⟩
    · intro g2 hg2
      rcases mem_set_iff' hg2 with rfl | ⟨k, hk, h2⟩
      · rfl
      · exact o2 _ (List.mem_of_getElem? h2)
    · rw [List.getElem?_map, hg, el]; rfl

/-- A query that succeeds. -/
theorem query_layers {cfg : Config F} {fuel : Nat} {w w1 w2 : World F} {hidden : Slice} {Q : List (State F)} {j : Nat} {g : State F} {c : Int}
    {cur : List (Pair F)} {i : Nat} {label : List Int} {sp : F} {found : Int} {pairs : List (Pair F)} {l : Ptr} {u : Unit}
    (L : Layers w hidden Q) (hg : Q[j]? = some g) (hq : query cfg fuel g.ptr c cur i label sp w = .ok ((found, pairs, l), w1))
    (hs : setLayerPtr hidden j l w1 = .ok (u, w2)) :
    ∃ ids g', Selects cfg fuel g c cur label sp w found ids ∧ pairs = outputs g.softmax g.views cur ids ∧ Forwarded c i cur ids g g' ∧
      Layers w2 hidden (Q.set j g') ∧ After w w2 Q (Q.set j g') c := by
  obtain ⟨x, ids, w3, hx, -, hsel, hact⟩ := query_ok hq
  have S := L.get hg
  rw [S.obj] at hx
  cases hx
  obtain ⟨ls, e0⟩ := cloned_eq w g.ptr g.obj c
  have hsel' := hsel
  rw [e0] at hsel'
  obtain ⟨r, r', e3⟩ := select_world hsel'
  subst e3
  obtain ⟨R, hR1, hR2⟩ := flat_split hg State.nodes
  have hG := L.group.perm hR2
  obtain ⟨c1, c2⟩ := activations_cond (x := { g.obj with cowId := c }) (w := { w with layers := w.layers ++ ls, rng := r, mapRng := r' }) (R := R) (z := g.nodes) (N := g.norm) hG S.nodes S.norm hact
  have sel : Selects cfg fuel g c cur label sp w found (ids.getD []) := ⟨ids, _, hsel, rfl⟩
  obtain ⟨g', w1', w2', eq, es, f, L', A⟩ := query_run L hg sel c1 (fun h => c2 (by simpa [State.softmax] using h))
  have e := Except.ok.inj (hq.symm.trans eq)
  have e1 := congrArg Prod.snd e
  have e2 := congrArg (fun t => t.1.2.1) e
  have e3 := congrArg (fun t => t.1.2.2) e
  dsimp only at e1 e2 e3
  subst e1 e2 e3
  have e := congrArg Prod.snd (Except.ok.inj (hs.symm.trans es))
  dsimp only at e
  subst e
  exact ⟨_, g', sel, rfl, f, L', A⟩

end Goslide.Network
