import Verif.Proofs.NetworkTrain
import Verif.Proofs.LayerFresh
/-
The update of the parameters and the tables after the passes, for the owner.
-/
set_option linter.unusedSectionVars false
namespace Goslide.Network
open Goslide Node Lsh Configuration Spec.Node Spec.Network Layer Xcrepo
variable {F : Type} [GoFloat F]

theorem mem_own {w : World F} {hidden : Slice} {Q : List (State F)} {c : Int} (m : Mem w hidden Q c) {j k : Nat} {g : State F}
    {p : Ptr} {v : View F} (hg : Q[j]? = some g) (hk : g.nodes[k]? = some (p, v)) : ∃ b, Own w.heap p c v b := by
  have hz : (p, v) ∈ Q.flatMap State.nodes := List.mem_flatMap.mpr ⟨g, List.mem_of_getElem? hg, List.mem_of_getElem? hk⟩
  exact own_of (m.layers.group.handle hz) (m.layers.group.inner hz) (m.owned.1 p (List.mem_map_of_mem (f := Prod.fst) hz))

theorem weights_own {h : Heap F} {p : Ptr} {c : Int} {v : View F} {b : BaseNode F} (o : Own h p c v b) : Node.weights p h = .ok (b.weights, h) := by
  obtain ⟨nd, qs, hp⟩ := o.parts
  unfold Node.weights
  rw [M.bind_ok (baseOf_of hp)]
  rfl

/-- Other tables of a layer. -/
theorem Mem.tables {w : World F} {hidden : Slice} {Q : List (State F)} {c : Int} (m : Mem w hidden Q c) {j : Nat} {g : State F}
    (hg : Q[j]? = some g) (t : LSH) :
    Mem { w with lshs := w.lshs.set g.obj.hashTables t } hidden (Q.set j { g with tables := t }) c := by
  have hmap : (Q.set j { g with tables := t }).map State.nodes = Q.map State.nodes := map_set_self hg rfl
  have hflat : (Q.set j { g with tables := t }).flatMap State.nodes = Q.flatMap State.nodes := by
    rw [List.flatMap_def, List.flatMap_def, hmap]
  refine ⟨⟨?_, ?_, ?_, ?_⟩, ?_, ?_⟩
  · rw [map_set_self (y := { g with tables := t }) (f := State.ptr) hg rfl]; exact m.layers.ptrs
  · intro g' hg'
    rcases mem_set_iff' hg' with rfl | ⟨k, hk, h2⟩
    · have S := m.layers.get hg
      refine ⟨S.obj, S.nodes, S.order, S.norm, ?_⟩
      have := (List.getElem?_eq_some_iff.mp S.tables).1
      exact List.getElem?_set_self this
    · have S := m.layers.get h2
      have a := apart_get m.layers.apart hk h2 hg
      refine ⟨S.obj, S.nodes, S.order, S.norm, ?_⟩
      show (w.lshs.set _ _)[_]? = _
      rw [List.getElem?_set_ne (Ne.symm a.tables)]; exact S.tables
  · rw [hflat]; exact m.layers.group
  · exact pairwise_set m.layers.apart hg
      (fun a _ h => ⟨⟨h.1.ptr, h.1.nodes, h.1.order, h.1.norm, h.1.tables⟩, ⟨h.2.ptr, h.2.nodes, h.2.order, h.2.norm, h.2.tables⟩⟩)
      (fun a _ h => ⟨⟨h.1.ptr, h.1.nodes, h.1.order, h.1.norm, h.1.tables⟩, ⟨h.2.ptr, h.2.nodes, h.2.order, h.2.norm, h.2.tables⟩⟩)
  · unfold OwnedBy at *
    rw [hflat]; exact m.owned.1
  · intro g' hg'
    rcases mem_set_iff' hg' with rfl | ⟨k, hk, h2⟩
    · exact m.owned.2 g (List.mem_of_getElem? hg)
    · exact m.owned.2 g' (List.mem_of_getElem? h2)

/-- Another hasher of a layer. -/
theorem Mem.hasher {w : World F} {hidden : Slice} {Q : List (State F)} {c : Int} (m : Mem w hidden Q c) {j : Nat} {g : State F}
    (hg : Q[j]? = some g) (hs : Hasher) :
    Mem { w with layers := w.layers.set g.ptr { g.obj with hasher := hs } } hidden (Q.set j { g with obj := { g.obj with hasher := hs } }) c := by
  have hmap : (Q.set j { g with obj := { g.obj with hasher := hs } }).map State.nodes = Q.map State.nodes := map_set_self hg rfl
  have hflat : (Q.set j { g with obj := { g.obj with hasher := hs } }).flatMap State.nodes = Q.flatMap State.nodes := by
    rw [List.flatMap_def, List.flatMap_def, hmap]
  refine ⟨⟨?_, ?_, ?_, ?_⟩, ?_, ?_⟩
  · rw [map_set_self (y := { g with obj := { g.obj with hasher := hs } }) (f := State.ptr) hg rfl]; exact m.layers.ptrs
  · intro g' hg'
    rcases mem_set_iff' hg' with rfl | ⟨k, hk, h2⟩
    · have S := m.layers.get hg
      refine ⟨?_, S.nodes, S.order, S.norm, S.tables⟩
      have := (List.getElem?_eq_some_iff.mp S.obj).1
      exact List.getElem?_set_self this
    · have S := m.layers.get h2
      have a := apart_get m.layers.apart hk h2 hg
      refine ⟨?_, S.nodes, S.order, S.norm, S.tables⟩
      show (w.layers.set _ _)[_]? = _
      rw [List.getElem?_set_ne (Ne.symm a.ptr)]; exact S.obj
  · rw [hflat]; exact m.layers.group
  · exact pairwise_set m.layers.apart hg
      (fun a _ h => ⟨⟨h.1.ptr, h.1.nodes, h.1.order, h.1.norm, h.1.tables⟩, ⟨h.2.ptr, h.2.nodes, h.2.order, h.2.norm, h.2.tables⟩⟩)
      (fun a _ h => ⟨⟨h.1.ptr, h.1.nodes, h.1.order, h.1.norm, h.1.tables⟩, ⟨h.2.ptr, h.2.nodes, h.2.order, h.2.norm, h.2.tables⟩⟩)
  · unfold OwnedBy at *
    rw [hflat]; exact m.owned.1
  · intro g' hg'
    rcases mem_set_iff' hg' with rfl | ⟨k, hk, h2⟩
    · exact m.owned.2 g (List.mem_of_getElem? hg)
    · exact m.owned.2 g' (List.mem_of_getElem? h2)

/-- The random order of a layer. -/
theorem Mem.order {w : World F} {hidden : Slice} {Q : List (State F)} {c : Int} (m : Mem w hidden Q c) {j : Nat} {g : State F}
    (hg : Q[j]? = some g) {o : List Int} (ho : o.length = g.order.length) :
    Mem { w with ints := w.ints.set g.obj.randNode.arr o } hidden (Q.set j { g with order := o }) c := by
  have hmap : (Q.set j { g with order := o }).map State.nodes = Q.map State.nodes := map_set_self hg rfl
  have hflat : (Q.set j { g with order := o }).flatMap State.nodes = Q.flatMap State.nodes := by
    rw [List.flatMap_def, List.flatMap_def, hmap]
  refine ⟨⟨?_, ?_, ?_, ?_⟩, ?_, ?_⟩
  · rw [map_set_self (y := { g with order := o }) (f := State.ptr) hg rfl]; exact m.layers.ptrs
  · intro g' hg'
    rcases mem_set_iff' hg' with rfl | ⟨k, hk, h2⟩
    · have S := m.layers.get hg
      refine ⟨S.obj, S.nodes, ⟨?_, S.order.2.1, ?_⟩, S.norm, S.tables⟩
      · have := (List.getElem?_eq_some_iff.mp S.order.1).1
        exact List.getElem?_set_self this
      · rw [S.order.2.2]; exact ho.symm
    · have S := m.layers.get h2
      have a := apart_get m.layers.apart hk h2 hg
      refine ⟨S.obj, S.nodes, ⟨?_, S.order.2⟩, S.norm, S.tables⟩
      show (w.ints.set _ _)[_]? = _
      rw [List.getElem?_set_ne (Ne.symm a.order)]; exact S.order.1
  · rw [hflat]; exact m.layers.group
  · exact pairwise_set m.layers.apart hg
      (fun a _ h => ⟨⟨h.1.ptr, h.1.nodes, h.1.order, h.1.norm, h.1.tables⟩, ⟨h.2.ptr, h.2.nodes, h.2.order, h.2.norm, h.2.tables⟩⟩)
      (fun a _ h => ⟨⟨h.1.ptr, h.1.nodes, h.1.order, h.1.norm, h.1.tables⟩, ⟨h.2.ptr, h.2.nodes, h.2.order, h.2.norm, h.2.tables⟩⟩)
  · unfold OwnedBy at *
    rw [hflat]; exact m.owned.1
  · intro g' hg'
    rcases mem_set_iff' hg' with rfl | ⟨k, hk, h2⟩
    · exact m.owned.2 g (List.mem_of_getElem? hg)
    · exact m.owned.2 g' (List.mem_of_getElem? h2)

theorem Mem.rng {w : World F} {hidden : Slice} {Q : List (State F)} {c : Int} (m : Mem w hidden Q c) (r : Rng) (hs : Nat → Nat → BitVec 64) :
    Mem { w with rng := r, hashes := hs } hidden Q c :=
  ⟨⟨m.layers.ptrs, fun g hg => let S := m.layers.stored g hg; ⟨S.obj, S.nodes, S.order, S.norm, S.tables⟩, m.layers.group, m.layers.apart⟩, m.owned⟩

/-! ### One node -/

/-- The node `k` of the layer `j` after the update. -/
def setNode (Q : List (State F)) (j : Nat) (g : State F) (k : Nat) (p : Ptr) (v : View F) : List (State F) :=
  Q.set j { g with nodes := g.nodes.set k (p, v) }

/-- One iteration of the update: the parameters, then the tables. -/
theorem finishNode_eq (cfg : Config F) {w : World F} {hidden : Slice} {Q : List (State F)} {c : Int} (m : Mem w hidden Q c) {j k : Nat} {g : State F}
    {p : Ptr} {v : View F} (hg : Q[j]? = some g) (hk : g.nodes[k]? = some (p, v)) (lr : F) (hfit : Fit cfg.UseAdam v.params) :
    ∃ h' s, Mem { w with heap := h' } hidden (setNode Q j g k p (finishView cfg.UseAdam lr v)) c ∧
      readSlice h'.floats s = some (finished cfg.UseAdam lr v.params).weights ∧
      finishNode cfg c lr g.ptr false k w = .ok ((), { w with heap := h' }) ∧
      finishNode cfg c lr g.ptr true k w = addToHashTable cfg g.obj.hasher g.obj.hashTables s k { w with heap := h' } := by
  obtain ⟨b, o⟩ := mem_own m hg hk
  obtain ⟨h', r, op, hw⟩ := updateNode_run cfg o lr hfit
  obtain ⟨-, m'⟩ := m.op hg hk op
  have S := m.layers.get hg
  have r1 : getNodeById g.ptr (k : Int) w = .ok (p, w) := getNodeById_run S (by omega) (by simpa using hk)
  have r2 : layer g.ptr { w with heap := h' } = .ok (g.obj, { w with heap := h' }) := layer_run S.obj
  refine ⟨h', b.weights, m', hw, ?_, ?_⟩
  · unfold finishNode
    rw [M.bind_ok r1, M.bind_ok (onHeap_run (weights_own o)), M.bind_ok (onHeap_run r)]
    rfl
  · unfold finishNode
    rw [M.bind_ok r1, M.bind_ok (onHeap_run (weights_own o)), M.bind_ok (onHeap_run r)]
    simp only [if_true]
    rw [M.bind_ok r2]

theorem addToHashTable_run {cfg : Config F} {hasher : Hasher} {t : Ptr} {weights : Slice} {id : Int} {w : World F} {ws : List F} {s s' : LSH}
    {indices slots : List Int} (h1 : readSlice w.heap.floats weights = some ws) (h2 : w.lshs[t]? = some s)
    (h3 : indexOf cfg hasher s ws (spareAt w.heap.floats weights) = .ok indices) (h4 : Lsh.add s indices id = .ok (slots, s')) :
    addToHashTable cfg hasher t weights id w = .ok ((), { w with lshs := w.lshs.set t s' }) := by
  unfold addToHashTable
  have e1 : onHeap (floatsOf weights) w = .ok (ws, w) := by
    refine onHeap_run (w := w) (h' := w.heap) ?_
    unfold floatsOf; rw [h1]
  have e2 : onHeap (spareOf weights) w = .ok (spareAt w.heap.floats weights, w) := rfl
  rw [M.bind_ok e1, M.bind_ok e2]
  unfold indexOf at h3
  cases hh : hashDense cfg hasher ws (spareAt w.heap.floats weights) with
  | error e => rw [hh] at h3; cases h3
  | ok hashes =>
    rw [hh] at h3
    dsimp only at h3
    rw [M.bind_ok (a := hashes) (s' := w) rfl]
    have e3 : Layer.tables t w = .ok (s, w) := by
      unfold Layer.tables; rw [deref_of h2]; rfl
    rw [M.bind_ok e3, h3, M.bind_ok (a := indices) (s' := w) rfl, h4, M.bind_ok (a := (slots, s')) (s' := w) rfl]
    rfl

/-! ### One layer -/

/-- A node with its pointer after the update. -/
def finishNodeV (adam : Bool) (lr : F) (x : Ptr × View F) : Ptr × View F := (x.1, finishView adam lr x.2)

/-- The tables `t'` are `t` with the nodes `k, k+1, …` (`m` of them) added at the indices of their new weights. -/
def Added (cfg : Config F) (lr : F) (hasher : Hasher) (nodes : List (Ptr × View F)) (t : LSH) (k m : Nat) (t' : LSH) : Prop :=
  ∃ I : Nat → List Int, Lsh.run t ((List.range' k m).map (fun i => Lsh.Op.add (I i) (i : Int))) = .ok t' ∧
    ∀ i x, k ≤ i → i < k + m → nodes[i]? = some x → ∃ spare,
      indexOf cfg hasher t (finished cfg.UseAdam lr x.2.params).weights spare = .ok (I i)

/-- What the loop over the nodes does with a layer. -/
structure FinishedFrom (cfg : Config F) (lr : F) (rehash : Bool) (k m : Nat) (g g' : State F) : Prop where
  ptr : g'.ptr = g.ptr
  obj : g'.obj = g.obj
  order : g'.order = g.order
  norm : g'.norm = g.norm
  nodes : g'.nodes = g.nodes.take k ++ (g.nodes.drop k).map (finishNodeV cfg.UseAdam lr)
  tables : if rehash then Added cfg lr g.obj.hasher g.nodes g.tables k m g'.tables else g'.tables = g.tables

theorem take_drop_set {α : Type} {l : List α} {k : Nat} {x y : α} (f : α → α) (h : l[k]? = some x) (hy : f x = y) :
    (l.set k y).take (k + 1) ++ ((l.set k y).drop (k + 1)).map f = l.take k ++ (l.drop k).map f := by
  obtain ⟨hlt, rfl⟩ := List.getElem?_eq_some_iff.mp h
  rw [List.drop_set_of_lt (by omega), List.take_set, List.drop_eq_getElem_cons hlt, List.map_cons, hy,
    List.take_succ_eq_append_getElem hlt, List.set_append_right _ _ (by simp; omega)]
  simp [Nat.min_eq_left (Nat.le_of_lt hlt)]

theorem finishNode_spec (cfg : Config F) {w w' : World F} {hidden : Slice} {Q : List (State F)} {c : Int} (m : Mem w hidden Q c) {j k : Nat}
    {g : State F} {x : Ptr × View F} (hg : Q[j]? = some g) (hk : g.nodes[k]? = some x) {lr : F} (hfit : Fit cfg.UseAdam x.2.params) {rehash : Bool}
    {u : Unit} (hr : finishNode cfg c lr g.ptr rehash k w = .ok (u, w')) :
    ∃ t' h' ls, w' = { w with heap := h', lshs := ls } ∧
      Mem w' hidden (Q.set j { g with nodes := g.nodes.set k (finishNodeV cfg.UseAdam lr x), tables := t' }) c ∧
      if rehash then ∃ I spare, indexOf cfg g.obj.hasher g.tables (finished cfg.UseAdam lr x.2.params).weights spare = .ok I ∧
        Lsh.step g.tables (.add I k) = .ok t' else t' = g.tables := by
  obtain ⟨p, v⟩ := x
  obtain ⟨h', s, m', hs, r1, r2⟩ := finishNode_eq cfg m hg hk lr hfit
  cases rehash with
  | false =>
    rw [r1] at hr
    have e : { w with heap := h' } = w' := congrArg Prod.snd (Except.ok.inj hr)
    subst e
    exact ⟨g.tables, h', w.lshs, rfl, m', rfl⟩
  | true =>
    rw [r2] at hr
    obtain ⟨ws, t, indices, slots, t', a1, a2, a3, a4, rfl⟩ := addToHashTable_ok hr
    dsimp only at a1 a2 a3
    rw [hs] at a1
    cases a1
    have S := m.layers.get hg
    rw [S.tables] at a2
    cases a2
    have hlt := (List.getElem?_eq_some_iff.mp hg).1
    have m2 := m'.tables (j := j) (g := { g with nodes := g.nodes.set k (p, finishView cfg.UseAdam lr v) })
      (by unfold setNode; rw [List.getElem?_set_self hlt]) t'
    unfold setNode at m2
    rw [List.set_set] at m2
    refine ⟨t', h', _, rfl, m2, ?_⟩
    rw [if_pos rfl]
    refine ⟨indices, _, a3, ?_⟩
    unfold Lsh.step
    dsimp only
    rw [a4]; rfl

theorem finishNodes_spec (cfg : Config F) {hidden : Slice} {c : Int} {j : Nat} {lr : F} {rehash : Bool} :
    ∀ (m k : Nat) {w w' : World F} {Q : List (State F)} {g : State F} {u : Unit} (_ : Mem w hidden Q c) (_ : Q[j]? = some g)
      (_ : k + m = g.nodes.length) (_ : ∀ i x, k ≤ i → g.nodes[i]? = some x → Fit cfg.UseAdam x.2.params)
      (_ : ((List.range' k m).map (fun (i : Nat) => (i : Int))).forM (finishNode cfg c lr g.ptr rehash) w = .ok (u, w')),
    ∃ g' h' ls, w' = { w with heap := h', lshs := ls } ∧ Mem w' hidden (Q.set j g') c ∧ FinishedFrom cfg lr rehash k m g g'
  | 0, k, w, w', Q, g, u, mm, hg, hk, _, hr => by
    cases hr
    have hset : Q.set j g = Q := by
      obtain ⟨hlt, e⟩ := List.getElem?_eq_some_iff.mp hg
      rw [← e, List.set_getElem_self]
    refine ⟨g, w.heap, w.lshs, rfl, by rw [hset]; exact mm, rfl, rfl, rfl, rfl, ?_, ?_⟩
    · rw [List.take_of_length_le (by omega), List.drop_eq_nil_of_le (by omega)]; simp
    · split
      · exact ⟨fun _ => [], rfl, fun i x h1 h2 => absurd h2 (by omega)⟩
      · rfl
  | m + 1, k, w, w', Q, g, u, mm, hg, hk, hfit, hr => by
    rw [List.range'_succ, List.map_cons, forM_cons] at hr
    replace hr := M.bind_eq_ok hr
    obtain ⟨u1, w1, r1, hr⟩ := hr
    have hx := List.getElem?_eq_getElem (l := g.nodes) (i := k) (by omega)
    obtain ⟨t', h1, ls1, e1, m1, t1⟩ := finishNode_spec cfg mm hg hx (hfit k _ (Nat.le_refl _) hx) r1
    have hlt := (List.getElem?_eq_some_iff.mp hg).1
    obtain ⟨g', h2, ls2, e2, m2, f2⟩ := finishNodes_spec cfg m (k + 1) m1 (List.getElem?_set_self hlt) (by simp; omega)
      (by
        intro i x hi hx'
        dsimp only at hx'
        rw [List.getElem?_set_ne (by omega)] at hx'
        exact hfit i x (by omega) hx') hr
    rw [List.set_set] at m2
    refine ⟨g', h2, ls2, by rw [e2, e1], m2, f2.ptr, f2.obj, f2.order, f2.norm, ?_, ?_⟩
    · rw [f2.nodes]
      exact take_drop_set _ hx rfl
    · have ft := f2.tables
      cases rehash with
      | false =>
        simp only [Bool.false_eq_true, if_false] at t1 ft ⊢
        rw [ft, t1]
      | true =>
        simp only [if_true] at t1 ft ⊢
        obtain ⟨I0, spare, a1, a2⟩ := t1
        obtain ⟨I, b1, b2⟩ := ft
        refine ⟨fun i => if i = k then I0 else I i, ?_, ?_⟩
        · rw [List.range'_succ, List.map_cons, run_cons]
          dsimp only
          rw [if_pos rfl, a2, ok_bind, ← b1]
          congr 1
          apply List.map_congr_left
          intro i hi
          have := (List.mem_range'_1.mp hi).1
          rw [if_neg (by omega)]
        · intro i x h1 h2 hx'
          dsimp only
          by_cases e : i = k
          · subst e
            rw [hx] at hx'
            cases hx'
            rw [if_pos rfl]
            exact ⟨spare, a1⟩
          · rw [if_neg e]
            obtain ⟨spare', h⟩ := b2 i x (by omega) (by omega) (by rw [List.getElem?_set_ne (by omega)]; exact hx')
            rw [indexOf_shape (step_shape a2)] at h
            exact ⟨spare', h⟩

/-- What the update does with a layer. -/
structure FinishedLayer (cfg : Config F) (lr : F) (rehash rebuild : Bool) (g g' : State F) : Prop where
  ptr : g'.ptr = g.ptr
  order : g'.order = g.order
  norm : g'.norm = g.norm
  nodes : g'.nodes = g.nodes.map (finishNodeV cfg.UseAdam lr)
  obj : g'.obj = { g.obj with hasher := g'.obj.hasher }
  hasher : if rebuild then ∃ w w' : World F, newHasher cfg (g.obj.k * g.obj.l).toNat g.obj.previousLayerNumOfNodes.toNat w = .ok (g'.obj.hasher, w')
    else g'.obj.hasher = g.obj.hasher
  tables : if rehash then Added cfg lr g'.obj.hasher g.nodes (Lsh.clear g.tables) 0 g.nodes.length g'.tables else g'.tables = g.tables

/-- What the update does not touch. -/
structure Calm (w w' : World F) : Prop where
  networks : w'.networks = w.networks
  ints : w'.ints = w.ints
  consts : w'.consts = w.consts
  layerArrs : w'.layerArrs = w.layerArrs
  norms : w'.norms = w.norms
  mapRng : w'.mapRng = w.mapRng

theorem Calm.refl (w : World F) : Calm w w := ⟨rfl, rfl, rfl, rfl, rfl, rfl⟩

theorem Calm.trans {w w1 w2 : World F} (a : Calm w w1) (b : Calm w1 w2) : Calm w w2 :=
  ⟨b.networks.trans a.networks, b.ints.trans a.ints, b.consts.trans a.consts, b.layerArrs.trans a.layerArrs, b.norms.trans a.norms,
    b.mapRng.trans a.mapRng⟩

theorem clearHashTables_run {w : World F} {g : State F} (S : Stored w g) :
    clearHashTables g.ptr w = .ok ((), { w with lshs := w.lshs.set g.obj.hashTables (Lsh.clear g.tables) }) := by
  unfold clearHashTables
  rw [M.bind_ok (layer_run S.obj)]
  have e : Layer.tables g.obj.hashTables w = .ok (g.tables, w) := by
    unfold Layer.tables; rw [deref_of S.tables]; rfl
  rw [M.bind_ok e]
  rfl

/-- `UpdateTable` for the owner. -/
theorem rebuildLayer_run (cfg : Config F) {w w1 : World F} {hidden : Slice} {Q : List (State F)} {c : Int} (m : Mem w hidden Q c) {j : Nat}
    {g : State F} (hg : Q[j]? = some g) {hs : Hasher}
    (hn : newHasher cfg (g.obj.k * g.obj.l).toNat g.obj.previousLayerNumOfNodes.toNat w = .ok (hs, w1)) :
    rebuildLayer cfg c hidden j g.ptr true w = .ok ((), { w1 with layers := w.layers.set g.ptr { g.obj with hasher := hs } }) ∧
      Mem { w1 with layers := w.layers.set g.ptr { g.obj with hasher := hs } } hidden (Q.set j { g with obj := { g.obj with hasher := hs } }) c ∧
      ∃ r hh, w1 = { w with rng := r, hashes := hh } := by
  obtain ⟨r, hh, e⟩ := newHasher_ok hn
  subst e
  have S := m.layers.get hg
  have hcow := m.owned.2 g (List.mem_of_getElem? hg)
  have hcl : Layer.cloneIfNeeded g.ptr c w = .ok (g.ptr, w) := by
    rw [Layer.cloneIfNeeded_run S.obj c]
    unfold cloned
    rw [if_neg (by omega)]
  have m1 := (m.rng r hh).hasher hg hs
  dsimp only at m1 ⊢
  refine ⟨?_, m1, r, hh, rfl⟩
  unfold rebuildLayer
  rw [if_pos rfl]
  have hu : updateTable cfg g.ptr c w = .ok (g.ptr, { w with rng := r, hashes := hh, layers := w.layers.set g.ptr { g.obj with hasher := hs } }) := by
    unfold updateTable
    rw [M.bind_ok hcl, M.bind_ok (layer_run S.obj), M.bind_ok hn]
    rfl
  rw [M.bind_ok hu]
  have hptr : (Q.map State.ptr)[j]? = some g.ptr := by simp [hg]
  obtain ⟨a, e1, -, -, e2⟩ := setLayerPtr_run (w := { w with rng := r, hashes := hh, layers := w.layers.set g.ptr { g.obj with hasher := hs } })
    (hidden := hidden) (P := Q.map State.ptr) m.layers.ptrs (List.getElem?_eq_some_iff.mp hptr).1 g.ptr
  rw [e1, e2 hptr]

/-- The loop over the nodes of the layer `g`, whose length is read from the object. -/
theorem finishLoop_spec (cfg : Config F) {hidden : Slice} {c : Int} {j : Nat} {lr : F} {rehash : Bool} {w w' : World F} {Q : List (State F)}
    {g : State F} {u : Unit} (m : Mem w hidden Q c) (hg : Q[j]? = some g) (hfit : ∀ v ∈ g.views, Fit cfg.UseAdam v.params)
    (hr : (do let x ← layer g.ptr
              ((List.range x.nodes.len).map (fun (i : Nat) => (i : Int))).forM (finishNode cfg c lr g.ptr rehash) : WM F Unit) w = .ok (u, w')) :
    ∃ g' h' ls, w' = { w with heap := h', lshs := ls } ∧ Mem w' hidden (Q.set j g') c ∧
      FinishedFrom cfg lr rehash 0 g.nodes.length g g' := by
  have S := m.layers.get hg
  rw [M.bind_ok (layer_run S.obj)] at hr
  have hl : g.obj.nodes.len = g.nodes.length := by
    have := readSlice_length S.nodes
    rw [← this, List.length_map]
  rw [hl, List.range_eq_range'] at hr
  refine finishNodes_spec cfg g.nodes.length 0 m hg (by omega) ?_ hr
  intro i x _ hx
  exact hfit x.2 (List.mem_map_of_mem (f := Prod.snd) (List.mem_of_getElem? hx))

theorem finishLayer_spec (cfg : Config F) {c : Int} {n : Network F} {j : Nat} {lr sp : F} {rehash rebuild : Bool} {w w' : World F}
    {Q : List (State F)} {g : State F} {u : Unit} (m : Mem w n.hiddenLayers Q c) (hg : Q[j]? = some g)
    (hfit : ∀ v ∈ g.views, Fit cfg.UseAdam v.params) (hsp : n.sparsity[j]? = some sp)
    (hr : finishLayer cfg c n lr rehash rebuild j w = .ok (u, w')) :
    ∃ g', Mem w' n.hiddenLayers (Q.set j g') c ∧ Calm w w' ∧
      FinishedLayer cfg lr (rehash && GoFloat.lt sp GoFloat.one) (rebuild && GoFloat.lt sp GoFloat.one) g g' := by
  unfold finishLayer at hr
  rw [M.bind_ok (layerAt m hg)] at hr
  have hget : goGet n.sparsity (j : Int) = .ok sp := by rw [goGet_ofNat, hsp]
  rw [hget, M.bind_ok (a := sp) (s' := w) rfl] at hr
  dsimp only at hr
  generalize GoFloat.lt sp GoFloat.one = sparse at hr ⊢
  have hlt := (List.getElem?_eq_some_iff.mp hg).1
  have hr : ∃ (u1 : Unit) (w1 : World F), (if (rehash && sparse) = true then clearHashTables g.ptr else pure () : WM F Unit) w = .ok (u1, w1) ∧
      (do rebuildLayer cfg c n.hiddenLayers j g.ptr (rebuild && sparse)
          let x ← layer g.ptr
          ((List.range x.nodes.len).map (fun (i : Nat) => (i : Int))).forM (finishNode cfg c lr g.ptr (rehash && sparse)) : WM F Unit) w1
        = .ok (u, w') := by
    by_cases h : (rehash && sparse) = true
    · simp only [if_pos h] at hr ⊢
      exact M.bind_eq_ok hr
    · simp only [if_neg h] at hr ⊢
      exact ⟨(), w, rfl, hr⟩
  obtain ⟨u1, w1, r1, hr⟩ := hr
  have step1 : ∃ t ls, w1 = { w with lshs := ls } ∧ Mem w1 n.hiddenLayers (Q.set j { g with tables := t }) c ∧
      t = if (rehash && sparse) = true then Lsh.clear g.tables else g.tables := by
    by_cases h : (rehash && sparse) = true
    · rw [if_pos h, clearHashTables_run (m.layers.get hg)] at r1
      have e : { w with lshs := w.lshs.set g.obj.hashTables (Lsh.clear g.tables) } = w1 := congrArg Prod.snd (Except.ok.inj r1)
      subst e
      exact ⟨_, _, rfl, m.tables hg _, by rw [if_pos h]⟩
    · rw [if_neg h] at r1
      cases r1
      refine ⟨g.tables, _, rfl, ?_, by rw [if_neg h]⟩
      obtain ⟨_, e⟩ := List.getElem?_eq_some_iff.mp hg
      have : Q.set j { g with tables := g.tables } = Q := by
        show Q.set j g = Q
        rw [← e, List.set_getElem_self]
      rw [this]; exact m
  obtain ⟨t, ls, e1, m1, ht⟩ := step1
  replace hr := M.bind_eq_ok hr
  obtain ⟨u2, w2, r2, hr⟩ := hr
  have step2 : ∃ hs, Mem w2 n.hiddenLayers (Q.set j { g with tables := t, obj := { g.obj with hasher := hs } }) c ∧ Calm w1 w2 ∧
      if (rebuild && sparse) = true then ∃ w w' : World F, newHasher cfg (g.obj.k * g.obj.l).toNat g.obj.previousLayerNumOfNodes.toNat w = .ok (hs, w')
        else hs = g.obj.hasher := by
    by_cases h : (rebuild && sparse) = true
    · rw [h] at r2
      cases hn : newHasher cfg (g.obj.k * g.obj.l).toNat g.obj.previousLayerNumOfNodes.toNat w1 with
      | error e =>
        exfalso
        have S := m1.layers.get (List.getElem?_set_self (a := { g with tables := t }) hlt)
        have hcow := m.owned.2 g (List.mem_of_getElem? hg)
        unfold rebuildLayer at r2
        rw [if_pos rfl] at r2
        replace r2 := M.bind_eq_ok r2
        obtain ⟨la, w3, r3, -⟩ := r2
        unfold updateTable at r3
        have hcl : Layer.cloneIfNeeded g.ptr c w1 = .ok (g.ptr, w1) := by
          rw [Layer.cloneIfNeeded_run S.obj c]
          unfold cloned
          rw [if_neg (by dsimp only; omega)]
        have hly : layer g.ptr w1 = .ok (g.obj, w1) := layer_run S.obj
        rw [M.bind_ok hcl, M.bind_ok hly] at r3
        replace r3 := M.bind_eq_ok r3
        obtain ⟨_, _, r4, -⟩ := r3
        rw [hn] at r4
        cases r4
      | ok x =>
        obtain ⟨hs, w3⟩ := x
        obtain ⟨q1, q2, r, hh, e⟩ := rebuildLayer_run (g := { g with tables := t }) cfg m1 (List.getElem?_set_self (a := { g with tables := t }) hlt) (hs := hs) (w1 := w3) hn
        rw [q1] at r2
        have e2 := congrArg Prod.snd (Except.ok.inj r2)
        dsimp only at e2
        subst e2
        rw [List.set_set] at q2
        subst e
        refine ⟨hs, q2, ⟨rfl, rfl, rfl, rfl, rfl, rfl⟩, ?_⟩
        rw [if_pos h]
        exact ⟨_, _, hn⟩
    · have h' : (rebuild && sparse) = false := by simpa using h
      rw [h'] at r2
      unfold rebuildLayer at r2
      cases r2
      exact ⟨g.obj.hasher, m1, Calm.refl _, by rw [if_neg h]⟩
  obtain ⟨hs, m2, c2, hh⟩ := step2
  obtain ⟨g', h', ls', e3, m3, f3⟩ := finishLoop_spec (g := { g with tables := t, obj := { g.obj with hasher := hs } }) cfg m2 (List.getElem?_set_self hlt) hfit hr
  rw [List.set_set] at m3
  refine ⟨g', m3, ?_, f3.ptr, f3.order, f3.norm, ?_, ?_, ?_, ?_⟩
  · have c1 : Calm w w1 := by subst e1; exact ⟨rfl, rfl, rfl, rfl, rfl, rfl⟩
    have c3 : Calm w2 w' := by subst e3; exact ⟨rfl, rfl, rfl, rfl, rfl, rfl⟩
    exact (c1.trans c2).trans c3
  · rw [f3.nodes]; simp
  · rw [f3.obj]
  · rw [f3.obj]; exact hh
  · have := f3.tables
    rw [f3.obj]
    dsimp only at this ⊢
    split
    · rename_i h
      rw [if_pos h] at this ht
      rw [← ht]; exact this
    · rename_i h
      rw [if_neg h] at this ht
      rw [← ht]; exact this

theorem bind_lift_ok {α β : Type} {g : Go α} {f : α → WM F β} {w w' : World F} {b : β} (h : (M.lift g >>= f) w = .ok (b, w')) :
    ∃ a, g = .ok a ∧ f a w = .ok (b, w') := by
  obtain ⟨a, w1, h1, h2⟩ := M.bind_eq_ok h
  obtain ⟨h3, rfl⟩ := lift_ok h1
  exact ⟨a, h3, h2⟩

theorem finished_dims {adam : Bool} {lr : F} {P : Params F} (h : Fit adam P) :
    (finished adam lr P).weights.length = P.weights.length ∧ (finished adam lr P).mom.length = P.mom.length ∧
      (finished adam lr P).vel.length = P.vel.length ∧ (finished adam lr P).t.length = P.t.length := by
  unfold finished
  split
  · rename_i ha
    obtain ⟨h1, h2, h3⟩ := h ha
    simp [h1, h2, h3]
  · exact ⟨rfl, rfl, rfl, rfl⟩

theorem fit_finish {adam : Bool} {lr : F} {P : Params F} (h : Fit adam P) : Fit adam (finished adam lr P) := by
  intro ha
  obtain ⟨e1, e2, e3, e4⟩ := finished_dims (lr := lr) h
  rw [e1, e2, e3, e4]
  exact h ha

theorem finishView_dims {adam : Bool} {lr : F} {v : View F} (h : Fit adam v.params) : (finishView adam lr v).dims = v.dims := by
  obtain ⟨e1, e2, e3, e4⟩ := finished_dims (lr := lr) h
  unfold View.dims finishView
  dsimp only
  rw [e1, e2, e3, e4]
  unfold finished
  split <;> rfl

/-- The update of the layers `k, …, k + m - 1`. -/
theorem finishAll_spec (cfg : Config F) {c : Int} {n : Network F} {lr : F} {rehash rebuild : Bool} :
    ∀ (m k : Nat) {w w' : World F} {Q : List (State F)} {u : Unit} (_ : Mem w n.hiddenLayers Q c) (_ : k + m ≤ Q.length)
      (_ : ∀ g ∈ Q, ∀ v ∈ g.views, Fit cfg.UseAdam v.params)
      (_ : ((List.range' k m).map (fun (i : Nat) => (i : Int))).forM (finishLayer cfg c n lr rehash rebuild) w = .ok (u, w')),
    ∃ Q', Mem w' n.hiddenLayers Q' c ∧ Calm w w' ∧ Q'.length = Q.length ∧
      ∀ (i : Nat) (g : State F), Q[i]? = some g → ∃ g', Q'[i]? = some g' ∧ if k ≤ i ∧ i < k + m then
        ∃ sp, n.sparsity[i]? = some sp ∧
          FinishedLayer cfg lr (rehash && GoFloat.lt sp GoFloat.one) (rebuild && GoFloat.lt sp GoFloat.one) g g'
        else g' = g
  | 0, k, w, w', Q, u, mm, _, _, hr => by
    cases hr
    exact ⟨Q, mm, .refl _, rfl, fun i g hg => ⟨g, hg, by rw [if_neg (by omega)]⟩⟩
  | m + 1, k, w, w', Q, u, mm, hk, hfit, hr => by
    rw [List.range'_succ, List.map_cons, forM_cons] at hr
    replace hr := M.bind_eq_ok hr
    obtain ⟨u1, w1, r1, hr⟩ := hr
    have hlt : k < Q.length := by omega
    have hg := List.getElem?_eq_getElem hlt
    have hsp : ∃ sp, n.sparsity[k]? = some sp := by
      have r2 := r1
      unfold finishLayer at r2
      rw [M.bind_ok (layerAt mm hg)] at r2
      obtain ⟨sp, h, -⟩ := bind_lift_ok r2
      exact ⟨sp, goGet_at h⟩
    obtain ⟨sp, hsp⟩ := hsp
    obtain ⟨g1, m1, c1, f1⟩ := finishLayer_spec cfg mm hg (hfit _ (List.getElem_mem hlt)) hsp r1
    have hv1 : g1.views = (Q[k]).views.map (finishView cfg.UseAdam lr) := by
      unfold State.views
      rw [f1.nodes, List.map_map, List.map_map]; rfl
    obtain ⟨Q', m2, c2, l2, h2⟩ := finishAll_spec cfg m (k + 1) m1 (by rw [List.length_set]; omega) (by
      intro g hg' v hv
      rcases mem_set_iff' hg' with rfl | ⟨i, -, hi⟩
      · rw [hv1] at hv
        obtain ⟨v0, hv0, rfl⟩ := List.mem_map.mp hv
        exact fit_finish (hfit _ (List.getElem_mem hlt) v0 hv0)
      · exact hfit g (List.mem_of_getElem? hi) v hv) hr
    refine ⟨Q', m2, c1.trans c2, by rw [l2, List.length_set], ?_⟩
    intro i g hgi
    by_cases hik : i = k
    · subst hik
      obtain ⟨g', hg', e⟩ := h2 i g1 (List.getElem?_set_self hlt)
      rw [if_neg (by omega)] at e
      subst e
      rw [hg] at hgi
      cases hgi
      exact ⟨g', hg', by rw [if_pos (by omega)]; exact ⟨sp, hsp, f1⟩⟩
    · obtain ⟨g', hg', e⟩ := h2 i g (by rw [List.getElem?_set_ne (by omega)]; exact hgi)
      refine ⟨g', hg', ?_⟩
      by_cases hb : k + 1 ≤ i ∧ i < k + 1 + m
      · rw [if_pos hb] at e; rw [if_pos (by omega)]; exact e
      · rw [if_neg hb] at e; rw [if_neg (by omega)]; exact e

/-! ### New orders of random nodes -/

/-- The layer with another order of random nodes. -/
def Reordered (g g' : State F) : Prop := ∃ o, o.Perm g.order ∧ g' = { g with order := o }

theorem updateRandomNodes_spec {w w' : World F} {hidden : Slice} {Q : List (State F)} {c : Int} {u : Unit} (m : Mem w hidden Q c) {j : Nat}
    {g : State F} (hg : Q[j]? = some g) (hr : updateRandomNodes g.ptr w = .ok (u, w')) :
    ∃ g', Mem w' hidden (Q.set j g') c ∧ Reordered g g' ∧ w'.networks = w.networks := by
  have S := m.layers.get hg
  by_cases hn : g.obj.nodes.len ≤ g.order.length
  · obtain ⟨o, r, e, hp, -⟩ := updateRandomNodes_run S.obj S.order hn
    rw [e] at hr
    have e2 := congrArg Prod.snd (Except.ok.inj hr)
    dsimp only at e2
    subst e2
    have := (m.order hg hp.length_eq).rng r w.hashes
    exact ⟨_, this, ⟨o, hp, rfl⟩, rfl⟩
  · exfalso
    unfold updateRandomNodes at hr
    rw [M.bind_ok (layer_run S.obj), M.bind_ok (intsOf_run S.order.read)] at hr
    replace hr := M.bind_eq_ok hr
    obtain ⟨a, w1, r1, -⟩ := hr
    unfold draw shuffleNodes at r1
    rw [if_neg hn] at r1
    cases r1

theorem updateRandom_spec {hidden : Slice} {c : Int} :
    ∀ (m k : Nat) {w w' : World F} {Q : List (State F)} {u : Unit} (_ : Mem w hidden Q c) (_ : k + m ≤ Q.length)
      (_ : ((List.range' k m).map (fun (i : Nat) => (i : Int))).forM (fun i => do
        let la ← layerPtr hidden i
        updateRandomNodes la : Int → WM F Unit) w = .ok (u, w')),
    ∃ Q', Mem w' hidden Q' c ∧ w'.networks = w.networks ∧ Q'.length = Q.length ∧
      ∀ (i : Nat) (g : State F), Q[i]? = some g → ∃ g', Q'[i]? = some g' ∧ Reordered g g'
  | 0, k, w, w', Q, u, mm, _, hr => by
    cases hr
    exact ⟨Q, mm, rfl, rfl, fun i g hg => ⟨g, hg, g.order, .refl _, rfl⟩⟩
  | m + 1, k, w, w', Q, u, mm, hk, hr => by
    rw [List.range'_succ, List.map_cons, forM_cons] at hr
    replace hr := M.bind_eq_ok hr
    obtain ⟨u1, w1, r1, hr⟩ := hr
    have hlt : k < Q.length := by omega
    have hg := List.getElem?_eq_getElem hlt
    rw [M.bind_ok (layerAt mm hg)] at r1
    obtain ⟨g1, m1, f1, n1⟩ := updateRandomNodes_spec mm hg r1
    obtain ⟨Q', m2, n2, l2, h2⟩ := updateRandom_spec m (k + 1) m1 (by rw [List.length_set]; omega) hr
    refine ⟨Q', m2, n2.trans n1, by rw [l2, List.length_set], ?_⟩
    intro i g hgi
    by_cases hik : i = k
    · subst hik
      obtain ⟨g', hg', o2, p2, e2⟩ := h2 i g1 (List.getElem?_set_self hlt)
      obtain ⟨o1, p1, e1⟩ := f1
      rw [hg] at hgi
      cases hgi
      subst e1
      exact ⟨g', hg', o2, p2.trans p1, e2⟩
    · exact h2 i g (by rw [List.getElem?_set_ne (by omega)]; exact hgi)

/-! ### The whole step -/

/-- The tables `t'` hold the nodes `vs`, entered in this order after `t` was cleared. -/
def Rehashed (cfg : Config F) (hasher : Hasher) (vs : List (View F)) (t t' : LSH) : Prop :=
  ∃ I : Nat → List Int, Lsh.run (Lsh.clear t) ((List.range vs.length).map (fun i => Lsh.Op.add (I i) (i : Int))) = .ok t' ∧
    ∀ (i : Nat) (v : View F), vs[i]? = some v → ∃ spare, indexOf cfg hasher t v.params.weights spare = .ok (I i)

/-- What a training step does with a layer, apart from its nodes. -/
structure Trained (cfg : Config F) (shuffled rehash rebuild : Bool) (g g' : State F) : Prop where
  ptr : g'.ptr = g.ptr
  ptrs : g'.nodes.map Prod.fst = g.nodes.map Prod.fst
  perm : g'.order.Perm g.order
  order : shuffled = false → g'.order = g.order
  norm : g'.norm.length = g.norm.length
  obj : g'.obj = { g.obj with hasher := g'.obj.hasher }
  hasher : if rebuild then ∃ w w' : World F, newHasher cfg (g.obj.k * g.obj.l).toNat g.obj.previousLayerNumOfNodes.toNat w = .ok (g'.obj.hasher, w')
    else g'.obj.hasher = g.obj.hasher
  tables : if rehash then Rehashed cfg g'.obj.hasher g'.views g.tables g'.tables else g'.tables = g.tables

/-- The vectors of all nodes have the lengths Adam needs. -/
def AllFit (adam : Bool) (Q : List (State F)) : Prop := ∀ g ∈ Q, ∀ v ∈ g.views, Fit adam v.params

theorem fit_of_dims {adam : Bool} {v v' : View F} (h : v'.dims = v.dims) (hf : Fit adam v.params) : Fit adam v'.params := by
  intro ha
  obtain ⟨h1, h2, h3⟩ := hf ha
  have e1 := congrArg Dims.weights h
  have e2 := congrArg Dims.mom h
  have e3 := congrArg Dims.vel h
  have e4 := congrArg Dims.t h
  simp only [View.dims] at e1 e2 e3 e4
  rw [e1, e2, e3, e4]
  exact ⟨h1, h2, h3⟩

theorem allFit_of_dims {adam : Bool} {Q Q' : List (State F)}
    (h : (Q'.map State.views).map (List.map View.dims) = (Q.map State.views).map (List.map View.dims)) (hf : AllFit adam Q) : AllFit adam Q' := by
  intro g' hg' v' hv'
  have h1 : g'.views.map View.dims ∈ (Q.map State.views).map (List.map View.dims) := by
    rw [← h]; exact List.mem_map_of_mem (List.mem_map_of_mem hg')
  obtain ⟨vs0, hvs0, e0⟩ := List.mem_map.mp h1
  obtain ⟨g, hg, rfl⟩ := List.mem_map.mp hvs0
  have h2 : v'.dims ∈ g.views.map View.dims := by rw [e0]; exact List.mem_map_of_mem hv'
  obtain ⟨v, hv, e⟩ := List.mem_map.mp h2
  exact fit_of_dims e.symm (hf g hg v hv)

theorem network_run {w : World F} {p : Ptr} {n : Network F} (h : w.networks[p]? = some n) : network p w = .ok (n, w) := by
  unfold network; rw [deref_of h]; rfl

theorem processInput_spec_full {cfg : Config F} {fuel : Nat} {p : Ptr} {c : Int} {n : Network F} {Q : List (State F)} {w w' : World F}
    {es : List (Example F)} {iter : Int} {rehash rebuild : Bool} {r : F × Ptr} (N : NetAt w p n Q) (o : OwnedBy w Q c) (hc : n.cowId = c)
    (hs : LastSoft Q) (hfit : AllFit cfg.UseAdam Q) (hr : processInput cfg fuel p c es iter rehash rebuild w = .ok (r, w')) :
    r = (GoFloat.zero, p) ∧ ∃ T Q', T.length = es.length ∧ (∀ (k : Nat) (S : List (List Int)), T[k]? = some S → TrainedOn n.sparsity Q k S ∧
      ∀ ex, es[k]? = some ex → Picked cfg n.sparsity Q ex S) ∧ NetAt w' p n Q' ∧ OwnedBy w' Q' c ∧
      Q'.map State.views = (batchV cfg.UseAdam (stepSize cfg n.learningRate iter) (Q.map State.softmax) 0 es T (Q.map State.views)).map
        (List.map (finishView cfg.UseAdam (stepSize cfg n.learningRate iter))) ∧
      (Q'.map State.views).map (List.map View.dims) = (Q.map State.views).map (List.map View.dims) ∧
      Q'.length = Q.length ∧ ∀ (j : Nat) (g : State F), Q[j]? = some g → ∃ g' sp, Q'[j]? = some g' ∧ n.sparsity[j]? = some sp ∧
        Trained cfg (decide (iter.tmod 6946 = 6945)) (rehash && GoFloat.lt sp GoFloat.one) (rebuild && GoFloat.lt sp GoFloat.one) g g' := by
  unfold processInput at hr
  have hcl : cloneIfNeeded p c w = .ok (p, w) := by
    unfold cloneIfNeeded
    rw [M.bind_ok (network_run N.obj), if_neg (by omega)]
    rfl
  rw [M.bind_ok hcl, M.bind_ok (network_run N.obj)] at hr
  generalize stepSize cfg n.learningRate iter = lr at hr ⊢
  have hr : ∃ (u1 : Unit) (w1 : World F), (if iter.tmod 6946 = 6945 then updateRandom n.hiddenLayers n.numberOfLayers else pure () : WM F Unit) w = .ok (u1, w1) ∧
      (do trainLoop cfg fuel c n lr es 0
          ((List.range n.hiddenLayers.len).map (fun (i : Nat) => (i : Int))).forM (finishLayer cfg c n lr rehash rebuild)
          pure (GoFloat.zero, p) : WM F (F × Ptr)) w1
        = .ok (r, w') := by
    by_cases h : iter.tmod 6946 = 6945
    · simp only [if_pos h] at hr ⊢
      exact M.bind_eq_ok hr
    · simp only [if_neg h] at hr ⊢
      exact ⟨(), w, rfl, hr⟩
  obtain ⟨u1, w1, r1, hr⟩ := hr
  have step1 : ∃ Q1, Mem w1 n.hiddenLayers Q1 c ∧ w1.networks = w.networks ∧ Q1.length = Q.length ∧
      ∀ (i : Nat) (g : State F), Q[i]? = some g → ∃ g', Q1[i]? = some g' ∧ Reordered g g' ∧ (iter.tmod 6946 ≠ 6945 → g' = g) := by
    by_cases h : iter.tmod 6946 = 6945
    · rw [if_pos h] at r1
      unfold updateRandom at r1
      have e : (List.range (n.numberOfLayers - 1).toNat).map (fun (i : Nat) => (i : Int) + 1) =
          (List.range' 1 (n.numberOfLayers - 1).toNat).map (fun (i : Nat) => (i : Int)) := by
        rw [List.range'_eq_map_range, List.map_map]
        apply List.map_congr_left
        intro a _
        simp only [Function.comp]
        omega
      rw [e] at r1
      by_cases h0 : Q.length = 0
      · have : (n.numberOfLayers - 1).toNat = 0 := by rw [N.count, h0]; rfl
        rw [this] at r1
        cases r1
        exact ⟨Q, ⟨N.layers, o⟩, rfl, rfl, fun i g hg => ⟨g, hg, ⟨g.order, .refl _, rfl⟩, fun _ => rfl⟩⟩
      · obtain ⟨Q1, m1, n1, l1, h1⟩ := updateRandom_spec _ _ ⟨N.layers, o⟩ (by rw [N.count]; omega) r1
        refine ⟨Q1, m1, n1, l1, fun i g hg => ?_⟩
        obtain ⟨g', a, b⟩ := h1 i g hg
        exact ⟨g', a, b, fun hh => absurd h hh⟩
    · rw [if_neg h] at r1
      cases r1
      exact ⟨Q, ⟨N.layers, o⟩, rfl, rfl, fun i g hg => ⟨g, hg, ⟨g.order, .refl _, rfl⟩, fun _ => rfl⟩⟩
  obtain ⟨Q1, m1, n1, l1, h1⟩ := step1
  have hget : ∀ (i : Nat) (g' : State F), Q1[i]? = some g' → ∃ g, Q[i]? = some g ∧ Reordered g g' ∧ (iter.tmod 6946 ≠ 6945 → g' = g) := by
    intro i g' hg'
    have hlt : i < Q.length := by have := (List.getElem?_eq_some_iff.mp hg').1; omega
    obtain ⟨g2, a, b⟩ := h1 i _ (List.getElem?_eq_getElem hlt)
    rw [hg'] at a
    cases a
    exact ⟨_, List.getElem?_eq_getElem hlt, b⟩
  have hmap : ∀ {α : Type} (f : State F → α), (∀ g o, f { g with order := o } = f g) → Q1.map f = Q.map f := by
    intro α f hf
    apply List.ext_getElem?
    intro i
    rw [List.getElem?_map, List.getElem?_map]
    cases hq : Q1[i]? with
    | none =>
      have : Q[i]? = none := by
        rw [List.getElem?_eq_none_iff] at hq ⊢; omega
      rw [this]
    | some g' =>
      obtain ⟨g, hg, ⟨o, -, rfl⟩, -⟩ := hget i g' hq
      rw [hg, Option.map_some, Option.map_some, hf]
  have hviews1 : Q1.map State.views = Q.map State.views := hmap _ (fun _ _ => rfl)
  have hsoft1 : Q1.map State.softmax = Q.map State.softmax := hmap _ (fun _ _ => rfl)
  have hlast1 : LastSoft Q1 := by
    intro g' hg'
    rw [l1] at hg'
    obtain ⟨g, hg, ⟨o, -, rfl⟩, -⟩ := hget _ g' hg'
    exact hs g hg
  have hfit1 : AllFit cfg.UseAdam Q1 := allFit_of_dims (by rw [hviews1]) hfit
  replace hr := M.bind_eq_ok hr
  obtain ⟨u2, w2, r2, hr⟩ := hr
  obtain ⟨T, Q2, lT, hT, m2, q2, fr2, dm2, v2⟩ := trainLoop_full es m1 (by rw [N.count, l1]) hlast1 (by
    intro vs hvs v hv ha
    obtain ⟨g, hg, rfl⟩ := List.mem_map.mp hvs
    exact (hfit1 g hg v hv ha).2.2) r2
  have l2 : Q2.length = Q1.length := frame_length fr2
  replace hr := M.bind_eq_ok hr
  obtain ⟨u3, w3, r3, hr⟩ := hr
  have hlen : n.hiddenLayers.len = Q2.length := by
    have := readSlice_length m2.layers.ptrs
    rw [← this, List.length_map]
  have hfit2 : AllFit cfg.UseAdam Q2 := allFit_of_dims dm2 hfit1
  rw [hlen, List.range_eq_range'] at r3
  obtain ⟨Q3, m3, c3, l3, h3⟩ := finishAll_spec cfg Q2.length 0 m2 (by omega) hfit2 r3
  cases hr
  have hT' : ∀ (k : Nat) (S : List (List Int)), T[k]? = some S → TrainedOn n.sparsity Q k S ∧ ∀ ex, es[k]? = some ex → Picked cfg n.sparsity Q ex S := by
    intro k S hS
    obtain ⟨⟨⟨a, b⟩, hn, hsl⟩, hP⟩ := hT k S hS
    refine ⟨?_, fun ex he => picked_of (fun j g hg => ?_) (hP ex he)⟩
    rotate_left
    · obtain ⟨g', hg', ⟨o, ho, rfl⟩, -⟩ := h1 j g hg
      exact ⟨_, hg', rfl, rfl, rfl, ho⟩
    rw [Nat.zero_add] at hsl
    refine ⟨⟨by rw [a, l1], ?_⟩, hn, ?_⟩
    · intro j g ids hg hids
      obtain ⟨g', hg', ⟨o, -, rfl⟩, -⟩ := h1 j g hg
      exact b j { g with order := o } ids hg' hids
    · intro j g ids hg hids
      obtain ⟨g', hg', ⟨o, -, rfl⟩, -⟩ := h1 j g hg
      exact hsl j { g with order := o } ids hg' hids
  have hstep : ∀ (j : Nat) (g2 : State F), Q2[j]? = some g2 → ∃ g3 sp, Q3[j]? = some g3 ∧ n.sparsity[j]? = some sp ∧
      FinishedLayer cfg lr (rehash && GoFloat.lt sp GoFloat.one) (rebuild && GoFloat.lt sp GoFloat.one) g2 g3 := by
    intro j g2 hg2
    obtain ⟨g3, hg3, e⟩ := h3 j g2 hg2
    have := (List.getElem?_eq_some_iff.mp hg2).1
    rw [if_pos (by omega)] at e
    obtain ⟨sp, hsp, e⟩ := e
    exact ⟨g3, sp, hg3, hsp, e⟩
  have hv3 : Q3.map State.views = (Q2.map State.views).map (List.map (finishView cfg.UseAdam lr)) := by
    apply List.ext_getElem?
    intro i
    rw [List.getElem?_map, List.getElem?_map, List.getElem?_map]
    cases hq : Q2[i]? with
    | none =>
      have : Q3[i]? = none := by
        rw [List.getElem?_eq_none_iff] at hq ⊢; omega
      rw [this]; rfl
    | some g2 =>
      obtain ⟨g3, sp, hg3, -, f⟩ := hstep i g2 hq
      rw [hg3, Option.map_some, Option.map_some, Option.map_some]
      unfold State.views
      rw [f.nodes, List.map_map, List.map_map]; rfl
  refine ⟨rfl, T, Q3, lT, hT', ⟨?_, m3.layers, by rw [N.count, l3, l2, l1]⟩, m3.owned, ?_, ?_, by omega, ?_⟩
  · rw [c3.networks, q2.networks, n1]; exact N.obj
  · rw [hv3, v2, hviews1, hsoft1]
  · rw [hv3, ← hviews1, ← dm2]
    rw [List.map_map]
    apply List.map_congr_left
    intro vs hvs
    obtain ⟨g, hg, rfl⟩ := List.mem_map.mp hvs
    rw [Function.comp, List.map_map]
    apply List.map_congr_left
    intro v hv
    exact finishView_dims (hfit2 g hg v hv)
  · intro j g hg
    obtain ⟨g1, hg1, ⟨o1, p1, e1⟩, s1⟩ := h1 j g hg
    obtain ⟨g2, hg2, e2⟩ := frame_get fr2 hg1
    obtain ⟨g3, sp, hg3, hsp, f⟩ := hstep j g2 hg2
    unfold State.frame at e2
    have a1 := congrArg (fun x => x.1) e2
    have a2 := congrArg (fun x => x.2.1) e2
    have a3 := congrArg (fun x => x.2.2.1) e2
    have a4 := congrArg (fun x => x.2.2.2.1) e2
    have a5 := congrArg (fun x => x.2.2.2.2.1) e2
    have a6 := congrArg (fun x => x.2.2.2.2.2) e2
    dsimp only at a1 a2 a3 a4 a5 a6
    have hvw : g3.views = g2.nodes.map (fun x => finishView cfg.UseAdam lr x.2) := by
      unfold State.views
      rw [f.nodes, List.map_map]; rfl
    refine ⟨g3, sp, hg3, hsp, ?_, ?_, ?_, ?_, ?_, ?_, ?_, ?_⟩
    · rw [f.ptr, a1, e1]
    · rw [f.nodes, List.map_map]
      have : (Prod.fst ∘ finishNodeV cfg.UseAdam lr : Ptr × View F → Ptr) = Prod.fst := rfl
      rw [this, a3, e1]
    · rw [f.order, a4, e1]; exact p1
    · intro hsh
      have := s1 (of_decide_eq_false hsh)
      rw [f.order, a4, this]
    · rw [f.norm, a5, e1]
    · rw [f.obj, a2, e1]
    · have := f.hasher
      rw [a2, e1] at this
      exact this
    · have := f.tables
      rw [a6, e1] at this
      by_cases hb : (rehash && GoFloat.lt sp GoFloat.one) = true
      · rw [if_pos hb] at this ⊢
        obtain ⟨I, hI, hi⟩ := this
        refine ⟨I, ?_, ?_⟩
        · have hl : g3.views.length = g2.nodes.length := by rw [hvw, List.length_map]
          rw [hl, List.range_eq_range']; exact hI
        · intro i v hv
          rw [hvw, List.getElem?_map] at hv
          cases hx : g2.nodes[i]? with
          | none => rw [hx] at hv; cases hv
          | some x =>
            rw [hx] at hv
            cases hv
            obtain ⟨spare, hsp'⟩ := hi i x (by omega) (by have := (List.getElem?_eq_some_iff.mp hx).1; omega) hx
            rw [indexOf_shape (clear_shape _)] at hsp'
            exact ⟨spare, hsp'⟩
      · rw [if_neg hb] at this ⊢
        exact this

theorem processInput_spec {cfg : Config F} {fuel : Nat} {p : Ptr} {c : Int} {n : Network F} {Q : List (State F)} {w w' : World F}
    {es : List (Example F)} {iter : Int} {rehash rebuild : Bool} {r : F × Ptr} (N : NetAt w p n Q) (o : OwnedBy w Q c) (hc : n.cowId = c)
    (hs : LastSoft Q) (hfit : AllFit cfg.UseAdam Q) (hr : processInput cfg fuel p c es iter rehash rebuild w = .ok (r, w')) :
    r = (GoFloat.zero, p) ∧ ∃ T Q', T.length = es.length ∧ (∀ (k : Nat) (S : List (List Int)), T[k]? = some S → TrainedOn n.sparsity Q k S) ∧ NetAt w' p n Q' ∧ OwnedBy w' Q' c ∧
      Q'.map State.views = (batchV cfg.UseAdam (stepSize cfg n.learningRate iter) (Q.map State.softmax) 0 es T (Q.map State.views)).map
        (List.map (finishView cfg.UseAdam (stepSize cfg n.learningRate iter))) ∧
      (Q'.map State.views).map (List.map View.dims) = (Q.map State.views).map (List.map View.dims) ∧
      Q'.length = Q.length ∧ ∀ (j : Nat) (g : State F), Q[j]? = some g → ∃ g' sp, Q'[j]? = some g' ∧ n.sparsity[j]? = some sp ∧
        Trained cfg (decide (iter.tmod 6946 = 6945)) (rehash && GoFloat.lt sp GoFloat.one) (rebuild && GoFloat.lt sp GoFloat.one) g g' := by
  obtain ⟨e, T, Q', l, a, r⟩ := processInput_spec_full N o hc hs hfit hr
  exact ⟨e, T, Q', l, fun k S h => (a k S h).1, r⟩

end Goslide.Network
