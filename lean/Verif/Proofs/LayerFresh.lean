import Verif.Proofs.LayerNew
import Verif.Proofs.NetworkRep
/-
A new layer as a separate part of the memory.
-/
set_option linter.unusedSectionVars false
namespace Goslide.Layer
open Goslide Node Lsh Configuration Spec.Node Network
variable {F : Type} [GoFloat F]

theorem getElem?_pre {α : Type} {l : List α} {i : Nat} {a : α} (h : l[i]? = some a) (e : List α) : (l ++ e)[i]? = some a := by
  rw [List.getElem?_append_left (List.getElem?_eq_some_iff.mp h).1, h]

/-- New objects do not disturb a node. -/
theorem stage_keep (P : Plan F) (h : Heap F) (k : Nat) (p : Ptr) : Keep h (P.stage h k) p := by
  intro v nd b qs hp
  have hp' := (baseParams_iff.mp hp.par)
  obtain ⟨p1, p2, p3, p4, p5, p6⟩ := hp'
  have hsl := (slotsAt_iff _ _ _).mp hp.slots
  refine ⟨⟨getElem?_pre hp.node _, getElem?_pre hp.base _, baseParams_iff.mpr ⟨readSlice_append p1 _, readSlice_append p2 _,
    readSlice_append p3 _, readSlice_append p4 _, readSlice_append p5 _, p6⟩, readSlice_append hp.ptrs _, ?_, hp.nodup, hp.batch⟩, ?_⟩
  · rw [slotsAt_iff]
    refine ⟨hsl.1, fun i q hq => ?_⟩
    obtain ⟨t, h1, h2⟩ := hsl.2 i q hq
    exact ⟨t, getElem?_pre h1 _, h2⟩
  · intro q hq
    obtain ⟨i, hi⟩ := List.mem_iff_getElem?.mp hq
    obtain ⟨t, h1, -⟩ := hsl.2 i q hi
    rw [h1]
    exact getElem?_pre h1 _

theorem mul_apart {a m m' : Nat} (h : m < m') : a * m + a ≤ a * m' := by
  have : a * (m + 1) ≤ a * m' := Nat.mul_le_mul_left a h
  rw [Nat.mul_add] at this
  omega

/-- The parts of the same array that belong to two nodes. -/
theorem disjoint_parts (arr a m m' : Nat) (h : m ≠ m') :
    Slice.Disjoint { arr := arr, off := a * m, len := a } { arr := arr, off := a * m', len := a } := by
  rcases Nat.lt_or_gt_of_ne h with h | h
  · exact .inr (.inr (.inr (.inl (mul_apart h))))
  · exact .inr (.inr (.inr (.inr (mul_apart h))))

theorem disjoint_arr {a o l a' o' l' : Nat} (h : a ≠ a') : Slice.Disjoint ⟨a, o, l⟩ ⟨a', o', l'⟩ := .inr (.inr (.inl h))

theorem disjoint_nil_left (s : Slice) : nilSlice.Disjoint s := .inl rfl
theorem disjoint_nil_right (s : Slice) : s.Disjoint nilSlice := .inr (.inl rfl)

/-- Nodes of a new layer share nothing. -/
theorem stage_sep (P : Plan F) (h : Heap F) (hw : P.ws.length = P.n * P.p) {m m' k : Nat} (hm : m < P.n) (hm' : m' < P.n)
    (hk : m < k) (hk' : m' < k) (hne : m ≠ m') : Sep (P.stage h k) (h.nodes.length + m) (h.nodes.length + m') := by
  rw [sep_of (stage_parts P h hw hm hk) (stage_parts P h hw hm' hk')]
  refine ⟨disjoint_parts _ _ _ _ hne, ?_, ?_, ?_⟩
  · show h.bases.length + m ≠ h.bases.length + m'
    omega
  · intro s hs s' hs'
    cases hA : P.adam with
    | false =>
      simp only [vecs, Plan.base, hA, List.mem_cons, List.not_mem_nil, or_false, Bool.false_eq_true, if_false] at hs hs'
      rcases hs with rfl | rfl | rfl | rfl | rfl <;> rcases hs' with rfl | rfl | rfl | rfl | rfl <;>
        first
        | exact disjoint_nil_left _
        | exact disjoint_nil_right _
        | exact disjoint_parts _ _ _ _ hne
    | true =>
      simp only [vecs, Plan.base, hA, List.mem_cons, List.not_mem_nil, or_false, if_true] at hs hs'
      rcases hs with rfl | rfl | rfl | rfl | rfl <;> rcases hs' with rfl | rfl | rfl | rfl | rfl <;>
        first
        | exact disjoint_parts _ _ _ _ hne
        | (apply disjoint_arr; omega)
  · intro q hq hq'
    rw [List.mem_range'_1] at hq hq'
    rcases Nat.lt_or_gt_of_ne hne with hlt | hlt
    · have := mul_apart (a := P.b) hlt; omega
    · have := mul_apart (a := P.b) hlt; omega

/-- The vectors of a new node do not overlap. -/
theorem stage_inner (P : Plan F) (h : Heap F) (hw : P.ws.length = P.n * P.p) {m k : Nat} (hm : m < P.n) (hk : m < k) :
    Inner (P.stage h k) (h.nodes.length + m) := by
  intro n b hn hb
  have hp := stage_parts P h hw hm hk
  rw [hp.node] at hn; cases hn
  rw [hp.base] at hb; cases hb
  cases hA : P.adam with
  | false =>
    simp only [Plan.base, hA, Bool.false_eq_true, if_false]
    exact ⟨trivial, disjoint_nil_right _, disjoint_nil_right _, disjoint_nil_right _, disjoint_nil_right _, disjoint_nil_right _, disjoint_nil_right _⟩
  | true =>
    simp only [Plan.base, hA, if_true]
    refine ⟨trivial, ?_, ?_, ?_, ?_, ?_, ?_⟩ <;> (apply disjoint_arr; omega)

/-- A slice that can be read lies in an existing array. -/
theorem arr_lt {α : Type} {store : List (List α)} {s : Slice} {l : List α} (h : readSlice store s = some l) : s.len = 0 ∨ s.arr < store.length := by
  by_cases h0 : s.len = 0
  · exact .inl h0
  · obtain ⟨a, ha, -⟩ := readSlice_pos h (by omega)
    exact .inr (List.getElem?_eq_some_iff.mp ha).1

theorem disjoint_new {s s' : Slice} {n : Nat} (h : s'.len = 0 ∨ s'.arr < n) (hs : s.len = 0 ∨ n ≤ s.arr) : s.Disjoint s' := by
  rcases h with h | h
  · exact .inr (.inl h)
  · rcases hs with hs | hs
    · exact .inl hs
    · exact .inr (.inr (.inl (Nat.ne_of_gt (Nat.lt_of_lt_of_le h hs))))

/-- New nodes share nothing with old ones. -/
theorem stage_sep_old (P : Plan F) (h : Heap F) (hw : P.ws.length = P.n * P.p) {m k : Nat} (hm : m < P.n) (hk : m < k) {p : Ptr} {v : View F}
    (hv : Handle h p v) : Sep (P.stage h k) (h.nodes.length + m) p := by
  obtain ⟨nd, b, qs, hp⟩ := hv.parts
  rw [sep_of (stage_parts P h hw hm hk) (stage_keep P h k p _ _ _ _ hp).1]
  obtain ⟨p1, p2, p3, p4, p5, p6⟩ := baseParams_iff.mp hp.par
  have hsl := (slotsAt_iff _ _ _).mp hp.slots
  refine ⟨disjoint_new (arr_lt hp.ptrs) (.inr (Nat.le_refl _)), ?_, ?_, ?_⟩
  · have := (List.getElem?_eq_some_iff.mp hp.base).1
    show h.bases.length + m ≠ nd.base
    omega
  · intro s hs s' hs'
    have h1 : s'.len = 0 ∨ s'.arr < h.floats.length := by
      simp only [vecs, List.mem_cons, List.not_mem_nil, or_false] at hs'
      rcases hs' with rfl | rfl | rfl | rfl | rfl
      · exact arr_lt p1
      · exact arr_lt p2
      · exact arr_lt p3
      · exact arr_lt p4
      · exact arr_lt p5
    have h2 : s.len = 0 ∨ h.floats.length ≤ s.arr := by
      cases hA : P.adam with
      | false =>
        simp only [vecs, Plan.base, hA, List.mem_cons, List.not_mem_nil, or_false, Bool.false_eq_true, if_false] at hs
        rcases hs with rfl | rfl | rfl | rfl | rfl
        · exact .inr (Nat.le_refl _)
        · exact .inr (Nat.le_refl _)
        · exact .inl rfl
        · exact .inl rfl
        · exact .inl rfl
      | true =>
        simp only [vecs, Plan.base, hA, List.mem_cons, List.not_mem_nil, or_false, if_true] at hs
        rcases hs with rfl | rfl | rfl | rfl | rfl <;> exact .inr (by dsimp only; omega)
    exact disjoint_new h1 h2
  · intro q hq hq'
    rw [List.mem_range'_1] at hq
    obtain ⟨i, hi⟩ := List.mem_iff_getElem?.mp hq'
    obtain ⟨t, h1, -⟩ := hsl.2 i q hi
    have := (List.getElem?_eq_some_iff.mp h1).1
    omega

theorem stage_owned (P : Plan F) (h : Heap F) (hw : P.ws.length = P.n * P.p) {m k : Nat} (hm : m < P.n) (hk : m < k) :
    Owned (P.stage h k) (h.nodes.length + m) P.cowId := by
  rw [owned_of (stage_parts P h hw hm hk)]
  refine ⟨rfl, rfl, ?_⟩
  intro q hq t ht
  rw [List.mem_range'_1] at hq
  have hfit : P.b * m + P.b ≤ P.n * P.b := mul_fit hm
  have ht' : (h.trains ++ List.replicate (P.n * P.b) (blankTrain P.cowId))[q]? = some t := ht
  rw [List.getElem?_append_right (by omega), List.getElem?_replicate_of_lt (by omega)] at ht'
  cases ht'
  rfl

theorem mem_nodes {P : Plan F} {h : Heap F} {z : Ptr × View F} (hz : z ∈ P.nodes h) :
    ∃ m, m < P.n ∧ z = (h.nodes.length + m, P.view m) := by
  obtain ⟨m, hm, rfl⟩ := List.mem_map.mp hz
  exact ⟨m, List.mem_range.mp hm, rfl⟩

/-- A new layer beside other nodes. -/
theorem stage_group (P : Plan F) (h : Heap F) (hw : P.ws.length = P.n * P.p) {Z : List (Ptr × View F)} (hZ : GroupZ h Z) :
    GroupZ (P.stage h P.n) (P.nodes h ++ Z) := by
  rw [groupZ_iff] at hZ ⊢
  refine ⟨?_, ?_⟩
  · intro z hz
    rcases List.mem_append.mp hz with hz | hz
    · obtain ⟨m, hm, rfl⟩ := mem_nodes hz
      exact ⟨(stage_parts P h hw hm hm).handle, stage_inner P h hw hm hm⟩
    · exact ⟨(stage_keep P h _ _).handle (hZ.1 z hz).1, (stage_keep P h _ _).inner (hZ.1 z hz).1 (hZ.1 z hz).2⟩
  · rw [List.pairwise_append]
    refine ⟨?_, ?_, ?_⟩
    · unfold Plan.nodes
      rw [List.pairwise_map, List.pairwise_iff_getElem]
      intro i j hi hj hij
      rw [List.length_range] at hi hj
      simp only [List.getElem_range]
      exact ⟨stage_sep P h hw hi hj hi hj (by omega), stage_sep P h hw hj hi hj hi (by omega)⟩
    · refine List.Pairwise.imp_of_mem ?_ hZ.2
      intro a b ha hb hab
      exact ⟨(stage_keep P h _ _).sep (stage_keep P h _ _) (hZ.1 a ha).1 (hZ.1 b hb).1 hab.1,
        (stage_keep P h _ _).sep (stage_keep P h _ _) (hZ.1 b hb).1 (hZ.1 a ha).1 hab.2⟩
    · intro a ha b hb
      obtain ⟨m, hm, rfl⟩ := mem_nodes ha
      have s := stage_sep_old P h hw hm hm (hZ.1 b hb).1
      exact ⟨s, sep_symm (stage_parts P h hw hm hm).handle ((stage_keep P h _ _).handle (hZ.1 b hb).1) s⟩

theorem stage_owned_all (P : Plan F) (h : Heap F) (hw : P.ws.length = P.n * P.p) {Z : List (Ptr × View F)} (hZ : GroupZ h Z)
    (ho : OwnedZ h Z P.cowId) : OwnedZ (P.stage h P.n) (P.nodes h ++ Z) P.cowId := by
  rw [groupZ_iff] at hZ
  intro p hp
  obtain ⟨z, hz, rfl⟩ := List.mem_map.mp hp
  rcases List.mem_append.mp hz with hz | hz
  · obtain ⟨m, hm, rfl⟩ := mem_nodes hz
    exact stage_owned P h hw hm hm
  · exact ((stage_keep P h _ _).owned (hZ.1 z hz).1 _).mpr (ho z.1 (List.mem_map_of_mem hz))

/-- The layer that `New` builds from `P`, as stored in the memory. -/
def Plan.state (P : Plan F) (w : World F) (x : Layer) (order : List Int) (s : LSH) : State F :=
  { ptr := w.layers.length, obj := x, nodes := P.nodes w.heap, order := order, norm := newNorm P.ty P.b, tables := s }

/-- What `New` does: a new layer, separate from all that was there before. -/
structure Built (cfg : Config F) (c n prev ty b k l rp : Int) (w w' : World F) (P : Plan F) (g : State F) : Prop where
  pCow : P.cowId = c
  pN : (P.n : Int) = n
  pP : (P.p : Int) = prev
  pTy : P.ty = ty
  pAdam : P.adam = cfg.UseAdam
  pBatch : P.b = b.toNat
  bpos : 0 < P.n ∨ ty = Softmax → 0 ≤ b
  ws : P.ws.length = P.n * P.p
  bs : P.bs.length = P.n
  nodes : g.nodes = P.nodes w.heap
  norm : g.norm = newNorm ty P.b
  order : g.order.Perm ((List.range P.n).map (fun (i : Nat) => (i : Int)))
  oCow : g.obj.cowId = c
  oTy : g.obj.nodeType = ty
  oK : g.obj.k = k
  oL : g.obj.l = l
  oPrev : g.obj.previousLayerNumOfNodes = prev
  oLen : g.obj.nodes.len = P.n
  hasher : ∃ v v' : World F, newHasher cfg (k * l).toNat prev.toNat v = .ok (g.obj.hasher, v')
  pos : 0 ≤ k ∧ 0 ≤ l ∧ 0 ≤ rp
  tables : ∃ (s0 : LSH) (r r' : Rng) (I : Nat → List Int), Lsh.new k.toNat l.toNat rp.toNat r = .ok (s0, r') ∧
    (∀ j, j < P.n → indexOf cfg g.obj.hasher s0 (P.params j).weights (P.ws.drop (P.p * j + P.p)) = .ok (I j)) ∧
    Lsh.run s0 ((List.range P.n).map (fun j => Op.add (I j) j)) = .ok g.tables
  heap : w'.heap = P.stage w.heap P.n
  stored : Stored w' g
  group : ∀ Z, GroupZ w.heap Z → GroupZ w'.heap (g.nodes ++ Z)
  owned : ∀ Z, GroupZ w.heap Z → OwnedZ w.heap Z c → OwnedZ w'.heap (g.nodes ++ Z) c
  old : ∀ g0, Stored w g0 → Stored w' g0 ∧ Apart g g0 ∧ Apart g0 g
  layerArrs : w'.layerArrs = w.layerArrs
  networks : w'.networks = w.networks
  draws : P.ws = normals w.norms 0 (P.n * P.p) ∧ P.bs = normals w.norms (P.n * P.p) P.n
  norms : w'.norms = fun i => w.norms (i + P.n + P.n * P.p)

theorem slice_new {α : Type} (store : List (List α)) (l : List α) : readSlice (store ++ [l]) { arr := store.length, off := 0, len := l.length } = some l :=
  readSlice_new store l []

theorem new_run {cfg : Config F} (hl : cfg.LoadWeight = false) {c n prev : Int} {ty : NodeType} {b k l rp : Int} {s1 s2 s3 s4 : Slice}
    {p : Ptr} {w w' : World F} (hr : new cfg c n prev ty b k l rp s1 s2 s3 s4 w = .ok (p, w')) :
    ∃ (P : Plan F) (g : State F), g.ptr = p ∧ Built cfg c n prev ty b k l rp w w' P g := by
  obtain ⟨P, order, x, s0, s, r, r', I, a1, a2, a3, a4, a5, a6, a7, a8, a9, a10, a11, a12, a13, a14, a15, a16,
    ⟨x1, x2, x3, x4, x5, x6, x7, x8, x9, x10⟩, a17, b1, b2, b3, b4, b5, b6, b7, b8, b9, b10, b11⟩ := new_full hl hr
  have hst : Stored w' (P.state w x order s) := by
    refine ⟨?_, ?_, ⟨?_, ?_, ?_⟩, ?_, ?_⟩
    · show w'.layers[w.layers.length]? = some x
      rw [b6]; simp
    · show readSlice w'.heap.nodeArrs x.nodes = some ((P.nodes w.heap).map Prod.fst)
      rw [b2, x3, stage_nodes, Plan.nodes, List.map_map]
      congr 1
      rw [List.range'_eq_map_range]
      rfl
    · show w'.ints[x.randNode.arr]? = some order
      rw [x4, b3]; simp
    · show x.randNode.off = 0
      rw [x4]
    · show x.randNode.len = order.length
      rw [x4]
    · show readSlice w'.consts x.normalizationConstants = some (newNorm P.ty P.b)
      rw [x5, b5, a4]
      by_cases h : ty = Softmax
      · rw [if_pos h, if_pos h]
        have hl : (newNorm ty P.b : List F).length = P.b := by simp [newNorm, h]
        have := slice_new w.consts (newNorm ty P.b)
        rwa [hl] at this
      · rw [if_neg h, if_neg h]
        simp [newNorm, h, readSlice, nilSlice]
    · show w'.lshs[x.hashTables]? = some s
      rw [x9, b4]; simp
  refine ⟨P, P.state w x order s, b1.symm, ?_⟩
  subst a1
  refine {
    pCow := rfl, pN := a2, pP := a3, pTy := a4, pAdam := a5, pBatch := a6, bpos := fun h => h.elim a7 a17, ws := a8, bs := a9, nodes := rfl
    norm := by rw [← a4]; rfl
    order := a10, oCow := x1, oTy := x2, oK := x6, oL := x7, oPrev := x8, hasher := x10
    oLen := by show x.nodes.len = _; rw [x3]; rfl
    pos := ⟨a11, a12, a13⟩, tables := ⟨s0, r, r', I, a14, a15, a16⟩, heap := b2, stored := hst
    group := fun Z hZ => by rw [b2]; exact stage_group P w.heap a8 hZ
    owned := fun Z hZ ho => by rw [b2]; exact stage_owned_all P w.heap a8 hZ ho
    old := ?_
    layerArrs := b7, networks := b8, draws := ⟨b9, b10⟩, norms := b11 }
  intro g0 h0
  have q1 := (List.getElem?_eq_some_iff.mp h0.obj).1
  have q2 := arr_lt h0.nodes
  have q3 := (List.getElem?_eq_some_iff.mp h0.order.1).1
  have q4 := arr_lt h0.norm
  have q5 := (List.getElem?_eq_some_iff.mp h0.tables).1
  have hap : Apart (P.state w x order s) g0 := by
    refine ⟨?_, ?_, ?_, ?_, ?_⟩
    · exact Nat.ne_of_gt q1
    · show x.nodes.Disjoint _
      rw [x3]; exact disjoint_new q2 (.inr (Nat.le_refl _))
    · show x.randNode.arr ≠ _
      rw [x4]; exact Nat.ne_of_gt q3
    · show x.normalizationConstants.Disjoint _
      rw [x5]
      split
      · exact disjoint_new q4 (.inr (Nat.le_refl _))
      · exact disjoint_nil_left _
    · show x.hashTables ≠ _
      rw [x9]; exact Nat.ne_of_gt q5
  refine ⟨⟨?_, ?_, ⟨?_, h0.order.2⟩, ?_, ?_⟩, hap, ?_⟩
  · rw [b6]; exact getElem?_pre h0.obj _
  · rw [b2]; exact readSlice_append h0.nodes _
  · rw [b3]; exact getElem?_pre h0.order.1 _
  · rw [b5]; exact readSlice_append h0.norm _
  · rw [b4]; exact getElem?_pre h0.tables _
  · exact ⟨Ne.symm hap.ptr, hap.nodes.symm, Ne.symm hap.order, hap.norm.symm, Ne.symm hap.tables⟩

end Goslide.Layer
