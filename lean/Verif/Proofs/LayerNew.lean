import Verif.Proofs.LayerKeeps
import Verif.Proofs.NodeZip
import Verif.Proofs.NodeMore
import Verif.Proofs.LshShape
/-
The memory after `layer.New`.
-/
set_option linter.unusedSectionVars false
namespace Goslide.Layer
open Goslide Node Lsh Configuration Spec.Node
variable {F : Type} [GoFloat F]

/-- What a new layer is made of (`b` = batch size, `p` = number of inputs). -/
structure Plan (F : Type) where
  cowId : Int
  n : Nat
  b : Nat
  p : Nat
  ty : Int
  adam : Bool
  ws : List F
  bs : List F

namespace Plan
variable (P : Plan F) (h : Heap F)

/-- The vector of zeros for the gradients of a node. -/
def zeros : List F := List.replicate P.p GoFloat.zero

/-- The new arrays of the layer. -/
def arrays : List (List F) :=
  [P.ws, P.bs] ++ if P.adam then [List.replicate (P.n * P.p) GoFloat.zero, List.replicate (P.n * P.p) GoFloat.zero] else []

/-- The base of node `m`. -/
def base (m : Nat) : BaseNode F :=
  { emptyBase P.cowId with
    idInLayer := m
    nodeType := P.ty
    currentBatchsize := P.b
    weights := { arr := h.floats.length, off := P.p * m, len := P.p }
    bias := (P.bs[m]?).getD GoFloat.zero
    mirrorBias := (P.bs[m]?).getD GoFloat.zero
    mirrorWeights := { arr := h.floats.length, off := P.p * m, len := P.p }
    adamAvgMom := if P.adam then { arr := h.floats.length + 2, off := P.p * m, len := P.p } else nilSlice
    adamAvgVel := if P.adam then { arr := h.floats.length + 3, off := P.p * m, len := P.p } else nilSlice
    t := if P.adam then { arr := h.floats.length + 4 + m, off := 0, len := P.p } else nilSlice }

/-- Node `m`. -/
def node (m : Nat) : Node :=
  { cowId := P.cowId, base := h.bases.length + m,
    train := { arr := h.trainArrs.length, off := P.b * m, len := P.b } }

/-- The memory `h` with the new layer after the initialisation of `k` nodes. -/
def stage (k : Nat) : Heap F where
  floats := h.floats ++ (P.arrays ++ List.replicate (if P.adam then k else 0) P.zeros)
  trainArrs := h.trainArrs ++ [List.range' h.trains.length (P.n * P.b)]
  nodeArrs := h.nodeArrs ++ [List.range' h.nodes.length P.n]
  trains := h.trains ++ List.replicate (P.n * P.b) (blankTrain P.cowId)
  bases := h.bases ++ (List.range P.n).map (fun m => if m < k then P.base h m else emptyBase P.cowId)
  nodes := h.nodes ++ (List.range P.n).map (fun m => if m < k then P.node h m else
    { cowId := P.cowId, base := h.bases.length + m, train := nilSlice })

/-- The content of node `m`. -/
def params (m : Nat) : Params F :=
  { nodeType := P.ty, batch := P.b, id := m
    weights := (P.ws.drop (P.p * m)).take P.p
    mirrorWeights := (P.ws.drop (P.p * m)).take P.p
    mom := if P.adam then P.zeros else []
    vel := if P.adam then P.zeros else []
    t := if P.adam then P.zeros else []
    bias := (P.bs[m]?).getD GoFloat.zero
    mirrorBias := (P.bs[m]?).getD GoFloat.zero
    tBias := GoFloat.zero, momBias := GoFloat.zero, velBias := GoFloat.zero }

/-- The observation of node `m`. -/
def view (m : Nat) : View F := { params := P.params m, train := List.replicate P.b idle }

/-- The nodes of the new layer. -/
def nodes : List (Ptr × View F) := (List.range P.n).map (fun m => (h.nodes.length + m, P.view m))

end Plan

theorem getElem?_stage {α : Type} (l : List α) (n k : Nat) (f g : Nat → α) (m : Nat) (hm : m < n) :
    (l ++ (List.range n).map (fun m => if m < k then f m else g m))[l.length + m]? = some (if m < k then f m else g m) := by
  rw [List.getElem?_append_right (by omega)]
  simp [hm]

theorem set_stage {α : Type} (l : List α) (n k : Nat) (f g : Nat → α) (hk : k < n) :
    (l ++ (List.range n).map (fun m => if m < k then f m else g m)).set (l.length + k) (f k) =
      l ++ (List.range n).map (fun m => if m < k + 1 then f m else g m) := by
  rw [List.set_append_right _ _ (by omega)]
  congr 1
  apply List.ext_getElem?
  intro i
  rw [List.getElem?_set]
  by_cases hi : i < n
  · by_cases e : k = i
    · subst e; simp [hi]
    · have : ¬ l.length + k - l.length = i := by omega
      rw [if_neg this]
      simp only [List.getElem?_map, List.getElem?_range hi, Option.map_some]
      have : (i < k) ↔ (i < k + 1) := by omega
      simp [this]
  · have : ¬ l.length + k - l.length = i := by omega
    rw [if_neg this]
    rw [List.getElem?_eq_none (by simp; omega), List.getElem?_eq_none (by simp; omega)]

theorem stage_node (P : Plan F) (h : Heap F) {k m : Nat} (hm : m < P.n) :
    (P.stage h k).nodes[h.nodes.length + m]? = some (if m < k then P.node h m else
      { cowId := P.cowId, base := h.bases.length + m, train := nilSlice }) := getElem?_stage _ _ _ _ _ m hm

theorem stage_base (P : Plan F) (h : Heap F) {k m : Nat} (hm : m < P.n) :
    (P.stage h k).bases[h.bases.length + m]? = some (if m < k then P.base h m else emptyBase P.cowId) := getElem?_stage _ _ _ _ _ m hm

theorem newEmptyNodes_run (c : Int) (n : Nat) : ∀ h : Heap F, newEmptyNodes c n h = .ok (List.range' h.nodes.length n,
    { h with
      bases := h.bases ++ (List.range n).map (fun _ => emptyBase c)
      nodes := h.nodes ++ (List.range n).map (fun m => { cowId := c, base := h.bases.length + m, train := nilSlice }) }) := by
  induction n with
  | zero => intro h; simp [newEmptyNodes]
  | succ n ih =>
    intro h
    rw [newEmptyNodes]
    have : newEmptyNode c h = .ok (h.nodes.length, { h with
      bases := h.bases ++ [emptyBase c]
      nodes := h.nodes ++ [{ cowId := c, base := h.bases.length, train := nilSlice }] }) := rfl
    rw [M.bind_ok this, M.bind_ok (ih _)]
    show Except.ok _ = Except.ok _
    simp only [List.length_append, List.length_singleton, List.append_assoc, List.singleton_append,
      List.range'_succ, List.range_succ_eq_map, List.map_cons, List.map_map, Function.comp_def, Nat.add_zero]
    have e : ∀ m : Nat, h.bases.length + 1 + m = h.bases.length + (m + 1) := fun m => by omega
    simp only [e]

/-- The initialisation of node `k`. -/
theorem update_run (cfg : Config F) (P : Plan F) (h : Heap F) (ha : cfg.UseAdam = P.adam) {k : Nat} (hk : k < P.n) :
    update cfg (h.nodes.length + k) P.cowId P.p k P.ty P.b (P.base h k).weights (P.base h k).bias (P.base h k).adamAvgMom
      (P.base h k).adamAvgVel (P.node h k).train (P.stage h k) = .ok (h.nodes.length + k, P.stage h (k + 1)) := by
  have hn := stage_node P h (k := k) hk
  rw [if_neg (by omega)] at hn
  have hb := stage_base P h (k := k) hk
  rw [if_neg (by omega)] at hb
  unfold update
  have e1 : Node.cloneIfNeeded (h.nodes.length + k) P.cowId (P.stage h k) = .ok (h.nodes.length + k, P.stage h k) := by
    unfold Node.cloneIfNeeded
    rw [M.bind_ok (node_ok hn), if_neg (fun h => h rfl)]
    rfl
  rw [M.bind_ok e1]
  have e2 : ownBase (h.nodes.length + k) P.cowId (P.stage h k) = .ok (h.bases.length + k, P.stage h k) := by
    unfold ownBase
    rw [M.bind_ok (node_ok hn)]
    have : cloneBaseIfNeeded (h.bases.length + k) P.cowId (P.stage h k) = .ok (h.bases.length + k, P.stage h k) := by
      unfold cloneBaseIfNeeded
      rw [M.bind_ok (base_ok hb), if_neg (fun h => h rfl)]
      rfl
    rw [M.bind_ok this]
    have : (P.stage h k).nodes.set (h.nodes.length + k) { cowId := P.cowId, base := h.bases.length + k, train := nilSlice } = (P.stage h k).nodes := by
      apply List.ext_getElem?
      intro i
      rw [List.getElem?_set]
      split
      · rename_i e; subst e; rw [hn]
        split
        · rfl
        · rename_i e; exact absurd (List.getElem?_eq_some_iff.mp hn).1 e
      · rfl
    have e : setNode (h.nodes.length + k) { cowId := P.cowId, base := h.bases.length + k, train := nilSlice } (P.stage h k) =
        .ok ((), P.stage h k) := by
      unfold setNode; rw [this]
    rw [M.bind_ok e]
    rfl
  rw [M.bind_ok e2, M.bind_ok (base_ok hb)]
  have e3 : ∀ (x : Heap F) (hx : x.floats = (P.stage h k).floats), adamFields cfg P.p (P.base h k).adamAvgMom (P.base h k).adamAvgVel
      { emptyBase P.cowId with
        idInLayer := (k : Int), nodeType := P.ty, currentBatchsize := P.b,
        weights := (P.base h k).weights, bias := (P.base h k).bias, mirrorBias := (P.base h k).bias,
        mirrorWeights := (P.base h k).weights } x = .ok (P.base h k, { x with floats := (P.stage h (k + 1)).floats }) := by
    intro x hx
    unfold adamFields
    rw [ha]
    cases hA : P.adam with
    | true =>
      rw [if_pos rfl]
      unfold makeFloats
      rw [if_neg (by omega)]
      show Except.ok (_, _) = _
      rw [hx]
      have hl : (P.stage h k).floats.length = h.floats.length + 4 + k := by
        simp [Plan.stage, Plan.arrays, hA]; omega
      have hf : (P.stage h k).floats ++ [List.replicate ((P.p : Int)).toNat GoFloat.zero] = (P.stage h (k + 1)).floats := by
        simp only [Plan.stage, hA, if_true, Int.toNat_natCast, List.append_assoc]
        rw [List.replicate_succ']
        rfl
      rw [hf, hl]
      simp [Plan.base, hA]
    | false =>
      rw [if_neg (by simp)]
      show Except.ok (_, _) = _
      have hf : (P.stage h (k + 1)).floats = x.floats := by rw [hx]; simp [Plan.stage, hA]
      rw [hf]
      simp [Plan.base, hA, emptyBase]
  have e4 := e3 (P.stage h k) rfl
  rw [M.bind_ok e4]
  have hn' : ({ P.stage h k with floats := (P.stage h (k + 1)).floats, bases := (P.stage h k).bases.set (h.bases.length + k) (P.base h k) } : Heap F).nodes[h.nodes.length + k]? = some _ := hn
  have e5 : setBase (h.bases.length + k) (P.base h k) { P.stage h k with floats := (P.stage h (k + 1)).floats } =
      .ok ((), { P.stage h k with floats := (P.stage h (k + 1)).floats, bases := (P.stage h k).bases.set (h.bases.length + k) (P.base h k) }) := rfl
  rw [M.bind_ok e5, M.bind_ok (node_ok hn')]
  have hb' : (P.stage h k).bases.set (h.bases.length + k) (P.base h k) = (P.stage h (k + 1)).bases := set_stage _ _ _ _ _ hk
  have hn' : (P.stage h k).nodes.set (h.nodes.length + k) (P.node h k) = (P.stage h (k + 1)).nodes := set_stage _ _ _ _ _ hk
  rw [hb']
  show Except.ok (_, ({ P.stage h k with floats := _, bases := _, nodes := (P.stage h k).nodes.set (h.nodes.length + k) (P.node h k) } : Heap F)) = _
  rw [hn']
  rfl

/-- The slices of the arrays of the layer. -/
def Plan.slices (P : Plan F) (h : Heap F) : Slice × Slice × Slice × Slice :=
  ({ arr := h.floats.length, off := 0, len := P.n * P.p }, { arr := h.floats.length + 1, off := 0, len := P.n },
    if P.adam then { arr := h.floats.length + 2, off := 0, len := P.n * P.p } else nilSlice,
    if P.adam then { arr := h.floats.length + 3, off := 0, len := P.n * P.p } else nilSlice)

/-- The weights made of `n` draws, from draw `o` on. -/
def normals (f : Nat → F) (o n : Nat) : List F := (List.range n).map (fun i => GoFloat.add (GoFloat.mul (f (o + i)) (GoFloat.const (1 / 100))) GoFloat.zero)

theorem drawNormals_ok {n : Nat} {l : List F} {w w' : World F} (h : drawNormals n w = .ok (l, w')) :
    l = normals w.norms 0 n ∧ w' = { w with norms := fun i => w.norms (i + n) } := by
  have e := Except.ok.inj h
  refine ⟨?_, (congrArg Prod.snd e).symm⟩
  have := congrArg Prod.fst e
  dsimp only at this
  rw [← this, normals]; simp

theorem newArrays_ok {cfg : Config F} (hl : cfg.LoadWeight = false) {n p : Nat} {a b c d : Slice}
    {r : Slice × Slice × Slice × Slice} {w w' : World F} (h : newArrays cfg n p a b c d w = .ok (r, w')) :
    ∃ ws bs nm, ws.length = n * p ∧ bs.length = n ∧
      (ws = normals w.norms 0 (n * p) ∧ bs = normals w.norms (n * p) n ∧ nm = fun i => w.norms (i + n + n * p)) ∧ ∀ (cowId ty : Int) (bt : Nat),
      let P : Plan F := { cowId := cowId, n := n, b := bt, p := p, ty := ty, adam := cfg.UseAdam, ws := ws, bs := bs }
      w' = { w with norms := nm, heap := { w.heap with floats := w.heap.floats ++ P.arrays } } ∧ r = P.slices w.heap := by
  have hnp : ((n : Int) * (p : Int)) = ((n * p : Nat) : Int) := by simp
  unfold newArrays at h
  rw [if_neg (by simp [hl]), hnp] at h
  replace h := M.bind_eq_ok h
  obtain ⟨_, w1, h1, h⟩ := h
  unfold checkLen at h1
  rw [if_neg (by omega)] at h1
  cases h1
  replace h := M.bind_eq_ok h
  obtain ⟨ws, w2, h2, h⟩ := h
  obtain ⟨ew, rfl⟩ := drawNormals_ok h2
  rw [Int.toNat_natCast] at ew
  have lw : ws.length = n * p := by rw [ew]; simp [normals]
  replace h := M.bind_eq_ok h
  obtain ⟨cw, w3, h3, h⟩ := h
  obtain ⟨_, hh, rfl⟩ := onHeap_ok h3
  cases hh
  replace h := M.bind_eq_ok h
  obtain ⟨bs, w4, h4, h⟩ := h
  obtain ⟨eb, rfl⟩ := drawNormals_ok h4
  rw [Int.toNat_natCast] at eb
  have lb : bs.length = n := by rw [eb]; simp [normals]
  replace h := M.bind_eq_ok h
  obtain ⟨cb, w5, h5, h⟩ := h
  obtain ⟨_, hh, rfl⟩ := onHeap_ok h5
  cases hh
  refine ⟨ws, bs, fun i => w.norms (i + n + n * p), lw, lb, ⟨ew, ?_, rfl⟩, ?_⟩
  · rw [eb, normals, normals]
    simp [Nat.add_comm]
  intro cowId ty bt
  dsimp only
  split at h
  · rename_i ha
    replace h := M.bind_eq_ok h
    obtain ⟨m, w6, h6, h⟩ := h
    obtain ⟨_, hh, rfl⟩ := onHeap_ok h6
    unfold makeFloats at hh
    rw [if_neg (by omega)] at hh
    cases hh
    replace h := M.bind_eq_ok h
    obtain ⟨v, w7, h7, h⟩ := h
    obtain ⟨_, hh, rfl⟩ := onHeap_ok h7
    unfold makeFloats at hh
    rw [if_neg (by omega)] at hh
    cases hh
    cases h
    clear h2 h3 h4 h5
    simp [Plan.arrays, Plan.slices, ha, lw, lb]
    rw [hnp, Int.toNat_natCast]
    exact ⟨⟨rfl, rfl⟩, rfl⟩
  · rename_i ha
    cases h
    clear h2 h3 h4 h5
    simp [Plan.arrays, Plan.slices, ha, lw, lb]
    rw [hnp, Int.toNat_natCast]

theorem subSlice_ok {s r : Slice} {i j : Int} (h : subSlice s i j = .ok r) :
    r = { arr := s.arr, off := s.off + i.toNat, len := (j - i).toNat } ∧ 0 ≤ i ∧ i ≤ j ∧ j ≤ s.len := by
  unfold subSlice at h
  split at h
  · cases h; rename_i h; exact ⟨rfl, h⟩
  · cases h

/-- The cells of a hash table that belong to a vector. -/
def indexOf (cfg : Config F) (hasher : Hasher) (s : LSH) (ws spare : List F) : Go (List Int) :=
  match hashDense cfg hasher ws spare with
  | .ok hashes => hashesToIndex (hashFunctionOf cfg.HashFunction) s hashes
  | .error e => .error e

/-- What lies behind a slice. -/
def spareAt (fs : List (List F)) (s : Slice) : List F := ((fs[s.arr]?).getD []).drop (s.off + s.len)

theorem addToHashTable_ok {cfg : Config F} {hasher : Hasher} {t : Ptr} {weights : Slice} {id : Int} {u : Unit} {w w' : World F}
    (h : addToHashTable cfg hasher t weights id w = .ok (u, w')) :
    ∃ ws s indices slots s', readSlice w.heap.floats weights = some ws ∧ w.lshs[t]? = some s ∧
      indexOf cfg hasher s ws (spareAt w.heap.floats weights) = .ok indices ∧ Lsh.add s indices id = .ok (slots, s') ∧
      w' = { w with lshs := w.lshs.set t s' } := by
  unfold addToHashTable at h
  replace h := M.bind_eq_ok h
  obtain ⟨ws, w1, h1, h⟩ := h
  obtain ⟨hp, hh, rfl⟩ := onHeap_ok h1
  have hws : readSlice w.heap.floats weights = some ws ∧ hp = w.heap := by
    unfold floatsOf at hh
    split at hh
    · rename_i e; cases hh; exact ⟨e, rfl⟩
    · cases hh
  obtain ⟨hws, rfl⟩ := hws
  replace h := M.bind_eq_ok h
  obtain ⟨sp, w2, h2, h⟩ := h
  obtain ⟨hp, hh, rfl⟩ := onHeap_ok h2
  cases hh
  replace h := M.bind_eq_ok h
  obtain ⟨hashes, w3, h3, h⟩ := h
  obtain ⟨e3, rfl⟩ := lift_ok h3
  replace h := M.bind_eq_ok h
  obtain ⟨s, w4, h4, h⟩ := h
  obtain ⟨e4, rfl⟩ := tables_ok h4
  replace h := M.bind_eq_ok h
  obtain ⟨indices, w5, h5, h⟩ := h
  obtain ⟨e5, rfl⟩ := lift_ok h5
  replace h := M.bind_eq_ok h
  obtain ⟨⟨slots, s'⟩, w6, h6, h⟩ := h
  obtain ⟨e6, rfl⟩ := lift_ok h6
  cases h
  refine ⟨ws, s, indices, slots, s', hws, e4, ?_, e6, rfl⟩
  unfold indexOf
  rw [show hashDense cfg hasher ws (spareAt w.heap.floats weights) = .ok hashes from e3]
  exact e5

/-- Reading a part of an array. -/
theorem readSlice_part {α : Type} {store : List (List α)} {a : List α} {k off len : Nat} (h : store[k]? = some a)
    (hl : off + len ≤ a.length) : readSlice store { arr := k, off := off, len := len } = some ((a.drop off).take len) := by
  unfold readSlice
  by_cases h0 : len = 0
  · simp [h0]
  · simp only [h0, if_false, h, hl, if_true]

theorem mul_fit {n p m : Nat} (hm : m < n) : p * m + p ≤ n * p := by
  have : p * (m + 1) ≤ p * n := Nat.mul_le_mul_left p (by omega)
  rw [Nat.mul_comm n p]
  rw [Nat.mul_add] at this
  omega

theorem stage_array (P : Plan F) (h : Heap F) (k : Nat) {j : Nat} {a : List F} (ha : P.arrays[j]? = some a) :
    (P.stage h k).floats[h.floats.length + j]? = some a := by
  have hj := (List.getElem?_eq_some_iff.mp ha).1
  show (h.floats ++ (P.arrays ++ _))[_]? = _
  rw [List.getElem?_append_right (by omega), Nat.add_sub_cancel_left, List.getElem?_append_left hj, ha]

theorem drop_take_replicate {α : Type} (n off len : Nat) (a : α) (h : off + len ≤ n) :
    ((List.replicate n a).drop off).take len = List.replicate len a := by
  rw [List.drop_replicate, List.take_replicate]
  congr 1; omega

theorem range'_part (s n off len : Nat) (h : off + len ≤ n) :
    ((List.range' s n).drop off).take len = List.range' (s + off) len := by
  apply List.ext_getElem?
  intro i
  by_cases hi : i < len
  · rw [List.getElem?_take_of_lt hi, List.getElem?_drop, List.getElem?_range' (by omega), List.getElem?_range' hi]
    congr 1; omega
  · rw [List.getElem?_eq_none (by simp; omega), List.getElem?_eq_none (by simp; omega)]

/-- The objects of node `m` after its initialisation. -/
theorem stage_parts (P : Plan F) (h : Heap F) (hw : P.ws.length = P.n * P.p) {m k : Nat} (hm : m < P.n) (hk : m < k) :
    Parts (P.stage h k) (h.nodes.length + m) (P.view m) (P.node h m) (P.base h m)
      (List.range' (h.trains.length + P.b * m) P.b) := by
  have hn := stage_node P h (k := k) hm
  rw [if_pos hk] at hn
  have hb := stage_base P h (k := k) hm
  rw [if_pos hk] at hb
  have hfit : P.p * m + P.p ≤ P.n * P.p := mul_fit hm
  have hfit' : P.b * m + P.b ≤ P.n * P.b := mul_fit hm
  have hW : readSlice (P.stage h k).floats (P.base h m).weights = some ((P.ws.drop (P.p * m)).take P.p) :=
    readSlice_part (stage_array P h k (j := 0) (by simp [Plan.arrays])) (by rw [hw]; exact hfit)
  refine ⟨hn, hb, ?_, ?_, ?_, List.nodup_range', ?_⟩
  · rw [baseParams_iff]
    refine ⟨hW, hW, ?_, ?_, ?_, rfl, rfl, rfl, rfl, rfl, rfl, rfl, rfl⟩
    · cases hA : P.adam with
      | false => simp [Plan.base, Plan.view, Plan.params, hA, readSlice, nilSlice]
      | true =>
        have e := readSlice_part (off := P.p * m) (len := P.p) (stage_array P h k (j := 2) (a := List.replicate (P.n * P.p) GoFloat.zero)
          (by simp [Plan.arrays, hA])) (by rw [List.length_replicate]; exact hfit)
        rw [drop_take_replicate _ _ _ _ hfit] at e
        simpa [Plan.base, Plan.view, Plan.params, hA, Plan.zeros] using e
    · cases hA : P.adam with
      | false => simp [Plan.base, Plan.view, Plan.params, hA, readSlice, nilSlice]
      | true =>
        have e := readSlice_part (off := P.p * m) (len := P.p) (stage_array P h k (j := 3) (a := List.replicate (P.n * P.p) GoFloat.zero)
          (by simp [Plan.arrays, hA])) (by rw [List.length_replicate]; exact hfit)
        rw [drop_take_replicate _ _ _ _ hfit] at e
        simpa [Plan.base, Plan.view, Plan.params, hA, Plan.zeros] using e
    · cases hA : P.adam with
      | false => simp [Plan.base, Plan.view, Plan.params, hA, readSlice, nilSlice]
      | true =>
        have hz : (P.stage h k).floats[h.floats.length + 4 + m]? = some P.zeros := by
          show (h.floats ++ (P.arrays ++ _))[_]? = _
          rw [List.getElem?_append_right (by omega), List.getElem?_append_right (by simp [Plan.arrays, hA]; omega)]
          simp only [Plan.arrays, hA, if_true]
          rw [List.getElem?_replicate_of_lt (by simp; omega)]
        have e := readSlice_part (off := 0) (len := P.p) hz (by simp [Plan.zeros])
        have e' : (P.zeros.drop 0).take P.p = P.zeros := by simp [Plan.zeros]
        rw [e'] at e
        simpa [Plan.base, Plan.view, Plan.params, hA] using e
  · have e := readSlice_part (store := (P.stage h k).trainArrs) (k := h.trainArrs.length) (off := P.b * m) (len := P.b)
      (a := List.range' h.trains.length (P.n * P.b)) (by simp [Plan.stage]) (by rw [List.length_range']; exact hfit')
    refine Eq.trans e ?_
    rw [range'_part _ _ _ _ hfit']
  · rw [slotsAt_iff]
    refine ⟨by simp [Plan.view], fun i q hq => ?_⟩
    have hi : i < P.b := by
      have := (List.getElem?_eq_some_iff.mp hq).1
      rwa [List.length_range'] at this
    rw [List.getElem?_range' hi] at hq
    cases hq
    refine ⟨blankTrain P.cowId, ?_, ?_⟩
    · show (h.trains ++ _)[_]? = _
      rw [List.getElem?_append_right (by omega), List.getElem?_replicate_of_lt (by omega)]
    · show (List.replicate _ _)[i]? = _
      rw [List.getElem?_replicate_of_lt hi]; rfl
  · show ((List.replicate _ _).length : Int) = P.b
    rw [List.length_replicate]

theorem indexOf_shape {cfg : Config F} {hasher : Hasher} {s s' : LSH} (h : Shape s s') (ws spare : List F) :
    indexOf cfg hasher s' ws spare = indexOf cfg hasher s ws spare := by
  unfold indexOf
  split
  · rw [hashesToIndex_shape h]
  · rfl

/-- The slice of the training states of the layer. -/
def Plan.trainSlice (P : Plan F) (h : Heap F) : Slice := { arr := h.trainArrs.length, off := 0, len := P.n * P.b }
/-- The slice of the nodes of the layer. -/
def Plan.nodeSlice (P : Plan F) (h : Heap F) : Slice := { arr := h.nodeArrs.length, off := 0, len := P.n }

theorem stage_nodes (P : Plan F) (h : Heap F) (k : Nat) :
    readSlice (P.stage h k).nodeArrs (P.nodeSlice h) = some (List.range' h.nodes.length P.n) := by
  have e := readSlice_new h.nodeArrs (List.range' h.nodes.length P.n) []
  rw [List.length_range'] at e
  exact e

theorem set_self {α : Type} {l : List α} {i : Nat} {a : α} (h : l[i]? = some a) : l.set i a = l := by
  apply List.ext_getElem?
  intro j
  rw [List.getElem?_set]
  split
  · rename_i e; subst e
    rw [if_pos (List.getElem?_eq_some_iff.mp h).1, h]
  · rfl

theorem initNode_ok {cfg : Config F} {hasher : Hasher} {t : Ptr} (P : Plan F) (h : Heap F) (ha : cfg.UseAdam = P.adam)
    (hws : P.ws.length = P.n * P.p) (hbs : P.bs.length = P.n) {k : Nat} (hk : k < P.n) {w w' : World F} {u : Unit}
    (hh : w.heap = P.stage h k)
    (hr : initNode cfg P.cowId P.p P.ty P.b hasher t (P.slices h) (P.trainSlice h) (P.nodeSlice h) k w = .ok (u, w')) :
    ∃ s indices slots s', w.lshs[t]? = some s ∧
      indexOf cfg hasher s (P.params k).weights (P.ws.drop (P.p * k + P.p)) = .ok indices ∧
      Lsh.add s indices k = .ok (slots, s') ∧ w' = { w with heap := P.stage h (k + 1), lshs := w.lshs.set t s' } := by
  obtain ⟨heap, ints, lshs, consts, layers, layerArrs, networks, rng, norms, mapRng, hashes⟩ := w
  subst hh
  unfold initNode at hr
  dsimp only [Plan.slices] at hr
  have c1 : ((P.p : Int) * (k : Int)) = ((P.p * k : Nat) : Int) := by simp
  have c2 : ((P.b : Int) * (k : Int)) = ((P.b * k : Nat) : Int) := by simp
  rw [c1, c2] at hr
  have sub : ∀ (a len x y : Nat) (r : Slice), subSlice { arr := a, off := 0, len := len } (x : Int) ((x : Int) + (y : Int)) = .ok r →
      r = { arr := a, off := x, len := y } := by
    intro a len x y r hr
    rw [(subSlice_ok hr).1]
    congr 1
    · show 0 + _ = _; omega
    · omega
  replace hr := M.bind_eq_ok hr
  obtain ⟨⟨m, v⟩, w1, h1, hr⟩ := hr
  have hmv : m = (P.base h k).adamAvgMom ∧ v = (P.base h k).adamAvgVel ∧ w1 = ⟨P.stage h k, ints, lshs, consts, layers, layerArrs, networks, rng, norms, mapRng, hashes⟩ := by
    unfold adamSlices at h1
    rw [ha] at h1
    cases hA : P.adam with
    | true =>
      rw [hA, if_pos rfl] at h1
      replace h1 := M.bind_eq_ok h1
      obtain ⟨m', w2, h2, h1⟩ := h1
      obtain ⟨e2, rfl⟩ := lift_ok h2
      replace h1 := M.bind_eq_ok h1
      obtain ⟨v', w3, h3, h1⟩ := h1
      obtain ⟨e3, rfl⟩ := lift_ok h3
      cases h1
      rw [if_pos rfl] at e2 e3
      refine ⟨?_, ?_, rfl⟩
      · rw [sub _ _ _ _ _ e2]; simp [Plan.base, hA]
      · rw [sub _ _ _ _ _ e3]; simp [Plan.base, hA]
    | false =>
      rw [hA, if_neg (by simp)] at h1
      cases h1
      simp [Plan.base, hA]
  obtain ⟨rfl, rfl, rfl⟩ := hmv
  replace hr := M.bind_eq_ok hr
  obtain ⟨p, w2, h2, hr⟩ := hr
  have hp : nodePtr (P.nodeSlice h) k (P.stage h k) = .ok (h.nodes.length + k, P.stage h k) := by
    unfold nodePtr
    rw [readCell_ok_of (stage_nodes P h k) (x := h.nodes.length + k) (by rw [List.getElem?_range' hk]; congr 1; omega)]
    rfl
  rw [onHeap_run hp] at h2
  cases h2
  replace hr := M.bind_eq_ok hr
  obtain ⟨ww, w3, h3, hr⟩ := hr
  obtain ⟨e3, rfl⟩ := lift_ok h3
  have e3' := sub _ _ _ _ _ e3
  have e3'' : ww = (P.base h k).weights := e3'
  subst e3''
  replace hr := M.bind_eq_ok hr
  obtain ⟨b, w4, h4, hr⟩ := hr
  have hb : float { arr := h.floats.length + 1, off := 0, len := P.n } (k : Int) (P.stage h k) = .ok ((P.base h k).bias, P.stage h k) := by
    have e := readSlice_part (off := 0) (len := P.n) (stage_array P h k (j := 1) (a := P.bs) (by simp [Plan.arrays])) (by omega)
    rw [List.drop_zero, List.take_of_length_le (by omega)] at e
    rw [float_run e, dif_pos (by omega)]
    congr 2
    show _ = (P.bs[k]?).getD _
    rw [List.getElem?_eq_getElem (by omega)]
    simp
  rw [onHeap_run hb] at h4
  cases h4
  replace hr := M.bind_eq_ok hr
  obtain ⟨tr, w5, h5, hr⟩ := hr
  obtain ⟨e5, rfl⟩ := lift_ok h5
  have e5' : tr = (P.node h k).train := sub _ _ _ _ _ e5
  subst e5'
  replace hr := M.bind_eq_ok hr
  obtain ⟨q, w6, h6, hr⟩ := hr
  rw [onHeap_run (update_run cfg P h ha hk)] at h6
  cases h6
  replace hr := M.bind_eq_ok hr
  obtain ⟨u7, w7, h7, hr⟩ := hr
  have hset : setNodePtr (P.nodeSlice h) (k : Int) (h.nodes.length + k) (P.stage h (k + 1)) = .ok ((), P.stage h (k + 1)) := by
    unfold setNodePtr
    rw [writeCell_id (stage_nodes P h (k + 1)) (by rw [List.getElem?_range' hk]; congr 1; omega)]
    rfl
  rw [onHeap_run hset] at h7
  cases h7
  replace hr := M.bind_eq_ok hr
  obtain ⟨ws, w8, h8, hr⟩ := hr
  have hn := stage_node P h (k := k + 1) hk
  rw [if_pos (by omega)] at hn
  have hbb := stage_base P h (k := k + 1) hk
  rw [if_pos (by omega)] at hbb
  have hw : Node.weights (h.nodes.length + k) (P.stage h (k + 1)) = .ok ((P.base h k).weights, P.stage h (k + 1)) := by
    unfold Node.weights baseOf
    have e : (do base (← Node.node (h.nodes.length + k)).base : NM F (BaseNode F)) (P.stage h (k + 1)) = .ok (P.base h k, P.stage h (k + 1)) := by
      rw [M.bind_ok (node_ok hn)]
      exact base_ok hbb
    rw [M.bind_ok e]
    rfl
  rw [onHeap_run hw] at h8
  cases h8
  obtain ⟨ws, s, indices, slots, s', g1, g2, g3, g4, rfl⟩ := addToHashTable_ok hr
  refine ⟨s, indices, slots, s', g2, ?_, g4, rfl⟩
  have hW : readSlice (P.stage h (k + 1)).floats (P.base h k).weights = some (P.params k).weights :=
    readSlice_part (stage_array P h (k + 1) (j := 0) (by simp [Plan.arrays])) (by rw [hws]; exact mul_fit hk)
  dsimp only at g1 g3
  rw [hW] at g1
  cases g1
  rw [← g3]
  congr 1
  have := stage_array P h (k + 1) (j := 0) (a := P.ws) (by simp [Plan.arrays])
  unfold spareAt
  show _ = (((P.stage h (k + 1)).floats[h.floats.length + 0]?).getD []).drop (P.p * k + P.p)
  rw [this]
  rfl

theorem initLoop_ok {cfg : Config F} {hasher : Hasher} {t : Ptr} (P : Plan F) (h : Heap F) (ha : cfg.UseAdam = P.adam)
    (hws : P.ws.length = P.n * P.p) (hbs : P.bs.length = P.n) : ∀ (m k : Nat), k + m = P.n → ∀ (w w' : World F) (s : LSH) (u : Unit),
    w.heap = P.stage h k → w.lshs[t]? = some s →
    ((List.range' k m).map (fun (i : Nat) => (i : Int))).forM
      (initNode cfg P.cowId P.p P.ty P.b hasher t (P.slices h) (P.trainSlice h) (P.nodeSlice h)) w = .ok (u, w') →
    ∃ (I : Nat → List Int) (s' : LSH),
      (∀ j, k ≤ j → j < P.n → indexOf cfg hasher s (P.params j).weights (P.ws.drop (P.p * j + P.p)) = .ok (I j)) ∧
      Lsh.run s ((List.range' k m).map (fun j => Op.add (I j) j)) = .ok s' ∧
      w' = { w with heap := P.stage h P.n, lshs := w.lshs.set t s' } := by
  intro m
  induction m with
  | zero =>
    intro k hk w w' s u hh hs hr
    cases hr
    have : k = P.n := by omega
    subst this
    refine ⟨fun _ => [], s, fun j h1 h2 => by omega, rfl, ?_⟩
    rw [set_self hs, ← hh]
  | succ m ih =>
    intro k hk w w' s u hh hs hr
    rw [List.range'_succ, List.map_cons] at hr
    replace hr := M.bind_eq_ok hr
    obtain ⟨_, w1, h1, hr⟩ := hr
    obtain ⟨s0, indices, slots, s1, g1, g2, g3, rfl⟩ := initNode_ok P h ha hws hbs (by omega) hh h1
    rw [hs] at g1
    cases g1
    have hlt := (List.getElem?_eq_some_iff.mp hs).1
    obtain ⟨I, s', i1, i2, i3⟩ := ih (k + 1) (by omega) _ _ s1 _ rfl (by dsimp only; rw [List.getElem?_set_self hlt]) hr
    refine ⟨fun j => if j = k then indices else I j, s', ?_, ?_, ?_⟩
    · intro j hj1 hj2
      dsimp only
      by_cases e : j = k
      · subst e; rw [if_pos rfl]; exact g2
      · rw [if_neg e, ← i1 j (by omega) hj2, indexOf_shape (add_shape g3)]
    · rw [List.range'_succ, List.map_cons, run_cons]
      have : step s (Op.add (if k = k then indices else I k) (k : Int)) = .ok s1 := by
        unfold step; simp only [if_true, g3]; rfl
      rw [this, ok_bind, ← i2]
      congr 1
      apply List.map_congr_left
      intro j hj
      have := (List.mem_range'_1.mp hj).1
      dsimp only
      rw [if_neg (by omega)]
    · rw [i3]
      dsimp only
      rw [List.set_set]

theorem newHasher_ok {cfg : Config F} {kl dim : Nat} {w w' : World F} {hs : Hasher} (h : newHasher cfg kl dim w = .ok (hs, w')) :
    ∃ r m, w' = { w with rng := r, hashes := m } := by
  unfold newHasher at h
  cases hf : hashFunctionOf cfg.HashFunction with
  | wta => simp only [hf] at h; obtain ⟨r, _, rfl⟩ := draw_ok h; exact ⟨_, _, rfl⟩
  | densifiedWta => simp only [hf] at h; obtain ⟨r, _, rfl⟩ := draw_ok h; exact ⟨_, _, rfl⟩
  | densifiedMinhash => simp only [hf] at h; cases h; exact ⟨_, _, rfl⟩
  | sparseRandomProjection => simp only [hf] at h; obtain ⟨r, _, rfl⟩ := draw_ok h; exact ⟨_, _, rfl⟩
  | other x => simp only [hf] at h; cases h

/-- The normalization constants of a new layer. -/
def newNorm (ty : NodeType) (b : Nat) : List F := if ty = Softmax then List.replicate b GoFloat.zero else []

/-- The memory after `New`. -/
theorem new_full {cfg : Config F} (hl : cfg.LoadWeight = false) {c n prev : Int} {ty : NodeType} {b k l rp : Int} {s1 s2 s3 s4 : Slice}
    {p : Ptr} {w w' : World F} (hr : new cfg c n prev ty b k l rp s1 s2 s3 s4 w = .ok (p, w')) :
    ∃ (P : Plan F) (order : List Int) (x : Layer) (s0 s : LSH) (r r' : Rng) (I : Nat → List Int),
      P.cowId = c ∧ (P.n : Int) = n ∧ (P.p : Int) = prev ∧ P.ty = ty ∧ P.adam = cfg.UseAdam ∧ P.b = b.toNat ∧ (0 < P.n → 0 ≤ b) ∧
      P.ws.length = P.n * P.p ∧ P.bs.length = P.n ∧
      order.Perm ((List.range P.n).map (fun (i : Nat) => (i : Int))) ∧
      0 ≤ k ∧ 0 ≤ l ∧ 0 ≤ rp ∧ Lsh.new k.toNat l.toNat rp.toNat r = .ok (s0, r') ∧
      (∀ j, j < P.n → indexOf cfg x.hasher s0 (P.params j).weights (P.ws.drop (P.p * j + P.p)) = .ok (I j)) ∧
      Lsh.run s0 ((List.range P.n).map (fun j => Op.add (I j) j)) = .ok s ∧
      (x.cowId = c ∧ x.nodeType = ty ∧ x.nodes = P.nodeSlice w.heap ∧ x.randNode = { arr := w.ints.length, off := 0, len := order.length } ∧
        x.normalizationConstants = (if ty = Softmax then { arr := w.consts.length, off := 0, len := P.b } else nilSlice) ∧
        x.k = k ∧ x.l = l ∧ x.previousLayerNumOfNodes = prev ∧ x.hashTables = w.lshs.length ∧
        ∃ v v' : World F, newHasher cfg (k * l).toNat prev.toNat v = .ok (x.hasher, v')) ∧ (ty = Softmax → 0 ≤ b) ∧
      p = w.layers.length ∧ w'.heap = P.stage w.heap P.n ∧ w'.ints = w.ints ++ [order] ∧ w'.lshs = w.lshs ++ [s] ∧
      w'.consts = w.consts ++ (if ty = Softmax then [newNorm ty P.b] else []) ∧
      w'.layers = w.layers ++ [x] ∧ w'.layerArrs = w.layerArrs ∧ w'.networks = w.networks ∧
      P.ws = normals w.norms 0 (P.n * P.p) ∧ P.bs = normals w.norms (P.n * P.p) P.n ∧ w'.norms = fun i => w.norms (i + P.n + P.n * P.p) := by
  have chk : ∀ (m : Int) (u : Unit) (w w' : World F), checkLen m w = .ok (u, w') → 0 ≤ m ∧ w' = w := by
    intro m u w w' h
    unfold checkLen at h
    split at h
    · cases h
    · cases h; exact ⟨by omega, rfl⟩
  unfold new at hr
  replace hr := M.bind_eq_ok hr
  obtain ⟨_, w1, h1, hr⟩ := hr
  obtain ⟨hn, e1⟩ := chk _ _ _ _ h1
  replace hr := M.bind_eq_ok hr
  obtain ⟨order, w2, h2, hr⟩ := hr
  obtain ⟨r2, hr2, e2⟩ := draw_ok h2
  have hperm : order.Perm ((List.range n.toNat).map (fun (i : Nat) => (i : Int))) := by
    have e := congrArg Prod.fst (Except.ok.inj hr2)
    dsimp only at e
    rw [← e]; exact shuffle_perm _ _
  replace hr := M.bind_eq_ok hr
  obtain ⟨rn, w3, h3, hr⟩ := hr
  have e3 : rn = { arr := w2.ints.length, off := 0, len := order.length } ∧ w3 = { w2 with ints := w2.ints ++ [order] } := by
    have e := Except.ok.inj h3
    exact ⟨(congrArg Prod.fst e).symm, (congrArg Prod.snd e).symm⟩
  replace hr := M.bind_eq_ok hr
  obtain ⟨_, w4, h4, hr⟩ := hr
  obtain ⟨hk, e4⟩ := chk _ _ _ _ h4
  replace hr := M.bind_eq_ok hr
  obtain ⟨_, w5, h5, hr⟩ := hr
  obtain ⟨hl', e5⟩ := chk _ _ _ _ h5
  replace hr := M.bind_eq_ok hr
  obtain ⟨_, w6, h6, hr⟩ := hr
  obtain ⟨hrp, e6⟩ := chk _ _ _ _ h6
  replace hr := M.bind_eq_ok hr
  obtain ⟨_, w7, h7, hr⟩ := hr
  obtain ⟨hprev, e7⟩ := chk _ _ _ _ h7
  replace hr := M.bind_eq_ok hr
  obtain ⟨s0, w8, h8, hr⟩ := hr
  obtain ⟨r8, hr8, e8⟩ := draw_ok h8
  replace hr := M.bind_eq_ok hr
  obtain ⟨t, w9, h9, hr⟩ := hr
  have e9 : t = w8.lshs.length ∧ w9 = { w8 with lshs := w8.lshs ++ [s0] } := by
    have e := Except.ok.inj h9
    exact ⟨(congrArg Prod.fst e).symm, (congrArg Prod.snd e).symm⟩
  replace hr := M.bind_eq_ok hr
  obtain ⟨hs, w10, h10, hr⟩ := hr
  obtain ⟨r10, m10, e10⟩ := newHasher_ok h10
  replace hr := M.bind_eq_ok hr
  obtain ⟨arrays, w11, h11, hr⟩ := hr
  obtain ⟨n, rfl⟩ := Int.eq_ofNat_of_zero_le hn
  obtain ⟨q, rfl⟩ := Int.eq_ofNat_of_zero_le hprev
  obtain ⟨ws, bs, nm, lws, lbs, ⟨dws, dbs, dnm⟩, e11⟩ := newArrays_ok hl h11
  replace hr := M.bind_eq_ok hr
  obtain ⟨_, w12, h12, hr⟩ := hr
  obtain ⟨hnb, e12⟩ := chk _ _ _ _ h12
  replace hr := M.bind_eq_ok hr
  obtain ⟨trains, w13, h13, hr⟩ := hr
  obtain ⟨_, hh13, e13⟩ := onHeap_ok h13
  rw [newNodeTrains_run] at hh13
  replace hr := M.bind_eq_ok hr
  obtain ⟨ta, w14, h14, hr⟩ := hr
  obtain ⟨_, hh14, e14⟩ := onHeap_ok h14
  replace hr := M.bind_eq_ok hr
  obtain ⟨ps, w15, h15, hr⟩ := hr
  obtain ⟨_, hh15, e15⟩ := onHeap_ok h15
  rw [newEmptyNodes_run] at hh15
  replace hr := M.bind_eq_ok hr
  obtain ⟨ns, w16, h16, hr⟩ := hr
  obtain ⟨_, hh16, e16⟩ := onHeap_ok h16
  replace hr := M.bind_eq_ok hr
  obtain ⟨_, w17, h17, hr⟩ := hr
  replace hr := M.bind_eq_ok hr
  obtain ⟨nm', w18, h18, hr⟩ := hr
  have hb : 0 < n → 0 ≤ b := by
    refine fun hn0 => Int.not_lt.mp (fun hb => ?_)
    have : (n : Int) * b < 0 := Int.mul_neg_of_pos_of_neg (by omega) (by omega)
    omega
  have hnb' : ((n : Int) * b).toNat = n * b.toNat := by
    by_cases h0 : n = 0
    · subst h0; simp
    · have := hb (by omega)
      obtain ⟨b', rfl⟩ := Int.eq_ofNat_of_zero_le this
      have : ((n : Int) * (b' : Int)) = ((n * b' : Nat) : Int) := by simp
      rw [this]; simp only [Int.toNat_natCast]
  obtain ⟨e11, ea⟩ := e11 c ty b.toNat
  generalize hP : ({ cowId := c, n := n, b := b.toNat, p := q, ty := ty, adam := cfg.UseAdam, ws := ws, bs := bs } : Plan F) = P at e11 ea
  have hPf : P.cowId = c ∧ P.n = n ∧ P.b = b.toNat ∧ P.p = q ∧ P.ty = ty ∧ P.adam = cfg.UseAdam ∧ P.ws = ws ∧ P.bs = bs := by
    subst hP; exact ⟨rfl, rfl, rfl, rfl, rfl, rfl, rfl, rfl⟩
  have A : w10.heap = w.heap ∧ w10.ints = w.ints ++ [order] ∧ w10.lshs = w.lshs ++ [s0] ∧ w10.consts = w.consts ∧
      w10.layers = w.layers ∧ w10.layerArrs = w.layerArrs ∧ w10.networks = w.networks ∧ t = w.lshs.length ∧
      rn = { arr := w.ints.length, off := 0, len := order.length } ∧ w10.norms = w.norms := by
    rw [e10, e9.1, e9.2, e8, e7, e6, e5, e4, e3.1, e3.2, e2, e1]
    exact ⟨rfl, rfl, rfl, rfl, rfl, rfl, rfl, rfl, rfl, rfl⟩
  obtain ⟨A1, A2, A3, A4, A5, A6, A7, A8, A9, A10⟩ := A
  rw [A10] at dws dbs dnm
  obtain ⟨P1, P2, P3, P4, P5, P6, P7, P8⟩ := hPf
  rw [e12] at hh13 e13
  have B : w16.heap = P.stage w.heap 0 ∧ w16.ints = w10.ints ∧ w16.lshs = w10.lshs ∧ w16.consts = w10.consts ∧
      w16.layers = w10.layers ∧ w16.layerArrs = w10.layerArrs ∧ w16.networks = w10.networks ∧
      ta = P.trainSlice w.heap ∧ ns = P.nodeSlice w.heap ∧ w16.norms = nm := by
    have e12' : w12 = w11 := e12
    cases hh13
    cases hh14
    cases hh15
    cases hh16
    rw [e16, e15, e14, e13, e11]
    dsimp only
    rw [A1]
    refine ⟨?_, rfl, rfl, rfl, rfl, rfl, rfl, ?_, ?_, rfl⟩
    · unfold Plan.stage
      rw [hnb', P1, P2, P3]
      simp [Plan.arrays]
    · unfold Plan.trainSlice
      rw [hnb', P2, P3]
      simp
    · unfold Plan.nodeSlice
      rw [P2]
      simp
  obtain ⟨B1, B2, B3, B4, B5, B6, B7, B8, B9, B10⟩ := B
  have h17' : ((List.range' 0 P.n).map (fun (i : Nat) => (i : Int))).forM
      (initNode cfg P.cowId P.p P.ty P.b hs t (P.slices w.heap) (P.trainSlice w.heap) (P.nodeSlice w.heap)) w16 = .ok ((), w17) := by
    rw [ea, A1, B8, B9, Int.toNat_natCast] at h17
    rw [← List.range_eq_range', P1, P2, P3, P4, P5]
    by_cases h0 : n = 0
    · subst h0; exact h17
    · have := hb (by omega)
      rw [show ((b.toNat : Nat) : Int) = b by omega]
      exact h17
  obtain ⟨I, s, i1, i2, i3⟩ := initLoop_ok P w.heap P6.symm (by rw [P7, P2, P4]; exact lws) (by rw [P8, P2]; exact lbs) P.n 0 (by omega) _ _ s0 () B1
    (by rw [B3, A3, A8]; simp) h17'
  have C : nm' = (if ty = Softmax then { arr := w.consts.length, off := 0, len := P.b } else nilSlice) ∧ (ty = Softmax → 0 ≤ b) ∧
      w18 = { w17 with consts := w17.consts ++ (if ty = Softmax then [newNorm ty P.b] else []) } := by
    unfold newConsts at h18
    unfold newNorm
    rw [P3]
    by_cases ht : ty = Softmax
    · rw [if_pos ht] at h18
      unfold allocConsts at h18
      by_cases hb0 : b < 0
      · rw [if_pos hb0] at h18; cases h18
      · rw [if_neg hb0] at h18
        rw [if_pos ht, if_pos ht, if_pos ht]
        have e := Except.ok.inj h18
        refine ⟨?_, fun _ => by omega, (congrArg Prod.snd e).symm⟩
        refine (congrArg Prod.fst e).symm.trans ?_
        dsimp only
        rw [i3]
        dsimp only
        rw [B4, A4]
    · rw [if_neg ht] at h18
      cases h18
      rw [if_neg ht, if_neg ht]
      exact ⟨rfl, fun h => absurd h ht, by simp⟩
  obtain ⟨C1, C2, C3⟩ := C
  have D := Except.ok.inj hr
  have D1 := congrArg Prod.fst D
  have D2 := congrArg Prod.snd D
  dsimp only at D1 D2
  generalize hx : ({ cowId := c, nodeType := ty, nodes := ns, randNode := rn, normalizationConstants := nm', k := k, l := l, previousLayerNumOfNodes := q, hashTables := t, hasher := hs } : Layer) = x at D2
  have hxh : x.hasher = hs := by subst hx; rfl
  refine ⟨P, order, x, s0, s, _, _, I, P1, by rw [P2], by rw [P4], P5, P6, P3, by rw [P2]; exact hb, by rw [P7, P2, P4]; exact lws,
    by rw [P8, P2]; exact lbs, by rw [P2]; exact hperm, hk, hl', hrp, hr8, ?_, by rw [List.range_eq_range']; exact i2, ?_, C2, ?_, ?_, ?_, ?_, ?_, ?_, ?_, ?_, by rw [P7, P2, P4]; exact dws, by rw [P8, P2, P4]; exact dbs, ?_⟩
  · intro j hj
    rw [hxh]
    exact i1 j (by omega) hj
  · subst hx
    exact ⟨rfl, rfl, B9, A9, C1, rfl, rfl, rfl, A8, _, _, h10⟩
  · rw [← D1, C3, i3]
    show w16.layers.length = _
    rw [B5, A5]
  · rw [← D2, C3, i3]
  · rw [← D2, C3, i3]
    show w16.ints = _
    rw [B2, A2]
  · rw [← D2, C3, i3]
    show w16.lshs.set t s = _
    rw [B3, A3, A8]
    simp
  · rw [← D2, C3, i3]
    show w16.consts ++ _ = _
    rw [B4, A4]
  · rw [← D2, C3, i3]
    show w16.layers ++ _ = _
    rw [B5, A5]
  · rw [← D2, C3, i3]
    show w16.layerArrs = _
    rw [B6, A6]
  · rw [← D2, C3, i3]
    show w16.networks = _
    rw [B7, A7]
  · rw [← D2, C3, i3, P2, P4]
    show w16.norms = _
    rw [B10, dnm]

end Goslide.Layer
