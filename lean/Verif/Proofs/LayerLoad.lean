import Verif.Proofs.LayerFresh
/-
The memory after `layer.New` with given arrays (LoadWeight).
-/
set_option linter.unusedSectionVars false
namespace Goslide.Layer
open Goslide Node Lsh Configuration Spec.Node Network
variable {F : Type} [GoFloat F]

/-- What a loaded layer is made of (`b` = batch size, `p` = number of inputs): the given slices `sw`, `sb`, `sm`, `sv` and what they hold. -/
structure Load (F : Type) where
  cowId : Int
  n : Nat
  b : Nat
  p : Nat
  ty : Int
  adam : Bool
  sw : Slice
  sb : Slice
  sm : Slice
  sv : Slice
  ws : List F
  bs : List F
  ms : List F
  vs : List F

namespace Load
variable (P : Load F) (h : Heap F)

/-- The given slices hold the given vectors. -/
structure Given : Prop where
  w : readSlice h.floats P.sw = some P.ws
  wa : P.sw.arr < h.floats.length
  b : readSlice h.floats P.sb = some P.bs
  m : P.adam = true → readSlice h.floats P.sm = some P.ms
  v : P.adam = true → readSlice h.floats P.sv = some P.vs

/-- The vector of zeros for the gradients of a node. -/
def zeros : List F := List.replicate P.p GoFloat.zero

/-- The part of a given array for node `m`. -/
def part (s : Slice) (m : Nat) : Slice := { arr := s.arr, off := s.off + P.p * m, len := P.p }

/-- The base of node `m`. -/
def base (m : Nat) : BaseNode F :=
  { emptyBase P.cowId with
    idInLayer := m
    nodeType := P.ty
    currentBatchsize := P.b
    weights := P.part P.sw m
    bias := (P.bs[m]?).getD GoFloat.zero
    mirrorBias := (P.bs[m]?).getD GoFloat.zero
    mirrorWeights := P.part P.sw m
    adamAvgMom := if P.adam then P.part P.sm m else nilSlice
    adamAvgVel := if P.adam then P.part P.sv m else nilSlice
    t := if P.adam then { arr := h.floats.length + m, off := 0, len := P.p } else nilSlice }

/-- Node `m`. -/
def node (m : Nat) : Node :=
  { cowId := P.cowId, base := h.bases.length + m,
    train := { arr := h.trainArrs.length, off := P.b * m, len := P.b } }

/-- The memory `h` with the new layer after the initialisation of `k` nodes. -/
def stage (k : Nat) : Heap F where
  floats := h.floats ++ List.replicate (if P.adam then k else 0) P.zeros
  trainArrs := h.trainArrs ++ [List.range' h.trains.length (P.n * P.b)]
  nodeArrs := h.nodeArrs ++ [List.range' h.nodes.length P.n]
  trains := h.trains ++ List.replicate (P.n * P.b) (blankTrain P.cowId)
  bases := h.bases ++ (List.range P.n).map (fun m => if m < k then P.base h m else emptyBase P.cowId)
  nodes := h.nodes ++ (List.range P.n).map (fun m => if m < k then P.node h m else
    { cowId := P.cowId, base := h.bases.length + m, train := nilSlice })

/-- The content of node `m`. -/
def params (m : Nat) : Params F :=
  { nodeType := P.ty, batch := P.b, id := m
    weights := (P.ws.drop (P.p * m)).take P.p
    mirrorWeights := (P.ws.drop (P.p * m)).take P.p
    mom := if P.adam then (P.ms.drop (P.p * m)).take P.p else []
    vel := if P.adam then (P.vs.drop (P.p * m)).take P.p else []
    t := if P.adam then P.zeros else []
    bias := (P.bs[m]?).getD GoFloat.zero
    mirrorBias := (P.bs[m]?).getD GoFloat.zero
    tBias := GoFloat.zero, momBias := GoFloat.zero, velBias := GoFloat.zero }

/-- The observation of node `m`. -/
def view (m : Nat) : View F := { params := P.params m, train := List.replicate P.b idle }

/-- The nodes of the new layer. -/
def nodes : List (Ptr × View F) := (List.range P.n).map (fun m => (h.nodes.length + m, P.view m))

/-- The given arrays are long enough for node `m`. -/
def Fits (m : Nat) : Prop :=
  P.p * m + P.p ≤ P.sw.len ∧ m < P.sb.len ∧ (P.adam = true → P.p * m + P.p ≤ P.sm.len ∧ P.p * m + P.p ≤ P.sv.len)

/-- The slices of the arrays of the layer. -/
def slices : Slice × Slice × Slice × Slice := (P.sw, P.sb, if P.adam then P.sm else nilSlice, if P.adam then P.sv else nilSlice)

/-- The slice of the training states of the layer. -/
def trainSlice : Slice := { arr := h.trainArrs.length, off := 0, len := P.n * P.b }
/-- The slice of the nodes of the layer. -/
def nodeSlice : Slice := { arr := h.nodeArrs.length, off := 0, len := P.n }

end Load

namespace Load

theorem stage_node (P : Load F) (h : Heap F) {k m : Nat} (hm : m < P.n) :
    (P.stage h k).nodes[h.nodes.length + m]? = some (if m < k then P.node h m else
      { cowId := P.cowId, base := h.bases.length + m, train := nilSlice }) := getElem?_stage _ _ _ _ _ m hm

theorem stage_base (P : Load F) (h : Heap F) {k m : Nat} (hm : m < P.n) :
    (P.stage h k).bases[h.bases.length + m]? = some (if m < k then P.base h m else emptyBase P.cowId) := getElem?_stage _ _ _ _ _ m hm

/-- The initialisation of node `k`. -/
theorem update_run (cfg : Config F) (P : Load F) (h : Heap F) (ha : cfg.UseAdam = P.adam) {k : Nat} (hk : k < P.n) :
    update cfg (h.nodes.length + k) P.cowId P.p k P.ty P.b (P.base h k).weights (P.base h k).bias (P.base h k).adamAvgMom
      (P.base h k).adamAvgVel (P.node h k).train (P.stage h k) = .ok (h.nodes.length + k, P.stage h (k + 1)) := by
  have hn := stage_node P h (k := k) hk
  rw [if_neg (by omega)] at hn
  have hb := stage_base P h (k := k) hk
  rw [if_neg (by omega)] at hb
  unfold update
  have e1 : Node.cloneIfNeeded (h.nodes.length + k) P.cowId (P.stage h k) = .ok (h.nodes.length + k, P.stage h k) := by
    unfold Node.cloneIfNeeded
    rw [M.bind_ok (node_ok hn), if_neg (fun h => h rfl)]
    rfl
  rw [M.bind_ok e1]
  have e2 : ownBase (h.nodes.length + k) P.cowId (P.stage h k) = .ok (h.bases.length + k, P.stage h k) := by
    unfold ownBase
    rw [M.bind_ok (node_ok hn)]
    have : cloneBaseIfNeeded (h.bases.length + k) P.cowId (P.stage h k) = .ok (h.bases.length + k, P.stage h k) := by
      unfold cloneBaseIfNeeded
      rw [M.bind_ok (base_ok hb), if_neg (fun h => h rfl)]
      rfl
    rw [M.bind_ok this]
    have : (P.stage h k).nodes.set (h.nodes.length + k) { cowId := P.cowId, base := h.bases.length + k, train := nilSlice } = (P.stage h k).nodes := by
      apply List.ext_getElem?
      intro i
      rw [List.getElem?_set]
      split
      · rename_i e; subst e; rw [hn]
        split
        · rfl
        · rename_i e; exact absurd (List.getElem?_eq_some_iff.mp hn).1 e
      · rfl
    have e : Node.setNode (h.nodes.length + k) { cowId := P.cowId, base := h.bases.length + k, train := nilSlice } (P.stage h k) =
        .ok ((), P.stage h k) := by
      unfold Node.setNode; rw [this]
    rw [M.bind_ok e]
    rfl
  rw [M.bind_ok e2, M.bind_ok (base_ok hb)]
  have e3 : ∀ (x : Heap F) (hx : x.floats = (P.stage h k).floats), adamFields cfg P.p (P.base h k).adamAvgMom (P.base h k).adamAvgVel
      { emptyBase P.cowId with
        idInLayer := (k : Int), nodeType := P.ty, currentBatchsize := P.b,
        weights := (P.base h k).weights, bias := (P.base h k).bias, mirrorBias := (P.base h k).bias,
        mirrorWeights := (P.base h k).weights } x = .ok (P.base h k, { x with floats := (P.stage h (k + 1)).floats }) := by
    intro x hx
    unfold adamFields
    rw [ha]
    cases hA : P.adam with
    | true =>
      rw [if_pos rfl]
      unfold makeFloats
      rw [if_neg (by omega)]
      show Except.ok (_, _) = _
      rw [hx]
      have hl : (P.stage h k).floats.length = h.floats.length + k := by
        simp [Load.stage, hA]
      have hf : (P.stage h k).floats ++ [List.replicate ((P.p : Int)).toNat GoFloat.zero] = (P.stage h (k + 1)).floats := by
        simp only [Load.stage, hA, if_true, Int.toNat_natCast, List.append_assoc]
        rw [List.replicate_succ']
        rfl
      rw [hf, hl]
      simp [Load.base, hA]
    | false =>
      rw [if_neg (by simp)]
      show Except.ok (_, _) = _
      have hf : (P.stage h (k + 1)).floats = x.floats := by rw [hx]; simp [Load.stage, hA]
      rw [hf]
      simp [Load.base, hA, emptyBase]
  have e4 := e3 (P.stage h k) rfl
  rw [M.bind_ok e4]
  have hn' : ({ P.stage h k with floats := (P.stage h (k + 1)).floats, bases := (P.stage h k).bases.set (h.bases.length + k) (P.base h k) } : Heap F).nodes[h.nodes.length + k]? = some _ := hn
  have e5 : setBase (h.bases.length + k) (P.base h k) { P.stage h k with floats := (P.stage h (k + 1)).floats } =
      .ok ((), { P.stage h k with floats := (P.stage h (k + 1)).floats, bases := (P.stage h k).bases.set (h.bases.length + k) (P.base h k) }) := rfl
  rw [M.bind_ok e5, M.bind_ok (node_ok hn')]
  have hb' : (P.stage h k).bases.set (h.bases.length + k) (P.base h k) = (P.stage h (k + 1)).bases := set_stage _ _ _ _ _ hk
  have hn' : (P.stage h k).nodes.set (h.nodes.length + k) (P.node h k) = (P.stage h (k + 1)).nodes := set_stage _ _ _ _ _ hk
  rw [hb']
  show Except.ok (_, ({ P.stage h k with floats := _, bases := _, nodes := (P.stage h k).nodes.set (h.nodes.length + k) (P.node h k) } : Heap F)) = _
  rw [hn']
  rfl

/-- Reading a part of a slice. -/
theorem readSlice_part' {α : Type} {store : List (List α)} {s : Slice} {a : List α} {off len : Nat} (h : readSlice store s = some a)
    (hl : off + len ≤ s.len) : readSlice store { arr := s.arr, off := s.off + off, len := len } = some ((a.drop off).take len) := by
  by_cases h0 : len = 0
  · subst h0; simp [readSlice]
  · obtain ⟨b, hb, hle, rfl⟩ := readSlice_pos h (by omega)
    have := readSlice_part (off := s.off + off) (len := len) hb (by omega)
    rw [this]
    congr 1
    rw [List.drop_take, List.drop_drop, List.take_take, Nat.min_eq_left (by omega)]

theorem stage_read (P : Load F) (h : Heap F) (k : Nat) {s : Slice} {a : List F} (hs : readSlice h.floats s = some a) {m : Nat} (hf : P.p * m + P.p ≤ s.len) :
    readSlice (P.stage h k).floats (P.part s m) = some ((a.drop (P.p * m)).take P.p) :=
  readSlice_part' (readSlice_append hs _) hf

/-- The objects of node `m` after its initialisation. -/
theorem stage_parts (P : Load F) (h : Heap F) (G : P.Given h) {m k : Nat} (hm : m < P.n) (hk : m < k) (hf : P.Fits m) :
    Parts (P.stage h k) (h.nodes.length + m) (P.view m) (P.node h m) (P.base h m)
      (List.range' (h.trains.length + P.b * m) P.b) := by
  have hn := stage_node P h (k := k) hm
  rw [if_pos hk] at hn
  have hb := stage_base P h (k := k) hm
  rw [if_pos hk] at hb
  have hfit' : P.b * m + P.b ≤ P.n * P.b := mul_fit hm
  have hW : readSlice (P.stage h k).floats (P.base h m).weights = some ((P.ws.drop (P.p * m)).take P.p) :=
    stage_read P h k G.w hf.1
  refine ⟨hn, hb, ?_, ?_, ?_, List.nodup_range', ?_⟩
  · rw [baseParams_iff]
    refine ⟨hW, hW, ?_, ?_, ?_, rfl, rfl, rfl, rfl, rfl, rfl, rfl, rfl⟩
    · cases hA : P.adam with
      | false => simp [Load.base, Load.view, Load.params, hA, readSlice, nilSlice]
      | true =>
        have e := stage_read P h k (G.m hA) (hf.2.2 hA).1
        simpa [Load.base, Load.view, Load.params, hA] using e
    · cases hA : P.adam with
      | false => simp [Load.base, Load.view, Load.params, hA, readSlice, nilSlice]
      | true =>
        have e := stage_read P h k (G.v hA) (hf.2.2 hA).2
        simpa [Load.base, Load.view, Load.params, hA] using e
    · cases hA : P.adam with
      | false => simp [Load.base, Load.view, Load.params, hA, readSlice, nilSlice]
      | true =>
        have hz : (P.stage h k).floats[h.floats.length + m]? = some P.zeros := by
          show (h.floats ++ List.replicate _ _)[_]? = _
          rw [List.getElem?_append_right (by omega), List.getElem?_replicate_of_lt (by simp only [hA, if_true]; omega)]
        have e := readSlice_part (off := 0) (len := P.p) hz (by simp [Load.zeros])
        have e' : (P.zeros.drop 0).take P.p = P.zeros := by simp [Load.zeros]
        rw [e'] at e
        simpa [Load.base, Load.view, Load.params, hA] using e
  · have e := readSlice_part (store := (P.stage h k).trainArrs) (k := h.trainArrs.length) (off := P.b * m) (len := P.b)
      (a := List.range' h.trains.length (P.n * P.b)) (by simp [Load.stage]) (by rw [List.length_range']; exact hfit')
    refine Eq.trans e ?_
    rw [range'_part _ _ _ _ hfit']
  · rw [slotsAt_iff]
    refine ⟨by simp [Load.view], fun i q hq => ?_⟩
    have hi : i < P.b := by
      have := (List.getElem?_eq_some_iff.mp hq).1
      rwa [List.length_range'] at this
    rw [List.getElem?_range' hi] at hq
    cases hq
    refine ⟨blankTrain P.cowId, ?_, ?_⟩
    · show (h.trains ++ _)[_]? = _
      rw [List.getElem?_append_right (by omega), List.getElem?_replicate_of_lt (by omega)]
    · show (List.replicate _ _)[i]? = _
      rw [List.getElem?_replicate_of_lt hi]; rfl
  · show ((List.replicate _ _).length : Int) = P.b
    rw [List.length_replicate]

theorem stage_nodes (P : Load F) (h : Heap F) (k : Nat) :
    readSlice (P.stage h k).nodeArrs (P.nodeSlice h) = some (List.range' h.nodes.length P.n) := by
  have e := readSlice_new h.nodeArrs (List.range' h.nodes.length P.n) []
  rw [List.length_range'] at e
  exact e

theorem initNode_ok {cfg : Config F} {hasher : Hasher} {t : Ptr} (P : Load F) (h : Heap F) (ha : cfg.UseAdam = P.adam)
    (G : P.Given h) {k : Nat} (hk : k < P.n) {w w' : World F} {u : Unit}
    (hh : w.heap = P.stage h k)
    (hr : initNode cfg P.cowId P.p P.ty P.b hasher t P.slices (P.trainSlice h) (P.nodeSlice h) k w = .ok (u, w')) :
    P.Fits k ∧ ∃ s indices slots s', w.lshs[t]? = some s ∧
      indexOf cfg hasher s (P.params k).weights (spareAt h.floats (P.part P.sw k)) = .ok indices ∧
      Lsh.add s indices k = .ok (slots, s') ∧ w' = { w with heap := P.stage h (k + 1), lshs := w.lshs.set t s' } := by
  obtain ⟨heap, ints, lshs, consts, layers, layerArrs, networks, rng, norms, mapRng, hashes⟩ := w
  subst hh
  unfold initNode at hr
  dsimp only [Load.slices] at hr
  have c1 : ((P.p : Int) * (k : Int)) = ((P.p * k : Nat) : Int) := by simp
  have c2 : ((P.b : Int) * (k : Int)) = ((P.b * k : Nat) : Int) := by simp
  rw [c1, c2] at hr
  have sub : ∀ (s : Slice) (x y : Nat) (r : Slice), subSlice s (x : Int) ((x : Int) + (y : Int)) = .ok r →
      r = { arr := s.arr, off := s.off + x, len := y } ∧ x + y ≤ s.len := by
    intro s x y r hr
    obtain ⟨e, -, -, hle⟩ := subSlice_ok hr
    refine ⟨?_, by omega⟩
    rw [e]
    congr 1
    omega
  replace hr := M.bind_eq_ok hr
  obtain ⟨⟨m, v⟩, w1, h1, hr⟩ := hr
  have hmv : m = (P.base h k).adamAvgMom ∧ v = (P.base h k).adamAvgVel ∧ w1 = ⟨P.stage h k, ints, lshs, consts, layers, layerArrs, networks, rng, norms, mapRng, hashes⟩ ∧
      (P.adam = true → P.p * k + P.p ≤ P.sm.len ∧ P.p * k + P.p ≤ P.sv.len) := by
    unfold adamSlices at h1
    rw [ha] at h1
    cases hA : P.adam with
    | true =>
      rw [hA, if_pos rfl] at h1
      replace h1 := M.bind_eq_ok h1
      obtain ⟨m', w2, h2, h1⟩ := h1
      obtain ⟨e2, rfl⟩ := lift_ok h2
      replace h1 := M.bind_eq_ok h1
      obtain ⟨v', w3, h3, h1⟩ := h1
      obtain ⟨e3, rfl⟩ := lift_ok h3
      cases h1
      rw [if_pos rfl] at e2 e3
      refine ⟨?_, ?_, rfl, fun _ => ⟨(sub _ _ _ _ e2).2, (sub _ _ _ _ e3).2⟩⟩
      · rw [(sub _ _ _ _ e2).1]; simp [Load.base, hA, part]
      · rw [(sub _ _ _ _ e3).1]; simp [Load.base, hA, part]
    | false =>
      rw [hA, if_neg (by simp)] at h1
      cases h1
      simp [Load.base, hA]
  obtain ⟨rfl, rfl, rfl, hfa⟩ := hmv
  replace hr := M.bind_eq_ok hr
  obtain ⟨p, w2, h2, hr⟩ := hr
  have hp : nodePtr (P.nodeSlice h) k (P.stage h k) = .ok (h.nodes.length + k, P.stage h k) := by
    unfold nodePtr
    rw [readCell_ok_of (stage_nodes P h k) (x := h.nodes.length + k) (by rw [List.getElem?_range' hk]; congr 1; omega)]
    rfl
  rw [onHeap_run hp] at h2
  cases h2
  replace hr := M.bind_eq_ok hr
  obtain ⟨ww, w3, h3, hr⟩ := hr
  obtain ⟨e3, rfl⟩ := lift_ok h3
  obtain ⟨e3', hfw⟩ := sub _ _ _ _ e3
  have e3'' : ww = (P.base h k).weights := e3'
  subst e3''
  replace hr := M.bind_eq_ok hr
  obtain ⟨b, w4, h4, hr⟩ := hr
  have hbl := readSlice_length G.b
  have hrb : readSlice (P.stage h k).floats P.sb = some P.bs := readSlice_append G.b _
  have hfb : k < P.sb.len := by
    refine Decidable.byContradiction (fun hno => ?_)
    obtain ⟨_, hh, -⟩ := onHeap_ok h4
    rw [float_run hrb, dif_neg (by omega)] at hh
    cases hh
  have hb : float P.sb (k : Int) (P.stage h k) = .ok ((P.base h k).bias, P.stage h k) := by
    rw [float_run hrb, dif_pos (by omega)]
    congr 2
    show _ = (P.bs[k]?).getD _
    rw [List.getElem?_eq_getElem (by omega)]
    simp
  rw [onHeap_run hb] at h4
  cases h4
  replace hr := M.bind_eq_ok hr
  obtain ⟨tr, w5, h5, hr⟩ := hr
  obtain ⟨e5, rfl⟩ := lift_ok h5
  have e5' : tr = (P.node h k).train := by rw [(sub _ _ _ _ e5).1]; simp [Load.node, Load.trainSlice]
  subst e5'
  replace hr := M.bind_eq_ok hr
  obtain ⟨q, w6, h6, hr⟩ := hr
  rw [onHeap_run (update_run cfg P h ha hk)] at h6
  cases h6
  replace hr := M.bind_eq_ok hr
  obtain ⟨u7, w7, h7, hr⟩ := hr
  have hset : setNodePtr (P.nodeSlice h) (k : Int) (h.nodes.length + k) (P.stage h (k + 1)) = .ok ((), P.stage h (k + 1)) := by
    unfold setNodePtr
    rw [writeCell_id (stage_nodes P h (k + 1)) (by rw [List.getElem?_range' hk]; congr 1; omega)]
    rfl
  rw [onHeap_run hset] at h7
  cases h7
  replace hr := M.bind_eq_ok hr
  obtain ⟨ws, w8, h8, hr⟩ := hr
  have hn := stage_node P h (k := k + 1) hk
  rw [if_pos (by omega)] at hn
  have hbb := stage_base P h (k := k + 1) hk
  rw [if_pos (by omega)] at hbb
  have hw : Node.weights (h.nodes.length + k) (P.stage h (k + 1)) = .ok ((P.base h k).weights, P.stage h (k + 1)) := by
    unfold Node.weights baseOf
    have e : (do Node.base (← Node.node (h.nodes.length + k)).base : NM F (BaseNode F)) (P.stage h (k + 1)) = .ok (P.base h k, P.stage h (k + 1)) := by
      rw [M.bind_ok (node_ok hn)]
      exact base_ok hbb
    rw [M.bind_ok e]
    rfl
  rw [onHeap_run hw] at h8
  cases h8
  obtain ⟨ws, s, indices, slots, s', g1, g2, g3, g4, rfl⟩ := addToHashTable_ok hr
  refine ⟨⟨hfw, hfb, hfa⟩, s, indices, slots, s', g2, ?_, g4, rfl⟩
  have hW : readSlice (P.stage h (k + 1)).floats (P.base h k).weights = some (P.params k).weights := stage_read P h (k + 1) G.w hfw
  dsimp only at g1 g3
  rw [hW] at g1
  cases g1
  rw [← g3]
  congr 1
  have ha' : h.floats[P.sw.arr]? = some _ := List.getElem?_eq_getElem G.wa
  unfold spareAt
  show ((h.floats[P.sw.arr]?).getD []).drop _ = (((h.floats ++ _)[P.sw.arr]?).getD []).drop _
  rw [getElem?_pre ha', ha']
  rfl

theorem initLoop_ok {cfg : Config F} {hasher : Hasher} {t : Ptr} (P : Load F) (h : Heap F) (ha : cfg.UseAdam = P.adam)
    (G : P.Given h) : ∀ (m k : Nat), k + m = P.n → ∀ (w w' : World F) (s : LSH) (u : Unit),
    w.heap = P.stage h k → w.lshs[t]? = some s →
    ((List.range' k m).map (fun (i : Nat) => (i : Int))).forM
      (initNode cfg P.cowId P.p P.ty P.b hasher t P.slices (P.trainSlice h) (P.nodeSlice h)) w = .ok (u, w') →
    ∃ (I : Nat → List Int) (s' : LSH),
      (∀ j, k ≤ j → j < P.n → indexOf cfg hasher s (P.params j).weights (spareAt h.floats (P.part P.sw j)) = .ok (I j)) ∧
      (∀ j, k ≤ j → j < P.n → P.Fits j) ∧
      Lsh.run s ((List.range' k m).map (fun j => Op.add (I j) j)) = .ok s' ∧
      w' = { w with heap := P.stage h P.n, lshs := w.lshs.set t s' } := by
  intro m
  induction m with
  | zero =>
    intro k hk w w' s u hh hs hr
    cases hr
    have : k = P.n := by omega
    subst this
    refine ⟨fun _ => [], s, fun j h1 h2 => by omega, fun j h1 h2 => by omega, rfl, ?_⟩
    rw [set_self hs, ← hh]
  | succ m ih =>
    intro k hk w w' s u hh hs hr
    rw [List.range'_succ, List.map_cons] at hr
    replace hr := M.bind_eq_ok hr
    obtain ⟨_, w1, h1, hr⟩ := hr
    obtain ⟨hf, s0, indices, slots, s1, g1, g2, g3, rfl⟩ := initNode_ok P h ha G (by omega) hh h1
    rw [hs] at g1
    cases g1
    have hlt := (List.getElem?_eq_some_iff.mp hs).1
    obtain ⟨I, s', i1, i4, i2, i3⟩ := ih (k + 1) (by omega) _ _ s1 _ rfl (by dsimp only; rw [List.getElem?_set_self hlt]) hr
    refine ⟨fun j => if j = k then indices else I j, s', ?_, ?_, ?_, ?_⟩
    · intro j hj1 hj2
      dsimp only
      by_cases e : j = k
      · subst e; rw [if_pos rfl]; exact g2
      · rw [if_neg e, ← i1 j (by omega) hj2, indexOf_shape (add_shape g3)]
    · intro j hj1 hj2
      by_cases e : j = k
      · subst e; exact hf
      · exact i4 j (by omega) hj2
    · rw [List.range'_succ, List.map_cons, run_cons]
      have : step s (Op.add (if k = k then indices else I k) (k : Int)) = .ok s1 := by
        unfold step; simp only [if_true, g3]; rfl
      rw [this, ok_bind, ← i2]
      congr 1
      apply List.map_congr_left
      intro j hj
      have := (List.mem_range'_1.mp hj).1
      dsimp only
      rw [if_neg (by omega)]
    · rw [i3]
      dsimp only
      rw [List.set_set]

end Load

/-- The memory after `New` with given arrays. -/
theorem new_load {cfg : Config F} (hl : cfg.LoadWeight = true) {c n prev : Int} {ty : NodeType} {b k l rp : Int} {s1 s2 s3 s4 : Slice}
    {p : Ptr} {w w' : World F} {ws bs ms vs : List F} (gw : readSlice w.heap.floats s1 = some ws) (ga : s1.arr < w.heap.floats.length)
    (gb : readSlice w.heap.floats s2 = some bs) (gm : cfg.UseAdam = true → readSlice w.heap.floats s3 = some ms)
    (gv : cfg.UseAdam = true → readSlice w.heap.floats s4 = some vs) (hr : new cfg c n prev ty b k l rp s1 s2 s3 s4 w = .ok (p, w')) :
    ∃ (P : Load F) (order : List Int) (x : Layer) (s0 s : LSH) (r r' : Rng) (I : Nat → List Int),
      P.cowId = c ∧ (P.n : Int) = n ∧ (P.p : Int) = prev ∧ P.ty = ty ∧ P.adam = cfg.UseAdam ∧ P.b = b.toNat ∧ (0 < P.n → 0 ≤ b) ∧
      (P.sw = s1 ∧ P.sb = s2 ∧ P.sm = s3 ∧ P.sv = s4 ∧ P.ws = ws ∧ P.bs = bs ∧ P.ms = ms ∧ P.vs = vs) ∧ (∀ m, m < P.n → P.Fits m) ∧
      order.Perm ((List.range P.n).map (fun (i : Nat) => (i : Int))) ∧
      0 ≤ k ∧ 0 ≤ l ∧ 0 ≤ rp ∧ Lsh.new k.toNat l.toNat rp.toNat r = .ok (s0, r') ∧
      (∀ j, j < P.n → indexOf cfg x.hasher s0 (P.params j).weights (spareAt w.heap.floats (P.part P.sw j)) = .ok (I j)) ∧
      Lsh.run s0 ((List.range P.n).map (fun j => Op.add (I j) j)) = .ok s ∧
      (x.cowId = c ∧ x.nodeType = ty ∧ x.nodes = P.nodeSlice w.heap ∧ x.randNode = { arr := w.ints.length, off := 0, len := order.length } ∧
        x.normalizationConstants = (if ty = Softmax then { arr := w.consts.length, off := 0, len := P.b } else nilSlice) ∧
        x.k = k ∧ x.l = l ∧ x.previousLayerNumOfNodes = prev ∧ x.hashTables = w.lshs.length ∧
        ∃ v v' : World F, newHasher cfg (k * l).toNat prev.toNat v = .ok (x.hasher, v')) ∧ (ty = Softmax → 0 ≤ b) ∧
      p = w.layers.length ∧ w'.heap = P.stage w.heap P.n ∧ w'.ints = w.ints ++ [order] ∧ w'.lshs = w.lshs ++ [s] ∧
      w'.consts = w.consts ++ (if ty = Softmax then [newNorm ty P.b] else []) ∧
      w'.layers = w.layers ++ [x] ∧ w'.layerArrs = w.layerArrs ∧ w'.networks = w.networks := by
  have chk : ∀ (m : Int) (u : Unit) (w w' : World F), checkLen m w = .ok (u, w') → 0 ≤ m ∧ w' = w := by
    intro m u w w' h
    unfold checkLen at h
    split at h
    · cases h
    · cases h; exact ⟨by omega, rfl⟩
  unfold new at hr
  replace hr := M.bind_eq_ok hr
  obtain ⟨_, w1, h1, hr⟩ := hr
  obtain ⟨hn, e1⟩ := chk _ _ _ _ h1
  replace hr := M.bind_eq_ok hr
  obtain ⟨order, w2, h2, hr⟩ := hr
  obtain ⟨r2, hr2, e2⟩ := draw_ok h2
  have hperm : order.Perm ((List.range n.toNat).map (fun (i : Nat) => (i : Int))) := by
    have e := congrArg Prod.fst (Except.ok.inj hr2)
    dsimp only at e
    rw [← e]; exact shuffle_perm _ _
  replace hr := M.bind_eq_ok hr
  obtain ⟨rn, w3, h3, hr⟩ := hr
  have e3 : rn = { arr := w2.ints.length, off := 0, len := order.length } ∧ w3 = { w2 with ints := w2.ints ++ [order] } := by
    have e := Except.ok.inj h3
    exact ⟨(congrArg Prod.fst e).symm, (congrArg Prod.snd e).symm⟩
  replace hr := M.bind_eq_ok hr
  obtain ⟨_, w4, h4, hr⟩ := hr
  obtain ⟨hk, e4⟩ := chk _ _ _ _ h4
  replace hr := M.bind_eq_ok hr
  obtain ⟨_, w5, h5, hr⟩ := hr
  obtain ⟨hl', e5⟩ := chk _ _ _ _ h5
  replace hr := M.bind_eq_ok hr
  obtain ⟨_, w6, h6, hr⟩ := hr
  obtain ⟨hrp, e6⟩ := chk _ _ _ _ h6
  replace hr := M.bind_eq_ok hr
  obtain ⟨_, w7, h7, hr⟩ := hr
  obtain ⟨hprev, e7⟩ := chk _ _ _ _ h7
  replace hr := M.bind_eq_ok hr
  obtain ⟨s0, w8, h8, hr⟩ := hr
  obtain ⟨r8, hr8, e8⟩ := draw_ok h8
  replace hr := M.bind_eq_ok hr
  obtain ⟨t, w9, h9, hr⟩ := hr
  have e9 : t = w8.lshs.length ∧ w9 = { w8 with lshs := w8.lshs ++ [s0] } := by
    have e := Except.ok.inj h9
    exact ⟨(congrArg Prod.fst e).symm, (congrArg Prod.snd e).symm⟩
  replace hr := M.bind_eq_ok hr
  obtain ⟨hs, w10, h10, hr⟩ := hr
  obtain ⟨r10, m10, e10⟩ := newHasher_ok h10
  replace hr := M.bind_eq_ok hr
  obtain ⟨arrays, w11, h11, hr⟩ := hr
  obtain ⟨n, rfl⟩ := Int.eq_ofNat_of_zero_le hn
  obtain ⟨q, rfl⟩ := Int.eq_ofNat_of_zero_le hprev
  have e11 : w11 = w10 ∧ arrays = (s1, s2, if cfg.UseAdam then s3 else nilSlice, if cfg.UseAdam then s4 else nilSlice) := by
    unfold newArrays at h11
    rw [if_pos hl] at h11
    split at h11
    · rename_i ha; cases h11; rw [if_pos ha, if_pos ha]; exact ⟨rfl, rfl⟩
    · rename_i ha; cases h11; rw [if_neg ha, if_neg ha]; exact ⟨rfl, rfl⟩
  obtain ⟨e11, ea⟩ := e11
  replace hr := M.bind_eq_ok hr
  obtain ⟨_, w12, h12, hr⟩ := hr
  obtain ⟨hnb, e12⟩ := chk _ _ _ _ h12
  replace hr := M.bind_eq_ok hr
  obtain ⟨trains, w13, h13, hr⟩ := hr
  obtain ⟨_, hh13, e13⟩ := onHeap_ok h13
  rw [newNodeTrains_run] at hh13
  replace hr := M.bind_eq_ok hr
  obtain ⟨ta, w14, h14, hr⟩ := hr
  obtain ⟨_, hh14, e14⟩ := onHeap_ok h14
  replace hr := M.bind_eq_ok hr
  obtain ⟨ps, w15, h15, hr⟩ := hr
  obtain ⟨_, hh15, e15⟩ := onHeap_ok h15
  rw [newEmptyNodes_run] at hh15
  replace hr := M.bind_eq_ok hr
  obtain ⟨ns, w16, h16, hr⟩ := hr
  obtain ⟨_, hh16, e16⟩ := onHeap_ok h16
  replace hr := M.bind_eq_ok hr
  obtain ⟨_, w17, h17, hr⟩ := hr
  replace hr := M.bind_eq_ok hr
  obtain ⟨nm', w18, h18, hr⟩ := hr
  have hb : 0 < n → 0 ≤ b := by
    refine fun hn0 => Int.not_lt.mp (fun hb => ?_)
    have : (n : Int) * b < 0 := Int.mul_neg_of_pos_of_neg (by omega) (by omega)
    omega
  have hnb' : ((n : Int) * b).toNat = n * b.toNat := by
    by_cases h0 : n = 0
    · subst h0; simp
    · have := hb (by omega)
      obtain ⟨b', rfl⟩ := Int.eq_ofNat_of_zero_le this
      have : ((n : Int) * (b' : Int)) = ((n * b' : Nat) : Int) := by simp
      rw [this]; simp only [Int.toNat_natCast]
  generalize hP : (⟨c, n, b.toNat, q, ty, cfg.UseAdam, s1, s2, s3, s4, ws, bs, ms, vs⟩ : Load F) = P
  have hPf : P.cowId = c ∧ P.n = n ∧ P.b = b.toNat ∧ P.p = q ∧ P.ty = ty ∧ P.adam = cfg.UseAdam ∧ P.Given w.heap ∧ P.slices = arrays ∧
      (P.sw = s1 ∧ P.sb = s2 ∧ P.sm = s3 ∧ P.sv = s4 ∧ P.ws = ws ∧ P.bs = bs ∧ P.ms = ms ∧ P.vs = vs) := by
    subst hP; exact ⟨rfl, rfl, rfl, rfl, rfl, rfl, ⟨gw, ga, gb, gm, gv⟩, ea.symm, rfl, rfl, rfl, rfl, rfl, rfl, rfl, rfl⟩
  have A : w10.heap = w.heap ∧ w10.ints = w.ints ++ [order] ∧ w10.lshs = w.lshs ++ [s0] ∧ w10.consts = w.consts ∧
      w10.layers = w.layers ∧ w10.layerArrs = w.layerArrs ∧ w10.networks = w.networks ∧ t = w.lshs.length ∧
      rn = { arr := w.ints.length, off := 0, len := order.length } := by
    rw [e10, e9.1, e9.2, e8, e7, e6, e5, e4, e3.1, e3.2, e2, e1]
    exact ⟨rfl, rfl, rfl, rfl, rfl, rfl, rfl, rfl, rfl⟩
  obtain ⟨A1, A2, A3, A4, A5, A6, A7, A8, A9⟩ := A
  obtain ⟨P1, P2, P3, P4, P5, P6, P7, P8, P9⟩ := hPf
  rw [e12] at hh13 e13
  have B : w16.heap = P.stage w.heap 0 ∧ w16.ints = w10.ints ∧ w16.lshs = w10.lshs ∧ w16.consts = w10.consts ∧
      w16.layers = w10.layers ∧ w16.layerArrs = w10.layerArrs ∧ w16.networks = w10.networks ∧
      ta = P.trainSlice w.heap ∧ ns = P.nodeSlice w.heap := by
    have e12' : w12 = w11 := e12
    cases hh13
    cases hh14
    cases hh15
    cases hh16
    rw [e16, e15, e14, e13, e11]
    dsimp only
    rw [A1]
    refine ⟨?_, rfl, rfl, rfl, rfl, rfl, rfl, ?_, ?_⟩
    · unfold Load.stage
      rw [hnb', P1, P2, P3]
      simp
    · unfold Load.trainSlice
      rw [hnb', P2, P3]
      simp
    · unfold Load.nodeSlice
      rw [P2]
      simp
  obtain ⟨B1, B2, B3, B4, B5, B6, B7, B8, B9⟩ := B
  have h17' : ((List.range' 0 P.n).map (fun (i : Nat) => (i : Int))).forM
      (initNode cfg P.cowId P.p P.ty P.b hs t P.slices (P.trainSlice w.heap) (P.nodeSlice w.heap)) w16 = .ok ((), w17) := by
    rw [← P8, B8, B9, Int.toNat_natCast] at h17
    rw [← List.range_eq_range', P1, P2, P3, P4, P5]
    by_cases h0 : n = 0
    · subst h0; exact h17
    · have := hb (by omega)
      rw [show ((b.toNat : Nat) : Int) = b by omega]
      exact h17
  obtain ⟨I, s, i1, i4, i2, i3⟩ := Load.initLoop_ok P w.heap P6.symm P7 P.n 0 (by omega) _ _ s0 () B1
    (by rw [B3, A3, A8]; simp) h17'
  have C : nm' = (if ty = Softmax then { arr := w.consts.length, off := 0, len := P.b } else nilSlice) ∧ (ty = Softmax → 0 ≤ b) ∧
      w18 = { w17 with consts := w17.consts ++ (if ty = Softmax then [newNorm ty P.b] else []) } := by
    unfold newConsts at h18
    unfold newNorm
    rw [P3]
    by_cases ht : ty = Softmax
    · rw [if_pos ht] at h18
      unfold allocConsts at h18
      by_cases hb0 : b < 0
      · rw [if_pos hb0] at h18; cases h18
      · rw [if_neg hb0] at h18
        rw [if_pos ht, if_pos ht, if_pos ht]
        have e := Except.ok.inj h18
        refine ⟨?_, fun _ => by omega, (congrArg Prod.snd e).symm⟩
        refine (congrArg Prod.fst e).symm.trans ?_
        dsimp only
        rw [i3]
        dsimp only
        rw [B4, A4]
    · rw [if_neg ht] at h18
      cases h18
      rw [if_neg ht, if_neg ht]
      exact ⟨rfl, fun h => absurd h ht, by simp⟩
  obtain ⟨C1, C2, C3⟩ := C
  have D := Except.ok.inj hr
  have D1 := congrArg Prod.fst D
  have D2 := congrArg Prod.snd D
  dsimp only at D1 D2
  generalize hx : ({ cowId := c, nodeType := ty, nodes := ns, randNode := rn, normalizationConstants := nm', k := k, l := l, previousLayerNumOfNodes := q, hashTables := t, hasher := hs } : Layer) = x at D2
  have hxh : x.hasher = hs := by subst hx; rfl
  refine ⟨P, order, x, s0, s, _, _, I, P1, by rw [P2], by rw [P4], P5, P6, P3, by rw [P2]; exact hb, P9,
    fun m hm => i4 m (by omega) hm, by rw [P2]; exact hperm, hk, hl', hrp, hr8, ?_, by rw [List.range_eq_range']; exact i2, ?_, C2, ?_, ?_, ?_, ?_, ?_, ?_, ?_, ?_⟩
  · intro j hj
    rw [hxh]
    exact i1 j (by omega) hj
  · subst hx
    exact ⟨rfl, rfl, B9, A9, C1, rfl, rfl, rfl, A8, _, _, h10⟩
  · rw [← D1, C3, i3]
    show w16.layers.length = _
    rw [B5, A5]
  · rw [← D2, C3, i3]
  · rw [← D2, C3, i3]
    show w16.ints = _
    rw [B2, A2]
  · rw [← D2, C3, i3]
    show w16.lshs.set t s = _
    rw [B3, A3, A8]
    simp
  · rw [← D2, C3, i3]
    show w16.consts ++ _ = _
    rw [B4, A4]
  · rw [← D2, C3, i3]
    show w16.layers ++ _ = _
    rw [B5, A5]
  · rw [← D2, C3, i3]
    show w16.layerArrs = _
    rw [B6, A6]
  · rw [← D2, C3, i3]
    show w16.networks = _
    rw [B7, A7]

namespace Load

/-- New objects do not disturb a node. -/
theorem stage_keep (P : Load F) (h : Heap F) (k : Nat) (p : Ptr) : Keep h (P.stage h k) p := by
  intro v nd b qs hp
  have hp' := (baseParams_iff.mp hp.par)
  obtain ⟨p1, p2, p3, p4, p5, p6⟩ := hp'
  have hsl := (slotsAt_iff _ _ _).mp hp.slots
  refine ⟨⟨getElem?_pre hp.node _, getElem?_pre hp.base _, baseParams_iff.mpr ⟨readSlice_append p1 _, readSlice_append p2 _,
    readSlice_append p3 _, readSlice_append p4 _, readSlice_append p5 _, p6⟩, readSlice_append hp.ptrs _, ?_, hp.nodup, hp.batch⟩, ?_⟩
  · rw [slotsAt_iff]
    refine ⟨hsl.1, fun i q hq => ?_⟩
    obtain ⟨t, h1, h2⟩ := hsl.2 i q hq
    exact ⟨t, getElem?_pre h1 _, h2⟩
  · intro q hq
    obtain ⟨i, hi⟩ := List.mem_iff_getElem?.mp hq
    obtain ⟨t, h1, -⟩ := hsl.2 i q hi
    rw [h1]
    exact getElem?_pre h1 _

/-- Parts of disjoint slices are disjoint. -/
theorem part_disjoint (P : Load F) {s s' : Slice} (hd : s.Disjoint s') {m m' : Nat} (hf : P.p * m + P.p ≤ s.len) (hf' : P.p * m' + P.p ≤ s'.len) :
    (P.part s m).Disjoint (P.part s' m') := by
  rcases hd with h | h | h | h | h
  · exact .inl (show P.p = 0 by omega)
  · exact .inr (.inl (show P.p = 0 by omega))
  · exact .inr (.inr (.inl h))
  · exact .inr (.inr (.inr (.inl (show s.off + P.p * m + P.p ≤ s'.off + P.p * m' by omega))))
  · exact .inr (.inr (.inr (.inr (show s'.off + P.p * m' + P.p ≤ s.off + P.p * m by omega))))

theorem part_apart (P : Load F) (s : Slice) {m m' : Nat} (h : m ≠ m') : (P.part s m).Disjoint (P.part s m') := by
  rcases Nat.lt_or_gt_of_ne h with h | h
  · exact .inr (.inr (.inr (.inl (show s.off + P.p * m + P.p ≤ s.off + P.p * m' by have := mul_apart (a := P.p) h; omega))))
  · exact .inr (.inr (.inr (.inr (show s.off + P.p * m' + P.p ≤ s.off + P.p * m by have := mul_apart (a := P.p) h; omega))))

/-- A part of a given slice and a new array. -/
theorem part_new (P : Load F) {h : Heap F} {s : Slice} {a : List F} (hs : readSlice h.floats s = some a) {m : Nat} (hf : P.p * m + P.p ≤ s.len) (j o l : Nat) :
    (P.part s m).Disjoint ⟨h.floats.length + j, o, l⟩ := by
  rcases arr_lt hs with hz | hz
  · exact .inl (show P.p = 0 by rw [hz] at hf; have := Nat.zero_le (P.p * m); omega)
  · exact .inr (.inr (.inl (Nat.ne_of_lt (Nat.lt_of_lt_of_le hz (Nat.le_add_right _ _)))))

/-- The given slices of weights and moments do not overlap. -/
def Apart (P : Load F) : Prop := P.adam = true → P.sw.Disjoint P.sm ∧ P.sw.Disjoint P.sv ∧ P.sm.Disjoint P.sv

/-- Nodes of a loaded layer share nothing. -/
theorem stage_sep (P : Load F) (h : Heap F) (G : P.Given h) (D : P.Apart) {m m' k : Nat} (hm : m < P.n) (hm' : m' < P.n) (hk : m < k) (hk' : m' < k)
    (hf : P.Fits m) (hf' : P.Fits m') (hne : m ≠ m') : Sep (P.stage h k) (h.nodes.length + m) (h.nodes.length + m') := by
  rw [sep_of (stage_parts P h G hm hk hf) (stage_parts P h G hm' hk' hf')]
  refine ⟨disjoint_parts _ _ _ _ hne, ?_, ?_, ?_⟩
  · show h.bases.length + m ≠ h.bases.length + m'
    omega
  · intro s hs s' hs'
    cases hA : P.adam with
    | false =>
      simp only [vecs, Load.base, hA, List.mem_cons, List.not_mem_nil, or_false, Bool.false_eq_true, if_false] at hs hs'
      rcases hs with rfl | rfl | rfl | rfl | rfl <;> rcases hs' with rfl | rfl | rfl | rfl | rfl <;>
        first
        | exact disjoint_nil_left _
        | exact disjoint_nil_right _
        | exact part_apart P _ hne
    | true =>
      obtain ⟨d1, d2, d3⟩ := D hA
      obtain ⟨f1, -, f2⟩ := hf
      obtain ⟨f3, f4⟩ := f2 hA
      obtain ⟨f1', -, f2'⟩ := hf'
      obtain ⟨f3', f4'⟩ := f2' hA
      simp only [vecs, Load.base, hA, List.mem_cons, List.not_mem_nil, or_false, if_true] at hs hs'
      rcases hs with rfl | rfl | rfl | rfl | rfl <;> rcases hs' with rfl | rfl | rfl | rfl | rfl <;>
        first
        | exact part_apart P _ hne
        | exact part_disjoint P d1 ‹_› ‹_›
        | exact part_disjoint P d2 ‹_› ‹_›
        | exact part_disjoint P d3 ‹_› ‹_›
        | exact part_disjoint P d1.symm ‹_› ‹_›
        | exact part_disjoint P d2.symm ‹_› ‹_›
        | exact part_disjoint P d3.symm ‹_› ‹_›
        | exact part_new P G.w ‹_› _ _ _
        | exact part_new P (G.m hA) ‹_› _ _ _
        | exact part_new P (G.v hA) ‹_› _ _ _
        | exact (part_new P G.w ‹_› _ _ _).symm
        | exact (part_new P (G.m hA) ‹_› _ _ _).symm
        | exact (part_new P (G.v hA) ‹_› _ _ _).symm
        | (apply disjoint_arr; omega)
  · intro q hq hq'
    rw [List.mem_range'_1] at hq hq'
    rcases Nat.lt_or_gt_of_ne hne with hlt | hlt
    · have := mul_apart (a := P.b) hlt; omega
    · have := mul_apart (a := P.b) hlt; omega

/-- The vectors of a loaded node do not overlap. -/
theorem stage_inner (P : Load F) (h : Heap F) (G : P.Given h) (D : P.Apart) {m k : Nat} (hm : m < P.n) (hk : m < k) (hf : P.Fits m) :
    Inner (P.stage h k) (h.nodes.length + m) := by
  intro n b hn hb
  have hp := stage_parts P h G hm hk hf
  rw [hp.node] at hn; cases hn
  rw [hp.base] at hb; cases hb
  cases hA : P.adam with
  | false =>
    simp only [Load.base, hA, Bool.false_eq_true, if_false]
    exact ⟨trivial, disjoint_nil_right _, disjoint_nil_right _, disjoint_nil_right _, disjoint_nil_right _, disjoint_nil_right _, disjoint_nil_right _⟩
  | true =>
    obtain ⟨d1, d2, d3⟩ := D hA
    obtain ⟨f1, -, f2⟩ := hf
    obtain ⟨f3, f4⟩ := f2 hA
    simp only [Load.base, hA, if_true]
    exact ⟨trivial, part_disjoint P d1 f1 f3, part_disjoint P d2 f1 f4, part_new P G.w f1 _ _ _, part_disjoint P d3 f3 f4, part_new P (G.m hA) f3 _ _ _,
      part_new P (G.v hA) f4 _ _ _⟩

theorem stage_owned (P : Load F) (h : Heap F) (G : P.Given h) {m k : Nat} (hm : m < P.n) (hk : m < k) (hf : P.Fits m) :
    Owned (P.stage h k) (h.nodes.length + m) P.cowId := by
  rw [owned_of (stage_parts P h G hm hk hf)]
  refine ⟨rfl, rfl, ?_⟩
  intro q hq t ht
  rw [List.mem_range'_1] at hq
  have hfit : P.b * m + P.b ≤ P.n * P.b := mul_fit hm
  have ht' : (h.trains ++ List.replicate (P.n * P.b) (blankTrain P.cowId))[q]? = some t := ht
  rw [List.getElem?_append_right (by omega), List.getElem?_replicate_of_lt (by omega)] at ht'
  cases ht'
  rfl

theorem mem_nodes {P : Load F} {h : Heap F} {z : Ptr × View F} (hz : z ∈ P.nodes h) :
    ∃ m, m < P.n ∧ z = (h.nodes.length + m, P.view m) := by
  obtain ⟨m, hm, rfl⟩ := List.mem_map.mp hz
  exact ⟨m, List.mem_range.mp hm, rfl⟩

/-- A loaded layer. -/
theorem stage_group (P : Load F) (h : Heap F) (G : P.Given h) (D : P.Apart) (hf : ∀ m, m < P.n → P.Fits m) : GroupZ (P.stage h P.n) (P.nodes h) := by
  rw [groupZ_iff]
  refine ⟨?_, ?_⟩
  · intro z hz
    obtain ⟨m, hm, rfl⟩ := mem_nodes hz
    exact ⟨(stage_parts P h G hm hm (hf m hm)).handle, stage_inner P h G D hm hm (hf m hm)⟩
  · unfold Load.nodes
    rw [List.pairwise_map, List.pairwise_iff_getElem]
    intro i j hi hj hij
    rw [List.length_range] at hi hj
    simp only [List.getElem_range]
    exact ⟨stage_sep P h G D hi hj hi hj (hf i hi) (hf j hj) (by omega), stage_sep P h G D hj hi hj hi (hf j hj) (hf i hi) (by omega)⟩

theorem stage_owned_all (P : Load F) (h : Heap F) (G : P.Given h) (hf : ∀ m, m < P.n → P.Fits m) : OwnedZ (P.stage h P.n) (P.nodes h) P.cowId := by
  intro p hp
  obtain ⟨z, hz, rfl⟩ := List.mem_map.mp hp
  obtain ⟨m, hm, rfl⟩ := mem_nodes hz
  exact stage_owned P h G hm hm (hf m hm)

end Load

end Goslide.Layer
