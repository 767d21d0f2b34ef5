import Verif.Proofs.LayerKeeps
import Verif.Proofs.NodeMore
import Verif.Go.Exact
/-
Selection of the active nodes of a layer: C52-C58, C60.
-/
set_option linter.unusedSectionVars false
set_option maxRecDepth 10000
namespace Goslide.Props
open Goslide Goslide.Layer Goslide.Node Lsh Configuration
variable {F : Type} [GoFloat F]

namespace LayerEx

/-- An empty memory. -/
def w0 : World Rat :=
  { heap := Heap.empty, ints := [], lshs := [], consts := [], layers := [], layerArrs := [], networks := [],
    rng := fun i => 7 * i, norms := fun i => ((i % 5 : Nat) : Rat) - 2, mapRng := fun i => i, hashes := fun _ _ => 0 }

/-- Adam, signed random projections, the given layer mode. -/
def cfg (mode : Int) : Config Rat := { Configuration.default with UseAdam := true, HashFunction := 4, LayerMode := mode }

/-- A new layer of three softmax nodes with two weights each and `l` tables, for a batch of 2. -/
def build (mode l : Int) : WM Rat Ptr := Layer.new (cfg mode) 0 3 2 1 2 1 l 6 nilSlice nilSlice nilSlice nilSlice

/-- The memory with this layer. -/
def world (mode l : Int) : World Rat :=
  match build mode l w0 with
  | .ok (_, w) => w
  | .error _ => w0

/-- The layer. -/
def theLayer (mode l : Int) : Option Layer := (world mode l).layers[0]?

/-- The ids of a query of the new layer. -/
def ids (mode l : Int) (fuel : Nat) (label : List Int) (sp : Rat) : Go (List Int) :=
  match query (cfg mode) fuel 0 0 [⟨0, 1⟩, ⟨1, -2⟩] 0 label sp (world mode l) with
  | .ok ((_, pairs, _), _) => .ok (pairs.map Pair.Index)
  | .error e => .error e

theorem built (mode l : Int) (hm : (build mode l w0).toOption.map (·.1) = some 0) :
    build mode l w0 = .ok (0, world mode l) := by
  unfold world
  cases h : build mode l w0 with
  | error e => rw [h] at hm; cases hm
  | ok r => obtain ⟨p, w⟩ := r; rw [h] at hm; cases hm; rfl

end LayerEx

/-! ### C52 -/

/-- C52. With sparsity 1.0 the active list is 0..n-1 in this order, whatever the configuration (mode and hash
function), the labels, the tables and the random source. -/
theorem C52_full {cfg : Config F} {fuel : Nat} {p : Ptr} {c : Int} {cur : List (Pair F)} {i : Int} {label : List Int} {sp : F}
    {w w' : World F} {found : Int} {pairs : List (Pair F)} {l : Ptr} (hsp : GoFloat.eq sp GoFloat.one = true)
    (hq : query cfg fuel p c cur i label sp w = .ok ((found, pairs, l), w')) :
    ∃ x, w.layers[p]? = some x ∧ pairs.map Pair.Index = (List.range x.nodes.len).map (fun (i : Nat) => (i : Int)) := by
  obtain ⟨x, ids, w2, ls, hx, hs, hi⟩ := query_ids hq
  rw [select_full hsp] at hs
  cases hs
  exact ⟨x, hx, hi⟩

example : LayerEx.ids 4 3 0 [2, 2] 1 = .ok [0, 1, 2] := by decide +kernel
example : LayerEx.ids 7 1 0 [] 1 = .ok [0, 1, 2] := by decide +kernel

/-! ### C53, C54 -/

/-- The nodes `j < n` that mode 4 must activate: retrieved from the tables, or labels of a softmax layer. -/
def needed (x : Layer) (label retrieved : List Int) : List Int :=
  ((List.range x.nodes.len).map (fun (i : Nat) => (i : Int))).filter
    (fun id => decide (id ∈ retrieved) || (decide (x.nodeType = Softmax) && decide (id ∈ label)))

theorem needed_eq (x : Layer) (label retrieved : List Int) :
    needed x label retrieved = ((List.range x.nodes.len).filter (wanted (x.nodeType = Softmax) label retrieved)).map (fun (i : Nat) => (i : Int)) := by
  unfold needed
  rw [List.filter_map]
  congr 1
  apply List.filter_congr
  intro j _
  simp only [Function.comp_def, wanted]
  rw [Bool.or_comm]

theorem needed_length (x : Layer) (label retrieved : List Int) :
    (needed x label retrieved).length = (List.range x.nodes.len).countP (wanted (x.nodeType = Softmax) label retrieved) := by
  rw [needed_eq, List.length_map, List.countP_eq_length_filter]

theorem range_filter_increasing (n : Nat) (W : Nat → Bool) :
    (((List.range n).filter W).map (fun (i : Nat) => (i : Int))).Pairwise (· < ·) := by
  rw [List.pairwise_map]
  exact (List.pairwise_lt_range.filter W).imp (fun h => by omega)

/-- C53. A mode-4 query with distinct labels: `retrieved` are the ids found in the tables, and the active list
consists of strictly increasing ids of nodes, contains all retrieved ids and, on a softmax layer, all labels; its
length is the number of these, or min(1000, n) if that is more; and from 1000 of them on, there are no others. -/
theorem C53_mode4 {cfg : Config F} {fuel : Nat} {p : Ptr} {c : Int} {cur : List (Pair F)} {i : Int} {label : List Int} {sp : F}
    {w w' : World F} {found : Int} {pairs : List (Pair F)} {l : Ptr} {x : Layer} {order : List Int}
    (hsp : GoFloat.eq sp GoFloat.one = false) (hm : cfg.LayerMode = 4) (hx : w.layers[p]? = some x) (hl : 0 ≤ x.l)
    (horder : readSlice w.ints x.randNode = some order)
    (hperm : order.Perm ((List.range x.nodes.len).map (fun (i : Nat) => (i : Int)))) (hlab : label.Nodup)
    (hq : query cfg fuel p c cur i label sp w = .ok ((found, pairs, l), w')) :
    ∃ s retrieved, w.lshs[x.hashTables]? = some s ∧ candidates cfg x.hasher s cur = .ok retrieved ∧
      (pairs.map Pair.Index).Pairwise (· < ·) ∧ (∀ id ∈ pairs.map Pair.Index, 0 ≤ id ∧ id < (x.nodes.len : Int)) ∧
      (∀ id ∈ retrieved.flatten, id ∈ pairs.map Pair.Index) ∧
      (x.nodeType = Softmax → ∀ y ∈ label, y ∈ pairs.map Pair.Index) ∧
      pairs.length = max (needed x label retrieved.flatten).length (min 1000 x.nodes.len) ∧
      (1000 ≤ (needed x label retrieved.flatten).length → pairs.map Pair.Index = needed x label retrieved.flatten) ∧
      found = (needed x label retrieved.flatten).length := by
  obtain ⟨x', ids, w2, ls, hx', hs, hi⟩ := query_ids hq
  rw [hx] at hx'; cases hx'
  obtain ⟨s, actives, order', act, r, h1, h2, h3, h4, rfl, -⟩ := select_mode4 hsp hm hs
  dsimp only at h1 h2 h3 h4
  rw [horder] at h3; cases h3
  obtain ⟨hn, hy, hids⟩ := mode4_range h4
  obtain ⟨W, e, r', h5, hW, hlen, hmany, he⟩ := mode4_run hl hn hperm hy hids w.rng
  rw [h4] at h5
  have e0 : e = 0 := by
    by_cases hs : x.nodeType = Softmax
    · rw [if_pos (by simp [hs])] at he
      rw [(count_label (hy (by simp [hs]))).2 hlab] at he
      omega
    · rw [if_neg (by simp [hs])] at he; exact he
  subst e0
  simp only [Except.ok.injEq, Prod.mk.injEq, List.replicate_zero, List.append_nil] at h5
  obtain ⟨⟨h5a, h5b⟩, -⟩ := h5
  simp only [Option.getD_some] at hi
  have hmem : ∀ id : Int, 0 ≤ id → id < x.nodes.len → wanted (x.nodeType = Softmax) label actives.flatten id.toNat = true → id ∈ act := by
    intro id h0 hlt hw
    rw [h5a, List.mem_map]
    exact ⟨id.toNat, List.mem_filter.mpr ⟨List.mem_range.mpr (by omega), hW _ hw⟩, by omega⟩
  refine ⟨s, actives, h1, h2, ?_, ?_, ?_, ?_, ?_, ?_, ?_⟩
  · rw [hi, h5a]; exact range_filter_increasing _ _
  · rw [hi, h5a]; intro id hid
    obtain ⟨j, hj, rfl⟩ := List.mem_map.mp hid
    have := List.mem_range.mp (List.mem_filter.mp hj).1
    omega
  · rw [hi]; intro id hid
    obtain ⟨h0, hlt⟩ := hids id hid
    refine hmem id h0 hlt ?_
    unfold wanted
    rw [Int.toNat_of_nonneg h0]; simp [hid]
  · rw [hi]; intro hsm y hyl
    obtain ⟨h0, hlt⟩ := hy (by simp [hsm]) y hyl
    refine hmem y h0 hlt ?_
    unfold wanted
    rw [Int.toNat_of_nonneg h0]; simp [hsm, hyl]
  · rw [needed_length]
    have : pairs.length = (List.range x.nodes.len).countP W := by
      rw [← List.length_map (f := Pair.Index) (as := pairs), hi, h5a, List.length_map, List.countP_eq_length_filter]
    rw [this]; simpa using hlen
  · rw [needed_length]; intro h
    rw [hi, h5a, hmany (by simpa using h), needed_eq]
  · rw [needed_length]; simpa using h5b

/-- C53. And the selection does not panic for in-range labels, whatever the random source. -/
theorem C53_total {cfg : Config F} {fuel : Nat} {cur : List (Pair F)} {label : List Int} {sp : F}
    {w : World F} {x : Layer} {order : List Int} {s : LSH} {retrieved : List (List Int)}
    (hsp : GoFloat.eq sp GoFloat.one = false) (hm : cfg.LayerMode = 4) (hl : 0 ≤ x.l) (hn : 0 < x.nodes.len)
    (horder : readSlice w.ints x.randNode = some order)
    (hperm : order.Perm ((List.range x.nodes.len).map (fun (i : Nat) => (i : Int))))
    (hlab : ∀ y ∈ label, 0 ≤ y ∧ y < x.nodes.len) (hs : w.lshs[x.hashTables]? = some s)
    (hret : candidates cfg x.hasher s cur = .ok retrieved) (hids : ∀ id ∈ retrieved.flatten, 0 ≤ id ∧ id < x.nodes.len) :
    ∃ act r, select cfg fuel x cur label sp w =
      .ok (((needed x label retrieved.flatten).length + (if x.nodeType = Softmax then label.length - (needed x label []).length else 0 : Nat), some act),
        { w with rng := r }) := by
  obtain ⟨W, e, r', h5, -, -, -, he⟩ := mode4_run (softmax := decide (x.nodeType = Softmax)) hl hn hperm (fun _ => hlab) hids w.rng
  refine ⟨((List.range x.nodes.len).filter W).map (fun (i : Nat) => (i : Int)) ++ List.replicate e 0, r', ?_⟩
  rw [select_mode4_run hsp hm hs hret horder h5, needed_length, needed_length]
  have hf : x.nodeType = Softmax → (wanted (decide (x.nodeType = Softmax)) label [] ) = (fun (j : Nat) => decide ((j : Int) ∈ label)) := by
    intro h
    funext j
    simp [wanted, h]
  by_cases h : x.nodeType = Softmax
  · rw [hf h, he]; simp [h]
  · rw [he]; simp [h]

example : LayerEx.ids 4 3 0 [2] (1/2) = .ok [0, 1, 2] := by decide +kernel

/-- C54 is false: the label list `[0, 0]`, which the data set reader accepts, makes node 0 active twice. -/
theorem C54_false : ¬ ∀ (cfg : Config Rat) (fuel : Nat) (p : Ptr) (c : Int) (cur : List (Pair Rat)) (i : Int) (label : List Int) (sp : Rat)
    (w w' : World Rat) (found : Int) (pairs : List (Pair Rat)) (l : Ptr),
    cfg.LayerMode = 4 → (∀ y ∈ label, 0 ≤ y ∧ y < 3) →
    query cfg fuel p c cur i label sp w = .ok ((found, pairs, l), w') → (pairs.map Pair.Index).Nodup := by
  intro h
  have hr : LayerEx.ids 4 3 0 [0, 0] (1/2) = .ok [0, 1, 2, 0] := by decide +kernel
  unfold LayerEx.ids at hr
  split at hr
  · rename_i found pairs l w' hq
    have := h _ _ _ _ _ _ _ _ _ _ _ _ _ rfl (by decide) hq
    rw [Except.ok.inj hr] at this
    exact absurd this (by decide)
  · cases hr

/-- C54, what holds for arbitrary labels: the active list is a list of strictly increasing ids of nodes, followed
by one entry 0 per repeated label. (Missing: distinctness, which is false for repeated labels.) -/
theorem C54_partial {cfg : Config F} {fuel : Nat} {p : Ptr} {c : Int} {cur : List (Pair F)} {i : Int} {label : List Int} {sp : F}
    {w w' : World F} {found : Int} {pairs : List (Pair F)} {l : Ptr} {x : Layer} {order : List Int}
    (hsp : GoFloat.eq sp GoFloat.one = false) (hm : cfg.LayerMode = 4) (hx : w.layers[p]? = some x) (hl : 0 ≤ x.l)
    (horder : readSlice w.ints x.randNode = some order)
    (hperm : order.Perm ((List.range x.nodes.len).map (fun (i : Nat) => (i : Int))))
    (hq : query cfg fuel p c cur i label sp w = .ok ((found, pairs, l), w')) :
    ∃ act : List Int, act.Pairwise (· < ·) ∧ (∀ id ∈ act, 0 ≤ id ∧ id < x.nodes.len) ∧
      pairs.map Pair.Index = act ++ List.replicate (if x.nodeType = Softmax then label.length - (needed x label []).length else 0) 0 ∧
      (x.nodeType ≠ Softmax → (pairs.map Pair.Index).Nodup) := by
  obtain ⟨x', ids, w2, ls, hx', hs, hi⟩ := query_ids hq
  rw [hx] at hx'; cases hx'
  obtain ⟨s, actives, order', act, r, h1, h2, h3, h4, rfl, -⟩ := select_mode4 hsp hm hs
  dsimp only at h1 h2 h3 h4
  rw [horder] at h3; cases h3
  obtain ⟨hn, hy, hids⟩ := mode4_range h4
  obtain ⟨W, e, r', h5, hW, hlen, hmany, he⟩ := mode4_run hl hn hperm hy hids w.rng
  rw [h4] at h5
  simp only [Except.ok.injEq, Prod.mk.injEq] at h5
  obtain ⟨⟨h5a, h5b⟩, -⟩ := h5
  simp only [Option.getD_some] at hi
  have hinc := range_filter_increasing x.nodes.len W
  refine ⟨_, hinc, ?_, ?_, ?_⟩
  · intro id hid
    obtain ⟨j, hj, rfl⟩ := List.mem_map.mp hid
    have := List.mem_range.mp (List.mem_filter.mp hj).1
    omega
  · rw [hi, h5a, he, needed_length]
    by_cases h : x.nodeType = Softmax
    · have hf : (wanted (decide (x.nodeType = Softmax)) label []) = (fun (j : Nat) => decide ((j : Int) ∈ label)) := by
        funext j
        simp [wanted, h]
      rw [hf]; simp [h]
    · simp [h]
  · intro h
    rw [hi, h5a, he]
    simp only [h, decide_false, Bool.false_eq_true, if_false, List.replicate_zero, List.append_nil]
    exact hinc.imp (fun h => by omega)

/-! ### C55, C56 -/

/-- C55. A mode-1 query: the active list consists of the ids that were retrieved more than 2 times over all tables,
where a label of a softmax layer counts `l` more; each once. This holds for every map iteration order. -/
theorem C55_mode1 {cfg : Config F} {fuel : Nat} {p : Ptr} {c : Int} {cur : List (Pair F)} {i : Int} {label : List Int} {sp : F}
    {w w' : World F} {found : Int} {pairs : List (Pair F)} {l : Ptr}
    (hsp : GoFloat.eq sp GoFloat.one = false) (hm : cfg.LayerMode = 1)
    (hq : query cfg fuel p c cur i label sp w = .ok ((found, pairs, l), w')) :
    ∃ x s retrieved, w.layers[p]? = some x ∧ w.lshs[x.hashTables]? = some s ∧ candidates cfg x.hasher s cur = .ok retrieved ∧
      (pairs.map Pair.Index).Nodup ∧
      ∀ id, id ∈ pairs.map Pair.Index ↔
        2 < (retrieved.flatten.count id : Int) + if x.nodeType = Softmax ∧ id ∈ label then x.l else 0 := by
  obtain ⟨x, ids, w2, ls, hx, hs, hi⟩ := query_ids hq
  obtain ⟨s, actives, h1, h2, rfl⟩ := select_mode1 hsp hm hs
  obtain ⟨a, b⟩ := mode1_spec (decide (x.nodeType = Softmax)) x.l label actives w.mapRng
  simp only [Option.getD_some] at hi
  rw [hi]
  refine ⟨x, s, actives, hx, h1, h2, a, fun id => ?_⟩
  rw [b id]
  simp only [decide_eq_true_eq]

/-- The three tables retrieve nodes 1 and 2 three times, and label 0 counts 3. -/
example : LayerEx.ids 1 3 0 [0] (1/2) = .ok [2, 1, 0] := by decide +kernel

/-- C56 is false: with one table the label is not active. -/
theorem C56_false : ¬ ∀ (cfg : Config Rat) (fuel : Nat) (p : Ptr) (c : Int) (cur : List (Pair Rat)) (i : Int) (label : List Int) (sp : Rat)
    (w w' : World Rat) (x : Layer) (found : Int) (pairs : List (Pair Rat)) (l : Ptr),
    cfg.LayerMode = 1 → w.layers[p]? = some x → x.nodeType = Softmax → (∀ y ∈ label, 0 ≤ y ∧ y < x.nodes.len) →
    query cfg fuel p c cur i label sp w = .ok ((found, pairs, l), w') → ∀ y ∈ label, y ∈ pairs.map Pair.Index := by
  intro h
  have hr : LayerEx.ids 1 1 0 [0] (1/2) = .ok [] := by decide +kernel
  unfold LayerEx.ids at hr
  split at hr
  · rename_i found pairs l w' hq
    have hx : ((LayerEx.world 1 1).layers[0]?).map (fun x => (x.nodeType, x.nodes.len)) = some (1, 3) := by decide +kernel
    obtain ⟨x, hx, e⟩ := Option.map_eq_some_iff.mp hx
    simp only [Prod.mk.injEq] at e
    have := h _ _ _ _ _ _ _ _ _ _ _ _ _ _ rfl hx e.1 (by rw [e.2]; decide) hq 0 (by simp)
    rw [Except.ok.inj hr] at this
    exact absurd this (by decide)
  · cases hr

/-- C56, what holds: with at least 3 tables every label of a softmax layer is active in mode 1. (Missing: one or
two tables.) -/
theorem C56_partial {cfg : Config F} {fuel : Nat} {p : Ptr} {c : Int} {cur : List (Pair F)} {i : Int} {label : List Int} {sp : F}
    {w w' : World F} {found : Int} {pairs : List (Pair F)} {l : Ptr} {x : Layer}
    (hsp : GoFloat.eq sp GoFloat.one = false) (hm : cfg.LayerMode = 1) (hx : w.layers[p]? = some x) (hl : 3 ≤ x.l)
    (hty : x.nodeType = Softmax)
    (hq : query cfg fuel p c cur i label sp w = .ok ((found, pairs, l), w')) : ∀ y ∈ label, y ∈ pairs.map Pair.Index := by
  obtain ⟨x', s, ret, hx', -, -, -, h⟩ := C55_mode1 hsp hm hq
  rw [hx] at hx'; cases hx'
  intro y hy
  rw [h y, if_pos ⟨hty, hy⟩]
  omega

/-! ### C57 -/

/-- The number of nodes of modes 2 and 3: `int(math.Floor(float64(n) * sparsity))`. -/
def sampleSize (x : Layer) (sp : F) : Int := GoFloat.floorInt (GoFloat.mul (GoFloat.ofInt (x.nodes.len : Int)) sp)

theorem mode2_labels_run {sp : F} {label : List Int} {x : Layer} (hmap : x.nodes.len ≤ mapLen)
    (h0 : 0 ≤ sampleSize x sp) (hlab : ∀ y ∈ label, 0 ≤ y ∧ y < x.nodes.len) (hnd : label.Nodup) (hle : label.length ≤ sampleSize x sp) :
    ∃ act bs, (∀ fuel r, mode2 fuel x.nodes.len sp label r = mode2Loop x.nodes.len fuel label.length (act, bs) r) ∧
      Sampled x.nodes.len (sampleSize x sp).toNat label.length act bs ∧ act.take label.length = label := by
  obtain ⟨act, bs, e1, hs, ht⟩ := mode2Labels_run (len := (sampleSize x sp).toNat) hmap label 0 _ _ (Sampled.init x.nodes.len _)
    (by omega) hlab (by simpa using hnd)
  refine ⟨act, bs, fun fuel r => ?_, by simpa using hs, by simpa using ht⟩
  unfold mode2
  dsimp only
  unfold sampleSize at h0 e1
  rw [if_neg (by omega), e1, ok_bind]

/-- C57. A mode-2 query of a softmax layer with distinct labels: the active list consists of
`floor(n*sparsity)` different ids of nodes and begins with the labels. -/
theorem C57_mode2 {cfg : Config F} {fuel : Nat} {p : Ptr} {c : Int} {cur : List (Pair F)} {i : Int} {label : List Int} {sp : F}
    {w w' : World F} {found : Int} {pairs : List (Pair F)} {l : Ptr} {x : Layer}
    (hsp : GoFloat.eq sp GoFloat.one = false) (hm : cfg.LayerMode = 2) (hx : w.layers[p]? = some x) (hty : x.nodeType = Softmax)
    (hn : 0 < x.nodes.len) (hmap : x.nodes.len ≤ mapLen) (hlab : ∀ y ∈ label, 0 ≤ y ∧ y < x.nodes.len) (hnd : label.Nodup)
    (hq : query cfg fuel p c cur i label sp w = .ok ((found, pairs, l), w')) :
    (pairs.length : Int) = sampleSize x sp ∧ (pairs.map Pair.Index).Nodup ∧
    (∀ id ∈ pairs.map Pair.Index, 0 ≤ id ∧ id < (x.nodes.len : Int)) ∧ label <+: pairs.map Pair.Index := by
  obtain ⟨x', ids, w2, ls, hx', hs, hi⟩ := query_ids hq
  rw [hx] at hx'; cases hx'
  rw [select_mode2 hsp hm (by exact hty)] at hs
  dsimp only at hs
  have h0 : 0 ≤ sampleSize x sp := by
    apply Int.not_lt.mp
    intro hlt
    unfold mode2 at hs
    unfold sampleSize at hlt
    dsimp only at hs
    rw [if_pos hlt] at hs; cases hs
  have hle : (label.length : Int) ≤ sampleSize x sp := by
    apply Int.not_lt.mp
    intro hlt
    unfold mode2 at hs
    unfold sampleSize at hlt h0
    dsimp only at hs
    rw [if_neg (by omega), mode2Labels_error label 0 _ _ (by simp; omega) (by simp)] at hs
    cases hs
  obtain ⟨act, bs, e1, hs1, ht1⟩ := mode2_labels_run hmap h0 hlab hnd hle
  rw [e1] at hs
  rcases Sampled.loop hn hmap fuel _ _ _ w.rng hs1 with e2 | ⟨act', bs', r', e2, hs2, ht2⟩
  · rw [e2] at hs; cases hs
  · rw [e2] at hs
    cases hs
    simp only [Option.getD_some] at hi
    rw [hi]
    have ht : act'.take (sampleSize x sp).toNat = act' := List.take_of_length_le (by rw [hs2.length]; exact Nat.le_refl _)
    have h1 := hs2.nodup
    have h2 := hs2.range
    rw [ht] at h1 h2
    refine ⟨?_, h1, h2, ?_⟩
    · rw [← List.length_map (f := Pair.Index) (as := pairs), hi, hs2.length]; omega
    · rw [ht1] at ht2
      rw [← ht2]; exact List.take_prefix _ _

/-- C57. More labels than `floor(n*sparsity)`: index out of range. -/
theorem C57_too_many_labels {cfg : Config F} {fuel : Nat} {p : Ptr} {c : Int} {cur : List (Pair F)} {i : Int} {label : List Int} {sp : F}
    {w : World F} {x : Layer}
    (hsp : GoFloat.eq sp GoFloat.one = false) (hm : cfg.LayerMode = 2) (hx : w.layers[p]? = some x) (hty : x.nodeType = Softmax)
    (h0 : 0 ≤ sampleSize x sp) (hlt : sampleSize x sp < label.length) :
    query cfg fuel p c cur i label sp w = .error .index := by
  unfold query
  have hc := cloneIfNeeded_run hx c
  have hl := layer_run (cloned_layer hx c)
  obtain ⟨ls, hls⟩ := cloned_eq w p x c
  generalize cloned w p x c = q at hc hl hls
  rw [M.bind_ok hc, M.bind_ok hl]
  apply M.bind_error
  rw [select_mode2 hsp hm (by exact hty)]
  unfold mode2
  unfold sampleSize at hlt h0
  dsimp only
  rw [if_neg (by omega), mode2Labels_error label 0 _ _ (by simp; omega) (by simp)]
  rfl

/-- C57. Otherwise sampling cannot get stuck: if no more than all nodes are wanted, then with every random source
that hits every node again and again, the selection ends (and does not panic). -/
theorem C57_ends {cfg : Config F} {cur : List (Pair F)} {label : List Int} {sp : F} {w : World F} {x : Layer}
    (hsp : GoFloat.eq sp GoFloat.one = false) (hm : cfg.LayerMode = 2) (hty : x.nodeType = Softmax)
    (hn : 0 < x.nodes.len) (hmap : x.nodes.len ≤ mapLen) (hlab : ∀ y ∈ label, 0 ≤ y ∧ y < x.nodes.len) (hnd : label.Nodup)
    (hle : label.length ≤ sampleSize x sp) (hsize : sampleSize x sp ≤ x.nodes.len)
    (hfair : ∀ v < x.nodes.len, ∀ k, ∃ i, k ≤ i ∧ w.rng i % x.nodes.len = v) :
    ∃ fuel act r, select cfg fuel x cur label sp w = .ok ((0, some act), { w with rng := r }) := by
  obtain ⟨act, bs, e1, hs1, -⟩ := mode2_labels_run hmap (by omega) hlab hnd hle
  obtain ⟨fuel, h⟩ := Sampled.ends hmap (by omega) _ _ _ _ w.rng hs1 hfair rfl
  cases hr : mode2Loop x.nodes.len fuel label.length (act, bs) w.rng with
  | error e => exact absurd hr (h e)
  | ok o =>
    refine ⟨fuel, o.1, o.2, ?_⟩
    rw [select_mode2 hsp hm hty, e1, hr]

/-- The softmax layer of three nodes, two of them wanted, label 1. -/
example : ∃ x, LayerEx.theLayer 2 3 = some x ∧ ∃ fuel act r, select (LayerEx.cfg 2) fuel x
    [⟨0, 1⟩] [1] (2/3) LayerEx.w0 = .ok ((0, some act), { LayerEx.w0 with rng := r }) := by
  have hx : (LayerEx.theLayer 2 3).map (fun x => (x.nodeType, x.nodes.len)) = some (1, 3) := by decide +kernel
  obtain ⟨x, hx, e⟩ := Option.map_eq_some_iff.mp hx
  simp only [Prod.mk.injEq] at e
  refine ⟨x, hx, ?_⟩
  have hs : sampleSize x (2/3 : Rat) = 2 := by
    unfold sampleSize; rw [e.2]; decide +kernel
  refine C57_ends (by decide +kernel) rfl e.1 (by omega) (by rw [e.2]; decide) (by rw [e.2]; decide) (by decide) ?_ ?_ ?_
  · rw [hs]; decide
  · rw [hs, e.2]; decide
  · rw [e.2]
    intro v hv k
    refine ⟨3 * k + v, by omega, ?_⟩
    show (7 * (3 * k + v)) % 3 = v
    omega

/-! ### C58 -/

theorem nodeScores_length : ∀ (ps : List Ptr) (h h' : Heap F) (ws : List (List F × F)), nodeScores ps h = .ok (ws, h') → ws.length = ps.length
  | [], h, h', ws, e => by cases e; rfl
  | p :: ps, h, h', ws, e => by
    unfold nodeScores at e
    replace e := M.bind_eq_ok e; obtain ⟨s, h1, -, e⟩ := e
    replace e := M.bind_eq_ok e; obtain ⟨w, h2, -, e⟩ := e
    replace e := M.bind_eq_ok e; obtain ⟨b, h3, -, e⟩ := e
    replace e := M.bind_eq_ok e; obtain ⟨rest, h4, e4, e⟩ := e
    cases e
    simp [nodeScores_length ps _ _ _ e4]

/-- C58 is false, for every layer: whenever fewer than all nodes are wanted, no mode-3 query of a softmax layer
returns. (All n sorted nodes are written into a list of floor(n*sparsity) entries.) -/
theorem C58_false (cfg : Config F) (fuel : Nat) (p : Ptr) (c : Int) (cur : List (Pair F)) (i : Int) (label : List Int) (sp : F)
    (w : World F) (x : Layer) (hsp : GoFloat.eq sp GoFloat.one = false) (hm : cfg.LayerMode = 3) (hx : w.layers[p]? = some x)
    (hty : x.nodeType = Softmax) (hlt : sampleSize x sp < x.nodes.len) (r : (Int × List (Pair F) × Ptr) × World F) :
    query cfg fuel p c cur i label sp w ≠ .ok r := by
  intro hq
  obtain ⟨⟨found, pairs, l⟩, w'⟩ := r
  obtain ⟨x', ids, w2, ls, hx', hs, hi⟩ := query_ids hq
  rw [hx] at hx'; cases hx'
  obtain ⟨ps, ws, act, h1, h2, h3, -⟩ := select_mode3 hsp hm (by exact hty) hs
  have hn : ws.length = x.nodes.len := by rw [nodeScores_length _ _ _ _ h2]; exact readSlice_length h1
  unfold mode3 at h3
  unfold sampleSize at hlt
  rw [hn] at h3
  dsimp only at h3
  split at h3
  · cases h3
  · rw [bind_ok_iff] at h3
    obtain ⟨sw, h4, h5⟩ := h3
    have hl : sw.length = x.nodes.len := by
      have := congrArg List.length (mode3Scores_spec label cur ws 0 sw h4)
      simpa [hn] using this
    rw [mode3Copy_error label _ 0 _ _ (by rw [List.length_replicate, (sortPairs_perm sw).length_eq, hl]; omega) (by omega)] at h5
    cases h5

/-- The panic of the small layer. -/
example : LayerEx.ids 3 3 0 [] (1/2) = .error .index := by decide +kernel

/-- C58, what holds: a mode-3 query of a softmax layer that returns selects all nodes, in some order, followed by
zeros if floor(n*sparsity) > n. (Missing: sparse layers, where the claim is false.) -/
theorem C58_partial {cfg : Config F} {fuel : Nat} {p : Ptr} {c : Int} {cur : List (Pair F)} {i : Int} {label : List Int} {sp : F}
    {w w' : World F} {found : Int} {pairs : List (Pair F)} {l : Ptr} {x : Layer}
    (hsp : GoFloat.eq sp GoFloat.one = false) (hm : cfg.LayerMode = 3) (hx : w.layers[p]? = some x)
    (hty : x.nodeType = Softmax) (hq : query cfg fuel p c cur i label sp w = .ok ((found, pairs, l), w')) :
    x.nodes.len ≤ sampleSize x sp ∧ ∃ act, act.Perm ((List.range x.nodes.len).map (fun (i : Nat) => (i : Int))) ∧
      pairs.map Pair.Index = act ++ List.replicate ((sampleSize x sp).toNat - x.nodes.len) 0 := by
  have hge : x.nodes.len ≤ sampleSize x sp := by
    apply Int.not_lt.mp
    intro hlt
    exact C58_false cfg fuel p c cur i label sp w x hsp hm hx hty hlt _ hq
  refine ⟨hge, ?_⟩
  obtain ⟨x', ids, w2, ls, hx', hs, hi⟩ := query_ids hq
  rw [hx] at hx'; cases hx'
  obtain ⟨ps, ws, act, h1, h2, h3, rfl⟩ := select_mode3 hsp hm (by exact hty) hs
  have hn : ws.length = x.nodes.len := by rw [nodeScores_length _ _ _ _ h2]; exact readSlice_length h1
  unfold mode3 at h3
  unfold sampleSize at hge ⊢
  rw [hn] at h3
  dsimp only at h3
  rw [if_neg (by omega), bind_ok_iff] at h3
  obtain ⟨sw, h4, h5⟩ := h3
  have hsp := mode3Scores_spec label cur ws 0 sw h4
  have hl : sw.length = x.nodes.len := by
    have := congrArg List.length hsp
    simpa [hn] using this
  have hl' := (sortPairs_perm sw).length_eq
  rw [mode3Copy_run label _ 0 _ _ (by rw [List.length_replicate, hl', hl]; omega)] at h5
  have e := congrArg Prod.fst (Except.ok.inj h5)
  simp only [List.take_zero, List.nil_append, Nat.zero_add, List.drop_replicate, hl', hl] at e
  simp only [Option.getD_some] at hi
  refine ⟨_, ?_, by rw [hi, ← e]⟩
  refine ((sortPairs_perm sw).map Pair.Index).trans ?_
  rw [hsp, hn, List.range_eq_range']

example : LayerEx.ids 3 3 0 [] (5/3) = .ok [2, 0, 1, 0, 0] := by decide +kernel

/-! ### C60 -/

/-- `k` calls of `UpdateRandomNodes`. -/
def updates (p : Ptr) : Nat → WM F Unit
  | 0 => pure ()
  | k + 1 => do updateRandomNodes p; updates p k

theorem updates_run {p : Ptr} {x : Layer} : ∀ (k : Nat) {w : World F} {order : List Int} (_ : w.layers[p]? = some x)
    (_ : OrderAt w x order) (_ : x.nodes.len ≤ order.length),
    ∃ w' order', updates p k w = .ok ((), w') ∧ w'.layers = w.layers ∧ order'.Perm order ∧ OrderAt w' x order'
  | 0, w, order, _, ho, _ => ⟨w, order, rfl, rfl, .refl _, ho⟩
  | k + 1, w, order, hx, ho, hn => by
    obtain ⟨o1, r, e, hp, ho1⟩ := updateRandomNodes_run hx ho hn
    obtain ⟨w', o2, e2, hl, hp2, ho2⟩ := updates_run k (w := { w with ints := w.ints.set x.randNode.arr o1, rng := r }) hx ho1
      (by rw [hp.length_eq]; exact hn)
    refine ⟨w', o2, ?_, hl, hp2.trans hp, ho2⟩
    unfold updates
    rw [M.bind_ok e]
    exact e2

/-- C60. After `layer.New` and any number of calls of `UpdateRandomNodes` (none of which panics), the padding order
of the layer is a permutation of 0..n-1, for every random source. -/
theorem C60_order {cfg : Config F} {c n prev : Int} {ty : NodeType} {b k l rp : Int} {s1 s2 s3 s4 : Slice} {p : Ptr} {w w1 : World F}
    (h : new cfg c n prev ty b k l rp s1 s2 s3 s4 w = .ok (p, w1)) (calls : Nat) :
    ∃ w2 x order, updates p calls w1 = .ok ((), w2) ∧ w2.layers[p]? = some x ∧ (x.nodes.len : Int) = n ∧
      readSlice w2.ints x.randNode = some order ∧ order.Perm ((List.range n.toNat).map (fun (i : Nat) => (i : Int))) := by
  obtain ⟨order, x, h0, hp, rfl, hl, hi, -, -, hr, -, -, -, -, -, hn, -⟩ := new_outer h
  have hx : w1.layers[w.layers.length]? = some x := by rw [hl]; simp
  have hlen : order.length = n.toNat := by rw [hp.length_eq]; simp
  have ho : OrderAt w1 x order := ⟨by rw [hi, hr]; simp, by rw [hr], by rw [hr]⟩
  obtain ⟨w2, o2, e, hl2, hp2, ho2⟩ := updates_run calls hx ho (by omega)
  exact ⟨w2, x, o2, e, by rw [hl2]; exact hx, by omega, ho2.read, hp2.trans hp⟩

example : (LayerEx.build 4 3 LayerEx.w0).toOption.map (·.1) = some 0 := by decide +kernel

end Goslide.Props
