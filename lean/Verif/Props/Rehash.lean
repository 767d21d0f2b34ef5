import Verif.Proofs.NetworkLife
import Verif.Props.LayerNew
import Verif.Props.Train
/-
The hash tables after `ProcessInput`: C68, C69.
-/
set_option linter.unusedSectionVars false
namespace Goslide.Props
open Goslide Node Lsh Configuration Spec Spec.Node Spec.Network Spec.Layer Layer Network Xcrepo
variable {F : Type} [GoFloat F]

/-- The index of a node from its observation. -/
theorem nodeIndex_run {cfg : Config F} {hasher : Hasher} {s : LSH} {h : Heap F} {Z : List (Ptr × View F)} (G : GroupZ h Z) {q : Ptr} {v : View F}
    (hq : (q, v) ∈ Z) (hk : hashFunctionOf cfg.HashFunction = .densifiedMinhash → 30 ≤ v.params.weights.length) {spare : List F} {I : List Int}
    (hI : indexOf cfg hasher s v.params.weights spare = .ok I) : nodeIndex cfg hasher s q h = .ok (I, h) := by
  obtain ⟨nd, b, qs, hp⟩ := (G.handle hq).parts
  have hw : Node.weights q h = .ok (b.weights, h) := by
    unfold Node.weights
    rw [M.bind_ok (baseOf_of hp)]
    rfl
  have hfl : floatsOf b.weights h = .ok (v.params.weights, h) := by
    have := Vec.read .weights hp.par
    unfold floatsOf
    change readSlice h.floats b.weights = _ at this
    rw [this]; rfl
  have hsp : spareOf b.weights h = .ok (spareAt h.floats b.weights, h) := rfl
  rw [indexOf_spare spare (spareAt h.floats b.weights) hk] at hI
  unfold nodeIndex
  rw [M.bind_ok hw, M.bind_ok hfl, M.bind_ok hsp]
  unfold indexOf at hI
  cases hh : hashDense cfg hasher v.params.weights (spareAt h.floats b.weights) with
  | error e => rw [hh] at hI; cases hI
  | ok hashes =>
    rw [hh] at hI
    dsimp only at hI
    rw [M.bind_ok (a := hashes) (s' := h) (by rfl)]
    show M.lift _ _ = _
    unfold M.lift
    rw [hI]

/-- The number of inputs of a layer. -/
theorem inputSize_kept {cfg : Config F} {a : NetArgs F} {Q : List (State F)} (h : AllKept cfg a Q) {j : Nat} {g : State F} (hg : Q[j]? = some g)
    {prev : Int} (h0 : j = 0 → prev = a.dim) (h1 : ∀ i, j = i + 1 → a.sizes[i]? = some prev) : inputSize a.dim.toNat Q j = prev.toNat := by
  cases j with
  | zero => rw [h0 rfl]; rfl
  | succ j =>
    show (match Q[j]? with | none => 0 | some g => g.nodes.length) = _
    have hlt := (List.getElem?_eq_some_iff.mp hg).1
    have hq := List.getElem?_eq_getElem (l := Q) (i := j) (by omega)
    obtain ⟨size, _, _, _, _, _, q1, -, -, -, -, hk, -⟩ := h j _ hq
    rw [h1 j rfl] at q1
    cases q1
    rw [hq]
    dsimp only
    have := hk.nodes
    omega

/-- A layer whose tables were cleared and filled again. -/
theorem consistent_of_rehashed {cfg : Config F} {c : Int} {a : NetArgs F} {w : World F} {p : Ptr} {n : Network F} {Q : List (State F)}
    (al : Alive cfg c a w p n Q) {j : Nat} {g' g : State F} (hg' : Q[j]? = some g') {size prev ty k l rp : Int} (hrp : rp < 63)
    (hk : Kept cfg size prev ty k l rp g) (hk' : Kept cfg size prev ty k l rp g') (h0 : j = 0 → prev = a.dim) (h1 : ∀ i, j = i + 1 → a.sizes[i]? = some prev)
    (hr : Rehashed cfg g'.obj.hasher g'.views g.tables g'.tables) : Consistent cfg w g'.ptr size l rp := by
  obtain ⟨I, hrun, hI⟩ := hr
  obtain ⟨s0, r, r', ops, n1, n2, -⟩ := hk.tables
  have S := al.trainable.net.layers.stored g' (List.mem_of_getElem? hg')
  have hvl : g'.views.length = g'.nodes.length := by unfold State.views; rw [List.length_map]
  refine ⟨g'.obj, g'.tables, g'.nodes.map Prod.fst, I, S.obj, S.tables, S.nodes, by rw [List.length_map]; exact hk'.nodes, ?_, ?_⟩
  · intro i q hq
    rw [List.getElem?_map] at hq
    cases hz : g'.nodes[i]? with
    | none => rw [hz] at hq; cases hq
    | some z =>
      rw [hz] at hq
      cases hq
      have hv : g'.views[i]? = some z.2 := by unfold State.views; rw [List.getElem?_map, hz]; rfl
      obtain ⟨spare, hs⟩ := hI i z.2 hv
      have hsh : Shape g.tables g'.tables := (clear_shape g.tables).trans (run_shape hrun)
      rw [← indexOf_shape hsh] at hs
      refine nodeIndex_run al.trainable.net.layers.group (Z := Q.flatMap State.nodes) (v := z.2) ?_ ?_ hs
      · exact List.mem_flatMap.mpr ⟨g', List.mem_of_getElem? hg', List.mem_of_getElem? hz⟩
      · intro hf
        have hpos : 0 < size := by
          have := (List.getElem?_eq_some_iff.mp hz).1
          have := hk'.nodes
          omega
        have := hk'.topK hpos hf
        rw [(al.trainable.shaped.nodes j g' hg' z.2 (List.mem_of_getElem? hv)).weights, inputSize_kept al.kept hg' h0 h1]
        omega
  · rw [List.length_map, ← hvl]
    obtain ⟨-, -, p3⟩ := hk.pos
    refine tablesHold (by omega) n1 (ops := ops ++ [Op.clear]) ?_ ?_
    · intro t i
      unfold cellHistory
      rw [List.foldl_append]
      rfl
    · rw [List.append_assoc, run_append, n2, ok_bind, List.singleton_append, run_cons]
      exact hrun

/-! ### C68 -/

/-- C68. After any life of a network (`New`, then training steps and predictions by the owner) a training step with `rehash` leaves the
tables of every layer with sparsity below 1 consistent with the new weights: every node is in every table at the index that the
hash function of the layer computes from its new weights, unless 128 higher-numbered nodes fell in the same cell, and
nothing else is in the tables. -/
theorem C68_rehash [FloatOrder F] {cfg : Config F} (hl : cfg.LoadWeight = false) {c : Int} {a : NetArgs F} (ha : a.Typed) (hrp : ∀ rp ∈ a.rangePow, rp < 63)
    {w w' : World F} {p p' : Ptr} {fuel : Nat} {es : List (Example F)} {iter : Int} {rebuild : Bool} {x : F} (life : Life cfg c a w p)
    (hr : processInput cfg fuel p c es iter true rebuild w = .ok ((x, p'), w')) :
    ∃ n ptrs, w'.networks[p']? = some n ∧ readSlice w'.layerArrs n.hiddenLayers = some ptrs ∧ (ptrs.length : Int) = a.layers ∧
      ∀ (j : Nat) (q : Ptr), ptrs[j]? = some q → ∃ sp size l rp, a.sparsity[j]? = some sp ∧ a.sizes[j]? = some size ∧ a.l[j]? = some l ∧
        a.rangePow[j]? = some rp ∧ (GoFloat.lt sp GoFloat.one = true → Consistent cfg w' q size l rp) := by
  obtain ⟨n, Q, al⟩ := life.alive hl ha
  obtain ⟨e, T, Q', -, -, al', -, hlen, hj⟩ := al.step hr
  obtain rfl := congrArg Prod.snd e
  refine ⟨n, Q'.map State.ptr, al'.trainable.net.obj, al'.trainable.net.layers.ptrs, ?_, ?_⟩
  · rw [List.length_map, ← al'.count, al'.trainable.net.count]
  · intro j q hq
    rw [List.getElem?_map] at hq
    cases hg' : Q'[j]? with
    | none => rw [hg'] at hq; cases hq
    | some g' =>
      rw [hg'] at hq
      cases hq
      have hlt := (List.getElem?_eq_some_iff.mp hg').1
      have hg := List.getElem?_eq_getElem (l := Q) (i := j) (by omega)
      obtain ⟨g2, sp, h2, hsp, tr⟩ := hj j _ hg
      rw [hg'] at h2
      cases h2
      obtain ⟨size, prev, ty, k, l, rp, q1, q2, q3, q4, q5, hk, q6, q7⟩ := al.kept j _ hg
      refine ⟨sp, size, l, rp, by rw [← al.sparsity]; exact hsp, q1, q4, q5, fun hlt1 => ?_⟩
      have ht := tr.tables
      rw [hlt1, Bool.and_true, if_pos rfl] at ht
      exact consistent_of_rehashed al' hg' (hrp rp (List.mem_of_getElem? q5)) hk (hk.trained tr) q6 q7 ht

namespace NetEx

/-- The arguments of the example network. -/
def args (sp : List Rat) : NetArgs Rat where
  layers := 2
  sizes := [3, 2]
  types := [0, 1]
  batch := 2
  rate := 1 / 10
  dim := 2
  k := [1, 1]
  l := [1, 1]
  rangePow := [6, 6]
  sparsity := sp

theorem typed (sp : List Rat) : (args sp).Typed := by
  refine ⟨?_, rfl⟩
  intro j ty hj hty
  have : j = 0 ∨ j = 1 := by
    have : (j : Int) < 2 := hj
    omega
  rcases this with rfl | rfl
  · cases hty; exact .inl rfl
  · cases hty; exact .inr rfl

/-- Whether a node is found in all tables of its layer at its own indices. -/
def found (w : World Rat) (la : Ptr) (id : Nat) : Option Bool := do
  let x ← w.layers[la]?
  let s ← w.lshs[x.hashTables]?
  let L ← readSlice w.heap.nodeArrs x.nodes
  let q ← L[id]?
  let (I, _) ← (nodeIndex (LayerEx.cfg 4) x.hasher s q w.heap).toOption
  let raw ← (retrieveRaw s I).toOption
  some (raw.all (fun xs => decide ((id : Int) ∈ xs)))

/-- Build the example network with sparsity 1/2, train one step with the draws `r`, and look for all nodes. -/
def foundAfter (rehash rebuild : Bool) (r : Rng) : Option (List (Option Bool)) := do
  let (p, w) ← (build 4 [1/2, 1/2, 1/2, 1/2]).toOption
  let (_, w) ← (processInput (LayerEx.cfg 4) 0 p 0 examples 0 rehash rebuild { w with rng := r }).toOption
  some [found w 0 0, found w 0 1, found w 0 2, found w 1 0, found w 1 1]

end NetEx

-- the hypotheses of C68 hold for the example network, and its nodes are found
example : ∃ (w : World Rat) (p : Ptr), Life (LayerEx.cfg 4) 0 (NetEx.args [1/2, 1/2, 1/2, 1/2]) w p ∧
    (processInput (LayerEx.cfg 4) 0 p 0 NetEx.examples 0 true true w).isOk = true := by
  have h : (NetEx.foundAfter true true (fun n => n)).isSome = true := by decide +kernel
  unfold NetEx.foundAfter at h
  cases hb : NetEx.build 4 [1/2, 1/2, 1/2, 1/2] with
  | error e => rw [hb] at h; cases h
  | ok x =>
    obtain ⟨p, w⟩ := x
    refine ⟨{ w with rng := fun n => n }, p, Life.draws (Life.new hb), ?_⟩
    rw [hb] at h
    cases hp : processInput (LayerEx.cfg 4) 0 p 0 NetEx.examples 0 true true { w with rng := fun n => n } with
    | error e =>
      simp only [Except.toOption, Option.bind_eq_bind, Option.bind_some, hp] at h
      cases h
    | ok _ => rfl
example : NetEx.foundAfter true true (fun n => n) = some [some true, some true, some true, some true, some true] := by decide +kernel
example : NetEx.foundAfter true false (fun n => n) = some [some true, some true, some true, some true, some true] := by decide +kernel

/-! ### C69 -/

/-- What `Consistent` says about few nodes: all of them are found. -/
theorem found_of_consistent {w : World Rat} {q : Ptr} {size l rp : Int} (h : Consistent (LayerEx.cfg 4) w q size l rp) (hs : size ≤ 128)
    (id : Nat) (hid : (id : Int) < size) : NetEx.found w q id = some true := by
  obtain ⟨x, s, L, I, h1, h2, h3, h4, h5, h6⟩ := h
  have hlt : id < L.length := by omega
  have hq := List.getElem?_eq_getElem hlt
  obtain ⟨raw, e1, e2, e3⟩ := h6.found id hlt
  have hall : raw.all (fun xs => decide ((id : Int) ∈ xs)) = true := by
    rw [List.all_eq_true]
    intro xs hxs
    obtain ⟨t, ht⟩ := List.mem_iff_getElem?.mp hxs
    have htl := (List.getElem?_eq_some_iff.mp ht).1
    obtain ⟨xs', i, f1, f2, f3⟩ := e3 t (by omega)
    rw [ht] at f1
    cases f1
    rcases f3 with f3 | f3
    · simpa using f3
    · exfalso
      have hb : ((sameCell L.length I t i).filter (fun j => (id : Int) < j)).length < 128 := by
        unfold sameCell
        have hm : (id : Int) ∈ ((List.range L.length).filter (fun j => (I j)[t]? == some i)).map (fun (j : Nat) => (j : Int)) :=
          List.mem_map.mpr ⟨id, List.mem_filter.mpr ⟨List.mem_range.mpr hlt, by simp [f2]⟩, rfl⟩
        have h7 := List.length_filter_lt_length_iff_exists (p := fun j => decide ((id : Int) < j)) (l := ((List.range L.length).filter (fun j => (I j)[t]? == some i)).map (fun (j : Nat) => (j : Int)))
        have h8 := h7.mpr ⟨id, hm, by simp⟩
        have h9 := List.length_filter_le (fun j => (I j)[t]? == some i) (List.range L.length)
        rw [List.length_map] at h8
        rw [List.length_range] at h9
        omega
      omega
  unfold NetEx.found
  simp only [h1, h2, h3, hq, h5 id _ hq, e1, hall, Except.toOption, Option.bind_eq_bind, Option.bind_some]

/-- C69 is false: with `rebuild` and without `rehash` the hash function of a layer is replaced but the tables keep the entries of the
old one. In the example network a node is not in its table at the index of its weights. -/
theorem C69_rebuild_false : ¬ ∀ (w w' : World Rat) (p p' : Ptr) (es : List (Example Rat)) (iter : Int) (rehash : Bool) (x : Rat),
    Life (LayerEx.cfg 4) 0 (NetEx.args [1/2, 1/2, 1/2, 1/2]) w p → processInput (LayerEx.cfg 4) 0 p 0 es iter rehash true w = .ok ((x, p'), w') →
    Consistent (LayerEx.cfg 4) w' 0 3 1 6 := by
  intro hall
  have h : NetEx.foundAfter false true (fun n => n) = some [some false, some false, some true, some false, some false] := by decide +kernel
  unfold NetEx.foundAfter at h
  cases hb : NetEx.build 4 [1/2, 1/2, 1/2, 1/2] with
  | error e => rw [hb] at h; cases h
  | ok x =>
    obtain ⟨p, w⟩ := x
    rw [hb] at h
    cases hp : processInput (LayerEx.cfg 4) 0 p 0 NetEx.examples 0 false true { w with rng := fun n => n } with
    | error e =>
      simp only [Except.toOption, Option.bind_eq_bind, Option.bind_some, hp] at h
      cases h
    | ok r =>
      obtain ⟨⟨x, p'⟩, w'⟩ := r
      simp only [Except.toOption, Option.bind_eq_bind, Option.bind_some, hp] at h
      have hc := found_of_consistent (hall _ _ _ _ _ _ _ _ (Life.draws (Life.new hb)) hp) (by omega) 1 (by omega)
      have h1 := congrArg (fun o => o.bind (fun l => l[1]?)) h
      simp only [Option.bind_some, List.getElem?_cons_succ, List.getElem?_cons_zero, Option.some.injEq] at h1
      rw [hc] at h1
      cases h1

/-- C69 with `rehash`, and what happens without: after a training step with `rebuild` every layer with sparsity below 1 has a newly drawn hash
function; with `rehash` the tables are consistent with it, without `rehash` they are the tables from before the step.
Missing for C69: consistency without `rehash`, which is false (`C69_rebuild_false`). -/
theorem C69_rebuild_partial [FloatOrder F] {cfg : Config F} (hl : cfg.LoadWeight = false) {c : Int} {a : NetArgs F} (ha : a.Typed) (hrp : ∀ rp ∈ a.rangePow, rp < 63)
    {w w' : World F} {p p' : Ptr} {fuel : Nat} {es : List (Example F)} {iter : Int} {rehash : Bool} {x : F} (life : Life cfg c a w p)
    (hr : processInput cfg fuel p c es iter rehash true w = .ok ((x, p'), w')) :
    ∃ n ptrs, w.networks[p]? = some n ∧ w'.networks[p']? = some n ∧ readSlice w.layerArrs n.hiddenLayers = some ptrs ∧
      readSlice w'.layerArrs n.hiddenLayers = some ptrs ∧ (ptrs.length : Int) = a.layers ∧
      ∀ (j : Nat) (q : Ptr), ptrs[j]? = some q → ∃ sp size prev k l rp x x', a.sparsity[j]? = some sp ∧ a.sizes[j]? = some size ∧ a.k[j]? = some k ∧ a.l[j]? = some l ∧
        a.rangePow[j]? = some rp ∧ (j = 0 → prev = a.dim) ∧ (∀ i, j = i + 1 → a.sizes[i]? = some prev) ∧ w.layers[q]? = some x ∧ w'.layers[q]? = some x' ∧
        (GoFloat.lt sp GoFloat.one = true → (∃ v v' : World F, newHasher cfg (k * l).toNat prev.toNat v = .ok (x'.hasher, v')) ∧
          if rehash then Consistent cfg w' q size l rp else x'.hashTables = x.hashTables ∧ w'.lshs[x'.hashTables]? = w.lshs[x.hashTables]?) := by
  obtain ⟨n, Q, al⟩ := life.alive hl ha
  obtain ⟨e, T, Q', -, -, al', -, hlen, hj⟩ := al.step hr
  obtain rfl := congrArg Prod.snd e
  have hptr : Q'.map State.ptr = Q.map State.ptr := by
    apply List.ext_getElem?
    intro j
    rw [List.getElem?_map, List.getElem?_map]
    by_cases hlt : j < Q.length
    · obtain ⟨g', sp, h1, -, tr⟩ := hj j _ (List.getElem?_eq_getElem hlt)
      rw [h1, List.getElem?_eq_getElem hlt]
      exact congrArg some tr.ptr
    · rw [List.getElem?_eq_none (l := Q') (by omega), List.getElem?_eq_none (l := Q) (by omega)]
  refine ⟨n, Q.map State.ptr, al.trainable.net.obj, al'.trainable.net.obj, al.trainable.net.layers.ptrs, by rw [← hptr]; exact al'.trainable.net.layers.ptrs, ?_, ?_⟩
  · rw [List.length_map, ← al.count, al.trainable.net.count]
  · intro j q hq
    rw [List.getElem?_map] at hq
    cases hg : Q[j]? with
    | none => rw [hg] at hq; cases hq
    | some g =>
      rw [hg] at hq
      cases hq
      obtain ⟨g', sp, hg', hsp, tr⟩ := hj j _ hg
      obtain ⟨size, prev, ty, k, l, rp, q1, q2, q3, q4, q5, hk, q6, q7⟩ := al.kept j _ hg
      have S := al.trainable.net.layers.stored g (List.mem_of_getElem? hg)
      have S' := al'.trainable.net.layers.stored g' (List.mem_of_getElem? hg')
      have hS' := S'.obj
      rw [tr.ptr] at hS'
      refine ⟨sp, size, prev, k, l, rp, g.obj, g'.obj, by rw [← al.sparsity]; exact hsp, q1, q3, q4, q5, q6, q7, S.obj, hS', fun hlt1 => ⟨?_, ?_⟩⟩
      · have hh := tr.hasher
        rw [hlt1, Bool.and_true, if_pos rfl, hk.oK, hk.oL, hk.oPrev] at hh
        exact hh
      · have ht := tr.tables
        rw [hlt1, Bool.and_true] at ht
        cases rehash with
        | true =>
          rw [if_pos rfl] at ht ⊢
          rw [← tr.ptr]
          exact consistent_of_rehashed al' hg' (hrp rp (List.mem_of_getElem? q5)) hk (hk.trained tr) q6 q7 ht
        | false =>
          rw [if_neg Bool.false_ne_true] at ht ⊢
          have he : g'.obj.hashTables = g.obj.hashTables := by rw [tr.obj]
          refine ⟨he, ?_⟩
          rw [S'.tables, S.tables, ht]

end Goslide.Props
