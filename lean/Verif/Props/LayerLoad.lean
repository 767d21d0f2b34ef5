import Verif.Proofs.LayerLoad
import Verif.Proofs.NodeUse
import Verif.Props.Layer
import Verif.Proofs.TablesHold
/-
Layers with given arrays: C100.
-/
set_option linter.unusedSectionVars false
set_option maxRecDepth 10000
namespace Goslide.Props
open Goslide Goslide.Layer Goslide.Node Lsh Configuration Spec.Node Spec.Layer Spec
variable {F : Type} [GoFloat F]

/-! ### C100 -/

/-- The arrays given to `New`, with what they hold: weights, biases and, with Adam, moments. -/
structure Arrays (cfg : Config F) (w : World F) (s1 s2 s3 s4 : Slice) (ws bs ms vs : List F) : Prop where
  weights : readSlice w.heap.floats s1 = some ws
  exist : s1.arr < w.heap.floats.length
  bias : readSlice w.heap.floats s2 = some bs
  mom : cfg.UseAdam = true → readSlice w.heap.floats s3 = some ms
  vel : cfg.UseAdam = true → readSlice w.heap.floats s4 = some vs

/-- Row `m` of a matrix with rows of length `p` that is stored row by row. -/
def row (p m : Nat) (xs : List F) : List F := (List.range p).filterMap (fun i => xs[p * m + i]?)

theorem row_eq (p m : Nat) (xs : List F) : (xs.drop (p * m)).take p = row p m xs := by
  unfold row
  generalize p * m = a
  induction p with
  | zero => rfl
  | succ p ih =>
    rw [List.take_add_one, ih, List.range_succ, List.filterMap_append, List.getElem?_drop]
    cases h : xs[a + p]? <;> simp [h]

/-- What the memory looks like after `New`. -/
structure Loaded (cfg : Config F) (w w' : World F) (c n prev : Int) (ty : NodeType) (b k l rp : Int) (s1 s2 s3 s4 : Slice)
    (ws bs ms vs : List F) (p : Ptr) (P : Load F) (x : Layer) : Prop where
  eCow : P.cowId = c
  eN : (P.n : Int) = n
  eP : (P.p : Int) = prev
  eTy : P.ty = ty
  eA : P.adam = cfg.UseAdam
  eB : P.b = b.toNat
  bpos : 0 < P.n → 0 ≤ b
  given : P.sw = s1 ∧ P.sb = s2 ∧ P.sm = s3 ∧ P.sv = s4 ∧ P.ws = ws ∧ P.bs = bs ∧ P.ms = ms ∧ P.vs = vs
  G : P.Given w.heap
  fits : ∀ m, m < P.n → P.Fits m
  layer : w'.layers[p]? = some x
  heap : w'.heap = P.stage w.heap P.n
  nodes : readSlice w'.heap.nodeArrs x.nodes = some ((P.nodes w.heap).map Prod.fst)
  pos : 0 ≤ k ∧ 0 ≤ l ∧ 0 ≤ rp
  tables : ∃ (s0 s : LSH) (r r' : Rng) (I : Nat → List Int), w'.lshs[x.hashTables]? = some s ∧ Lsh.new k.toNat l.toNat rp.toNat r = .ok (s0, r') ∧
    (∀ j, j < P.n → indexOf cfg x.hasher s0 (P.params j).weights (spareAt w.heap.floats (P.part P.sw j)) = .ok (I j)) ∧
    Lsh.run s0 ((List.range P.n).map (fun j => Op.add (I j) j)) = .ok s

theorem nodes_fst (P : Load F) (h : Heap F) : (P.nodes h).map Prod.fst = (List.range P.n).map (fun m => h.nodes.length + m) := by
  unfold Load.nodes
  rw [List.map_map]
  rfl

theorem nodes_at {P : Load F} {h : Heap F} {m : Nat} {q : Ptr} (hq : ((P.nodes h).map Prod.fst)[m]? = some q) :
    m < P.n ∧ q = h.nodes.length + m := by
  rw [nodes_fst, List.getElem?_map, Option.map_eq_some_iff] at hq
  obtain ⟨j, hj, rfl⟩ := hq
  obtain ⟨h1, rfl⟩ := List.getElem?_eq_some_iff.mp hj
  rw [List.length_range] at h1
  rw [List.getElem_range]
  exact ⟨h1, rfl⟩

theorem nodes_len (P : Load F) (h : Heap F) : ((P.nodes h).map Prod.fst).length = P.n := by
  rw [nodes_fst, List.length_map, List.length_range]

section
variable {cfg : Config F} {c n prev : Int} {ty : NodeType} {b k l rp : Int} {s1 s2 s3 s4 : Slice} {p : Ptr} {w w' : World F}
  {ws bs ms vs : List F}

theorem loaded_run (hl : cfg.LoadWeight = true) (A : Arrays cfg w s1 s2 s3 s4 ws bs ms vs)
    (hr : Layer.new cfg c n prev ty b k l rp s1 s2 s3 s4 w = .ok (p, w')) :
    ∃ P x, Loaded cfg w w' c n prev ty b k l rp s1 s2 s3 s4 ws bs ms vs p P x := by
  obtain ⟨P, order, x, s0, s, r, r', I, h1, h2, h3, h4, h5, h6, h7, h8, h9, -, k0, l0, rp0, hnew, hI, hrun, hx, -, hp, hh, -, hlsh, -,
    hlay, -, -⟩ := new_load hl A.weights A.exist A.bias A.mom A.vel hr
  have hG : P.Given w.heap := by
    obtain ⟨e1, e2, e3, e4, e5, e6, e7, e8⟩ := h8
    refine ⟨?_, ?_, ?_, ?_, ?_⟩
    · rw [e1, e5]; exact A.weights
    · rw [e1]; exact A.exist
    · rw [e2, e6]; exact A.bias
    · rw [h5, e3, e7]; exact A.mom
    · rw [h5, e4, e8]; exact A.vel
  obtain ⟨-, -, x3, -, -, -, -, -, x9, -⟩ := hx
  refine ⟨P, x, h1, h2, h3, h4, h5, h6, h7, h8, hG, h9, ?_, hh, ?_, ⟨k0, l0, rp0⟩, s0, s, r, r', I, ?_, hnew, hI, hrun⟩
  · rw [hlay, hp]; simp
  · rw [hh, x3, Load.stage_nodes, nodes_fst]
    congr 1
    apply List.ext_getElem
    · simp
    · intro i h1 h2
      simp
  · rw [hlsh, x9]; simp

/-- C100. With LoadWeight: node `m` of the new layer has row `m` of the given weights, the given bias `m`, and, with Adam, row `m` of
the given moments; its gradients are zero and its training states are idle. -/
theorem C100_loaded (hl : cfg.LoadWeight = true) (A : Arrays cfg w s1 s2 s3 s4 ws bs ms vs)
    (hr : Layer.new cfg c n prev ty b k l rp s1 s2 s3 s4 w = .ok (p, w')) :
    ∃ x L, w'.layers[p]? = some x ∧ readSlice w'.heap.nodeArrs x.nodes = some L ∧ (L.length : Int) = n ∧
      ∀ (m : Nat) (q : Ptr), L[m]? = some q → ∃ v, view w'.heap q = some v ∧
        v.params.nodeType = ty ∧ v.params.id = m ∧ v.params.batch = b ∧
        v.params.weights = row prev.toNat m ws ∧ (v.params.weights.length : Int) = prev ∧
        v.params.mirrorWeights = v.params.weights ∧
        bs[m]? = some v.params.bias ∧ v.params.mirrorBias = v.params.bias ∧
        v.params.mom = (if cfg.UseAdam then row prev.toNat m ms else []) ∧
        v.params.vel = (if cfg.UseAdam then row prev.toNat m vs else []) ∧
        (cfg.UseAdam = true → (v.params.mom.length : Int) = prev ∧ (v.params.vel.length : Int) = prev) ∧
        v.params.t = (if cfg.UseAdam then List.replicate prev.toNat GoFloat.zero else []) ∧
        v.params.tBias = GoFloat.zero ∧ v.params.momBias = GoFloat.zero ∧ v.params.velBias = GoFloat.zero ∧
        v.train = List.replicate b.toNat idle := by
  obtain ⟨P, x, H⟩ := loaded_run hl A hr
  refine ⟨x, _, H.layer, H.nodes, ?_, ?_⟩
  · rw [nodes_len]; exact H.eN
  · intro m q hq
    obtain ⟨hm, rfl⟩ := nodes_at hq
    have hv := (Load.stage_parts P w.heap H.G hm hm (H.fits m hm)).handle.view
    rw [← H.heap] at hv
    obtain ⟨f1, f2, f3⟩ := H.fits m hm
    obtain ⟨e1, e2, e3, e4, e5, e6, e7, e8⟩ := H.given
    have hp : prev.toNat = P.p := by have := H.eP; omega
    have lw := readSlice_length H.G.w
    have lb := readSlice_length H.G.b
    have hb := H.bpos (by omega)
    have hB := H.eB
    have hprev := H.eP
    refine ⟨_, hv, H.eTy, rfl, ?_, ?_, ?_, rfl, ?_, rfl, ?_, ?_, ?_, ?_, rfl, rfl, rfl, ?_⟩
    · show (P.b : Int) = b
      omega
    · rw [hp, ← row_eq, ← e5]; rfl
    · show ((((P.ws.drop (P.p * m)).take P.p).length : Nat) : Int) = prev
      rw [List.length_take, List.length_drop]
      omega
    · show bs[m]? = some ((P.bs[m]?).getD GoFloat.zero)
      rw [← e6, List.getElem?_eq_getElem (by omega)]; rfl
    · rw [hp, ← row_eq, ← e7, ← H.eA]; rfl
    · rw [hp, ← row_eq, ← e8, ← H.eA]; rfl
    · intro ha
      rw [← H.eA] at ha
      have lm := readSlice_length (H.G.m ha)
      have lv := readSlice_length (H.G.v ha)
      obtain ⟨f4, f5⟩ := f3 ha
      constructor
      · show (((if P.adam then (P.ms.drop (P.p * m)).take P.p else []).length : Nat) : Int) = prev
        rw [if_pos ha, List.length_take, List.length_drop]; omega
      · show (((if P.adam then (P.vs.drop (P.p * m)).take P.p else []).length : Nat) : Int) = prev
        rw [if_pos ha, List.length_take, List.length_drop]; omega
    · rw [hp, ← H.eA]; rfl
    · rw [← hB]; rfl

/-- C100. The arrays must be long enough, else `New` panics (unless there are no nodes). -/
theorem C100_short (hl : cfg.LoadWeight = true) (A : Arrays cfg w s1 s2 s3 s4 ws bs ms vs)
    (hr : Layer.new cfg c n prev ty b k l rp s1 s2 s3 s4 w = .ok (p, w')) (hn : 0 < n) :
    prev * n ≤ ws.length ∧ n ≤ bs.length ∧ (cfg.UseAdam = true → prev * n ≤ ms.length ∧ prev * n ≤ vs.length) := by
  obtain ⟨P, x, H⟩ := loaded_run hl A hr
  have hN := H.eN
  have hprev := H.eP
  obtain ⟨f1, f2, f3⟩ := H.fits (P.n - 1) (by omega)
  obtain ⟨e1, e2, e3, e4, e5, e6, e7, e8⟩ := H.given
  have lw := readSlice_length H.G.w
  have lb := readSlice_length H.G.b
  have hmul : P.p * (P.n - 1) + P.p = P.p * P.n := by
    rw [← Nat.mul_succ]; congr 1; omega
  have hmi : prev * n = ((P.p * P.n : Nat) : Int) := by rw [← hN, ← hprev]; simp
  rw [← e5, ← e6, ← e7, ← e8, hmi]
  refine ⟨by omega, by omega, ?_⟩
  intro ha
  rw [← H.eA] at ha
  have lm := readSlice_length (H.G.m ha)
  have lv := readSlice_length (H.G.v ha)
  obtain ⟨f4, f5⟩ := f3 ha
  constructor <;> omega

/-- C100. The weights are not copied: an assignment to a weight of node `m` changes the given array. -/
theorem C100_shared (hl : cfg.LoadWeight = true) (A : Arrays cfg w s1 s2 s3 s4 ws bs ms vs)
    (hr : Layer.new cfg c n prev ty b k l rp s1 s2 s3 s4 w = .ok (p, w')) :
    ∃ x L, w'.layers[p]? = some x ∧ readSlice w'.heap.nodeArrs x.nodes = some L ∧ (L.length : Int) = n ∧
      ∀ m q, L[m]? = some q → ∀ (d : Int) (i : Nat) (y : F), (i : Int) < prev →
        ∃ h', (Use.weight q i y).run cfg d w'.heap = .ok ((), h') ∧ readSlice h'.floats s1 = some (ws.set (prev.toNat * m + i) y) := by
  obtain ⟨P, x, H⟩ := loaded_run hl A hr
  refine ⟨x, _, H.layer, H.nodes, ?_, ?_⟩
  · rw [nodes_len]; exact H.eN
  · intro m q hq d i y hi
    obtain ⟨hm, rfl⟩ := nodes_at hq
    have hp := Load.stage_parts P w.heap H.G hm hm (H.fits m hm)
    rw [← H.heap] at hp
    obtain ⟨f1, -, -⟩ := H.fits m hm
    obtain ⟨e1, -, -, -, e5, -⟩ := H.given
    have hprev := H.eP
    have hpp : prev.toNat = P.p := by omega
    obtain ⟨a, ha, hlen, hws⟩ := readSlice_pos H.G.w (by omega)
    have hfl : w'.heap.floats[P.sw.arr]? = some a := by
      rw [H.heap]; exact getElem?_pre ha _
    have hwr : Node.weights (w.heap.nodes.length + m) w'.heap = .ok (P.part P.sw m, w'.heap) := by
      unfold Node.weights; rw [M.bind_ok (baseOf_of hp)]; rfl
    have hcell : writeCell w'.heap.floats (P.part P.sw m) i y = .ok (w'.heap.floats.set P.sw.arr (a.set (P.sw.off + P.p * m + i) y)) := by
      unfold writeCell
      rw [if_pos (by show 0 ≤ (i : Int) ∧ (i : Int) < (P.p : Int); omega)]
      show (match w'.heap.floats[P.sw.arr]? with | none => _ | some a => _) = _
      rw [hfl]
      show (if P.sw.off + P.p * m + (i : Int).toNat < a.length then _ else _) = _
      rw [if_pos (by rw [Int.toNat_natCast]; omega)]
      rfl
    refine ⟨{ w'.heap with floats := w'.heap.floats.set P.sw.arr (a.set (P.sw.off + P.p * m + i) y) }, ?_, ?_⟩
    · unfold Use.run
      dsimp only
      rw [M.bind_ok hwr]
      unfold setFloat
      rw [hcell]
      rfl
    · show readSlice (w'.heap.floats.set P.sw.arr (a.set (P.sw.off + P.p * m + i) y)) s1 = _
      rw [← e1, hpp, ← e5]
      unfold readSlice
      rw [if_neg (by omega), List.getElem?_set_self (List.getElem?_eq_some_iff.mp hfl).1]
      dsimp only
      rw [if_pos (by rw [List.length_set]; exact hlen), hws]
      congr 1
      apply List.ext_getElem?
      intro j
      simp only [List.getElem?_take, List.getElem?_drop, List.getElem?_set, List.length_take, List.length_drop]
      grind

/-- C100. If the given arrays do not overlap: any use of a node, with any cowId, leaves the parameters and the training state of every
other node. -/
theorem C100_independent (hl : cfg.LoadWeight = true) (A : Arrays cfg w s1 s2 s3 s4 ws bs ms vs)
    (hd : cfg.UseAdam = true → s1.Disjoint s3 ∧ s1.Disjoint s4 ∧ s3.Disjoint s4)
    (hr : Layer.new cfg c n prev ty b k l rp s1 s2 s3 s4 w = .ok (p, w')) :
    ∃ x L, w'.layers[p]? = some x ∧ readSlice w'.heap.nodeArrs x.nodes = some L ∧ (L.length : Int) = n ∧
      ∀ (i j : Nat) (pi pj : Ptr), L[i]? = some pi → L[j]? = some pj → i ≠ j →
      ∀ (d : Int) (a : Use F) (u : Unit) (h' : Heap F), a.target = some pi → a.run cfg d w'.heap = .ok (u, h') →
        ∃ v, view w'.heap pj = some v ∧ view h' pj = some v := by
  obtain ⟨P, x, H⟩ := loaded_run hl A hr
  refine ⟨x, _, H.layer, H.nodes, ?_, ?_⟩
  · rw [nodes_len]; exact H.eN
  · intro i j pi pj hi hj hij d a u h' ht ha
    obtain ⟨e1, e2, e3, e4, -⟩ := H.given
    have D : P.Apart := by
      intro hA
      rw [H.eA] at hA
      rw [e1, e3, e4]; exact hd hA
    have g := Load.stage_group P w.heap H.G D H.fits
    rw [← H.heap] at g
    have hne : pi ≠ pj := by
      obtain ⟨_, rfl⟩ := nodes_at hi
      obtain ⟨_, rfl⟩ := nodes_at hj
      exact fun e => hij (Nat.add_left_cancel e)
    exact use_others cfg g (List.mem_of_getElem? hi) (List.mem_of_getElem? hj) hne ht ha

/-- C100. The tables of the layer hold its nodes where the hash function of the layer puts the given weights. -/
theorem C100_tables (hl : cfg.LoadWeight = true) (A : Arrays cfg w s1 s2 s3 s4 ws bs ms vs) (hrp : rp < 63)
    (hr : Layer.new cfg c n prev ty b k l rp s1 s2 s3 s4 w = .ok (p, w')) : Consistent cfg w' p n l rp := by
  obtain ⟨P, x, H⟩ := loaded_run hl A hr
  obtain ⟨s0, s, r, r', I, hs, hnew, hI, hrun⟩ := H.tables
  obtain ⟨-, hl0, hrp0⟩ := H.pos
  refine ⟨x, s, _, I, H.layer, hs, H.nodes, ?_, ?_, ?_⟩
  · rw [nodes_len]; exact H.eN
  · intro j q hq
    obtain ⟨hj, rfl⟩ := nodes_at hq
    have hp := Load.stage_parts P w.heap H.G hj hj (H.fits j hj)
    rw [← H.heap] at hp
    unfold nodeIndex
    have hwr : Node.weights (w.heap.nodes.length + j) w'.heap = .ok (P.part P.sw j, w'.heap) := by
      unfold Node.weights; rw [M.bind_ok (baseOf_of hp)]; rfl
    rw [M.bind_ok hwr]
    have hfl : floatsOf (P.part P.sw j) w'.heap = .ok ((P.params j).weights, w'.heap) := by
      have := Vec.read .weights hp.par
      unfold floatsOf
      change readSlice w'.heap.floats (P.part P.sw j) = _ at this
      rw [this]; rfl
    rw [M.bind_ok hfl]
    have hsp : spareOf (P.part P.sw j) w'.heap = .ok (spareAt w.heap.floats (P.part P.sw j), w'.heap) := by
      obtain ⟨a, ha⟩ : ∃ a, w.heap.floats[P.sw.arr]? = some a := ⟨_, List.getElem?_eq_getElem H.G.wa⟩
      have hfl : w'.heap.floats[P.sw.arr]? = some a := by
        rw [H.heap]; exact getElem?_pre ha _
      unfold spareOf spareAt
      show Except.ok (((w'.heap.floats[P.sw.arr]?).getD []).drop _, w'.heap) = Except.ok (((w.heap.floats[P.sw.arr]?).getD []).drop _, w'.heap)
      rw [hfl, ha]
    rw [M.bind_ok hsp]
    have hi := hI j hj
    rw [← indexOf_shape (run_shape hrun)] at hi
    unfold indexOf at hi
    cases hh : hashDense cfg x.hasher (P.params j).weights (spareAt w.heap.floats (P.part P.sw j)) with
    | error e => rw [hh] at hi; cases hi
    | ok hashes =>
      rw [hh] at hi
      dsimp only at hi
      rw [M.bind_ok (a := hashes) (s' := w'.heap) (by rfl)]
      show M.lift _ _ = _
      unfold M.lift
      rw [hi]
  · rw [nodes_len]
    exact tablesHold (by omega) hnew (ops := []) (fun _ _ => rfl) hrun

end

namespace LoadEx

/-- The example with LoadWeight; `adam` = with Adam. -/
def cfg (adam : Bool) : Config Rat := { LayerEx.cfg 4 with LoadWeight := true, UseAdam := adam }

/-- A memory with the arrays: weights of three nodes with two inputs (inside a longer array), biases, moments. -/
def w0 : World Rat :=
  { LayerEx.w0 with heap := { Heap.empty with floats := [[9, 1, 2, 3, 4, 5, 6], [7, 8, 9], [10, 20, 30, 40, 50, 60], [11, 21, 31, 41, 51, 61]] } }

/-- The slices of the arrays. -/
def weights : Slice := { arr := 0, off := 1, len := 6 }
def bias : Slice := { arr := 1, off := 0, len := 3 }
def mom : Slice := { arr := 2, off := 0, len := 6 }
def vel : Slice := { arr := 3, off := 0, len := 6 }

/-- A new layer of `n` nodes. -/
def build (adam : Bool) (n : Int) : Go (Ptr × World Rat) := Layer.new (cfg adam) 0 n 2 1 2 1 2 6 weights bias mom vel w0

/-- The weights, bias and moments of the nodes. -/
def seen (adam : Bool) (n : Int) : Option (List (Option (List (List Rat)))) :=
  (build adam n).toOption.map (fun r => (List.range n.toNat).map (fun q => (view r.2.heap q).map (fun v =>
    [v.params.weights, [v.params.bias], v.params.mom, v.params.vel])))

theorem arrays (adam : Bool) : Arrays (cfg adam) w0 weights bias mom vel [1, 2, 3, 4, 5, 6] [7, 8, 9] [10, 20, 30, 40, 50, 60]
    [11, 21, 31, 41, 51, 61] := ⟨by decide +kernel, by decide +kernel, by decide +kernel, fun _ => by decide +kernel, fun _ => by decide +kernel⟩

/-- The three nodes, with and without Adam. -/
example : seen true 3 = some [some [[1, 2], [7], [10, 20], [11, 21]], some [[3, 4], [8], [30, 40], [31, 41]],
      some [[5, 6], [9], [50, 60], [51, 61]]] ∧
    seen false 3 = some [some [[1, 2], [7], [], []], some [[3, 4], [8], [], []], some [[5, 6], [9], [], []]] := by
  decide +kernel

/-- The arrays are too short for four nodes, and two nodes need only a part of them. -/
example : (build true 4).isOk = false ∧ (build true 2).isOk = true := by decide +kernel

/-- The given arrays do not overlap. -/
example : weights.Disjoint mom ∧ weights.Disjoint vel ∧ mom.Disjoint vel := by
  refine ⟨.inr (.inr (.inl ?_)), .inr (.inr (.inl ?_)), .inr (.inr (.inl ?_))⟩ <;> decide

/-- An assignment to the second weight of the third node of the loaded layer changes the last element of the given array. -/
example : (build true 3).toOption.bind (fun r => ((Use.weight 2 1 100).run (cfg true) 5 r.2.heap).toOption.map (fun s => s.2.floats[0]?)) =
    some (some [9, 1, 2, 3, 4, 5, 100]) := by decide +kernel

/-- Why the given arrays must not overlap: if the moments start one element before the weights in the same array, an assignment to
the second weight of node 0 changes a moment of node 1. -/
example : (Layer.new (cfg true) 0 3 2 1 2 1 2 6 weights bias { weights with off := 0 } vel w0).toOption.bind (fun r =>
      ((Use.weight 0 1 100).run (cfg true) 5 r.2.heap).toOption.map (fun s =>
        ((view r.2.heap 1).map (·.params.mom), (view s.2 1).map (·.params.mom)))) =
    some (some [2, 3], some [100, 3]) := by decide +kernel

end LoadEx
end Goslide.Props
