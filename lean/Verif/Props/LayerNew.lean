import Verif.Proofs.LayerFresh
import Verif.Proofs.NodeUse
import Verif.Props.Layer
import Verif.Proofs.TablesHold
import Verif.Model.Network
/-
New layers: C61-C63.
-/
set_option linter.unusedSectionVars false
set_option maxRecDepth 10000
namespace Goslide.Props
open Goslide Goslide.Layer Goslide.Node Lsh Configuration Spec.Node Spec.Layer Spec
variable {F : Type} [GoFloat F]

/-! ### C61 -/

/-- C61. The nodes of a new layer: any use of one node, with any cowId (setters, activation, deltas, a weight
assigned through the slice `Weights`), leaves the parameters and the training state of every other node. -/
theorem C61_nodes_independent {cfg : Config F} (hl : cfg.LoadWeight = false) {c n prev : Int} {ty : NodeType} {b k l rp : Int}
    {s1 s2 s3 s4 : Slice} {p : Ptr} {w w' : World F} (hr : Layer.new cfg c n prev ty b k l rp s1 s2 s3 s4 w = .ok (p, w')) :
    ∃ x L, w'.layers[p]? = some x ∧ readSlice w'.heap.nodeArrs x.nodes = some L ∧ (L.length : Int) = n ∧
      ∀ (i j : Nat) (pi pj : Ptr), L[i]? = some pi → L[j]? = some pj → i ≠ j →
      ∀ (d : Int) (a : Use F) (u : Unit) (h' : Heap F), a.target = some pi → a.run cfg d w'.heap = .ok (u, h') →
        ∃ v, view w'.heap pj = some v ∧ view h' pj = some v := by
  obtain ⟨P, g, rfl, B⟩ := new_run hl hr
  refine ⟨g.obj, g.nodes.map Prod.fst, B.stored.obj, B.stored.nodes, ?_, ?_⟩
  · rw [B.nodes, List.length_map, Plan.nodes, List.length_map, List.length_range]; exact B.pN
  · intro i j pi pj hi hj hij d a u h' ht ha
    have G := B.group [] (by exact ⟨rfl, by simp, by simp, by simp⟩)
    rw [List.append_nil] at G
    have hne : pi ≠ pj := by
      rintro rfl
      rw [B.nodes] at hi hj
      simp only [Plan.nodes, List.map_map, List.getElem?_map, Option.map_eq_some_iff, Function.comp] at hi hj
      obtain ⟨m1, h1, e1⟩ := hi
      obtain ⟨m2, h2, e2⟩ := hj
      obtain ⟨_, rfl⟩ := List.getElem?_eq_some_iff.mp h1
      obtain ⟨_, rfl⟩ := List.getElem?_eq_some_iff.mp h2
      simp only [List.getElem_range] at e1 e2
      exact hij (Nat.add_left_cancel (e1.trans e2.symm))
    exact use_others cfg G (List.mem_of_getElem? hi) (List.mem_of_getElem? hj) hne ht ha

/-- C61. The same for any sequence of uses by the owner of the layer: a node that is not used itself keeps its
parameters and training state. -/
theorem C61_histories {cfg : Config F} (hl : cfg.LoadWeight = false) {c n prev : Int} {ty : NodeType} {b k l rp : Int}
    {s1 s2 s3 s4 : Slice} {p : Ptr} {w w' : World F} (hr : Layer.new cfg c n prev ty b k l rp s1 s2 s3 s4 w = .ok (p, w')) :
    ∃ x L, w'.layers[p]? = some x ∧ readSlice w'.heap.nodeArrs x.nodes = some L ∧ (L.length : Int) = n ∧
      ∀ (us : List (Use F)) (u : Unit) (h' : Heap F), (∀ a ∈ us, ∃ q ∈ L, a.target = some q) →
        useAll cfg c us w'.heap = .ok (u, h') →
        ∀ q ∈ L, (∀ a ∈ us, a.target ≠ some q) → ∃ v, view w'.heap q = some v ∧ view h' q = some v := by
  obtain ⟨P, g, rfl, B⟩ := new_run hl hr
  refine ⟨g.obj, g.nodes.map Prod.fst, B.stored.obj, B.stored.nodes, ?_, ?_⟩
  · rw [B.nodes, List.length_map, Plan.nodes, List.length_map, List.length_range]; exact B.pN
  · intro us u h' ht ha q hq hn
    have Z : GroupZ w.heap ([] : List (Ptr × View F)) := ⟨rfl, by simp, by simp, by simp⟩
    have G := B.group [] Z
    have O := B.owned [] Z (by intro p hp; cases hp)
    rw [List.append_nil] at G O
    exact uses_others cfg hq us G O ht hn ha

/-- The example layer exists, its first node can be used by a stranger and by the owner, and this changes it. -/
example : LayerEx.build 4 3 LayerEx.w0 = .ok (0, LayerEx.world 4 3) ∧
    ((Use.weight 0 1 5 : Use Rat).run (LayerEx.cfg 4) 9 (LayerEx.world 4 3).heap).isOk = true ∧
    ((Use.call (.setBias 0 7) : Use Rat).run (LayerEx.cfg 4) 9 (LayerEx.world 4 3).heap).isOk = true ∧
    (match useAll (LayerEx.cfg 4) 0 [.weight 0 1 5, .call (.setBias 2 7)] (LayerEx.world 4 3).heap with
      | .ok (_, h) => (h.floats[0]?).map (·.take 3)
      | .error _ => none) ≠ ((LayerEx.world 4 3).heap.floats[0]?).map (·.take 3) := by
  refine ⟨LayerEx.built 4 3 (by decide +kernel), by decide +kernel, by decide +kernel, by decide +kernel⟩

/-! ### C62 -/

/-- C62. The tables of a new layer hold exactly the nodes: `I j` are the indices that the hash function of the layer
assigns to the weights of node `j`, and the tables hold the nodes at these indices (`TablesHold`). -/
theorem C62_initial_tables {cfg : Config F} (hl : cfg.LoadWeight = false) {c n prev : Int} {ty : NodeType} {b k l rp : Int}
    (hrp : rp < 63) {s1 s2 s3 s4 : Slice} {p : Ptr} {w w' : World F}
    (hr : Layer.new cfg c n prev ty b k l rp s1 s2 s3 s4 w = .ok (p, w')) :
    ∃ x s L I, w'.layers[p]? = some x ∧ w'.lshs[x.hashTables]? = some s ∧ readSlice w'.heap.nodeArrs x.nodes = some L ∧
      (L.length : Int) = n ∧
      (∀ j q, L[j]? = some q → nodeIndex cfg x.hasher s q w'.heap = .ok (I j, w'.heap)) ∧
      TablesHold s l.toNat rp.toNat L.length I := by
  obtain ⟨P, g, rfl, B⟩ := new_run hl hr
  obtain ⟨s0, r, r', I, hnew, hI, hrun⟩ := B.tables
  have hlen : (g.nodes.map Prod.fst).length = P.n := by
    rw [B.nodes, List.length_map, Plan.nodes, List.length_map, List.length_range]
  obtain ⟨_, hl0, hrp0⟩ := B.pos
  refine ⟨g.obj, g.tables, g.nodes.map Prod.fst, I, B.stored.obj, B.stored.tables, B.stored.nodes, ?_, ?_, ?_⟩
  · rw [hlen]; exact B.pN
  · intro j q hq
    have hj : j < P.n := hlen ▸ (List.getElem?_eq_some_iff.mp hq).1
    rw [B.nodes] at hq
    simp only [Plan.nodes, List.map_map, List.getElem?_map, Option.map_eq_some_iff, Function.comp] at hq
    obtain ⟨m, hm, rfl⟩ := hq
    obtain ⟨_, rfl⟩ := List.getElem?_eq_some_iff.mp hm
    rw [List.getElem_range]
    have hp := stage_parts P w.heap B.ws hj hj
    rw [← B.heap] at hp
    unfold nodeIndex
    have hwr : Node.weights (w.heap.nodes.length + j) w'.heap = .ok ((P.base w.heap j).weights, w'.heap) := by
      unfold Node.weights; rw [M.bind_ok (baseOf_of hp)]; rfl
    rw [M.bind_ok hwr]
    have hfl : floatsOf (P.base w.heap j).weights w'.heap = .ok ((P.params j).weights, w'.heap) := by
      have := Vec.read .weights hp.par
      unfold floatsOf
      change readSlice w'.heap.floats (P.base w.heap j).weights = _ at this
      rw [this]; rfl
    rw [M.bind_ok hfl]
    have hsp : spareOf (P.base w.heap j).weights w'.heap = .ok (P.ws.drop (P.p * j + P.p), w'.heap) := by
      unfold spareOf
      have := stage_array P w.heap P.n (j := 0) (a := P.ws) (by simp [Plan.arrays])
      rw [← B.heap] at this
      show Except.ok ((w'.heap.floats[w.heap.floats.length]?.getD []).drop (P.p * j + P.p), w'.heap) = _
      rw [show w'.heap.floats[w.heap.floats.length]? = some P.ws from this]; rfl
    rw [M.bind_ok hsp]
    have hi := hI j hj
    rw [← indexOf_shape (run_shape hrun)] at hi
    unfold indexOf at hi
    cases hh : hashDense cfg g.obj.hasher (P.params j).weights (P.ws.drop (P.p * j + P.p)) with
    | error e => rw [hh] at hi; cases hi
    | ok hashes =>
      rw [hh] at hi
      dsimp only at hi
      rw [M.bind_ok (a := hashes) (s' := w'.heap) (by rfl)]
      show M.lift _ _ = _
      unfold M.lift
      rw [hi]
  · rw [hlen]
    exact tablesHold (by omega) hnew (ops := []) (fun _ _ => rfl) hrun

/-- In the example the three nodes are found at their own indices. -/
example : (List.range 3).map (fun j => match (LayerEx.theLayer 4 2), (LayerEx.world 4 2).lshs[0]? with
      | some x, some s => (match nodeIndex (LayerEx.cfg 4) x.hasher s j (LayerEx.world 4 2).heap with
        | .ok (I, _) => (retrieveRaw s I).toOption.map (fun raw => raw.map (fun xs => decide ((j : Int) ∈ xs)))
        | .error _ => none)
      | _, _ => none) = List.replicate 3 (some [true, true]) := by decide +kernel

/-! ### C63 -/

theorem forM_head {S : Type} {x : Int} {l : List Int} {f : Int → M S Unit} {s s' : S} {u : Unit}
    (h : (x :: l).forM f s = .ok (u, s')) : ∃ u1 s1, f x s = .ok (u1, s1) := by
  obtain ⟨u1, s1, h1, -⟩ := M.bind_eq_ok (by exact h)
  exact ⟨u1, s1, h1⟩

/-- With LoadWeight a layer built from nil arrays has no nodes. -/
theorem layer_loadWeight {cfg : Config F} (hl : cfg.LoadWeight = true) {c n prev : Int} {ty : NodeType} {b k l rp : Int}
    {p : Ptr} {w w' : World F} (hr : Layer.new cfg c n prev ty b k l rp nilSlice nilSlice nilSlice nilSlice w = .ok (p, w')) :
    n ≤ 0 := by
  apply Int.not_lt.mp
  intro hn
  unfold Layer.new at hr
  iterate 9 obtain ⟨_, _, -, hr⟩ := M.bind_eq_ok hr
  obtain ⟨hasher, _, -, hr⟩ := M.bind_eq_ok hr
  obtain ⟨arrays, _, ha, hr⟩ := M.bind_eq_ok hr
  iterate 5 obtain ⟨_, _, -, hr⟩ := M.bind_eq_ok hr
  obtain ⟨_, w1, h1, hr⟩ := M.bind_eq_ok hr
  have hb : arrays.2.1 = nilSlice := by
    unfold newArrays at ha
    rw [if_pos hl] at ha
    split at ha <;> cases ha <;> rfl
  obtain ⟨m, hm⟩ : ∃ m, n.toNat = m + 1 := ⟨n.toNat - 1, by omega⟩
  rw [hm, List.range_succ_eq_map, List.map_cons] at h1
  obtain ⟨_, _, h1⟩ := forM_head h1
  unfold initNode at h1
  obtain ⟨a1, a2, a3, a4⟩ := arrays
  dsimp only at hb h1
  subst hb
  iterate 3 obtain ⟨_, _, -, h1⟩ := M.bind_eq_ok h1
  obtain ⟨_, _, h2, -⟩ := M.bind_eq_ok h1
  obtain ⟨_, h2, -⟩ := onHeap_ok h2
  unfold float readCell at h2
  rw [if_neg (by simp [nilSlice])] at h2
  cases h2

theorem layers_loadWeight {cfg : Config F} (hl : cfg.LoadWeight = true) {c b : Int} {sizes types k l rp : List Int} {sp : List F} :
    ∀ (n i : Nat) (prev : Int) {ps : List Ptr} {w w' : World F},
      Network.newLayers cfg c sizes types b k l rp sp n i prev w = .ok (ps, w') →
      ∀ j, i ≤ j → j < i + n → ∃ m, sizes[j]? = some m ∧ m ≤ 0
  | 0, i, prev, ps, w, w', _, j, h1, h2 => by omega
  | n + 1, i, prev, ps, w, w', hr, j, h1, h2 => by
    unfold Network.newLayers at hr
    obtain ⟨m, _, hm, hr⟩ := M.bind_eq_ok hr
    iterate 5 obtain ⟨_, _, -, hr⟩ := M.bind_eq_ok hr
    obtain ⟨_, _, hnew, hr⟩ := M.bind_eq_ok hr
    obtain ⟨_, _, hrest, -⟩ := M.bind_eq_ok hr
    by_cases hj : j = i
    · subst hj
      obtain ⟨e, -⟩ := lift_ok hm
      rw [goGet_ofNat] at e
      refine ⟨m, ?_, layer_loadWeight hl hnew⟩
      cases hs : sizes[j]? with
      | none => rw [hs] at e; cases e
      | some v => rw [hs] at e; cases e; rfl
    · exact layers_loadWeight hl n (i + 1) m hrest j (by omega) (by omega)

/-- C63. With LoadWeight, `network.New` never succeeds, whatever the other arguments, unless none of the layers has
a node: the loops that should read the weights are commented out, and nil slices are passed on. -/
theorem C63_loadWeight_panics {cfg : Config F} (hl : cfg.LoadWeight = true) {c nl b dim : Int} {sizes types k l rp : List Int} {lr : F}
    {sp : List F} {p : Ptr} {w w' : World F} (hr : Network.new cfg c nl sizes types b lr dim k l rp sp w = .ok (p, w')) :
    ∀ j : Nat, (j : Int) < nl → ∃ m, sizes[j]? = some m ∧ m ≤ 0 := by
  unfold Network.new at hr
  obtain ⟨_, _, -, hr⟩ := M.bind_eq_ok hr
  obtain ⟨_, _, h1, -⟩ := M.bind_eq_ok hr
  intro j hj
  exact layers_loadWeight hl _ 0 dim h1 j (by omega) (by omega)

/-- The configuration of the example with the weights to be loaded. -/
def loadCfg : Config Rat := { LayerEx.cfg 4 with LoadWeight := true }

/-- C63. The claim is false: with LoadWeight a network that can be built without it makes `network.New` panic. -/
theorem C63_loadWeight_false : ¬ ∀ (cfg : Config Rat) (c nl b dim : Int) (sizes types k l rp : List Int) (lr : Rat) (sp : List Rat)
    (w : World Rat), cfg.LoadWeight = true →
      (Network.new { cfg with LoadWeight := false } c nl sizes types b lr dim k l rp sp w).isOk = true →
      (Network.new cfg c nl sizes types b lr dim k l rp sp w).isOk = true := by
  intro h
  have h1 := h loadCfg 0 1 1 2 [2] [1] [1] [1] [6] (1 / 10) [1] LayerEx.w0 rfl (by decide +kernel)
  have h2 : (Network.new loadCfg 0 1 [2] [1] 1 (1 / 10) 2 [1] [1] [6] [1] LayerEx.w0).isOk = false := by decide +kernel
  rw [h2] at h1; cases h1

end Goslide.Props
