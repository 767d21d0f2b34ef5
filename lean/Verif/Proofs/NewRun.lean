import Verif.Proofs.NetworkSafe
import Verif.Spec.New
/-
`layer.New` and `network.New` succeed.
-/
set_option linter.unusedSectionVars false
namespace Goslide.Network
open Goslide Node Lsh Configuration Spec.Node Spec.Network Layer Xcrepo
variable {F : Type} [GoFloat F]

theorem initNode_run {cfg : Config F} {hasher : Hasher} {t : Ptr} (P : Plan F) (h : Heap F) (ha : cfg.UseAdam = P.adam)
    (hws : P.ws.length = P.n * P.p) (hbs : P.bs.length = P.n) {k : Nat} (hk : k < P.n) {w : World F} (hh : w.heap = P.stage h k) {s : LSH}
    (hs : w.lshs[t]? = some s)
    (hadd : ∀ ws spare : List F, ws.length = P.p → ∃ I slots s', indexOf cfg hasher s ws spare = .ok I ∧ Lsh.add s I k = .ok (slots, s')) :
    ∃ w', initNode cfg P.cowId P.p P.ty P.b hasher t (P.slices h) (P.trainSlice h) (P.nodeSlice h) k w = .ok ((), w') := by
  obtain ⟨heap, ints, lshs, consts, layers, layerArrs, networks, rng, norms, mapRng, hashes⟩ := w
  subst hh
  have c1 : ((P.p : Int) * (k : Int)) = ((P.p * k : Nat) : Int) := by simp
  have c2 : ((P.b : Int) * (k : Int)) = ((P.b * k : Nat) : Int) := by simp
  have f1 : P.p * k + P.p ≤ P.n * P.p := mul_fit hk
  have f2 : P.b * k + P.b ≤ P.n * P.b := mul_fit hk
  have sub : ∀ (a len x y : Nat), x + y ≤ len → subSlice { arr := a, off := 0, len := len } (x : Int) ((x : Int) + (y : Int)) =
      .ok { arr := a, off := x, len := y } := by
    intro a len x y hle
    unfold subSlice
    rw [if_pos ⟨by omega, by omega, by dsimp only; omega⟩]
    congr 2
    · show 0 + _ = _; omega
    · omega
  have hmv : adamSlices cfg (P.slices h).2.2.1 (P.slices h).2.2.2 ((P.p * k : Nat) : Int) (((P.p * k : Nat) : Int) + (P.p : Int))
      (⟨P.stage h k, ints, lshs, consts, layers, layerArrs, networks, rng, norms, mapRng, hashes⟩ : World F) =
      .ok (((P.base h k).adamAvgMom, (P.base h k).adamAvgVel), ⟨P.stage h k, ints, lshs, consts, layers, layerArrs, networks, rng, norms, mapRng, hashes⟩) := by
    unfold adamSlices
    dsimp only [Plan.slices]
    rw [ha]
    cases hA : P.adam with
    | true =>
      simp only [if_true]
      rw [M.bind_ok (lift_run (sub _ _ _ _ f1)), M.bind_ok (lift_run (sub _ _ _ _ f1))]
      simp [Plan.base, hA]
    | false =>
      rw [if_neg (by simp)]
      simp [Plan.base, hA]
  have hp : nodePtr (P.nodeSlice h) k (P.stage h k) = .ok (h.nodes.length + k, P.stage h k) := by
    unfold nodePtr
    rw [readCell_ok_of (stage_nodes P h k) (x := h.nodes.length + k) (by rw [List.getElem?_range' hk]; congr 1; omega)]
    rfl
  have hb : float { arr := h.floats.length + 1, off := 0, len := P.n } (k : Int) (P.stage h k) = .ok ((P.base h k).bias, P.stage h k) := by
    have e := readSlice_part (off := 0) (len := P.n) (stage_array P h k (j := 1) (a := P.bs) (by simp [Plan.arrays])) (by omega)
    rw [List.drop_zero, List.take_of_length_le (by omega)] at e
    rw [float_run e, dif_pos (by omega)]
    congr 2
    show _ = (P.bs[k]?).getD _
    rw [List.getElem?_eq_getElem (by omega)]
    simp
  have hset : setNodePtr (P.nodeSlice h) (k : Int) (h.nodes.length + k) (P.stage h (k + 1)) = .ok ((), P.stage h (k + 1)) := by
    unfold setNodePtr
    rw [writeCell_id (stage_nodes P h (k + 1)) (by rw [List.getElem?_range' hk]; congr 1; omega)]
    rfl
  have hn := stage_node P h (k := k + 1) hk
  rw [if_pos (by omega)] at hn
  have hbb := stage_base P h (k := k + 1) hk
  rw [if_pos (by omega)] at hbb
  have hw : Node.weights (h.nodes.length + k) (P.stage h (k + 1)) = .ok ((P.base h k).weights, P.stage h (k + 1)) := by
    unfold Node.weights baseOf
    have e : (do base (← Node.node (h.nodes.length + k)).base : NM F (BaseNode F)) (P.stage h (k + 1)) = .ok (P.base h k, P.stage h (k + 1)) := by
      rw [M.bind_ok (node_ok hn)]
      exact base_ok hbb
    rw [M.bind_ok e]
    rfl
  have hW : readSlice (P.stage h (k + 1)).floats (P.base h k).weights = some (P.params k).weights :=
    readSlice_part (stage_array P h (k + 1) (j := 0) (by simp [Plan.arrays])) (by rw [hws]; exact mul_fit hk)
  have hlen : (P.params k).weights.length = P.p := by
    show ((P.ws.drop (P.p * k)).take P.p).length = _
    rw [List.length_take, List.length_drop, hws]; omega
  obtain ⟨I, slots, s', g1, g2⟩ := hadd (P.params k).weights (spareAt (P.stage h (k + 1)).floats (P.base h k).weights) hlen
  unfold initNode
  dsimp only [Plan.slices] at hmv ⊢
  rw [c1, c2, M.bind_ok hmv]
  dsimp only
  rw [M.bind_ok (onHeap_run hp), M.bind_ok (lift_run (sub _ _ _ _ f1)), M.bind_ok (onHeap_run hb)]
  have htr := sub h.trainArrs.length (P.n * P.b) _ _ f2
  rw [show ({ arr := h.trainArrs.length, off := 0, len := P.n * P.b } : Slice) = P.trainSlice h from rfl] at htr
  rw [M.bind_ok (lift_run htr)]
  have hu := update_run cfg P h ha hk
  rw [M.bind_ok (onHeap_run hu), M.bind_ok (onHeap_run hset), M.bind_ok (onHeap_run hw)]
  exact ⟨_, addToHashTable_run (w := ⟨P.stage h (k + 1), ints, lshs, consts, layers, layerArrs, networks, rng, norms, mapRng, hashes⟩) hW hs g1 g2⟩

/-- Vectors with `n` elements can be added to the tables `s0`, also after other operations. -/
def AddFrom (cfg : Config F) (hasher : Hasher) (s0 : LSH) (n : Nat) : Prop :=
  ∀ (ops : List Op) (t : LSH) (ws spare : List F) (id : Int), Lsh.run s0 ops = .ok t → ws.length = n →
    ∃ I slots t', indexOf cfg hasher t ws spare = .ok I ∧ Lsh.add t I id = .ok (slots, t')

theorem addFrom_new {cfg : Config F} {hs : Hasher} {k l rp n : Nat} (hrp : rp < 63) {r r' : Rng} {s0 : LSH} (h1 : Lsh.new k l rp r = .ok (s0, r'))
    (hf : HashFits cfg hs k l rp n) : AddFrom cfg hs s0 n := by
  intro ops t ws spare id hall hlen
  obtain ⟨s1, r1, e, q1, q2, q3, q4, hrep⟩ := Lsh.new_ok k l rp r hrp
  rw [h1] at e
  simp only [Except.ok.injEq, Prod.mk.injEq] at e
  obtain ⟨rfl, rfl⟩ := e
  obtain ⟨-, a, b, c, d⟩ := hrep.run _ _ hall
  obtain ⟨I, i1, i2⟩ := hf.dense t ws spare (by rw [b, q1]) (by rw [a, q2]) (by rw [c, q3]) (by rw [d, q4]; simp [Lsh.drawMultipliers]) hlen
  obtain ⟨⟨slots, t'⟩, ha⟩ := ((Props.C07_add_retrieve_ok_iff _ _ _ hrp r r' s0 t _ h1 hall I id).1 i2).1
  exact ⟨I, slots, t', i1, ha⟩

theorem AddFrom.step {cfg : Config F} {hs : Hasher} {s0 s1 : LSH} {n : Nat} (h : AddFrom cfg hs s0 n) {ops : List Op} (h1 : Lsh.run s0 ops = .ok s1) :
    AddFrom cfg hs s1 n := by
  intro ops' t ws spare id hall hlen
  exact h (ops ++ ops') t ws spare id (by rw [run_append, h1, ok_bind]; exact hall) hlen

theorem initLoop_run {cfg : Config F} {hasher : Hasher} {t : Ptr} (P : Plan F) (h : Heap F) (ha : cfg.UseAdam = P.adam)
    (hws : P.ws.length = P.n * P.p) (hbs : P.bs.length = P.n) : ∀ (m k : Nat), k + m = P.n → ∀ (w : World F) (s : LSH),
    w.heap = P.stage h k → w.lshs[t]? = some s → AddFrom cfg hasher s P.p →
    ∃ w', ((List.range' k m).map (fun (i : Nat) => (i : Int))).forM
      (initNode cfg P.cowId P.p P.ty P.b hasher t (P.slices h) (P.trainSlice h) (P.nodeSlice h)) w = .ok ((), w') := by
  intro m
  induction m with
  | zero => intro k hk w s hh hs hadd; exact ⟨w, rfl⟩
  | succ m ih =>
    intro k hk w s hh hs hadd
    obtain ⟨w1, r1⟩ := initNode_run P h ha hws hbs (by omega) hh hs (fun ws spare hl => hadd [] s ws spare k rfl hl)
    obtain ⟨s', I, slots, s1, g1, g2, g3, e⟩ := initNode_ok P h ha hws hbs (by omega) hh r1
    rw [hs] at g1
    cases g1
    have hlt := (List.getElem?_eq_some_iff.mp hs).1
    obtain ⟨w', r⟩ := ih (k + 1) (by omega) w1 s1 (by rw [e]) (by rw [e]; dsimp only; rw [List.getElem?_set_self hlt])
      (hadd.step (ops := [Op.add I k]) (by
        rw [run_cons]
        have : step s (Op.add I (k : Int)) = .ok s1 := by
          unfold step; simp only [g3]; rfl
        rw [this, ok_bind]; rfl))
    refine ⟨w', ?_⟩
    rw [List.range'_succ, List.map_cons]
    show (initNode cfg P.cowId P.p P.ty P.b hasher t (P.slices h) (P.trainSlice h) (P.nodeSlice h) k >>= fun _ => _) w = _
    rw [M.bind_ok r1]
    exact r

theorem checkLen_run {n : Int} (h : 0 ≤ n) (w : World F) : checkLen n w = .ok ((), w) := by
  unfold checkLen
  rw [if_neg (by omega)]
  rfl

/-- The program never panics. -/
def Total {α : Type} (x : WM F α) : Prop := ∀ w : World F, ∃ a w', x w = .ok (a, w')

theorem Total.bind {α β : Type} {x : WM F α} {f : α → WM F β} (h1 : Total x) (h2 : ∀ a, Total (f a)) : Total (x >>= f) := by
  intro w
  obtain ⟨a, w1, r1⟩ := h1 w
  obtain ⟨b, w2, r2⟩ := h2 a w1
  exact ⟨b, w2, by rw [M.bind_ok r1]; exact r2⟩

theorem newArrays_run {cfg : Config F} (hl : cfg.LoadWeight = false) (n p : Nat) (a b c d : Slice) : Total (newArrays cfg n p a b c d) := by
  have hnp : ((n : Int) * (p : Int)) = ((n * p : Nat) : Int) := by simp
  have hz : Total (onHeap (makeFloats ((n * p : Nat) : Int)) : WM F Slice) := by
    intro w
    unfold onHeap makeFloats
    rw [if_neg (by omega)]
    exact ⟨_, _, rfl⟩
  unfold newArrays
  rw [if_neg (by simp [hl]), hnp]
  refine Total.bind (fun w => ⟨_, _, checkLen_run (by omega) w⟩) (fun _ => ?_)
  refine Total.bind (fun w => ⟨_, _, rfl⟩) (fun ws => ?_)
  refine Total.bind (fun w => ⟨_, _, rfl⟩) (fun _ => ?_)
  refine Total.bind (fun w => ⟨_, _, rfl⟩) (fun _ => ?_)
  refine Total.bind (fun w => ⟨_, _, rfl⟩) (fun _ => ?_)
  split
  · exact Total.bind hz (fun _ => Total.bind hz (fun _ w => ⟨_, _, rfl⟩))
  · exact fun w => ⟨_, _, rfl⟩

/-- `layer.New` succeeds. -/
theorem layerNew_run {cfg : Config F} (hl : cfg.LoadWeight = false) {c n prev : Int} {ty : NodeType} {b k l rp : Int} {s1 s2 s3 s4 : Slice}
    (hn : 0 ≤ n) (hprev : 0 ≤ prev) (hb : 0 ≤ b) (hk : 0 ≤ k) (hl0 : 0 ≤ l) (hrp : 0 ≤ rp) (h63 : rp < 63)
    (hnew : ∀ w : World F, ∃ hs w', newHasher cfg (k * l).toNat prev.toNat w = .ok (hs, w'))
    (hfit : ∀ (hs : Hasher) (v v' : World F), newHasher cfg (k * l).toNat prev.toNat v = .ok (hs, v') →
      HashFits cfg hs k.toNat l.toNat rp.toNat prev.toNat) : Total (Layer.new cfg c n prev ty b k l rp s1 s2 s3 s4) := by
  obtain ⟨n, rfl⟩ := Int.eq_ofNat_of_zero_le hn
  obtain ⟨q, rfl⟩ := Int.eq_ofNat_of_zero_le hprev
  obtain ⟨b, rfl⟩ := Int.eq_ofNat_of_zero_le hb
  have hnb : ((n : Int) * (b : Int)) = ((n * b : Nat) : Int) := by simp
  unfold Layer.new
  refine Total.bind (fun w => ⟨_, _, checkLen_run hn w⟩) (fun _ => ?_)
  refine Total.bind (fun w => ⟨_, _, rfl⟩) (fun order => ?_)
  refine Total.bind (fun w => ⟨_, _, rfl⟩) (fun rn => ?_)
  refine Total.bind (fun w => ⟨_, _, checkLen_run hk w⟩) (fun _ => ?_)
  refine Total.bind (fun w => ⟨_, _, checkLen_run hl0 w⟩) (fun _ => ?_)
  refine Total.bind (fun w => ⟨_, _, checkLen_run hrp w⟩) (fun _ => ?_)
  refine Total.bind (fun w => ⟨_, _, checkLen_run hprev w⟩) (fun _ => ?_)
  intro w
  obtain ⟨s0, r', e, -⟩ := Lsh.new_ok k.toNat l.toNat rp.toNat w.rng (by omega)
  rw [M.bind_ok (draw_run e), M.bind_ok (s' := { w with rng := r', lshs := w.lshs ++ [s0] }) (a := w.lshs.length) rfl]
  obtain ⟨hs, w1, r1⟩ := hnew { w with rng := r', lshs := w.lshs ++ [s0] }
  have hf := hfit _ _ _ r1
  obtain ⟨_, _, e1⟩ := newHasher_ok r1
  rw [M.bind_ok r1]
  obtain ⟨arrays, w2, r2⟩ := newArrays_run hl n q s1 s2 s3 s4 w1
  rw [M.bind_ok r2]
  obtain ⟨ws, bs, nm, lws, lbs, -, e2⟩ := newArrays_ok hl r2
  obtain ⟨e2, ea⟩ := e2 c ty b
  generalize hP : ({ cowId := c, n := n, b := b, p := q, ty := ty, adam := cfg.UseAdam, ws := ws, bs := bs } : Plan F) = P at e2 ea
  have hPf : P.cowId = c ∧ P.n = n ∧ P.b = b ∧ P.p = q ∧ P.ty = ty ∧ P.adam = cfg.UseAdam ∧ P.ws = ws ∧ P.bs = bs := by
    subst hP; exact ⟨rfl, rfl, rfl, rfl, rfl, rfl, rfl, rfl⟩
  obtain ⟨P1, P2, P3, P4, P5, P6, P7, P8⟩ := hPf
  rw [hnb, M.bind_ok (checkLen_run (by omega) w2), Int.toNat_natCast]
  rw [Int.toNat_natCast]
  obtain ⟨trains, w3, r3, e3⟩ : ∃ ps w3, onHeap (newNodeTrains c (n * b)) w2 = .ok (ps, w3) ∧ (ps = List.range' w2.heap.trains.length (n * b) ∧
      w3 = { w2 with heap := { w2.heap with trains := w2.heap.trains ++ List.replicate (n * b) (blankTrain c) } }) :=
    ⟨_, _, onHeap_run (newNodeTrains_run c (n * b) w2.heap), rfl, rfl⟩
  obtain ⟨ta, w4, r4, e4⟩ : ∃ ta w4, onHeap (allocTrainArr trains) w3 = .ok (ta, w4) ∧ (ta = { arr := w3.heap.trainArrs.length, off := 0, len := trains.length } ∧
      w4 = { w3 with heap := { w3.heap with trainArrs := w3.heap.trainArrs ++ [trains] } }) := ⟨_, _, rfl, rfl, rfl⟩
  obtain ⟨ps, w5, r5, e5⟩ : ∃ ps w5, onHeap (newEmptyNodes c n) w4 = .ok (ps, w5) ∧ (ps = List.range' w4.heap.nodes.length n ∧
      w5 = { w4 with heap := { w4.heap with
        bases := w4.heap.bases ++ (List.range n).map (fun _ => emptyBase c)
        nodes := w4.heap.nodes ++ (List.range n).map (fun m => { cowId := c, base := w4.heap.bases.length + m, train := nilSlice }) } }) :=
    ⟨_, _, onHeap_run (newEmptyNodes_run c n w4.heap), rfl, rfl⟩
  obtain ⟨ns, w6, r6, e6⟩ : ∃ ns w6, onHeap (allocNodeArr ps) w5 = .ok (ns, w6) ∧ (ns = { arr := w5.heap.nodeArrs.length, off := 0, len := ps.length } ∧
      w6 = { w5 with heap := { w5.heap with nodeArrs := w5.heap.nodeArrs ++ [ps] } }) := ⟨_, _, rfl, rfl, rfl⟩
  rw [M.bind_ok r3, M.bind_ok r4, M.bind_ok r5, M.bind_ok r6]
  have hw1 : w1.heap = w.heap := by rw [e1]
  have A : w6.heap = P.stage w.heap 0 ∧ w6.lshs = w.lshs ++ [s0] ∧ ta = P.trainSlice w.heap ∧ ns = P.nodeSlice w.heap := by
    rw [e6.1, e6.2, e5.1, e5.2, e4.1, e4.2, e3.1, e3.2, e2]
    dsimp only
    rw [hw1]
    refine ⟨?_, by rw [e1], ?_, ?_⟩
    · unfold Plan.stage
      rw [P1, P2, P3]
      simp [Plan.arrays]
    · unfold Plan.trainSlice
      rw [P2, P3]
      simp
    · unfold Plan.nodeSlice
      rw [P2]
      simp
  obtain ⟨A1, A2, A3, A4⟩ := A
  obtain ⟨w', r⟩ := initLoop_run (cfg := cfg) (hasher := hs) (t := w.lshs.length) P w.heap P6.symm (by rw [P7, P2, P4]; exact lws) (by rw [P8, P2]; exact lbs) P.n 0 (by omega)
    w6 s0 A1 (by rw [A2]; simp) (by
      rw [P4]
      exact addFrom_new (by omega) e (by rw [Int.toNat_natCast] at hf; exact hf))
  rw [← List.range_eq_range', P1, P2, P3, P4, P5, ← A3, ← A4, ← hw1, ← ea] at r
  rw [M.bind_ok r]
  refine Total.bind ?_ (fun _ w => ⟨_, _, rfl⟩) _
  unfold newConsts
  split
  · intro w
    unfold allocConsts
    rw [if_neg (by omega)]
    exact ⟨_, _, rfl⟩
  · exact fun w => ⟨_, _, rfl⟩

theorem newLayers_total [FloatIntDiv F] {cfg : Config F} (hl : cfg.LoadWeight = false) (c : Int) {a : NetArgs F} (ha : NewOk cfg a) :
    ∀ (n i : Nat), ((i + n : Nat) : Int) ≤ a.layers → Total (newLayers cfg c a.sizes a.types a.batch a.k a.l a.rangePow a.sparsity n i (a.inputs i))
  | 0, _, _ => fun w => ⟨_, _, rfl⟩
  | n + 1, i, hi => by
    obtain ⟨q1, q2, q3, q4, q5, q6⟩ := ha.entries i (by omega)
    have get : ∀ {α : Type} {l : List α} {j : Nat} (h : j < l.length), goGet l (j : Int) = .ok l[j] := by
      intro α l j h
      exact goGet_ok_of_lt l j h
    obtain ⟨p1, p2, p3, p4, hp⟩ := ha.layer i _ _ _ _ (by omega) (List.getElem?_eq_getElem q1) (List.getElem?_eq_getElem q3) (List.getElem?_eq_getElem q4) (List.getElem?_eq_getElem q5)
    have hprev : 0 ≤ a.inputs i := by
      unfold NetArgs.inputs
      split
      · exact ha.dim
      · obtain ⟨r1, -, r3, r4, r5, -⟩ := ha.entries (i - 1) (by omega)
        rw [List.getElem?_eq_getElem r1]
        exact (ha.layer (i - 1) _ _ _ _ (by omega) (List.getElem?_eq_getElem r1) (List.getElem?_eq_getElem r3) (List.getElem?_eq_getElem r4) (List.getElem?_eq_getElem r5)).1
    have hnext : a.inputs (i + 1) = a.sizes[i] := by
      unfold NetArgs.inputs
      rw [if_neg (by omega), Nat.add_sub_cancel, List.getElem?_eq_getElem q1]; rfl
    obtain ⟨f1, f2⟩ := hashParams_fits hp ⟨p2, p3, p4⟩
    intro w
    unfold newLayers
    rw [M.bind_ok (lift_run (get q1)), M.bind_ok (lift_run (get q2)), M.bind_ok (lift_run (get q3)), M.bind_ok (lift_run (get q4)), M.bind_ok (lift_run (get q5)),
      M.bind_ok (lift_run (get q6))]
    refine Total.bind (layerNew_run hl p1 hprev ha.batch p2 p3 p4 hp.1 f1 f2) (fun _ => Total.bind ?_ (fun _ w => ⟨_, _, rfl⟩)) w
    rw [← hnext]
    exact newLayers_total hl c ha n (i + 1) (by omega)

theorem new_total [FloatIntDiv F] {cfg : Config F} (hl : cfg.LoadWeight = false) (c : Int) {a : NetArgs F} (ha : NewOk cfg a) :
    Total (Network.new cfg c a.layers a.sizes a.types a.batch a.rate a.dim a.k a.l a.rangePow a.sparsity) := by
  unfold Network.new
  refine Total.bind (fun w => ⟨_, _, checkLen_run ha.layers w⟩) (fun _ => ?_)
  refine Total.bind ?_ (fun _ w => ⟨_, _, rfl⟩)
  exact newLayers_total hl c ha a.layers.toNat 0 (by have := ha.layers; omega)

end Goslide.Network
