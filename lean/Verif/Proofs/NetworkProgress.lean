import Verif.Proofs.NetworkReady
import Verif.Proofs.NetworkLife
import Verif.Proofs.Pace
/-
When a training step cannot panic.
-/
set_option linter.unusedSectionVars false
namespace Goslide.Network
open Goslide Node Lsh Configuration Spec.Node Spec.Network Layer Xcrepo
variable {F : Type} [GoFloat F]

/-- The data have indices below `n`; if `strict`, there are at most `n`, and enough to be hashed. -/
def DataFits (cfg : Config F) (strict : Bool) (n : Nat) (data : List (Pair F)) : Prop :=
  (∀ x ∈ data, 0 ≤ x.Index ∧ x.Index < n) ∧ (strict = true → fewest cfg ≤ data.length ∧ data.length ≤ n)

/-- Distinct ids of nodes. -/
def IdsOk (n : Nat) (ids : List Int) : Prop := ids.Nodup ∧ ∀ id ∈ ids, 0 ≤ id ∧ id < n

/-- The selection of nodes of the layer `x` with `n` inputs, order `order` and tables `t` always succeeds with distinct nodes, at least `m`,
if enough draws are allowed. -/
def SelectSafe (cfg : Config F) (P : Pace) (label : List Int) (sp : F) (m n : Nat) (x : Layer) (order : List Int) (t : LSH) : Prop :=
  ∀ (w : World F) (data : List (Pair F)), P.J w.rng → OrderAt w x order → w.lshs[x.hashTables]? = some t → DataFits cfg (!GoFloat.eq sp GoFloat.one) n data →
    ∃ k found ids w', P.K k ∧ (∀ fuel, k ≤ fuel → select cfg fuel x data label sp w = .ok ((found, ids), w')) ∧ IdsOk x.nodes.len (ids.getD []) ∧
      m ≤ (ids.getD []).length

/-- The bound on the draws matters in the selection only. -/
theorem query_congr {cfg : Config F} {fuel fuel' : Nat} {p : Ptr} {c : Int} {cur : List (Pair F)} {i : Int} {label : List Int} {sp : F} {w : World F} {x : Layer}
    (hx : w.layers[p]? = some x) (h : select cfg fuel { x with cowId := c } cur label sp (cloned w p x c).2 = select cfg fuel' { x with cowId := c } cur label sp (cloned w p x c).2) :
    query cfg fuel p c cur i label sp w = query cfg fuel' p c cur i label sp w := by
  unfold query
  have hc := cloneIfNeeded_run hx c
  have hl := layer_run (cloned_layer hx c)
  generalize cloned w p x c = q at hc hl h
  obtain ⟨q1, q2⟩ := q
  rw [M.bind_ok hc, M.bind_ok hc, M.bind_ok hl, M.bind_ok hl]
  show M.bind _ _ _ = M.bind _ _ _
  unfold M.bind
  rw [h]

theorem outputs_index (b : Bool) (vs : List (View F)) (data : List (Pair F)) (ids : List Int) : (outputs b vs data ids).map Pair.Index = ids := by
  unfold outputs
  rw [List.map_map]
  exact List.map_id' ids

/-- Distinct numbers below `n` are at most `n`. -/
theorem idsOk_length {n : Nat} {ids : List Int} (h : IdsOk n ids) : ids.length ≤ n := by
  have h1 : (ids.map Int.toNat).Nodup := by
    unfold List.Nodup
    rw [List.pairwise_map]
    refine List.Pairwise.imp_of_mem ?_ h.1
    intro a b ha hb hne e
    have := (h.2 a ha).1
    have := (h.2 b hb).1
    omega
  have h2 : (ids.map Int.toNat) ⊆ List.range n := by
    intro x hx
    obtain ⟨a, ha, rfl⟩ := List.mem_map.mp hx
    have := h.2 a ha
    rw [List.mem_range]; omega
  have := List.Nodup.length_le_of_subset h1 h2
  simpa using this

theorem outputs_fit {cfg : Config F} {n : Nat} {ids : List Int} (h : IdsOk n ids) (strict b : Bool) (hm : strict = true → fewest cfg ≤ ids.length) (vs : List (View F)) (data : List (Pair F)) :
    DataFits cfg strict n (outputs b vs data ids) := by
  constructor
  · intro x hx
    have : x.Index ∈ ids := by
      rw [← outputs_index b vs data ids]; exact List.mem_map_of_mem hx
    exact h.2 _ this
  · intro hs
    unfold outputs
    rw [List.length_map]
    exact ⟨hm hs, idsOk_length h⟩

/-- What the forward pass of input `i` with these labels needs of the network `Q`. -/
structure ForwardSafe (cfg : Config F) (P : Pace) (label : List Int) (sparsity : List F) (off dim : Nat) (Q : List (State F)) : Prop where
  select : ∀ (j : Nat) (g : State F), Q[j]? = some g → ∃ sp m, sparsity[off + j]? = some sp ∧
    SelectSafe cfg P label sp m (inputSize dim Q j) g.obj g.order g.tables ∧
    ∀ sp', j + 1 < Q.length → sparsity[off + (j + 1)]? = some sp' → GoFloat.eq sp' (GoFloat.one : F) = false → fewest cfg ≤ m

theorem drop_get {α : Type} {l : List α} {j : Nat} {x : α} (h : l[j]? = some x) : l.drop j = x :: l.drop (j + 1) := by
  obtain ⟨hlt, rfl⟩ := List.getElem?_eq_some_iff.mp h
  exact List.drop_eq_getElem_cons hlt

theorem inputSize_succ {dim : Nat} {Q : List (State F)} {j : Nat} {g : State F} (h : Q[j]? = some g) : inputSize dim Q (j + 1) = g.nodes.length := by
  show (match Q[j]? with | none => 0 | some g => g.nodes.length) = _
  rw [h]

theorem forward_run {cfg : Config F} {P : Pace} {c : Int} {hidden : Slice} {sparsity : List F} {off i b dim : Nat} {label : List Int}
    {Q : List (State F)} (hs : Shaped cfg.UseAdam b dim Q) (hi : i < b) (hf : ForwardSafe cfg P label sparsity off dim Q) :
    ∀ (n j : Nat) {A : List (State F)} {cur : List (Pair F)} {w : World F}, P.J w.rng → A.length = j → j + n = Q.length → Mem w hidden (A ++ Q.drop j) c →
      (j < Q.length → ∀ sp, sparsity[off + j]? = some sp → DataFits cfg (!GoFloat.eq sp GoFloat.one) (inputSize dim Q j) cur) →
      ∃ k acts w' S B', P.K k ∧ (∀ fuel, k ≤ fuel → forward cfg fuel c hidden sparsity off i label n j cur w = .ok (acts, w')) ∧
        Passes c i (fun k g d ids => (∀ x ∈ d, 0 ≤ x.Index ∧ x.Index < inputSize dim Q k) ∧ IdsOk g.nodes.length ids) j (Q.drop j) cur S B' ∧
        acts = outs (Q.drop j) cur S ∧ Layers w' hidden (A ++ B') ∧ After w w' (A ++ Q.drop j) (A ++ B') c
  | 0, j, A, cur, w, hr, hA, hj, m, hd => by
    have e : Q.drop j = [] := List.drop_eq_nil_of_le (by omega)
    rw [e] at m ⊢
    exact ⟨0, [], w, [], [], P.zero, fun _ _ => rfl, .nil _ _, rfl, m.layers, After.refl _ _ _⟩
  | n + 1, j, A, cur, w, hr, hA, hj, m, hd => by
    have hg0 := List.getElem?_eq_getElem (l := Q) (i := j) (by omega)
    generalize Q[j] = g at hg0
    rw [drop_get hg0] at m ⊢
    have hg : (A ++ g :: Q.drop (j + 1))[j]? = some g := by rw [← hA]; simp
    obtain ⟨sp, m0, hsp, hsel, hnext⟩ := hf.select j g hg0
    have hd := hd (by omega) sp hsp
    have S := m.layers.get hg
    have hcow := m.owned.2 g (List.mem_of_getElem? hg)
    have hcl : cloned w g.ptr g.obj c = (g.ptr, w) := by unfold cloned; rw [if_neg (by omega)]
    have hobj : ({ g.obj with cowId := c } : Layer) = g.obj := by rw [← hcow]
    obtain ⟨k1, found, ids, w1, hk1, e1, hids, hmany⟩ := hsel w cur hr S.order S.tables hd
    have hlen : g.obj.nodes.len = g.nodes.length := by
      have := readSlice_length S.nodes
      rw [← this, List.length_map]
    rw [hlen] at hids
    have hsels : Selects cfg k1 g c cur label sp w found (ids.getD []) := ⟨ids, w1, by rw [hcl, hobj]; exact e1 k1 (Nat.le_refl _), rfl⟩
    have hcan : CanFire i g.views cur (ids.getD []) := by
      intro id hid
      obtain ⟨h0, h1⟩ := hids.2 id hid
      have hv := List.getElem?_eq_getElem (l := g.views) (i := id.toNat) (by unfold State.views; rw [List.length_map]; omega)
      have s := hs.nodes j g hg0 _ (List.getElem_mem (l := g.views) (n := id.toNat) (by unfold State.views; rw [List.length_map]; omega))
      refine ⟨h0, _, hv, ?_, ?_, s.type⟩
      · rw [s.batch]; omega
      · intro x hx
        rw [s.weights]
        exact hd.1 x hx
    obtain ⟨g', w2, w3, q1, q2, f, L', a⟩ := query_run m.layers hg hsels hcan (fun h => by rw [hs.norm g (List.mem_of_getElem? hg0) h]; exact hi)
    have hset : (A ++ g :: Q.drop (j + 1)).set j g' = (A ++ [g']) ++ Q.drop (j + 1) := by
      rw [← hA, List.set_append_right _ _ (Nat.le_refl _)]; simp
    rw [hset] at L' a
    obtain ⟨o', -⟩ := a.owned m.owned
    have hr3 : P.J w3.rng := (Draws.setLayerPtr _ _ _).pace P q2 ((Draws.query _ _ _ _ _ _ _ _).pace P q1 hr)
    obtain ⟨k2, acts, w4, T, B', hk2, r, p, ea, L2, a2⟩ := forward_run hs hi hf n (j + 1) (A := A ++ [g']) hr3 (by simp [hA]) (by omega)
      ⟨L', o'⟩ (cur := outputs g.softmax g.views cur (ids.getD [])) (by
        intro hj1 sp' hsp'
        rw [inputSize_succ hg0]
        refine outputs_fit hids _ _ (fun hs => ?_) _ _
        refine Nat.le_trans (hnext sp' hj1 hsp' ?_) hmany
        cases h : GoFloat.eq sp' (GoFloat.one : F) with
        | true => rw [h] at hs; cases hs
        | false => rfl)
    refine ⟨Nat.max k1 k2, _ :: acts, w4, ids.getD [] :: T, g' :: B', P.max hk1 hk2, fun fuel hfuel => ?_, .cons ⟨hd.1, hids⟩ f p, by rw [ea]; rfl, ?_, ?_⟩
    · have hf1 : k1 ≤ fuel := Nat.le_trans (Nat.le_max_left _ _) hfuel
      have r := r fuel (Nat.le_trans (Nat.le_max_right _ _) hfuel)
      rw [query_congr S.obj (fuel' := fuel) (by rw [hcl, hobj]; exact (e1 k1 (Nat.le_refl _)).trans (e1 fuel hf1).symm)] at q1
      unfold forward
      have hsp' : goGet sparsity ((off : Int) + (j : Int)) = .ok sp := by
        rw [show ((off : Int) + (j : Int)) = ((off + j : Nat) : Int) by omega, goGet_ofNat, hsp]
      rw [M.bind_ok (layerPtr_run m.layers.ptrs (p := g.ptr) (by rw [List.getElem?_map, hg]; rfl)), hsp', M.bind_ok (a := sp) (s' := w) rfl,
        M.bind_ok q1]
      dsimp only
      rw [M.bind_ok q2, M.bind_ok r]
      rfl
    · simpa using L2
    · have := a.trans a2
      simpa using this

theorem fired_act {b : Bool} {i : Nat} {data : List (Pair F)} {m : F} {v : View F} (h : i < v.train.length) : Act i (fired b i data m v) := by
  unfold Act fired View.setSlot
  simp [List.getElem?_eq_getElem h]

/-- The layers are ready for the backward pass. -/
theorem passes_ready {adam : Bool} {b dim c i : Nat} {cow : Int} {Q Q' : List (State F)} {data : List (Pair F)} {S : List (List Int)}
    (hs : Shaped adam b dim Q) (hi : i < b)
    (p : Passes cow i (fun k g d ids => (∀ x ∈ d, 0 ≤ x.Index ∧ x.Index < inputSize dim Q k) ∧ IdsOk g.nodes.length ids) 0 Q data S Q')
    (hm : c < Q.length) : LayerReady adam i (data :: outs Q data S) (Q'.map State.views) c := by
  have hg := List.getElem?_eq_getElem (l := Q) (i := c) hm
  generalize Q[c] = g at hg
  obtain ⟨g', ids, d, h1, h2, ⟨h3, h4⟩, f, h5, h6⟩ := passes_get p hg
  rw [Nat.zero_add] at h3
  have hlen : (outs Q data S).length = Q.length := (passes_length p).2
  refine ⟨g'.views, d, _, by rw [List.getElem?_map, h1]; rfl, ?_, by rw [List.getElem?_cons_succ]; exact h5, ?_, ?_⟩
  · rw [h6, List.getElem?_eq_getElem (l := data :: outs Q data S) (i := c) (by rw [List.length_cons]; omega)]
    rfl
  · rw [outputs_index]; exact h4.1
  · intro pr hpr
    have hid : pr.Index ∈ ids := by
      rw [← outputs_index g.softmax g.views d ids]; exact List.mem_map_of_mem hpr
    obtain ⟨h0, hlt⟩ := h4.2 _ hid
    have hlv : pr.Index.toNat < g.views.length := by unfold State.views; rw [List.length_map]; omega
    have hv := List.getElem?_eq_getElem hlv
    have s := hs.nodes c g hg _ (List.getElem_mem hlv)
    generalize g.views[pr.Index.toNat] = v at hv s
    refine ⟨h0, fired g.softmax i d (maxValue g.views d ids) v, ?_, fired_act (by rw [s.train]; exact hi), ?_⟩
    · rw [f.views, forwardViews, mark_get, hv, Option.map_some, Int.toNat_of_nonneg h0, if_pos hid]
    · have e : (fired g.softmax i d (maxValue g.views d ids) v).dims = v.dims := setSlot_dims v i _
      rw [e]
      intro x hx
      obtain ⟨a, b⟩ := h3 x hx
      refine ⟨a, ?_, fun ha => ?_⟩
      · show x.Index < (v.params.weights.length : Int)
        rw [s.weights]; exact b
      · show x.Index < (v.params.t.length : Int)
        rw [(s.adam ha).2.2]; exact b

/-- The safety of the forward pass depends on the frame and the shapes only. -/
theorem ForwardSafe.of_frame {cfg : Config F} {P : Pace} {label : List Int} {sparsity : List F} {off dim : Nat} {Q Q' : List (State F)}
    (h : ForwardSafe cfg P label sparsity off dim Q) (hf : Q'.map State.frame = Q.map State.frame) : ForwardSafe cfg P label sparsity off dim Q' := by
  refine ⟨fun j g' hg' => ?_⟩
  obtain ⟨g, hg, e⟩ := frame_get hf.symm hg'
  obtain ⟨-, e2, -, e4, -, e6⟩ := frame_eqs e
  have hin : inputSize dim Q' j = inputSize dim Q j := by
    cases j with
    | zero => rfl
    | succ j =>
      have hlt := (List.getElem?_eq_some_iff.mp hg').1
      have h1 := List.getElem?_eq_getElem (l := Q') (i := j) (by omega)
      obtain ⟨g1, hg1, e1⟩ := frame_get hf.symm h1
      rw [inputSize_succ h1, inputSize_succ hg1]
      have := congrArg List.length (frame_eqs e1).2.2.1
      simpa using this.symm
  have hl : Q'.length = Q.length := by
    have := congrArg List.length hf
    simpa using this
  rw [hin, ← e2, ← e4, ← e6, hl]
  exact h.select j g hg

theorem Shaped.of_frame {adam : Bool} {b dim : Nat} {Q Q' : List (State F)} (s : Shaped adam b dim Q)
    (h : (Q'.map State.views).map (List.map View.dims) = (Q.map State.views).map (List.map View.dims))
    (hf : Q'.map State.frame = Q.map State.frame) : Shaped adam b dim Q' := by
  refine s.of_dims h ?_
  intro j g g' hg hg'
  obtain ⟨g2, hg2, e⟩ := frame_get hf hg
  rw [hg'] at hg2
  cases hg2
  obtain ⟨-, e2, -, -, e5, -⟩ := frame_eqs e
  exact ⟨by unfold State.softmax; rw [e2], e5⟩

/-- The passes of one example succeed. -/
theorem example_run {cfg : Config F} {P : Pace} {b dim : Nat} {c : Int} {n : Network F} {lr : F} {ex : Example F} {i : Nat} {w : World F}
    {Q : List (State F)} (hr : P.J w.rng) (m : Mem w n.hiddenLayers Q c) (hN : n.numberOfLayers = Q.length) (hs : Shaped cfg.UseAdam b dim Q) (hi : i < b)
    (hf : ForwardSafe cfg P ex.Labels n.sparsity 0 dim Q) (hd : ∀ sp, n.sparsity[0]? = some sp → DataFits cfg (!GoFloat.eq sp GoFloat.one) dim ex.Features) :
    ∃ k acts w1 w2, P.K k ∧
      (∀ fuel, k ≤ fuel → forward cfg fuel c n.hiddenLayers n.sparsity 0 (i : Int) ex.Labels n.hiddenLayers.len 0 ex.Features w = .ok (acts, w1)) ∧
      backward cfg c n.hiddenLayers n.numberOfLayers ex lr (i : Int) (ex.Features :: acts) n.numberOfLayers.toNat w1 = .ok ((), w2) := by
  have hlen : n.hiddenLayers.len = Q.length := by
    have := readSlice_length m.layers.ptrs
    rw [← this, List.length_map]
  obtain ⟨k, acts, w1, S, Q1, hk, r, p, ea, L, A⟩ := forward_run (off := 0) hs hi hf Q.length 0 (A := []) hr rfl (by omega) m (fun _ => hd)
  rw [List.drop_zero] at p ea A
  rw [List.nil_append] at L A
  rw [List.nil_append] at A
  obtain ⟨o, -⟩ := A.owned m.owned
  have hl1 : Q1.length = Q.length := (passes_same p).1
  have hready : BackwardReady cfg.UseAdam lr i (normOf (ex.Features :: outs Q ex.Features S)) ex.Labels (ex.Features :: outs Q ex.Features S) Q1.length
      (Q1.map State.views) := backwardReady_of _ _ (fun k hk => passes_ready hs hi p (by omega))
  obtain ⟨h', Q2, r2, -⟩ := backward_run cfg (ex := ex) (N := (Q1.length : Int)) rfl Q1.length ⟨L, o⟩ rfl (passes_norm p hs.last) hready
  refine ⟨k, acts, w1, { w1 with heap := h' }, hk, by rw [hlen]; exact r, ?_⟩
  rw [hN, Int.toNat_natCast, ← hl1, ea]
  exact r2

/-- What a training step needs of an example. -/
def ExampleFits (cfg : Config F) (P : Pace) (dim : Nat) (sparsity : List F) (Q : List (State F)) (ex : Example F) : Prop :=
  ForwardSafe cfg P ex.Labels sparsity 0 dim Q ∧ ∀ sp, sparsity[0]? = some sp → DataFits cfg (!GoFloat.eq sp GoFloat.one) dim ex.Features

/-- The passes of a batch succeed. -/
theorem trainLoop_run {cfg : Config F} {P : Pace} {b dim : Nat} {c : Int} {n : Network F} {lr : F} :
    ∀ (es : List (Example F)) {i : Nat} {w : World F} {Q : List (State F)} (_ : P.J w.rng) (_ : Mem w n.hiddenLayers Q c)
      (_ : n.numberOfLayers = Q.length) (_ : Shaped cfg.UseAdam b dim Q) (_ : i + es.length ≤ b)
      (_ : ∀ ex ∈ es, ExampleFits cfg P dim n.sparsity Q ex), ∃ k w', P.K k ∧ ∀ fuel, k ≤ fuel → trainLoop cfg fuel c n lr es i w = .ok ((), w')
  | [], i, w, Q, _, m, _, _, _, _ => ⟨0, w, P.zero, fun _ _ => rfl⟩
  | ex :: es, i, w, Q, hr, m, hN, hs, hb, he => by
    rw [List.length_cons] at hb
    obtain ⟨hf, hd⟩ := he ex (by simp)
    obtain ⟨k1, acts, w1, w2, hk1, r1, r2⟩ := example_run (lr := lr) hr m hN hs (i := i) (by omega) hf hd
    have hfit : FitsV cfg.UseAdam (Q.map State.views) := by
      intro vs hvs v hv ha
      obtain ⟨g, hg, rfl⟩ := List.mem_map.mp hvs
      exact (hs.fit g hg v hv ha).2.2
    obtain ⟨S, Q1, -, m1, -, f1, d1, -⟩ := example_spec m hN hs.last hfit (r1 k1 (Nat.le_refl _)) r2
    have hr2 : P.J w2.rng := (Draws.backward _ _ _ _ _ _ _ _ _).pace P r2 ((Draws.forward _ _ _ _ _ _ _ _ _ _ _).pace P (r1 k1 (Nat.le_refl _)) hr)
    obtain ⟨k2, w', hk2, r⟩ := trainLoop_run es (i := i + 1) hr2 m1 (by rw [hN, frame_length f1]) (hs.of_frame d1 f1) (by omega)
      (fun ex' h' => by
        obtain ⟨hf', hd'⟩ := he ex' (by simp [h'])
        exact ⟨hf'.of_frame f1, hd'⟩)
    refine ⟨Nat.max k1 k2, w', P.max hk1 hk2, fun fuel hfuel => ?_⟩
    unfold trainLoop
    rw [M.bind_ok (r1 fuel (Nat.le_trans (Nat.le_max_left _ _) hfuel)), M.bind_ok r2]
    exact r fuel (Nat.le_trans (Nat.le_max_right _ _) hfuel)

theorem Mem.lens {w : World F} {hidden : Slice} {Q : List (State F)} {c : Int} (m : Mem w hidden Q c) :
    ∀ g ∈ Q, g.obj.nodes.len = g.nodes.length := by
  intro g hg
  obtain ⟨j, hj⟩ := List.getElem?_of_mem hg
  have := readSlice_length (m.layers.get hj).nodes
  rw [← this, List.length_map]

/-! ### The update -/

/-- Nodes with `n` weights can be entered into the tables `t`, after they have been cleared and changed. -/
def AddSafe (cfg : Config F) (hasher : Hasher) (t : LSH) (n : Nat) : Prop :=
  ∀ (ops : List Op) (t' : LSH) (ws spare : List F) (id : Int), Lsh.run (Lsh.clear t) ops = .ok t' → ws.length = n →
    ∃ I slots t'', indexOf cfg hasher t' ws spare = .ok I ∧ Lsh.add t' I id = .ok (slots, t'')

/-- The layer can be rehashed and rebuilt. -/
structure RehashSafe (cfg : Config F) (x : Layer) (t : LSH) (n : Nat) : Prop where
  rebuild : ∀ w : World F, ∃ hs w', newHasher cfg (x.k * x.l).toNat x.previousLayerNumOfNodes.toNat w = .ok (hs, w')
  same : AddSafe cfg x.hasher t n
  next : ∀ (hs : Hasher) (v v' : World F), newHasher cfg (x.k * x.l).toNat x.previousLayerNumOfNodes.toNat v = .ok (hs, v') → AddSafe cfg hs t n

theorem finishNodes_run (cfg : Config F) {hidden : Slice} {c : Int} {j : Nat} {lr : F} {rehash : Bool} {t0 : LSH} {ins : Nat} :
    ∀ (m k : Nat) {w : World F} {Q : List (State F)} {g : State F} (_ : Mem w hidden Q c) (_ : Q[j]? = some g)
      (_ : k + m = g.nodes.length) (_ : ∀ i x, k ≤ i → g.nodes[i]? = some x → Fit cfg.UseAdam x.2.params ∧ x.2.params.weights.length = ins)
      (_ : rehash = true → AddSafe cfg g.obj.hasher t0 ins ∧ ∃ ops, Lsh.run (Lsh.clear t0) ops = .ok g.tables),
    ∃ w', ((List.range' k m).map (fun (i : Nat) => (i : Int))).forM (finishNode cfg c lr g.ptr rehash) w = .ok ((), w')
  | 0, k, w, Q, g, mm, hg, hk, _, _ => ⟨w, rfl⟩
  | m + 1, k, w, Q, g, mm, hg, hk, hfit, hre => by
    rw [List.range'_succ, List.map_cons]
    have hx := List.getElem?_eq_getElem (l := g.nodes) (i := k) (by omega)
    generalize g.nodes[k] = x at hx
    obtain ⟨hf, hw⟩ := hfit k x (Nat.le_refl _) hx
    have hstep : ∃ w1, finishNode cfg c lr g.ptr rehash k w = .ok ((), w1) := by
      obtain ⟨p, v⟩ := x
      obtain ⟨h', s, m', hs, r1, r2⟩ := finishNode_eq cfg mm hg hx lr hf
      cases rehash with
      | false => exact ⟨_, r1⟩
      | true =>
        obtain ⟨hsafe, ops, hops⟩ := hre rfl
        have S := mm.layers.get hg
        obtain ⟨I, slots, t'', e1, e2⟩ := hsafe ops g.tables (finished cfg.UseAdam lr v.params).weights (spareAt h'.floats s) k hops
          (by rw [(finished_dims hf).1]; exact hw)
        rw [r2]
        exact ⟨_, addToHashTable_run (w := { w with heap := h' }) hs S.tables e1 e2⟩
    obtain ⟨w1, r1⟩ := hstep
    obtain ⟨t', h', ls, e, m1, ht⟩ := finishNode_spec cfg mm hg hx hf r1
    have hlt := (List.getElem?_eq_some_iff.mp hg).1
    obtain ⟨w', r⟩ := finishNodes_run cfg (lr := lr) (rehash := rehash) (t0 := t0) (ins := ins) m (k + 1) m1 (List.getElem?_set_self hlt) (by
        dsimp only; rw [List.length_set]; omega) (by
        intro i y hi hy
        dsimp only at hy
        rw [List.getElem?_set_ne (by omega)] at hy
        exact hfit i y (by omega) hy) (by
        intro h
        obtain ⟨hsafe, ops, hops⟩ := hre h
        rw [if_pos h] at ht
        obtain ⟨I, spare, -, hst⟩ := ht
        refine ⟨hsafe, ops ++ [Op.add I k], ?_⟩
        dsimp only
        rw [run_append, hops, ok_bind, run_cons, hst]
        rfl)
    refine ⟨w', ?_⟩
    show (finishNode cfg c lr g.ptr rehash k >>= fun _ => ((List.range' (k + 1) m).map (fun (i : Nat) => (i : Int))).forM (finishNode cfg c lr g.ptr rehash)) w = _
    rw [M.bind_ok r1]
    exact r

theorem finishLayer_run (cfg : Config F) {c : Int} {n : Network F} {j : Nat} {lr sp : F} {rehash rebuild : Bool} {w : World F}
    {Q : List (State F)} {g : State F} {ins : Nat} (m : Mem w n.hiddenLayers Q c) (hg : Q[j]? = some g)
    (hfit : ∀ v ∈ g.views, Fit cfg.UseAdam v.params ∧ v.params.weights.length = ins) (hsp : n.sparsity[j]? = some sp)
    (hre : GoFloat.lt sp GoFloat.one = true → RehashSafe cfg g.obj g.tables ins) :
    ∃ w', finishLayer cfg c n lr rehash rebuild j w = .ok ((), w') := by
  unfold finishLayer
  rw [M.bind_ok (layerAt m hg)]
  have hget : goGet n.sparsity (j : Int) = .ok sp := by rw [goGet_ofNat, hsp]
  rw [hget, M.bind_ok (a := sp) (s' := w) rfl]
  dsimp only
  generalize GoFloat.lt sp GoFloat.one = sparse at hre
  have hlt := (List.getElem?_eq_some_iff.mp hg).1
  have step1 : ∃ t w1, (if (rehash && sparse) = true then clearHashTables g.ptr else pure () : WM F Unit) w = .ok ((), w1) ∧
      Mem w1 n.hiddenLayers (Q.set j { g with tables := t }) c ∧ ((rehash && sparse) = true → t = Lsh.clear g.tables) := by
    by_cases h : (rehash && sparse) = true
    · rw [if_pos h, clearHashTables_run (m.layers.get hg)]
      exact ⟨_, _, rfl, m.tables hg _, fun _ => rfl⟩
    · rw [if_neg h]
      refine ⟨g.tables, w, rfl, ?_, fun h' => absurd h' h⟩
      obtain ⟨_, e⟩ := List.getElem?_eq_some_iff.mp hg
      have : Q.set j { g with tables := g.tables } = Q := by
        show Q.set j g = Q
        rw [← e, List.set_getElem_self]
      rw [this]; exact m
  obtain ⟨t, w1, r1, m1, ht⟩ := step1
  have step2 : ∃ hs w2, rebuildLayer cfg c n.hiddenLayers j g.ptr (rebuild && sparse) w1 = .ok ((), w2) ∧
      Mem w2 n.hiddenLayers (Q.set j { g with tables := t, obj := { g.obj with hasher := hs } }) c ∧
      ((rehash && sparse) = true → AddSafe cfg hs g.tables ins) := by
    by_cases h : (rebuild && sparse) = true
    · have hsafe := hre (by simp only [Bool.and_eq_true] at h; exact h.2)
      obtain ⟨hs, w2, hn⟩ := hsafe.rebuild w1
      obtain ⟨q1, q2, -⟩ := rebuildLayer_run (g := { g with tables := t }) cfg m1 (List.getElem?_set_self (a := { g with tables := t }) hlt) (hs := hs) (w1 := w2) hn
      rw [List.set_set] at q2
      rw [h]
      exact ⟨hs, _, q1, q2, fun _ => hsafe.next hs w1 w2 hn⟩
    · have h' : (rebuild && sparse) = false := by simpa using h
      rw [h']
      refine ⟨g.obj.hasher, w1, rfl, m1, fun h => ?_⟩
      exact (hre (by simp only [Bool.and_eq_true] at h; exact h.2)).same
  obtain ⟨hs, w2, r2, m2, hadd⟩ := step2
  have hg2 := List.getElem?_set_self (a := ({ g with tables := t, obj := { g.obj with hasher := hs } } : State F)) hlt
  have S := m2.layers.get hg2
  have hl : g.obj.nodes.len = g.nodes.length := by
    have := readSlice_length S.nodes
    dsimp only at this
    rw [← this, List.length_map]
  obtain ⟨w3, r3⟩ := finishNodes_run cfg (lr := lr) (rehash := rehash && sparse) (t0 := g.tables) (ins := ins) g.nodes.length 0 m2 hg2 (by simp) (by
    intro i x _ hx
    exact hfit x.2 (List.mem_map_of_mem (f := Prod.snd) (List.mem_of_getElem? hx))) (by
    intro h
    refine ⟨hadd h, [], ?_⟩
    rw [← ht h]; rfl)
  refine ⟨w3, ?_⟩
  have key : (do rebuildLayer cfg c n.hiddenLayers j g.ptr (rebuild && sparse)
                 let x ← layer g.ptr
                 ((List.range x.nodes.len).map (fun (i : Nat) => (i : Int))).forM (finishNode cfg c lr g.ptr (rehash && sparse)) : WM F Unit) w1
        = .ok ((), w3) := by
    rw [M.bind_ok r2, M.bind_ok (layer_run S.obj)]
    dsimp only
    rw [hl, List.range_eq_range']
    exact r3
  by_cases h : (rehash && sparse) = true
  · simp only [if_pos h] at r1 ⊢
    rw [M.bind_ok r1]
    exact key
  · simp only [if_neg h] at r1 ⊢
    have e : w = w1 := congrArg Prod.snd (Except.ok.inj r1)
    rw [e]
    exact key

/-- What the update needs of the network. -/
def FinishSafe (cfg : Config F) (sparsity : List F) (dim : Nat) (Q : List (State F)) : Prop :=
  ∀ (j : Nat) (g : State F), Q[j]? = some g → ∃ sp, sparsity[j]? = some sp ∧
    (GoFloat.lt sp GoFloat.one = true → RehashSafe cfg g.obj g.tables (inputSize dim Q j))

theorem finishAll_run (cfg : Config F) {c : Int} {n : Network F} {lr : F} {rehash rebuild : Bool} {dim b : Nat} {Q0 : List (State F)}
    (hs : Shaped cfg.UseAdam b dim Q0) (hsafe : FinishSafe cfg n.sparsity dim Q0) :
    ∀ (m k : Nat) {w : World F} {Q : List (State F)} (_ : Mem w n.hiddenLayers Q c) (_ : k + m = Q.length)
      (_ : ∀ i, k ≤ i → Q[i]? = Q0[i]?),
    ∃ w', ((List.range' k m).map (fun (i : Nat) => (i : Int))).forM (finishLayer cfg c n lr rehash rebuild) w = .ok ((), w')
  | 0, k, w, Q, mm, _, _ => ⟨w, rfl⟩
  | m + 1, k, w, Q, mm, hk, hQ => by
    rw [List.range'_succ, List.map_cons]
    have hlt : k < Q.length := by omega
    have hg := List.getElem?_eq_getElem hlt
    generalize Q[k] = g at hg
    have hg0 : Q0[k]? = some g := by rw [← hQ k (Nat.le_refl _)]; exact hg
    obtain ⟨sp, hsp, hre⟩ := hsafe k g hg0
    have hfit : ∀ v ∈ g.views, Fit cfg.UseAdam v.params ∧ v.params.weights.length = inputSize dim Q0 k :=
      fun v hv => ⟨hs.fit g (List.mem_of_getElem? hg0) v hv, (hs.nodes k g hg0 v hv).weights⟩
    obtain ⟨w1, r1⟩ := finishLayer_run cfg (lr := lr) (rehash := rehash) (rebuild := rebuild) mm hg hfit hsp hre
    obtain ⟨g1, m1, -, -⟩ := finishLayer_spec cfg mm hg (fun v hv => (hfit v hv).1) hsp r1
    obtain ⟨w', r⟩ := finishAll_run cfg (lr := lr) (rehash := rehash) (rebuild := rebuild) hs hsafe m (k + 1) m1 (by rw [List.length_set]; omega) (by
      intro i hi
      rw [List.getElem?_set_ne (by omega)]
      exact hQ i (by omega))
    refine ⟨w', ?_⟩
    show (finishLayer cfg c n lr rehash rebuild k >>= fun _ =>
      ((List.range' (k + 1) m).map (fun (i : Nat) => (i : Int))).forM (finishLayer cfg c n lr rehash rebuild)) w = _
    rw [M.bind_ok r1]
    exact r

/-! ### The whole step -/

theorem updateRandom_run {hidden : Slice} {c : Int} :
    ∀ (m k : Nat) {w : World F} {Q : List (State F)} (_ : Mem w hidden Q c) (_ : k + m ≤ Q.length)
      (_ : ∀ g ∈ Q, g.nodes.length ≤ g.order.length),
    ∃ w', ((List.range' k m).map (fun (i : Nat) => (i : Int))).forM (fun i => do
        let la ← layerPtr hidden i
        updateRandomNodes la : Int → WM F Unit) w = .ok ((), w')
  | 0, k, w, Q, mm, _, _ => ⟨w, rfl⟩
  | m + 1, k, w, Q, mm, hk, ho => by
    rw [List.range'_succ, List.map_cons]
    have hlt : k < Q.length := by omega
    have hg := List.getElem?_eq_getElem hlt
    generalize Q[k] = g at hg
    have S := mm.layers.get hg
    have hn : g.obj.nodes.len = g.nodes.length := by
      have := readSlice_length S.nodes
      rw [← this, List.length_map]
    obtain ⟨o, r, e, -, -⟩ := updateRandomNodes_run S.obj S.order (by rw [hn]; exact ho g (List.mem_of_getElem? hg))
    obtain ⟨g1, m1, ⟨o1, p1, e1⟩, -⟩ := updateRandomNodes_spec mm hg e
    obtain ⟨w', r'⟩ := updateRandom_run m (k + 1) m1 (by rw [List.length_set]; omega) (by
      intro x hx
      rcases List.mem_or_eq_of_mem_set hx with hx | hx
      · exact ho x hx
      · subst hx
        subst e1
        dsimp only
        rw [p1.length_eq]
        exact ho g (List.mem_of_getElem? hg))
    refine ⟨w', ?_⟩
    show ((do
        let la ← layerPtr hidden k
        updateRandomNodes la : WM F Unit) >>= fun _ => ((List.range' (k + 1) m).map (fun (i : Nat) => (i : Int))).forM _) w = _
    rw [M.bind_ok (a := ()) (by rw [M.bind_ok (layerAt mm hg)]; exact e)]
    exact r'

theorem Kept.reordered {cfg : Config F} {size prev ty k l rp : Int} {g g' : State F} (h : Kept cfg size prev ty k l rp g)
    (t : Reordered g g') : Kept cfg size prev ty k l rp g' := by
  obtain ⟨o, hp, rfl⟩ := t
  exact ⟨h.nodes, h.oTy, h.oK, h.oL, h.oPrev, h.pos, hp.trans h.order, h.hasher, h.tables, h.topK⟩

theorem Kept.of_frame {cfg : Config F} {size prev ty k l rp : Int} {g g' : State F} (h : Kept cfg size prev ty k l rp g)
    (e : g'.frame = g.frame) : Kept cfg size prev ty k l rp g' := by
  obtain ⟨-, e2, e3, e4, -, e6⟩ := frame_eqs e
  have hl : g'.nodes.length = g.nodes.length := by simpa using congrArg List.length e3
  exact ⟨by rw [hl]; exact h.nodes, by rw [e2]; exact h.oTy, by rw [e2]; exact h.oK, by rw [e2]; exact h.oL, by rw [e2]; exact h.oPrev, h.pos,
    by rw [hl, e4]; exact h.order, by rw [e2]; exact h.hasher, by rw [e6, hl]; exact h.tables, h.topK⟩

theorem processInput_run {cfg : Config F} {P : Pace} {c : Int} {a : NetArgs F} {w : World F} {p : Ptr} {n : Network F} {Q : List (State F)}
    {es : List (Example F)} (iter : Int) (rehash rebuild : Bool) (hr : P.J w.rng) (h : Alive cfg c a w p n Q) (hb : es.length ≤ a.batch.toNat)
    (hfwd : ∀ Q', AllKept cfg a Q' → Q'.length = Q.length → (∀ g ∈ Q', g.obj.nodes.len = g.nodes.length) → ∀ ex ∈ es, ExampleFits cfg P a.dim.toNat a.sparsity Q' ex)
    (hfin : ∀ Q', AllKept cfg a Q' → Q'.length = Q.length → FinishSafe cfg a.sparsity a.dim.toNat Q') :
    ∃ k w', P.K k ∧ ∀ fuel, k ≤ fuel → processInput cfg fuel p c es iter rehash rebuild w = .ok ((GoFloat.zero, p), w') := by
  obtain ⟨N, o, hc, hs⟩ := h.trainable
  unfold processInput
  have hcl : cloneIfNeeded p c w = .ok (p, w) := by
    unfold cloneIfNeeded
    rw [M.bind_ok (network_run N.obj), if_neg (by omega)]
    rfl
  simp only [M.bind_ok hcl, M.bind_ok (network_run N.obj)]
  generalize stepSize cfg n.learningRate iter = lr
  have step1 : ∃ Q1 w1, (if iter.tmod 6946 = 6945 then updateRandom n.hiddenLayers n.numberOfLayers else pure () : WM F Unit) w = .ok ((), w1) ∧
      Mem w1 n.hiddenLayers Q1 c ∧ Q1.length = Q.length ∧
      ∀ (i : Nat) (g : State F), Q[i]? = some g → ∃ g', Q1[i]? = some g' ∧ Reordered g g' := by
    by_cases h6 : iter.tmod 6946 = 6945
    · rw [if_pos h6]
      unfold updateRandom
      have e : (List.range (n.numberOfLayers - 1).toNat).map (fun (i : Nat) => (i : Int) + 1) =
          (List.range' 1 (n.numberOfLayers - 1).toNat).map (fun (i : Nat) => (i : Int)) := by
        rw [List.range'_eq_map_range, List.map_map]
        apply List.map_congr_left
        intro a _
        simp only [Function.comp]
        omega
      rw [e]
      by_cases h0 : Q.length = 0
      · have : (n.numberOfLayers - 1).toNat = 0 := by rw [N.count, h0]; rfl
        rw [this]
        exact ⟨Q, w, rfl, ⟨N.layers, o⟩, rfl, fun i g hg => ⟨g, hg, ⟨g.order, .refl _, rfl⟩⟩⟩
      · obtain ⟨w1, r1⟩ := updateRandom_run (n.numberOfLayers - 1).toNat 1 ⟨N.layers, o⟩ (by rw [N.count]; omega) (by
          intro g hg
          obtain ⟨j, hj⟩ := List.getElem?_of_mem hg
          obtain ⟨_, _, _, _, _, _, -, -, -, -, -, hk, -⟩ := h.kept j g hj
          rw [hk.order.length_eq]
          simp)
        obtain ⟨Q1, m1, n1, l1, h1⟩ := updateRandom_spec _ _ ⟨N.layers, o⟩ (by rw [N.count]; omega) r1
        exact ⟨Q1, w1, r1, m1, l1, h1⟩
    · rw [if_neg h6]
      exact ⟨Q, w, rfl, ⟨N.layers, o⟩, rfl, fun i g hg => ⟨g, hg, ⟨g.order, .refl _, rfl⟩⟩⟩
  obtain ⟨Q1, w1, r1, m1, l1, h1⟩ := step1
  have k1 : AllKept cfg a Q1 := h.kept.step l1 (by
    intro j g g' hg hg' _ _ _ _ _ _ hk
    obtain ⟨g2, hg2, hr⟩ := h1 j g hg
    rw [hg'] at hg2
    cases hg2
    exact hk.reordered hr)
  have hmap : ∀ {α : Type} (f : State F → α), (∀ g o, f { g with order := o } = f g) → Q1.map f = Q.map f := by
    intro α f hf
    apply List.ext_getElem?
    intro i
    rw [List.getElem?_map, List.getElem?_map]
    cases hq : Q[i]? with
    | none =>
      have : Q1[i]? = none := by
        rw [List.getElem?_eq_none_iff] at hq ⊢; omega
      rw [this]
    | some g =>
      obtain ⟨g', hg', ⟨o, -, rfl⟩⟩ := h1 i g hq
      rw [hg', Option.map_some, Option.map_some, hf]
  have s1 : Shaped cfg.UseAdam a.batch.toNat a.dim.toNat Q1 := hs.of_dims (by rw [hmap State.views (fun _ _ => rfl)]) (by
    intro j g g' hg hg'
    obtain ⟨g2, hg2, ⟨o, -, rfl⟩⟩ := h1 j g hg
    rw [hg'] at hg2
    cases hg2
    exact ⟨rfl, rfl⟩)
  have hr1 : P.J w1.rng := by
    by_cases h6 : iter.tmod 6946 = 6945
    · rw [if_pos h6] at r1
      exact (Draws.updateRandom _ _).pace P r1 hr
    · rw [if_neg h6] at r1
      exact (Draws.pure ()).pace P r1 hr
  obtain ⟨k, w2, hk, r2⟩ := trainLoop_run (cfg := cfg) (P := P) (lr := lr) es (i := 0) hr1 m1 (by rw [N.count, l1]) s1 (by omega)
    (by rw [h.sparsity]; exact hfwd Q1 k1 l1 m1.lens)
  obtain ⟨T, Q2, -, -, m2, -, fr2, dm2, -⟩ := trainLoop_spec es m1 (by rw [N.count, l1]) s1.last (by
    intro vs hvs v hv ha
    obtain ⟨g, hg, rfl⟩ := List.mem_map.mp hvs
    exact (s1.fit g hg v hv ha).2.2) (r2 k (Nat.le_refl _))
  have l2 : Q2.length = Q1.length := frame_length fr2
  have k2 : AllKept cfg a Q2 := k1.step l2 (by
    intro j g g' hg hg' _ _ _ _ _ _ hk
    obtain ⟨g2, hg2, e⟩ := frame_get fr2 hg
    rw [hg'] at hg2
    cases hg2
    exact hk.of_frame e)
  have s2 := s1.of_frame dm2 fr2
  obtain ⟨w3, r3⟩ := finishAll_run cfg (n := n) (lr := lr) (rehash := rehash) (rebuild := rebuild) s2 (by rw [h.sparsity]; exact hfin Q2 k2 (l2.trans l1))
    Q2.length 0 m2 (by omega) (fun i _ => rfl)
  have hlen : n.hiddenLayers.len = Q2.length := by
    have := readSlice_length m2.layers.ptrs
    rw [← this, List.length_map]
  refine ⟨k, w3, hk, fun fuel hfuel => ?_⟩
  have key : (do trainLoop cfg fuel c n lr es 0
                 ((List.range n.hiddenLayers.len).map (fun (i : Nat) => (i : Int))).forM (finishLayer cfg c n lr rehash rebuild)
                 pure (GoFloat.zero, p) : WM F (F × Ptr)) w1 = .ok ((GoFloat.zero, p), w3) := by
    rw [M.bind_ok (r2 fuel hfuel), hlen, List.range_eq_range', M.bind_ok r3]
    rfl
  by_cases h6 : iter.tmod 6946 = 6945
  · simp only [if_pos h6] at r1 ⊢
    rw [M.bind_ok r1]
    exact key
  · simp only [if_neg h6] at r1 ⊢
    have e : w = w1 := congrArg Prod.snd (Except.ok.inj r1)
    rw [e]
    exact key

/-! ### Prediction -/

theorem predictOne_run [FloatOrder F] {cfg : Config F} {P : Pace} {b dim : Nat} {c : Int} {n : Network F} {i : Nat} {features : List (Pair F)}
    {w : World F} {Q : List (State F)} {gl : State F} (hr : P.J w.rng) (m : Mem w n.hiddenLayers Q c) (hn : n.numberOfLayers = Q.length)
    (hgl : Q[Q.length - 1]? = some gl) (hs : Shaped cfg.UseAdam b dim Q) (hi : i < b) (hf : ForwardSafe cfg P [] n.sparsity Q.length dim Q)
    (hd : ∀ sp, n.sparsity[Q.length]? = some sp → DataFits cfg (!GoFloat.eq sp GoFloat.one) dim features) :
    ∃ k cls w', P.K k ∧ ∀ fuel, k ≤ fuel → predictOne cfg fuel c n gl.ptr i features w = .ok (cls, w') := by
  have hlen : n.hiddenLayers.len = Q.length := by
    have := readSlice_length m.layers.ptrs
    rw [← this, List.length_map]
  obtain ⟨k, acts, w1, S, Q1, hk, r, p, ea, L, a⟩ := forward_run (off := Q.length) hs hi hf Q.length 0 (A := []) hr rfl (by omega) m (fun _ => hd)
  rw [List.drop_zero] at p ea a
  rw [List.nil_append] at L
  rw [List.nil_append, List.nil_append] at a
  obtain ⟨o1, -⟩ := a.owned m.owned
  have hpos : 0 < Q.length := by
    have := (List.getElem?_eq_some_iff.mp hgl).1; omega
  obtain ⟨g', ids, d, e1, e2, -, f, e3, -⟩ := passes_get p hgl
  have hl : ((features :: acts)[n.numberOfLayers.toNat]?).getD [] = outputs gl.softmax gl.views d ids := by
    rw [ea, hn, Int.toNat_natCast, show Q.length = (Q.length - 1) + 1 by omega, List.getElem?_cons_succ, e3]; rfl
  have S' := L.get e1
  have H : ∀ y ∈ g'.nodes, Handle w1.heap y.1 y.2 := fun y hy => L.group.handle (flatMap_mem_nodes (List.mem_of_getElem? e1) hy)
  obtain ⟨ext, hext⟩ := a.layers
  have hx1 : w1.layers[gl.ptr]? = some gl.obj := by
    have hx := (m.layers.get hgl).obj
    rw [hext, List.getElem?_append_left (List.getElem?_eq_some_iff.mp hx).1]; exact hx
  have hread : readSlice w1.heap.nodeArrs gl.obj.nodes = some (g'.nodes.map Prod.fst) := by
    have := S'.nodes
    rw [f.obj] at this
    exact this
  obtain ⟨cls', hc, -⟩ := argMax_class (last := gl.ptr) (i := i) (w := w1) (l := outputs gl.softmax gl.views d ids) (by
    intro pair hp
    obtain ⟨id, hid, rfl⟩ := List.mem_map.mp hp
    obtain ⟨h0, y, hy, hv⟩ := forwarded_last f H hid
    refine ⟨y.1, ?_, hv⟩
    unfold getNodeById
    rw [M.bind_ok (layer_run hx1)]
    exact onHeap_run (nodePtr_run hread h0 (by rw [List.getElem?_map, hy]; rfl)))
  refine ⟨k, cls', w1, hk, fun fuel hfuel => ?_⟩
  unfold predictOne
  rw [hlen, hn]
  rw [hn] at hl
  rw [M.bind_ok (r fuel hfuel), hl]
  exact hc

/-- Prediction needs of an example that the forward pass (without labels) with the second half of the sparsities succeeds. -/
def PredictFits (cfg : Config F) (P : Pace) (dim : Nat) (sparsity : List F) (Q : List (State F)) (ex : Example F) : Prop :=
  ForwardSafe cfg P [] sparsity Q.length dim Q ∧
    ∀ sp, sparsity[Q.length]? = some sp → DataFits cfg (!GoFloat.eq sp GoFloat.one) dim ex.Features

theorem sameAll_kept {cfg : Config F} {a : NetArgs F} {c : Int} {Q Q' : List (State F)} (h : AllKept cfg a Q) (s : SameAll c Q Q') : AllKept cfg a Q' :=
  h.step s.1 (fun j g g' hg hg' _ _ _ _ _ _ hk => hk.same (s.2 j g g' hg hg'))

theorem predictLoop_run [FloatOrder F] {cfg : Config F} {P : Pace} {b dim : Nat} {a : NetArgs F} {c : Int} {n : Network F} {last : Ptr} {k : Nat} :
    ∀ (es : List (Example F)) {i : Nat} {count : Int} {w : World F} {Q : List (State F)} {gl : State F} (_ : P.J w.rng) (_ : Mem w n.hiddenLayers Q c)
      (_ : n.numberOfLayers = Q.length) (_ : Q.length = k) (_ : Q[Q.length - 1]? = some gl) (_ : gl.ptr = last) (_ : Shaped cfg.UseAdam b dim Q)
      (_ : AllKept cfg a Q) (_ : i + es.length ≤ b)
      (_ : ∀ Q', AllKept cfg a Q' → Q'.length = k → (∀ g ∈ Q', g.obj.nodes.len = g.nodes.length) → ∀ ex ∈ es, PredictFits cfg P dim n.sparsity Q' ex),
      ∃ q res w', P.K q ∧ ∀ fuel, q ≤ fuel → predictLoop cfg fuel c n last es i count w = .ok (res, w')
  | [], i, count, w, Q, gl, _, m, _, _, _, _, _, _, _, _ => ⟨0, count, w, P.zero, fun _ _ => rfl⟩
  | ex :: es, i, count, w, Q, gl, hr, m, hn, hk, hgl, hlast, hs, hkept, hb, hf => by
    rw [List.length_cons] at hb
    obtain ⟨hf1, hd1⟩ := hf Q hkept hk m.lens ex (by simp)
    obtain ⟨k1, cls, w1, hk1, r1⟩ := predictOne_run hr m hn hgl hs (i := i) (by omega) hf1 hd1
    rw [hlast] at r1
    have hobj := (m.layers.get hgl).obj
    rw [hlast] at hobj
    obtain ⟨S, Q1, l, p, L1, af, -, -⟩ := predictOne_ok m.layers hn hgl hobj rfl (r1 k1 (Nat.le_refl _))
    have hr1 : P.J w1.rng := (Draws.predictOne _ _ _ _ _ _ _).pace P (r1 k1 (Nat.le_refl _)) hr
    have hsame := passes_same p
    obtain ⟨o1, hptr, -⟩ := af.owned m.owned
    have hlt : Q.length - 1 < Q1.length := by rw [hsame.1]; exact (List.getElem?_eq_some_iff.mp hgl).1
    have hgl1 : Q1[Q1.length - 1]? = some Q1[Q.length - 1] := by rw [hsame.1]; exact List.getElem?_eq_getElem hlt
    have hl1 : (Q1[Q.length - 1]).ptr = last := by
      rw [← hlast]
      have h1 := congrArg (fun (l : List Ptr) => l[Q.length - 1]?) hptr
      simp only [List.getElem?_map, hgl, List.getElem?_eq_getElem hlt, Option.map_some, Option.some.injEq] at h1
      exact h1
    obtain ⟨k2, res, w', hk2, r⟩ := predictLoop_run es (i := i + 1) (count := if intSliceContains ex.Labels cls then count + 1 else count) hr1 ⟨L1, o1⟩
      (by rw [hsame.1]; exact hn) (by rw [hsame.1]; exact hk) hgl1 hl1
      (hs.of_dims (sameAll_dims hsame) (by
        intro j g g' hg hg'
        have s := hsame.2 j g g' hg hg'
        refine ⟨?_, s.norm⟩
        unfold State.softmax
        rcases s.obj with e | e
        · rw [e]
        · rw [e]))
      (sameAll_kept hkept hsame) (by omega) (fun Q' h1 h2 h3 ex' h4 => hf Q' h1 h2 h3 ex' (by simp [h4]))
    refine ⟨Nat.max k1 k2, res, w', P.max hk1 hk2, fun fuel hfuel => ?_⟩
    unfold predictLoop
    rw [M.bind_ok (r1 fuel (Nat.le_trans (Nat.le_max_left _ _) hfuel))]
    exact r fuel (Nat.le_trans (Nat.le_max_right _ _) hfuel)

theorem predictClass_run [FloatOrder F] {cfg : Config F} {P : Pace} {c : Int} {a : NetArgs F} {w : World F} {p : Ptr} {n : Network F}
    {Q : List (State F)} {es : List (Example F)} (hr : P.J w.rng) (h : Alive cfg c a w p n Q) (hb : es.length ≤ a.batch.toNat) (hpos : 0 < Q.length)
    (hfwd : ∀ Q', AllKept cfg a Q' → Q'.length = Q.length → (∀ g ∈ Q', g.obj.nodes.len = g.nodes.length) →
      ∀ ex ∈ es, PredictFits cfg P a.dim.toNat a.sparsity Q' ex) :
    ∃ k res w', P.K k ∧ ∀ fuel, k ≤ fuel → predictClass cfg fuel p c es w = .ok ((res, p), w') := by
  obtain ⟨N, o, hc, hs⟩ := h.trainable
  unfold predictClass
  have hcl : cloneIfNeeded p c w = .ok (p, w) := by
    unfold cloneIfNeeded
    rw [M.bind_ok (network_run N.obj), if_neg (by omega)]
    rfl
  simp only [M.bind_ok hcl, M.bind_ok (network_run N.obj)]
  have hgl : Q[Q.length - 1]? = some Q[Q.length - 1] := List.getElem?_eq_getElem (by omega)
  have e : n.numberOfLayers - 1 = ((Q.length - 1 : Nat) : Int) := by rw [N.count]; omega
  obtain ⟨k, res, w', hk, r⟩ := predictLoop_run (cfg := cfg) (P := P) es (i := 0) (count := 0) hr ⟨N.layers, o⟩ N.count rfl hgl rfl hs h.kept (by omega)
    (by rw [h.sparsity]; exact hfwd)
  refine ⟨k, res, w', hk, fun fuel hfuel => ?_⟩
  rw [e, M.bind_ok (layerPtr_run N.layers.ptrs (p := (Q[Q.length - 1]).ptr) (by rw [List.getElem?_map, hgl]; rfl)), M.bind_ok (r fuel hfuel)]
  rfl

end Goslide.Network
