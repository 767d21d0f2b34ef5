import Verif.Proofs.NetworkAdam
/-
The passes of the examples of a batch on a network in memory, for the owner.
-/
set_option linter.unusedSectionVars false
namespace Goslide.Layer
variable {F : Type} [GoFloat F]

/-- What the passes of the examples do not change of a layer. -/
def State.frame (g : State F) : Ptr × Layer × List Ptr × List Int × Nat × Lsh.LSH :=
  (g.ptr, g.obj, g.nodes.map Prod.fst, g.order, g.norm.length, g.tables)

end Goslide.Layer

namespace Goslide.Network
open Goslide Node Lsh Configuration Spec.Node Spec.Network Layer Xcrepo
variable {F : Type} [GoFloat F]

/-- The passes change only node data, normalization constants and the random sources. -/
structure Quiet (w w' : World F) : Prop where
  networks : w'.networks = w.networks
  lshs : w'.lshs = w.lshs
  ints : w'.ints = w.ints
  layers : w'.layers = w.layers
  layerArrs : w'.layerArrs = w.layerArrs
  norms : w'.norms = w.norms
  hashes : w'.hashes = w.hashes

theorem Quiet.refl (w : World F) : Quiet w w := ⟨rfl, rfl, rfl, rfl, rfl, rfl, rfl⟩

theorem Quiet.trans {w w1 w2 : World F} (a : Quiet w w1) (b : Quiet w1 w2) : Quiet w w2 :=
  ⟨b.networks.trans a.networks, b.lshs.trans a.lshs, b.ints.trans a.ints, b.layers.trans a.layers, b.layerArrs.trans a.layerArrs,
    b.norms.trans a.norms, b.hashes.trans a.hashes⟩

theorem Quiet.heap (w : World F) (h' : Heap F) : Quiet w { w with heap := h' } := ⟨rfl, rfl, rfl, rfl, rfl, rfl, rfl⟩

theorem frame_of_skel {Q Q' : List (State F)} (h : Q'.map State.skel = Q.map State.skel) : Q'.map State.frame = Q.map State.frame := by
  have := congrArg (List.map (fun (x : Ptr × Layer × List Ptr × List Int × List F × LSH) =>
    (x.1, x.2.1, x.2.2.1, x.2.2.2.1, x.2.2.2.2.1.length, x.2.2.2.2.2))) h
  rw [List.map_map, List.map_map] at this
  exact this

theorem frame_get {Q Q' : List (State F)} (h : Q'.map State.frame = Q.map State.frame) {j : Nat} {g : State F} (hg : Q[j]? = some g) :
    ∃ g', Q'[j]? = some g' ∧ g'.frame = g.frame := by
  have := congrArg (fun l => l[j]?) h
  simp only [List.getElem?_map, hg, Option.map_some] at this
  cases h' : Q'[j]? with
  | none => rw [h'] at this; cases this
  | some g' => rw [h'] at this; exact ⟨g', rfl, Option.some.inj this⟩

theorem frame_length {Q Q' : List (State F)} (h : Q'.map State.frame = Q.map State.frame) : Q'.length = Q.length := by
  simpa using congrArg List.length h

theorem frame_eqs {g g' : State F} (h : g'.frame = g.frame) : g'.ptr = g.ptr ∧ g'.obj = g.obj ∧
    g'.nodes.map Prod.fst = g.nodes.map Prod.fst ∧ g'.order = g.order ∧ g'.norm.length = g.norm.length ∧ g'.tables = g.tables := by
  unfold State.frame at h
  simpa only [Prod.mk.injEq] using h

theorem frame_softmax {Q Q' : List (State F)} (h : Q'.map State.frame = Q.map State.frame) : Q'.map State.softmax = Q.map State.softmax := by
  have := congrArg (List.map (fun (x : Ptr × Layer × List Ptr × List Int × Nat × LSH) => decide (x.2.1.nodeType = Softmax))) h
  rw [List.map_map, List.map_map] at this
  exact this

theorem active_frame {Q Q' : List (State F)} (h : Q'.map State.frame = Q.map State.frame) {sp : List F} {off : Nat} {S : List (List Int)}
    (a : ActiveOn sp off Q' S) : ActiveOn sp off Q S := by
  refine ⟨a.1.trans (frame_length h), ?_⟩
  intro j g ids hg hi
  obtain ⟨g', hg', e⟩ := frame_get h hg
  have hl : g'.nodes.length = g.nodes.length := by simpa using congrArg List.length (frame_eqs e).2.2.1
  have := a.2 j g' ids hg' hi
  rwa [hl] at this

theorem lastSoft_frame {Q Q' : List (State F)} (h : Q'.map State.frame = Q.map State.frame) (hs : LastSoft Q) : LastSoft Q' := by
  intro g hg
  rw [frame_length h] at hg
  obtain ⟨g0, hg0, e⟩ := frame_get h.symm hg
  have := hs g0 hg0
  unfold State.softmax at this ⊢
  rw [← (frame_eqs e).2.1]; exact this

theorem shapes_zip : ∀ (Q : List (State F)), Q.map State.shape = (Q.map State.softmax).zip (Q.map State.views)
  | [] => rfl
  | g :: Q => by rw [List.map_cons, shapes_zip Q]; rfl

theorem passes_views {c : Int} {i : Nat} {P : Nat → State F → List (Pair F) → List Int → Prop} {j : Nat} {Q Q' : List (State F)}
    {data : List (Pair F)} {S : List (List Int)} (p : Passes c i P j Q data S Q') :
    Q'.map State.views = forwardV i ((Q.map State.softmax).zip (Q.map State.views)) data S := by
  induction p with
  | nil => rfl
  | @cons j g g' data ids Q Q' S hs hf hr ih =>
    simp only [List.map_cons, List.zip_cons_cons, forwardV]
    rw [ih, hf.views]

/-- The normalization constant after the forward pass. -/
theorem passes_norm {c : Int} {i : Nat} {P : Nat → State F → List (Pair F) → List Int → Prop} {j : Nat} {Q Q' : List (State F)}
    {data : List (Pair F)} {S : List (List Int)} (p : Passes c i P j Q data S Q') (hs : LastSoft Q) :
    LastNorm Q' i (normOf (data :: outs Q data S)) := by
  intro g' hg'
  have hl := (passes_same p).1
  have hlt := (List.getElem?_eq_some_iff.mp hg').1
  have hg := List.getElem?_eq_getElem (l := Q) (i := Q.length - 1) (by omega)
  obtain ⟨g2, ids, d, h1, -, -, hf, ho, -⟩ := passes_get p hg
  rw [hl, h1] at hg'
  cases hg'
  have hsm := hs _ hg
  have hlast : (data :: outs Q data S).getLast? = some (outputs (Q[Q.length - 1]).softmax (Q[Q.length - 1]).views d ids) := by
    rw [List.getLast?_eq_getElem?]
    have e := (passes_length p).2
    rw [List.length_cons, e, Nat.add_sub_cancel]
    rw [show (data :: outs Q data S)[Q.length]? = (outs Q data S)[Q.length - 1]? by
      rw [show Q.length = (Q.length - 1) + 1 by omega]; rw [List.getElem?_cons_succ]; simp]
    exact ho
  constructor
  · unfold State.softmax at hsm ⊢
    rw [hf.obj]; exact hsm
  · rw [hf.norm, if_pos hsm, List.getElem?_set_self (hf.fits hsm)]
    unfold normOf
    rw [hlast]; rfl

/-! ### Shapes -/

theorem map_dims_mark (ids : List Int) {f : View F → View F} (hf : ∀ v, (f v).dims = v.dims) (vs : List (View F)) :
    (mark ids f vs).map View.dims = vs.map View.dims := mark_map ids View.dims hf vs

theorem forwardViews_dims (b : Bool) (i : Nat) (vs : List (View F)) (data : List (Pair F)) (ids : List Int) :
    (forwardViews b i vs data ids).map View.dims = vs.map View.dims :=
  map_dims_mark ids (fun v => setSlot_dims v i _) vs

theorem passes_dims {c : Int} {i : Nat} {P : Nat → State F → List (Pair F) → List Int → Prop} {j : Nat} {Q Q' : List (State F)}
    {data : List (Pair F)} {S : List (List Int)} (p : Passes c i P j Q data S Q') :
    (Q'.map State.views).map (List.map View.dims) = (Q.map State.views).map (List.map View.dims) := by
  induction p with
  | nil => rfl
  | @cons j g g' data ids Q Q' S hs hf hr ih =>
    simp only [List.map_cons]
    rw [ih, hf.views, forwardViews_dims]

theorem backwardV_dims (adam : Bool) (lr : F) (i : Nat) (norm : F) (labels : List Int) (acts : List (List (Pair F))) :
    ∀ (n : Nat) (V : List (List (View F))), n ≤ V.length →
      (backwardV adam lr i norm labels acts n V).map (List.map View.dims) = V.map (List.map View.dims)
  | 0, V, _ => rfl
  | n + 1, V, h => by
    rw [backwardV, backwardV_dims adam lr i norm labels acts n _ (by rw [setPair_length]; omega)]
    exact setPair_dims (by omega) (backLayerV_dims _ _ _ _ _ _ _ _).1 (backLayerV_dims _ _ _ _ _ _ _ _).2

/-! ### Back-propagation that returns has met distinct nodes -/

/-- A node that is not active is not among the nodes that are ready. -/
theorem allReady_avoid {adam : Bool} {lr : F} {i : Nat} {soft : Option (F × List Int)} {first : Bool} {inputs : List (Pair F)} {k : Nat} :
    ∀ (pairs : List (Pair F)) (st : List (View F) × List (View F)) (_ : ∀ v s, st.1[k]? = some v → v.train[i]? = some s → s.active = false)
      (_ : AllReady adam lr i soft first inputs pairs st), ∀ pr ∈ pairs, pr.Index.toNat ≠ k
  | [], _, _, _ => by simp
  | pair :: rest, st, h, hR => by
    obtain ⟨⟨-, v, s, hv, hs, ha, -⟩, hrest⟩ := hR
    have hne : pair.Index.toNat ≠ k := by
      rintro rfl
      rw [h v s hv hs] at ha
      cases ha
    intro pr hpr
    rcases List.mem_cons.mp hpr with rfl | hpr
    · exact hne
    · refine allReady_avoid rest _ ?_ hrest pr hpr
      intro v' s' hv' hs'
      rw [backAt_other (fun e => hne e.symm)] at hv'
      exact h v' s' hv' hs'

theorem backView_idle {adam : Bool} {lr : F} {i : Nat} {soft : Option (F × List Int)} {first : Bool} {inputs : List (Pair F)} {v : View F}
    {us : List (View F)} {s : Slot F} (h : (backView adam lr i soft first inputs v us).1.train[i]? = some s) : s.active = false := by
  unfold backView at h
  split at h
  · unfold backPropFirst at h
    dsimp only at h
    rw [List.getElem?_set] at h
    simp only [if_true] at h
    split at h
    · cases h; rfl
    · cases h
  · unfold backProp at h
    dsimp only at h
    rw [List.getElem?_set] at h
    simp only [if_true] at h
    split at h
    · cases h; rfl
    · cases h

theorem allReady_nodup {adam : Bool} {lr : F} {i : Nat} {soft : Option (F × List Int)} {first : Bool} {inputs : List (Pair F)} :
    ∀ (pairs : List (Pair F)) (st : List (View F) × List (View F)) (_ : AllReady adam lr i soft first inputs pairs st),
    (pairs.map Pair.Index).Nodup ∧ ∀ pr ∈ pairs, ∃ d, (st.1.map View.dims)[pr.Index.toNat]? = some d ∧ i < d.train
  | [], _, _ => by simp
  | pair :: rest, st, hR => by
    obtain ⟨⟨h0, v, s, hv, hs, ha, -⟩, hrest⟩ := hR
    obtain ⟨n1, n2⟩ := allReady_nodup rest _ hrest
    rw [(backAt_dims adam lr i soft first inputs st pair).1] at n2
    refine ⟨?_, ?_⟩
    · rw [List.map_cons, List.nodup_cons]
      refine ⟨fun hm => ?_, n1⟩
      obtain ⟨y, hy, e⟩ := List.mem_map.mp hm
      refine allReady_avoid (k := pair.Index.toNat) rest _ ?_ hrest y hy (by rw [e])
      intro v' s' hv' hs'
      unfold backAt at hv'
      rw [hv] at hv'
      dsimp only at hv'
      rw [List.getElem?_set_self (List.getElem?_eq_some_iff.mp hv).1] at hv'
      cases hv'
      exact backView_idle hs'
    · intro pr hpr
      rcases List.mem_cons.mp hpr with rfl | hpr
      · refine ⟨v.dims, by rw [List.getElem?_map, hv]; rfl, ?_⟩
        exact (List.getElem?_eq_some_iff.mp hs).1
      · exact n2 pr hpr

theorem backwardReady_nodup {adam : Bool} {lr : F} {i : Nat} {norm : F} {labels : List Int} {acts : List (List (Pair F))} :
    ∀ (n : Nat) (V : List (List (View F))) (_ : BackwardReady adam lr i norm labels acts n V) (m : Nat), m < n →
    (((acts[m + 1]?).getD []).map Pair.Index).Nodup ∧ ∀ pr ∈ (acts[m + 1]?).getD [], ∃ ds d, (V.map (List.map View.dims))[m]? = some ds ∧
      ds[pr.Index.toNat]? = some d ∧ i < d.train
  | 0, _, _, m, hm => by omega
  | n + 1, V, h, m, hm => by
    obtain ⟨h1, h2, h3, h4⟩ := h
    by_cases e : m = n
    · subst e
      obtain ⟨n1, n2⟩ := allReady_nodup _ _ h3
      refine ⟨n1, fun pr hpr => ?_⟩
      obtain ⟨d, hd, hlt⟩ := n2 pr hpr
      unfold getPair at hd
      rw [List.getElem?_eq_getElem h2, Option.getD_some] at hd
      exact ⟨_, d, by rw [List.getElem?_map, List.getElem?_eq_getElem h2]; rfl, hd, hlt⟩
    · have := backwardReady_nodup n _ h4 m (by omega)
      rw [setPair_dims (r := backwardAt adam lr i norm labels acts n V) h2 (backLayerV_dims _ _ _ _ _ _ _ _).1 (backLayerV_dims _ _ _ _ _ _ _ _).2] at this
      exact this

theorem passes_outs {c : Int} {i : Nat} {P : Nat → State F → List (Pair F) → List Int → Prop} {j : Nat} {Q Q' : List (State F)}
    {data : List (Pair F)} {S : List (List Int)} (p : Passes c i P j Q data S Q') :
    (outs Q data S).map (List.map Pair.Index) = S := by
  induction p with
  | nil => rfl
  | @cons j g g' data ids Q Q' S hs hf hr ih =>
    rw [outs_cons, List.map_cons, ih]
    congr 1
    unfold outputs
    rw [List.map_map]
    exact (List.map_congr_left (fun _ _ => rfl)).trans (List.map_id ids)

theorem trainedOn_frame {Q Q' : List (State F)} (h : Q'.map State.frame = Q.map State.frame)
    (hd : (Q'.map State.views).map (List.map View.dims) = (Q.map State.views).map (List.map View.dims)) {sp : List F} {i : Nat} {S : List (List Int)}
    (t : TrainedOn sp Q' i S) : TrainedOn sp Q i S := by
  refine ⟨active_frame h t.active, t.nodup, ?_⟩
  intro j g ids hg hids id hid v hv
  obtain ⟨g', hg', -⟩ := frame_get h hg
  have e := congrArg (fun (l : List (List Dims)) => l[j]?) hd
  simp only [List.getElem?_map, hg, hg', Option.map_some, Option.some.injEq] at e
  have e := congrArg (fun (l : List Dims) => l[id.toNat]?) e
  simp only [List.getElem?_map, hv, Option.map_some] at e
  cases hv' : g'.views[id.toNat]? with
  | none => rw [hv'] at e; cases e
  | some v' =>
    rw [hv'] at e
    have := t.slot j g' ids hg' hids id hid v' hv'
    have e := congrArg Dims.train (Option.some.inj e)
    simp only [View.dims] at e
    omega

/-! ### The loops -/

theorem map_eq_of {α β γ : Type} {l l' : List α} {f : α → β} {g : α → γ} (h : ∀ (j : Nat) (a a' : α), l[j]? = some a → l'[j]? = some a' → g a' = g a)
    (hl : l'.map f = l.map f) : l'.map g = l.map g := by
  have hlen : l'.length = l.length := by simpa using congrArg List.length hl
  apply List.ext_getElem?
  intro j
  rw [List.getElem?_map, List.getElem?_map]
  by_cases hj : j < l.length
  · rw [List.getElem?_eq_getElem hj, List.getElem?_eq_getElem (show j < l'.length by omega)]
    simp only [Option.map_some, Option.some.injEq]
    exact h j _ _ (List.getElem?_eq_getElem hj) (List.getElem?_eq_getElem _)
  · rw [List.getElem?_eq_none (by omega), List.getElem?_eq_none (by omega)]

/-- The forward pass for the owner. -/
theorem forward_mem {cfg : Config F} {fuel : Nat} {c : Int} {hidden : Slice} {sparsity : List F} {i : Nat} {label : List Int}
    {Q : List (State F)} {cur : List (Pair F)} {w w' : World F} {acts : List (List (Pair F))} {off : Nat} (m : Mem w hidden Q c)
    (hr : forward cfg fuel c hidden sparsity off i label Q.length 0 cur w = .ok (acts, w')) :
    ∃ S Q', Passes c i (Selected cfg fuel c label sparsity off) 0 Q cur S Q' ∧ acts = outs Q cur S ∧ Mem w' hidden Q' c ∧ Quiet w w' ∧
      Q'.map State.frame = Q.map State.frame := by
  obtain ⟨S, Q', p, ha, L, A⟩ := forward_layers Q (A := []) rfl rfl m.layers hr
  rw [List.nil_append] at L A
  rw [List.nil_append] at A
  obtain ⟨o, a1, a2, a3, a4, a5, -⟩ := A.owned m.owned
  refine ⟨S, Q', p, ha, ⟨L, o⟩, ⟨A.networks, A.lshs, A.ints, a4, a5, A.norms, A.hashes⟩, ?_⟩
  refine map_eq_of ?_ a1
  intro j g g' hg hg'
  have s := (passes_same p).2 j g g' hg hg'
  have get : ∀ {β : Type} (f : State F → β), Q'.map f = Q.map f → f g' = f g := by
    intro β f h
    have := congrArg (fun l => l[j]?) h
    simpa [hg, hg'] using this
  unfold State.frame
  rw [get _ a1, get _ a2, get _ a3, s.order, s.norm, s.tables]

/-- The active nodes `S` of the layers have been selected for the example by the hash tables at hand. -/
def Picked (cfg : Config F) (sparsity : List F) (Q : List (State F)) (ex : Example F) (S : List (List Int)) : Prop :=
  ∀ (j : Nat) (g : State F) (ids : List Int), Q[j]? = some g → S[j]? = some ids →
    ∃ (sp : F) (fuel : Nat) (c : Int) (cur : List (Pair F)) (v v' : World F) (found : Int) (ids' : Option (List Int)), sparsity[j]? = some sp ∧
      select cfg fuel { g.obj with cowId := c } cur ex.Labels sp v = .ok ((found, ids'), v') ∧ ids = ids'.getD [] ∧
      v.lshs[g.obj.hashTables]? = some g.tables ∧ g.obj.nodes.len = g.nodes.length ∧
      (∃ order, order.Perm g.order ∧ readSlice v.ints g.obj.randNode = some order) ∧ (j = 0 → cur = ex.Features) ∧ ∀ i, j = i + 1 → S[i]? = some (cur.map Pair.Index)

theorem picked_of {cfg : Config F} {sparsity : List F} {Q Q' : List (State F)} {ex : Example F} {S : List (List Int)}
    (h : ∀ (j : Nat) (g : State F), Q[j]? = some g → ∃ g', Q'[j]? = some g' ∧ g'.obj = g.obj ∧ g'.tables = g.tables ∧ g'.nodes.length = g.nodes.length ∧
      g'.order.Perm g.order) (p : Picked cfg sparsity Q' ex S) : Picked cfg sparsity Q ex S := by
  intro j g ids hg hids
  obtain ⟨g', hg', e1, e2, e3, e4⟩ := h j g hg
  obtain ⟨sp, fuel, c, cur, v, v', found, ids', q1, q2, q3, q4, q5, ⟨o, q6, q7⟩, q8⟩ := p j g' ids hg' hids
  rw [e1] at q2 q4 q5 q7
  rw [e2] at q4
  rw [e3] at q5
  exact ⟨sp, fuel, c, cur, v, v', found, ids', q1, q2, q3, q4, q5, ⟨o, q6.trans e4, q7⟩, q8⟩

theorem picked_frame {cfg : Config F} {sparsity : List F} {Q Q' : List (State F)} (h : Q'.map State.frame = Q.map State.frame) {ex : Example F} {S : List (List Int)}
    (p : Picked cfg sparsity Q' ex S) : Picked cfg sparsity Q ex S := by
  refine picked_of (fun j g hg => ?_) p
  obtain ⟨g', hg', e⟩ := frame_get h hg
  obtain ⟨-, e1, e2, e4, -, e3⟩ := frame_eqs e
  exact ⟨g', hg', e1, e3, by simpa using congrArg List.length e2, by rw [e4]⟩

theorem picked_passes {cfg : Config F} {fuel : Nat} {c : Int} {sparsity : List F} {i : Nat} {ex : Example F} {Q Q' : List (State F)} {S : List (List Int)}
    (p : Passes c i (Selected cfg fuel c ex.Labels sparsity 0) 0 Q ex.Features S Q') : Picked cfg sparsity Q ex S := by
  intro j g ids hg hids
  obtain ⟨g', ids2, d, -, h2, ⟨sp, w, found, h3, h4, ids', w', h5, h6⟩, -, h8, h9⟩ := passes_get p hg
  rw [hids] at h2
  cases h2
  obtain ⟨ls, e⟩ := cloned_eq w g.ptr g.obj c
  refine ⟨sp, fuel, c, d, _, w', found, ids', ?_, h5, h6, ?_, ?_, ⟨g.order, .refl _, ?_⟩, ?_, ?_⟩
  · exact goGet_at (j := j) (by rw [← h3]; simp)
  · rw [e]; exact h4.tables
  · have := readSlice_length h4.nodes
    rw [List.length_map] at this
    exact this.symm
  · rw [e]
    obtain ⟨o1, o2, o3⟩ := h4.order
    unfold readSlice
    simp [o1, o2, o3]
  · rintro rfl
    rw [h9]; rfl
  · rintro m rfl
    rw [← passes_outs p, List.getElem?_map]
    have hl := (List.getElem?_eq_some_iff.mp h8).1
    rw [h9, List.getElem?_cons_succ, List.getElem?_eq_getElem (by omega)]
    rfl

/-- The passes of one example. -/
theorem example_full {cfg : Config F} {fuel : Nat} {c : Int} {n : Network F} {lr : F} {ex : Example F} {i : Nat} {w w1 w2 : World F}
    {Q : List (State F)} {acts : List (List (Pair F))} {u : Unit} (m : Mem w n.hiddenLayers Q c) (hN : n.numberOfLayers = Q.length)
    (hs : LastSoft Q) (hfit : FitsV cfg.UseAdam (Q.map State.views))
    (h1 : forward cfg fuel c n.hiddenLayers n.sparsity 0 (i : Int) ex.Labels n.hiddenLayers.len 0 ex.Features w = .ok (acts, w1))
    (h2 : backward cfg c n.hiddenLayers n.numberOfLayers ex lr (i : Int) (ex.Features :: acts) n.numberOfLayers.toNat w1 = .ok (u, w2)) :
    ∃ S Q', (TrainedOn n.sparsity Q i S ∧ Picked cfg n.sparsity Q ex S) ∧ Mem w2 n.hiddenLayers Q' c ∧ Quiet w w2 ∧ Q'.map State.frame = Q.map State.frame ∧
      (Q'.map State.views).map (List.map View.dims) = (Q.map State.views).map (List.map View.dims) ∧
      Q'.map State.views = exampleV cfg.UseAdam lr (Q.map State.softmax) i ex S (Q.map State.views) := by
  have hlen : n.hiddenLayers.len = Q.length := by
    have := readSlice_length m.layers.ptrs
    rw [← this, List.length_map]
  rw [hlen] at h1
  obtain ⟨S, Q1, p, rfl, m1, q1, f1⟩ := forward_mem (off := 0) m h1
  have hl1 := frame_length f1
  rw [hN, Int.toNat_natCast] at h2
  have hnorm := passes_norm p hs
  have hfit1 := fits_of_dims (passes_dims p) hfit
  rw [← hl1] at h2
  have hready := backward_inv cfg (ex := ex) (norm := normOf (ex.Features :: outs Q ex.Features S)) rfl Q1.length m1 rfl hnorm (Nat.le_refl _) hfit1 h2
  obtain ⟨h', Q2, r2, m2, k2, v2⟩ := backward_run cfg (ex := ex) rfl Q1.length m1 rfl hnorm hready
  rw [r2] at h2
  have e : { w1 with heap := h' } = w2 := congrArg Prod.snd (Except.ok.inj h2)
  subst e
  have hnd := backwardReady_nodup _ _ hready
  rw [passes_dims p] at hnd
  have ho := passes_outs p
  have hget : ∀ (j : Nat) (ids : List Int), S[j]? = some ids → ∃ out, (ex.Features :: outs Q ex.Features S)[j + 1]? = some out ∧
      out.map Pair.Index = ids := by
    intro j ids hj
    rw [← ho, List.getElem?_map, Option.map_eq_some_iff] at hj
    obtain ⟨out, h1, h2⟩ := hj
    exact ⟨out, by rw [List.getElem?_cons_succ]; exact h1, h2⟩
  have hact := selected_active (off := 0) p
  have htr : TrainedOn n.sparsity Q i S := by
    refine ⟨hact, ?_, ?_⟩
    · intro ids hids
      obtain ⟨j, hj⟩ := List.mem_iff_getElem?.mp hids
      obtain ⟨out, h1, rfl⟩ := hget j ids hj
      have := (hnd j (by have := (List.getElem?_eq_some_iff.mp hj).1; have := hact.1; omega)).1
      rw [h1] at this
      exact this
    · intro j g ids hg hj id hid v hv
      obtain ⟨out, h1, rfl⟩ := hget j ids hj
      obtain ⟨pr, hpr, rfl⟩ := List.mem_map.mp hid
      obtain ⟨ds, d, hds, hd, hlt⟩ := (hnd j (by have := (List.getElem?_eq_some_iff.mp hg).1; omega)).2 pr (by rw [h1]; exact hpr)
      simp only [List.getElem?_map, hg, Option.map_some, Option.some.injEq] at hds
      subst hds
      rw [List.getElem?_map, hv] at hd
      cases hd
      exact hlt
  refine ⟨S, Q2, ⟨htr, picked_passes p⟩, m2, q1.trans (Quiet.heap _ _), (frame_of_skel k2).trans f1, ?_, ?_⟩
  · rw [v2, backwardV_dims _ _ _ _ _ _ _ _ (by simp), passes_dims p]
  · rw [v2]
    unfold exampleV
    dsimp only
    rw [List.length_map, passes_views p, ← shapes_zip, hl1]
    rfl

/-- The passes of one example. -/
theorem example_spec {cfg : Config F} {fuel : Nat} {c : Int} {n : Network F} {lr : F} {ex : Example F} {i : Nat} {w w1 w2 : World F}
    {Q : List (State F)} {acts : List (List (Pair F))} {u : Unit} (m : Mem w n.hiddenLayers Q c) (hN : n.numberOfLayers = Q.length)
    (hs : LastSoft Q) (hfit : FitsV cfg.UseAdam (Q.map State.views))
    (h1 : forward cfg fuel c n.hiddenLayers n.sparsity 0 (i : Int) ex.Labels n.hiddenLayers.len 0 ex.Features w = .ok (acts, w1))
    (h2 : backward cfg c n.hiddenLayers n.numberOfLayers ex lr (i : Int) (ex.Features :: acts) n.numberOfLayers.toNat w1 = .ok (u, w2)) :
    ∃ S Q', TrainedOn n.sparsity Q i S ∧ Mem w2 n.hiddenLayers Q' c ∧ Quiet w w2 ∧ Q'.map State.frame = Q.map State.frame ∧
      (Q'.map State.views).map (List.map View.dims) = (Q.map State.views).map (List.map View.dims) ∧
      Q'.map State.views = exampleV cfg.UseAdam lr (Q.map State.softmax) i ex S (Q.map State.views) := by
  obtain ⟨S, Q', a, r⟩ := example_full m hN hs hfit h1 h2
  exact ⟨S, Q', a.1, r⟩

/-- The passes of all examples. -/
theorem trainLoop_full {cfg : Config F} {fuel : Nat} {c : Int} {n : Network F} {lr : F} :
    ∀ (es : List (Example F)) {i : Nat} {w w' : World F} {Q : List (State F)} {u : Unit} (_ : Mem w n.hiddenLayers Q c)
      (_ : n.numberOfLayers = Q.length) (_ : LastSoft Q) (_ : FitsV cfg.UseAdam (Q.map State.views))
      (_ : trainLoop cfg fuel c n lr es i w = .ok (u, w')),
    ∃ T Q', T.length = es.length ∧ (∀ (k : Nat) (S : List (List Int)), T[k]? = some S → TrainedOn n.sparsity Q (i + k) S ∧
        ∀ ex, es[k]? = some ex → Picked cfg n.sparsity Q ex S) ∧ Mem w' n.hiddenLayers Q' c ∧ Quiet w w' ∧
      Q'.map State.frame = Q.map State.frame ∧
      (Q'.map State.views).map (List.map View.dims) = (Q.map State.views).map (List.map View.dims) ∧
      Q'.map State.views = batchV cfg.UseAdam lr (Q.map State.softmax) i es T (Q.map State.views)
  | [], i, w, w', Q, u, m, _, _, _, hr => by
    cases hr
    exact ⟨[], Q, rfl, by simp, m, .refl w, rfl, rfl, rfl⟩
  | ex :: es, i, w, w', Q, u, m, hN, hs, hfit, hr => by
    unfold trainLoop at hr
    replace hr := M.bind_eq_ok hr
    obtain ⟨acts, w1, h1, hr⟩ := hr
    replace hr := M.bind_eq_ok hr
    obtain ⟨u1, w2, h2, hr⟩ := hr
    obtain ⟨S, Q1, a1, m1, q1, f1, d1, v1⟩ := example_full m hN hs hfit h1 h2
    obtain ⟨T, Q2, l2, a2, m2, q2, f2, d2, v2⟩ := trainLoop_full es m1 (by rw [hN, frame_length f1]) (lastSoft_frame f1 hs) (fits_of_dims d1 hfit) hr
    refine ⟨S :: T, Q2, by simp [l2], ?_, m2, q1.trans q2, f2.trans f1, d2.trans d1, ?_⟩
    · intro k S' hk
      cases k with
      | zero => cases hk; exact ⟨a1.1, fun e he => by cases he; exact a1.2⟩
      | succ k =>
        rw [show i + (k + 1) = i + 1 + k by omega]
        obtain ⟨b1, b2⟩ := a2 k S' (by simpa using hk)
        exact ⟨trainedOn_frame f1 d1 b1, fun e he => picked_frame f1 (b2 e (by simpa using he))⟩
    · rw [v2, v1, frame_softmax f1]; rfl

/-- The passes of all examples. -/
theorem trainLoop_spec {cfg : Config F} {fuel : Nat} {c : Int} {n : Network F} {lr : F}
    (es : List (Example F)) {i : Nat} {w w' : World F} {Q : List (State F)} {u : Unit} (m : Mem w n.hiddenLayers Q c)
      (hN : n.numberOfLayers = Q.length) (hs : LastSoft Q) (hfit : FitsV cfg.UseAdam (Q.map State.views))
      (hr : trainLoop cfg fuel c n lr es i w = .ok (u, w')) :
    ∃ T Q', T.length = es.length ∧ (∀ (k : Nat) (S : List (List Int)), T[k]? = some S → TrainedOn n.sparsity Q (i + k) S) ∧ Mem w' n.hiddenLayers Q' c ∧ Quiet w w' ∧
      Q'.map State.frame = Q.map State.frame ∧
      (Q'.map State.views).map (List.map View.dims) = (Q.map State.views).map (List.map View.dims) ∧
      Q'.map State.views = batchV cfg.UseAdam lr (Q.map State.softmax) i es T (Q.map State.views) := by
  obtain ⟨T, Q', l, a, r⟩ := trainLoop_full es m hN hs hfit hr
  exact ⟨T, Q', l, fun k S h => (a k S h).1, r⟩

end Goslide.Network
