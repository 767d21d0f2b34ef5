import Verif.Proofs.NetworkForward
import Verif.Proofs.NodeReady
import Verif.Spec.Train
/-
Back-propagation on a network in memory, for the owner.
-/
set_option linter.unusedSectionVars false
namespace Goslide.Network
open Goslide Node Lsh Configuration Spec.Node Spec.Network Layer Xcrepo
variable {F : Type} [GoFloat F]

/-- The layers `Q` in memory, owned by `c`. -/
structure Mem (w : World F) (hidden : Slice) (Q : List (State F)) (c : Int) : Prop where
  layers : Layers w hidden Q
  owned : OwnedBy w Q c

theorem skel_views {Q Q' : List (State F)} (h : Q'.map State.skel = Q.map State.skel) :
    Q'.length = Q.length := by simpa using congrArg List.length h

theorem skel_get {Q Q' : List (State F)} (h : Q'.map State.skel = Q.map State.skel) {j : Nat} {g : State F} (hg : Q[j]? = some g) :
    ∃ g', Q'[j]? = some g' ∧ g'.skel = g.skel := by
  have := congrArg (fun l => l[j]?) h
  simp only [List.getElem?_map, hg, Option.map_some] at this
  cases h' : Q'[j]? with
  | none => rw [h'] at this; cases this
  | some g' => rw [h'] at this; exact ⟨g', rfl, Option.some.inj this⟩

theorem skel_mem {Q Q' : List (State F)} (h : Q'.map State.skel = Q.map State.skel) {g' : State F} (hg : g' ∈ Q') :
    ∃ g, g ∈ Q ∧ g'.skel = g.skel := by
  obtain ⟨j, hj⟩ := List.mem_iff_getElem?.mp hg
  obtain ⟨g, hg, e⟩ := skel_get h.symm hj
  exact ⟨g, List.mem_of_getElem? hg, e.symm⟩

theorem skel_eqs {g g' : State F} (h : g'.skel = g.skel) : g'.ptr = g.ptr ∧ g'.obj = g.obj ∧
    g'.nodes.map Prod.fst = g.nodes.map Prod.fst ∧ g'.order = g.order ∧ g'.norm = g.norm ∧ g'.tables = g.tables := by
  unfold State.skel at h
  simpa only [Prod.mk.injEq] using h

theorem pairwise_skel {Q Q' : List (State F)} (h : Q'.map State.skel = Q.map State.skel)
    (hp : Q.Pairwise (fun a b => Apart a b ∧ Apart b a)) : Q'.Pairwise (fun a b => Apart a b ∧ Apart b a) := by
  rw [List.pairwise_iff_getElem] at hp ⊢
  intro i j hi hj hij
  have hl := skel_views h
  obtain ⟨a, ha, ea⟩ := skel_get h (List.getElem?_eq_getElem (l := Q) (i := i) (by omega))
  obtain ⟨b, hb, eb⟩ := skel_get h (List.getElem?_eq_getElem (l := Q) (i := j) (by omega))
  rw [List.getElem?_eq_getElem hi] at ha; cases ha
  rw [List.getElem?_eq_getElem hj] at hb; cases hb
  obtain ⟨a1, a2, -, -, -, -⟩ := skel_eqs ea
  obtain ⟨b1, b2, -, -, -, -⟩ := skel_eqs eb
  obtain ⟨h1, h2⟩ := hp i j (by omega) (by omega) hij
  constructor
  · exact ⟨by rw [a1, b1]; exact h1.ptr, by rw [a2, b2]; exact h1.nodes, by rw [a2, b2]; exact h1.order, by rw [a2, b2]; exact h1.norm,
      by rw [a2, b2]; exact h1.tables⟩
  · exact ⟨by rw [a1, b1]; exact h2.ptr, by rw [a2, b2]; exact h2.nodes, by rw [a2, b2]; exact h2.order, by rw [a2, b2]; exact h2.norm,
      by rw [a2, b2]; exact h2.tables⟩

/-- Only node data changed. -/
theorem Mem.heap {w : World F} {hidden : Slice} {Q Q' : List (State F)} {c : Int} (m : Mem w hidden Q c) {h' : Heap F}
    (ha : h'.nodeArrs = w.heap.nodeArrs) (hs : Q'.map State.skel = Q.map State.skel) (hg : GroupZ h' (Q'.flatMap State.nodes))
    (ho : OwnedZ h' (Q'.flatMap State.nodes) c) : Mem { w with heap := h' } hidden Q' c := by
  refine ⟨⟨?_, ?_, hg, pairwise_skel hs m.layers.apart⟩, ho, ?_⟩
  · have : Q'.map State.ptr = Q.map State.ptr := by
      have := congrArg (List.map Prod.fst) hs
      rw [List.map_map, List.map_map] at this
      exact this
    rw [this]; exact m.layers.ptrs
  · intro g' hg'
    obtain ⟨g, hg, e⟩ := skel_mem hs hg'
    obtain ⟨e1, e2, e3, e4, e5, e6⟩ := skel_eqs e
    have S := m.layers.stored g hg
    refine ⟨by rw [e1, e2]; exact S.obj, ?_, ?_, by rw [e2, e5]; exact S.norm, by rw [e2, e6]; exact S.tables⟩
    · rw [e2, e3]
      show readSlice h'.nodeArrs _ = _
      rw [ha]; exact S.nodes
    · rw [e2, e4]; exact S.order
  · intro g' hg'
    obtain ⟨g, hg, e⟩ := skel_mem hs hg'
    rw [(skel_eqs e).2.1]
    exact m.owned.2 g hg

theorem skel_set {Q : List (State F)} {j : Nat} {g g' : State F} (hg : Q[j]? = some g) (h : g'.skel = g.skel) :
    (Q.set j g').map State.skel = Q.map State.skel := map_set_self hg h

/-- An operation on one node. -/
theorem Mem.op {w : World F} {hidden : Slice} {Q : List (State F)} {c : Int} (m : Mem w hidden Q c) {j k : Nat} {g : State F}
    {p n : Ptr} {v v' : View F} (hg : Q[j]? = some g) (hk : g.nodes[k]? = some (p, v)) {h' : Heap F} (ho : Op w.heap h' p n c v') :
    n = p ∧ Mem { w with heap := h' } hidden (Q.set j { g with nodes := g.nodes.set k (p, v') }) c := by
  obtain ⟨R, r1, r2⟩ := flat_split hg State.nodes
  have g1 := m.layers.group.perm r2
  have o1 := m.owned.1.perm r2
  obtain ⟨a, b⟩ := GroupZ.op_at (z := g.nodes) (R := R) (k := k) g1 hk ho
  have b' := b o1
  obtain ⟨e, b1⟩ := b'
  dsimp only at e
  subst e
  refine ⟨rfl, m.heap ho.nodeArrs (skel_set hg ?_) (a.perm (r1 { g with nodes := g.nodes.set k (n, v') }).symm)
    (b1.perm (r1 { g with nodes := g.nodes.set k (n, v') }).symm)⟩
  unfold State.skel
  dsimp only
  rw [map_set_self (y := (n, v')) hk (f := Prod.fst) rfl]

theorem zip_views {α β : Type} {l : List α} {l' : List β} (h : l.length = l'.length) : (l.zip l').map Prod.snd = l' := by
  rw [List.map_snd_zip]; omega

theorem zip_ptrs {α β : Type} {l : List α} {l' : List β} (h : l.length = l'.length) : (l.zip l').map Prod.fst = l := by
  rw [List.map_fst_zip]; omega

/-- The memory in the form `backPropagate_run` needs. -/
theorem Mem.split {w : World F} {hidden : Slice} {Q : List (State F)} {c : Int} (m : Mem w hidden Q c) {j j' k : Nat} {g u : State F}
    {p : Ptr} {v : View F} (hg : Q[j]? = some g) (hu : Q[j']? = some u) (hj : j ≠ j') (hk : g.nodes[k]? = some (p, v)) :
    ∃ R, GroupZ w.heap ((p, v) :: (u.nodes ++ R)) ∧ OwnedZ w.heap ((p, v) :: (u.nodes ++ R)) c ∧
      ∀ x zs, (((Q.set j { g with nodes := g.nodes.set k x }).set j' { u with nodes := zs }).flatMap State.nodes).Perm
        (x :: (zs ++ R)) := by
  obtain ⟨R, r1, r2⟩ := flat_split2 hg hu hj State.nodes
  obtain ⟨S, s1, s2⟩ := split_at hk
  have hp : (Q.flatMap State.nodes).Perm ((p, v) :: (u.nodes ++ (S ++ R))) := by
    refine r2.trans ((s2.append_right _).trans ?_)
    exact (List.perm_append_comm_assoc _ _ _).cons _
  refine ⟨S ++ R, m.layers.group.perm hp, m.owned.1.perm hp, ?_⟩
  intro x zs
  refine (r1 _ _).trans (((s1 x).append_right _).trans ?_)
  exact (List.perm_append_comm_assoc _ _ _).cons _

/-- Back-propagation through one node of layer `j`; `j'` is the previous layer. -/
theorem Mem.back (cfg : Config F) {w : World F} {hidden : Slice} {Q : List (State F)} {c : Int} (m : Mem w hidden Q c) {j j' k : Nat} {g u : State F}
    {p : Ptr} {v : View F} (hg : Q[j]? = some g) (hu : Q[j']? = some u) (hj : j ≠ j') (hk : g.nodes[k]? = some (p, v))
    {i : Nat} {s : Slot F} (hs : v.train[i]? = some s) (ha : s.active = true) (lr : F) (pairs : List (Pair F))
    (hr : Ready cfg.UseAdam v.params u.views i pairs) :
    ∃ h' zs, backPropagate cfg p c u.obj.nodes pairs lr i w.heap = .ok (p, h') ∧ zs.map Prod.fst = u.nodes.map Prod.fst ∧
      zs.map Prod.snd = (backProp cfg.UseAdam lr s.delta i v u.views pairs).2 ∧
      Mem { w with heap := h' } hidden ((Q.set j { g with nodes := g.nodes.set k (p, (backProp cfg.UseAdam lr s.delta i v u.views pairs).1) }).set j'
        { u with nodes := zs }) c := by
  obtain ⟨R, g1, o1, hp⟩ := m.split hg hu hj hk
  have g2 : Group w.heap (p :: (u.nodes.map Prod.fst ++ R.map Prod.fst)) (v :: (u.views ++ R.map Prod.snd)) := by
    simpa [GroupZ, State.views] using g1
  have o2 : AllOwned w.heap (p :: (u.nodes.map Prod.fst ++ R.map Prod.fst)) c := by simpa [OwnedZ] using o1
  have hlen : (u.nodes.map Prod.fst).length = u.views.length := by simp [State.views]
  have hpr := (m.layers.get hu).nodes
  obtain ⟨n, h', ps', r, g3, l3, p3, o3⟩ := backPropagate_run cfg g2 hlen hpr c hs ha lr pairs hr
  obtain ⟨rfl, rfl, o4, ha4⟩ := o3 o2
  have e1 := zip_ptrs l3
  have e2 := zip_views l3
  generalize (backProp cfg.UseAdam lr s.delta i v u.views pairs).1 = v' at *
  generalize (backProp cfg.UseAdam lr s.delta i v u.views pairs).2 = us' at *
  refine ⟨h', (u.nodes.map Prod.fst).zip us', r, e1, e2, ?_⟩
  have hskel : ((Q.set j { g with nodes := g.nodes.set k (n, v') }).set j' { u with nodes := (u.nodes.map Prod.fst).zip us' }).map State.skel =
      Q.map State.skel := by
    rw [skel_set (g := u) (by rw [List.getElem?_set_ne hj]; exact hu), skel_set hg]
    · unfold State.skel
      dsimp only
      rw [map_set_self (y := (n, v')) hk (f := Prod.fst) rfl]
    · unfold State.skel
      dsimp only
      rw [e1]
  refine m.heap ha4 hskel (GroupZ.perm ?_ (hp _ _).symm) (OwnedZ.perm ?_ (hp _ _).symm)
  · unfold GroupZ
    rw [List.map_cons, List.map_append, List.map_cons, List.map_append, e1, e2]
    exact g3
  · unfold OwnedZ
    rw [List.map_cons, List.map_append, e1]
    exact o4

/-! ### Shapes -/

theorem addGrad_dims (adam : Bool) (lr g : F) (k : Nat) (P : Params F) (tr : List (Slot F)) :
    View.dims ⟨addGrad adam lr g k P, tr⟩ = View.dims ⟨P, tr⟩ := by
  unfold addGrad View.dims
  split <;> simp

theorem biasGrad_dims (adam : Bool) (f : F → F → F) (d : F) (P : Params F) (tr : List (Slot F)) :
    View.dims ⟨biasGrad adam f d P, tr⟩ = View.dims ⟨P, tr⟩ := by
  unfold biasGrad View.dims
  split <;> rfl

theorem setSlot_dims (v : View F) (i : Nat) (f : Slot F → Slot F) : (v.setSlot i f).dims = v.dims := by
  unfold View.setSlot View.dims; simp

theorem modify_map {α β : Type} (l : List α) (k : Nat) (f : α → α) (p : α → β) (h : ∀ a, p (f a) = p a) : (l.modify k f).map p = l.map p := by
  apply List.ext_getElem?
  intro j
  simp only [List.getElem?_map, List.getElem?_modify]
  split
  · cases l[j]? <;> simp [h]
  · cases l[j]? <;> simp

theorem set_train_dims (P : Params F) (tr : List (Slot F)) (i : Nat) (s : Slot F) : View.dims ⟨P, tr.set i s⟩ = View.dims ⟨P, tr⟩ := by
  unfold View.dims; simp

theorem backFold_dims (adam : Bool) (lr d : F) (i : Nat) (tr : List (Slot F)) : ∀ (pairs : List (Pair F)) (st : Params F × List (View F)),
    View.dims ⟨(pairs.foldl (backStep adam lr d i) st).1, tr⟩ = View.dims ⟨st.1, tr⟩ ∧
    (pairs.foldl (backStep adam lr d i) st).2.map View.dims = st.2.map View.dims
  | [], st => ⟨rfl, rfl⟩
  | x :: l, st => by
    obtain ⟨a, b⟩ := backFold_dims adam lr d i tr l (backStep adam lr d i st x)
    rw [List.foldl_cons]
    refine ⟨a.trans (addGrad_dims _ _ _ _ _ _), b.trans ?_⟩
    exact modify_map _ _ _ _ (fun v => setSlot_dims v _ _)

theorem backProp_dims (adam : Bool) (lr d : F) (i : Nat) (v : View F) (us : List (View F)) (pairs : List (Pair F)) :
    (backProp adam lr d i v us pairs).1.dims = v.dims ∧ (backProp adam lr d i v us pairs).2.map View.dims = us.map View.dims := by
  unfold backProp
  dsimp only
  rw [biasGrad_dims, set_train_dims]
  exact backFold_dims adam lr d i v.train pairs (v.params, us)

theorem firstGrads_dims (adam : Bool) (lr d : F) (tr : List (Slot F)) : ∀ (pairs : List (Pair F)) (P : Params F),
    View.dims ⟨firstGrads adam lr d P pairs, tr⟩ = View.dims ⟨P, tr⟩
  | [], P => rfl
  | x :: l, P => by
    have := firstGrads_dims adam lr d tr l (addGrad adam lr (GoFloat.mul d x.Value) x.Index.toNat P)
    unfold firstGrads at this ⊢
    rw [List.foldl_cons, this]
    exact addGrad_dims _ _ _ _ _ _

theorem softView_dims (i : Nat) (soft : Option (F × List Int)) (v : View F) : (softView i soft v).dims = v.dims := by
  unfold softView
  split
  · rfl
  · exact setSlot_dims _ _ _

theorem softView_params (i : Nat) (soft : Option (F × List Int)) (v : View F) : (softView i soft v).params = v.params := by
  unfold softView
  split <;> rfl

theorem backView_dims (adam : Bool) (lr : F) (i : Nat) (soft : Option (F × List Int)) (first : Bool) (inputs : List (Pair F)) (v : View F)
    (us : List (View F)) : (backView adam lr i soft first inputs v us).1.dims = v.dims ∧
      (backView adam lr i soft first inputs v us).2.map View.dims = us.map View.dims := by
  unfold backView
  split
  · refine ⟨?_, rfl⟩
    unfold backPropFirst
    dsimp only
    rw [biasGrad_dims, set_train_dims, firstGrads_dims]
    exact softView_dims i soft v
  · obtain ⟨a, b⟩ := backProp_dims adam lr (deltaAt (softView i soft v) i) i (softView i soft v) us inputs
    exact ⟨a.trans (softView_dims i soft v), b⟩

theorem map_set_of {α β : Type} {l : List α} {j : Nat} {x y : α} (hx : l[j]? = some x) {f : α → β} (h : f y = f x) :
    (l.set j y).map f = l.map f := map_set_self hx h

theorem backAt_dims (adam : Bool) (lr : F) (i : Nat) (soft : Option (F × List Int)) (first : Bool) (inputs : List (Pair F))
    (st : List (View F) × List (View F)) (pair : Pair F) :
    (backAt adam lr i soft first inputs st pair).1.map View.dims = st.1.map View.dims ∧
    (backAt adam lr i soft first inputs st pair).2.map View.dims = st.2.map View.dims := by
  unfold backAt
  cases hv : st.1[pair.Index.toNat]? with
  | none => exact ⟨rfl, rfl⟩
  | some v =>
    obtain ⟨a, b⟩ := backView_dims adam lr i soft first inputs v st.2
    exact ⟨map_set_of hv a, b⟩

theorem backLayerV_dims (adam : Bool) (lr : F) (i : Nat) (soft : Option (F × List Int)) (first : Bool) (inputs : List (Pair F)) :
    ∀ (pairs : List (Pair F)) (st : List (View F) × List (View F)),
    (backLayerV adam lr i soft first inputs pairs st).1.map View.dims = st.1.map View.dims ∧
    (backLayerV adam lr i soft first inputs pairs st).2.map View.dims = st.2.map View.dims
  | [], st => ⟨rfl, rfl⟩
  | x :: l, st => by
    obtain ⟨a, b⟩ := backLayerV_dims adam lr i soft first inputs l (backAt adam lr i soft first inputs st x)
    obtain ⟨c, d⟩ := backAt_dims adam lr i soft first inputs st x
    exact ⟨a.trans c, b.trans d⟩

/-! ### Pairs of layers -/

theorem backAt_other {adam : Bool} {lr : F} {i : Nat} {soft : Option (F × List Int)} {first : Bool} {inputs : List (Pair F)}
    {st : List (View F) × List (View F)} {pair : Pair F} {k : Nat} (h : k ≠ pair.Index.toNat) :
    (backAt adam lr i soft first inputs st pair).1[k]? = st.1[k]? := by
  unfold backAt
  split
  · rfl
  · dsimp only
    rw [List.getElem?_set_ne (by omega)]

theorem backAt_first {adam : Bool} {lr : F} {i : Nat} {soft : Option (F × List Int)} {inputs : List (Pair F)}
    (st : List (View F) × List (View F)) (pair : Pair F) : (backAt adam lr i soft true inputs st pair).2 = st.2 := by
  unfold backAt
  cases st.1[pair.Index.toNat]? with
  | none => rfl
  | some v => rfl

theorem backLayerV_first {adam : Bool} {lr : F} {i : Nat} {soft : Option (F × List Int)} {inputs : List (Pair F)} :
    ∀ (pairs : List (Pair F)) (st : List (View F) × List (View F)), (backLayerV adam lr i soft true inputs pairs st).2 = st.2
  | [], _ => rfl
  | x :: l, st => (backLayerV_first l _).trans (backAt_first st x)

theorem setPair_length (V : List (List (View F))) (n : Nat) (r : List (View F) × List (View F)) : (setPair V n r).length = V.length := by
  unfold setPair; split <;> simp

theorem getPair_setPair {V : List (List (View F))} {n : Nat} {r : List (View F) × List (View F)} (hn : n < V.length)
    (h0 : n = 0 → r.2 = []) : getPair (setPair V n r) n = r := by
  unfold getPair setPair
  by_cases h : n = 0
  · subst h
    rw [if_pos rfl, if_pos rfl, List.getElem?_set_self hn, Option.getD_some, ← h0 rfl]
  · rw [if_neg h, if_neg h, List.getElem?_set_ne (by omega), List.getElem?_set_self hn, List.getElem?_set_self (by simp; omega)]
    rfl

theorem setPair_setPair (V : List (List (View F))) (n : Nat) (r r' : List (View F) × List (View F)) :
    setPair (setPair V n r) n r' = setPair V n r' := by
  unfold setPair
  by_cases h : n = 0
  · simp [h]
  · simp only [if_neg h]
    rw [List.set_comm _ _ (show n - 1 ≠ n by omega), List.set_set, List.set_set]

theorem setPair_getPair {V : List (List (View F))} {n : Nat} (hn : n < V.length) : setPair V n (getPair V n) = V := by
  unfold getPair setPair
  by_cases h : n = 0
  · subst h
    rw [if_pos rfl, List.getElem?_eq_getElem hn, Option.getD_some, List.set_getElem_self]
  · simp only [if_neg h]
    rw [List.getElem?_eq_getElem hn, Option.getD_some, List.set_getElem_self, List.getElem?_eq_getElem (show n - 1 < V.length by omega),
      Option.getD_some, List.set_getElem_self]

theorem setPair_dims {V : List (List (View F))} {n : Nat} {r : List (View F) × List (View F)} (hn : n < V.length)
    (h1 : r.1.map View.dims = (getPair V n).1.map View.dims) (h2 : r.2.map View.dims = (getPair V n).2.map View.dims) :
    (setPair V n r).map (List.map View.dims) = V.map (List.map View.dims) := by
  unfold getPair at h1 h2
  unfold setPair
  rw [List.getElem?_eq_getElem hn] at h1
  by_cases h : n = 0
  · rw [if_pos h]
    exact map_set_of (List.getElem?_eq_getElem hn) h1
  · rw [if_neg h] at h2 ⊢
    rw [List.getElem?_eq_getElem (show n - 1 < V.length by omega)] at h2
    rw [map_set_of (x := V[n - 1]) (by rw [List.getElem?_set_ne (by omega), List.getElem?_eq_getElem (by omega)]) h2]
    exact map_set_of (List.getElem?_eq_getElem hn) h1

end Goslide.Network
