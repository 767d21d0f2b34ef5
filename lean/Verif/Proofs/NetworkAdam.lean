import Verif.Proofs.NetworkBackLayer
/-
The Adam update of a node, for the owner.
-/
set_option linter.unusedSectionVars false
namespace Goslide.Network
open Goslide Node Lsh Configuration Spec.Node Spec.Network Layer Xcrepo
variable {F : Type} [GoFloat F]

/-- A node that `c` owns, with its base. -/
structure Own (h : Heap F) (p : Ptr) (c : Int) (v : View F) (b : BaseNode F) : Prop where
  parts : ∃ nd qs, Parts h p v nd b qs
  inner : Inner h p
  owned : Owned h p c

theorem own_of {h : Heap F} {p : Ptr} {c : Int} {v : View F} (hv : Handle h p v) (hin : Inner h p) (ho : Owned h p c) : ∃ b, Own h p c v b := by
  obtain ⟨nd, b, qs, hp⟩ := hv.parts
  exact ⟨b, ⟨nd, qs, hp⟩, hin, ho⟩

theorem Own.handle {h : Heap F} {p : Ptr} {c : Int} {v : View F} {b : BaseNode F} (o : Own h p c v b) : Handle h p v := by
  obtain ⟨nd, qs, hp⟩ := o.parts; exact hp.handle

theorem Own.floats {h : Heap F} {p : Ptr} {c : Int} {v v' : View F} {b : BaseNode F} (o : Own h p c v b) {fs : List (List F)}
    (op : Op h { h with floats := fs } p p c v') : Own { h with floats := fs } p c v' b := by
  obtain ⟨nd, qs, hp⟩ := o.parts
  obtain ⟨nd', b', qs', hp'⟩ := op.result.parts
  have e1 : some nd = some nd' := hp.node.symm.trans hp'.node
  cases e1
  have e2 : some b = some b' := hp.base.symm.trans hp'.base
  cases e2
  exact ⟨⟨nd, qs', hp'⟩, op.inner o.inner, (op.same o.owned).2⟩

/-- `s[i] = x` through a setter. -/
theorem setVec_own (k : Vec) {h : Heap F} {p : Ptr} {c : Int} {v : View F} {b : BaseNode F} (o : Own h p c v b) {i : Nat}
    (hi : i < (k.get v.params).length) (x : F) :
    ∃ fs, setVec k p c i x h = .ok (p, { h with floats := fs }) ∧
      Op h { h with floats := fs } p p c { v with params := k.put v.params ((k.get v.params).set i x) } := by
  obtain ⟨n, h0, h1, nd, b1, qs, hr0, hr1, hc, hp, hb⟩ := cow_node_base o.handle c
  obtain ⟨rfl, rfl⟩ := hc.same o.owned
  obtain ⟨fs, hw, hr2, _, _⟩ := setFloat_run (k.read hp.par) hi x
  refine ⟨fs, ?_, (cow_vec o.handle hc hp (k.mem b1) (k.read hp.par) hi hw (k.write hp (hc.inner o.inner) hi hw) (k.put_batch _ _)).1⟩
  unfold setVec
  rw [M.bind_ok hr0, M.bind_ok hr1, M.bind_ok (base_ok hp.base), M.bind_ok hr2]
  rfl

theorem addVec_own (k : Vec) {h : Heap F} {p : Ptr} {c : Int} {v : View F} {b : BaseNode F} (o : Own h p c v b) {i : Nat}
    (hi : i < (k.get v.params).length) (x : F) :
    ∃ fs, addFloat (k.slice b) i x h = .ok ((), { h with floats := fs }) ∧
      Op h { h with floats := fs } p p c { v with params := k.put v.params ((k.get v.params).modify i (fun y => GoFloat.add y x)) } := by
  obtain ⟨nd, qs, hp⟩ := o.parts
  exact addVec_run k hp o.inner (o.owned.1 nd hp.node).1 hi x

/-- The update of one weight. -/
def cell (lr : F) (d : Nat) (P : Params F) : Params F :=
  let m := adamMom ((P.mom[d]?).getD GoFloat.zero) ((P.t[d]?).getD GoFloat.zero)
  let v := adamVel ((P.vel[d]?).getD GoFloat.zero) ((P.t[d]?).getD GoFloat.zero)
  { P with
    weights := P.weights.modify d (fun w => adamWeight lr w m v)
    mirrorWeights := P.weights.modify d (fun w => adamWeight lr w m v)
    mom := P.mom.set d m
    vel := P.vel.set d v
    t := P.t.set d GoFloat.zero }

theorem adamCell_run {h : Heap F} {p : Ptr} {c : Int} {v : View F} {b : BaseNode F} (o : Own h p c v b) (lr : F) {d : Nat}
    (h1 : d < v.params.weights.length) (h2 : d < v.params.mom.length) (h3 : d < v.params.vel.length) (h4 : d < v.params.t.length) :
    ∃ fs, adamCell c lr b.weights p d h = .ok (p, { h with floats := fs }) ∧
      Op h { h with floats := fs } p p c { v with params := cell lr d v.params } := by
  unfold adamCell
  rw [M.bind_ok (getT_run o.handle (List.getElem?_eq_getElem h4)), M.bind_ok (getAdamAvgMom_run o.handle (List.getElem?_eq_getElem h2)),
    M.bind_ok (getAdamAvgVel_run o.handle (List.getElem?_eq_getElem h3))]
  obtain ⟨f1, r1, o1⟩ : ∃ fs, addFloat b.weights d _ h = _ ∧ _ := addVec_own .weights o h1 (adamStep lr (nextMom v.params.mom[d] v.params.t[d]) (nextVel v.params.vel[d] v.params.t[d]))
  have O1 := o.floats o1
  obtain ⟨f2, r2, o2⟩ := setVec_own .mom O1 (i := d) h2 (nextMom v.params.mom[d] v.params.t[d])
  have O2 := O1.floats o2
  obtain ⟨f3, r3, o3⟩ := setVec_own .vel O2 (i := d) h3 (nextVel v.params.vel[d] v.params.t[d])
  have O3 := O2.floats o3
  obtain ⟨f4, r4, o4⟩ := setVec_own .t O3 (i := d) h4 GoFloat.zero
  refine ⟨f4, ?_, ?_⟩
  · rw [M.bind_ok r1, setAdamAvgMom_eq, M.bind_ok r2, setAdamAvgVel_eq, M.bind_ok r3, setT_eq]
    exact r4
  · have := ((o1.trans o2).trans o3).trans o4
    unfold cell
    simp only [List.getElem?_eq_getElem h2, List.getElem?_eq_getElem h3, List.getElem?_eq_getElem h4, Option.getD_some]
    exact this

theorem cell_lengths (lr : F) (d : Nat) (P : Params F) : (cell lr d P).weights.length = P.weights.length ∧ (cell lr d P).mom.length = P.mom.length ∧
    (cell lr d P).vel.length = P.vel.length ∧ (cell lr d P).t.length = P.t.length := by
  unfold cell; simp

theorem adamCells_run {c : Int} {p : Ptr} {b : BaseNode F} (lr : F) : ∀ (ds : List Nat) {h : Heap F} {v : View F} (_ : Own h p c v b)
    (_ : ∀ d ∈ ds, d < v.params.weights.length ∧ d < v.params.mom.length ∧ d < v.params.vel.length ∧ d < v.params.t.length),
    ∃ fs, adamCells c lr b.weights (ds.map (fun (i : Nat) => (i : Int))) p h = .ok (p, { h with floats := fs }) ∧
      Op h { h with floats := fs } p p c { v with params := ds.foldl (fun P d => cell lr d P) v.params }
  | [], h, v, o, _ => ⟨h.floats, rfl, Op.refl o.handle⟩
  | d :: ds, h, v, o, hd => by
    obtain ⟨h1, h2, h3, h4⟩ := hd d (by simp)
    obtain ⟨f1, r1, o1⟩ := adamCell_run o lr h1 h2 h3 h4
    have O1 := o.floats o1
    obtain ⟨e1, e2, e3, e4⟩ := cell_lengths lr d v.params
    obtain ⟨f2, r2, o2⟩ := adamCells_run lr ds O1 (by
      intro d' hd'
      dsimp only
      rw [e1, e2, e3, e4]
      exact hd d' (List.mem_cons_of_mem _ hd'))
    refine ⟨f2, ?_, o1.trans o2⟩
    rw [List.map_cons, adamCells, M.bind_ok r1]
    exact r2

/-- The cells `0, …, k-1` updated. -/
theorem cells_fold (lr : F) (P : Params F) (hm : P.mom.length = P.weights.length) (hv : P.vel.length = P.weights.length)
    (ht : P.t.length = P.weights.length) : ∀ (k : Nat), k ≤ P.weights.length →
    let P' := (List.range k).foldl (fun P d => cell lr d P) P
    (∀ j, P'.weights[j]? = if j < k then
        (P.weights[j]?).map (fun w => adamWeight lr w (adamMom ((P.mom[j]?).getD GoFloat.zero) ((P.t[j]?).getD GoFloat.zero))
          (adamVel ((P.vel[j]?).getD GoFloat.zero) ((P.t[j]?).getD GoFloat.zero))) else P.weights[j]?) ∧
    (∀ j, P'.mom[j]? = if j < k then some (adamMom ((P.mom[j]?).getD GoFloat.zero) ((P.t[j]?).getD GoFloat.zero)) else P.mom[j]?) ∧
    (∀ j, P'.vel[j]? = if j < k then some (adamVel ((P.vel[j]?).getD GoFloat.zero) ((P.t[j]?).getD GoFloat.zero)) else P.vel[j]?) ∧
    (∀ j, P'.t[j]? = if j < k then some GoFloat.zero else P.t[j]?) ∧
    (0 < k → P'.mirrorWeights = P'.weights) ∧ P' = { P with weights := P'.weights, mirrorWeights := P'.mirrorWeights, mom := P'.mom, vel := P'.vel, t := P'.t }
  | 0, _ => by simp
  | k + 1, hk => by
    intro P'
    have hP' : P' = cell lr k ((List.range k).foldl (fun P d => cell lr d P) P) := by
      show (List.range (k + 1)).foldl _ P = _
      rw [List.range_succ, List.foldl_append]; rfl
    obtain ⟨a1, a2, a3, a4, a5, a6⟩ := cells_fold lr P hm hv ht k (by omega)
    generalize (List.range k).foldl (fun P d => cell lr d P) P = P1 at *
    have l2 : k < P1.mom.length := by
      have := a2 k; rw [if_neg (by omega), List.getElem?_eq_getElem (l := P.mom) (by omega)] at this
      exact (List.getElem?_eq_some_iff.mp this).1
    have l3 : k < P1.vel.length := by
      have := a3 k; rw [if_neg (by omega), List.getElem?_eq_getElem (l := P.vel) (by omega)] at this
      exact (List.getElem?_eq_some_iff.mp this).1
    have l4 : k < P1.t.length := by
      have := a4 k; rw [if_neg (by omega), List.getElem?_eq_getElem (l := P.t) (by omega)] at this
      exact (List.getElem?_eq_some_iff.mp this).1
    have b2 := a2 k
    have b3 := a3 k
    have b4 := a4 k
    rw [if_neg (by omega)] at b2 b3 b4
    have c1 : P'.weights = P1.weights.modify k (fun w => adamWeight lr w (adamMom ((P.mom[k]?).getD GoFloat.zero) ((P.t[k]?).getD GoFloat.zero))
        (adamVel ((P.vel[k]?).getD GoFloat.zero) ((P.t[k]?).getD GoFloat.zero))) := by
      rw [hP']; unfold cell; dsimp only; rw [b2, b3, b4]
    have c2 : P'.mom = P1.mom.set k (adamMom ((P.mom[k]?).getD GoFloat.zero) ((P.t[k]?).getD GoFloat.zero)) := by
      rw [hP']; unfold cell; dsimp only; rw [b2, b4]
    have c3 : P'.vel = P1.vel.set k (adamVel ((P.vel[k]?).getD GoFloat.zero) ((P.t[k]?).getD GoFloat.zero)) := by
      rw [hP']; unfold cell; dsimp only; rw [b3, b4]
    have c4 : P'.t = P1.t.set k GoFloat.zero := by rw [hP']; rfl
    refine ⟨?_, ?_, ?_, ?_, ?_, ?_⟩
    · intro j
      rw [c1, List.getElem?_modify, a1]
      by_cases e : k = j
      · subst e; simp
      · by_cases h : j < k
        · rw [if_pos h, if_pos (by omega)]; simp [e]
        · rw [if_neg h, if_neg (by omega)]; simp [e]
    · intro j
      rw [c2, List.getElem?_set, a2]
      by_cases e : k = j
      · subst e; simp [l2]
      · by_cases h : j < k
        · rw [if_neg e, if_pos h, if_pos (by omega)]
        · rw [if_neg e, if_neg h, if_neg (by omega)]
    · intro j
      rw [c3, List.getElem?_set, a3]
      by_cases e : k = j
      · subst e; simp [l3]
      · by_cases h : j < k
        · rw [if_neg e, if_pos h, if_pos (by omega)]
        · rw [if_neg e, if_neg h, if_neg (by omega)]
    · intro j
      rw [c4, List.getElem?_set, a4]
      by_cases e : k = j
      · subst e; simp [l4]
      · by_cases h : j < k
        · rw [if_neg e, if_pos h, if_pos (by omega)]
        · rw [if_neg e, if_neg h, if_neg (by omega)]
    · intro _
      rw [hP']; rfl
    · rw [hP', a6]; rfl

/-- All cells updated. -/
theorem cells_all (lr : F) (P : Params F) (hm : P.mom.length = P.weights.length) (hv : P.vel.length = P.weights.length)
    (ht : P.t.length = P.weights.length) (hmw : P.mirrorWeights = P.weights) :
    (List.range P.t.length).foldl (fun P d => cell lr d P) P =
      { P with
        weights := List.zipWith (fun w x => adamWeight lr w x.1 x.2) P.weights ((List.zipWith adamMom P.mom P.t).zip (List.zipWith adamVel P.vel P.t))
        mirrorWeights := List.zipWith (fun w x => adamWeight lr w x.1 x.2) P.weights ((List.zipWith adamMom P.mom P.t).zip (List.zipWith adamVel P.vel P.t))
        mom := List.zipWith adamMom P.mom P.t
        vel := List.zipWith adamVel P.vel P.t
        t := List.replicate P.t.length GoFloat.zero } := by
  obtain ⟨a1, a2, a3, a4, a5, a6⟩ := cells_fold lr P hm hv ht P.t.length (by omega)
  have hmir : ((List.range P.t.length).foldl (fun P d => cell lr d P) P).mirrorWeights = ((List.range P.t.length).foldl (fun P d => cell lr d P) P).weights := by
    by_cases h : 0 < P.t.length
    · exact a5 h
    · have : P.t.length = 0 := by omega
      rw [this]; exact hmw
  generalize (List.range P.t.length).foldl (fun P d => cell lr d P) P = P1 at *
  have e2 : P1.mom = List.zipWith adamMom P.mom P.t := by
    apply List.ext_getElem?
    intro j
    rw [a2, List.getElem?_zipWith]
    by_cases h : j < P.t.length
    · rw [if_pos h, List.getElem?_eq_getElem (l := P.mom) (by omega), List.getElem?_eq_getElem h]; rfl
    · rw [if_neg h, List.getElem?_eq_none (l := P.mom) (by omega)]
  have e3 : P1.vel = List.zipWith adamVel P.vel P.t := by
    apply List.ext_getElem?
    intro j
    rw [a3, List.getElem?_zipWith]
    by_cases h : j < P.t.length
    · rw [if_pos h, List.getElem?_eq_getElem (l := P.vel) (by omega), List.getElem?_eq_getElem h]; rfl
    · rw [if_neg h, List.getElem?_eq_none (l := P.vel) (by omega)]
  have e4 : P1.t = List.replicate P.t.length GoFloat.zero := by
    apply List.ext_getElem?
    intro j
    rw [a4, List.getElem?_replicate]
    by_cases h : j < P.t.length
    · rw [if_pos h, if_pos h]
    · rw [if_neg h, if_neg h, List.getElem?_eq_none (by omega)]
  have e1 : P1.weights = List.zipWith (fun w x => adamWeight lr w x.1 x.2) P.weights ((List.zipWith adamMom P.mom P.t).zip (List.zipWith adamVel P.vel P.t)) := by
    apply List.ext_getElem?
    intro j
    rw [a1, List.getElem?_zipWith]
    by_cases h : j < P.t.length
    · have g1 := List.getElem?_eq_getElem (l := P.weights) (i := j) (by omega)
      have g2 := List.getElem?_eq_getElem (l := P.mom) (i := j) (by omega)
      have g3 := List.getElem?_eq_getElem (l := P.vel) (i := j) (by omega)
      have g4 := List.getElem?_eq_getElem (l := P.t) (i := j) h
      have g5 : ((List.zipWith adamMom P.mom P.t).zip (List.zipWith adamVel P.vel P.t))[j]? = some (adamMom P.mom[j] P.t[j], adamVel P.vel[j] P.t[j]) := by
        unfold List.zip
        rw [List.getElem?_zipWith, List.getElem?_zipWith, List.getElem?_zipWith, g2, g3, g4]
      rw [if_pos h, g5, g1, g2, g3, g4]
      rfl
    · rw [if_neg h, List.getElem?_eq_none (l := P.weights) (by omega)]
  rw [a6, hmir, e1, e2, e3, e4]

/-- The vectors of a node have the same length. -/
def Fit (adam : Bool) (P : Params F) : Prop :=
  adam = true → P.mom.length = P.weights.length ∧ P.vel.length = P.weights.length ∧ P.t.length = P.weights.length

theorem setScalar_own {h : Heap F} {p : Ptr} {c : Int} {v : View F} {b : BaseNode F} (o : Own h p c v b) (f : BaseNode F → BaseNode F)
    (g : Params F → Params F) (hfg : ∀ fs b P, baseParams fs b = some P → baseParams fs (f b) = some (g P))
    (hcow : ∀ b, (f b).cowId = b.cowId) (hvec : ∀ b, vecs (f b) = vecs b) (hbatch : ∀ P, (g P).batch = P.batch) :
    ∃ h', setScalar p c f h = .ok (p, h') ∧ Op h h' p p c { v with params := g v.params } ∧ h'.floats = h.floats ∧
      ∃ b', Own h' p c { v with params := g v.params } b' := by
  obtain ⟨n, h', r, op, -, hf, -⟩ := setScalar_run o.handle c f g hfg hcow hvec hbatch
  obtain ⟨rfl, ho⟩ := op.same o.owned
  exact ⟨h', r, op, hf, own_of op.result (op.inner o.inner) ho⟩

theorem adamBias_run {h : Heap F} {p : Ptr} {c : Int} {v : View F} {b : BaseNode F} (o : Own h p c v b) (lr : F) :
    ∃ h', adamBias c lr p h = .ok (p, h') ∧ h'.floats = h.floats ∧ Op h h' p p c { v with params := { v.params with
      momBias := adamMom v.params.momBias v.params.tBias
      velBias := adamVel v.params.velBias v.params.tBias
      bias := adamWeight lr v.params.bias (adamMom v.params.momBias v.params.tBias) (adamVel v.params.velBias v.params.tBias)
      tBias := GoFloat.zero } } := by
  unfold adamBias
  rw [M.bind_ok (getAdamAvgMomBias_run o.handle), M.bind_ok (getTBias_run o.handle)]
  obtain ⟨h1, r1, o1, f1, b1, O1⟩ := setScalar_own o (fun b => { b with adamAvgMomBias := nextMom v.params.momBias v.params.tBias })
    (fun P => { P with momBias := nextMom v.params.momBias v.params.tBias })
    (fun fs b P hP => by
      rw [baseParams_iff] at hP ⊢
      obtain ⟨a1, a2, a3, a4, a5, a6, a7, a8, a9, a10, a11, a12, a13⟩ := hP
      exact ⟨a1, a2, a3, a4, a5, a6, a7, a8, a9, a10, a11, rfl, a13⟩)
    (fun _ => rfl) (fun _ => rfl) (fun _ => rfl)
  rw [show setAdamAvgMomBias p c (nextMom v.params.momBias v.params.tBias) = setScalar p c _ from rfl, M.bind_ok r1,
    M.bind_ok (getAdamAvgVelBias_run O1.handle), M.bind_ok (getTBias_run O1.handle)]
  obtain ⟨h2, r2, o2, f2, b2, O2⟩ := setScalar_own O1 (fun b => { b with adamAvgVelBias := nextVel v.params.velBias v.params.tBias })
    (fun P => { P with velBias := nextVel v.params.velBias v.params.tBias })
    (fun fs b P hP => by
      rw [baseParams_iff] at hP ⊢
      obtain ⟨a1, a2, a3, a4, a5, a6, a7, a8, a9, a10, a11, a12, a13⟩ := hP
      exact ⟨a1, a2, a3, a4, a5, a6, a7, a8, a9, a10, a11, a12, rfl⟩)
    (fun _ => rfl) (fun _ => rfl) (fun _ => rfl)
  dsimp only
  rw [show setAdamAvgVelBias p c (nextVel v.params.velBias v.params.tBias) = setScalar p c _ from rfl, M.bind_ok r2,
    M.bind_ok (getBias_run O2.handle), M.bind_ok (getAdamAvgMomBias_run O2.handle), M.bind_ok (getAdamAvgVelBias_run O2.handle)]
  dsimp only
  generalize hnb : GoFloat.add v.params.bias (adamStep lr (nextMom v.params.momBias v.params.tBias) (nextVel v.params.velBias v.params.tBias)) = nb
  obtain ⟨h3, r3, o3, f3, b3, O3⟩ := setScalar_own O2 (fun b => { b with bias := nb }) (fun P => { P with bias := nb })
    (fun fs b P hP => by
      rw [baseParams_iff] at hP ⊢
      obtain ⟨a1, a2, a3, a4, a5, a6, a7, a8, a9, a10, a11, a12, a13⟩ := hP
      exact ⟨a1, a2, a3, a4, a5, a6, a7, a8, rfl, a10, a11, a12, a13⟩)
    (fun _ => rfl) (fun _ => rfl) (fun _ => rfl)
  rw [show setBias p c nb = setScalar p c _ from rfl, M.bind_ok r3]
  obtain ⟨h4, r4, o4, f4, b4, O4⟩ := setScalar_own O3 (fun b => { b with tBias := GoFloat.zero }) (fun P => { P with tBias := GoFloat.zero })
    (fun fs b P hP => by
      rw [baseParams_iff] at hP ⊢
      obtain ⟨a1, a2, a3, a4, a5, a6, a7, a8, a9, a10, a11, a12, a13⟩ := hP
      exact ⟨a1, a2, a3, a4, a5, a6, a7, a8, a9, a10, rfl, a12, a13⟩)
    (fun _ => rfl) (fun _ => rfl) (fun _ => rfl)
  subst hnb
  exact ⟨h4, r4, f4.trans (f3.trans (f2.trans f1)), ((o1.trans o2).trans o3).trans o4⟩

/-- The update of a node: the new observation and the content of the slice of weights. -/
theorem updateNode_run (cfg : Config F) {h : Heap F} {p : Ptr} {c : Int} {v : View F} {b : BaseNode F} (o : Own h p c v b) (lr : F)
    (hfit : Fit cfg.UseAdam v.params) :
    ∃ h', updateNode cfg c lr p b.weights h = .ok (p, h') ∧ Op h h' p p c (finishView cfg.UseAdam lr v) ∧
      readSlice h'.floats b.weights = some (finished cfg.UseAdam lr v.params).weights := by
  unfold updateNode finishView finished
  obtain ⟨nd, qs, hp⟩ := o.parts
  cases hA : cfg.UseAdam with
  | true =>
    obtain ⟨hm, hv, ht⟩ := hfit hA
    rw [if_pos rfl, if_pos rfl]
    have hdim : adamTDim p h = .ok ((v.params.t.length : Int), h) := by
      unfold adamTDim
      rw [M.bind_ok (baseOf_of hp)]
      have := readSlice_length (Vec.read .t hp.par)
      dsimp only [Vec.slice, Vec.get] at this
      rw [this]; rfl
    rw [M.bind_ok hdim, Int.toNat_natCast]
    obtain ⟨f1, r1, o1⟩ := adamCells_run lr (List.range v.params.t.length) o (by
      intro d hd
      have := List.mem_range.mp hd
      omega)
    have hmw : v.params.mirrorWeights = v.params.weights := by
      obtain ⟨a1, a2, -⟩ := baseParams_iff.mp hp.par
      rw [(o.inner nd b hp.node hp.base).1, a1] at a2
      exact (Option.some.inj a2).symm
    rw [cells_all lr v.params hm hv ht hmw] at o1
    have O1 := o.floats o1
    obtain ⟨h2, r2, f2, o2⟩ := adamBias_run O1 lr
    refine ⟨h2, ?_, o1.trans o2, ?_⟩
    · rw [M.bind_ok r1]; exact r2
    · obtain ⟨nd1, qs1, hp1⟩ := O1.parts
      rw [f2]
      have := Vec.read .weights hp1.par
      exact this
  | false =>
    rw [if_neg (by simp), if_neg (by simp)]
    obtain ⟨n, h', r, op, -, hf, -⟩ := copyWeights_run o.handle o.inner c
    obtain ⟨rfl, ho⟩ := op.same o.owned
    have := Vec.read .weights hp.par
    exact ⟨h', r, op, by rw [hf]; exact this⟩

end Goslide.Network
