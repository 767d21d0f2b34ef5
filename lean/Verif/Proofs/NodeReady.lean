import Verif.Proofs.NodeMore
import Verif.Proofs.LayerAct
/-
What a back-propagation that returns tells about its arguments.
-/
set_option linter.unusedSectionVars false
namespace Goslide.Node
open Spec.Node Configuration
variable {F : Type} [GoFloat F]

theorem float_bounds {h h' : Heap F} {s : Slice} {l : List F} {i : Int} {x : F} (hs : readSlice h.floats s = some l)
    (hr : float s i h = .ok (x, h')) : 0 ≤ i ∧ i < l.length ∧ h' = h := by
  rw [float_run hs] at hr
  split at hr
  · rename_i hi
    cases hr
    exact ⟨hi.1, hi.2, rfl⟩
  · cases hr

theorem nodePtr_bounds {h h' : Heap F} {s : Slice} {L : List Ptr} {i : Int} {p : Ptr} (hs : readSlice h.nodeArrs s = some L)
    (hr : nodePtr s i h = .ok (p, h')) : 0 ≤ i ∧ L[i.toNat]? = some p ∧ h' = h := by
  unfold nodePtr at hr
  rw [readCell_of hs] at hr
  split at hr
  · rename_i hi
    cases hr
    exact ⟨hi.1, List.getElem?_eq_getElem (by omega), rfl⟩
  · cases hr

theorem incrementDelta_inv {h h' : Heap F} {p n : Ptr} {v : View F} {c i : Int} {x : F} (hv : Handle h p v)
    (hr : incrementDelta p c i x h = .ok (n, h')) : 0 ≤ i ∧ ∃ s, v.train[i.toNat]? = some s ∧ s.active = true := by
  rcases trainOf_run hv i with ⟨t, h0, ht, hr0⟩ | ⟨_, hr0⟩
  · refine ⟨h0, slot t, ht, ?_⟩
    unfold incrementDelta at hr
    rw [M.bind_ok hr0] at hr
    cases ha : t.activeinputIds with
    | true => exact ha
    | false => rw [if_pos (by simp [ha])] at hr; cases hr
  · unfold incrementDelta at hr
    rw [M.bind_error hr0] at hr; cases hr

/-- Enough gradient cells. -/
def Fits (adam : Bool) (P : Params F) : Prop := adam = true → P.weights.length ≤ P.t.length

theorem backPropStep_inv (cfg : Config F) {h h' : Heap F} {n : Ptr} {ps rest : List Ptr} {w : View F} {vs ws : List (View F)}
    (g : Group h (n :: (ps ++ rest)) (w :: (vs ++ ws))) (hlen : ps.length = vs.length) {prevS : Slice}
    (hprev : readSlice h.nodeArrs prevS = some ps) {c : Int}
    {nd : Node} {i : Nat} {u : Unit}
    (lr : F) (x : Pair F) (hf : Fits cfg.UseAdam w.params) (hr : backPropStep cfg c prevS lr i n nd.train x h = .ok (u, h')) :
    Ready cfg.UseAdam w.params vs i [x] := by
  unfold backPropStep at hr
  dsimp only at hr
  replace hr := M.bind_eq_ok hr
  obtain ⟨prev, h1, r1, hr⟩ := hr
  obtain ⟨h0, hp, rfl⟩ := nodePtr_bounds hprev r1
  replace hr := M.bind_eq_ok hr
  obtain ⟨tp, h2, r2, hr⟩ := hr
  have e2 : h2 = h1 := by
    unfold trainPtr at r2
    cases hc : readCell h1.trainArrs nd.train (i : Int) with
    | error e => rw [hc] at r2; cases r2
    | ok v => rw [hc] at r2; cases r2; rfl
  subst e2
  replace hr := M.bind_eq_ok hr
  obtain ⟨t, h3, r3, hr⟩ := hr
  have e3 : h3 = h2 := by
    unfold train at r3
    cases hc : deref h2.trains tp with
    | error e => rw [hc] at r3; cases r3
    | ok v => rw [hc] at r3; cases r3; rfl
  subst e3
  obtain ⟨nd', b, qs, hparts⟩ := (g.handle 0 n w rfl rfl).parts
  rw [M.bind_ok (baseOf_of hparts)] at hr
  replace hr := M.bind_eq_ok hr
  obtain ⟨wt, h4, r4, hr⟩ := hr
  obtain ⟨-, hw, rfl⟩ := float_bounds (Vec.read .weights hparts.par) r4
  change x.Index < w.params.weights.length at hw
  replace hr := M.bind_eq_ok hr
  obtain ⟨pn, h5, r5, -⟩ := hr
  have hkps := (List.getElem?_eq_some_iff.mp hp).1
  obtain ⟨v, hv⟩ : ∃ v, vs[x.Index.toNat]? = some v := ⟨_, List.getElem?_eq_getElem (by omega)⟩
  have hh := g.handle (x.Index.toNat + 1) prev v
    (by rw [List.getElem?_cons_succ, List.getElem?_append_left hkps]; exact hp)
    (by rw [List.getElem?_cons_succ, List.getElem?_append_left (by omega)]; exact hv)
  obtain ⟨-, s, hs, ha⟩ := incrementDelta_inv hh r5
  intro y hy
  rw [List.mem_singleton] at hy
  subst hy
  exact ⟨h0, hw, fun ht => by have := hf ht; omega, v, s, hv, by simpa using hs, ha⟩

theorem backStep_fits {adam : Bool} {lr d : F} {i : Nat} {P : Params F} {vs : List (View F)} {x : Pair F} (h : Fits adam P) :
    Fits adam (backStep adam lr d i (P, vs) x).1 := by
  intro ha
  unfold backStep
  dsimp only
  rw [addGrad_weights_length, addGrad_t_length]
  exact h ha

/-- Readiness before the step, from readiness after it. -/
theorem ready_back {adam : Bool} {P : Params F} {vs : List (View F)} {i : Nat} {x : Pair F} {l : List (Pair F)} {lr d : F}
    (h1 : Ready adam P vs i [x]) (h : Ready adam (backStep adam lr d i (P, vs) x).1 (backStep adam lr d i (P, vs) x).2 i l) :
    Ready adam P vs i (x :: l) := by
  intro y hy
  rcases List.mem_cons.mp hy with rfl | hy
  · exact h1 y (by simp)
  · obtain ⟨a1, a2, a3, v, s, a4, a5, a6⟩ := h y hy
    unfold backStep at a2 a3 a4
    dsimp only at a2 a3 a4
    rw [addGrad_weights_length] at a2
    rw [addGrad_t_length] at a3
    refine ⟨a1, a2, a3, ?_⟩
    by_cases he : x.Index.toNat = y.Index.toNat
    · obtain ⟨-, -, -, v0, s0, b4, b5, b6⟩ := h1 x (by simp)
      rw [he] at b4
      exact ⟨v0, s0, b4, b5, b6⟩
    · rw [modify_ne he] at a4
      exact ⟨v, s, a4, a5, a6⟩

theorem backPropLoop_inv (cfg : Config F) {n : Ptr} {rest : List Ptr} {ws : List (View F)}
    {prevS : Slice} {c : Int} {nd : Node} (hc : nd.cowId = c) {i : Nat} {s : Slot F} (lr : F) (l : List (Pair F)) :
    ∀ {h h' : Heap F} {ps : List Ptr} {w : View F} {vs : List (View F)} {u : Unit},
    Group h (n :: (ps ++ rest)) (w :: (vs ++ ws)) → ps.length = vs.length →
    readSlice h.nodeArrs prevS = some ps → h.nodes[n]? = some nd → w.train[i]? = some s → Fits cfg.UseAdam w.params →
    l.forM (backPropStep cfg c prevS lr i n nd.train) h = .ok (u, h') → Ready cfg.UseAdam w.params vs i l := by
  induction l with
  | nil => intro h h' ps w vs u _ _ _ _ _ _ _ y hy; cases hy
  | cons x l ih =>
    intro h h' ps w vs u g hlen hprev hn hs hf hr
    rw [forM_cons] at hr
    replace hr := M.bind_eq_ok hr
    obtain ⟨u1, h1, r1, hr⟩ := hr
    have hx := backPropStep_inv cfg g hlen hprev lr x hf r1
    obtain ⟨h1', ps1, r1', g1, l1, p1, n1, -⟩ := backPropStep_run cfg g hlen hprev hn hc hs lr x hx
    rw [r1'] at r1
    cases r1
    exact ready_back hx (ih g1 l1 p1 n1 hs (backStep_fits hf) hr)

theorem backPropagate_inv (cfg : Config F) {h h' : Heap F} {p n' : Ptr} {ps rest : List Ptr} {v : View F} {vs ws : List (View F)}
    (g : Group h (p :: (ps ++ rest)) (v :: (vs ++ ws))) (hlen : ps.length = vs.length) {prevS : Slice}
    (hprev : readSlice h.nodeArrs prevS = some ps) {c : Int} {i : Nat} {lr : F} {pairs : List (Pair F)}
    (hf : Fits cfg.UseAdam v.params) (hr : backPropagate cfg p c prevS pairs lr i h = .ok (n', h')) :
    ∃ s, v.train[i]? = some s ∧ s.active = true ∧ Ready cfg.UseAdam v.params vs i pairs := by
  have hv := g.handle 0 p v rfl rfl
  unfold backPropagate at hr
  rcases trainOf_run hv i with ⟨t0, _, ht0, hr0⟩ | ⟨_, hr0⟩
  · rw [Int.toNat_natCast] at ht0
    rw [M.bind_ok hr0] at hr
    cases ha : t0.activeinputIds with
    | false => rw [if_pos (by simp [ha])] at hr; cases hr
    | true =>
      rw [if_neg (by simp [ha])] at hr
      have hlt := (List.getElem?_eq_some_iff.mp ht0).1
      obtain ⟨n, h0, q, h1, bp, h2, nd, b, qs, r0, r1, en, r2, hc2, hp, hcow, hq, nd1, hn1, etr⟩ := cow_back hv c hlt
      have o1 := hc2.op hv
      obtain ⟨g2, _⟩ := g.op (k := 0) rfl rfl o1
      rw [List.set_cons_zero, List.set_cons_zero] at g2
      have hprev2 : readSlice h2.nodeArrs prevS = some ps := by rw [hc2.nodeArrs]; exact hprev
      rw [M.bind_ok r0, M.bind_ok r1, M.bind_ok (node_ok hn1), M.bind_ok r2, etr] at hr
      replace hr := M.bind_eq_ok hr
      obtain ⟨u, h3, r3, -⟩ := hr
      exact ⟨_, ht0, ha, backPropLoop_inv cfg hcow lr pairs g2 hlen hprev2 hp.node ht0 hf r3⟩
  · rw [M.bind_error hr0] at hr; cases hr

theorem firstLayerLoop_inv (cfg : Config F) {n q : Ptr} {c : Int} {nd : Node} {b : BaseNode F} {qs : List Ptr}
    {t : NodeTrain F} (hc : nd.cowId = c) (lr : F) (l : List (Pair F)) :
    ∀ {h h' : Heap F} {w : View F} {u : Unit}, Parts h n w nd b qs → Inner h n → h.trains[q]? = some t →
    Fits cfg.UseAdam w.params → (cfg.UseAdam = true → w.params.t.length ≤ w.params.weights.length) →
    l.forM (firstLayerStep cfg lr n q) h = .ok (u, h') →
    ∀ x ∈ l, 0 ≤ x.Index ∧ x.Index < w.params.weights.length ∧ (cfg.UseAdam = true → x.Index < w.params.t.length) := by
  induction l with
  | nil => intro h h' w u _ _ _ _ _ _ y hy; cases hy
  | cons x l ih =>
    intro h h' w u hp hin ht hf hf2 hr
    rw [forM_cons] at hr
    replace hr := M.bind_eq_ok hr
    obtain ⟨u1, h1, r1, hr⟩ := hr
    have hx : 0 ≤ x.Index ∧ x.Index < w.params.weights.length ∧ (cfg.UseAdam = true → x.Index < w.params.t.length) := by
      have r1' := r1
      unfold firstLayerStep at r1'
      rw [M.bind_ok (train_ok ht), M.bind_ok (baseOf_of hp)] at r1'
      cases ha : cfg.UseAdam with
      | true =>
        rw [ha, if_pos rfl] at r1'
        unfold addFloat at r1'
        replace r1' := M.bind_eq_ok r1'
        obtain ⟨y, h2, r2, -⟩ := r1'
        obtain ⟨a, b, -⟩ := float_bounds (Vec.read .t hp.par) r2
        change x.Index < w.params.t.length at b
        exact ⟨a, by have := hf2 ha; omega, fun _ => b⟩
      | false =>
        rw [ha, if_neg (by simp)] at r1'
        unfold addFloat at r1'
        replace r1' := M.bind_eq_ok r1'
        obtain ⟨y, h2, r2, -⟩ := r1'
        obtain ⟨he, -⟩ := hin _ _ hp.node hp.base
        rw [he] at r2
        obtain ⟨a, b, -⟩ := float_bounds (Vec.read .weights hp.par) r2
        exact ⟨a, b, fun h => by simp at h⟩
    obtain ⟨h1', r1', n1, o1⟩ := firstLayerLoop_run cfg hc lr [x] hp hin ht (fun y hy => by
      rw [List.mem_singleton] at hy; subst hy; exact hx)
    have e : [x].forM (firstLayerStep cfg lr n q) h = .ok ((), h1) := by
      rw [forM_cons, M.bind_ok r1]; rfl
    rw [e] at r1'
    cases r1'
    have ht1 : h1.trains[q]? = some t := by
      unfold firstLayerStep at r1
      rw [M.bind_ok (train_ok ht), M.bind_ok (baseOf_of hp)] at r1
      have : ∀ s v (h' : Heap F) u, addFloat s x.Index v h = .ok (u, h') → h'.trains = h.trains := by
        intro s v h' u hh
        unfold addFloat at hh
        replace hh := M.bind_eq_ok hh
        obtain ⟨y, h2, r2, hh⟩ := hh
        have e2 : h2 = h := by
          unfold float at r2
          cases hc : readCell h.floats s x.Index with
          | error e => rw [hc] at r2; cases r2
          | ok v => rw [hc] at r2; cases r2; rfl
        subst e2
        unfold setFloat at hh
        cases hc : writeCell h2.floats s x.Index (GoFloat.add y v) with
        | error e => rw [hc] at hh; cases hh
        | ok v => rw [hc] at hh; cases hh; rfl
      split at r1
      · rw [this _ _ _ _ r1]; exact ht
      · rw [this _ _ _ _ r1]; exact ht
    have hrec := ih n1 (o1.inner hin) ht1 (by
        intro ha
        unfold firstGrads
        simp only [List.foldl_cons, List.foldl_nil, addGrad_weights_length, addGrad_t_length]
        exact hf ha) (by
        intro ha
        unfold firstGrads
        simp only [List.foldl_cons, List.foldl_nil, addGrad_weights_length, addGrad_t_length]
        exact hf2 ha) hr
    intro y hy
    rcases List.mem_cons.mp hy with rfl | hy
    · exact hx
    · have := hrec y hy
      unfold firstGrads at this
      simp only [List.foldl_cons, List.foldl_nil, addGrad_weights_length, addGrad_t_length] at this
      exact this

theorem backPropagateFirstLayer_inv (cfg : Config F) {h h' : Heap F} {p n' : Ptr} {v : View F} (hv : Handle h p v)
    (hin : Inner h p) {c : Int} {i : Nat} {lr : F} {pairs : List (Pair F)} (hf : Fits cfg.UseAdam v.params)
    (hf2 : cfg.UseAdam = true → v.params.t.length ≤ v.params.weights.length)
    (hr : backPropagateFirstLayer cfg p c pairs lr i h = .ok (n', h')) :
    ∃ s, v.train[i]? = some s ∧ s.active = true ∧
      ∀ x ∈ pairs, 0 ≤ x.Index ∧ x.Index < v.params.weights.length ∧ (cfg.UseAdam = true → x.Index < v.params.t.length) := by
  unfold backPropagateFirstLayer at hr
  rcases trainOf_run hv i with ⟨t0, _, ht0, hr0⟩ | ⟨_, hr0⟩
  · rw [Int.toNat_natCast] at ht0
    rw [M.bind_ok hr0] at hr
    cases ha : t0.activeinputIds with
    | false => rw [if_pos (by simp [ha])] at hr; cases hr
    | true =>
      rw [if_neg (by simp [ha])] at hr
      have hlt := (List.getElem?_eq_some_iff.mp ht0).1
      obtain ⟨n, h0, q, h1, bp, h2, nd, b, qs, r0, r1, en, r2, hc2, hp, hcow, hq, nd1, hn1, etr⟩ := cow_back hv c hlt
      have o1 := hc2.op hv
      obtain ⟨t, ht, hvt⟩ := hp.slot_at hq
      rw [M.bind_ok r0, M.bind_ok r1, M.bind_ok r2] at hr
      replace hr := M.bind_eq_ok hr
      obtain ⟨u, h3, r3, -⟩ := hr
      exact ⟨_, ht0, ha, firstLayerLoop_inv cfg hcow lr pairs hp (o1.inner hin) ht hf hf2 r3⟩
  · rw [M.bind_error hr0] at hr; cases hr

theorem computeExta_inv {h h' : Heap F} {p n : Ptr} {v : View F} (hv : Handle h p v) {c : Int} {norm : F} {i : Nat} {labels : List Int}
    (hr : computeExtaStatsForSoftMax p c norm i labels h = .ok (n, h')) : ∃ s, v.train[i]? = some s ∧ s.active = true := by
  rcases trainOf_run hv i with ⟨t, h0, ht, hr0⟩ | ⟨_, hr0⟩
  · refine ⟨slot t, by simpa using ht, ?_⟩
    unfold computeExtaStatsForSoftMax at hr
    rw [M.bind_ok hr0] at hr
    cases ha : t.activeinputIds with
    | true => exact ha
    | false => rw [if_pos (by simp [ha])] at hr; cases hr
  · unfold computeExtaStatsForSoftMax at hr
    rw [M.bind_error hr0] at hr; cases hr

end Goslide.Node
