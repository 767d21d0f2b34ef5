import Verif.Proofs.NodeMore
import Verif.Proofs.NodeZip
import Verif.Spec.Layer
/-
A use of one node of a group leaves the others alone.
-/
set_option linter.unusedSectionVars false
namespace Goslide.Node
open Spec.Node Configuration
variable {F : Type} [GoFloat F]

theorem setVec_out (k : Vec) {h : Heap F} {p : Ptr} {v : View F} (hv : Handle h p v) (c : Int)
    {i : Int} (hi : ¬ (0 ≤ i ∧ i < (k.get v.params).length)) (x : F) : setVec k p c i x h = .error .index := by
  obtain ⟨n, h0, h1, nd, b, qs, hr0, hr1, hc, hp, hb⟩ := cow_node_base hv c
  unfold setVec
  rw [M.bind_ok hr0, M.bind_ok hr1, M.bind_ok (base_ok hp.base), M.bind_error (setFloat_out (k.read hp.par) hi x)]

theorem setVec_op (k : Vec) {h : Heap F} {p : Ptr} {v : View F} (hv : Handle h p v) (hin : Inner h p) {c : Int}
    {i : Int} {x : F} {n : Ptr} {h' : Heap F} (hr : setVec k p c i x h = .ok (n, h')) : ∃ v', Op h h' p n c v' := by
  by_cases hi : 0 ≤ i ∧ i < (k.get v.params).length
  · obtain ⟨j, rfl⟩ := Int.eq_ofNat_of_zero_le hi.1
    obtain ⟨n', h1, r, o, -⟩ := setVec_run k hv hin c (i := j) (by omega) x
    rw [r] at hr; cases hr
    exact ⟨_, o⟩
  · rw [setVec_out k hv c hi x] at hr; cases hr

theorem setlast_op {h : Heap F} {p : Ptr} {v : View F} (hv : Handle h p v) {c : Int}
    {i : Int} {x : F} {n : Ptr} {h' : Heap F} (hr : setlastActivation p c i x h = .ok (n, h')) : ∃ v', Op h h' p n c v' := by
  by_cases hi : 0 ≤ i ∧ i < v.train.length
  · obtain ⟨j, rfl⟩ := Int.eq_ofNat_of_zero_le hi.1
    obtain ⟨n', h1, r, o⟩ := setlastActivation_run hv c (i := j) (List.getElem?_eq_getElem (by omega)) x
    rw [r] at hr; cases hr
    exact ⟨_, o.toOp⟩
  · obtain ⟨n', h0, hr0, hc0⟩ := cow_clone hv c
    unfold setlastActivation at hr
    rw [M.bind_ok hr0, M.bind_error (ownTrain_out (hc0.new v hv) c hi)] at hr
    cases hr

theorem trainOf_nat {h : Heap F} {p : Ptr} {v : View F} (hv : Handle h p v) {i : Int} {t : NodeTrain F} {h' : Heap F}
    (hr : trainOf p i h = .ok (t, h')) : ∃ j : Nat, i = j ∧ v.train[j]? = some (slot t) := by
  rcases trainOf_run hv i with ⟨t0, h0, ht0, hr0⟩ | ⟨_, hr0⟩
  · rw [hr0] at hr; cases hr
    exact ⟨i.toNat, by omega, ht0⟩
  · rw [hr0] at hr; cases hr

theorem increment_op {h : Heap F} {p : Ptr} {v : View F} (hv : Handle h p v) {c : Int}
    {i : Int} {x : F} {n : Ptr} {h' : Heap F} (hr : incrementDelta p c i x h = .ok (n, h')) : ∃ v', Op h h' p n c v' := by
  have hr' := hr
  unfold incrementDelta at hr'
  replace hr' := M.bind_eq_ok hr'
  obtain ⟨t, h1, e, -⟩ := hr'
  obtain ⟨j, rfl, hs⟩ := trainOf_nat hv e
  obtain ⟨g1, g2, g3⟩ := incrementDelta_run hv c hs x
  cases ha : (slot t).active with
  | false => rw [g1 ha] at hr; cases hr
  | true =>
    cases hle : GoFloat.le (slot t).act GoFloat.zero with
    | true => rw [g2 ha hle] at hr; cases hr; exact ⟨v, Op.refl hv⟩
    | false =>
      obtain ⟨n', h2, r, o⟩ := g3 ha hle
      rw [r] at hr; cases hr
      exact ⟨_, o.toOp⟩

theorem softmax_op {h : Heap F} {p : Ptr} {v : View F} (hv : Handle h p v) {c : Int} {norm : F} {labels : List Int}
    {i : Int} {n : Ptr} {h' : Heap F} (hr : computeExtaStatsForSoftMax p c norm i labels h = .ok (n, h')) : ∃ v', Op h h' p n c v' := by
  have hr' := hr
  unfold computeExtaStatsForSoftMax at hr'
  replace hr' := M.bind_eq_ok hr'
  obtain ⟨t, h1, e, -⟩ := hr'
  obtain ⟨j, rfl, hs⟩ := trainOf_nat hv e
  obtain ⟨g1, g2⟩ := computeExta_run hv c norm hs labels
  cases ha : (slot t).active with
  | false => rw [g1 ha] at hr; cases hr
  | true =>
    obtain ⟨n', h2, r, o⟩ := g2 ha
    rw [r] at hr; cases hr
    exact ⟨_, o.toOp⟩

theorem getActivation_op {h : Heap F} {p : Ptr} {v : View F} (hv : Handle h p v) {c : Int} {data : List (Pair F)}
    {i : Int} {x : F} {n : Ptr} {h' : Heap F} (hr : getActivation p c data i h = .ok ((x, n), h')) : ∃ v', Op h h' p n c v' := by
  by_cases hgood : (0 ≤ i ∧ i < v.params.batch) ∧ InRange v.params data ∧ (v.params.nodeType = 0 ∨ v.params.nodeType = 1)
  · obtain ⟨hi, hd, ht⟩ := hgood
    obtain ⟨j, rfl⟩ := Int.eq_ofNat_of_zero_le hi.1
    obtain ⟨n', h1, s, r, -, o⟩ := getActivation_run hv c data (i := j) hi.2 hd ht
    rw [r] at hr; cases hr
    exact ⟨_, o.toOp⟩
  · obtain ⟨e, he⟩ := getActivation_panics hv c data i (by
      by_cases h1 : 0 ≤ i ∧ i < v.params.batch
      · by_cases h2 : InRange v.params data
        · exact .inr (.inr (by
            by_cases h3 : v.params.nodeType = 0
            · exact absurd ⟨h1, h2, .inl h3⟩ hgood
            · by_cases h4 : v.params.nodeType = 1
              · exact absurd ⟨h1, h2, .inr h4⟩ hgood
              · exact ⟨h3, h4⟩))
        · exact .inr (.inl h2)
      · exact .inl h1)
    rw [he] at hr; cases hr

theorem purturb_op {h : Heap F} {p : Ptr} {v : View F} (hv : Handle h p v) (hin : Inner h p) {c : Int}
    {i : Int} {x y : F} {n : Ptr} {h' : Heap F} (hr : purturbWeight p c i x h = .ok ((y, n), h')) : ∃ v', Op h h' p n c v' := by
  by_cases hi : 0 ≤ i ∧ i < v.params.weights.length
  · obtain ⟨j, rfl⟩ := Int.eq_ofNat_of_zero_le hi.1
    obtain ⟨n', h1, r, o, -⟩ := purturbWeight_run hv hin c (i := j) (List.getElem?_eq_getElem (by omega)) x
    rw [r] at hr; cases hr
    exact ⟨_, o⟩
  · obtain ⟨n', h0, h1, nd, b, qs, hr0, hr1, hc, hp, hb⟩ := cow_node_base hv c
    unfold purturbWeight at hr
    have : addFloat b.weights i x h1 = .error .index := by
      unfold addFloat
      have : float b.weights i h1 = .error .index := by
        have e := Vec.read .weights hp.par
        change readSlice h1.floats b.weights = some v.params.weights at e
        rw [float_run e, dif_neg hi]
      rw [M.bind_error this]
    rw [M.bind_ok hr0, M.bind_ok hr1, M.bind_ok (base_ok hp.base), M.bind_error this] at hr
    cases hr

/-- A scalar setter. -/
theorem scalar_set_op {h : Heap F} {p : Ptr} {v : View F} (hv : Handle h p v) (c : Int) (f : BaseNode F → BaseNode F)
    (g : Params F → Params F) (hfg : ∀ fs b P, baseParams fs b = some P → baseParams fs (f b) = some (g P))
    (hcow : ∀ b, (f b).cowId = b.cowId) (hvec : ∀ b, vecs (f b) = vecs b) (hbatch : ∀ P, (g P).batch = P.batch)
    {n : Ptr} {h' : Heap F} (hr : setScalar p c f h = .ok (n, h')) : ∃ v', Op h h' p n c v' := by
  obtain ⟨n', h1, r, o, -⟩ := setScalar_run hv c f g hfg hcow hvec hbatch
  rw [r] at hr; cases hr
  exact ⟨_, o⟩

/-- A call on one node. -/
theorem call_op (cfg : Config F) {h : Heap F} {p : Ptr} {v : View F} (hv : Handle h p v) (hin : Inner h p) {c : Int}
    {x : Call F} (ht : x.target = some p) {u : Unit} {h' : Heap F} (hr : x.run cfg c h = .ok (u, h')) : ∃ n v', Op h h' p n c v' := by
  cases x <;> simp only [Call.target, Option.some.injEq, reduceCtorEq] at ht <;> subst ht <;>
    obtain ⟨a, hr⟩ := ignore_inv hr
  · exact ⟨_, setVec_op .t hv hin hr⟩
  · exact ⟨_, setVec_op .mom hv hin hr⟩
  · exact ⟨_, setVec_op .vel hv hin hr⟩
  · rename_i y _
    exact ⟨_, scalar_set_op hv c (fun b => { b with adamAvgMomBias := y }) (fun P => { P with momBias := y }) (fun fs b P hP => by
      rw [baseParams_iff] at hP ⊢; simp [hP]) (fun _ => rfl) (fun _ => rfl) (fun _ => rfl) hr⟩
  · rename_i y _
    exact ⟨_, scalar_set_op hv c (fun b => { b with adamAvgVelBias := y }) (fun P => { P with velBias := y }) (fun fs b P hP => by
      rw [baseParams_iff] at hP ⊢; simp [hP]) (fun _ => rfl) (fun _ => rfl) (fun _ => rfl) hr⟩
  · rename_i y _
    exact ⟨_, scalar_set_op hv c (fun b => { b with bias := y }) (fun P => { P with bias := y }) (fun fs b P hP => by
      rw [baseParams_iff] at hP ⊢; simp [hP]) (fun _ => rfl) (fun _ => rfl) (fun _ => rfl) hr⟩
  · rename_i y _
    exact ⟨_, scalar_set_op hv c (fun b => { b with tBias := y }) (fun P => { P with tBias := y }) (fun fs b P hP => by
      rw [baseParams_iff] at hP ⊢; simp [hP]) (fun _ => rfl) (fun _ => rfl) (fun _ => rfl) hr⟩
  · obtain ⟨n', h1, r, o, -⟩ := copyWeights_run hv hin c
    rw [r] at hr; cases hr
    exact ⟨_, _, o⟩
  · exact ⟨_, getActivation_op hv (x := a.1) (n := a.2) hr⟩
  · exact ⟨_, increment_op hv hr⟩
  · exact ⟨_, softmax_op hv hr⟩
  · exact ⟨_, setlast_op hv hr⟩
  · exact ⟨_, purturb_op hv hin (y := a.1) (n := a.2) hr⟩

/-- A use of one node, with any cowId. -/
theorem use_op (cfg : Config F) {h : Heap F} {p : Ptr} {v : View F} (hv : Handle h p v) (hin : Inner h p) {c : Int}
    {x : Use F} (ht : x.target = some p) {u : Unit} {h' : Heap F} (hr : x.run cfg c h = .ok (u, h')) :
    ∃ c' n v', Op h h' p n c' v' ∧ (Owned h p c → c' = c) := by
  cases x with
  | call x =>
    obtain ⟨n, v', o⟩ := call_op cfg hv hin ht hr
    exact ⟨c, n, v', o, fun _ => rfl⟩
  | weight q i x =>
    simp only [Use.target, Option.some.injEq] at ht
    subst ht
    obtain ⟨nd, b, qs, hp⟩ := hv.parts
    have hw : Node.weights q h = .ok (b.weights, h) := by
      unfold Node.weights; rw [M.bind_ok (baseOf_of hp)]; rfl
    change (do let s ← Node.weights q; setFloat s i x : NM F Unit) h = _ at hr
    rw [M.bind_ok hw] at hr
    by_cases hi : 0 ≤ i ∧ i < v.params.weights.length
    · obtain ⟨j, rfl⟩ := Int.eq_ofNat_of_zero_le hi.1
      obtain ⟨fs, hw, hr2, _, _⟩ := setFloat_run (Vec.read .weights hp.par) (i := j) (by exact Int.ofNat_lt.mp hi.2) x
      change setFloat b.weights _ _ _ = _ at hr2
      rw [hr2] at hr; cases hr
      exact ⟨nd.cowId, q, _, (cow_vec hp.handle (cow_refl hp rfl) hp (Vec.mem .weights b) (Vec.read .weights hp.par)
        (by exact Int.ofNat_lt.mp hi.2) hw (Vec.write .weights hp hin (by exact Int.ofNat_lt.mp hi.2) hw) (Vec.put_batch .weights _ _)).1,
        fun ho => ((owned_of hp c).mp ho).1⟩
    · have := setFloat_out (Vec.read .weights hp.par) hi x
      change setFloat b.weights _ _ _ = _ at this
      rw [this] at hr; cases hr

/-- A use of one node leaves the others of the group. -/
theorem use_others (cfg : Config F) {h : Heap F} {L : List Ptr} {vs : List (View F)} (g : Group h L vs) {p q : Ptr} (hp : p ∈ L)
    (hq : q ∈ L) (hne : p ≠ q) {c : Int} {x : Use F} (ht : x.target = some p) {u : Unit} {h' : Heap F}
    (hr : x.run cfg c h = .ok (u, h')) : ∃ v, view h q = some v ∧ view h' q = some v := by
  obtain ⟨i, hi⟩ := List.mem_iff_getElem?.mp hp
  obtain ⟨j, hj⟩ := List.mem_iff_getElem?.mp hq
  obtain ⟨v, hv, hvh⟩ := g.getv hi
  obtain ⟨v2, hv2, hvh2⟩ := g.getv hj
  obtain ⟨c', n, v', o, -⟩ := use_op cfg hvh (g.inner p hp) ht hr
  have hij : j ≠ i := by
    rintro rfl
    rw [hi] at hj; cases hj; exact hne rfl
  exact ⟨v2, hvh2.view, (((g.op hi hv o).2 j q hij hj).handle hvh2).view⟩

/-- Uses by the owner. -/
theorem uses_others (cfg : Config F) {c : Int} {L : List Ptr} {q : Ptr} (hq : q ∈ L) : ∀ (us : List (Use F)) {h : Heap F} {vs : List (View F)},
    Group h L vs → AllOwned h L c → (∀ x ∈ us, ∃ p ∈ L, x.target = some p) → (∀ x ∈ us, x.target ≠ some q) →
    ∀ {u : Unit} {h' : Heap F}, useAll cfg c us h = .ok (u, h') → ∃ v, view h q = some v ∧ view h' q = some v
  | [], h, vs, g, ho, _, _, u, h', hr => by
    cases hr
    obtain ⟨j, hj⟩ := List.mem_iff_getElem?.mp hq
    obtain ⟨v, hv, hvh⟩ := g.getv hj
    exact ⟨v, hvh.view, hvh.view⟩
  | x :: us, h, vs, g, ho, ht, hn, u, h', hr => by
    replace hr := M.bind_eq_ok hr
    obtain ⟨u1, h1, hr1, hr⟩ := hr
    obtain ⟨p, hp, hpt⟩ := ht x (by simp)
    have hne : p ≠ q := by rintro rfl; exact hn x (by simp) hpt
    obtain ⟨v, e1, e2⟩ := use_others cfg g hp hq hne hpt hr1
    obtain ⟨i, hi⟩ := List.mem_iff_getElem?.mp hp
    obtain ⟨w, hw, hwh⟩ := g.getv hi
    obtain ⟨c', n, v', o, hc⟩ := use_op cfg hwh (g.inner p hp) hpt hr1
    obtain rfl := hc (ho p hp)
    obtain ⟨-, en, ha⟩ := g.op_owned hi hw o ho
    have g1 := (g.op hi hw o).1
    rw [en] at g1
    obtain ⟨v2, e3, e4⟩ := uses_others cfg hq us g1 ha (fun y hy => ht y (by simp [hy])) (fun y hy => hn y (by simp [hy])) hr
    rw [e2] at e3; cases e3
    exact ⟨v, e1, e4⟩

end Goslide.Node
