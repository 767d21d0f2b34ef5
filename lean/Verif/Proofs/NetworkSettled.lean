import Verif.Proofs.NetworkLife
import Verif.Proofs.GradStill
/-
Between the calls of a network with Adam all accumulators and all deltas are 0, and the nodes know their index and their type.
-/
set_option linter.unusedSectionVars false
namespace Goslide.Network
open Goslide Node Lsh Configuration Spec.Node Spec.Network Layer Xcrepo
variable {F : Type} [GoFloat F]

structure Settled (a : NetArgs F) (Q : List (State F)) : Prop where
  still : ∀ g ∈ Q, Still g.views
  acc : ∀ g ∈ Q, ∀ v ∈ g.views, v.params.tBias = GoFloat.zero ∧ ∀ x ∈ v.params.t, x = GoFloat.zero
  named : ∀ (j : Nat) (g : State F) (k : Nat) (v : View F), Q[j]? = some g → g.views[k]? = some v →
    v.params.id = k ∧ a.types[j]? = some v.params.nodeType

theorem slotsOk_of {sparsity : List F} {Q : List (State F)} {i : Nat} {S : List (List Int)} (h : TrainedOn sparsity Q i S) : SlotsOk (Q.map State.views) i S := by
  refine ⟨by rw [h.active.1]; simp, h.nodup, fun j vs ids h1 h2 id hi => ?_⟩
  rw [List.getElem?_map] at h1
  obtain ⟨g, hg, rfl⟩ := Option.map_eq_some_iff.mp h1
  obtain ⟨h3, h4⟩ := (h.active.2 j g ids hg h2).1 id hi
  have : id.toNat < g.views.length := by
    unfold State.views
    rw [List.length_map]
    omega
  exact ⟨h3, _, List.getElem?_eq_getElem this, h.slot j g ids hg h2 id hi _ (List.getElem?_eq_getElem this)⟩

theorem settled_new {cfg : Config F} (hl : cfg.LoadWeight = false) {c : Int} {a : NetArgs F} (ha : a.Typed) {w w' : World F} {p : Ptr}
    (hr : Network.new cfg c a.layers a.sizes a.types a.batch a.rate a.dim a.k a.l a.rangePow a.sparsity w = .ok (p, w')) :
    ∃ n Q, Alive cfg c a w' p n Q ∧ Settled a Q := by
  obtain ⟨n, Q, al⟩ := Alive.new hl ha hr
  obtain ⟨n2, Q2, t, e1, e2, e3, hb⟩ := new_trainable hl hr ha.types ha.last
  refine ⟨n2, Q2, ⟨t, e1, e2, e3, ?_, ?_⟩, ?_, ?_, ?_⟩
  · cases hq : Q2.length with
    | zero => omega
    | succ m =>
      obtain ⟨_, -, -, -, h⟩ := hb m _ (List.getElem?_eq_getElem (by omega))
      omega
  · intro j g hg
    obtain ⟨prev, ⟨size, ty, k, l, rp, P, w1, w2, q1, q2, q3, q4, q5, B⟩, h0, h1, -⟩ := hb j g hg
    exact ⟨size, prev, ty, k, l, rp, q1, q2, q3, q4, q5, kept_of_built B, h0, h1⟩
  · intro g hg v hv s hs
    obtain ⟨j, hj⟩ := List.mem_iff_getElem?.mp hg
    obtain ⟨prev, ⟨size, ty, k, l, rp, P, w1, w2, -, -, -, -, -, B⟩, -⟩ := hb j g hj
    unfold State.views at hv
    rw [B.nodes] at hv
    obtain ⟨z, hz, rfl⟩ := List.mem_map.mp hv
    obtain ⟨m, hm, rfl⟩ := mem_nodes hz
    rw [(List.mem_replicate.mp (show s ∈ List.replicate P.b idle from hs)).2]
    rfl
  · intro g hg v hv
    obtain ⟨j, hj⟩ := List.mem_iff_getElem?.mp hg
    obtain ⟨prev, ⟨size, ty, k, l, rp, P, w1, w2, -, -, -, -, -, B⟩, -⟩ := hb j g hj
    unfold State.views at hv
    rw [B.nodes] at hv
    obtain ⟨z, hz, rfl⟩ := List.mem_map.mp hv
    obtain ⟨m, hm, rfl⟩ := mem_nodes hz
    refine ⟨rfl, fun x hx => ?_⟩
    have hx : x ∈ (if P.adam then P.zeros else []) := hx
    split at hx
    · exact (List.mem_replicate.mp hx).2
    · simp at hx
  · intro j g i v hg hv
    obtain ⟨prev, ⟨size, ty, k, l, rp, P, w1, w2, -, q2, -, -, -, B⟩, -⟩ := hb j g hg
    unfold State.views at hv
    rw [B.nodes] at hv
    unfold Plan.nodes at hv
    rw [List.map_map, List.getElem?_map] at hv
    obtain ⟨m, hm, rfl⟩ := Option.map_eq_some_iff.mp hv
    rw [List.getElem?_range (by
      have := (List.getElem?_eq_some_iff.mp hm).1
      simpa using this)] at hm
    cases hm
    refine ⟨rfl, ?_⟩
    rw [q2, ← B.pTy]
    rfl

theorem settled_step {lr : F} {a : NetArgs F} {Q Q' : List (State F)} {sparsity : List F} {es : List (Example F)} {T : List (List (List Int))} (h : Settled a Q)
    (aT : ∀ (k : Nat) (S : List (List Int)), T[k]? = some S → TrainedOn sparsity Q k S)
    (hv : Q'.map State.views = (batchV true lr (Q.map State.softmax) 0 es T (Q.map State.views)).map (List.map (finishView true lr))) : Settled a Q' := by
  have hB : (Q.map State.softmax).length = (Q.map State.views).length := by simp
  have hsl : ∀ (e : Nat) (S : List (List Int)), T[e]? = some S → SlotsOk (Q.map State.views) (0 + e) S := fun e S hS => by
    rw [Nat.zero_add]
    exact slotsOk_of (aT e S hS)
  have hst := batch_still (lr := lr) es T 0 (Q.map State.views) hB hsl (fun vs hvs => by
    obtain ⟨g, hg, rfl⟩ := List.mem_map.mp hvs
    exact h.still g hg)
  have hdm := (dims_stable (F := F) true).batch lr (Q.map State.softmax) es 0 T (Q.map State.views) hB (fun S hS => by
    obtain ⟨k, hk⟩ := List.mem_iff_getElem?.mp hS
    exact (hsl k S hk).len)
  generalize batchV true lr (Q.map State.softmax) 0 es T (Q.map State.views) = W at hv hst hdm
  have hget : ∀ g ∈ Q', ∃ vs ∈ W, g.views = vs.map (finishView true lr) := by
    intro g hg
    have : g.views ∈ W.map (List.map (finishView true lr)) := by
      rw [← hv]
      exact List.mem_map.mpr ⟨g, hg, rfl⟩
    obtain ⟨vs, h1, h2⟩ := List.mem_map.mp this
    exact ⟨vs, h1, h2.symm⟩
  refine ⟨?_, ?_, ?_⟩
  · intro g hg v hv s hs
    obtain ⟨vs, h1, h2⟩ := hget g hg
    rw [h2] at hv
    obtain ⟨v0, h3, rfl⟩ := List.mem_map.mp hv
    exact hst vs h1 v0 h3 s hs
  · intro g hg v hv
    obtain ⟨vs, h1, h2⟩ := hget g hg
    rw [h2] at hv
    obtain ⟨v0, h3, rfl⟩ := List.mem_map.mp hv
    unfold finishView finished
    rw [if_pos rfl]
    exact ⟨rfl, fun x hx => (List.mem_replicate.mp hx).2⟩
  · intro j g' k v' hg' hv'
    have e := congrArg (fun l => l[j]?) hv
    simp only [List.getElem?_map, hg', Option.map_some] at e
    obtain ⟨vs, h1, h2⟩ := Option.map_eq_some_iff.mp e.symm
    rw [← h2, List.getElem?_map] at hv'
    obtain ⟨v1, h3, rfl⟩ := Option.map_eq_some_iff.mp hv'
    have e := congrArg (fun l => l[j]?) hdm
    simp only [List.getElem?_map, h1, Option.map_some] at e
    obtain ⟨vs0, h4, h5⟩ := Option.map_eq_some_iff.mp e.symm
    obtain ⟨g, hg, rfl⟩ := Option.map_eq_some_iff.mp h4
    have e := congrArg (fun l => l[k]?) h5
    simp only [List.getElem?_map, h3, Option.map_some] at e
    obtain ⟨v, hv, e⟩ := Option.map_eq_some_iff.mp e
    obtain ⟨q1, q2⟩ := h.named j g k v hg hv
    have e1 : v1.params.id = v.params.id := (congrArg Dims.id e).symm
    have e2 : v1.params.nodeType = v.params.nodeType := (congrArg Dims.nodeType e).symm
    have e3 : (finishView true lr v1).params.id = v1.params.id := rfl
    have e4 : (finishView true lr v1).params.nodeType = v1.params.nodeType := rfl
    rw [e3, e4, e1, e2]
    exact ⟨q1, q2⟩

theorem settled_same {a : NetArgs F} {c : Int} {Q Q' : List (State F)} (h : Settled a Q) (s : SameAll c Q Q') : Settled a Q' := by
  have hget : ∀ (j : Nat) (g' : State F), Q'[j]? = some g' → ∃ g, Q[j]? = some g ∧ SameParams c g g' := by
    intro j g' hg'
    have hlt := (List.getElem?_eq_some_iff.mp hg').1
    have hg := List.getElem?_eq_getElem (l := Q) (i := j) (by rw [← s.1]; exact hlt)
    exact ⟨_, hg, s.2 j _ g' hg hg'⟩
  refine ⟨?_, ?_, ?_⟩
  · intro g' hg'
    obtain ⟨j, hj⟩ := List.mem_iff_getElem?.mp hg'
    obtain ⟨g, hg, sp⟩ := hget j g' hj
    exact sp.still (h.still g (List.mem_of_getElem? hg))
  · intro g' hg' v' hv'
    obtain ⟨j, hj⟩ := List.mem_iff_getElem?.mp hg'
    obtain ⟨g, hg, sp⟩ := hget j g' hj
    have : v'.params ∈ g.views.map View.params := by
      rw [← sp.params]
      exact List.mem_map.mpr ⟨v', hv', rfl⟩
    obtain ⟨v, hv, e⟩ := List.mem_map.mp this
    rw [← e]
    exact h.acc g (List.mem_of_getElem? hg) v hv
  · intro j g' k v' hg' hv'
    obtain ⟨g, hg, sp⟩ := hget j g' hg'
    have e := congrArg (fun l => l[k]?) sp.params
    simp only [List.getElem?_map, hv', Option.map_some] at e
    obtain ⟨v, hv, e⟩ := Option.map_eq_some_iff.mp e.symm
    rw [← e]
    exact h.named j g k v hg hv

theorem _root_.Goslide.Spec.Network.Life.settled [FloatOrder F] {cfg : Config F} (hl : cfg.LoadWeight = false) (hu : cfg.UseAdam = true) {c : Int} {a : NetArgs F} (ha : a.Typed)
    {w : World F} {p : Ptr} (h : Life cfg c a w p) : ∃ n Q, Alive cfg c a w p n Q ∧ Settled a Q := by
  induction h with
  | new h => exact settled_new hl ha h
  | train _ hr ih =>
    obtain ⟨n, Q, al, ca⟩ := ih
    obtain ⟨e, T, Q', -, aT, al', hv, -⟩ := al.step hr
    have e := congrArg Prod.snd e
    dsimp only at e
    rw [e]
    rw [hu] at hv
    exact ⟨n, Q', al', settled_step ca aT hv⟩
  | predict _ hr ih =>
    obtain ⟨n, Q, al, ca⟩ := ih
    obtain ⟨rfl, Q', al', s⟩ := al.predict hr
    exact ⟨n, Q', al', settled_same ca s⟩
  | draws _ ih =>
    obtain ⟨n, Q, al, ca⟩ := ih
    exact ⟨n, Q, al.draws _ _ _ _, ca⟩

end Goslide.Network
