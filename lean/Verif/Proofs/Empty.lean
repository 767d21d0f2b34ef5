import Verif.Proofs.NetworkSettled
import Verif.Spec.Empty
/-
Without Adam the mirror biases are the biases whenever no training step is running.
-/
set_option linter.unusedSectionVars false
namespace Goslide.Network
open Goslide Node Lsh Configuration Spec.Node Spec.Network Layer Xcrepo
variable {F : Type} [GoFloat F]

/-- The mirror biases are the biases. -/
def Mirrored (Q : List (State F)) : Prop := ∀ g ∈ Q, ∀ v ∈ g.views, v.params.mirrorBias = v.params.bias

theorem mirrored_new {cfg : Config F} (hl : cfg.LoadWeight = false) {c : Int} {a : NetArgs F} (ha : a.Typed) {w w' : World F} {p : Ptr}
    (hr : Network.new cfg c a.layers a.sizes a.types a.batch a.rate a.dim a.k a.l a.rangePow a.sparsity w = .ok (p, w')) :
    ∃ n Q, Alive cfg c a w' p n Q ∧ Mirrored Q := by
  obtain ⟨n2, Q2, t, e1, e2, e3, hb⟩ := new_trainable hl hr ha.types ha.last
  refine ⟨n2, Q2, ⟨t, e1, e2, e3, ?_, ?_⟩, ?_⟩
  · cases hq : Q2.length with
    | zero => omega
    | succ m =>
      obtain ⟨_, -, -, -, h⟩ := hb m _ (List.getElem?_eq_getElem (by omega))
      omega
  · intro j g hg
    obtain ⟨prev, ⟨size, ty, k, l, rp, P, w1, w2, q1, q2, q3, q4, q5, B⟩, h0, h1, -⟩ := hb j g hg
    exact ⟨size, prev, ty, k, l, rp, q1, q2, q3, q4, q5, kept_of_built B, h0, h1⟩
  · intro g hg v hv
    obtain ⟨j, hj⟩ := List.mem_iff_getElem?.mp hg
    obtain ⟨prev, ⟨size, ty, k, l, rp, P, w1, w2, -, -, -, -, -, B⟩, -⟩ := hb j g hj
    unfold State.views at hv
    rw [B.nodes] at hv
    obtain ⟨z, hz, rfl⟩ := List.mem_map.mp hv
    obtain ⟨m, hm, rfl⟩ := mem_nodes hz
    rfl

theorem _root_.Goslide.Spec.Network.Life.mirrored [FloatOrder F] {cfg : Config F} (hl : cfg.LoadWeight = false) (hu : cfg.UseAdam = false) {c : Int} {a : NetArgs F} (ha : a.Typed)
    {w : World F} {p : Ptr} (h : Life cfg c a w p) : ∃ n Q, Alive cfg c a w p n Q ∧ Mirrored Q := by
  induction h with
  | new h => exact mirrored_new hl ha h
  | train _ hr ih =>
    obtain ⟨n, Q, al, ca⟩ := ih
    obtain ⟨e, T, Q', -, aT, al', hv, -⟩ := al.step hr
    have e := congrArg Prod.snd e
    dsimp only at e
    rw [e]
    refine ⟨n, Q', al', fun g hg v hv' => ?_⟩
    have : g.views ∈ Q'.map State.views := List.mem_map.mpr ⟨g, hg, rfl⟩
    rw [hv, hu] at this
    obtain ⟨vs, -, h2⟩ := List.mem_map.mp this
    rw [← h2] at hv'
    obtain ⟨u, -, rfl⟩ := List.mem_map.mp hv'
    rfl
  | predict _ hr ih =>
    obtain ⟨n, Q, al, ca⟩ := ih
    obtain ⟨rfl, Q', al', s⟩ := al.predict hr
    refine ⟨n, Q', al', fun g' hg' v' hv' => ?_⟩
    obtain ⟨j, hj⟩ := List.mem_iff_getElem?.mp hg'
    have hlt := (List.getElem?_eq_some_iff.mp hj).1
    have hg := List.getElem?_eq_getElem (l := Q) (i := j) (by rw [← s.1]; exact hlt)
    have : v'.params ∈ (Q[j]'(by rw [← s.1]; exact hlt)).views.map View.params := by
      rw [← (s.2 j _ g' hg hj).params]
      exact List.mem_map.mpr ⟨v', hv', rfl⟩
    obtain ⟨v, hv, e⟩ := List.mem_map.mp this
    rw [← e]
    exact ca _ (List.mem_of_getElem? hg) v hv
  | draws _ ih =>
    obtain ⟨n, Q, al, ca⟩ := ih
    exact ⟨n, Q, al.draws _ _ _ _, ca⟩

theorem memory_sgd {lr : F} {v : View F} (h : v.params.mirrorBias = v.params.bias) : memory (finishView false lr v).params = memory v.params := by
  unfold memory finishView finished
  rw [if_neg (by decide)]
  dsimp only
  rw [h]

theorem zipWith_zero {f : F → F → F} {z : F} : ∀ {l t : List F}, t.length = l.length → (∀ x ∈ t, x = z) → List.zipWith f l t = l.map (fun x => f x z)
  | [], [], _, _ => rfl
  | x :: l, y :: t, hl, h => by
    rw [List.zipWith_cons_cons, List.map_cons, h y (by simp), zipWith_zero (by simpa using hl) (fun x hx => h x (by simp [hx]))]

theorem memory_adam {lr : F} {v : View F} (h1 : v.params.t.length = v.params.mom.length) (h2 : v.params.t.length = v.params.vel.length)
    (hz : v.params.tBias = GoFloat.zero ∧ ∀ x ∈ v.params.t, x = GoFloat.zero) : memory (finishView true lr v).params = drift lr (memory v.params) := by
  unfold memory finishView finished
  rw [if_pos rfl]
  dsimp only
  rw [hz.1, zipWith_zero h1 hz.2, zipWith_zero h2 hz.2]
  rfl

end Goslide.Network
