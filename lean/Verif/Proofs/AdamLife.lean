import Verif.Proofs.AdamBound
import Verif.Props.NetworkCow
/-
The bound on the moments during the life of a network, and how far the calls move the weights.
-/
set_option linter.unusedSectionVars false
namespace Goslide.Network
open Goslide Node Lsh Configuration Spec.Node Spec.Network Layer Xcrepo

theorem paced_of_net {w : World ℝ} {p : Ptr} {n n' : Network ℝ} {Q Q' : List (State ℝ)} (N : NetAt w p n Q) (N' : NetAt w p n' Q') (h : AllPaced Q) : AllPaced Q' := by
  have e := (Props.learned_at N).symm.trans (Props.learned_at N')
  rw [Option.some.injEq] at e
  intro g' hg' v' hv'
  have : (g'.views.map View.params, g'.tables, g'.order) ∈ Q.map (fun g => (g.views.map View.params, g.tables, g.order)) := by
    rw [e]
    exact List.mem_map.mpr ⟨g', hg', rfl⟩
  obtain ⟨g, hg, e⟩ := List.mem_map.mp this
  have e := congrArg Prod.fst e
  have : v'.params ∈ g.views.map View.params := by
    dsimp only at e
    rw [e]
    exact List.mem_map.mpr ⟨v', hv', rfl⟩
  obtain ⟨v, hv, e⟩ := List.mem_map.mp this
  rw [← e]
  exact h g hg v hv

theorem weightsOf_at {w : World ℝ} {p : Ptr} {n : Network ℝ} {Q : List (State ℝ)} (N : NetAt w p n Q) :
    weightsOf w p = some (Q.map (fun g => g.views.map (fun v => (v.params.weights, v.params.bias)))) := by
  unfold weightsOf
  rw [Props.learned_at N]
  simp [Function.comp_def]

/-- A training step of a network whose moments are bounded. -/
theorem paced_train {cfg : Config ℝ} (hu : cfg.UseAdam = true) {b dim fuel : Nat} {c : Int} {w w' : World ℝ} {p p' : Ptr} {n : Network ℝ} {Q : List (State ℝ)}
    {es : List (Example ℝ)} {iter : Int} {rehash rebuild : Bool} {x : ℝ} (t : Trainable cfg b dim c w p n Q)
    (hr : processInput cfg fuel p c es iter rehash rebuild w = .ok ((x, p'), w')) (h : AllPaced Q) :
    p' = p ∧ ∃ Q', NetAt w' p n Q' ∧ AllPaced Q' ∧ (0 ≤ adamRate n.learningRate iter →
      Near (728 / 100 * adamRate n.learningRate iter) (Q.map (fun g => g.views.map (fun v => (v.params.weights, v.params.bias))))
        (Q'.map (fun g => g.views.map (fun v => (v.params.weights, v.params.bias))))) := by
  obtain ⟨e, T, Q', t', -, -, lQ, hupd⟩ := Props.C67_adam_update hu t hr
  have key : ∀ (j : Nat) (g g' : State ℝ), Q[j]? = some g → Q'[j]? = some g' → g'.views.length = g.views.length ∧
      ∀ (i : Nat) (v v' : View ℝ), g.views[i]? = some v → g'.views[i]? = some v' → ∃ G gb, AdamStep (adamRate n.learningRate iter) v.params G gb v'.params ∧
        v.params.mom.length = v.params.weights.length ∧ v.params.vel.length = v.params.weights.length ∧ v'.params.mom.length = v'.params.weights.length := by
    intro j g g' hg hg'
    obtain ⟨g2, vs, hg2, hl, -, hn⟩ := hupd j g hg
    rw [hg'] at hg2
    cases hg2
    refine ⟨by unfold State.views; simpa using hl, fun i v v' hv hv' => ?_⟩
    obtain ⟨V, v2, -, hv2, s⟩ := hn i v hv
    rw [hv'] at hv2
    cases hv2
    have s1 := t.shaped.nodes j g hg v (List.mem_of_getElem? hv)
    have s2 := t'.shaped.nodes j g' hg' v' (List.mem_of_getElem? hv')
    have a1 := s1.adam hu
    have a2 := s2.adam hu
    exact ⟨_, _, s, by rw [a1.1, s1.weights], by rw [a1.2.1, s1.weights], by rw [a2.1, s2.weights]⟩
  refine ⟨e, Q', t'.net, ?_, ?_⟩
  · intro g' hg' v' hv'
    obtain ⟨j, hj⟩ := List.mem_iff_getElem?.mp hg'
    obtain ⟨i, hi⟩ := List.mem_iff_getElem?.mp hv'
    have hlt := (List.getElem?_eq_some_iff.mp hj).1
    have hg := List.getElem?_eq_getElem (l := Q) (i := j) (by omega)
    obtain ⟨k1, k2⟩ := key j _ g' hg hj
    have hlt' := (List.getElem?_eq_some_iff.mp hi).1
    have hv := List.getElem?_eq_getElem (l := Q[j].views) (i := i) (by omega)
    obtain ⟨G, gb, s, l1, l2, l3⟩ := k2 i _ v' hv hi
    exact paced_step (h _ (List.mem_of_getElem? hg) _ (List.mem_of_getElem? hv)) s l1 l2 l3
  · intro hlr
    unfold Near
    rw [List.forall₂_map_left_iff, List.forall₂_map_right_iff, List.forall₂_iff_get]
    refine ⟨lQ.symm, fun j hj hj' => ?_⟩
    obtain ⟨k1, k2⟩ := key j _ _ (List.getElem?_eq_getElem hj) (List.getElem?_eq_getElem hj')
    rw [List.forall₂_map_left_iff, List.forall₂_map_right_iff, List.forall₂_iff_get]
    refine ⟨k1.symm, fun i hi hi' => ?_⟩
    obtain ⟨G, gb, s, l1, l2, l3⟩ := k2 i _ _ (List.getElem?_eq_getElem hi) (List.getElem?_eq_getElem hi')
    exact near_step hlr (h _ (List.getElem_mem hj) _ (List.getElem_mem hi)) s l1 l2

theorem _root_.Goslide.Spec.Network.Life.paced {cfg : Config ℝ} (hl : cfg.LoadWeight = false) (hu : cfg.UseAdam = true) {c : Int} {a : NetArgs ℝ} (ha : a.Typed)
    {w : World ℝ} {p : Ptr} (h : Life cfg c a w p) : ∃ n Q, Alive cfg c a w p n Q ∧ AllPaced Q := by
  induction h with
  | new h =>
    obtain ⟨n, Q, N, hp⟩ := paced_new hl ha h
    obtain ⟨n', Q', al⟩ := Alive.new hl ha h
    exact ⟨n', Q', al, paced_of_net N al.trainable.net hp⟩
  | train h0 hr ih =>
    obtain ⟨n, Q, al, ca⟩ := ih
    obtain ⟨rfl, Q1, N, hp, -⟩ := paced_train hu al.trainable hr ca
    obtain ⟨-, T, Q', -, aT, al', -⟩ := al.step hr
    exact ⟨n, Q', al', paced_of_net N al'.trainable.net hp⟩
  | predict _ hr ih =>
    obtain ⟨n, Q, al, ca⟩ := ih
    obtain ⟨rfl, Q', al', s⟩ := al.predict hr
    refine ⟨n, Q', al', fun g' hg' v' hv' => ?_⟩
    obtain ⟨j, hj⟩ := List.mem_iff_getElem?.mp hg'
    have hlt := (List.getElem?_eq_some_iff.mp hj).1
    have hg := List.getElem?_eq_getElem (l := Q) (i := j) (by rw [← s.1]; exact hlt)
    have : v'.params ∈ (Q[j]'(by rw [← s.1]; exact hlt)).views.map View.params := by
      rw [← (s.2 j _ g' hg hj).params]
      exact List.mem_map.mpr ⟨v', hv', rfl⟩
    obtain ⟨v, hv, e⟩ := List.mem_map.mp this
    rw [← e]
    exact ca _ (List.mem_of_getElem? hg) v hv
  | draws _ ih =>
    obtain ⟨n, Q, al, ca⟩ := ih
    exact ⟨n, Q, al.draws _ _ _ _, ca⟩

theorem near_refl (X : List (List (List ℝ × ℝ))) : Near 0 X X := by
  unfold Near
  refine List.forall₂_same.mpr (fun vs _ => List.forall₂_same.mpr (fun v _ => ⟨List.forall₂_same.mpr (fun a _ => by simp), by simp⟩))

theorem forall₂_trans {R S T : α → α → Prop} (h : ∀ a b c, R a b → S b c → T a c) : ∀ {x y z : List α}, List.Forall₂ R x y → List.Forall₂ S y z → List.Forall₂ T x z
  | _, _, _, .nil, .nil => .nil
  | _, _, _, .cons a as, .cons b bs => .cons (h _ _ _ a b) (forall₂_trans h as bs)

theorem near_trans {d e : ℝ} {X Y Z : List (List (List ℝ × ℝ))} (h1 : Near d X Y) (h2 : Near e Y Z) : Near (d + e) X Z := by
  have tri : ∀ a b c : ℝ, |b - a| ≤ d → |c - b| ≤ e → |c - a| ≤ d + e := fun a b c h1 h2 => by
    have := abs_sub_le c b a
    linarith
  unfold Near at *
  refine forall₂_trans (fun _ _ _ g1 g2 => ?_) h1 h2
  refine forall₂_trans (fun _ _ _ v1 v2 => ?_) g1 g2
  exact ⟨forall₂_trans tri v1.1 v2.1, tri _ _ _ v1.2 v2.2⟩

theorem near_mono {d e : ℝ} (h : d ≤ e) {X Y : List (List (List ℝ × ℝ))} (h1 : Near d X Y) : Near e X Y :=
  h1.imp (fun _ _ g => g.imp (fun _ _ v => ⟨v.1.imp (fun _ _ a => a.trans h), v.2.trans h⟩))

end Goslide.Network
