import Verif.Proofs.LayerFresh
import Verif.Proofs.NetworkForward
/-
The memory after `network.New`.
-/
set_option linter.unusedSectionVars false
namespace Goslide.Network
open Goslide Node Lsh Configuration Spec.Node Spec.Network Layer
variable {F : Type} [GoFloat F]

theorem goGet_some {α : Type} {l : List α} {j : Nat} {x : α} (h : goGet l (j : Int) = .ok x) : l[j]? = some x := by
  rw [goGet_ofNat] at h
  cases hs : l[j]? with
  | none => rw [hs] at h; cases h
  | some v => rw [hs] at h; cases h; rfl

/-- A new layer at position `j` of a network. -/
def BuiltAt (cfg : Config F) (c : Int) (sizes types : List Int) (b : Int) (ks ls rps : List Int) (j : Nat) (prev : Int) (g : State F) : Prop :=
  ∃ size ty k l rp P w w', sizes[j]? = some size ∧ types[j]? = some ty ∧ ks[j]? = some k ∧ ls[j]? = some l ∧ rps[j]? = some rp ∧
    Built cfg c size prev ty b k l rp w w' P g

/-- The weights of new layers with `prev` inputs, made of the draws `f`. -/
def Inits (adam : Bool) (f : Nat → F) : Nat → List (State F) → Prop
  | _, [] => True
  | prev, g :: Q => (∃ (P : Plan F) (h : Heap F), g.nodes = P.nodes h ∧ P.adam = adam ∧ P.p = prev ∧ P.ws = normals f 0 (P.n * P.p) ∧ P.bs = normals f (P.n * P.p) P.n) ∧
      Inits adam (fun i => f (i + g.nodes.length + g.nodes.length * prev)) g.nodes.length Q

/-- New layers in memory. -/
structure NewLayers (cfg : Config F) (c : Int) (sizes types : List Int) (b : Int) (ks ls rps : List Int) (sp : List F) (n i : Nat) (prev : Int)
    (w w' : World F) (Q : List (State F)) : Prop where
  len : Q.length = n
  built : ∀ (k : Nat) (g : State F), Q[k]? = some g → ∃ prev', BuiltAt cfg c sizes types b ks ls rps (i + k) prev' g ∧
    (k = 0 → prev' = prev) ∧ (∀ k', k = k' + 1 → sizes[i + k']? = some prev') ∧ i + k < sp.length
  stored : ∀ g ∈ Q, Stored w' g
  apart : Q.Pairwise (fun a b => Apart a b ∧ Apart b a)
  group : ∀ Z, GroupZ w.heap Z → GroupZ w'.heap (Q.flatMap State.nodes ++ Z)
  owned : ∀ Z, GroupZ w.heap Z → OwnedZ w.heap Z c → OwnedZ w'.heap (Q.flatMap State.nodes ++ Z) c
  old : ∀ g0, Stored w g0 → Stored w' g0 ∧ ∀ g ∈ Q, Apart g g0 ∧ Apart g0 g
  layerArrs : w'.layerArrs = w.layerArrs
  networks : w'.networks = w.networks
  init : Inits cfg.UseAdam w.norms prev.toNat Q

theorem newLayers_run {cfg : Config F} (hl : cfg.LoadWeight = false) {c b : Int} {sizes types ks ls rps : List Int} {sp : List F} :
    ∀ (n i : Nat) (prev : Int) {ps : List Ptr} {w w' : World F},
      newLayers cfg c sizes types b ks ls rps sp n i prev w = .ok (ps, w') →
      ∃ Q, ps = Q.map State.ptr ∧ NewLayers cfg c sizes types b ks ls rps sp n i prev w w' Q
  | 0, i, prev, ps, w, w', hr => by
    cases hr
    exact ⟨[], rfl, rfl, by simp, by simp, .nil, fun Z h => h, fun Z _ h => h, fun g0 h => ⟨h, by simp⟩, rfl, rfl, trivial⟩
  | n + 1, i, prev, ps, w, w', hr => by
    unfold newLayers at hr
    replace hr := M.bind_eq_ok hr
    obtain ⟨size, _, h1, hr⟩ := hr
    obtain ⟨q1, e⟩ := lift_ok h1
    subst e
    replace hr := M.bind_eq_ok hr
    obtain ⟨ty, _, h2, hr⟩ := hr
    obtain ⟨q2, e⟩ := lift_ok h2
    subst e
    replace hr := M.bind_eq_ok hr
    obtain ⟨k, _, h3, hr⟩ := hr
    obtain ⟨q3, e⟩ := lift_ok h3
    subst e
    replace hr := M.bind_eq_ok hr
    obtain ⟨l, _, h4, hr⟩ := hr
    obtain ⟨q4, e⟩ := lift_ok h4
    subst e
    replace hr := M.bind_eq_ok hr
    obtain ⟨rp, _, h5, hr⟩ := hr
    obtain ⟨q5, e⟩ := lift_ok h5
    subst e
    replace hr := M.bind_eq_ok hr
    obtain ⟨spi, _, h6, hr⟩ := hr
    obtain ⟨q6, e⟩ := lift_ok h6
    subst e
    replace hr := M.bind_eq_ok hr
    obtain ⟨p, w1, h7, hr⟩ := hr
    replace hr := M.bind_eq_ok hr
    obtain ⟨ps', w2, h8, hr⟩ := hr
    cases hr
    obtain ⟨P, g, rfl, B⟩ := new_run hl h7
    obtain ⟨Q, rfl, N⟩ := newLayers_run hl n (i + 1) size h8
    have hs := goGet_some q1
    refine ⟨g :: Q, rfl, by simp [N.len], ?_, ?_, ?_, ?_, ?_, ?_, N.layerArrs.trans B.layerArrs, N.networks.trans B.networks, ?_⟩
    · intro m g1 hm
      cases m with
      | zero =>
        cases hm
        exact ⟨prev, ⟨size, ty, k, l, rp, P, _, _, hs, goGet_some q2, goGet_some q3, goGet_some q4, goGet_some q5, B⟩, fun _ => rfl,
          fun k' hk => (Nat.succ_ne_zero _ hk.symm).elim, (List.getElem?_eq_some_iff.mp (goGet_some q6)).1⟩
      | succ m =>
        obtain ⟨prev', b1, b2, b3, b4⟩ := N.built m g1 (by simpa using hm)
        rw [show i + (m + 1) = i + 1 + m by omega]
        refine ⟨prev', b1, fun h => absurd h (by omega), fun k' hk' => ?_, b4⟩
        obtain rfl : m = k' := by omega
        cases m with
        | zero => rw [b2 rfl]; exact hs
        | succ m => rw [show i + (m + 1) = i + 1 + m by omega]; exact b3 m rfl
    · intro g1 hg1
      rcases List.mem_cons.mp hg1 with rfl | hg1
      · exact (N.old _ B.stored).1
      · exact N.stored g1 hg1
    · refine List.pairwise_cons.mpr ⟨fun g1 hg1 => ?_, N.apart⟩
      have := (N.old _ B.stored).2 g1 hg1
      exact ⟨this.2, this.1⟩
    · intro Z hZ
      have := N.group _ (B.group Z hZ)
      refine this.perm ?_
      rw [List.flatMap_cons, ← List.append_assoc]
      exact List.perm_append_comm.append_right Z
    · intro Z hZ ho
      have := N.owned _ (B.group Z hZ) (B.owned Z hZ ho)
      refine this.perm ?_
      rw [List.flatMap_cons, ← List.append_assoc]
      exact List.perm_append_comm.append_right Z
    · intro g0 h0
      obtain ⟨h1, h2, h3⟩ := B.old g0 h0
      obtain ⟨h4, h5⟩ := N.old g0 h1
      refine ⟨h4, fun g1 hg1 => ?_⟩
      rcases List.mem_cons.mp hg1 with rfl | hg1
      · exact ⟨h2, h3⟩
      · exact h5 g1 hg1
    · have hp : P.p = prev.toNat := by have := B.pP; omega
      have hn : g.nodes.length = P.n := by rw [B.nodes, Plan.nodes]; simp
      refine ⟨⟨P, _, B.nodes, B.pAdam, hp, B.draws.1, B.draws.2⟩, ?_⟩
      have := N.init
      rw [B.norms, show size.toNat = P.n by have := B.pN; omega] at this
      rw [hn, ← hp]
      exact this

/-- The network that `New` leaves in memory. -/
theorem new_net_init {cfg : Config F} (hl : cfg.LoadWeight = false) {c nl b dim : Int} {sizes types ks ls rps : List Int} {lr : F}
    {sp : List F} {p : Ptr} {w w' : World F} (hr : new cfg c nl sizes types b lr dim ks ls rps sp w = .ok (p, w')) :
    ∃ n Q, Inits cfg.UseAdam w.norms dim.toNat Q ∧ NetAt w' p n Q ∧ OwnedBy w' Q c ∧ n.cowId = c ∧ n.learningRate = lr ∧ n.numberOfLayers = nl ∧ n.sparsity = sp ∧
      ∀ (k : Nat) (g : State F), Q[k]? = some g → ∃ prev', BuiltAt cfg c sizes types b ks ls rps k prev' g ∧
        (k = 0 → prev' = dim) ∧ (∀ k', k = k' + 1 → sizes[k']? = some prev') ∧ k < sp.length := by
  unfold new at hr
  replace hr := M.bind_eq_ok hr
  obtain ⟨_, w0, h0, hr⟩ := hr
  have hnl : 0 ≤ nl ∧ w0 = w := by
    unfold checkLen at h0
    split at h0
    · cases h0
    · cases h0; exact ⟨by omega, rfl⟩
  obtain ⟨hnl, rfl⟩ := hnl
  replace hr := M.bind_eq_ok hr
  obtain ⟨ps, w1, h1, hr⟩ := hr
  obtain ⟨Q, rfl, N⟩ := newLayers_run hl _ _ _ h1
  cases hr
  have hZ : GroupZ w0.heap ([] : List (Ptr × View F)) := ⟨rfl, by simp, by simp, by simp⟩
  have hG := N.group [] hZ
  have hO := N.owned [] hZ (by intro p hp; cases hp)
  rw [List.append_nil] at hG hO
  refine ⟨{ cowId := c, hiddenLayers := { arr := w1.layerArrs.length, off := 0, len := (Q.map State.ptr).length }, learningRate := lr, numberOfLayers := nl, sparsity := sp },
    Q, N.init, ⟨by simp, ?_, by rw [N.len]; show nl = _; omega⟩, ⟨hO, ?_⟩, rfl, rfl, rfl, rfl, ?_⟩
  · refine ⟨?_, ?_, hG, N.apart⟩
    · have := slice_new w1.layerArrs (Q.map State.ptr)
      simpa using this
    · intro g hg
      have S := N.stored g hg
      exact ⟨S.obj, S.nodes, S.order, S.norm, S.tables⟩
  · intro g hg
    obtain ⟨k, hk⟩ := List.mem_iff_getElem?.mp hg
    obtain ⟨_, ⟨_, _, _, _, _, _, _, _, _, _, _, _, _, B⟩, _⟩ := N.built k g hk
    exact B.oCow
  · intro k g hk
    have := N.built k g hk
    simpa using this

theorem new_net {cfg : Config F} (hl : cfg.LoadWeight = false) {c nl b dim : Int} {sizes types ks ls rps : List Int} {lr : F}
    {sp : List F} {p : Ptr} {w w' : World F} (hr : new cfg c nl sizes types b lr dim ks ls rps sp w = .ok (p, w')) :
    ∃ n Q, NetAt w' p n Q ∧ OwnedBy w' Q c ∧ n.cowId = c ∧ n.learningRate = lr ∧ n.numberOfLayers = nl ∧ n.sparsity = sp ∧
      ∀ (k : Nat) (g : State F), Q[k]? = some g → ∃ prev', BuiltAt cfg c sizes types b ks ls rps k prev' g ∧
        (k = 0 → prev' = dim) ∧ (∀ k', k = k' + 1 → sizes[k']? = some prev') ∧ k < sp.length := by
  obtain ⟨n, Q, -, h⟩ := new_net_init hl hr
  exact ⟨n, Q, h⟩

end Goslide.Network
