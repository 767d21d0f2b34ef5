import Verif.Proofs.BatchShare
import Verif.Proofs.NetworkUnique
import Verif.Proofs.MemoryOf
import Verif.Props.Gradient
/-
A training step of a network of full layers: the new weights and moments depend on the old ones and on the examples of the batch, not on their order.
-/
set_option linter.unusedSectionVars false
namespace Goslide.Network
open Goslide Node Lsh Configuration Spec.Node Spec.Network Layer Xcrepo

theorem getElem?_map_inj {α β γ : Type} {f : α → γ} {g : β → γ} {l : List α} {m : List β} (h : l.map f = m.map g) {i : Nat} {x : α} {y : β}
    (hx : l[i]? = some x) (hy : m[i]? = some y) : f x = g y := by
  have := congrArg (fun z => z[i]?) h
  simpa [List.getElem?_map, hx, hy] using this

theorem map_eq_at {α β γ : Type} {f : α → γ} {g : β → γ} {l : List α} {m : List β} (hl : l.length = m.length)
    (h : ∀ (i : Nat) (x : α) (y : β), l[i]? = some x → m[i]? = some y → f x = g y) : l.map f = m.map g := by
  apply List.ext_getElem
  · simpa using hl
  · intro i h1 h2
    simp only [List.length_map] at h1 h2
    simp only [List.getElem_map]
    exact h i _ _ (List.getElem?_eq_getElem h1) (List.getElem?_eq_getElem h2)

/-- An Adam step of two nodes with the same weights and moments and the same gradients. -/
theorem adam_memory {lr : ℝ} {P P' R R' : Params ℝ} {G H : List ℝ} {gb hb : ℝ} (s : AdamStep lr P G gb P') (s' : AdamStep lr R H hb R')
    (hm : memory P = memory R) (hG : ∀ q : Nat, q < P.weights.length → G[q]? = H[q]?) (hb' : gb = hb)
    (l1 : P.mom.length = P.weights.length) (l2 : P.vel.length = P.weights.length) (l3 : P'.mom.length = P.weights.length) (l4 : P'.vel.length = P.weights.length)
    (l5 : R'.mom.length = P.weights.length) (l6 : R'.vel.length = P.weights.length) : memory P' = memory R' := by
  unfold memory at hm
  obtain ⟨e1, e2, e3, e4, e5, e6⟩ := Memory.mk.inj hm
  have key : ∀ k : Nat, k < P.weights.length → P'.mom[k]? = R'.mom[k]? ∧ P'.vel[k]? = R'.vel[k]? ∧ P'.weights[k]? = R'.weights[k]? := by
    intro k hk
    have hg : G[k]? = some (G[k]'(by rw [s.len.2.2]; exact hk)) := List.getElem?_eq_getElem _
    have hw : P.weights[k]? = some P.weights[k] := List.getElem?_eq_getElem hk
    have hmo : P.mom[k]? = some (P.mom[k]'(by omega)) := List.getElem?_eq_getElem _
    have hve : P.vel[k]? = some (P.vel[k]'(by omega)) := List.getElem?_eq_getElem _
    obtain ⟨a1, a2, m1, v1, a3, a4, a5⟩ := s.step k _ _ _ _ hw hmo hve hg
    obtain ⟨b1, b2, m2, v2, b3, b4, b5⟩ := s'.step k _ _ _ _ (by rw [← e1]; exact hw) (by rw [← e3]; exact hmo) (by rw [← e4]; exact hve)
      (by rw [← hG k hk]; exact hg)
    have hm' : P'.mom[k]? = R'.mom[k]? := by rw [a1, b1]
    have hv' : P'.vel[k]? = R'.vel[k]? := by rw [a2, b2]
    rw [a3, b3] at hm'
    rw [a4, b4] at hv'
    cases hm'
    cases hv'
    exact ⟨by rw [a3, b3], by rw [a4, b4], by rw [a5, b5]⟩
  have ext : ∀ {x y : List ℝ}, x.length = P.weights.length → y.length = P.weights.length → (∀ k, k < P.weights.length → x[k]? = y[k]?) → x = y := by
    intro x y hx hy h
    apply List.ext_getElem?
    intro k
    by_cases hk : k < P.weights.length
    · exact h k hk
    · rw [List.getElem?_eq_none (by omega), List.getElem?_eq_none (by omega)]
  have f1 : P'.weights = R'.weights := ext s.len.1 (by rw [s'.len.1, ← e1]) (fun k hk => (key k hk).2.2)
  have f3 : P'.mom = R'.mom := ext l3 l5 (fun k hk => (key k hk).1)
  have f4 : P'.vel = R'.vel := ext l4 l6 (fun k hk => (key k hk).2.1)
  have f5 : P'.momBias = R'.momBias := by rw [s.momBias, s'.momBias, e5, hb']
  have f6 : P'.velBias = R'.velBias := by rw [s.velBias, s'.velBias, e6, hb']
  have f2 : P'.bias = R'.bias := by rw [s.bias, s'.bias, e2, f5, f6]
  unfold memory
  rw [f1, f2, f3, f4, f5, f6]

/-- All layers are full. -/
def AllFull (a : NetArgs ℝ) : Prop := ∀ sp ∈ a.sparsity, GoFloat.eq sp (GoFloat.one : ℝ) = true

/-- Networks that may differ in their hash tables only. -/
structure SameNet (a a' : NetArgs ℝ) : Prop where
  layers : a.layers = a'.layers
  types : a.types = a'.types
  batch : a.batch = a'.batch
  rate : a.rate = a'.rate

theorem zip_const {α β : Type} (x : β) : ∀ (l : List α) (m : List β), m.length = l.length → (∀ y ∈ m, y = x) → l.zip m = l.map (fun z => (z, x))
  | [], [], _, _ => rfl
  | _ :: l, y :: m, hl, h => by
    rw [List.zip_cons_cons, List.map_cons, h y (by simp), zip_const x l m (by simpa using hl) (fun y hy => h y (by simp [hy]))]

theorem full_sets {a : NetArgs ℝ} (hf : AllFull a) {Q : List (State ℝ)} {k : Nat} {S : List (List Int)} (h : TrainedOn a.sparsity Q k S) :
    S = Q.map (fun g => (List.range g.views.length).map (fun (k : Nat) => (k : Int))) := by
  apply List.ext_getElem
  · rw [h.active.1]; simp
  · intro j h1 h2
    simp only [List.length_map] at h2
    obtain ⟨-, sp, h3, h4⟩ := h.active.2 j _ _ (List.getElem?_eq_getElem h2) (List.getElem?_eq_getElem h1)
    rw [h4 (hf sp (List.mem_of_getElem? h3)), List.getElem_map]
    unfold State.views
    rw [List.length_map]

theorem order_step {cfg cfg' : Config ℝ} (hu : cfg.UseAdam = true) (hu' : cfg'.UseAdam = true) {a a' : NetArgs ℝ} (hs : SameNet a a') (hf : AllFull a) (hf' : AllFull a')
    {fuel fuel' : Nat} {c c' : Int} {w w1 v v1 : World ℝ} {p p1 q q1 : Ptr} {n m : Network ℝ} {Q R : List (State ℝ)} (al : Alive cfg c a w p n Q) (st : Settled a Q)
    (al' : Alive cfg' c' a' v q m R) (st' : Settled a' R) {es es' : List (Example ℝ)} (hp : es.Perm es') {iter : Int} {rehash rebuild rehash' rebuild' : Bool} {x y : ℝ}
    (hr : processInput cfg fuel p c es iter rehash rebuild w = .ok ((x, p1), w1))
    (hr' : processInput cfg' fuel' q c' es' iter rehash' rebuild' v = .ok ((y, q1), v1)) (hm : memoryOf w p = memoryOf v q) :
    p1 = p ∧ q1 = q ∧ memoryOf w1 p = memoryOf v1 q := by
  obtain ⟨e, T, Q', t, lT, aT, lQ, hupd⟩ := Props.C67_adam_update hu al.trainable hr
  obtain ⟨e', T', R', t', lT', aT', lR, hupd'⟩ := Props.C67_adam_update hu' al'.trainable hr'
  refine ⟨e, e', ?_⟩
  rw [memoryOf_at al.trainable.net, memoryOf_at al'.trainable.net, Option.some.injEq] at hm
  rw [memoryOf_at t.net, memoryOf_at t'.net, Option.some.injEq]
  rw [al.rate] at hupd
  rw [al'.rate, ← hs.rate] at hupd'
  rw [al.sparsity] at aT
  rw [al'.sparsity] at aT'
  have hlen : Q.length = R.length := by simpa using congrArg List.length hm
  -- the layers agree in what the passes read
  have hview : ∀ (j : Nat) (g h : State ℝ), Q[j]? = some g → R[j]? = some h → g.views.length = h.views.length ∧
      ∀ (k : Nat) (u u' : View ℝ), g.views[k]? = some u → h.views[k]? = some u' → memory u.params = memory u'.params ∧ core u = core u' := by
    intro j g h hg hh
    have e1 := getElem?_map_inj hm hg hh
    refine ⟨by simpa using congrArg List.length e1, fun k u u' hk hk' => ?_⟩
    have e2 := getElem?_map_inj e1 hk hk'
    refine ⟨e2, ?_⟩
    obtain ⟨i1, i2⟩ := st.named j g k u hg hk
    obtain ⟨i3, i4⟩ := st'.named j h k u' hh hk'
    have s1 := (al.trainable.shaped.nodes j g hg u (List.mem_of_getElem? hk)).batch
    have s2 := (al'.trainable.shaped.nodes j h hh u' (List.mem_of_getElem? hk')).batch
    rw [hs.types, i4, Option.some.injEq] at i2
    obtain ⟨f1, f2, -⟩ := Memory.mk.inj e2
    unfold core
    rw [i1, i3, i2, s1, s2, hs.batch, f1, f2]
  have hcore : coreAll (R.map State.views) = coreAll (Q.map State.views) := by
    unfold coreAll
    rw [List.map_map, List.map_map]
    refine map_eq_at hlen.symm (fun j h g hh hg => ?_)
    obtain ⟨h1, h2⟩ := hview j g h hg hh
    exact map_eq_at h1.symm (fun k u' u hk' hk => (h2 k u u' hk hk').2.symm)
  have hsoft : R.map State.softmax = Q.map State.softmax := by
    refine map_eq_at hlen.symm (fun j h g hh hg => ?_)
    obtain ⟨_, _, ty, _, _, _, -, k1, -, -, -, k2, -⟩ := al.kept j g hg
    obtain ⟨_, _, ty', _, _, _, -, k3, -, -, -, k4, -⟩ := al'.kept j h hh
    rw [hs.types, k3, Option.some.injEq] at k1
    unfold State.softmax
    rw [k2.oTy, k4.oTy, k1]
  -- the active nodes
  have hperm : (es.zip T).Perm (es'.zip T') := by
    have hT : ∀ S ∈ T, S = Q.map (fun g => (List.range g.views.length).map (fun (k : Nat) => (k : Int))) := fun S hS => by
      obtain ⟨k, hk⟩ := List.mem_iff_getElem?.mp hS
      exact full_sets hf (aT k S hk)
    have hT' : ∀ S ∈ T', S = Q.map (fun g => (List.range g.views.length).map (fun (k : Nat) => (k : Int))) := fun S hS => by
      obtain ⟨k, hk⟩ := List.mem_iff_getElem?.mp hS
      rw [full_sets hf' (aT' k S hk)]
      refine map_eq_at hlen.symm (fun j h g hh hg => ?_)
      rw [(hview j g h hg hh).1]
    rw [zip_const _ es T lT hT, zip_const _ es' T' lT' hT']
    exact hp.map _
  refine map_eq_at (by rw [lQ, lR, hlen]) (fun j g1 h1 hg1 hh1 => ?_)
  have hj := (List.getElem?_eq_some_iff.mp hg1).1
  have hg := List.getElem?_eq_getElem (l := Q) (i := j) (by omega)
  have hh := List.getElem?_eq_getElem (l := R) (i := j) (by omega)
  generalize Q[j] = g at hg
  generalize R[j] = h at hh
  obtain ⟨gl, hn⟩ := hview j g h hg hh
  obtain ⟨g2, vs, q1, q2, q3, q4⟩ := hupd j g hg
  rw [hg1] at q1
  cases q1
  obtain ⟨h2, us, r1, r2, r3, r4⟩ := hupd' j h hh
  rw [hh1] at r1
  cases r1
  have lg : g1.views.length = g.views.length := by unfold State.views; simpa using q2
  have lh : h1.views.length = h.views.length := by unfold State.views; simpa using r2
  refine map_eq_at (by rw [lg, lh, gl]) (fun k u1 z1 hu1 hz1 => ?_)
  have hk := (List.getElem?_eq_some_iff.mp hu1).1
  have hu0 := List.getElem?_eq_getElem (l := g.views) (i := k) (by omega)
  have hz0 := List.getElem?_eq_getElem (l := h.views) (i := k) (by omega)
  generalize g.views[k] = u at hu0
  generalize h.views[k] = z at hz0
  obtain ⟨em, -⟩ := hn k u z hu0 hz0
  obtain ⟨V, u2, hV, hu2, s⟩ := q4 k u hu0
  rw [hu1] at hu2
  cases hu2
  obtain ⟨Z, z2, hZ, hz2, s'⟩ := r4 k z hz0
  rw [hz1] at hz2
  cases hz2
  have still : ∀ g ∈ Q.map State.views, Still g := fun x hx => by
    obtain ⟨g, hg, rfl⟩ := List.mem_map.mp hx
    exact st.still g hg
  have still' : ∀ g ∈ R.map State.views, Still g := fun x hx => by
    obtain ⟨g, hg, rfl⟩ := List.mem_map.mp hx
    exact st'.still g hg
  obtain ⟨vs2, V2, b1, b2, b3, b4⟩ := batch_share (lr := adamRate a.rate iter) (B := Q.map State.softmax) es T 0 (Q.map State.views) (by simp)
    (fun e S hS => by rw [Nat.zero_add]; exact slotsOk_of (aT e S hS)) still (by rw [List.getElem?_map, hg]; rfl) hu0
  rw [q3] at b1
  cases b1
  rw [hV] at b2
  cases b2
  obtain ⟨us2, Z2, c1, c2, c3, c4⟩ := batch_share (lr := adamRate a.rate iter) (B := R.map State.softmax) es' T' 0 (R.map State.views) (by simp)
    (fun e S hS => by rw [Nat.zero_add]; exact slotsOk_of (aT' e S hS)) still' (by rw [List.getElem?_map, hh]; rfl) hz0
  rw [r3] at c1
  cases c1
  rw [hZ] at c2
  cases c2
  rw [hsoft] at c3 c4
  obtain ⟨o1, o2⟩ := batch_order (B := Q.map State.softmax) hcore hperm j k
  obtain ⟨a1, a2⟩ := st.acc g (List.mem_of_getElem? hg) u (List.mem_of_getElem? hu0)
  obtain ⟨a3, a4⟩ := st'.acc h (List.mem_of_getElem? hh) z (List.mem_of_getElem? hz0)
  have sh := al.trainable.shaped.nodes j g hg u (List.mem_of_getElem? hu0)
  have sh' := al'.trainable.shaped.nodes j h hh z (List.mem_of_getElem? hz0)
  have sh1 := t.shaped.nodes j g1 hg1 u1 (List.mem_of_getElem? hu1)
  have sh1' := t'.shaped.nodes j h1 hh1 z1 (List.mem_of_getElem? hz1)
  have ew : u.params.weights = z.params.weights := (Memory.mk.inj em).1
  have lu : u1.params.weights.length = u.params.weights.length := s.len.1
  have lz : z1.params.weights.length = u.params.weights.length := by rw [s'.len.1, ew]
  refine adam_memory s s' em (fun q hq => ?_) ?_ ?_ ?_ ?_ ?_ ?_ ?_
  · have ht : u.params.t[q]? = some (u.params.t[q]'(by rw [(sh.adam hu).2.2, ← sh.weights]; exact hq)) := List.getElem?_eq_getElem _
    have ht' : z.params.t[q]? = some (z.params.t[q]'(by rw [(sh'.adam hu').2.2, ← sh'.weights, ← ew]; exact hq)) := List.getElem?_eq_getElem _
    rw [b3 q _ ht, c3 q _ ht', a2 _ (List.getElem_mem _), a4 _ (List.getElem_mem _), o1 q]
  · rw [b4, c4, a1, a3, o2]
  · rw [(sh.adam hu).1, sh.weights]
  · rw [(sh.adam hu).2.1, sh.weights]
  · rw [(sh1.adam hu).1, ← sh1.weights, lu]
  · rw [(sh1.adam hu).2.1, ← sh1.weights, lu]
  · rw [(sh1'.adam hu').1, ← sh1'.weights, lz]
  · rw [(sh1'.adam hu').2.1, ← sh1'.weights, lz]

end Goslide.Network
