import Verif.Proofs.Active
import Verif.Proofs.ActiveBound
import Verif.Proofs.Empty
import Verif.Proofs.MemoryOf
import Verif.Props.Layer
/-
A training step changes the active nodes only, and these are few: C94.
-/
set_option linter.unusedSectionVars false
namespace Goslide.Props
open Goslide Node Lsh Configuration Spec.Node Spec.Network Layer Network Xcrepo Spec
variable {F : Type} [GoFloat F]

theorem noTrain_params : NoTrain (F := F) View.params := fun _ _ _ => rfl

theorem nodeAt_look {w : World F} {p : Ptr} {n : Network F} {Q : List (State F)} (N : NetAt w p n Q) (j i : Nat) :
    nodeAt w p j i = look (fun v => memory v.params) j i (Q.map State.views) := by
  unfold nodeAt Network.look
  rw [memoryOf_at N, Option.bind_some, List.getElem?_map, List.getElem?_map]
  cases Q[j]? with
  | none => rfl
  | some g => simp

theorem look_map {α : Type} (φ : View F → α) (h : View F → View F) (j i : Nat) (V : List (List (View F))) : look φ j i (V.map (List.map h)) = look (φ ∘ h) j i V := by
  unfold Network.look
  rw [List.getElem?_map]
  cases V[j]? with
  | none => rfl
  | some vs => simp

theorem look_some {α : Type} {φ : View F → α} {j i : Nat} {V : List (List (View F))} {x : α} (h : look φ j i V = some x) :
    ∃ vs v, V[j]? = some vs ∧ vs[i]? = some v ∧ φ v = x := by
  unfold Network.look at h
  obtain ⟨v, h1, h2⟩ := Option.map_eq_some_iff.mp h
  obtain ⟨vs, h3, h4⟩ := Option.bind_eq_some_iff.mp h1
  exact ⟨vs, v, h3, h4, h2⟩

theorem look_of {α : Type} (φ : View F → α) {j i : Nat} {V : List (List (View F))} {vs : List (View F)} {v : View F} (h : V[j]? = some vs) (h' : vs[i]? = some v) :
    look φ j i V = some (φ v) := by
  unfold Network.look
  rw [h, Option.bind_some, h', Option.map_some]

/-- The update of a weight depends on what is stored for it. -/
theorem inputMemory_finish {adam : Bool} {lr : F} {f : Nat} {u v : View F} (h : stored f v = stored f u) :
    inputMemory (memory (finishView adam lr v).params) f = inputMemory (memory (finishView adam lr u).params) f := by
  unfold stored at h
  simp only [Prod.mk.injEq] at h
  obtain ⟨⟨h1, h2, h3⟩, h4⟩ := h
  unfold inputMemory memory finishView finished
  cases adam with
  | false =>
    rw [if_neg (by decide), if_neg (by decide)]
    simp only [h1, h2, h3]
  | true =>
    rw [if_pos rfl, if_pos rfl]
    simp only [List.getElem?_zipWith, List.zip, h1, h2, h3, h4]

variable [FloatOrder F]

/-- A node whose parameters no example has changed is as `untrained` says after the step. -/
theorem _root_.Goslide.Spec.Network.Life.rests {cfg : Config F} (hl : cfg.LoadWeight = false) {a : NetArgs F} (ha : a.Typed) {c : Int} {w : World F} {p : Ptr}
    (life : Life cfg c a w p) (iter : Int) : ∃ n Q, Alive cfg c a w p n Q ∧ ∀ g ∈ Q, ∀ v ∈ g.views,
      memory (finishView cfg.UseAdam (stepSize cfg n.learningRate iter) v).params = untrained cfg a iter (memory v.params) := by
  cases hu : cfg.UseAdam with
  | false =>
    obtain ⟨n, Q, al, hm⟩ := life.mirrored hl hu ha
    refine ⟨n, Q, al, fun g hg v hv => ?_⟩
    unfold untrained
    rw [hu]
    exact memory_sgd (hm g hg v hv)
  | true =>
    obtain ⟨n, Q, al, st⟩ := life.settled hl hu ha
    refine ⟨n, Q, al, fun g hg v hv => ?_⟩
    have hlr : stepSize cfg n.learningRate iter = adamRate a.rate iter := by rw [← al.rate]; unfold stepSize; rw [if_pos hu]; rfl
    obtain ⟨j, hj⟩ := List.mem_iff_getElem?.mp hg
    have sh := (al.trainable.shaped.nodes j g hj v hv).adam hu
    unfold untrained
    rw [hu, hlr]
    exact memory_adam (by rw [sh.2.2, sh.1]) (by rw [sh.2.2, sh.2.1]) (st.acc g hg v hv)

/-- C94. A training step chooses active nodes for every example, in every layer, as `ActiveSets` says. It changes only nodes that are active for one of the
examples, and of the weights of a node only those of inputs that are active for an example for which the node is active too. With any arithmetic. -/
theorem C94_step {cfg : Config F} (hl : cfg.LoadWeight = false) {a : NetArgs F} (ha : a.Typed) {fuel : Nat} {c : Int} {w w' : World F} {p p' : Ptr}
    (life : Life cfg c a w p) {es : List (Example F)} {iter : Int} {rehash rebuild : Bool} {x : F}
    (hr : processInput cfg fuel p c es iter rehash rebuild w = .ok ((x, p'), w')) :
    p' = p ∧ ∃ T : List (List (List Int)), T.length = es.length ∧
      (∀ (k : Nat) (S : List (List Int)) (ex : Example F), T[k]? = some S → es[k]? = some ex → ActiveSets cfg a ex S) ∧
      ∀ (j i : Nat) (m : Memory F), nodeAt w p j i = some m → ∃ m', nodeAt w' p j i = some m' ∧
        (m' ≠ untrained cfg a iter m → ∃ (k : Nat) (S : List (List Int)), T[k]? = some S ∧ ActiveIn S j i) ∧
        ∀ f, inputMemory m' f ≠ inputMemory (untrained cfg a iter m) f →
          ∃ (k : Nat) (S : List (List Int)) (ex : Example F), T[k]? = some S ∧ es[k]? = some ex ∧ ActiveIn S j i ∧ InputIn ex S j f := by
  obtain ⟨n, Q, al, rest⟩ := life.rests hl ha iter
  obtain ⟨e, T, Q', lT, aT, al', hv, -⟩ := al.step_full hr
  have hsets : ∀ (k : Nat) (S : List (List Int)) (ex : Example F), T[k]? = some S → es[k]? = some ex → ActiveSets cfg a ex S := fun k S ex hS hex =>
    activeSets_of al (aT k S hS).1 ((aT k S hS).2 ex hex)
  refine ⟨congrArg Prod.snd e, T, lT, hsets, fun j i m hm => ?_⟩
  have hB : (Q.map State.softmax).length = (Q.map State.views).length := by simp
  have hT : ∀ S ∈ T, S.length = (Q.map State.views).length := fun S hS => by
    obtain ⟨k, hk⟩ := List.mem_iff_getElem?.mp hS
    rw [(aT k S hk).1.active.1]; simp
  rw [nodeAt_look al.trainable.net] at hm
  obtain ⟨us, u, h1, h2, rfl⟩ := look_some hm
  have hmem : ∃ g ∈ Q, u ∈ g.views := by
    rw [List.getElem?_map] at h1
    obtain ⟨g, hg, rfl⟩ := Option.map_eq_some_iff.mp h1
    exact ⟨g, List.mem_of_getElem? hg, List.mem_of_getElem? h2⟩
  obtain ⟨g, hg, hug⟩ := hmem
  rw [← rest g hg u hug]
  rw [nodeAt_look al'.trainable.net, hv, look_map]
  generalize hW : batchV cfg.UseAdam (stepSize cfg n.learningRate iter) (Q.map State.softmax) 0 es T (Q.map State.views) = W
  have hex : ∃ vs v, W[j]? = some vs ∧ vs[i]? = some v := by
    have := congrArg (Option.map (List.map (fun _ => ()))) (rfl : W[j]? = W[j]?)
    have hk := keeps_batch (φ := fun _ : View F => ()) (fun _ _ _ => rfl) (adam := cfg.UseAdam) (lr := stepSize cfg n.learningRate iter) (Q.map State.softmax) (j := j) (i := i) es 0 T
      (Q.map State.views) hB hT (fun _ _ _ _ _ => Or.inr (fun _ _ _ _ _ _ _ => rfl))
    rw [hW, look_of _ h1 h2] at hk
    obtain ⟨vs, v, h3, h4, -⟩ := look_some hk
    exact ⟨vs, v, h3, h4⟩
  obtain ⟨vs, v, h3, h4⟩ := hex
  refine ⟨_, look_of _ h3 h4, fun hne => ?_, fun f hne => ?_⟩
  · apply Classical.byContradiction
    intro hno
    have hk := keeps_batch noTrain_params (adam := cfg.UseAdam) (lr := stepSize cfg n.learningRate iter) (Q.map State.softmax) (j := j) (i := i) es 0 T
      (Q.map State.views) hB hT (fun k ex S hex hS => Or.inl (fun id hid hi => hno ⟨k, S, hS, by
        cases hids : S[j]? with
        | none => rw [hids] at hid; simp at hid
        | some ids =>
          rw [hids, Option.getD_some] at hid
          obtain ⟨size, ty, l, sp, -, -, -, -, -, hrange, -⟩ := (hsets k S ex hS hex).each j ids hids
          have := hrange id hid
          exact ⟨ids, hids, by rw [show (i : Int) = id by omega]; exact hid⟩⟩))
    rw [hW, look_of _ h1 h2, look_of _ h3 h4, Option.some.injEq] at hk
    apply hne
    show memory (finishView _ _ v).params = _
    unfold finishView
    rw [hk]
  · apply Classical.byContradiction
    intro hno
    have hk := keeps_batch (noTrain_stored f) (adam := cfg.UseAdam) (lr := stepSize cfg n.learningRate iter) (Q.map State.softmax) (j := j) (i := i) es 0 T
      (Q.map State.views) hB hT (fun k ex S hex hS => by
        have hnn : ∀ (j : Nat) (id : Int), id ∈ (S[j]?).getD [] → 0 ≤ id ∧ ActiveIn S j id.toNat := by
          intro j id hid
          cases hids : S[j]? with
          | none => rw [hids] at hid; simp at hid
          | some ids =>
            rw [hids, Option.getD_some] at hid
            obtain ⟨size, ty, l, sp, -, -, -, -, -, hrange, -⟩ := (hsets k S ex hS hex).each j ids hids
            have := hrange id hid
            exact ⟨this.1, ids, hids, by rw [show (id.toNat : Int) = id by omega]; exact hid⟩
        by_cases hact : ActiveIn S j i
        · refine Or.inr (fun inputs hin k' soft first v us => stored_backView _ _ _ _ _ (fun y hy hyf => hno ⟨k, S, ex, hS, hex, hact, ?_⟩) v us)
          have hy' : y.Index ∈ activeInputs ex S j := by rw [← hin]; exact List.mem_map.mpr ⟨y, hy, rfl⟩
          cases j with
          | zero =>
            obtain ⟨z, hz, e⟩ := List.mem_map.mp hy'
            exact ⟨z, hz, by rw [e]; exact hyf⟩
          | succ j =>
            have := (hnn j y.Index hy').2
            rw [hyf] at this
            exact this
        · refine Or.inl (fun id hid hi => hact ?_)
          rw [← hi]
          exact (hnn j id hid).2)
    rw [hW, look_of _ h1 h2, look_of _ h3 h4, Option.some.injEq] at hk
    exact hne (inputMemory_finish hk)

/-- C94, counted: in every layer, at most as many nodes are changed as `activeBound` allows for the examples together; and if the layer is sparse
that number does not depend on the number of its nodes. -/
theorem C94_count {cfg : Config F} (hl : cfg.LoadWeight = false) {a : NetArgs F} (ha : a.Typed) {fuel : Nat} {c : Int} {w w' : World F} {p p' : Ptr}
    (life : Life cfg c a w p) {es : List (Example F)} {iter : Int} {rehash rebuild : Bool} {x : F}
    (hr : processInput cfg fuel p c es iter rehash rebuild w = .ok ((x, p'), w')) {j : Nat} {size ty l : Int} {sp : F}
    (h1 : a.sizes[j]? = some size) (h2 : a.types[j]? = some ty) (h3 : a.l[j]? = some l) (h4 : a.sparsity[j]? = some sp) (hj : j < a.layers) :
    ∃ A : List Nat, (A.length : Int) ≤ (es.map (fun ex => activeBound cfg ty l size sp ex.Labels.length)).sum ∧
      ∀ i, i ∉ A → nodeAt w' p j i = (nodeAt w p j i).map (untrained cfg a iter) := by
  obtain ⟨-, T, lT, sets, H⟩ := C94_step hl ha life hr
  refine ⟨T.flatMap (fun S => ((S[j]?).getD []).map Int.toNat), ?_, fun i hi => ?_⟩
  · clear H hr
    have key : ∀ (T : List (List (List Int))) (es : List (Example F)), T.length = es.length →
        (∀ (k : Nat) (S : List (List Int)) (ex : Example F), T[k]? = some S → es[k]? = some ex → ActiveSets cfg a ex S) →
        ((T.flatMap (fun S => ((S[j]?).getD []).map Int.toNat)).length : Int) ≤ (es.map (fun ex => activeBound cfg ty l size sp ex.Labels.length)).sum := by
      intro T
      induction T with
      | nil =>
        intro es h _
        have : es = [] := List.length_eq_zero_iff.mp h.symm
        subst this
        exact Int.le_refl 0
      | cons S T ih =>
        intro es h hs
        cases es with
        | nil => cases h
        | cons ex es =>
          have h0 := ih es (by simpa using h) (fun k S' ex' hS hex => hs (k + 1) S' ex' hS hex)
          have A := hs 0 S ex rfl rfl
          have hlt : j < S.length := by have := A.layers; omega
          obtain ⟨size', ty', l', sp', q1, q2, q3, q4, -, -, hb, -⟩ := A.each j S[j] (List.getElem?_eq_getElem hlt)
          rw [h1] at q1
          rw [h2] at q2
          rw [h3] at q3
          rw [h4] at q4
          cases q1; cases q2; cases q3; cases q4
          rw [List.flatMap_cons, List.length_append, List.map_cons, List.sum_cons, List.getElem?_eq_getElem hlt, Option.getD_some, List.length_map]
          omega
    exact key T es lT sets
  · cases hm : nodeAt w p j i with
    | none =>
      obtain ⟨n, Q, al⟩ := life.alive hl ha
      obtain ⟨-, T', Q', -, aT, al', hv, -⟩ := al.step hr
      have hB : (Q.map State.softmax).length = (Q.map State.views).length := by simp
      have hT : ∀ S ∈ T', S.length = (Q.map State.views).length := fun S hS => by
        obtain ⟨k, hk⟩ := List.mem_iff_getElem?.mp hS
        rw [(aT k S hk).active.1]; simp
      rw [nodeAt_look al.trainable.net] at hm
      rw [nodeAt_look al'.trainable.net, hv, look_map]
      have hk := keeps_batch (φ := fun _ : View F => ()) (fun _ _ _ => rfl) (adam := cfg.UseAdam) (lr := stepSize cfg n.learningRate iter) (Q.map State.softmax) (j := j) (i := i) es 0 T'
        (Q.map State.views) hB hT (fun _ _ _ _ _ => Or.inr (fun _ _ _ _ _ _ _ => rfl))
      unfold Network.look at hm hk ⊢
      rw [Option.map_eq_none_iff] at hm
      rw [hm, Option.map_none, Option.map_eq_none_iff] at hk
      rw [hk]
      rfl
    | some m =>
      obtain ⟨m', h5, h6, -⟩ := H j i m hm
      rw [h5, Option.map_some, Option.some.injEq]
      apply Classical.byContradiction
      intro hne
      obtain ⟨k, S, hS, ids, hids, hid⟩ := h6 hne
      exact hi (List.mem_flatMap.mpr ⟨S, List.mem_of_getElem? hS, by rw [hids, Option.getD_some]; exact List.mem_map.mpr ⟨i, hid, by simp⟩⟩)

namespace ActiveEx

/-- No Adam; the output layer chooses its active nodes with mode 1. -/
def cfg : Config Rat := { LayerEx.cfg 1 with UseAdam := false }

/-- One hidden node and four output nodes; the output layer is sparse and has three hash tables. -/
def args : NetArgs Rat where
  layers := 2
  sizes := [1, 4]
  types := [0, 1]
  batch := 2
  rate := 1
  dim := 2
  k := [1, 1]
  l := [1, 3]
  rangePow := [6, 6]
  sparsity := [1, 1 / 4]

/-- The network; its weights and biases are 1 and -1. -/
def build : Go (Ptr × World Rat) := Network.new cfg 0 2 [1, 4] [0, 1] 2 1 2 [1, 1] [1, 3] [6, 6] [1, 1 / 4] { LayerEx.w0 with norms := fun k => if k % 3 = 2 then -100 else 100 }

/-- Which nodes a training step changes, by layer. -/
def changes (es : List (Example Rat)) : Option (List (List Bool)) :=
  match build with
  | .ok (p, w) =>
    match processInput cfg 0 p 0 es 0 false false w with
    | .ok ((_, q), w1) => do
      let x ← memoryOf w p
      let y ← memoryOf w1 q
      some (List.zipWith (List.zipWith (fun m m' => decide (m.weights ≠ m'.weights ∨ m.bias ≠ m'.bias))) x y)
    | .error _ => none
  | .error _ => none

end ActiveEx

-- two examples with labels 2 and 0: of the four output nodes only these two change
example : ActiveEx.changes [⟨[⟨0, 1⟩], [2]⟩] = some [[true], [false, false, true, false]] ∧
    ActiveEx.changes [⟨[⟨0, 1⟩], [2]⟩, ⟨[⟨1, 1⟩], [0]⟩] = some [[true], [true, false, true, false]] := by
  refine ⟨by decide +kernel, by decide +kernel⟩

-- with mode 4 and 50 tables at most 6405 of 670091 output nodes are active for an example with 5 labels, with mode 1 at most 2138
example : activeBound (LayerEx.cfg 4) 1 50 670091 (1 / 200) 5 = 6405 ∧ activeBound (LayerEx.cfg 1) 1 50 670091 (1 / 200) 5 = 2138 := by
  refine ⟨by decide +kernel, by decide +kernel⟩

end Goslide.Props
