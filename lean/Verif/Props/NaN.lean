import Verif.Proofs.NaN
import Verif.Go.Binary64
import Verif.Props.Active
import Verif.Props.Network
/-
One NaN in the training data ruins the network: C96.
-/
set_option linter.unusedSectionVars false
namespace Goslide.Props
open Goslide Node Lsh Configuration Spec.Node Spec.Network Layer Network Xcrepo Spec
variable {F : Type} [GoFloat F] [FloatOrder F] [FloatNaN F]

theorem holdsAt_views {q : Params F → Prop} {j i : Nat} {w : World F} {p : Ptr} {n : Network F} {Q : List (State F)} {adam : Bool} {lr : F} {W : List (List (View F))}
    (N : NetAt w p n Q) (hv : Q.map State.views = W.map (List.map (finishView adam lr))) (h : HoldsAt q j i W) :
    ∃ P, q P ∧ nodeAt w p j i = some (memory (finished adam lr P)) := by
  obtain ⟨vs, v, h1, h2, h3⟩ := h
  refine ⟨v.params, h3, ?_⟩
  rw [nodeAt_look N, hv, look_map, look_of _ h1 h2]
  rfl

/-- The networks of a life have square nodes, and without Adam the copy of the bias is the bias. -/
theorem life_square {cfg : Config F} (hl : cfg.LoadWeight = false) {a : NetArgs F} (ha : a.Typed) {c : Int} {w : World F} {p : Ptr} (life : Life cfg c a w p) :
    ∃ n Q, Alive cfg c a w p n Q ∧ (∀ g ∈ Q, ∀ v ∈ g.views, Square cfg.UseAdam v.params) ∧ (cfg.UseAdam = false → Mirrored Q) := by
  have hsq : ∀ {n : Network F} {Q : List (State F)}, Alive cfg c a w p n Q → ∀ g ∈ Q, ∀ v ∈ g.views, Square cfg.UseAdam v.params := fun al g hg v hv hu => by
    obtain ⟨j, hj⟩ := List.mem_iff_getElem?.mp hg
    have sh := al.trainable.shaped.nodes j g hj v hv
    obtain ⟨h1, h2, h3⟩ := sh.adam hu
    exact ⟨by rw [h1, sh.weights], by rw [h2, sh.weights], by rw [h3, sh.weights]⟩
  cases hu : cfg.UseAdam with
  | false =>
    obtain ⟨n, Q, al, hm⟩ := life.mirrored hl hu ha
    exact ⟨n, Q, al, hu ▸ hsq al, fun _ => hm⟩
  | true =>
    obtain ⟨n, Q, al⟩ := life.alive hl ha
    exact ⟨n, Q, al, hu ▸ hsq al, fun h => absurd h (by decide)⟩

/-- C96, one step: a NaN among the biases and weights is still NaN after a training step. -/
theorem C96_stays {cfg : Config F} (hl : cfg.LoadWeight = false) {a : NetArgs F} (ha : a.Typed) {fuel : Nat} {c : Int} {w w' : World F} {p p' : Ptr}
    (life : Life cfg c a w p) {es : List (Example F)} {iter : Int} {rehash rebuild : Bool} {x : F}
    (hr : processInput cfg fuel p c es iter rehash rebuild w = .ok ((x, p'), w')) {j i : Nat} {m : Memory F} (hm : nodeAt w p j i = some m) :
    p' = p ∧ ∃ m', nodeAt w' p j i = some m' ∧ (FloatOrder.isNaN m.bias = true → FloatOrder.isNaN m'.bias = true) ∧
      ∀ (f : Nat) (y : F), m.weights[f]? = some y → FloatOrder.isNaN y = true → ∃ y', m'.weights[f]? = some y' ∧ FloatOrder.isNaN y' = true := by
  obtain ⟨n, Q, al, sq, mir⟩ := life_square hl ha life
  obtain ⟨e, T, Q', -, aT, al', hv, -⟩ := al.step_full hr
  refine ⟨congrArg Prod.snd e, ?_⟩
  have hB : (Q.map State.softmax).length = (Q.map State.views).length := by simp
  have hT : ∀ S ∈ T, S.length = (Q.map State.views).length := fun S hS => by
    obtain ⟨k, hk⟩ := List.mem_iff_getElem?.mp hS
    rw [(aT k S hk).1.active.1]; simp
  rw [nodeAt_look al.trainable.net] at hm
  obtain ⟨us, u, h1, h2, rfl⟩ := look_some hm
  have hmem : ∃ g ∈ Q, u ∈ g.views := by
    rw [List.getElem?_map] at h1
    obtain ⟨g, hg, rfl⟩ := Option.map_eq_some_iff.mp h1
    exact ⟨g, List.mem_of_getElem? hg, List.mem_of_getElem? h2⟩
  obtain ⟨g, hg, hug⟩ := hmem
  have run : ∀ {q : Params F → Prop}, Lasting cfg.UseAdam q → q u.params →
      ∃ P, q P ∧ nodeAt w' p j i = some (memory (finished cfg.UseAdam (stepSize cfg n.learningRate iter) P)) := fun hq h =>
    holdsAt_views al'.trainable.net hv (hq.batch _ es 0 T _ hB hT ⟨us, u, h1, h2, h⟩)
  obtain ⟨P, hP, hn⟩ := run square_lasting (sq g hg u hug)
  refine ⟨_, hn, fun hb => ?_, fun f y hy hny => ?_⟩
  · obtain ⟨P', hP', hn'⟩ := run (badBias_lasting) (by
      unfold BadBias
      split
      · exact Or.inl hb
      · rename_i hu
        rw [mir (by simpa using hu) g hg u hug]
        exact hb)
    rw [hn, Option.some.injEq] at hn'
    rw [hn']
    exact finish_bias hP'
  · obtain ⟨P', hP', hn'⟩ := run ((badWeight_lasting f).and square_lasting) ⟨⟨y, hy, hny⟩, sq g hg u hug⟩
    rw [hn, Option.some.injEq] at hn'
    rw [hn']
    exact finish_weight hP'.2 hP'.1

/-- C96, the spread: a training step with an example of which a feature value is NaN. All nodes that are active for it, in all layers, have a NaN bias afterwards
(if there are active nodes in every layer). -/
theorem C96_spreads {cfg : Config F} (hl : cfg.LoadWeight = false) {a : NetArgs F} (ha : a.Typed) {fuel : Nat} {c : Int} {w w' : World F} {p p' : Ptr}
    (life : Life cfg c a w p) {es : List (Example F)} {iter : Int} {rehash rebuild : Bool} {x : F}
    (hr : processInput cfg fuel p c es iter rehash rebuild w = .ok ((x, p'), w')) :
    p' = p ∧ ∃ T : List (List (List Int)), T.length = es.length ∧
      (∀ (k : Nat) (S : List (List Int)) (ex : Example F), T[k]? = some S → es[k]? = some ex → ActiveSets cfg a ex S) ∧
      ∀ (k : Nat) (S : List (List Int)) (ex : Example F), T[k]? = some S → es[k]? = some ex → (∃ y ∈ ex.Features, FloatOrder.isNaN y.Value = true) → (∀ ids ∈ S, ids ≠ []) →
        ∀ (j i : Nat), ActiveIn S j i → ∃ m, nodeAt w' p j i = some m ∧ FloatOrder.isNaN m.bias = true := by
  obtain ⟨n, Q, al⟩ := life.alive hl ha
  obtain ⟨e, T, Q', lT, aT, al', hv, -⟩ := al.step_full hr
  refine ⟨congrArg Prod.snd e, T, lT, fun k S ex hS hex => activeSets_of al (aT k S hS).1 ((aT k S hS).2 ex hex), ?_⟩
  rintro k S ex hS hex hd hne j i ⟨ids, hids, hi⟩
  have := batch_bad (adam := cfg.UseAdam) (lr := stepSize cfg n.learningRate iter) (B := Q.map State.softmax) hne hd hids hi es T 0 k (Q.map State.views) (by simp)
    (fun e S' h => by rw [Nat.zero_add]; exact slotsOk_of (aT e S' h).1) hex hS
  obtain ⟨P, hP, hn⟩ := holdsAt_views al'.trainable.net hv this
  exact ⟨_, hn, finish_bias hP⟩

/-- C96, full layers: after a training step with an example of which a feature value is NaN, all biases of the network are NaN. -/
theorem C96_ruins {cfg : Config F} (hl : cfg.LoadWeight = false) {a : NetArgs F} (ha : a.Typed) (hf : Full a.sparsity) (hs : ∀ s ∈ a.sizes, 0 < s) {fuel : Nat} {c : Int}
    {w w' : World F} {p p' : Ptr} (life : Life cfg c a w p) {es : List (Example F)} {iter : Int} {rehash rebuild : Bool} {x : F}
    (hr : processInput cfg fuel p c es iter rehash rebuild w = .ok ((x, p'), w')) {ex : Example F} (hex : ex ∈ es)
    (hnan : ∃ y ∈ ex.Features, FloatOrder.isNaN y.Value = true) :
    p' = p ∧ ∀ (j : Nat) (size : Int) (i : Nat), j < a.layers → a.sizes[j]? = some size → i < size → ∃ m, nodeAt w' p j i = some m ∧ FloatOrder.isNaN m.bias = true := by
  obtain ⟨e, T, lT, sets, H⟩ := C96_spreads hl ha life hr
  refine ⟨e, fun j size i hj hsize hi => ?_⟩
  obtain ⟨k, hk⟩ := List.mem_iff_getElem?.mp hex
  have hlt : k < T.length := by rw [lT]; exact (List.getElem?_eq_some_iff.mp hk).1
  have hS := List.getElem?_eq_getElem hlt
  generalize T[k] = S at hS
  have A := sets k S ex hS hk
  have all : ∀ (j : Nat) (ids : List Int), S[j]? = some ids → ∃ size, a.sizes[j]? = some size ∧ ∀ id, 0 ≤ id → id < size → id ∈ ids := fun j ids hj => by
    obtain ⟨size, ty, l, sp, q1, -, -, q4, -, -, -, q, -⟩ := A.each j ids hj
    exact ⟨size, q1, q (hf sp (List.mem_of_getElem? q4)).1⟩
  refine H k S ex hS hk hnan (fun ids hids hnil => ?_) j i ?_
  · obtain ⟨j', hj'⟩ := List.mem_iff_getElem?.mp hids
    obtain ⟨size', q1, q⟩ := all j' ids hj'
    have := q 0 (by omega) (hs _ (List.mem_of_getElem? q1))
    rw [hnil] at this
    cases this
  · have hl' : j < S.length := by have := A.layers; omega
    have hids := List.getElem?_eq_getElem hl'
    obtain ⟨size', q1, q⟩ := all j _ hids
    rw [hsize, Option.some.injEq] at q1
    subst q1
    exact ⟨_, hids, q i (by omega) hi⟩

theorem nodeAt_predict {cfg : Config F} (hl : cfg.LoadWeight = false) {a : NetArgs F} (ha : a.Typed) {fuel : Nat} {c : Int} {w w' : World F} {p p' : Ptr}
    (life : Life cfg c a w p) {es : List (Example F)} {m : Int} (hr : predictClass cfg fuel p c es w = .ok ((m, p'), w')) : p' = p ∧ ∀ j i, nodeAt w' p j i = nodeAt w p j i := by
  obtain ⟨n, Q, al⟩ := life.alive hl ha
  obtain ⟨rfl, -, -, -⟩ := al.predict hr
  refine ⟨rfl, fun j i => ?_⟩
  unfold nodeAt memoryOf
  rw [learned_predict al.trainable.net hr]

/-- C96, for any calls: a NaN among the biases and weights is still NaN after any further training and predictions. -/
theorem C96_forever {cfg : Config F} (hl : cfg.LoadWeight = false) {a : NetArgs F} (ha : a.Typed) {fuel : Nat} {c : Int} {j i : Nat} :
    ∀ (calls : List (NetCall F)) {w w' : World F} {p p' : Ptr} {m : Memory F}, Life cfg c a w p → runCalls cfg fuel c calls p w = .ok (p', w') → nodeAt w p j i = some m →
    p' = p ∧ Life cfg c a w' p ∧ ∃ m', nodeAt w' p j i = some m' ∧ (FloatOrder.isNaN m.bias = true → FloatOrder.isNaN m'.bias = true) ∧
      ∀ (f : Nat) (y : F), m.weights[f]? = some y → FloatOrder.isNaN y = true → ∃ y', m'.weights[f]? = some y' ∧ FloatOrder.isNaN y' = true
  | [], w, w', p, p', m, life, h, hm => by cases h; exact ⟨rfl, life, m, hm, id, fun f y h1 h2 => ⟨y, h1, h2⟩⟩
  | .train es iter rehash rebuild :: calls, w, w', p, p', m, life, h, hm => by
    rw [runCalls] at h
    cases hr : processInput cfg fuel p c es iter rehash rebuild w with
    | error e => rw [hr] at h; cases h
    | ok o =>
      obtain ⟨⟨x, p1⟩, w1⟩ := o
      rw [hr] at h
      obtain ⟨rfl, m1, q1, q2, q3⟩ := C96_stays hl ha life hr hm
      obtain ⟨rfl, life', m2, r1, r2, r3⟩ := C96_forever hl ha calls (life.train hr) h q1
      refine ⟨rfl, life', m2, r1, fun h => r2 (q2 h), fun f y h1 h2 => ?_⟩
      obtain ⟨y', h3, h4⟩ := q3 f y h1 h2
      exact r3 f y' h3 h4
  | .predict es :: calls, w, w', p, p', m, life, h, hm => by
    rw [runCalls] at h
    cases hr : predictClass cfg fuel p c es w with
    | error e => rw [hr] at h; cases h
    | ok o =>
      obtain ⟨⟨x, p1⟩, w1⟩ := o
      rw [hr] at h
      obtain ⟨rfl, q⟩ := nodeAt_predict hl ha life hr
      exact C96_forever hl ha calls (life.predict hr) h (by rw [q]; exact hm)

theorem dense_last {b : Bool} {vs : List (View F)} {v : View F} (hv : vs[0]? = some v) (hn : FloatOrder.isNaN v.params.bias = true) :
    ∀ (L : List (Bool × List (View F))) (data : List (Pair F)), ∃ y l, dense (L ++ [(b, vs)]) data = ⟨0, y⟩ :: l ∧ FloatOrder.isNaN y = true
  | [], data => by
    cases vs with
    | nil => cases hv
    | cons v' vs =>
      cases hv
      rw [List.nil_append, dense, dense, List.length_cons, List.range_succ_eq_map, List.map_cons]
      unfold outputs
      rw [List.map_cons]
      refine ⟨_, _, rfl, outputOf_nan ?_⟩
      exact activation_bias hn data
  | (b', vs') :: L, data => by
    rw [List.cons_append, dense]
    exact dense_last hv hn L _

/-- The examples with the label 0. -/
def zeros (es : List (Example F)) : Int := (es.filter (fun ex => decide ((0 : Int) ∈ ex.Labels))).length

theorem correct_zeros : ∀ (es : List (Example F)) (classes : List Int), classes.length = es.length → (∀ cls ∈ classes, cls = 0) → correct es classes = zeros es
  | [], [], _, _ => rfl
  | ex :: es, cls :: classes, hl, h => by
    have e := h cls (by simp)
    subst e
    rw [correct, correct_zeros es classes (by simpa using hl) (fun c hc => h c (by simp [hc]))]
    unfold zeros
    rw [List.filter_cons]
    by_cases h0 : (0 : Int) ∈ ex.Labels
    · simp [h0]; omega
    · simp [h0]

/-- C96, predictions: with full layers, if the bias of the first output node is NaN, `PredictClass` predicts class 0 for every example. -/
theorem C96_predicts {cfg : Config F} (hl : cfg.LoadWeight = false) {a : NetArgs F} (ha : a.Typed) (hf : Full a.sparsity) {fuel : Nat} {c : Int} {w w' : World F} {p p' : Ptr}
    (life : Life cfg c a w p) {j : Nat} (hj : (j : Int) + 1 = a.layers) {m : Memory F} (hm : nodeAt w p j 0 = some m) (hn : FloatOrder.isNaN m.bias = true)
    {es : List (Example F)} {res : Int} (hr : predictClass cfg fuel p c es w = .ok ((res, p'), w')) : res = zeros es := by
  obtain ⟨n, Q, al⟩ := life.alive hl ha
  have hQl : j + 1 = Q.length := by
    have h1 := al.count
    have h2 := al.trainable.net.count
    omega
  have hQ : Q ≠ [] := by rintro rfl; simp at hQl
  obtain ⟨classes, h1, h2, h⟩ := C64_full al.trainable.net hr (fun sp hsp => (hf sp (by rw [← al.sparsity]; exact hsp)).1) hQ
  rw [h2]
  refine correct_zeros es classes h1 (fun cls hc => ?_)
  obtain ⟨k, hk⟩ := List.mem_iff_getElem?.mp hc
  have hlt : k < es.length := by rw [← h1]; exact (List.getElem?_eq_some_iff.mp hk).1
  have hcl := h k _ cls (List.getElem?_eq_getElem hlt) hk
  rw [nodeAt_look al.trainable.net] at hm
  obtain ⟨vs, v, q1, q2, rfl⟩ := look_some hm
  rw [List.getElem?_map] at q1
  obtain ⟨g, hg, rfl⟩ := Option.map_eq_some_iff.mp q1
  obtain ⟨L, hL⟩ : ∃ L, Q.map State.shape = L ++ [(g.softmax, g.views)] := by
    refine ⟨(Q.map State.shape).take j, ?_⟩
    have hg' : (Q.map State.shape)[j]? = some (g.softmax, g.views) := by rw [List.getElem?_map, hg]; rfl
    obtain ⟨hlt', e⟩ := List.getElem?_eq_some_iff.mp hg'
    rw [← e, List.take_append_getElem hlt', List.take_of_length_le (by rw [List.length_map]; omega)]
  rw [hL] at hcl
  obtain ⟨y, l, e, hy⟩ := dense_last (b := g.softmax) q2 hn L es[k].Features
  rw [e] at hcl
  unfold Classified at hcl
  dsimp only at hcl
  rw [if_pos hy] at hcl
  exact hcl

/-- C96. A network with full layers is trained on an example with a NaN among its feature values. Whatever the later training, it then predicts class 0 for everything. -/
theorem C96_ruined {cfg : Config F} (hl : cfg.LoadWeight = false) {a : NetArgs F} (ha : a.Typed) (hf : Full a.sparsity) (hs : ∀ s ∈ a.sizes, 0 < s) (hpos : 0 < a.layers)
    {fuel fuel' : Nat} {c : Int} {w w1 w2 w3 : World F} {p p1 p2 p3 : Ptr} (life : Life cfg c a w p) {es : List (Example F)} {iter : Int} {rehash rebuild : Bool} {x : F}
    (hr : processInput cfg fuel p c es iter rehash rebuild w = .ok ((x, p1), w1)) {ex : Example F} (hex : ex ∈ es)
    (hnan : ∃ y ∈ ex.Features, FloatOrder.isNaN y.Value = true) {calls : List (NetCall F)} (hc : runCalls cfg fuel' c calls p1 w1 = .ok (p2, w2))
    {test : List (Example F)} {res : Int} (ht : predictClass cfg fuel p2 c test w2 = .ok ((res, p3), w3)) : res = zeros test := by
  obtain ⟨rfl, all⟩ := C96_ruins hl ha hf hs life hr hex hnan
  obtain ⟨n, Q, al⟩ := life.alive hl ha
  obtain ⟨j, hj⟩ : ∃ j : Nat, (j : Int) + 1 = a.layers := ⟨(a.layers - 1).toNat, by omega⟩
  have hlt : j < Q.length := by
    have h1 := al.count
    have h2 := al.trainable.net.count
    omega
  obtain ⟨size, prev, ty, k, l, rp, q1, -⟩ := al.kept j _ (List.getElem?_eq_getElem hlt)
  obtain ⟨m, hm, hn⟩ := all j size 0 (by omega) q1 (hs _ (List.mem_of_getElem? q1))
  obtain ⟨rfl, life2, m2, hm2, hn2, -⟩ := C96_forever hl ha calls (life.train hr) hc hm
  exact C96_predicts hl ha hf life2 hj hm2 (hn2 hn) ht

section
open Binary64

/-- Binary64 arithmetic satisfies the laws, if `math.Exp(NaN)` is NaN. -/
theorem float64NaN (L : Lib) (h : L.exp .nan = .nan) : @FloatNaN B64 (float64 L) (float64Order L) :=
  let _ := float64 L
  let _ := float64Order L
  { add_left := by rintro (_ | _ | _ | _) (_ | _ | _ | _) h <;> first | rfl | cases h
    add_right := by rintro (_ | _ | _ | _) (_ | _ | _ | _) h <;> first | rfl | cases h
    sub_left := by rintro (_ | _ | _ | _) (_ | _ | _ | _) h <;> first | rfl | cases h
    sub_right := by rintro (_ | _ | _ | _) (_ | _ | _ | _) h <;> first | rfl | cases h
    mul_left := by rintro (_ | _ | _ | _) (_ | _ | _ | _) h <;> first | rfl | cases h
    mul_right := by rintro (_ | _ | _ | _) (_ | _ | _ | _) h <;> first | rfl | cases h
    div_left := by rintro (_ | _ | _ | _) (_ | _ | _ | _) h <;> first | rfl | cases h
    neg := by rintro (_ | _ | _ | _) h <;> first | rfl | cases h
    exp := by
      rintro (_ | _ | _ | _) hn
      · show B64.isNaN (L.exp .nan) = true
        rw [h]
        rfl
      all_goals cases hn
    le_left := by rintro (_ | _ | _ | _) (_ | _ | _ | _) h <;> first | rfl | cases h }

/-- C96 for IEEE-754 binary64 numbers: one NaN among the training data, and later all predictions are class 0. -/
theorem C96_float64 (L : Lib) (hexp : L.exp .nan = .nan) {cfg : Config B64} (hl : cfg.LoadWeight = false) {a : NetArgs B64} (ha : a.Typed)
    (hf : @Full B64 (float64 L) a.sparsity) (hs : ∀ s ∈ a.sizes, 0 < s) (hpos : 0 < a.layers) {fuel fuel' : Nat} {c : Int} {w w1 w2 w3 : World B64} {p p1 p2 p3 : Ptr}
    (life : @Life B64 (float64 L) cfg c a w p) {es : List (Example B64)} {iter : Int} {rehash rebuild : Bool} {x : B64}
    (hr : @processInput B64 (float64 L) cfg fuel p c es iter rehash rebuild w = .ok ((x, p1), w1)) {ex : Example B64} (hex : ex ∈ es) (hnan : ∃ y ∈ ex.Features, y.Value = .nan)
    {calls : List (NetCall B64)} (hc : @runCalls B64 (float64 L) cfg fuel' c calls p1 w1 = .ok (p2, w2)) {test : List (Example B64)} {res : Int}
    (ht : @predictClass B64 (float64 L) cfg fuel p2 c test w2 = .ok ((res, p3), w3)) : res = ((test.filter (fun ex => decide ((0 : Int) ∈ ex.Labels))).length : Int) := by
  obtain ⟨y, hy, e⟩ := hnan
  exact @C96_ruined B64 (float64 L) (float64Order L) (float64NaN L hexp) cfg hl a ha hf hs hpos fuel fuel' c w w1 w2 w3 p p1 p2 p3 life es iter rehash rebuild x hr ex hex
    ⟨y, hy, by rw [e]; rfl⟩ calls hc test res ht

end

namespace NaNEx

/-- Exact arithmetic with a NaN (`none`); `exp` and `sqrt` are placeholders. -/
@[reducible] def NRat : Type := Option Rat

instance : GoFloat NRat where
  const := some
  add a b := do return (← a) + (← b)
  sub a b := do return (← a) - (← b)
  mul a b := do return (← a) * (← b)
  div a b := do return (← a) / (← b)
  neg a := a.map (- ·)
  lt a b := match a, b with
    | some a, some b => decide (a < b)
    | _, _ => false
  le a b := match a, b with
    | some a, some b => decide (a ≤ b)
    | _, _ => false
  eq a b := match a, b with
    | some a, some b => decide (a = b)
    | _, _ => false
  floorInt a := (a.getD 0).floor
  ceilInt a := (a.getD 0).ceil
  exp a := a.map (2 + ·)
  sqrt a := a.map (fun _ => 1)
  pow a b := do return (← a) ^ (← b).num.toNat

set_option linter.unusedTactic false in
instance : FloatOrder NRat where
  isNaN a := a.isNone
  lt_nan_left := by rintro (_ | a) (_ | b) h <;> first | rfl | cases h
  lt_nan_right := by rintro (_ | a) (_ | b) h <;> first | rfl | cases h
  lt_irrefl := by
    rintro (_ | a)
    · rfl
    · exact exactRatOrder.lt_irrefl a
  lt_trans := by
    rintro (_ | a) (_ | b) (_ | c) h1 h2 <;> first | cases h1 | cases h2 | exact exactRatOrder.lt_trans a b c h1 h2
  lt_weak := by
    rintro (_ | a) (_ | b) (_ | c) h1 h2 <;> first | (cases h1; done) | (cases h2; done) | exact exactRatOrder.lt_weak a b c rfl h2

instance : FloatNaN NRat where
  add_left := by rintro (_ | a) (_ | b) h <;> first | rfl | cases h
  add_right := by rintro (_ | a) (_ | b) h <;> first | rfl | cases h
  sub_left := by rintro (_ | a) (_ | b) h <;> first | rfl | cases h
  sub_right := by rintro (_ | a) (_ | b) h <;> first | rfl | cases h
  mul_left := by rintro (_ | a) (_ | b) h <;> first | rfl | cases h
  mul_right := by rintro (_ | a) (_ | b) h <;> first | rfl | cases h
  div_left := by rintro (_ | a) (_ | b) h <;> first | rfl | cases h
  neg := by rintro (_ | a) h <;> first | rfl | cases h
  exp := by rintro (_ | a) h <;> first | rfl | cases h
  le_left := by rintro (_ | a) (_ | b) h <;> first | rfl | cases h

/-- Full layers, with or without Adam. -/
def cfg (adam : Bool) : Config NRat := { Configuration.default with UseAdam := adam, HashFunction := 4, LayerMode := 1 }

def w0 : World NRat :=
  { heap := Heap.empty, ints := [], lshs := [], consts := [], layers := [], layerArrs := [], networks := [],
    rng := fun i => 7 * i, norms := fun i => some (((i % 5 : Nat) : Rat) - 2), mapRng := fun i => i, hashes := fun _ _ => 0 }

/-- One hidden node and two output nodes. -/
def build (adam : Bool) : Go (Ptr × World NRat) :=
  Network.new (cfg adam) 0 2 [1, 2] [0, 1] 2 (some 1) 2 [1, 1] [1, 1] [6, 6] [some 1, some 1, some 1, some 1] w0

/-- Which biases are NaN after training on the given batches, and the number of right predictions for two examples with the label 1. -/
def after (adam : Bool) (batches : List (List (Example NRat))) : Option (List (List Bool) × Int) :=
  match build adam with
  | .ok (p, w) =>
    match runCalls (cfg adam) 0 0 (batches.map (fun es => .train es 0 false false)) p w with
    | .ok (q, w1) =>
      match predictClass (cfg adam) 0 q 0 [⟨[⟨0, some 1⟩], [1]⟩, ⟨[⟨1, some 1⟩], [1]⟩] w1 with
      | .ok ((res, _), _) => (memoryOf w1 q).map (fun M => (M.map (List.map (fun m => m.bias.isNone)), res))
      | .error _ => none
    | .error _ => none
  | .error _ => none

end NaNEx

-- without a NaN in the data no bias is NaN; with one NaN, in an example of the first of two batches, all of them are and no prediction is right, with and without Adam
example : NaNEx.after true [[⟨[⟨0, some 1⟩], [1]⟩], [⟨[⟨1, some 1⟩], [1]⟩]] = some ([[false], [false, false]], 2) := by decide +kernel
example : NaNEx.after true [[⟨[⟨0, some 1⟩], [1]⟩, ⟨[⟨1, none⟩], [1]⟩], [⟨[⟨1, some 1⟩], [1]⟩]] = some ([[true], [true, true]], 0) := by decide +kernel
example : NaNEx.after false [[⟨[⟨0, some 1⟩], [1]⟩, ⟨[⟨1, none⟩], [1]⟩], [⟨[⟨1, some 1⟩], [1]⟩]] = some ([[true], [true, true]], 0) := by decide +kernel

end Goslide.Props
