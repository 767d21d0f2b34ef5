import Verif.Proofs.SameExample
import Verif.Props.BatchOrder
/-
How an example is written does not matter if all layers are full: C104. Over the real numbers, that is with exact arithmetic.
-/
set_option linter.unusedSectionVars false
namespace Goslide.Props
open Goslide Node Lsh Configuration Spec.Node Spec.Network Layer Network Xcrepo Spec

theorem same_step {cfg : Config ℝ} {a : NetArgs ℝ} (hf : AllFull a) {fuel fuel' : Nat} {c : Int} {w w1 v v1 : World ℝ} {p p1 q q1 : Ptr} {n m : Network ℝ} {Q R : List (State ℝ)}
    (al : Alive cfg c a w p n Q) (al' : Alive cfg c a v q m R) (hv : Q.map State.views = R.map State.views) {es es' : List (Example ℝ)} (hs : List.Forall₂ SameExample es es')
    {iter : Int} {rehash rebuild rehash' rebuild' : Bool} {x y : ℝ} (hr : processInput cfg fuel p c es iter rehash rebuild w = .ok ((x, p1), w1))
    (hr' : processInput cfg fuel' q c es' iter rehash' rebuild' v = .ok ((y, q1), v1)) :
    p1 = p ∧ q1 = q ∧ ∃ Q' R', Alive cfg c a w1 p n Q' ∧ Alive cfg c a v1 q m R' ∧ Q'.map State.views = R'.map State.views := by
  obtain ⟨e, T, Q', lT, aT, b1, hv1, l1, -⟩ := al.step hr
  obtain ⟨e', T', R', lT', aT', b1', hv1', l1', -⟩ := al'.step hr'
  cases e
  cases e'
  refine ⟨rfl, rfl, Q', R', b1, b1', ?_⟩
  have hlen : Q.length = R.length := by simpa using congrArg List.length hv
  have hsoft : R.map State.softmax = Q.map State.softmax := by
    refine map_eq_at hlen.symm (fun j h g hh hg => ?_)
    obtain ⟨_, _, ty, _, _, _, -, k1, -, -, -, k2, -⟩ := al.kept j g hg
    obtain ⟨_, _, ty', _, _, _, -, k3, -, -, -, k4, -⟩ := al'.kept j h hh
    rw [k3, Option.some.injEq] at k1
    unfold State.softmax
    rw [k2.oTy, k4.oTy, k1]
  have hids : ∀ P : List (State ℝ), P.map (fun g => (List.range g.views.length).map (fun (k : Nat) => (k : Int))) =
      (P.map State.views).map (fun vs => (List.range vs.length).map (fun (k : Nat) => (k : Int))) := fun P => by rw [List.map_map]; rfl
  rw [al.sparsity] at aT
  rw [al'.sparsity] at aT'
  have hles : es.length = es'.length := hs.length_eq
  have hT : T = T' := by
    refine List.ext_getElem (by omega) (fun k h1 h2 => ?_)
    rw [full_sets hf (aT k _ (List.getElem?_eq_getElem h1)), full_sets hf (aT' k _ (List.getElem?_eq_getElem h2)), hids, hids, hv]
  by_cases hQ : Q = []
  · rw [List.eq_nil_of_length_eq_zero (l := Q') (by rw [l1, hQ]; rfl), List.eq_nil_of_length_eq_zero (l := R') (by rw [l1', ← hlen, hQ]; rfl)]
  · rw [hv1, hv1', al.rate, al'.rate, hsoft, ← hv, ← hT]
    congr 1
    refine batch_same _ _ _ es es' 0 T _ hs (by simpa using hQ) (by simp) (fun S hS => ?_) (net_mirror al.trainable.net)
    obtain ⟨k, hk⟩ := List.mem_iff_getElem?.mp hS
    rw [full_sets hf (aT k S hk)]
    simp

/-- C104. Training steps on two forms of the same examples, from the same network with full layers, with Adam or without: the weights, biases and moments are the same at the end. The flags `rehash`
and `rebuild` may be different. -/
theorem C104_train {cfg : Config ℝ} (hl : cfg.LoadWeight = false) {a : NetArgs ℝ} (ha : a.Typed) (hf : AllFull a) {fuel fuel' : Nat} {c : Int} {w w1 w2 : World ℝ} {p p1 p2 : Ptr}
    (life : Life cfg c a w p) {calls calls' : List (NetCall ℝ)} (hs : List.Forall₂ SameCall calls calls') (hr : runCalls cfg fuel c calls p w = .ok (p1, w1))
    (hr' : runCalls cfg fuel' c calls' p w = .ok (p2, w2)) : p1 = p ∧ p2 = p ∧ memoryOf w1 p = memoryOf w2 p := by
  obtain ⟨n, Q, al⟩ := life.alive hl ha
  suffices h : ∀ {v w1 w2 w : World ℝ} {n m : Network ℝ} {Q R : List (State ℝ)}, Alive cfg c a w p n Q → Alive cfg c a v p m R → Q.map State.views = R.map State.views →
      runCalls cfg fuel c calls p w = .ok (p1, w1) → runCalls cfg fuel' c calls' p v = .ok (p2, w2) → p1 = p ∧ p2 = p ∧ memoryOf w1 p = memoryOf w2 p from h al al rfl hr hr'
  clear hr hr' al Q n life
  intro v w1 w2 w n m Q R al al' hv hr hr'
  induction hs generalizing w v Q R with
  | nil =>
    cases hr
    cases hr'
    refine ⟨rfl, rfl, ?_⟩
    rw [memoryOf_at al.trainable.net, memoryOf_at al'.trainable.net]
    have := congrArg (List.map (List.map (fun v : View ℝ => memory v.params))) hv
    rw [List.map_map, List.map_map] at this
    exact congrArg some this
  | @cons x y l l' hxy _ ih =>
    match x, y, hxy with
    | .train es iter rehash rebuild, .train es' iter' rehash' rebuild', hxy =>
      obtain ⟨rfl, he⟩ := hxy
      rw [runCalls] at hr hr'
      cases h1 : processInput cfg fuel p c es iter rehash rebuild w with
      | error e => rw [h1] at hr; cases hr
      | ok o =>
        obtain ⟨⟨z, q⟩, w3⟩ := o
        cases h2 : processInput cfg fuel' p c es' iter rehash' rebuild' v with
        | error e => rw [h2] at hr'; cases hr'
        | ok o =>
          obtain ⟨⟨z', q'⟩, v3⟩ := o
          rw [h1] at hr
          rw [h2] at hr'
          dsimp only at hr hr'
          obtain ⟨rfl, rfl, Q', R', b, b', hv'⟩ := same_step hf al al' hv he h1 h2
          exact ih b b' hv' hr hr'

theorem correct_same : ∀ {es es' : List (Example ℝ)}, List.Forall₂ SameExample es es' → ∀ classes, correct es classes = correct es' classes
  | _, _, .nil, _ => rfl
  | _, _, .cons _ _, [] => by simp [correct]
  | _, _, .cons h hs, cls :: rest => by
    simp only [correct, h.labels cls, correct_same hs rest]

/-- C104, for `PredictClass`: the same number of correct predictions, with any cowIds, random numbers and numbers of attempts. -/
theorem C104_predict {cfg : Config ℝ} (hl : cfg.LoadWeight = false) {a : NetArgs ℝ} (ha : a.Typed) (hf : AllFull a) (hpos : 0 < a.layers) {fuel fuel' : Nat} {c c1 c2 : Int}
    {w w1 w2 : World ℝ} {p p1 p2 : Ptr} (life : Life cfg c a w p) {es es' : List (Example ℝ)} (hs : List.Forall₂ SameExample es es') {res res' : Int} (rng mapRng : Rng)
    (hr : predictClass cfg fuel p c1 es w = .ok ((res, p1), w1)) (hr' : predictClass cfg fuel' p c2 es' { w with rng := rng, mapRng := mapRng } = .ok ((res', p2), w2)) :
    res = res' := by
  obtain ⟨n, Q, al⟩ := life.alive hl ha
  have N := al.trainable.net
  have hQ : Q ≠ [] := by
    intro h
    have h1 := N.count
    have h2 := al.count
    rw [h] at h1
    simp at h1
    omega
  have hsp : ∀ sp ∈ n.sparsity, GoFloat.eq sp (GoFloat.one : ℝ) = true := by rw [al.sparsity]; exact hf
  obtain ⟨k1, l1, e1, hc1⟩ := C64_full N hr hsp hQ
  obtain ⟨k2, l2, e2, hc2⟩ := C64_full (N.rng rng mapRng) hr' hsp hQ
  have hles : es.length = es'.length := hs.length_eq
  have : k2 = k1 := by
    refine List.ext_getElem (by omega) (fun k h2 h1 => ?_)
    have x1 := hc1 k _ _ (List.getElem?_eq_getElem (by omega)) (List.getElem?_eq_getElem h1)
    have x2 := hc2 k _ _ (List.getElem?_eq_getElem (by omega)) (List.getElem?_eq_getElem h2)
    have hk : SameExample es[k] es'[k] := hs.get (i := k) (by omega) (by omega)
    rw [← dense_same hk.features (Q.map State.shape) (by simpa using hQ)] at x2
    exact classified_unique x2 x1
  rw [e1, e2, this, correct_same hs]

/-! ### What `SameExample` allows -/

/-- Features and labels in another order. -/
theorem C104_order {d d' : List (Pair ℝ)} {l l' : List Int} (hd : d.Perm d') (hl : l.Perm l') : SameExample ⟨d, l⟩ ⟨d', l'⟩ where
  features _ := ((hd.filter _).map _).sum_eq
  labels _ := hl.mem_iff
  count := hl.length_eq

/-- A feature that is given in two parts. -/
theorem C104_merge (f : Int) (x y : ℝ) (d : List (Pair ℝ)) (l : List Int) : SameExample ⟨⟨f, x⟩ :: ⟨f, y⟩ :: d, l⟩ ⟨⟨f, x + y⟩ :: d, l⟩ where
  features k := by
    rw [featureValue_cons, featureValue_cons, featureValue_cons]
    dsimp only
    split <;> ring
  labels _ := Iff.rfl
  count := rfl

/-- A feature of value 0. -/
theorem C104_zero (f : Int) (d : List (Pair ℝ)) (l : List Int) : SameExample ⟨⟨f, 0⟩ :: d, l⟩ ⟨d, l⟩ where
  features k := by
    rw [featureValue_cons]
    dsimp only
    split <;> ring
  labels _ := Iff.rfl
  count := rfl

theorem same_trans {e1 e2 e3 : Example ℝ} (h : SameExample e1 e2) (h' : SameExample e2 e3) : SameExample e1 e3 :=
  ⟨fun f => (h.features f).trans (h'.features f), fun y => (h.labels y).trans (h'.labels y), h.count.trans h'.count⟩

-- other values or another number of labels: not the same example
example : ¬ SameExample ⟨[⟨0, 1⟩], [0]⟩ ⟨[⟨0, 2⟩], [0]⟩ := fun h => by
  have := h.features 0
  simp [featureValue] at this
example : ¬ SameExample ⟨[⟨0, 1⟩], [0]⟩ ⟨[⟨0, 1⟩], [0, 0]⟩ := fun h => by simpa using h.count

/-- The second example of `RealEx.pair` in three parts, one of them 0. -/
noncomputable def RealEx.parts : List (Example ℝ) := [⟨[⟨0, 1⟩], [0]⟩, ⟨[⟨0, 0⟩, ⟨0, 3⟩, ⟨0, -1⟩], []⟩]

theorem RealEx.same : List.Forall₂ SameExample RealEx.parts RealEx.pair := by
  refine .cons (C104_order (.refl _) (.refl _)) (.cons ?_ .nil)
  refine same_trans (C104_zero 0 _ []) ?_
  have := C104_merge 0 3 (-1) [] []
  norm_num at this
  exact this

-- the hypotheses of C104_train hold
example : ∃ p w1 w2 w3, Life RealEx.cfg 0 (RealEx.args 2) w1 p ∧ runCalls RealEx.cfg 0 0 [.train RealEx.parts 0 false false] p w1 = .ok (p, w2) ∧
    runCalls RealEx.cfg 0 0 [.train RealEx.pair 0 true true] p w1 = .ok (p, w3) ∧ memoryOf w2 p = memoryOf w3 p := by
  obtain ⟨p, w1, h⟩ := C63_new_partial (cfg := RealEx.cfg) (a := RealEx.args 2) rfl 0 (RealEx.newOk (by decide)) RealEx.w0
  have life : Life RealEx.cfg 0 (RealEx.args 2) w1 p := Life.new h
  have hone : ∀ sp ∈ (RealEx.args 2).sparsity, sp = 1 := by simp [RealEx.args]
  have hfull : Full (RealEx.args 2).sparsity := fun sp hsp => by rw [hone sp hsp]; exact RealEx.full
  have hfit : ∀ es, es = RealEx.pair ∨ es = RealEx.parts → ∀ ex ∈ es, ∀ x ∈ ex.Features, 0 ≤ x.Index ∧ x.Index < (RealEx.args 2).dim := by
    intro es hes ex hex x hx
    have : x.Index = 0 := by
      rcases hes with rfl | rfl <;> simp only [RealEx.pair, RealEx.parts, List.mem_cons, List.not_mem_nil, or_false] at hex <;> rcases hex with rfl | rfl <;>
        simp at hx <;> aesop
    rw [this]
    exact ⟨le_refl 0, by show (0 : Int) < 1; decide⟩
  obtain ⟨w2, h2, -⟩ := C66_full (cfg := RealEx.cfg) rfl (RealEx.typed 2) hfull life 0 0 false false (es := RealEx.parts) (by show (2 : Int) ≤ 2; decide) (hfit _ (.inr rfl))
  obtain ⟨w3, h3, -⟩ := C66_full (cfg := RealEx.cfg) rfl (RealEx.typed 2) hfull life 0 0 true true (es := RealEx.pair) (by show (2 : Int) ≤ 2; decide) (hfit _ (.inl rfl))
  have hf : AllFull (RealEx.args 2) := fun sp hsp => by rw [hone sp hsp]; exact RealEx.full.1
  have r2 : runCalls RealEx.cfg 0 0 [.train RealEx.parts 0 false false] p w1 = .ok (p, w2) := by simp only [runCalls, h2]
  have r3 : runCalls RealEx.cfg 0 0 [.train RealEx.pair 0 true true] p w1 = .ok (p, w3) := by simp only [runCalls, h3]
  have hsame : List.Forall₂ SameCall [.train RealEx.parts 0 false false] [.train RealEx.pair 0 true true] := .cons ⟨rfl, RealEx.same⟩ .nil
  exact ⟨p, w1, w2, w3, life, r2, r3, (C104_train (cfg := RealEx.cfg) rfl (RealEx.typed 2) hf life hsame r2 r3).2.2⟩

end Goslide.Props
