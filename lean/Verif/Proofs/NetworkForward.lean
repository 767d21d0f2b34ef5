import Verif.Proofs.NetworkRep
import Verif.Proofs.Argmax
/-
The forward pass through the layers of a network.
-/
set_option linter.unusedSectionVars false
namespace Goslide.Network
open Goslide Node Lsh Configuration Spec.Node Spec.Network Layer
variable {F : Type} [GoFloat F]

/-- The nodes `ids` are a possible selection for the layer `g` at position `j`. -/
def Selected (cfg : Config F) (fuel : Nat) (c : Int) (label : List Int) (sparsity : List F) (off : Int) (j : Nat) (g : State F)
    (cur : List (Pair F)) (ids : List Int) : Prop :=
  ∃ sp w found, goGet sparsity (off + j) = .ok sp ∧ Stored w g ∧ Selects cfg fuel g c cur label sp w found ids

/-- The layers `Q'` from position `j` on are `Q` after the forward pass of input `i` with the active nodes `S`, which
satisfy `P`. -/
inductive Passes (c : Int) (i : Nat) (P : Nat → State F → List (Pair F) → List Int → Prop) :
    Nat → List (State F) → List (Pair F) → List (List Int) → List (State F) → Prop
  | nil (j : Nat) (data : List (Pair F)) : Passes c i P j [] data [] []
  | cons {j : Nat} {g g' : State F} {data : List (Pair F)} {ids : List Int} {Q Q' : List (State F)} {S : List (List Int)}
      (hs : P j g data ids) (hf : Forwarded c i data ids g g') (hr : Passes c i P (j + 1) Q (outputs g.softmax g.views data ids) S Q') :
      Passes c i P j (g :: Q) data (ids :: S) (g' :: Q')

theorem outs_cons (g : State F) (Q : List (State F)) (data : List (Pair F)) (ids : List Int) (S : List (List Int)) :
    outs (g :: Q) data (ids :: S) = outputs g.softmax g.views data ids :: outs Q (outputs g.softmax g.views data ids) S := rfl

theorem forward_layers {cfg : Config F} {fuel : Nat} {c : Int} {hidden : Slice} {sparsity : List F} {off : Int} {i : Nat} {label : List Int} :
    ∀ (B : List (State F)) {n j : Nat} {A : List (State F)} {cur : List (Pair F)} {w w' : World F} {acts : List (List (Pair F))},
      A.length = j → B.length = n → Layers w hidden (A ++ B) →
      forward cfg fuel c hidden sparsity off i label n j cur w = .ok (acts, w') →
      ∃ S B', Passes c i (Selected cfg fuel c label sparsity off) j B cur S B' ∧ acts = outs B cur S ∧ Layers w' hidden (A ++ B') ∧
        After w w' (A ++ B) (A ++ B') c
  | [], n, j, A, cur, w, w', acts, hA, hB, L, hr => by
    subst hB
    cases hr
    exact ⟨[], [], .nil _ _, rfl, L, After.refl _ _ _⟩
  | g :: B, n, j, A, cur, w, w', acts, hA, hB, L, hr => by
    subst hB
    unfold forward at hr
    have hg : (A ++ g :: B)[j]? = some g := by rw [← hA]; simp
    replace hr := M.bind_eq_ok hr
    obtain ⟨la, w1, e1, hr⟩ := hr
    rw [layerPtr_run L.ptrs (p := g.ptr) (by rw [List.getElem?_map, hg]; rfl)] at e1
    cases e1
    replace hr := M.bind_eq_ok hr
    obtain ⟨sp, w2, e2, hr⟩ := hr
    obtain ⟨hsp, e2⟩ := lift_ok e2
    subst e2
    replace hr := M.bind_eq_ok hr
    obtain ⟨⟨found, next, la'⟩, w3, e3, hr⟩ := hr
    replace hr := M.bind_eq_ok hr
    obtain ⟨u, w4, e4, hr⟩ := hr
    replace hr := M.bind_eq_ok hr
    obtain ⟨rest, w5, e5, hr⟩ := hr
    cases hr
    obtain ⟨ids, g', hs, rfl, f, L', a⟩ := query_layers L hg e3 e4
    have hset : (A ++ g :: B).set j g' = (A ++ [g']) ++ B := by
      rw [← hA, List.set_append_right _ _ (Nat.le_refl _)]; simp
    rw [hset] at L' a
    obtain ⟨S, B', p, rfl, L2, a2⟩ := forward_layers B (j := j + 1) (by simp [hA]) rfl L' e5
    refine ⟨ids :: S, g' :: B', .cons ⟨sp, _, found, hsp, L.get hg, hs⟩ f p, rfl, ?_, ?_⟩
    · simpa using L2
    · have := a.trans a2
      simpa using this

theorem _root_.Goslide.Spec.Network.SameParams.refl (c : Int) (g : State F) : SameParams c g g := ⟨.inr rfl, rfl, rfl, rfl, rfl, rfl, id⟩

theorem _root_.Goslide.Spec.Network.SameParams.trans {c : Int} {g g1 g2 : State F} (a : SameParams c g g1) (b : SameParams c g1 g2) : SameParams c g g2 := by
  refine ⟨?_, b.params.trans a.params, b.order.trans a.order, b.tables.trans a.tables, b.norm.trans a.norm, b.trains.trans a.trains, fun h => b.still (a.still h)⟩
  rcases b.obj with h | rfl
  · rcases a.obj with h' | rfl
    · left; rw [h, h']
    · left; exact h
  · exact a.obj

theorem _root_.Goslide.Spec.Network.SameParams.softmax {c : Int} {g g' : State F} (a : SameParams c g g') : g'.softmax = g.softmax := by
  unfold State.softmax
  rcases a.obj with h | rfl
  · rw [h]
  · rfl

theorem mark_params (ids : List Int) {f : View F → View F} (hf : ∀ v, (f v).params = v.params) (vs : List (View F)) :
    (mark ids f vs).map View.params = vs.map View.params := by
  apply List.ext_getElem?
  intro k
  rw [List.getElem?_map, mark_get, List.getElem?_map, Option.map_map]
  congr 1
  funext v
  simp only [Function.comp]
  split
  · exact hf v
  · rfl

theorem mark_map {β : Type} (ids : List Int) {f : View F → View F} (p : View F → β) (hf : ∀ v, p (f v) = p v) (vs : List (View F)) :
    (mark ids f vs).map p = vs.map p := by
  apply List.ext_getElem?
  intro k
  rw [List.getElem?_map, mark_get, List.getElem?_map, Option.map_map]
  congr 1
  funext v
  simp only [Function.comp]
  split
  · exact hf v
  · rfl

theorem forwardViews_params (b : Bool) (i : Nat) (vs : List (View F)) (data : List (Pair F)) (ids : List Int) :
    (forwardViews b i vs data ids).map View.params = vs.map View.params := mark_params ids (f := fired b i data (maxValue vs data ids)) (fun _ => rfl) vs

theorem forwardViews_still (b : Bool) (i : Nat) {vs : List (View F)} (data : List (Pair F)) (ids : List Int) (h : Still vs) :
    Still (forwardViews b i vs data ids) := by
  intro v hv s hs
  obtain ⟨k, hk⟩ := List.mem_iff_getElem?.mp hv
  unfold forwardViews at hk
  rw [mark_get, Option.map_eq_some_iff] at hk
  obtain ⟨u, hu, rfl⟩ := hk
  have hu := h u (List.mem_of_getElem? hu)
  split at hs
  · obtain ⟨m, hm⟩ := List.mem_iff_getElem?.mp hs
    unfold fired View.setSlot at hm
    dsimp only at hm
    rw [List.getElem?_modify, Option.map_eq_map, Option.map_eq_some_iff] at hm
    obtain ⟨s0, h0, rfl⟩ := hm
    have h0 := hu s0 (List.mem_of_getElem? h0)
    split
    · dsimp only
      split
      · rfl
      · exact h0
    · exact h0
  · exact hu s hs

theorem _root_.Goslide.Spec.Network.Forwarded.same {c : Int} {i : Nat} {data : List (Pair F)} {ids : List Int} {g g' : State F}
    (f : Forwarded c i data ids g g') : SameParams c g g' := by
  refine ⟨.inl f.obj, ?_, f.order, f.tables, ?_, ?_, fun h => by rw [f.views]; exact forwardViews_still _ _ _ _ h⟩
  · rw [f.views]; exact forwardViews_params ..
  · rw [f.norm]; split <;> simp
  · rw [f.views]
    exact mark_map ids _ (fun v => by simp [fired, View.setSlot]) _

theorem _root_.Goslide.Spec.Network.SameAll.refl (c : Int) (Q : List (State F)) : SameAll c Q Q :=
  ⟨rfl, fun k g g' h h' => by rw [h] at h'; cases h'; exact .refl c g⟩

theorem _root_.Goslide.Spec.Network.SameAll.trans {c : Int} {Q Q1 Q2 : List (State F)} (a : SameAll c Q Q1) (b : SameAll c Q1 Q2) : SameAll c Q Q2 := by
  refine ⟨b.1.trans a.1, fun k g g2 h h2 => ?_⟩
  have hk : k < Q1.length := by rw [a.1]; exact (List.getElem?_eq_some_iff.mp h).1
  exact (a.2 k g _ h (List.getElem?_eq_getElem hk)).trans (b.2 k _ g2 (List.getElem?_eq_getElem hk) h2)

theorem _root_.Goslide.Spec.Network.SameAll.cons {c : Int} {g g' : State F} {Q Q' : List (State F)} (a : SameParams c g g') (b : SameAll c Q Q') :
    SameAll c (g :: Q) (g' :: Q') := by
  refine ⟨by simp [b.1], fun k x x' h h' => ?_⟩
  cases k with
  | zero => cases h; cases h'; exact a
  | succ k => exact b.2 k x x' (by simpa using h) (by simpa using h')

theorem passes_same {c : Int} {i : Nat} {P : Nat → State F → List (Pair F) → List Int → Prop} {j : Nat} {Q Q' : List (State F)}
    {data : List (Pair F)} {S : List (List Int)} (p : Passes c i P j Q data S Q') : SameAll c Q Q' := by
  induction p with
  | nil => exact .refl c []
  | cons hs hf hr ih => exact .cons hf.same ih

theorem valueOf_congr {vs vs' : List (View F)} (h : vs'.map View.params = vs.map View.params) (data : List (Pair F)) (id : Int) :
    valueOf vs' data id = valueOf vs data id := by
  have := congrArg (fun l => l[id.toNat]?) h
  simp only [List.getElem?_map] at this
  unfold valueOf
  cases h1 : vs'[id.toNat]? with
  | none =>
    cases h2 : vs[id.toNat]? with
    | none => rfl
    | some v => rw [h1, h2] at this; cases this
  | some v' =>
    cases h2 : vs[id.toNat]? with
    | none => rw [h1, h2] at this; cases this
    | some v =>
      rw [h1, h2] at this
      simp only [Option.map_some, Option.some.injEq] at this
      dsimp only
      rw [this]

theorem outputs_congr {vs vs' : List (View F)} (h : vs'.map View.params = vs.map View.params) (b : Bool) (data : List (Pair F)) (ids : List Int) :
    outputs b vs' data ids = outputs b vs data ids := by
  unfold outputs outputOf maxValue
  simp only [valueOf_congr h]

theorem outs_congr {c : Int} : ∀ {Q Q' : List (State F)}, SameAll c Q Q' → ∀ (data : List (Pair F)) (S : List (List Int)),
    outs Q' data S = outs Q data S
  | [], [], _, _, _ => rfl
  | [], _ :: _, h, _, _ => by cases h.1
  | _ :: _, [], h, _, _ => by cases h.1
  | g :: Q, g' :: Q', h, data, [] => rfl
  | g :: Q, g' :: Q', h, data, ids :: S => by
    have hg := h.2 0 g g' rfl rfl
    rw [outs_cons, outs_cons, hg.softmax, outputs_congr hg.params,
      outs_congr ⟨Nat.succ.inj h.1, fun k x x' hx hx' => h.2 (k + 1) x x' (by simpa using hx) (by simpa using hx')⟩]

theorem passes_get {c : Int} {i : Nat} {P : Nat → State F → List (Pair F) → List Int → Prop} {j : Nat} {Q Q' : List (State F)}
    {data : List (Pair F)} {S : List (List Int)} (p : Passes c i P j Q data S Q') :
    ∀ {k : Nat} {g : State F}, Q[k]? = some g → ∃ g' ids d, Q'[k]? = some g' ∧ S[k]? = some ids ∧ P (j + k) g d ids ∧
      Forwarded c i d ids g g' ∧ (outs Q data S)[k]? = some (outputs g.softmax g.views d ids) ∧
      d = ((data :: outs Q data S)[k]?).getD [] := by
  induction p with
  | nil => intro k g h; simp at h
  | @cons j g0 g0' data ids Q Q' S hs hf hr ih =>
    intro k g h
    cases k with
    | zero => cases h; exact ⟨g0', ids, data, rfl, rfl, hs, hf, rfl, rfl⟩
    | succ k =>
      obtain ⟨g', ids', d, h1, h2, h3, h4, h5, h6⟩ := ih (by simpa using h)
      refine ⟨g', ids', d, by simpa using h1, by simpa using h2, ?_, h4, ?_, ?_⟩
      · rw [show j + (k + 1) = j + 1 + k by omega]; exact h3
      · rw [outs_cons]; simpa using h5
      · rw [outs_cons]; simpa using h6

theorem passes_length {c : Int} {i : Nat} {P : Nat → State F → List (Pair F) → List Int → Prop} {j : Nat} {Q Q' : List (State F)}
    {data : List (Pair F)} {S : List (List Int)} (p : Passes c i P j Q data S Q') :
    S.length = Q.length ∧ (outs Q data S).length = Q.length := by
  induction p with
  | nil => exact ⟨rfl, rfl⟩
  | cons hs hf hr ih => exact ⟨by simp [ih.1], by rw [outs_cons]; simp [ih.2]⟩

/-- The last activation of an active node after the forward pass. -/
theorem forwarded_last {c : Int} {i : Nat} {data : List (Pair F)} {ids : List Int} {g g' : State F} (f : Forwarded c i data ids g g')
    {h : Heap F} (H : ∀ x ∈ g'.nodes, Handle h x.1 x.2) {id : Int} (hid : id ∈ ids) :
    0 ≤ id ∧ ∃ x, g'.nodes[id.toNat]? = some x ∧
      getLastActivation x.1 i h = .ok (outputOf g.softmax g.views data ids id, h) := by
  obtain ⟨h0, v, hv, hb, -, -⟩ := f.can id hid
  have hv' : g'.views[id.toNat]? = some (fired g.softmax i data (maxValue g.views data ids) v) := by
    rw [f.views, forwardViews, mark_get, hv, Option.map_some, Int.toNat_of_nonneg h0, if_pos hid]
  obtain ⟨x, hx, ex⟩ : ∃ x, g'.nodes[id.toNat]? = some x ∧ x.2 = fired g.softmax i data (maxValue g.views data ids) v := by
    unfold State.views at hv'
    rw [List.getElem?_map, Option.map_eq_some_iff] at hv'
    exact hv'
  have Hx := H x (List.mem_of_getElem? hx)
  refine ⟨h0, x, hx, ?_⟩
  have hlen : i < v.train.length := by
    obtain ⟨_, _, _, hP⟩ := Hx.parts
    have := hP.batch
    rw [ex] at this
    simp only [fired, View.setSlot, List.length_modify] at this
    omega
  obtain ⟨s, hs1⟩ : ∃ s, v.train[i]? = some s := ⟨_, List.getElem?_eq_getElem hlen⟩
  have hs2 : x.2.train[i]? = some ⟨true, outputOf g.softmax g.views data ids id,
      if Clamped v.params data then GoFloat.zero else s.delta⟩ := by
    rw [ex]
    have e1 : valueOf g.views data id = activation v.params data := by unfold valueOf; rw [hv]
    unfold fired View.setSlot outputOf
    simp only [List.getElem?_modify, hs1, e1]
    simp
  rw [getLastActivation_run Hx hs2]
  simp only [if_true]

theorem argMax_run {last : Ptr} {i : Nat} {w : World F} : ∀ (l : List (Pair F)),
    (∀ pair ∈ l, ∃ q, getNodeById last pair.Index w = .ok (q, w) ∧ getLastActivation q i w.heap = .ok (pair.Value, w.heap)) →
    ∀ (a : F) (cls : Int), argMax last i l false a cls w = .ok ((l.foldl (argStep Pair.Value Pair.Index) (cls, a)).1, w)
  | [], _, a, cls => rfl
  | pair :: l, hl, a, cls => by
    obtain ⟨q, h1, h2⟩ := hl pair (by simp)
    unfold argMax
    rw [M.bind_ok h1, M.bind_ok (onHeap_run h2), List.foldl_cons]
    unfold argStep
    by_cases h : GoFloat.lt a pair.Value = true
    · rw [if_pos (by simp [h]), if_pos h]
      exact argMax_run l (fun p hp => hl p (by simp [hp])) pair.Value pair.Index
    · rw [if_neg (by simp [h]), if_neg h]
      exact argMax_run l (fun p hp => hl p (by simp [hp])) a cls

theorem argMax_class [FloatOrder F] {last : Ptr} {i : Nat} {w : World F} {l : List (Pair F)}
    (hl : ∀ pair ∈ l, ∃ q, getNodeById last pair.Index w = .ok (q, w) ∧ getLastActivation q i w.heap = .ok (pair.Value, w.heap)) :
    ∃ cls, argMax last i l true GoFloat.zero 0 w = .ok (cls, w) ∧ Classified l cls := by
  cases l with
  | nil => exact ⟨0, rfl, rfl⟩
  | cons pair l =>
    obtain ⟨q, h1, h2⟩ := hl pair (by simp)
    unfold argMax
    rw [M.bind_ok h1, M.bind_ok (onHeap_run h2), if_pos (by simp), argMax_run l (fun p hp => hl p (by simp [hp]))]
    refine ⟨_, rfl, ?_⟩
    unfold Classified
    rcases argStep_fold (F := F) Pair.Value Pair.Index l pair.Index pair.Value with ⟨e, h⟩ | ⟨p, e, hlt, pre, post, e2, h3, h4⟩
    · dsimp only
      split
      · rw [e]
      · rename_i hn
        exact ⟨pair, by simpa using hn, ⟨[], l, rfl, by simp, h⟩, by rw [e]⟩
    · dsimp only
      split
      · rename_i hn
        rw [FloatOrder.lt_nan_left _ _ hn] at hlt; cases hlt
      · refine ⟨p, ?_, ⟨pair :: pre, post, by rw [e2]; rfl, ?_, h4⟩, by rw [e]⟩
        · cases hn : FloatOrder.isNaN p.Value with
          | false => rfl
          | true => rw [FloatOrder.lt_nan_right _ _ hn] at hlt; cases hlt
        · intro x hx
          rcases List.mem_cons.mp hx with rfl | hx
          · exact .inr hlt
          · exact h3 x hx

theorem firstArgmax_unique [FloatOrder F] {l : List (Pair F)} {a b : Pair F} (ha : FloatOrder.isNaN a.Value = false)
    (hb : FloatOrder.isNaN b.Value = false) (h1 : Spec.IsFirstArgmax FloatOrder.isNaN GoFloat.lt Pair.Value l a)
    (h2 : Spec.IsFirstArgmax FloatOrder.isNaN GoFloat.lt Pair.Value l b) : a = b := by
  obtain ⟨p1, q1, e1, x1, y1⟩ := h1
  obtain ⟨p2, q2, e2, x2, y2⟩ := h2
  rw [e1] at e2
  rcases List.append_eq_append_iff.mp e2 with ⟨m, hm1, hm2⟩ | ⟨m, hm1, hm2⟩
  · cases m with
    | nil => simp only [List.nil_append, List.cons.injEq] at hm2; exact hm2.1
    | cons z m =>
      simp only [List.cons_append, List.cons.injEq] at hm2
      have h3 := y1 b (by rw [hm2.2]; simp)
      rcases x2 a (by rw [hm1, hm2.1]; simp) with h | h
      · rw [ha] at h; cases h
      · rw [h3] at h; cases h
  · cases m with
    | nil => simp only [List.nil_append, List.cons.injEq] at hm2; exact hm2.1.symm
    | cons z m =>
      simp only [List.cons_append, List.cons.injEq] at hm2
      have h3 := y2 a (by rw [hm2.2]; simp)
      rcases x1 b (by rw [hm1, hm2.1]; simp) with h | h
      · rw [hb] at h; cases h
      · rw [h3] at h; cases h

theorem classified_unique [FloatOrder F] {l : List (Pair F)} {a b : Int} (h1 : Classified l a) (h2 : Classified l b) : a = b := by
  unfold Classified at h1 h2
  cases l with
  | nil => dsimp only at h1 h2; rw [h1, h2]
  | cons x l =>
    dsimp only at h1 h2
    split at h1
    · rename_i hn; rw [if_pos hn] at h2; rw [h1, h2]
    · rename_i hn
      rw [if_neg hn] at h2
      obtain ⟨p, hp1, hp2, rfl⟩ := h1
      obtain ⟨q, hq1, hq2, rfl⟩ := h2
      rw [firstArgmax_unique hp1 hq1 hp2 hq2]

theorem dense_congr {c : Int} : ∀ {Q Q' : List (State F)}, SameAll c Q Q' → ∀ (data : List (Pair F)),
    dense (Q'.map State.shape) data = dense (Q.map State.shape) data
  | [], [], _, _ => rfl
  | [], _ :: _, h, _ => by cases h.1
  | _ :: _, [], h, _ => by cases h.1
  | g :: Q, g' :: Q', h, data => by
    have hg := h.2 0 g g' rfl rfl
    have hl : g'.views.length = g.views.length := by simpa using congrArg List.length hg.params
    simp only [List.map_cons, State.shape, dense]
    rw [hg.softmax, outputs_congr hg.params, hl]
    exact dense_congr ⟨Nat.succ.inj h.1, fun k x x' hx hx' => h.2 (k + 1) x x' (by simpa using hx) (by simpa using hx')⟩ _

theorem goGet_at {α : Type} {l : List α} {j : Nat} {x : α} (h : goGet l (j : Int) = .ok x) : l[j]? = some x := by
  rw [goGet_ofNat] at h
  cases hs : l[j]? with
  | none => rw [hs] at h; cases h
  | some v => rw [hs] at h; cases h; rfl

theorem selected_active {cfg : Config F} {fuel : Nat} {c : Int} {label : List Int} {sparsity : List F} {off : Nat} :
    ∀ {j i : Nat} {Q Q' : List (State F)} {data : List (Pair F)} {S : List (List Int)},
      Passes c i (Selected cfg fuel c label sparsity off) j Q data S Q' → ActiveOn sparsity (off + j) Q S
  | _, _, _, _, _, _, .nil _ _ => ⟨rfl, by simp⟩
  | j, i, _, _, _, _, .cons (g := g) (ids := ids) hs hf hr => by
    obtain ⟨a, b⟩ := selected_active hr
    refine ⟨by simp [a], ?_⟩
    intro k g1 ids1 hg hi
    cases k with
    | zero =>
      cases hg; cases hi
      obtain ⟨sp, w, found, h1, h2, ids', w', h3, h4⟩ := hs
      constructor
      · intro id hid
        obtain ⟨h0, v, hv, -⟩ := hf.can id hid
        obtain ⟨hlt, -⟩ := List.getElem?_eq_some_iff.mp hv
        simp only [State.views, List.length_map] at hlt
        omega
      · refine ⟨sp, ?_, ?_⟩
        · rw [show off + j + 0 = off + j from rfl]
          exact goGet_at (j := off + j) (by rw [← h1]; simp)
        · intro h
          rw [select_full h] at h3
          cases h3
          have hn := readSlice_length h2.nodes
          rw [h4, Option.getD_some]
          simp only [List.length_map] at hn
          rw [hn]
    | succ k =>
      rw [List.getElem?_cons_succ] at hg hi
      have := b k g1 ids1 hg hi
      rw [show off + j + (k + 1) = off + (j + 1) + k by omega]
      exact this

end Goslide.Network
