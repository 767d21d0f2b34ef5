import Verif.Proofs.NodeZip
import Verif.Proofs.NodeOps
import Verif.Proofs.NodeMore
import Verif.Proofs.LayerQuery
import Verif.Spec.Network
/-
The activations of a layer.
-/
set_option linter.unusedSectionVars false
namespace Goslide.Layer
open Goslide Node Lsh Configuration Spec.Node Spec.Network
variable {F : Type} [GoFloat F]

theorem mark_get (ids : List Int) (f : View F → View F) (vs : List (View F)) (k : Nat) :
    (mark ids f vs)[k]? = (vs[k]?).map (fun v => if (k : Int) ∈ ids then f v else v) := by
  unfold mark; rw [List.getElem?_mapIdx]

theorem mark_length (ids : List Int) (f : View F → View F) (vs : List (View F)) : (mark ids f vs).length = vs.length := by
  unfold mark; simp

theorem mark_nil (f : View F → View F) (vs : List (View F)) : mark [] f vs = vs := by
  apply List.ext_getElem?
  intro k
  rw [mark_get]
  simp

theorem mark_cons {id : Int} (h0 : 0 ≤ id) (ids : List Int) {f : View F → View F} (hf : ∀ v, f (f v) = f v) (vs : List (View F)) :
    mark ids f (vs.modify id.toNat f) = mark (id :: ids) f vs := by
  apply List.ext_getElem?
  intro k
  rw [mark_get, mark_get, List.getElem?_modify]
  cases vs[k]? with
  | none => simp
  | some v =>
    simp only [Option.map_some, List.mem_cons]
    by_cases hk : id.toNat = k
    · have e : (k : Int) = id := by omega
      simp only [hk, e, true_or, if_true]
      by_cases hm : id ∈ ids
      · simp [hm, hf]
      · simp [hm]
    · have e : ¬ (k : Int) = id := by omega
      simp [hk, e]

theorem setSlot_setSlot (v : View F) (i : Nat) (f g : Slot F → Slot F) : (v.setSlot i f).setSlot i g = v.setSlot i (g ∘ f) := by
  unfold View.setSlot
  simp [List.modify_modify_eq]

theorem setSlot_params (v : View F) (i : Nat) (f : Slot F → Slot F) : (v.setSlot i f).params = v.params := rfl

theorem valueOf_modify (vs : List (View F)) (data : List (Pair F)) (k : Nat) {f : View F → View F} (hf : ∀ v, (f v).params = v.params) (id : Int) :
    valueOf (vs.modify k f) data id = valueOf vs data id := by
  unfold valueOf
  rw [List.getElem?_modify]
  cases vs[id.toNat]? with
  | none => rfl
  | some v =>
    by_cases e : k = id.toNat
    · simp [e, hf]
    · simp [e]

theorem nodePtr_run {h : Heap F} {nodes : Slice} {L : List Ptr} (hn : readSlice h.nodeArrs nodes = some L) {id : Int} (h0 : 0 ≤ id)
    {p : Ptr} (hp : L[id.toNat]? = some p) : nodePtr nodes id h = .ok (p, h) := by
  unfold nodePtr
  have := readCell_ok_of hn hp
  rw [Int.toNat_of_nonneg h0] at this
  rw [this]; rfl

theorem setNodePtr_run {h : Heap F} {nodes : Slice} {L : List Ptr} (hn : readSlice h.nodeArrs nodes = some L) {id : Int} (h0 : 0 ≤ id)
    (hlt : id.toNat < L.length) (p : Ptr) : ∃ a, setNodePtr nodes id p h = .ok ((), { h with nodeArrs := a }) ∧
      readSlice a nodes = some (L.set id.toNat p) ∧ (∀ s : Slice, nodes.Disjoint s → readSlice a s = readSlice h.nodeArrs s) ∧
      (L[id.toNat]? = some p → a = h.nodeArrs) := by
  obtain ⟨a, e, -, -, -, h1, h2, h3⟩ := writeCell_of hn id.toNat p hlt
  rw [Int.toNat_of_nonneg h0] at e
  exact ⟨a, by unfold setNodePtr; rw [e]; rfl, h1, h2, h3⟩

theorem ownedZ_arrs {h : Heap F} {Z : List (Ptr × View F)} {c : Int} (g : OwnedZ h Z c) (a : List (List Ptr)) :
    OwnedZ { h with nodeArrs := a } Z c := g

/-- What an operation on the nodes `z` of a layer leaves: the frame `R` and the nodes that `c` owns. -/
structure LayerOp (h h' : Heap F) (nodes : Slice) (c : Int) (R z z' : List (Ptr × View F)) : Prop where
  group : GroupZ h' (z' ++ R)
  ptrs : readSlice h'.nodeArrs nodes = some (z'.map Prod.fst)
  frame : ∀ s : Slice, nodes.Disjoint s → readSlice h'.nodeArrs s = readSlice h.nodeArrs s
  owned : OwnedZ h (z ++ R) c → z'.map Prod.fst = z.map Prod.fst ∧ OwnedZ h' (z' ++ R) c ∧ h'.nodeArrs = h.nodeArrs
  floats : h'.floats = h.floats

theorem LayerOp.refl {h : Heap F} {nodes : Slice} (c : Int) {R z : List (Ptr × View F)} (g : GroupZ h (z ++ R))
    (hn : readSlice h.nodeArrs nodes = some (z.map Prod.fst)) : LayerOp h h nodes c R z z :=
  ⟨g, hn, fun _ _ => rfl, fun o => ⟨rfl, o, rfl⟩, rfl⟩

theorem LayerOp.trans {h h1 h2 : Heap F} {nodes : Slice} {c : Int} {R z z1 z2 : List (Ptr × View F)} (a : LayerOp h h1 nodes c R z z1)
    (b : LayerOp h1 h2 nodes c R z1 z2) : LayerOp h h2 nodes c R z z2 := by
  refine ⟨b.group, b.ptrs, fun s hs => (b.frame s hs).trans (a.frame s hs), fun o => ?_, b.floats.trans a.floats⟩
  obtain ⟨e1, o1, n1⟩ := a.owned o
  obtain ⟨e2, o2, n2⟩ := b.owned o1
  exact ⟨e2.trans e1, o2, n2.trans n1⟩

/-- An operation on one node, followed by storing the returned pointer. -/
theorem LayerOp.one {h h1 : Heap F} {nodes : Slice} {c : Int} {R z : List (Ptr × View F)} (g : GroupZ h (z ++ R))
    (hn : readSlice h.nodeArrs nodes = some (z.map Prod.fst)) {id : Int} (h0 : 0 ≤ id) {x : Ptr × View F} (hx : z[id.toNat]? = some x)
    {n : Ptr} {v' : View F} (ho : Op h h1 x.1 n c v') (hf : h1.floats = h.floats) :
    ∃ h2, setNodePtr nodes id n h1 = .ok ((), h2) ∧ LayerOp h h2 nodes c R z (z.set id.toNat (n, v')) := by
  obtain ⟨g1, o1⟩ := g.op_at hx ho
  have hlt : id.toNat < z.length := (List.getElem?_eq_some_iff.mp hx).1
  have hn1 : readSlice h1.nodeArrs nodes = some (z.map Prod.fst) := by rw [ho.nodeArrs]; exact hn
  obtain ⟨a, e, r1, r2, r3⟩ := setNodePtr_run hn1 h0 (by simpa using hlt) n
  refine ⟨_, e, ?_, ?_, ?_, ?_, hf⟩
  · exact g1.arrs a
  · rw [r1, List.map_set]
  · intro s hs
    rw [r2 s hs, ho.nodeArrs]
  · intro ow
    obtain ⟨e1, ow1⟩ := o1 ow
    subst e1
    refine ⟨?_, ow1, ?_⟩
    · rw [List.map_set]
      apply List.ext_getElem?
      intro k
      rw [List.getElem?_set]
      split
      · next e => subst e; rw [List.getElem?_map, hx]; simp [hlt]
      · rfl
    · rw [← ho.nodeArrs]
      exact r3 (by rw [List.getElem?_map, hx]; rfl)

theorem fired_params (softmax : Bool) (i : Nat) (data : List (Pair F)) (m : F) (v : View F) :
    (fired softmax i data m v).params = v.params := rfl

theorem fired_idem (softmax : Bool) (i : Nat) (data : List (Pair F)) (m : F) (v : View F) :
    fired softmax i data m (fired softmax i data m v) = fired softmax i data m v := by
  unfold fired
  rw [setSlot_setSlot]
  congr 1
  funext s
  simp only [Function.comp, setSlot_params]
  by_cases hcl : Clamped v.params data <;> simp [hcl]

theorem canFire_tail {i : Nat} {vs : List (View F)} {data : List (Pair F)} {id : Int} {ids : List Int}
    (h : CanFire i vs data (id :: ids)) : CanFire i vs data ids := fun x hx => h x (List.mem_cons_of_mem _ hx)

theorem canFire_modify {i : Nat} {vs : List (View F)} {data : List (Pair F)} {ids : List Int} (h : CanFire i vs data ids) (k : Nat)
    {f : View F → View F} (hf : ∀ v, (f v).params = v.params) : CanFire i (vs.modify k f) data ids := by
  intro id hid
  obtain ⟨h0, v, hv, hb, hr, ht⟩ := h id hid
  refine ⟨h0, if k = id.toNat then f v else v, ?_, ?_⟩
  · rw [List.getElem?_modify, hv]; rfl
  · split
    · rw [hf]; exact ⟨hb, hr, ht⟩
    · exact ⟨hb, hr, ht⟩

theorem canFire_unmodify {i : Nat} {vs : List (View F)} {data : List (Pair F)} {ids : List Int} (k : Nat)
    {f : View F → View F} (hf : ∀ v, (f v).params = v.params) (h : CanFire i (vs.modify k f) data ids) : CanFire i vs data ids := by
  intro id hid
  obtain ⟨h0, v, hv, hb, hr, ht⟩ := h id hid
  rw [List.getElem?_modify] at hv
  obtain ⟨v0, e, rfl⟩ := Option.map_eq_some_iff.mp hv
  refine ⟨h0, v0, e, ?_⟩
  split at hb
  · rw [if_pos (by assumption), hf] at *; exact ⟨hb, hr, ht⟩
  · rw [if_neg (by assumption)] at *; exact ⟨hb, hr, ht⟩

/-- One node is activated. -/
theorem activate_one {h : Heap F} {nodes : Slice} (c : Int) {R z : List (Ptr × View F)} (g : GroupZ h (z ++ R))
    (hn : readSlice h.nodeArrs nodes = some (z.map Prod.fst)) (cur : List (Pair F)) {i : Nat} {id : Int} (h0 : 0 ≤ id)
    {x : Ptr × View F} (hx : z[id.toNat]? = some x) (hb : (i : Int) < x.2.params.batch) (hr : InRange x.2.params cur)
    (ht : x.2.params.nodeType = 0 ∨ x.2.params.nodeType = 1) :
    ∃ n h1 h2 z', nodePtr nodes id h = .ok (x.1, h) ∧ getActivation x.1 c cur i h = .ok ((activation x.2.params cur, n), h1) ∧
      setNodePtr nodes id n h1 = .ok ((), h2) ∧ LayerOp h h2 nodes c R z z' ∧
      z'.map Prod.snd = (z.map Prod.snd).modify id.toNat (fired false i cur GoFloat.zero) := by
  have hv : Handle h x.1 x.2 := g.handle (List.mem_append_left _ (List.mem_of_getElem? hx))
  obtain ⟨n, h1, s, e1, hs, so⟩ := getActivation_run hv c cur hb hr ht
  obtain ⟨h2, e2, lo⟩ := LayerOp.one g hn h0 hx so.toOp so.floats
  refine ⟨n, h1, h2, _, nodePtr_run hn h0 (by rw [List.getElem?_map, hx]; rfl), e1, e2, lo, ?_⟩
  rw [List.map_set]
  have := set_of_getElem? (l := z.map Prod.snd) (i := id.toNat) (a := x.2) (by rw [List.getElem?_map, hx]; rfl)
    (f := fired false i cur GoFloat.zero)
  rw [← this]
  congr 1
  unfold fired View.setSlot
  rw [← set_of_getElem? hs]
  simp

/-- The first loop of the activations. -/
theorem activate_run (c : Int) (softmax : Bool) (nodes : Slice) (cur : List (Pair F)) (i : Nat) (R : List (Ptr × View F)) :
    ∀ (ids : List Int) (m : F) (h : Heap F) (z : List (Ptr × View F)), GroupZ h (z ++ R) →
      readSlice h.nodeArrs nodes = some (z.map Prod.fst) → CanFire i (z.map Prod.snd) cur ids →
      ∃ h' z', activate c softmax nodes cur i ids m h =
          .ok ((ids.map (fun id => { Index := id, Value := valueOf (z.map Prod.snd) cur id }),
            ids.foldl (fun m id => if softmax && GoFloat.lt m (valueOf (z.map Prod.snd) cur id) then valueOf (z.map Prod.snd) cur id else m) m), h') ∧
        LayerOp h h' nodes c R z z' ∧ z'.map Prod.snd = mark ids (fired false i cur GoFloat.zero) (z.map Prod.snd)
  | [], m, h, z, g, hn, _ => ⟨h, z, rfl, LayerOp.refl c g hn, by rw [mark_nil]⟩
  | id :: ids, m, h, z, g, hn, hc => by
    obtain ⟨h0, v, hv, hb, hr, ht⟩ := hc id (List.mem_cons_self ..)
    rw [List.getElem?_map, Option.map_eq_some_iff] at hv
    obtain ⟨x, hx, rfl⟩ := hv
    obtain ⟨n, h1, h2, z1, e0, e1, e2, lo, ez⟩ := activate_one c g hn cur h0 hx hb hr ht
    have hval : valueOf (z.map Prod.snd) cur id = activation x.2.params cur := by
      unfold valueOf; rw [List.getElem?_map, hx]; rfl
    have hval1 : ∀ id, valueOf (z1.map Prod.snd) cur id = valueOf (z.map Prod.snd) cur id := by
      intro id'; rw [ez]; exact valueOf_modify _ _ _ (fired_params _ _ _ _) _
    obtain ⟨h', z', er, lo', ez'⟩ := activate_run c softmax nodes cur i R ids
      (if softmax && GoFloat.lt m (activation x.2.params cur) then activation x.2.params cur else m) h2 z1 lo.group lo.ptrs
      (by rw [ez]; exact canFire_modify (canFire_tail hc) _ (fired_params _ _ _ _))
    refine ⟨h', z', ?_, lo.trans lo', ?_⟩
    · rw [activate, M.bind_ok e0, M.bind_ok e1]
      dsimp only
      rw [M.bind_ok e2, M.bind_ok er]
      simp only [hval1, List.map_cons, List.foldl_cons, hval]
      rfl
    · rw [ez', ez]
      exact mark_cons h0 ids (fired_idem _ _ _ _) _

theorem mark_mark (ids : List Int) (f g : View F → View F) (vs : List (View F)) :
    mark ids g (mark ids f vs) = mark ids (g ∘ f) vs := by
  apply List.ext_getElem?
  intro k
  rw [mark_get, mark_get, mark_get]
  cases vs[k]? with
  | none => rfl
  | some v => simp only [Option.map_some, Function.comp]; split <;> rfl

theorem valueOf_mark (ids : List Int) {f : View F → View F} (hf : ∀ v, (f v).params = v.params) (vs : List (View F))
    (data : List (Pair F)) (id : Int) : valueOf (mark ids f vs) data id = valueOf vs data id := by
  unfold valueOf
  rw [mark_get]
  cases vs[id.toNat]? with
  | none => rfl
  | some v =>
    simp only [Option.map_some]
    split
    · rw [hf]
    · rfl

/-- The last activation replaced by the exponential. -/
def exped (i : Nat) (data : List (Pair F)) (m : F) (v : View F) : View F :=
  v.setSlot i (fun s => { s with act := GoFloat.exp (GoFloat.sub (activation v.params data) m) })

theorem exped_params (i : Nat) (data : List (Pair F)) (m : F) (v : View F) : (exped i data m v).params = v.params := rfl

theorem exped_idem (i : Nat) (data : List (Pair F)) (m : F) (v : View F) : exped i data m (exped i data m v) = exped i data m v := by
  unfold exped
  rw [setSlot_setSlot]
  rfl

theorem exped_fired (i : Nat) (data : List (Pair F)) (m m' : F) : exped i data m ∘ fired false i data m' = fired true i data m := by
  funext v
  unfold fired exped
  simp only [Function.comp, setSlot_setSlot, setSlot_params]
  congr 1

/-- What is read after writes to the cells of one slice. -/
structure CellsOp {α : Type} (cs cs' : List (List α)) (s : Slice) (N' : List α) : Prop where
  read : readSlice cs' s = some N'
  frame : ∀ s' : Slice, s.Disjoint s' → readSlice cs' s' = readSlice cs s'

theorem CellsOp.trans {α : Type} {cs cs1 cs2 : List (List α)} {s : Slice} {N1 N2 : List α} (a : CellsOp cs cs1 s N1)
    (b : CellsOp cs1 cs2 s N2) : CellsOp cs cs2 s N2 := ⟨b.read, fun s' h => (b.frame s' h).trans (a.frame s' h)⟩

theorem constAt_run {w : World F} {s : Slice} {N : List F} (h : readSlice w.consts s = some N) {i : Nat} {x : F} (hx : N[i]? = some x) :
    constAt s i w = .ok (x, w) := by
  unfold constAt; rw [readCell_ok_of h hx]; rfl

theorem setConst_run {w : World F} {s : Slice} {N : List F} (h : readSlice w.consts s = some N) {i : Nat} (hi : i < N.length) (x : F) :
    ∃ cs, setConst s i x w = .ok ((), { w with consts := cs }) ∧ CellsOp w.consts cs s (N.set i x) := by
  obtain ⟨cs, e, -, -, -, h1, h2, -⟩ := writeCell_of h i x hi
  exact ⟨cs, by unfold setConst; rw [e]; rfl, h1, h2⟩

/-- The second loop of the activations. -/
theorem exponentiate_run (c : Int) (nodes norm : Slice) (cur : List (Pair F)) (i : Nat) (m : F) (R : List (Ptr × View F)) :
    ∀ (ids : List Int) (w : World F) (z : List (Ptr × View F)) (N : List F) (x : F), GroupZ w.heap (z ++ R) →
      readSlice w.heap.nodeArrs nodes = some (z.map Prod.fst) → CanFire i (z.map Prod.snd) cur ids →
      readSlice w.consts norm = some N → N[i]? = some x →
      ∃ h' cs' z', exponentiate c nodes norm i m (ids.map (fun id => { Index := id, Value := valueOf (z.map Prod.snd) cur id })) w =
          .ok (ids.map (fun id => { Index := id, Value := GoFloat.exp (GoFloat.sub (valueOf (z.map Prod.snd) cur id) m) }),
            { w with heap := h', consts := cs' }) ∧
        LayerOp w.heap h' nodes c R z z' ∧ z'.map Prod.snd = mark ids (exped i cur m) (z.map Prod.snd) ∧
        CellsOp w.consts cs' norm
          (N.set i ((ids.map (fun id => GoFloat.exp (GoFloat.sub (valueOf (z.map Prod.snd) cur id) m))).foldl GoFloat.add x))
  | [], w, z, N, x, g, hn, _, hN, hx => by
    refine ⟨w.heap, w.consts, z, rfl, LayerOp.refl c g hn, by rw [mark_nil], ?_, fun _ _ => rfl⟩
    rw [hN, List.map_nil, List.foldl_nil]
    congr 1
    obtain ⟨hl, rfl⟩ := List.getElem?_eq_some_iff.mp hx
    simp
  | id :: ids, w, z, N, x, g, hn, hc, hN, hx => by
    obtain ⟨h0, v, hv, hb, hr, ht⟩ := hc id (List.mem_cons_self ..)
    rw [List.getElem?_map, Option.map_eq_some_iff] at hv
    obtain ⟨y, hy, rfl⟩ := hv
    have hh : Handle w.heap y.1 y.2 := g.handle (List.mem_append_left _ (List.mem_of_getElem? hy))
    have hlen := hh.batch
    obtain ⟨s, hs⟩ : ∃ s, y.2.train[i]? = some s := ⟨_, List.getElem?_eq_getElem (by omega)⟩
    have hval : valueOf (z.map Prod.snd) cur id = activation y.2.params cur := by
      unfold valueOf; rw [List.getElem?_map, hy]; rfl
    have hi : i < N.length := (List.getElem?_eq_some_iff.mp hx).1
    obtain ⟨n, h1, e1, so⟩ := setlastActivation_run hh c hs (GoFloat.exp (GoFloat.sub (activation y.2.params cur) m))
    obtain ⟨h2, e2, lo⟩ := LayerOp.one g hn h0 hy so.toOp so.floats
    have ez : (z.set id.toNat (n, { y.2 with train := y.2.train.set i { s with act := GoFloat.exp (GoFloat.sub (activation y.2.params cur) m) } })).map Prod.snd
        = (z.map Prod.snd).modify id.toNat (exped i cur m) := by
      rw [List.map_set]
      have := set_of_getElem? (l := z.map Prod.snd) (i := id.toNat) (a := y.2) (by rw [List.getElem?_map, hy]; rfl)
        (f := exped i cur m)
      rw [← this]
      congr 1
      unfold exped View.setSlot
      rw [← set_of_getElem? hs]
    generalize z.set id.toNat _ = z1 at lo ez
    have hval1 : ∀ id, valueOf (z1.map Prod.snd) cur id = valueOf (z.map Prod.snd) cur id := by
      intro id'; rw [ez]; exact valueOf_modify _ _ _ (exped_params _ _ _) _
    have e0 : nodePtr nodes id w.heap = .ok (y.1, w.heap) := nodePtr_run hn h0 (by rw [List.getElem?_map, hy]; rfl)
    obtain ⟨cs, e3, co⟩ := setConst_run (w := { w with heap := h2 }) hN hi (GoFloat.add x (GoFloat.exp (GoFloat.sub (activation y.2.params cur) m)))
    obtain ⟨h', cs', z', er, lo', ez', co'⟩ := exponentiate_run c nodes norm cur i m R ids { w with heap := h2, consts := cs } z1 _
      (GoFloat.add x (GoFloat.exp (GoFloat.sub (activation y.2.params cur) m))) lo.group lo.ptrs
      (by rw [ez]; exact canFire_modify (canFire_tail hc) _ (exped_params _ _ _)) co.read (by simp [hi])
    simp only [hval1] at er co'
    refine ⟨h', cs', z', ?_, lo.trans lo', ?_, ?_⟩
    · rw [List.map_cons, exponentiate]
      rw [M.bind_ok (onHeap_run e0)]
      simp only [hval]
      rw [M.bind_ok (onHeap_run e1)]
      rw [M.bind_ok (onHeap_run e2)]
      rw [M.bind_ok (constAt_run (w := { w with heap := h2 }) hN hx)]
      rw [M.bind_ok e3, M.bind_ok er]
      simp only [List.map_cons, hval]
      rfl
    · rw [ez', ez]
      exact mark_cons h0 ids (exped_idem _ _ _) _
    · have := co.trans co'
      rw [List.set_set] at this
      simpa only [List.map_cons, List.foldl_cons, hval] using this

theorem maxValue_eq (vs : List (View F)) (data : List (Pair F)) (ids : List Int) :
    ids.foldl (fun m id => if true && GoFloat.lt m (valueOf vs data id) then valueOf vs data id else m) GoFloat.zero = maxValue vs data ids := by
  unfold maxValue; simp only [Bool.true_and]

/-- The activations of a layer. -/
theorem activations_run {w : World F} (c : Int) {x : Layer} (cur : List (Pair F)) {i : Nat} {ids : List Int} {R z : List (Ptr × View F)} {N : List F}
    (g : GroupZ w.heap (z ++ R)) (hn : readSlice w.heap.nodeArrs x.nodes = some (z.map Prod.fst))
    (hc : CanFire i (z.map Prod.snd) cur ids) (hN : readSlice w.consts x.normalizationConstants = some N)
    (hi : x.nodeType = Softmax → i < N.length) :
    ∃ h' cs' z', activations c x cur i ids w = .ok (outputs (x.nodeType = Softmax) (z.map Prod.snd) cur ids, { w with heap := h', consts := cs' }) ∧
      LayerOp w.heap h' x.nodes c R z z' ∧ z'.map Prod.snd = forwardViews (x.nodeType = Softmax) i (z.map Prod.snd) cur ids ∧
      CellsOp w.consts cs' x.normalizationConstants
        (if x.nodeType = Softmax then N.set i (sum ((outputs (x.nodeType = Softmax) (z.map Prod.snd) cur ids).map Pair.Value)) else N) := by
  unfold activations
  by_cases hs : x.nodeType = Softmax
  · simp only [hs, if_true, decide_true]
    have hl := hi hs
    obtain ⟨cs, e0, co0⟩ := setConst_run hN hl GoFloat.zero
    obtain ⟨h1, z1, e1, lo1, ez1⟩ := activate_run c true x.nodes cur i R ids GoFloat.zero w.heap z g hn hc
    rw [maxValue_eq] at e1
    have hval1 : ∀ id, valueOf (z1.map Prod.snd) cur id = valueOf (z.map Prod.snd) cur id := by
      intro id'; rw [ez1]; exact valueOf_mark _ (fired_params _ _ _ _) _ _ _
    have hc1 : CanFire i (z1.map Prod.snd) cur ids := by
      rw [ez1]
      intro id hid
      obtain ⟨h0, v, hv, hb, hr, ht⟩ := hc id hid
      refine ⟨h0, if ((id.toNat : Nat) : Int) ∈ ids then fired false i cur GoFloat.zero v else v, by rw [mark_get, hv]; rfl, ?_⟩
      split
      · rw [fired_params]; exact ⟨hb, hr, ht⟩
      · exact ⟨hb, hr, ht⟩
    obtain ⟨h2, cs2, z2, e2, lo2, ez2, co2⟩ := exponentiate_run c x.nodes x.normalizationConstants cur i
      (maxValue (z.map Prod.snd) cur ids) R ids { w with heap := h1, consts := cs } z1 _ GoFloat.zero lo1.group lo1.ptrs hc1 co0.read (by simp [hl])
    simp only [hval1] at e2 co2
    refine ⟨h2, cs2, z2, ?_, lo1.trans lo2, ?_, ?_⟩
    · rw [M.bind_ok e0]
      rw [M.bind_ok (onHeap_run (w := { w with consts := cs }) e1)]
      exact e2
    · rw [ez2, ez1, mark_mark, exped_fired]
      rfl
    · have := co0.trans co2
      rw [List.set_set] at this
      unfold sum outputs outputOf
      simpa only [List.map_map, Function.comp_def, if_true] using this
  · simp only [hs, if_false, decide_false]
    obtain ⟨h1, z1, e1, lo1, ez1⟩ := activate_run c false x.nodes cur i R ids GoFloat.zero w.heap z g hn hc
    refine ⟨h1, w.consts, z1, ?_, lo1, ?_, hN, fun _ _ => rfl⟩
    · rw [M.bind_ok (onHeap_run e1)]
      rfl
    · rw [ez1]
      rfl

theorem nodePtr_ok {h h' : Heap F} {nodes : Slice} {L : List Ptr} (hn : readSlice h.nodeArrs nodes = some L) {id : Int} {p : Ptr}
    (hr : nodePtr nodes id h = .ok (p, h')) : 0 ≤ id ∧ L[id.toNat]? = some p ∧ h' = h := by
  unfold nodePtr at hr
  rw [readCell_of hn] at hr
  split at hr
  · rename_i hi
    cases hr
    refine ⟨hi.1, ?_, rfl⟩
    rw [List.getElem?_eq_getElem]
  · cases hr

/-- The first loop succeeds for nodes that exist and fit only. -/
theorem activate_cond (c : Int) (softmax : Bool) (nodes : Slice) (cur : List (Pair F)) (i : Nat) (R : List (Ptr × View F)) :
    ∀ (ids : List Int) (m : F) (h h' : Heap F) (z : List (Ptr × View F)) (res : List (Pair F) × F), GroupZ h (z ++ R) →
      readSlice h.nodeArrs nodes = some (z.map Prod.fst) → activate c softmax nodes cur i ids m h = .ok (res, h') →
      CanFire i (z.map Prod.snd) cur ids
  | [], m, h, h', z, res, g, hn, hr => by intro x hx; cases hx
  | id :: ids, m, h, h', z, res, g, hn, hr => by
    unfold activate at hr
    replace hr := M.bind_eq_ok hr
    obtain ⟨p, h1, e0, hr⟩ := hr
    obtain ⟨h0, hp, rfl⟩ := nodePtr_ok hn e0
    rw [List.getElem?_map, Option.map_eq_some_iff] at hp
    obtain ⟨x, hx, rfl⟩ := hp
    have hv : Handle h1 x.1 x.2 := g.handle (List.mem_append_left _ (List.mem_of_getElem? hx))
    replace hr := M.bind_eq_ok hr
    obtain ⟨⟨val, q⟩, h2, e1, hr⟩ := hr
    have good : (i : Int) < x.2.params.batch ∧ InRange x.2.params cur ∧ (x.2.params.nodeType = 0 ∨ x.2.params.nodeType = 1) := by
      refine ⟨?_, ?_, ?_⟩
      · refine Decidable.byContradiction fun hb => ?_
        obtain ⟨e, he⟩ := getActivation_panics hv c cur i (Or.inl (by omega))
        rw [he] at e1; cases e1
      · refine Classical.byContradiction fun hb => ?_
        obtain ⟨e, he⟩ := getActivation_panics hv c cur i (Or.inr (Or.inl hb))
        rw [he] at e1; cases e1
      · refine Classical.byContradiction fun hb => ?_
        obtain ⟨e, he⟩ := getActivation_panics hv c cur i (Or.inr (Or.inr (by
          constructor
          · intro h; exact hb (Or.inl h)
          · intro h; exact hb (Or.inr h))))
        rw [he] at e1; cases e1
    obtain ⟨n, h1', h2', z1, e0', e1', e2', lo, ez⟩ := activate_one c g hn cur h0 hx good.1 good.2.1 good.2.2
    have e3 := e1.symm.trans e1'
    have e4 := Except.ok.inj e3
    have e5 := congrArg Prod.snd e4
    have e6 := congrArg (fun t => t.1.2) e4
    dsimp only at e5 e6
    subst e5 e6
    replace hr := M.bind_eq_ok hr
    obtain ⟨u, h3, e2, hr⟩ := hr
    have e7 := congrArg Prod.snd (Except.ok.inj (e2.symm.trans e2'))
    dsimp only at e7
    subst e7
    replace hr := M.bind_eq_ok hr
    obtain ⟨res', h4, hrec, hr⟩ := hr
    have := activate_cond c softmax nodes cur i R ids _ _ _ z1 res' lo.group lo.ptrs hrec
    rw [ez] at this
    have := canFire_unmodify _ (fired_params _ _ _ _) this
    intro y hy
    rcases List.mem_cons.mp hy with rfl | hy
    · exact ⟨h0, x.2, by rw [List.getElem?_map, hx]; rfl, good⟩
    · exact this y hy

/-- The activations succeed for nodes that exist and fit only. -/
theorem activations_cond {w w' : World F} {c : Int} {x : Layer} {cur : List (Pair F)} {i : Nat} {ids : List Int} {R z : List (Ptr × View F)} {N : List F}
    {pairs : List (Pair F)} (g : GroupZ w.heap (z ++ R)) (hn : readSlice w.heap.nodeArrs x.nodes = some (z.map Prod.fst))
    (hN : readSlice w.consts x.normalizationConstants = some N) (hr : activations c x cur i ids w = .ok (pairs, w')) :
    CanFire i (z.map Prod.snd) cur ids ∧ (x.nodeType = Softmax → i < N.length) := by
  unfold activations at hr
  split at hr
  · replace hr := M.bind_eq_ok hr
    obtain ⟨u, w1, e0, hr⟩ := hr
    have hi : i < N.length := by
      refine Decidable.byContradiction fun hb => ?_
      have hl := readSlice_length hN
      unfold setConst at e0
      rw [writeCell_out _ (by omega)] at e0
      cases e0
    obtain ⟨cs, e0', -⟩ := setConst_run hN hi GoFloat.zero
    have e1 := congrArg Prod.snd (Except.ok.inj (e0.symm.trans e0'))
    dsimp only at e1
    subst e1
    replace hr := M.bind_eq_ok hr
    obtain ⟨res, w2, e2, hr⟩ := hr
    obtain ⟨h2, e3, -⟩ := onHeap_ok e2
    exact ⟨activate_cond c true x.nodes cur i R ids _ _ _ z _ g hn e3, fun _ => hi⟩
  · replace hr := M.bind_eq_ok hr
    obtain ⟨res, w2, e2, hr⟩ := hr
    obtain ⟨h2, e3, -⟩ := onHeap_ok e2
    exact ⟨activate_cond c false x.nodes cur i R ids _ _ _ z _ g hn e3, fun h => absurd h (by assumption)⟩

end Goslide.Layer
