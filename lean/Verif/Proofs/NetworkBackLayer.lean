import Verif.Proofs.NetworkBack
/-
The backward loops on a network in memory, for the owner.
-/
set_option linter.unusedSectionVars false
namespace Goslide.Network
open Goslide Node Lsh Configuration Spec.Node Spec.Network Layer Xcrepo
variable {F : Type} [GoFloat F]

theorem _root_.Goslide.M.bind_assoc' {S α β γ : Type} (x : M S α) (f : α → M S β) (g : β → M S γ) :
    (x >>= f) >>= g = x >>= fun a => f a >>= g := by
  funext s
  show M.bind (M.bind x f) g s = M.bind x (fun a => M.bind (f a) g) s
  unfold M.bind
  cases x s with
  | error e => rfl
  | ok y => rfl

theorem getNodeById_run {w : World F} {g : State F} (S : Stored w g) {id : Int} (h0 : 0 ≤ id) {p : Ptr} {v : View F}
    (hk : g.nodes[id.toNat]? = some (p, v)) : getNodeById g.ptr id w = .ok (p, w) := by
  unfold getNodeById
  rw [M.bind_ok (layer_run S.obj)]
  exact onHeap_run (nodePtr_run S.nodes h0 (by simp [hk]))

theorem getNodeById_inv {w w' : World F} {g : State F} (S : Stored w g) {id : Int} {p : Ptr}
    (hr : getNodeById g.ptr id w = .ok (p, w')) : 0 ≤ id ∧ w' = w ∧ ∃ v, g.nodes[id.toNat]? = some (p, v) := by
  unfold getNodeById at hr
  rw [M.bind_ok (layer_run S.obj)] at hr
  obtain ⟨h', hr', rfl⟩ := onHeap_ok hr
  obtain ⟨h0, hp, rfl⟩ := nodePtr_bounds S.nodes hr'
  rw [List.getElem?_map, Option.map_eq_some_iff] at hp
  obtain ⟨⟨q, v⟩, hv, rfl⟩ := hp
  exact ⟨h0, rfl, v, hv⟩

theorem views_get {g : State F} {k : Nat} {p : Ptr} {v : View F} (h : g.nodes[k]? = some (p, v)) : g.views[k]? = some v := by
  unfold State.views; simp [h]

theorem views_inv {g : State F} {k : Nat} {v : View F} (h : g.views[k]? = some v) : ∃ p, g.nodes[k]? = some (p, v) := by
  unfold State.views at h
  rw [List.getElem?_map, Option.map_eq_some_iff] at h
  obtain ⟨⟨p, v'⟩, hv, rfl⟩ := h
  exact ⟨p, hv⟩

/-- The softmax step is possible. -/
def SoftOk (g : State F) (isLast : Bool) (i : Nat) (labels : List Int) (soft : Option (F × List Int)) : Prop :=
  if isLast then g.softmax = true ∧ ∃ norm, g.norm[i]? = some norm ∧ soft = some (norm, labels) else soft = none

theorem constAt_run {w : World F} {g : State F} (S : Stored w g) {i : Nat} {norm : F} (hn : g.norm[i]? = some norm) :
    constAt g.obj.normalizationConstants i w = .ok (norm, w) := by
  unfold constAt
  rw [readCell_ok_of S.norm hn]; rfl

theorem softmaxStep_run {w : World F} {hidden : Slice} {Q : List (State F)} {c : Int} (m : Mem w hidden Q c) {n k : Nat} {g : State F}
    {p : Ptr} {v : View F} (hg : Q[n]? = some g) (hk : g.nodes[k]? = some (p, v)) {isLast : Bool} {i : Nat} {labels : List Int}
    {soft : Option (F × List Int)} (hsoft : SoftOk g isLast i labels soft) {s : Slot F} (hs : v.train[i]? = some s) (ha : s.active = true) :
    ∃ h', softmaxStep c g.ptr isLast labels i p w = .ok ((), { w with heap := h' }) ∧
      Mem { w with heap := h' } hidden (Q.set n { g with nodes := g.nodes.set k (p, softView i soft v) }) c := by
  have S := m.layers.get hg
  unfold softmaxStep
  cases isLast with
  | false =>
    unfold SoftOk at hsoft
    rw [if_neg (by simp)] at hsoft
    subst hsoft
    refine ⟨w.heap, rfl, ?_⟩
    have : Q.set n { g with nodes := g.nodes.set k (p, softView i none v) } = Q := by
      obtain ⟨h1, e1⟩ := List.getElem?_eq_some_iff.mp hg
      obtain ⟨h2, e2⟩ := List.getElem?_eq_some_iff.mp hk
      unfold softView
      dsimp only
      rw [← e2, List.set_getElem_self, ← e1]
      exact List.set_getElem_self h1
    rw [this]; exact m
  | true =>
    unfold SoftOk at hsoft
    rw [if_pos rfl] at hsoft
    obtain ⟨hty, norm, hn, rfl⟩ := hsoft
    rw [if_pos rfl]
    have e1 : getNomalizationConstant g.ptr i w = .ok (norm, w) := by
      unfold getNomalizationConstant
      rw [M.bind_ok (layer_run S.obj), if_neg (by unfold State.softmax at hty; simpa using hty)]
      exact constAt_run S hn
    have hz : (p, v) ∈ Q.flatMap State.nodes := List.mem_flatMap.mpr ⟨g, List.mem_of_getElem? hg, List.mem_of_getElem? hk⟩
    obtain ⟨n', h', r, o⟩ := (computeExta_run (m.layers.group.handle hz) c norm hs labels).2 ha
    obtain ⟨-, m'⟩ := m.op hg hk o.toOp
    refine ⟨h', ?_, ?_⟩
    · rw [M.bind_ok e1, M.bind_ok (onHeap_run r)]; rfl
    · have : softView i (some (norm, labels)) v = { v with train := v.train.set i (softmaxSlot v.params norm labels s) } := by
        unfold softView View.setSlot
        dsimp only
        rw [← set_of_getElem? hs]
      rw [this]; exact m'

theorem softmaxStep_inv {w w' : World F} {hidden : Slice} {Q : List (State F)} {c : Int} (m : Mem w hidden Q c) {n k : Nat} {g : State F}
    {p : Ptr} {v : View F} (hg : Q[n]? = some g) (hk : g.nodes[k]? = some (p, v)) {isLast : Bool} {i : Nat} {labels : List Int} {u : Unit}
    (hr : softmaxStep c g.ptr isLast labels i p w = .ok (u, w')) :
    (∃ soft, SoftOk g isLast i labels soft) ∧ (isLast = true → ∃ s, v.train[i]? = some s ∧ s.active = true) := by
  have S := m.layers.get hg
  unfold softmaxStep at hr
  cases isLast with
  | false => exact ⟨⟨none, by unfold SoftOk; simp⟩, fun h => by cases h⟩
  | true =>
    rw [if_pos rfl] at hr
    replace hr := M.bind_eq_ok hr
    obtain ⟨norm, w1, r1, hr⟩ := hr
    unfold getNomalizationConstant at r1
    rw [M.bind_ok (layer_run S.obj)] at r1
    split at r1
    · cases r1
    · rename_i hty
      unfold constAt at r1
      rw [readCell_of S.norm] at r1
      split at r1
      · rename_i hi
        cases r1
        refine ⟨⟨some (g.norm[i]'(by omega), labels), ?_⟩, fun _ => ?_⟩
        · unfold SoftOk
          rw [if_pos rfl]
          refine ⟨by unfold State.softmax; simpa using hty, g.norm[i]'(by omega), List.getElem?_eq_getElem _, rfl⟩
        · replace hr := M.bind_eq_ok hr
          obtain ⟨n', w2, r2, -⟩ := hr
          obtain ⟨h2, r2, -⟩ := onHeap_ok r2
          have hz : (p, v) ∈ Q.flatMap State.nodes := List.mem_flatMap.mpr ⟨g, List.mem_of_getElem? hg, List.mem_of_getElem? hk⟩
          exact computeExta_inv (m.layers.group.handle hz) r2
      · cases r1

theorem softView_slot {i : Nat} {soft : Option (F × List Int)} {v : View F} {s : Slot F} (hs : v.train[i]? = some s) :
    ∃ s', (softView i soft v).train[i]? = some s' ∧ s'.active = s.active := by
  unfold softView
  split
  · exact ⟨s, hs, rfl⟩
  · unfold View.setSlot
    dsimp only
    exact ⟨_, modify_self hs _, rfl⟩

theorem deltaAt_of {v : View F} {i : Nat} {s : Slot F} (hs : v.train[i]? = some s) : deltaAt v i = s.delta := by
  unfold deltaAt; rw [hs]

/-- `prev` is the layer before layer `n`. -/
def PrevOf (Q : List (State F)) (n : Nat) (prev : Option Ptr) : Prop :=
  if n = 0 then prev = none else ∃ u, Q[n - 1]? = some u ∧ prev = some u.ptr

theorem getPair_map {Q : List (State F)} {n : Nat} {g : State F} (hg : Q[n]? = some g) : (getPair (Q.map State.views) n).1 = g.views := by
  unfold getPair; simp [hg]

theorem getPair_map2 {Q : List (State F)} {n : Nat} {u : State F} (hn : n ≠ 0) (hu : Q[n - 1]? = some u) :
    (getPair (Q.map State.views) n).2 = u.views := by
  unfold getPair; simp [hn, hu]

theorem views_set (Q : List (State F)) (n : Nat) (g : State F) : (Q.set n g).map State.views = (Q.map State.views).set n g.views := by
  rw [List.map_set]

/-- One iteration of the loop over the active nodes. -/
def backBody (cfg : Config F) (c : Int) (la : Ptr) (isLast : Bool) (prev : Option Ptr) (ex : Example F) (cur : List (Pair F)) (lr : F)
    (i : Int) (pair : Pair F) : WM F Unit := do
  let p ← getNodeById la pair.Index
  softmaxStep c la isLast ex.Labels i p
  backNode cfg c prev ex.Features cur lr i p

theorem backLayer_cons (cfg : Config F) (c : Int) (la : Ptr) (isLast : Bool) (prev : Option Ptr) (ex : Example F) (cur : List (Pair F)) (lr : F)
    (i : Int) (pair : Pair F) (rest : List (Pair F)) : backLayer cfg c la isLast prev ex cur lr i (pair :: rest) =
      (do backBody cfg c la isLast prev ex cur lr i pair; backLayer cfg c la isLast prev ex cur lr i rest) := by
  rw [backLayer]
  unfold backBody
  rw [M.bind_assoc']
  congr 1; funext p
  rw [M.bind_assoc']

theorem backBody_run (cfg : Config F) {w : World F} {hidden : Slice} {Q : List (State F)} {c : Int} (m : Mem w hidden Q c) {n : Nat} {g : State F}
    (hg : Q[n]? = some g) {isLast : Bool} {prev : Option Ptr} (hprev : PrevOf Q n prev) {ex : Example F} {cur : List (Pair F)}
    (hcur : n = 0 → cur = ex.Features) {lr : F} {i : Nat} {soft : Option (F × List Int)} (hsoft : SoftOk g isLast i ex.Labels soft)
    {pair : Pair F} (hr : BackReady cfg.UseAdam i (n == 0) cur (getPair (Q.map State.views) n) pair) :
    ∃ h' Q', backBody cfg c g.ptr isLast prev ex cur lr i pair w = .ok ((), { w with heap := h' }) ∧
      Mem { w with heap := h' } hidden Q' c ∧ Q'.map State.skel = Q.map State.skel ∧
      Q'.map State.views = setPair (Q.map State.views) n (backAt cfg.UseAdam lr i soft (n == 0) cur (getPair (Q.map State.views) n) pair) := by
  have S := m.layers.get hg
  obtain ⟨h0, v, s, hv, hs, ha, hrest⟩ := hr
  rw [getPair_map hg] at hv
  obtain ⟨p, hk⟩ := views_inv hv
  obtain ⟨h1, r1, m1⟩ := softmaxStep_run m hg hk hsoft hs ha
  obtain ⟨s1, hs1, ha1⟩ := softView_slot (soft := soft) hs
  rw [ha] at ha1
  have hlt := (List.getElem?_eq_some_iff.mp hg).1
  have hklt := (List.getElem?_eq_some_iff.mp hk).1
  have hg1 : (Q.set n { g with nodes := g.nodes.set pair.Index.toNat (p, softView i soft v) })[n]? =
      some { g with nodes := g.nodes.set pair.Index.toNat (p, softView i soft v) } := List.getElem?_set_self hlt
  have hk1 : ({ g with nodes := g.nodes.set pair.Index.toNat (p, softView i soft v) } : State F).nodes[pair.Index.toNat]? =
      some (p, softView i soft v) := List.getElem?_set_self hklt
  have hbody : backBody cfg c g.ptr isLast prev ex cur lr i pair w = backNode cfg c prev ex.Features cur lr i p { w with heap := h1 } := by
    unfold backBody
    rw [M.bind_ok (getNodeById_run S h0 hk), M.bind_ok r1]
  have hskel1 : ∀ x : View F, ({ g with nodes := g.nodes.set pair.Index.toNat (p, x) } : State F).skel = g.skel := by
    intro x
    unfold State.skel
    dsimp only
    rw [map_set_self (y := (p, x)) hk (f := Prod.fst) rfl]
  have hviews : ∀ x : View F, ({ g with nodes := g.nodes.set pair.Index.toNat (p, x) } : State F).views = g.views.set pair.Index.toNat x := by
    intro x; unfold State.views; simp [List.map_set]
  have hbackAt : backAt cfg.UseAdam lr i soft (n == 0) cur (getPair (Q.map State.views) n) pair =
      (g.views.set pair.Index.toNat (backView cfg.UseAdam lr i soft (n == 0) cur v (getPair (Q.map State.views) n).2).1,
        (backView cfg.UseAdam lr i soft (n == 0) cur v (getPair (Q.map State.views) n).2).2) := by
    unfold backAt
    rw [getPair_map hg, hv]
  rw [hbackAt, hbody]
  by_cases hn : n = 0
  · subst hn
    unfold PrevOf at hprev
    rw [if_pos rfl] at hprev
    subst hprev
    rw [if_pos (by rfl)] at hrest
    have hz : (p, softView i soft v) ∈ (Q.set 0 { g with nodes := g.nodes.set pair.Index.toNat (p, softView i soft v) }).flatMap State.nodes :=
      List.mem_flatMap.mpr ⟨_, List.mem_of_getElem? hg1, List.mem_of_getElem? hk1⟩
    have hcond : ∀ x ∈ cur, 0 ≤ x.Index ∧ x.Index < (softView i soft v).params.weights.length ∧
        (cfg.UseAdam = true → x.Index < (softView i soft v).params.t.length) := by
      rw [softView_params]; exact hrest
    obtain ⟨n', h2, r2, o2⟩ := backPropagateFirstLayer_run cfg (m1.layers.group.handle hz) (m1.layers.group.inner hz) c hs1 ha1 lr cur hcond
    obtain ⟨-, m2⟩ := m1.op hg1 hk1 o2
    rw [List.set_set] at m2
    dsimp only at m2
    rw [List.set_set] at m2
    refine ⟨h2, _, ?_, m2, skel_set hg (hskel1 _), ?_⟩
    · unfold backNode
      dsimp only
      rw [← hcur rfl, M.bind_ok (onHeap_run r2)]; rfl
    · rw [views_set, hviews]
      unfold setPair backView
      simp only [if_pos, beq_self_eq_true]
      rw [deltaAt_of hs1]
  · unfold PrevOf at hprev
    rw [if_neg hn] at hprev
    obtain ⟨u, hu, rfl⟩ := hprev
    have hf : (n == 0) = false := by simpa using hn
    rw [hf] at hrest ⊢
    rw [if_neg (by simp), getPair_map2 hn hu] at hrest
    rw [getPair_map2 hn hu]
    have hu1 : (Q.set n { g with nodes := g.nodes.set pair.Index.toNat (p, softView i soft v) })[n - 1]? = some u := by
      rw [List.getElem?_set_ne (by omega)]; exact hu
    have hready : Ready cfg.UseAdam (softView i soft v).params u.views i cur := by rw [softView_params]; exact hrest
    obtain ⟨h2, zs, r2, z1, z2, m2⟩ := m1.back cfg hg1 hu1 (by omega) hk1 hs1 ha1 lr cur hready
    rw [List.set_set] at m2
    dsimp only at m2
    rw [List.set_set] at m2
    have hU : ({ u with nodes := zs } : State F).skel = u.skel := by
      unfold State.skel; dsimp only; rw [z1]
    refine ⟨h2, _, ?_, m2, ?_, ?_⟩
    · unfold backNode
      dsimp only
      have hl : layer u.ptr { w with heap := h1 } = .ok (u.obj, { w with heap := h1 }) := layer_run (m.layers.get hu).obj
      rw [M.bind_ok hl, M.bind_ok (onHeap_run (w := { w with heap := h1 }) r2)]; rfl
    · rw [skel_set (g := u) (by rw [List.getElem?_set_ne (by omega)]; exact hu) hU]
      exact skel_set hg (hskel1 _)
    · rw [views_set, views_set, hviews]
      unfold setPair backView
      rw [if_neg hn, if_neg (by simp), deltaAt_of hs1]
      dsimp only
      congr 1

theorem backBody_inv (cfg : Config F) {w w' : World F} {hidden : Slice} {Q : List (State F)} {c : Int} (m : Mem w hidden Q c) {n : Nat} {g : State F}
    (hg : Q[n]? = some g) {isLast : Bool} {prev : Option Ptr} (hprev : PrevOf Q n prev) {ex : Example F} {cur : List (Pair F)}
    (hcur : n = 0 → cur = ex.Features) {lr : F} {i : Nat} {pair : Pair F} {r : Unit}
    (hfit : ∀ v ∈ g.views, cfg.UseAdam = true → v.params.t.length = v.params.weights.length)
    (hr : backBody cfg c g.ptr isLast prev ex cur lr i pair w = .ok (r, w')) :
    (∃ soft, SoftOk g isLast i ex.Labels soft) ∧ BackReady cfg.UseAdam i (n == 0) cur (getPair (Q.map State.views) n) pair := by
  have S := m.layers.get hg
  unfold backBody at hr
  replace hr := M.bind_eq_ok hr
  obtain ⟨p, w1, r1, hr⟩ := hr
  obtain ⟨h0, rfl, v, hk⟩ := getNodeById_inv S r1
  have hv := views_get hk
  have hfv := hfit v (List.mem_of_getElem? hv)
  replace hr := M.bind_eq_ok hr
  obtain ⟨u1, w2, r2, hr⟩ := hr
  obtain ⟨⟨soft, hsoft⟩, hact⟩ := softmaxStep_inv m hg hk r2
  refine ⟨⟨soft, hsoft⟩, h0, v, ?_⟩
  rw [getPair_map hg]
  -- the state after the softmax step
  have hm1 : ∃ h1, w2 = { w1 with heap := h1 } ∧
      Mem { w1 with heap := h1 } hidden (Q.set n { g with nodes := g.nodes.set pair.Index.toNat (p, softView i soft v) }) c := by
    cases isLast with
    | true =>
      obtain ⟨s, hs, ha⟩ := hact rfl
      obtain ⟨h1, r3, m1⟩ := softmaxStep_run m hg hk hsoft hs ha
      rw [r3] at r2
      have := congrArg Prod.snd (Except.ok.inj r2)
      exact ⟨h1, this.symm, m1⟩
    | false =>
      unfold SoftOk at hsoft
      rw [if_neg (by simp)] at hsoft
      subst hsoft
      have e : w1 = w2 := congrArg Prod.snd (Except.ok.inj r2)
      subst e
      refine ⟨w1.heap, rfl, ?_⟩
      have : Q.set n { g with nodes := g.nodes.set pair.Index.toNat (p, softView i none v) } = Q := by
        obtain ⟨h1, e1⟩ := List.getElem?_eq_some_iff.mp hg
        obtain ⟨h2, e2⟩ := List.getElem?_eq_some_iff.mp hk
        unfold softView
        dsimp only
        rw [← e2, List.set_getElem_self, ← e1]
        exact List.set_getElem_self h1
      rw [this]; exact m
  obtain ⟨h1, rfl, m1⟩ := hm1
  have hlt := (List.getElem?_eq_some_iff.mp hg).1
  have hklt := (List.getElem?_eq_some_iff.mp hk).1
  have hg1 : (Q.set n { g with nodes := g.nodes.set pair.Index.toNat (p, softView i soft v) })[n]? =
      some { g with nodes := g.nodes.set pair.Index.toNat (p, softView i soft v) } := List.getElem?_set_self hlt
  have hk1 : ({ g with nodes := g.nodes.set pair.Index.toNat (p, softView i soft v) } : State F).nodes[pair.Index.toNat]? =
      some (p, softView i soft v) := List.getElem?_set_self hklt
  have hback : ∀ s1, (softView i soft v).train[i]? = some s1 → s1.active = true → ∃ s, v.train[i]? = some s ∧ s.active = true := by
    intro s1 h1 h2
    cases hs : v.train[i]? with
    | none =>
      have : (softView i soft v).train[i]? = none := by
        rw [List.getElem?_eq_none_iff] at hs ⊢
        have := congrArg Dims.train (softView_dims i soft v)
        dsimp only [View.dims] at this
        omega
      rw [this] at h1; cases h1
    | some s =>
      obtain ⟨s', e1, e2⟩ := softView_slot (soft := soft) hs
      rw [e1] at h1; cases h1
      exact ⟨s, rfl, by rw [← e2]; exact h2⟩
  unfold backNode at hr
  by_cases hn : n = 0
  · subst hn
    unfold PrevOf at hprev
    rw [if_pos rfl] at hprev
    subst hprev
    dsimp only at hr
    replace hr := M.bind_eq_ok hr
    obtain ⟨n', w3, r3, -⟩ := hr
    obtain ⟨h3, r3, -⟩ := onHeap_ok r3
    have hz : (p, softView i soft v) ∈ (Q.set 0 { g with nodes := g.nodes.set pair.Index.toNat (p, softView i soft v) }).flatMap State.nodes :=
      List.mem_flatMap.mpr ⟨_, List.mem_of_getElem? hg1, List.mem_of_getElem? hk1⟩
    obtain ⟨s1, hs1, ha1, hrest⟩ := backPropagateFirstLayer_inv cfg (m1.layers.group.handle hz) (m1.layers.group.inner hz)
      (by rw [softView_params]; exact fun h => Nat.le_of_eq (hfv h).symm) (by rw [softView_params]; exact fun h => Nat.le_of_eq (hfv h)) r3
    obtain ⟨s, hs, ha⟩ := hback s1 hs1 ha1
    refine ⟨s, hv, hs, ha, ?_⟩
    rw [if_pos (by rfl), hcur rfl]
    rw [softView_params] at hrest
    exact hrest
  · unfold PrevOf at hprev
    rw [if_neg hn] at hprev
    obtain ⟨u, hu, rfl⟩ := hprev
    have hf : (n == 0) = false := by simpa using hn
    dsimp only at hr
    have hl : layer u.ptr { w1 with heap := h1 } = .ok (u.obj, { w1 with heap := h1 }) := layer_run (m.layers.get hu).obj
    rw [M.bind_ok hl] at hr
    replace hr := M.bind_eq_ok hr
    obtain ⟨n', w3, r3, -⟩ := hr
    obtain ⟨h3, r3, -⟩ := onHeap_ok r3
    have hu1 : (Q.set n { g with nodes := g.nodes.set pair.Index.toNat (p, softView i soft v) })[n - 1]? = some u := by
      rw [List.getElem?_set_ne (by omega)]; exact hu
    obtain ⟨R, g1, o1, hp⟩ := m1.split hg1 hu1 (by omega) hk1
    have g2 : Group h1 (p :: (u.nodes.map Prod.fst ++ R.map Prod.fst)) (softView i soft v :: (u.views ++ R.map Prod.snd)) := by
      simpa [GroupZ, State.views] using g1
    have hlen : (u.nodes.map Prod.fst).length = u.views.length := by simp [State.views]
    obtain ⟨s1, hs1, ha1, hrest⟩ := backPropagate_inv cfg g2 hlen (m1.layers.get hu1).nodes
      (by rw [softView_params]; exact fun h => Nat.le_of_eq (hfv h).symm) r3
    obtain ⟨s, hs, ha⟩ := hback s1 hs1 ha1
    refine ⟨s, hv, hs, ha, ?_⟩
    rw [hf, if_neg (by simp), getPair_map2 hn hu]
    rw [softView_params] at hrest
    exact hrest

theorem skel_prev {Q Q' : List (State F)} (h : Q'.map State.skel = Q.map State.skel) {n : Nat} {prev : Option Ptr} (hp : PrevOf Q n prev) :
    PrevOf Q' n prev := by
  unfold PrevOf at hp ⊢
  split
  · rename_i hn; rw [if_pos hn] at hp; exact hp
  · rename_i hn
    rw [if_neg hn] at hp
    obtain ⟨u, hu, rfl⟩ := hp
    obtain ⟨u', hu', e⟩ := skel_get h hu
    exact ⟨u', hu', by rw [(skel_eqs e).1]⟩

theorem skel_soft {g g' : State F} (h : g'.skel = g.skel) {isLast : Bool} {i : Nat} {labels : List Int} {soft : Option (F × List Int)}
    (hs : SoftOk g isLast i labels soft) : SoftOk g' isLast i labels soft := by
  obtain ⟨-, e2, -, -, e5, -⟩ := skel_eqs h
  unfold SoftOk State.softmax at hs ⊢
  rw [e2, e5]; exact hs

theorem soft_unique {g : State F} {isLast : Bool} {i : Nat} {labels : List Int} {s s' : Option (F × List Int)}
    (hs : SoftOk g isLast i labels s) (hs' : SoftOk g isLast i labels s') : s = s' := by
  unfold SoftOk at hs hs'
  split at hs
  · rename_i h
    rw [if_pos h] at hs'
    obtain ⟨-, n, h1, rfl⟩ := hs
    obtain ⟨-, n', h1', rfl⟩ := hs'
    rw [h1] at h1'; cases h1'; rfl
  · rename_i h
    rw [if_neg h] at hs'
    rw [hs, hs']

theorem getPair_after {Q Q' : List (State F)} {adam : Bool} {lr : F} {i : Nat} {soft : Option (F × List Int)} {n : Nat} {cur : List (Pair F)}
    (hn : n < Q.length) {pair : Pair F} (hQ : Q'.map State.views = setPair (Q.map State.views) n
      (backAt adam lr i soft (n == 0) cur (getPair (Q.map State.views) n) pair)) :
    getPair (Q'.map State.views) n = backAt adam lr i soft (n == 0) cur (getPair (Q.map State.views) n) pair := by
  rw [hQ]
  refine getPair_setPair (by simpa using hn) ?_
  intro h
  subst h
  exact backAt_first _ _

/-- The loop over the active nodes, for the owner, if the nodes are ready. -/
theorem backLayer_run (cfg : Config F) {hidden : Slice} {c : Int} {n : Nat} {isLast : Bool} {prev : Option Ptr} {ex : Example F}
    {cur : List (Pair F)} (hcur : n = 0 → cur = ex.Features) {lr : F} {i : Nat} {soft : Option (F × List Int)} :
    ∀ (pairs : List (Pair F)) {w : World F} {Q : List (State F)} (_ : Mem w hidden Q c) {g : State F} (_ : Q[n]? = some g)
      (_ : PrevOf Q n prev) (_ : SoftOk g isLast i ex.Labels soft)
      (_ : AllReady cfg.UseAdam lr i soft (n == 0) cur pairs (getPair (Q.map State.views) n)),
    ∃ h' Q', backLayer cfg c g.ptr isLast prev ex cur lr i pairs w = .ok ((), { w with heap := h' }) ∧
      Mem { w with heap := h' } hidden Q' c ∧ Q'.map State.skel = Q.map State.skel ∧
      Q'.map State.views = setPair (Q.map State.views) n (backLayerV cfg.UseAdam lr i soft (n == 0) cur pairs (getPair (Q.map State.views) n))
  | [], w, Q, m, g, hg, _, _, _ => by
    refine ⟨w.heap, Q, rfl, m, rfl, ?_⟩
    unfold backLayerV
    rw [List.foldl_nil, setPair_getPair]
    simpa using (List.getElem?_eq_some_iff.mp hg).1
  | pair :: rest, w, Q, m, g, hg, hprev, hsoft, hr => by
    obtain ⟨hr1, hr2⟩ := hr
    obtain ⟨h1, Q1, r1, m1, k1, v1⟩ := backBody_run cfg m hg hprev hcur hsoft hr1
    have hlt := (List.getElem?_eq_some_iff.mp hg).1
    have hp := getPair_after hlt v1
    obtain ⟨g1, hg1, e1⟩ := skel_get k1 hg
    rw [← hp] at hr2
    obtain ⟨h2, Q2, r2, m2, k2, v2⟩ := backLayer_run cfg hcur rest m1 hg1 (skel_prev k1 hprev) (skel_soft e1 hsoft) hr2
    refine ⟨h2, Q2, ?_, m2, k2.trans k1, ?_⟩
    · rw [backLayer_cons, M.bind_ok r1, ← (skel_eqs e1).1]
      exact r2
    · rw [v2, hp]
      unfold backLayerV
      rw [List.foldl_cons, v1, setPair_setPair]

theorem backLayer_inv (cfg : Config F) {hidden : Slice} {c : Int} {n : Nat} {isLast : Bool} {prev : Option Ptr} {ex : Example F}
    {cur : List (Pair F)} (hcur : n = 0 → cur = ex.Features) {lr : F} {i : Nat} {w' : World F} {r : Unit} :
    ∀ (pairs : List (Pair F)) {w : World F} {Q : List (State F)} (_ : Mem w hidden Q c) {g : State F} (_ : Q[n]? = some g)
      (_ : PrevOf Q n prev) (_ : ∀ v ∈ g.views, cfg.UseAdam = true → v.params.t.length = v.params.weights.length)
      (_ : backLayer cfg c g.ptr isLast prev ex cur lr i pairs w = .ok (r, w')),
    (pairs ≠ [] → ∃ soft, SoftOk g isLast i ex.Labels soft) ∧ ∀ soft, SoftOk g isLast i ex.Labels soft →
      AllReady cfg.UseAdam lr i soft (n == 0) cur pairs (getPair (Q.map State.views) n)
  | [], _, _, _, _, _, _, _, _ => ⟨fun h => absurd rfl h, fun _ _ => trivial⟩
  | pair :: rest, w, Q, m, g, hg, hprev, hfit, hr => by
    rw [backLayer_cons] at hr
    replace hr := M.bind_eq_ok hr
    obtain ⟨u, w1, r1, hr⟩ := hr
    obtain ⟨⟨soft, hsoft⟩, hready⟩ := backBody_inv cfg m hg hprev hcur hfit r1
    refine ⟨fun _ => ⟨soft, hsoft⟩, fun soft' hsoft' => ?_⟩
    cases soft_unique hsoft hsoft'
    refine ⟨hready, ?_⟩
    obtain ⟨h1, Q1, r1', m1, k1, v1⟩ := backBody_run (lr := lr) cfg m hg hprev hcur hsoft hready
    rw [r1'] at r1
    have e : { w with heap := h1 } = w1 := congrArg Prod.snd (Except.ok.inj r1)
    subst e
    have hlt := (List.getElem?_eq_some_iff.mp hg).1
    have hp := getPair_after hlt v1
    obtain ⟨g1, hg1, e1⟩ := skel_get k1 hg
    rw [← hp]
    rw [← (skel_eqs e1).1] at hr
    refine (backLayer_inv cfg hcur rest m1 hg1 (skel_prev k1 hprev) ?_ hr).2 soft (skel_soft e1 hsoft)
    have hd : g1.views.map View.dims = g.views.map View.dims := by
      rw [← getPair_map hg1, hp, ← getPair_map hg]
      exact (backAt_dims _ _ _ _ _ _ _ _).1
    intro v hv hA
    obtain ⟨v0, hv0, e0⟩ := List.mem_map.mp (hd ▸ List.mem_map_of_mem (f := View.dims) hv)
    have := hfit v0 hv0 hA
    have e2 := congrArg Dims.t e0
    have e3 := congrArg Dims.weights e0
    dsimp only [View.dims] at e2 e3
    omega

/-- The last layer is a softmax layer with normalization constant `norm` for input `i`. -/
def LastNorm (Q : List (State F)) (i : Nat) (norm : F) : Prop :=
  ∀ g, Q[Q.length - 1]? = some g → g.softmax = true ∧ g.norm[i]? = some norm

theorem skel_lastNorm {Q Q' : List (State F)} (h : Q'.map State.skel = Q.map State.skel) {i : Nat} {norm : F} (hn : LastNorm Q i norm) :
    LastNorm Q' i norm := by
  intro g hg
  rw [skel_views h] at hg
  obtain ⟨g0, hg0, e⟩ := skel_get h.symm hg
  obtain ⟨-, e2, -, -, e5, -⟩ := skel_eqs e
  have := hn g0 hg0
  unfold State.softmax at this ⊢
  rw [← e2, ← e5]; exact this

theorem softOk_of {Q : List (State F)} {n : Nat} {g : State F} (hg : Q[n]? = some g) {i : Nat} {norm : F} {labels : List Int}
    (hn : LastNorm Q i norm) : SoftOk g (decide ((n : Int) = (Q.length : Int) - 1)) i labels (softOf Q.length n norm labels) := by
  have hlt := (List.getElem?_eq_some_iff.mp hg).1
  unfold SoftOk softOf
  by_cases h : n + 1 = Q.length
  · have h' : ((n : Int) = (Q.length : Int) - 1) := by omega
    rw [if_pos h, decide_eq_true h', if_pos rfl]
    have := hn g (by rw [← hg, ← h, Nat.add_sub_cancel])
    exact ⟨this.1, norm, this.2, rfl⟩
  · have h' : ¬ ((n : Int) = (Q.length : Int) - 1) := by omega
    rw [if_neg h, decide_eq_false h', if_neg (by simp)]

theorem layerAt {w : World F} {hidden : Slice} {Q : List (State F)} {c : Int} (m : Mem w hidden Q c) {n : Nat} {g : State F} (hg : Q[n]? = some g) :
    layerPtr hidden (n : Int) w = .ok (g.ptr, w) := layerPtr_run m.layers.ptrs (by simp [hg])

theorem prevLayer_run {w : World F} {hidden : Slice} {Q : List (State F)} {c : Int} (m : Mem w hidden Q c) {n : Nat} (hn : n < Q.length) :
    ∃ prev, prevLayer hidden n w = .ok (prev, w) ∧ PrevOf Q n prev := by
  unfold prevLayer PrevOf
  by_cases h : n = 0
  · subst h
    exact ⟨none, rfl, rfl⟩
  · simp only [if_neg h]
    have hu := List.getElem?_eq_getElem (l := Q) (i := n - 1) (by omega)
    refine ⟨some (Q[n - 1]).ptr, ?_, Q[n - 1], hu, rfl⟩
    have : layerPtr hidden ((n : Int) - 1) w = .ok ((Q[n - 1]).ptr, w) := by
      have e : ((n : Int) - 1) = ((n - 1 : Nat) : Int) := by omega
      rw [e]
      exact layerAt m hu
    rw [M.bind_ok this]; rfl

/-- The loop over the layers. -/
theorem backward_run (cfg : Config F) {hidden : Slice} {c : Int} {N : Int} {ex : Example F} {lr : F} {i : Nat} {norm : F}
    {acts : List (List (Pair F))} (hacts : acts[0]? = some ex.Features) :
    ∀ (n : Nat) {w : World F} {Q : List (State F)} (_ : Mem w hidden Q c) (_ : N = Q.length) (_ : LastNorm Q i norm)
      (_ : BackwardReady cfg.UseAdam lr i norm ex.Labels acts n (Q.map State.views)),
    ∃ h' Q', backward cfg c hidden N ex lr i acts n w = .ok ((), { w with heap := h' }) ∧
      Mem { w with heap := h' } hidden Q' c ∧ Q'.map State.skel = Q.map State.skel ∧
      Q'.map State.views = backwardV cfg.UseAdam lr i norm ex.Labels acts n (Q.map State.views)
  | 0, w, Q, m, _, _, _ => ⟨w.heap, Q, rfl, m, rfl, rfl⟩
  | n + 1, w, Q, m, hN, hnorm, hr => by
    obtain ⟨ha, hlt, hall, hrest⟩ := hr
    rw [List.length_map] at hlt
    have hg := List.getElem?_eq_getElem (l := Q) (i := n) hlt
    obtain ⟨prev, rp, hprev⟩ := prevLayer_run m hlt
    have hsoft := softOk_of (labels := ex.Labels) hg hnorm
    rw [List.length_map] at hall
    have e1 : goGet acts (n : Int) = .ok ((acts[n]?).getD []) := by
      rw [goGet_ok_of_lt _ _ (show n < acts.length by omega)]
      simp [List.getElem?_eq_getElem (show n < acts.length by omega)]
    have e2 : goGet acts ((n : Int) + 1) = .ok ((acts[n + 1]?).getD []) := by
      have e : (n : Int) + 1 = ((n + 1 : Nat) : Int) := by omega
      rw [e, goGet_ok_of_lt _ _ ha]
      simp [List.getElem?_eq_getElem ha]
    obtain ⟨h1, Q1, r1, m1, k1, v1⟩ := backLayer_run cfg (lr := lr) (i := i) (prev := prev) (ex := ex)
      (cur := (acts[n]?).getD []) (by intro h; subst h; rw [hacts]; rfl) ((acts[n + 1]?).getD []) m hg hprev hsoft hall
    have v1' : Q1.map State.views = setPair (Q.map State.views) n (backwardAt cfg.UseAdam lr i norm ex.Labels acts n (Q.map State.views)) := by
      rw [v1]; unfold backwardAt; rw [List.length_map]
    rw [← v1'] at hrest
    obtain ⟨h2, Q2, r2, m2, k2, v2⟩ := backward_run cfg (N := N) (c := c) hacts n m1 (by rw [hN, skel_views k1]) (skel_lastNorm k1 hnorm) hrest
    refine ⟨h2, Q2, ?_, m2, k2.trans k1, ?_⟩
    · rw [backward, M.bind_ok (layerAt m hg), e1, M.bind_ok (show M.lift _ _ = _ from rfl), e2, M.bind_ok (show M.lift _ _ = _ from rfl),
        M.bind_ok rp, hN, M.bind_ok r1, ← hN]
      exact r2
    · rw [v2, v1', backwardV]

/-- The vectors of gradients are as long as the weights. -/
def FitsV (adam : Bool) (V : List (List (View F))) : Prop :=
  ∀ vs ∈ V, ∀ v ∈ vs, adam = true → v.params.t.length = v.params.weights.length

theorem fits_of_dims {adam : Bool} {V V' : List (List (View F))} (h : V'.map (List.map View.dims) = V.map (List.map View.dims)) (hf : FitsV adam V) :
    FitsV adam V' := by
  intro vs hvs v hv hA
  have h1 : vs.map View.dims ∈ V.map (List.map View.dims) := h ▸ List.mem_map_of_mem hvs
  obtain ⟨vs0, hvs0, e0⟩ := List.mem_map.mp h1
  have h2 : v.dims ∈ vs0.map View.dims := e0 ▸ List.mem_map_of_mem hv
  obtain ⟨v0, hv0, e1⟩ := List.mem_map.mp h2
  have := hf vs0 hvs0 v0 hv0 hA
  have e2 := congrArg Dims.t e1
  have e3 := congrArg Dims.weights e1
  dsimp only [View.dims] at e2 e3
  omega

theorem backward_inv (cfg : Config F) {hidden : Slice} {c : Int} {N : Int} {ex : Example F} {lr : F} {i : Nat} {norm : F}
    {acts : List (List (Pair F))} (hacts : acts[0]? = some ex.Features) {w' : World F} {r : Unit} :
    ∀ (n : Nat) {w : World F} {Q : List (State F)} (_ : Mem w hidden Q c) (_ : N = Q.length) (_ : LastNorm Q i norm)
      (_ : n ≤ Q.length) (_ : FitsV cfg.UseAdam (Q.map State.views)) (_ : backward cfg c hidden N ex lr i acts n w = .ok (r, w')),
      BackwardReady cfg.UseAdam lr i norm ex.Labels acts n (Q.map State.views)
  | 0, _, _, _, _, _, _, _, _ => trivial
  | n + 1, w, Q, m, hN, hnorm, hlt, hfit, hr => by
    have hlt : n < Q.length := hlt
    have hg := List.getElem?_eq_getElem (l := Q) (i := n) hlt
    obtain ⟨prev, rp, hprev⟩ := prevLayer_run m hlt
    have hsoft := softOk_of (labels := ex.Labels) hg hnorm
    rw [backward, M.bind_ok (layerAt m hg)] at hr
    replace hr := M.bind_eq_ok hr
    obtain ⟨cur, w1, r1, hr⟩ := hr
    obtain ⟨q1, rfl⟩ := lift_ok r1
    replace hr := M.bind_eq_ok hr
    obtain ⟨next, w2, r2, hr⟩ := hr
    obtain ⟨q2, rfl⟩ := lift_ok r2
    rw [M.bind_ok rp] at hr
    replace hr := M.bind_eq_ok hr
    obtain ⟨u, w3, r3, hr⟩ := hr
    obtain ⟨-, e1⟩ := (goGet_ok_iff _ _ _).mp q1
    obtain ⟨-, e2⟩ := (goGet_ok_iff _ _ _).mp q2
    rw [Int.toNat_natCast] at e1
    rw [show ((n : Int) + 1).toNat = n + 1 by omega] at e2
    have hcur : n = 0 → cur = ex.Features := by
      intro h; subst h; rw [hacts] at e1; exact (Option.some.inj e1).symm
    rw [hN] at r3
    have hall := (backLayer_inv cfg hcur next m hg hprev (hfit _ (List.mem_map_of_mem (List.mem_of_getElem? hg))) r3).2 _ hsoft
    have c1 : ((acts[n]?).getD []) = cur := by rw [e1]; rfl
    have c2 : ((acts[n + 1]?).getD []) = next := by rw [e2]; rfl
    obtain ⟨h1, Q1, r1', m1, k1, v1⟩ := backLayer_run cfg hcur next m hg hprev hsoft hall
    rw [r1'] at r3
    have e : { w2 with heap := h1 } = w3 := congrArg Prod.snd (Except.ok.inj r3)
    subst e
    have v1' : Q1.map State.views = setPair (Q.map State.views) n (backwardAt cfg.UseAdam lr i norm ex.Labels acts n (Q.map State.views)) := by
      rw [v1]; unfold backwardAt; rw [List.length_map, c1, c2]
    refine ⟨(List.getElem?_eq_some_iff.mp e2).1, by simpa using hlt, by rw [List.length_map, c1, c2]; exact hall, ?_⟩
    rw [← v1']
    refine backward_inv cfg hacts n m1 (by rw [hN, skel_views k1]) (skel_lastNorm k1 hnorm) (by rw [skel_views k1]; omega) (fits_of_dims ?_ hfit) hr
    rw [v1']
    exact setPair_dims (by simpa using hlt) (backLayerV_dims _ _ _ _ _ _ _ _).1 (backLayerV_dims _ _ _ _ _ _ _ _).2

end Goslide.Network
