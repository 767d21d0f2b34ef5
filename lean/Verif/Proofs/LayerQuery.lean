import Verif.Proofs.LayerModes
import Verif.Proofs.Memory
/-
The query of a layer taken apart.
-/
set_option linter.unusedSectionVars false
namespace Goslide.Layer
open Goslide Node Lsh Configuration
variable {F : Type} [GoFloat F]

theorem onHeap_ok {m : NM F α} {w w' : World F} {a : α} (h : onHeap m w = .ok (a, w')) :
    ∃ h', m w.heap = .ok (a, h') ∧ w' = { w with heap := h' } := by
  unfold onHeap at h
  cases hm : m w.heap with
  | error e => rw [hm] at h; cases h
  | ok r => obtain ⟨b, h'⟩ := r; rw [hm] at h; cases h; exact ⟨h', rfl, rfl⟩

theorem onHeap_run {m : NM F α} {w : World F} {a : α} {h' : Heap F} (h : m w.heap = .ok (a, h')) :
    onHeap m w = .ok (a, { w with heap := h' }) := by
  unfold onHeap; rw [h]

theorem draw_ok {f : Rng → Go (α × Rng)} {w w' : World F} {a : α} (h : draw f w = .ok (a, w')) :
    ∃ r, f w.rng = .ok (a, r) ∧ w' = { w with rng := r } := by
  unfold draw at h
  cases hm : f w.rng with
  | error e => rw [hm] at h; cases h
  | ok r => obtain ⟨b, h'⟩ := r; rw [hm] at h; cases h; exact ⟨h', rfl, rfl⟩

theorem draw_run {f : Rng → Go (α × Rng)} {w : World F} {a : α} {r : Rng} (h : f w.rng = .ok (a, r)) :
    draw f w = .ok (a, { w with rng := r }) := by
  unfold draw; rw [h]

theorem lift_ok {x : Go α} {s s' : S} {a : α} (h : (M.lift x : M S α) s = .ok (a, s')) : x = .ok a ∧ s' = s := by
  unfold M.lift at h
  cases hx : x with
  | error e => rw [hx] at h; cases h
  | ok b => rw [hx] at h; cases h; exact ⟨rfl, rfl⟩

theorem lift_run {x : Go α} {s : S} {a : α} (h : x = .ok a) : (M.lift x : M S α) s = .ok (a, s) := by
  unfold M.lift; rw [h]

theorem layer_run {w : World F} {p : Ptr} {x : Layer} (h : w.layers[p]? = some x) : layer p w = .ok (x, w) := by
  unfold layer; rw [deref_of h]; rfl

theorem layer_ok {w w' : World F} {p : Ptr} {x : Layer} (h : layer p w = .ok (x, w')) : w.layers[p]? = some x ∧ w' = w := by
  unfold layer deref at h
  cases hx : w.layers[p]? with
  | none => rw [hx] at h; cases h
  | some y => rw [hx] at h; cases h; exact ⟨rfl, rfl⟩

theorem tables_run {w : World F} {p : Ptr} {s : LSH} (h : w.lshs[p]? = some s) : tables p w = .ok (s, w) := by
  unfold tables; rw [deref_of h]; rfl

theorem tables_ok {w w' : World F} {p : Ptr} {s : LSH} (h : tables p w = .ok (s, w')) : w.lshs[p]? = some s ∧ w' = w := by
  unfold tables deref at h
  cases hx : w.lshs[p]? with
  | none => rw [hx] at h; cases h
  | some y => rw [hx] at h; cases h; exact ⟨rfl, rfl⟩

theorem intsOf_run {w : World F} {s : Slice} {l : List Int} (h : readSlice w.ints s = some l) : intsOf s w = .ok (l, w) := by
  unfold intsOf; rw [h]

theorem intsOf_ok {w w' : World F} {s : Slice} {l : List Int} (h : intsOf s w = .ok (l, w')) :
    readSlice w.ints s = some l ∧ w' = w := by
  unfold intsOf at h
  cases hx : readSlice w.ints s with
  | none => rw [hx] at h; cases h
  | some y => rw [hx] at h; cases h; exact ⟨rfl, rfl⟩

/-- The memory after `cloneIfNeeded` of a layer, and the pointer. -/
def cloned (w : World F) (p : Ptr) (x : Layer) (c : Int) : Ptr × World F :=
  if x.cowId ≠ c then (w.layers.length, { w with layers := w.layers ++ [{ x with cowId := c }] }) else (p, w)

theorem cloneIfNeeded_run {w : World F} {p : Ptr} {x : Layer} (h : w.layers[p]? = some x) (c : Int) :
    cloneIfNeeded p c w = .ok (cloned w p x c) := by
  unfold cloneIfNeeded cloned
  rw [M.bind_ok (layer_run h)]
  split
  · unfold clone
    rw [M.bind_ok (layer_run h)]
    rfl
  · rfl

theorem cloned_layer {w : World F} {p : Ptr} {x : Layer} (h : w.layers[p]? = some x) (c : Int) :
    (cloned w p x c).2.layers[(cloned w p x c).1]? = some { x with cowId := c } := by
  unfold cloned
  split
  · simp
  · rename_i hc
    have : x.cowId = c := by omega
    subst this; exact h

theorem cloneIfNeeded_ok {w w1 : World F} {p l : Ptr} {c : Int} (h : cloneIfNeeded p c w = .ok (l, w1)) :
    ∃ x, w.layers[p]? = some x ∧ cloned w p x c = (l, w1) := by
  cases hx : w.layers[p]? with
  | none =>
    have : layer p w = .error .nilDeref := by unfold layer deref; rw [hx]; rfl
    unfold cloneIfNeeded at h
    rw [M.bind_error this] at h; cases h
  | some x => rw [cloneIfNeeded_run hx] at h; exact ⟨x, rfl, Except.ok.inj h⟩

/-- The heap and everything the selection reads is the same after `cloneIfNeeded`. -/
theorem cloned_eq (w : World F) (p : Ptr) (x : Layer) (c : Int) :
    ∃ ls, (cloned w p x c).2 = { w with layers := w.layers ++ ls } := by
  unfold cloned
  split
  · exact ⟨_, rfl⟩
  · exact ⟨[], by simp⟩

/-- A successful query: clone, select, activate. -/
theorem query_ok {cfg : Config F} {fuel : Nat} {p : Ptr} {c : Int} {cur : List (Pair F)} {i : Int} {label : List Int} {sp : F}
    {w w' : World F} {found : Int} {pairs : List (Pair F)} {l : Ptr}
    (h : query cfg fuel p c cur i label sp w = .ok ((found, pairs, l), w')) :
    ∃ x ids w2, w.layers[p]? = some x ∧ l = (cloned w p x c).1 ∧
      select cfg fuel { x with cowId := c } cur label sp (cloned w p x c).2 = .ok ((found, ids), w2) ∧
      activations c { x with cowId := c } cur i (ids.getD []) w2 = .ok (pairs, w') := by
  unfold query at h
  replace h := M.bind_eq_ok h
  obtain ⟨l', w1, h1, h⟩ := h
  obtain ⟨x, hx, e⟩ := cloneIfNeeded_ok h1
  replace h := M.bind_eq_ok h
  obtain ⟨y, w2, h2, h⟩ := h
  obtain ⟨hy, rfl⟩ := layer_ok h2
  have hc := cloned_layer hx c
  rw [e] at hc
  rw [hc] at hy; cases hy
  replace h := M.bind_eq_ok h
  obtain ⟨⟨f, ids⟩, w3, h3, h⟩ := h
  replace h := M.bind_eq_ok h
  obtain ⟨prs, w4, h4, h⟩ := h
  cases h
  refine ⟨x, ids, w3, hx, by rw [e], ?_, h4⟩
  rw [e]; exact h3

theorem activate_index (c : Int) (softmax : Bool) (nodes : Slice) (cur : List (Pair F)) (i : Int) :
    ∀ (ids : List Int) (m : F) (h h' : Heap F) (pairs : List (Pair F)) (m' : F),
      activate c softmax nodes cur i ids m h = .ok ((pairs, m'), h') → pairs.map (·.Index) = ids
  | [], m, h, h', pairs, m', hr => by cases hr; rfl
  | id :: ids, m, h, h', pairs, m', hr => by
    unfold activate at hr
    replace hr := M.bind_eq_ok hr
    obtain ⟨p, h1, _, hr⟩ := hr
    replace hr := M.bind_eq_ok hr
    obtain ⟨⟨v, q⟩, h2, _, hr⟩ := hr
    replace hr := M.bind_eq_ok hr
    obtain ⟨_, h3, _, hr⟩ := hr
    replace hr := M.bind_eq_ok hr
    obtain ⟨⟨prs, m2⟩, h4, hrec, hr⟩ := hr
    cases hr
    rw [List.map_cons, activate_index c softmax nodes cur i ids _ _ _ _ _ hrec]

theorem exponentiate_index (c : Int) (nodes norm : Slice) (i : Int) (m : F) :
    ∀ (ps : List (Pair F)) (w w' : World F) (pairs : List (Pair F)),
      exponentiate c nodes norm i m ps w = .ok (pairs, w') → pairs.map (·.Index) = ps.map (·.Index)
  | [], w, w', pairs, hr => by cases hr; rfl
  | x :: ps, w, w', pairs, hr => by
    unfold exponentiate at hr
    replace hr := M.bind_eq_ok hr
    obtain ⟨_, w1, _, hr⟩ := hr
    replace hr := M.bind_eq_ok hr
    obtain ⟨_, w2, _, hr⟩ := hr
    replace hr := M.bind_eq_ok hr
    obtain ⟨_, w3, _, hr⟩ := hr
    replace hr := M.bind_eq_ok hr
    obtain ⟨_, w4, _, hr⟩ := hr
    replace hr := M.bind_eq_ok hr
    obtain ⟨_, w5, _, hr⟩ := hr
    replace hr := M.bind_eq_ok hr
    obtain ⟨prs, w6, hrec, hr⟩ := hr
    cases hr
    rw [List.map_cons, exponentiate_index c nodes norm i m ps _ _ _ hrec, List.map_cons]

theorem activations_index {c : Int} {x : Layer} {cur : List (Pair F)} {i : Int} {ids : List Int} {w w' : World F}
    {pairs : List (Pair F)} (h : activations c x cur i ids w = .ok (pairs, w')) : pairs.map (·.Index) = ids := by
  unfold activations at h
  split at h
  · replace h := M.bind_eq_ok h
    obtain ⟨_, w1, _, h⟩ := h
    replace h := M.bind_eq_ok h
    obtain ⟨⟨prs, m⟩, w2, h2, h⟩ := h
    obtain ⟨h', ha, _⟩ := onHeap_ok h2
    rw [exponentiate_index _ _ _ _ _ _ _ _ _ h]
    exact activate_index _ _ _ _ _ _ _ _ _ _ _ ha
  · replace h := M.bind_eq_ok h
    obtain ⟨⟨prs, m⟩, w2, h2, h⟩ := h
    obtain ⟨h', ha, _⟩ := onHeap_ok h2
    cases h
    exact activate_index _ _ _ _ _ _ _ _ _ _ _ ha

/-- The ids of a successful query are those of the selection. -/
theorem query_ids {cfg : Config F} {fuel : Nat} {p : Ptr} {c : Int} {cur : List (Pair F)} {i : Int} {label : List Int} {sp : F}
    {w w' : World F} {found : Int} {pairs : List (Pair F)} {l : Ptr}
    (h : query cfg fuel p c cur i label sp w = .ok ((found, pairs, l), w')) :
    ∃ x ids w2 ls, w.layers[p]? = some x ∧
      select cfg fuel { x with cowId := c } cur label sp { w with layers := w.layers ++ ls } = .ok ((found, ids), w2) ∧
      pairs.map (·.Index) = ids.getD [] := by
  obtain ⟨x, ids, w2, hx, _, hs, ha⟩ := query_ok h
  obtain ⟨ls, e⟩ := cloned_eq w p x c
  rw [e] at hs
  exact ⟨x, ids, w2, ls, hx, hs, activations_index ha⟩

/-! ### The selection, mode by mode -/

theorem select_full {cfg : Config F} {fuel : Nat} {x : Layer} {cur : List (Pair F)} {label : List Int} {sp : F} {w : World F}
    (hsp : GoFloat.eq sp GoFloat.one = true) :
    select cfg fuel x cur label sp w = .ok ((0, some ((List.range x.nodes.len).map (fun (i : Nat) => (i : Int)))), w) := by
  unfold select
  dsimp only
  rw [if_pos hsp]; rfl

theorem select_mode1 {cfg : Config F} {fuel : Nat} {x : Layer} {cur : List (Pair F)} {label : List Int} {sp : F} {w w' : World F}
    {found : Int} {ids : Option (List Int)} (hsp : GoFloat.eq sp GoFloat.one = false) (hm : cfg.LayerMode = 1)
    (h : select cfg fuel x cur label sp w = .ok ((found, ids), w')) :
    ∃ s actives, w.lshs[x.hashTables]? = some s ∧ candidates cfg x.hasher s cur = .ok actives ∧
      ids = some (mode1 (x.nodeType = Softmax) x.l label actives w.mapRng).1 := by
  unfold select at h
  dsimp only at h
  rw [if_neg (by rw [hsp]; simp), if_pos hm] at h
  replace h := M.bind_eq_ok h
  obtain ⟨s, w1, h1, h⟩ := h
  obtain ⟨hs, rfl⟩ := tables_ok h1
  replace h := M.bind_eq_ok h
  obtain ⟨actives, w2, h2, h⟩ := h
  obtain ⟨ha, rfl⟩ := lift_ok h2
  replace h := M.bind_eq_ok h
  obtain ⟨act, w3, h3, h⟩ := h
  cases h3
  cases h
  exact ⟨s, actives, hs, ha, rfl⟩

theorem select_mode2 {cfg : Config F} {fuel : Nat} {x : Layer} {cur : List (Pair F)} {label : List Int} {sp : F} {w : World F}
    (hsp : GoFloat.eq sp GoFloat.one = false) (hm : cfg.LayerMode = 2) (hx : x.nodeType = Softmax) :
    select cfg fuel x cur label sp w = (match mode2 fuel x.nodes.len sp label w.rng with
      | .ok (act, r) => .ok ((0, some act), { w with rng := r })
      | .error e => .error e) := by
  unfold select
  dsimp only
  rw [if_neg (by rw [hsp]; simp), if_neg (by omega), if_pos hm, if_pos (by simp [hx])]
  cases h : mode2 fuel x.nodes.len sp label w.rng with
  | ok r => obtain ⟨act, r⟩ := r; rw [M.bind_ok (draw_run h)]; rfl
  | error e =>
    have : draw (mode2 fuel x.nodes.len sp label) w = .error e := by unfold draw; rw [h]
    rw [M.bind_error this]

theorem select_mode3 {cfg : Config F} {fuel : Nat} {x : Layer} {cur : List (Pair F)} {label : List Int} {sp : F} {w w' : World F}
    {found : Int} {ids : Option (List Int)} (hsp : GoFloat.eq sp GoFloat.one = false) (hm : cfg.LayerMode = 3) (hx : x.nodeType = Softmax)
    (h : select cfg fuel x cur label sp w = .ok ((found, ids), w')) :
    ∃ ps ws act, readSlice w.heap.nodeArrs x.nodes = some ps ∧ nodeScores ps w.heap = .ok (ws, w'.heap) ∧
      mode3 sp label cur ws = .ok (act, found) ∧ ids = some act := by
  unfold select at h
  dsimp only at h
  rw [if_neg (by rw [hsp]; simp), if_neg (by omega), if_neg (by omega), if_pos hm, if_pos (by simp [hx])] at h
  replace h := M.bind_eq_ok h
  obtain ⟨ps, w1, h1, h⟩ := h
  obtain ⟨h1', hp, rfl⟩ := onHeap_ok h1
  replace h := M.bind_eq_ok h
  obtain ⟨ws, w2, h2, h⟩ := h
  obtain ⟨h2', hw, rfl⟩ := onHeap_ok h2
  replace h := M.bind_eq_ok h
  obtain ⟨⟨act, f⟩, w3, h3, h⟩ := h
  obtain ⟨ha, rfl⟩ := lift_ok h3
  cases h
  unfold nodePtrsOf at hp
  cases hr : readSlice w.heap.nodeArrs x.nodes with
  | none => rw [hr] at hp; cases hp
  | some l => rw [hr] at hp; cases hp; exact ⟨ps, ws, act, rfl, hw, ha, rfl⟩

theorem select_mode4 {cfg : Config F} {fuel : Nat} {x : Layer} {cur : List (Pair F)} {label : List Int} {sp : F} {w w' : World F}
    {found : Int} {ids : Option (List Int)} (hsp : GoFloat.eq sp GoFloat.one = false) (hm : cfg.LayerMode = 4)
    (h : select cfg fuel x cur label sp w = .ok ((found, ids), w')) :
    ∃ s actives order act r, w.lshs[x.hashTables]? = some s ∧ candidates cfg x.hasher s cur = .ok actives ∧
      readSlice w.ints x.randNode = some order ∧
      mode4 (x.nodeType = Softmax) x.l x.nodes.len order label actives w.rng = .ok ((act, found), r) ∧
      ids = some act ∧ w' = { w with rng := r } := by
  unfold select at h
  dsimp only at h
  rw [if_neg (by rw [hsp]; simp), if_neg (by omega), if_neg (by omega), if_neg (by omega), if_pos hm] at h
  replace h := M.bind_eq_ok h
  obtain ⟨s, w1, h1, h⟩ := h
  obtain ⟨hs, rfl⟩ := tables_ok h1
  replace h := M.bind_eq_ok h
  obtain ⟨actives, w2, h2, h⟩ := h
  obtain ⟨ha, rfl⟩ := lift_ok h2
  replace h := M.bind_eq_ok h
  obtain ⟨order, w3, h3, h⟩ := h
  obtain ⟨ho, rfl⟩ := intsOf_ok h3
  replace h := M.bind_eq_ok h
  obtain ⟨⟨act, size⟩, w4, h4, h⟩ := h
  obtain ⟨r, hr, rfl⟩ := draw_ok h4
  cases h
  exact ⟨s, actives, order, act, r, hs, ha, ho, hr, rfl, rfl⟩

theorem select_mode4_run {cfg : Config F} {fuel : Nat} {x : Layer} {cur : List (Pair F)} {label : List Int} {sp : F} {w : World F}
    {s : LSH} {actives : List (List Int)} {order act : List Int} {found : Int} {r : Rng}
    (hsp : GoFloat.eq sp GoFloat.one = false) (hm : cfg.LayerMode = 4) (hs : w.lshs[x.hashTables]? = some s)
    (ha : candidates cfg x.hasher s cur = .ok actives) (ho : readSlice w.ints x.randNode = some order)
    (hr : mode4 (x.nodeType = Softmax) x.l x.nodes.len order label actives w.rng = .ok ((act, found), r)) :
    select cfg fuel x cur label sp w = .ok ((found, some act), { w with rng := r }) := by
  unfold select
  dsimp only
  rw [if_neg (by rw [hsp]; simp), if_neg (by omega), if_neg (by omega), if_neg (by omega), if_pos hm]
  rw [M.bind_ok (tables_run hs), M.bind_ok (lift_run ha), M.bind_ok (intsOf_run ho), M.bind_ok (draw_run hr)]
  rfl

theorem foldlM_count_range : ∀ (ids : List Int) (st st' : List Int × Int), ids.foldlM mode4Count st = .ok st' →
    (∀ y ∈ ids, 0 ≤ y ∧ y < st.1.length) ∧ st'.1.length = st.1.length
  | [], st, st', h => by cases h; simp
  | y :: ids, st, st', h => by
    rw [List.foldlM_cons, bind_ok_iff] at h
    obtain ⟨st1, h1, h⟩ := h
    unfold mode4Count at h1
    rw [bind_ok_iff] at h1
    obtain ⟨c, hc, h1⟩ := h1
    obtain ⟨c0, c1⟩ := (goGet_ok_iff _ _ _).mp hc
    have hlt := (List.getElem?_eq_some_iff.mp c1).1
    have hl : st1.1.length = st.1.length := by
      split at h1 <;>
      · rw [goSet_int _ c0 (by omega), ok_bind] at h1
        cases h1; simp
    obtain ⟨a, b⟩ := foldlM_count_range ids st1 st' h
    rw [hl] at a b
    refine ⟨?_, b⟩
    intro z hz
    rcases List.mem_cons.mp hz with rfl | hz
    · omega
    · exact a z hz

theorem foldlM_labels_range (l : Int) : ∀ (label counts counts' : List Int), mode4Labels l label counts = .ok counts' →
    (∀ y ∈ label, 0 ≤ y ∧ y < counts.length) ∧ counts'.length = counts.length
  | [], st, st', h => by cases h; simp
  | y :: ids, st, st', h => by
    unfold mode4Labels at h
    rw [List.foldlM_cons, bind_ok_iff] at h
    obtain ⟨st1, h1, h⟩ := h
    have hc : 0 ≤ y ∧ y < st.length := by
      apply Classical.byContradiction
      intro hn
      unfold goSet at h1
      split at h1
      · cases h1
      · split at h1
        · exact hn ⟨by omega, by omega⟩
        · cases h1
    rw [goSet_int _ hc.1 hc.2] at h1
    cases h1
    obtain ⟨a, b⟩ := foldlM_labels_range l ids _ st' h
    simp only [List.length_set] at a b
    refine ⟨?_, b⟩
    intro z hz
    rcases List.mem_cons.mp hz with rfl | hz
    · exact hc
    · exact a z hz

/-- Where mode 4 does not panic, all its ids are in range. -/
theorem mode4_range {softmax : Bool} {l : Int} {n : Nat} {order label : List Int} {actives : List (List Int)} {r : Rng} {res}
    (h : mode4 softmax l n order label actives r = .ok res) :
    0 < n ∧ (softmax = true → ∀ y ∈ label, 0 ≤ y ∧ y < n) ∧ ∀ y ∈ actives.flatten, 0 ≤ y ∧ y < n := by
  unfold mode4 at h
  dsimp only at h
  rw [bind_ok_iff] at h
  obtain ⟨counts, h1, h⟩ := h
  rw [bind_ok_iff] at h
  obtain ⟨st, h2, h⟩ := h
  rw [bind_ok_iff] at h
  obtain ⟨⟨st', r'⟩, h3, h⟩ := h
  obtain ⟨b1, b2⟩ := foldlM_count_range _ _ _ h2
  dsimp only at b1 b2
  have hstart : (softmax = true → ∀ y ∈ label, 0 ≤ y ∧ y < n) ∧ counts.length = n := by
    unfold mode4Start at h1
    split at h1
    · obtain ⟨a1, a2⟩ := foldlM_labels_range _ _ _ _ h1
      simp only [List.length_replicate] at a1 a2
      exact ⟨fun _ => a1, a2⟩
    · rename_i hc
      cases h1
      refine ⟨fun hs y hy => absurd (decide_eq_true ⟨hs, List.length_pos_of_mem hy⟩) hc, by simp⟩
  rw [hstart.2] at b1 b2
  refine ⟨?_, hstart.1, b1⟩
  apply Nat.pos_of_ne_zero
  intro h0
  have hids : actives.flatten = [] := by
    cases hf : actives.flatten with
    | nil => rfl
    | cons y t =>
      have := b1 y (by rw [hf]; simp)
      omega
  rw [hids] at h2
  cases h2
  have hlab : softmax = true → label = [] := by
    intro hs
    cases label with
    | nil => rfl
    | cons y t => have := hstart.1 hs y (by simp); omega
  have hsize : (if decide (softmax = true ∧ 0 < label.length) = true then (label.length : Int) else 0) = 0 := by
    by_cases hs : softmax = true
    · rw [hlab hs]; simp
    · simp [hs]
  unfold mode4Padding at h3
  rw [hsize] at h3
  simp only [] at h3
  rw [if_pos (by omega)] at h3
  unfold randIntn at h3
  rw [if_pos h0] at h3
  cases h3

end Goslide.Layer
