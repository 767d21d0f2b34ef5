import Verif.Proofs.LayerMode4
import Verif.Proofs.Heap
/-
Layer modes 1, 2 and 3.
-/
set_option linter.unusedSectionVars false
namespace Goslide.Layer
open Goslide
variable {F : Type} [GoFloat F]

/-! ### Mode 1 -/

/-- `m[x]` for a Go map (0 if absent). -/
def look (m : List (Int × Int)) (x : Int) : Int :=
  match m with
  | [] => 0
  | (y, c) :: m => if y = x then c else look m x

theorem look_incr (x y : Int) : ∀ m : List (Int × Int), look (mapIncr x m) y = look m y + if y = x then 1 else 0
  | [] => by
    simp only [mapIncr, look]
    by_cases h : x = y
    · simp [h]
    · rw [if_neg h, if_neg (fun e => h e.symm)]; rfl
  | (z, c) :: m => by
    simp only [mapIncr]
    by_cases hz : z = x
    · rw [if_pos hz]
      simp only [look]
      by_cases hy : z = y
      · rw [if_pos hy, if_pos hy, if_pos (by omega)]
      · rw [if_neg hy, if_neg hy, if_neg (by omega)]; omega
    · rw [if_neg hz]
      simp only [look]
      by_cases hy : z = y
      · rw [if_pos hy, if_pos hy, if_neg (by omega)]; omega
      · rw [if_neg hy, if_neg hy, look_incr x y m]

theorem look_put (x v y : Int) : ∀ m : List (Int × Int), look (mapPut x v m) y = if y = x then v else look m y
  | [] => by
    simp only [mapPut, look]
    by_cases h : x = y
    · simp [h]
    · rw [if_neg h, if_neg (fun e => h e.symm)]
  | (z, c) :: m => by
    simp only [mapPut]
    by_cases hz : z = x
    · rw [if_pos hz]
      simp only [look]
      by_cases hy : z = y
      · rw [if_pos hy, if_pos (by omega)]
      · rw [if_neg hy, if_neg hy, if_neg (by omega)]
    · rw [if_neg hz]
      simp only [look]
      by_cases hy : z = y
      · rw [if_pos hy, if_pos hy, if_neg (by omega)]
      · rw [if_neg hy, if_neg hy, look_put x v y m]

theorem keys_incr (x : Int) : ∀ m : List (Int × Int), (mapIncr x m).map (·.1) = if x ∈ m.map (·.1) then m.map (·.1) else m.map (·.1) ++ [x]
  | [] => by simp [mapIncr]
  | (z, c) :: m => by
    simp only [mapIncr]
    by_cases hz : z = x
    · rw [if_pos hz]; simp [hz]
    · rw [if_neg hz, List.map_cons, keys_incr x m]
      have hz' : ¬ x = z := fun e => hz e.symm
      by_cases h : x ∈ m.map (·.1)
      · rw [if_pos h, if_pos (by simp only [List.map_cons, List.mem_cons]; exact .inr h)]; rfl
      · rw [if_neg h, if_neg (by simp only [List.map_cons, List.mem_cons]; exact fun e => e.elim hz' h)]; rfl

theorem keys_put (x v : Int) : ∀ m : List (Int × Int), (mapPut x v m).map (·.1) = if x ∈ m.map (·.1) then m.map (·.1) else m.map (·.1) ++ [x]
  | [] => by simp [mapPut]
  | (z, c) :: m => by
    simp only [mapPut]
    by_cases hz : z = x
    · rw [if_pos hz]; simp [hz]
    · rw [if_neg hz, List.map_cons, keys_put x v m]
      have hz' : ¬ x = z := fun e => hz e.symm
      by_cases h : x ∈ m.map (·.1)
      · rw [if_pos h, if_pos (by simp only [List.map_cons, List.mem_cons]; exact .inr h)]; rfl
      · rw [if_neg h, if_neg (by simp only [List.map_cons, List.mem_cons]; exact fun e => e.elim hz' h)]; rfl

theorem nodup_new {l : List Int} (h : l.Nodup) (x : Int) : (if x ∈ l then l else l ++ [x]).Nodup := by
  by_cases hx : x ∈ l
  · rw [if_pos hx]; exact h
  · rw [if_neg hx, List.nodup_append]
    exact ⟨h, by simp, fun a ha b hb => by rintro rfl; simp at hb; exact hx (hb ▸ ha)⟩

theorem incrs_spec : ∀ (ids : List Int) (m : List (Int × Int)), (m.map (·.1)).Nodup →
    ((ids.foldl (fun m id => mapIncr id m) m).map (·.1)).Nodup ∧
    ∀ y, look (ids.foldl (fun m id => mapIncr id m) m) y = look m y + ids.count y
  | [], m, h => ⟨h, by simp⟩
  | x :: ids, m, h => by
    have h1 : ((mapIncr x m).map (·.1)).Nodup := by rw [keys_incr]; exact nodup_new h x
    obtain ⟨a, b⟩ := incrs_spec ids _ h1
    refine ⟨a, fun y => ?_⟩
    rw [List.foldl_cons, b y, look_incr, List.count_cons]
    by_cases hy : y = x
    · subst hy; simp; omega
    · have : ¬ x = y := fun e => hy e.symm
      simp [hy, this]

theorem puts_spec (l : Int) : ∀ (ids : List Int) (m : List (Int × Int)), (m.map (·.1)).Nodup →
    ((ids.foldl (fun m id => mapPut id l m) m).map (·.1)).Nodup ∧
    ∀ y, look (ids.foldl (fun m id => mapPut id l m) m) y = if y ∈ ids then l else look m y
  | [], m, h => ⟨h, by simp⟩
  | x :: ids, m, h => by
    have h1 : ((mapPut x l m).map (·.1)).Nodup := by rw [keys_put]; exact nodup_new h x
    obtain ⟨a, b⟩ := puts_spec l ids _ h1
    refine ⟨a, fun y => ?_⟩
    rw [List.foldl_cons, b y, look_put]
    by_cases hy : y = x
    · subst hy; simp
    · by_cases hm : y ∈ ids <;> simp [hy, hm]

theorem foldl_flatten {α β : Type} (f : β → α → β) : ∀ (ls : List (List α)) (b : β),
    ls.foldl (fun b l => l.foldl f b) b = ls.flatten.foldl f b
  | [], _ => rfl
  | l :: ls, b => by rw [List.foldl_cons, List.flatten_cons, List.foldl_append]; exact foldl_flatten f ls _

theorem look_mem : ∀ {m : List (Int × Int)}, (m.map (·.1)).Nodup → ∀ {x c : Int}, (x, c) ∈ m → look m x = c
  | (z, d) :: m, h, x, c, hm => by
    rw [List.map_cons, List.nodup_cons] at h
    rcases List.mem_cons.mp hm with e | hm
    · cases e; simp [look]
    · have : z ≠ x := by
        rintro rfl
        exact h.1 (List.mem_map.mpr ⟨(z, c), hm, rfl⟩)
      simp only [look]; rw [if_neg this]; exact look_mem h.2 hm

theorem mem_look : ∀ {m : List (Int × Int)} {x : Int}, look m x ≠ 0 → (x, look m x) ∈ m
  | [], x, h => absurd rfl h
  | (z, d) :: m, x, h => by
    simp only [look] at h ⊢
    by_cases hz : z = x
    · rw [if_pos hz]; simp [hz]
    · rw [if_neg hz] at h ⊢
      exact List.mem_cons_of_mem _ (mem_look h)

theorem mode1Counts_spec (softmax : Bool) (l : Int) (label : List Int) (actives : List (List Int)) :
    ((mode1Counts softmax l label actives).map (·.1)).Nodup ∧
    ∀ y, look (mode1Counts softmax l label actives) y =
      (actives.flatten.count y : Int) + if softmax = true ∧ y ∈ label then l else 0 := by
  have key : ∀ c : List (Int × Int), c = (if softmax = true ∧ 0 < label.length then label.foldl (fun m y => mapPut y l m) [] else []) →
      (c.map (·.1)).Nodup ∧ ∀ y, look c y = if softmax = true ∧ y ∈ label then l else 0 := by
    rintro c rfl
    by_cases h : softmax = true ∧ 0 < label.length
    · rw [if_pos h]
      obtain ⟨a, b⟩ := puts_spec l label [] (by simp)
      refine ⟨a, fun y => ?_⟩
      rw [b y]
      simp [h.1, look]
    · rw [if_neg h]
      refine ⟨by simp, fun y => ?_⟩
      rw [if_neg]
      · rfl
      · rintro ⟨a, b⟩; exact h ⟨a, List.length_pos_of_mem b⟩
  obtain ⟨a, b⟩ := key _ rfl
  obtain ⟨c, d⟩ := incrs_spec actives.flatten _ a
  unfold mode1Counts
  dsimp only
  rw [foldl_flatten (fun m id => mapIncr id m)]
  refine ⟨c, fun y => ?_⟩
  rw [d y, b y]; omega

theorem mode1_spec (softmax : Bool) (l : Int) (label : List Int) (actives : List (List Int)) (order : Rng) :
    (mode1 softmax l label actives order).1.Nodup ∧
    ∀ y, y ∈ (mode1 softmax l label actives order).1 ↔
      2 < (actives.flatten.count y : Int) + if softmax = true ∧ y ∈ label then l else 0 := by
  obtain ⟨hn, hl⟩ := mode1Counts_spec softmax l label actives
  have hp := shuffle_perm (mode1Counts softmax l label actives) order
  have e : (mode1 softmax l label actives order).1 =
      (((shuffle (mode1Counts softmax l label actives) order).1.filter (fun (x : Int × Int) => decide (x.2 > threshold))).map (·.1)) := rfl
  rw [e]
  have hn2 : ((shuffle (mode1Counts softmax l label actives) order).1.map (·.1)).Nodup := (hp.map _).nodup_iff.mpr hn
  refine ⟨(List.filter_sublist.map _).nodup hn2, fun y => ?_⟩
  rw [← hl y]
  simp only [List.mem_map, List.mem_filter, hp.mem_iff, threshold, Prod.exists, exists_and_right, exists_eq_right]
  constructor
  · rintro ⟨c, hc, h2⟩; rw [look_mem hn hc]; exact of_decide_eq_true h2
  · intro h2; exact ⟨_, mem_look (by omega), decide_eq_true h2⟩

/-! ### Mode 2 -/

theorem goSet_error {l : List α} {i : Int} {v : α} {e : Panic} (h : goSet l i v = .error e) : e = .index := by
  unfold goSet at h
  split at h
  · cases h; rfl
  · split at h <;> cases h; rfl

theorem mode2Labels_error : ∀ (label : List Int) (i : Nat) (act : List Int) (bs : List Bool),
    act.length < i + label.length → i ≤ act.length → mode2Labels label i (act, bs) = .error .index
  | [], i, act, bs, h, h' => by simp at h; omega
  | y :: label, i, act, bs, h, h' => by
    unfold mode2Labels
    by_cases hi : i < act.length
    · rw [goSet_int y (by omega) (by omega), ok_bind]
      cases hb : goSet bs y true with
      | error e => rw [goSet_error hb]; rfl
      | ok bs' =>
        rw [ok_bind]
        exact mode2Labels_error label (i + 1) _ bs' (by simp at h ⊢; omega) (by simp; omega)
    · have : goSet act (i : Int) y = .error .index := by
        unfold goSet; rw [if_neg (by omega), if_neg (by omega)]
      rw [this]; rfl

/-- The state of the sampling: `tmp` cells of the active list are filled, with different nodes, and the bitset
marks exactly these. -/
structure Sampled (n len tmp : Nat) (act : List Int) (bs : List Bool) : Prop where
  length : act.length = len
  le : tmp ≤ len
  nodup : (act.take tmp).Nodup
  range : ∀ v ∈ act.take tmp, 0 ≤ v ∧ v < n
  bsLen : bs.length = mapLen
  mark : ∀ v : Nat, v < mapLen → (bs[v]? = some true ↔ (v : Int) ∈ act.take tmp)

theorem take_set_succ {l : List α} {t : Nat} (v : α) (h : t < l.length) : (l.set t v).take (t + 1) = l.take t ++ [v] := by
  rw [List.take_succ_eq_append_getElem (by simpa using h), List.take_set_of_le (Nat.le_refl _)]
  simp

theorem Sampled.step {n len tmp act bs} (h : Sampled n len tmp act bs) (ht : tmp < len) {v : Int} (h0 : 0 ≤ v) (hn : v < n)
    (hm : v < mapLen) (hv : v ∉ act.take tmp) :
    goSet act (tmp : Int) v = .ok (act.set tmp v) ∧ goSet bs v true = .ok (bs.set v.toNat true) ∧
    Sampled n len (tmp + 1) (act.set tmp v) (bs.set v.toNat true) := by
  have e := take_set_succ v (show tmp < act.length by rw [h.length]; exact ht)
  refine ⟨goSet_int v (by omega) (by rw [h.length]; omega), goSet_int true h0 (by rw [h.bsLen]; exact hm),
    by simp [h.length], ht, ?_, ?_, by simp [h.bsLen], ?_⟩
  · rw [e, List.nodup_append]
    exact ⟨h.nodup, by simp, fun a ha b hb => by rintro rfl; simp at hb; exact hv (hb ▸ ha)⟩
  · rw [e]; intro x hx
    rcases List.mem_append.mp hx with hx | hx
    · exact h.range x hx
    · simp at hx; subst hx; exact ⟨h0, hn⟩
  · intro w hw
    rw [e, List.getElem?_set]
    by_cases hc : v.toNat = w
    · rw [if_pos hc, if_pos (by rw [h.bsLen]; omega)]
      have : (w : Int) = v := by omega
      simp [this]
    · rw [if_neg hc, h.mark w hw]
      have : (w : Int) ≠ v := by omega
      simp [this]

theorem mode2Labels_run {n len : Nat} (hmap : n ≤ mapLen) : ∀ (label : List Int) (i : Nat) (act : List Int) (bs : List Bool),
    Sampled n len i act bs → i + label.length ≤ len → (∀ y ∈ label, 0 ≤ y ∧ y < n) → (act.take i ++ label).Nodup →
    ∃ act' bs', mode2Labels label i (act, bs) = .ok (act', bs') ∧ Sampled n len (i + label.length) act' bs' ∧
      act'.take (i + label.length) = act.take i ++ label
  | [], i, act, bs, h, _, _, _ => ⟨act, bs, rfl, by simpa using h, by simp⟩
  | y :: label, i, act, bs, h, hle, hy, hn => by
    obtain ⟨y0, y1⟩ := hy y (by simp)
    have hy' : y ∉ act.take i := by
      intro hm
      rw [List.nodup_append] at hn
      exact hn.2.2 y hm y (by simp) rfl
    simp only [List.length_cons] at hle
    obtain ⟨e1, e2, hs⟩ := h.step (by omega) y0 y1 (by omega) hy'
    have et := take_set_succ y (show i < act.length by rw [h.length]; omega)
    obtain ⟨act', bs', e3, hs', ht⟩ := mode2Labels_run hmap label (i + 1) _ _ hs (by omega)
      (fun z hz => hy z (by simp [hz])) (by rw [et]; simpa using hn)
    refine ⟨act', bs', ?_, ?_, ?_⟩
    · rw [mode2Labels, e1, ok_bind, e2, ok_bind, e3]
    · have : i + (y :: label).length = i + 1 + label.length := by simp; omega
      rw [this]; exact hs'
    · have : i + (y :: label).length = i + 1 + label.length := by simp; omega
      rw [this, ht, et]; simp

theorem Sampled.init (n len : Nat) : Sampled n len 0 (List.replicate len 0) (List.replicate mapLen false) := by
  refine ⟨by simp, by simp, by simp, by simp, by simp, ?_⟩
  intro v hv
  rw [List.getElem?_replicate, if_pos hv]; simp

/-- Before the list is full, some node is unused. -/
theorem Sampled.unused {n len tmp act bs} (h : Sampled n len tmp act bs) (ht : tmp < len) (hn : len ≤ n) :
    ∃ v : Nat, v < n ∧ (v : Int) ∉ act.take tmp := by
  apply Classical.byContradiction
  intro hc
  have hall : ∀ x ∈ (List.range n).map (fun (i : Nat) => (i : Int)), x ∈ act.take tmp := by
    intro x hx
    obtain ⟨x0, x1⟩ := mem_ids.mp hx
    apply Classical.byContradiction
    intro hx'
    exact hc ⟨x.toNat, by omega, by rw [Int.toNat_of_nonneg x0]; exact hx'⟩
  have := nodup_length_le (l := (List.range n).map (fun (i : Nat) => (i : Int)))
    (by rw [List.Nodup, List.pairwise_map]; exact List.nodup_range.imp (fun h e => h (by omega))) hall
  simp [h.length] at this
  omega

/-- One draw of the sampling loop. -/
theorem Sampled.draw {n len tmp act bs} (h : Sampled n len tmp act bs) (ht : tmp < len) (hn : 0 < n) (hmap : n ≤ mapLen)
    (fuel : Nat) (r : Rng) :
    (((r 0 % n : Nat) : Int) ∈ act.take tmp ∧ mode2Loop n (fuel + 1) tmp (act, bs) r = mode2Loop n fuel tmp (act, bs) r.tail) ∨
    (((r 0 % n : Nat) : Int) ∉ act.take tmp ∧ ∃ act' bs', mode2Loop n (fuel + 1) tmp (act, bs) r = mode2Loop n fuel (tmp + 1) (act', bs') r.tail ∧
      Sampled n len (tmp + 1) act' bs' ∧ act'.take tmp = act.take tmp ∧ act'.take (tmp + 1) = act.take tmp ++ [((r 0 % n : Nat) : Int)]) := by
  have hv : r 0 % n < n := Nat.mod_lt _ hn
  have hr : randIntn r n = .ok (r 0 % n, r.tail) := by unfold randIntn; rw [if_neg (by omega)]
  have hvm : r 0 % n < mapLen := by omega
  have hl : r 0 % n < bs.length := by rw [h.bsLen]; exact hvm
  have hg : goGet bs ((r 0 % n : Nat) : Int) = .ok bs[r 0 % n] := goGet_ok_of_lt _ _ hl
  have hm := h.mark _ hvm
  rw [List.getElem?_eq_getElem hl] at hm
  rw [mode2Loop]
  simp only [h.length]
  rw [if_pos ht, hr, ok_bind]
  dsimp only
  rw [hg, ok_bind]
  by_cases hb : bs[r 0 % n] = true
  · rw [if_pos hb]
    exact .inl ⟨hm.mp (by rw [hb]), rfl⟩
  · rw [if_neg hb]
    have hnot : ((r 0 % n : Nat) : Int) ∉ act.take tmp := fun hc => hb (by have := hm.mpr hc; simpa using this)
    obtain ⟨e1, e2, hs⟩ := h.step ht (v := ((r 0 % n : Nat) : Int)) (by omega) (by omega) (by omega) hnot
    rw [e1, ok_bind, e2, ok_bind]
    refine .inr ⟨hnot, _, _, rfl, hs, ?_, take_set_succ ((r 0 % n : Nat) : Int) (show tmp < act.length by rw [h.length]; exact ht)⟩
    have := congrArg (List.take tmp) (take_set_succ ((r 0 % n : Nat) : Int) (show tmp < act.length by rw [h.length]; exact ht))
    rw [List.take_take, Nat.min_eq_left (by omega)] at this
    rw [this, List.take_append_of_le_length (by simp [h.length]; omega), List.take_take, Nat.min_self]

/-- What the sampling loop returns; it never panics. -/
theorem Sampled.loop {n len : Nat} (hn : 0 < n) (hmap : n ≤ mapLen) : ∀ (fuel tmp : Nat) (act : List Int) (bs : List Bool) (r : Rng),
    Sampled n len tmp act bs →
    (mode2Loop n fuel tmp (act, bs) r = .error .outOfFuel) ∨
    ∃ act' bs' r', mode2Loop n fuel tmp (act, bs) r = .ok (act', r') ∧ Sampled n len len act' bs' ∧ act'.take tmp = act.take tmp := by
  intro fuel
  induction fuel with
  | zero =>
    intro tmp act bs r h
    by_cases ht : tmp < len
    · left; rw [mode2Loop]; simp only [h.length]; rw [if_pos ht]
    · right
      have : tmp = len := by have := h.le; omega
      subst this
      refine ⟨act, bs, r, ?_, h, rfl⟩
      rw [mode2Loop]; simp only [h.length]; rw [if_neg ht]
  | succ fuel ih =>
    intro tmp act bs r h
    by_cases ht : tmp < len
    · rcases h.draw ht hn hmap fuel r with ⟨_, e⟩ | ⟨_, act', bs', e, hs, htk, _⟩
      · rw [e]; exact ih tmp act bs _ h
      · rw [e]
        rcases ih (tmp + 1) act' bs' r.tail hs with e2 | ⟨a2, b2, r2, e2, hs2, ht2⟩
        · exact .inl e2
        · refine .inr ⟨a2, b2, r2, e2, hs2, ?_⟩
          have := congrArg (List.take tmp) ht2
          rwa [List.take_take, List.take_take, Nat.min_eq_left (by omega), htk] at this
    · right
      have : tmp = len := by have := h.le; omega
      subst this
      refine ⟨act, bs, r, ?_, h, rfl⟩
      rw [mode2Loop]; simp only [h.length]; rw [if_neg ht]

/-- With too few different draws the loop goes on. -/
theorem Sampled.stuck {n len : Nat} (hn : 0 < n) (hmap : n ≤ mapLen) {S : List Int} (hS : S.length < len) : ∀ (fuel tmp : Nat) (act : List Int) (bs : List Bool)
    (r : Rng), Sampled n len tmp act bs → (∀ v ∈ act.take tmp, v ∈ S) → (∀ i, ((r i % n : Nat) : Int) ∈ S) →
    mode2Loop n fuel tmp (act, bs) r = .error .outOfFuel := by
  intro fuel
  induction fuel with
  | zero =>
    intro tmp act bs r h hm _
    have := nodup_length_le h.nodup hm
    rw [List.length_take, h.length] at this
    rw [mode2Loop]; simp only [h.length]; rw [if_pos (by omega)]
  | succ fuel ih =>
    intro tmp act bs r h hm hr
    have := nodup_length_le h.nodup hm
    rw [List.length_take, h.length] at this
    rcases h.draw (by omega) hn hmap fuel r with ⟨_, e⟩ | ⟨_, act', bs', e, hs, -, ht⟩
    · rw [e]
      exact ih tmp act bs _ h hm (fun i => hr (i + 1))
    · rw [e]
      refine ih (tmp + 1) act' bs' _ hs ?_ (fun i => hr (i + 1))
      rw [ht]
      intro v hv
      rcases List.mem_append.mp hv with hv | hv
      · exact hm v hv
      · rw [List.mem_singleton.mp hv]
        exact hr 0

/-- A random source that hits every node again and again. -/
def Fair (n : Nat) (r : Rng) : Prop := ∀ v < n, ∀ k, ∃ i, k ≤ i ∧ r i % n = v

theorem Fair.tail {n r} (h : Fair n r) : Fair n r.tail := by
  intro v hv k
  obtain ⟨i, hi, e⟩ := h v hv (k + 1)
  exact ⟨i - 1, by omega, by unfold Rng.tail; rw [Nat.sub_add_cancel (by omega)]; exact e⟩

/-- With a fair source the loop ends. -/
theorem Sampled.ends {n len : Nat} (hmap : n ≤ mapLen) (hle : len ≤ n) : ∀ (d tmp : Nat) (act : List Int) (bs : List Bool) (r : Rng),
    Sampled n len tmp act bs → Fair n r → len - tmp = d → ∃ fuel, ∀ e, mode2Loop n fuel tmp (act, bs) r ≠ .error e := by
  intro d
  induction d with
  | zero =>
    intro tmp act bs r h _ hd
    refine ⟨0, fun e => ?_⟩
    rw [mode2Loop]; simp only [h.length]; rw [if_neg (by omega)]; simp
  | succ d ih =>
    intro tmp act bs r h hf hd
    obtain ⟨v, hv, hu⟩ := h.unused (by omega) hle
    obtain ⟨i, -, hi⟩ := hf v hv 0
    have key : ∀ (i : Nat) (r : Rng), Fair n r → r i % n = v → ∃ fuel, ∀ e, mode2Loop n fuel tmp (act, bs) r ≠ .error e := by
      intro i
      induction i with
      | zero =>
        intro r hf hi
        obtain ⟨fuel, hfu⟩ := ih (tmp + 1) (act.set tmp (v : Int)) (bs.set v true) r.tail
          (by simpa using (h.step (by omega) (v := (v : Int)) (by omega) (by omega) (by omega) hu).2.2) hf.tail (by omega)
        refine ⟨fuel + 1, fun e => ?_⟩
        have hr : randIntn r n = .ok (r 0 % n, r.tail) := by unfold randIntn; rw [if_neg (by omega)]
        obtain ⟨e1, e2, hs⟩ := h.step (by omega) (v := (v : Int)) (by omega) (by omega) (by omega) hu
        have hl : v < bs.length := by rw [h.bsLen]; omega
        have hb : bs[v] = false := by
          have := h.mark v (by omega)
          rw [List.getElem?_eq_getElem hl] at this
          cases hb : bs[v]
          · rfl
          · exact absurd (this.mp (by rw [hb])) hu
        rw [mode2Loop]; simp only [h.length]
        rw [if_pos (by omega), hr, ok_bind]
        dsimp only
        rw [hi, goGet_ok_of_lt _ _ hl, ok_bind, if_neg (by rw [hb]; simp), e1, ok_bind, e2, ok_bind]
        exact hfu e
      | succ i ih2 =>
        intro r hf hi
        rcases h.draw (by omega) (by omega) hmap 0 r with ⟨hm, _⟩ | ⟨hm, act', bs', _, hs, _⟩
        · obtain ⟨fuel, hfu⟩ := ih2 r.tail hf.tail hi
          refine ⟨fuel + 1, fun e => ?_⟩
          rcases h.draw (by omega) (by omega) hmap fuel r with ⟨_, e'⟩ | ⟨hm', _⟩
          · rw [e']; exact hfu e
          · exact absurd hm hm'
        · have hmod : r 0 % n < n := Nat.mod_lt _ (by omega)
          obtain ⟨fuel, hfu⟩ := ih (tmp + 1) _ _ r.tail (h.step (by omega) (v := ((r 0 % n : Nat) : Int)) (by omega) (by omega) (by omega) hm).2.2
            hf.tail (by omega)
          refine ⟨fuel + 1, fun e => ?_⟩
          have hr : randIntn r n = .ok (r 0 % n, r.tail) := by unfold randIntn; rw [if_neg (by omega)]
          obtain ⟨e1, e2, hs⟩ := h.step (by omega) (v := ((r 0 % n : Nat) : Int)) (by omega) (by omega) (by omega) hm
          have hl : r 0 % n < bs.length := by rw [h.bsLen]; omega
          have hb : bs[r 0 % n] = false := by
            have := h.mark (r 0 % n) (by omega)
            rw [List.getElem?_eq_getElem hl] at this
            cases hb : bs[r 0 % n]
            · rfl
            · exact absurd (this.mp (by rw [hb])) hm
          rw [mode2Loop]; simp only [h.length]
          rw [if_pos (by omega), hr, ok_bind]
          dsimp only
          rw [goGet_ok_of_lt _ _ hl, ok_bind, if_neg (by rw [hb]; simp), e1, ok_bind, e2, ok_bind]
          exact hfu e
    exact key i r hf hi

/-! ### Mode 3 -/

theorem insertPair_perm (x : Pair F) : ∀ l : List (Pair F), (insertPair x l).Perm (x :: l)
  | [] => .refl _
  | y :: l => by
    unfold insertPair
    split
    · exact ((insertPair_perm x l).cons y).trans (.swap x y l)
    · exact .refl _

theorem sortPairs_perm : ∀ l : List (Pair F), (sortPairs l).Perm l
  | [] => .refl _
  | x :: l => (insertPair_perm x _).trans ((sortPairs_perm l).cons x)

theorem mode3Scores_spec (label : List Int) (cur : List (Pair F)) : ∀ (ws : List (List F × F)) (s : Nat) (out : List (Pair F)),
    mode3Scores label cur s ws = .ok out → out.map (·.Index) = (List.range' s ws.length).map (fun (i : Nat) => (i : Int))
  | [], s, out, h => by cases h; rfl
  | (w, b) :: ws, s, out, h => by
    simp only [mode3Scores] at h
    rw [bind_ok_iff] at h
    obtain ⟨t, h1, h⟩ := h
    rw [bind_ok_iff] at h
    obtain ⟨rest, h2, h⟩ := h
    cases h
    rw [List.map_cons, mode3Scores_spec label cur ws (s + 1) rest h2]
    simp [List.range'_succ]

theorem innerproduct_error (w : List F) : ∀ (cur : List (Pair F)) (t : F) (e : Panic), innerproduct w cur t = .error e → e = .index
  | [], t, e, h => by cases h
  | p :: cur, t, e, h => by
    simp only [innerproduct] at h
    cases hg : goGet w p.Index with
    | error e' =>
      rw [hg] at h
      have := ((goGet_error_iff _ _ _).mp hg).1
      cases h; exact this
    | ok v =>
      rw [hg, ok_bind] at h
      exact innerproduct_error w cur _ e h

theorem mode3Scores_error (label : List Int) (cur : List (Pair F)) : ∀ (ws : List (List F × F)) (s : Nat) (e : Panic),
    mode3Scores label cur s ws = .error e → e = .index
  | [], s, e, h => by cases h
  | (w, b) :: ws, s, e, h => by
    simp only [mode3Scores] at h
    cases hi : innerproduct w cur GoFloat.zero with
    | error e' => rw [hi] at h; cases h; exact innerproduct_error _ _ _ _ hi
    | ok t =>
      rw [hi, ok_bind] at h
      cases hr : mode3Scores label cur (s + 1) ws with
      | error e' => rw [hr] at h; cases h; exact mode3Scores_error label cur ws (s + 1) _ hr
      | ok rest => rw [hr] at h; cases h

theorem mode3Copy_error (label : List Int) : ∀ (l : List (Pair F)) (i : Nat) (act : List Int) (f : Int),
    act.length < i + l.length → i ≤ act.length → mode3Copy label l i (act, f) = .error .index
  | [], i, act, f, h, h' => by simp at h; omega
  | x :: l, i, act, f, h, h' => by
    unfold mode3Copy
    by_cases hi : i < act.length
    · rw [goSet_int _ (by omega) (by omega), ok_bind]
      exact mode3Copy_error label l (i + 1) _ _ (by simp at h ⊢; omega) (by simp; omega)
    · have : goSet act (i : Int) x.Index = .error .index := by
        unfold goSet; rw [if_neg (by omega), if_neg (by omega)]
      rw [this]; rfl

theorem mode3Copy_run (label : List Int) : ∀ (l : List (Pair F)) (i : Nat) (act : List Int) (f : Int),
    i + l.length ≤ act.length → mode3Copy label l i (act, f) =
      .ok (act.take i ++ l.map (·.Index) ++ act.drop (i + l.length),
        if l.any (fun x => intSliceContains label x.Index) then 1 else f)
  | [], i, act, f, h => by simp [mode3Copy]
  | x :: l, i, act, f, h => by
    simp only [List.length_cons] at h
    unfold mode3Copy
    rw [goSet_int _ (by omega) (by omega), ok_bind, mode3Copy_run label l (i + 1) _ _ (by simp; omega)]
    have e := take_set_succ x.Index (show i < act.length by omega)
    simp only [Int.toNat_natCast, e, List.length_cons, List.map_cons, List.any_cons]
    have e2 : (act.set i x.Index).drop (i + 1 + l.length) = act.drop (i + (l.length + 1)) := by
      rw [List.drop_set_of_lt (by omega)]
      congr 1; omega
    rw [e2]
    by_cases hc : intSliceContains label x.Index = true
    · simp [hc]
    · simp [hc]

theorem sorted_insert {less : Pair F → Pair F → Bool} (h : less = pairLess)
    (ho : GoHeap.WeakOrder less (fun _ => True)) (x : Pair F) : ∀ l : List (Pair F), l.Pairwise (fun a b => less b a = false) →
    (insertPair x l).Pairwise (fun a b => less b a = false)
  | [], _ => by simp [insertPair]
  | y :: l, hp => by
    subst h
    rw [List.pairwise_cons] at hp
    unfold insertPair
    split
    · rename_i hlt
      rw [List.pairwise_cons]
      refine ⟨?_, sorted_insert rfl ho x l hp.2⟩
      intro z hz
      rcases List.mem_cons.mp ((insertPair_perm x l).mem_iff.mp hz) with rfl | hz
      · exact ho.asym _ _ trivial trivial hlt
      · exact hp.1 z hz
    · rename_i hlt
      rw [List.pairwise_cons]
      refine ⟨?_, List.pairwise_cons.mpr hp⟩
      intro z hz
      rcases List.mem_cons.mp hz with rfl | hz
      · simpa using hlt
      · exact ho.ntr _ _ _ trivial trivial trivial (hp.1 z hz) (by simpa using hlt)

theorem sortPairs_sorted (ho : GoHeap.WeakOrder (pairLess (F := F)) (fun _ => True)) : ∀ l : List (Pair F),
    (sortPairs l).Pairwise (fun a b => pairLess b a = false)
  | [] => by simp [sortPairs]
  | x :: l => sorted_insert rfl ho x _ (sortPairs_sorted ho l)

end Goslide.Layer
