import Verif.Proofs.GoBasic
import Verif.Proofs.Shuffle
import Verif.Proofs.ListAux
import Verif.Model.Layer
/-
Layer mode 4: what the array `counts` marks at every stage.
-/
namespace Goslide.Layer
open Goslide

theorem goGet_int {l : List α} {i : Int} {a : α} (h0 : 0 ≤ i) (h : l[i.toNat]? = some a) : goGet l i = .ok a :=
  (goGet_ok_iff _ _ _).mpr ⟨h0, h⟩

theorem goSet_int {l : List α} {i : Int} (v : α) (h0 : 0 ≤ i) (h : i < l.length) : goSet l i v = .ok (l.set i.toNat v) := by
  unfold goSet
  rw [if_neg (by omega), if_pos (by omega)]

/-- The node numbers `0..n-1` as Go integers. -/
theorem mem_ids {n : Nat} {i : Int} : i ∈ (List.range n).map (fun (i : Nat) => (i : Int)) ↔ 0 ≤ i ∧ i < n := by
  simp only [List.mem_map, List.mem_range]
  constructor
  · rintro ⟨a, h, rfl⟩; omega
  · intro h; exact ⟨i.toNat, by omega, by omega⟩

/-- `counts` marks exactly the nodes in `W`, and no value is below -1. -/
structure Marks (n : Nat) (W : Nat → Bool) (counts : List Int) : Prop where
  len : counts.length = n
  low : ∀ c ∈ counts, -1 ≤ c
  mark : ∀ (j : Nat) (c : Int), counts[j]? = some c → (0 ≤ c ↔ W j = true)

theorem Marks.get {n W counts} (h : Marks n W counts) {i : Int} (h0 : 0 ≤ i) (hi : i < n) :
    ∃ c, counts[i.toNat]? = some c ∧ goGet counts i = .ok c ∧ -1 ≤ c ∧ (0 ≤ c ↔ W i.toNat = true) := by
  have hl : i.toNat < counts.length := by rw [h.len]; omega
  have e := List.getElem?_eq_getElem hl
  exact ⟨_, e, goGet_int h0 e, h.low _ (List.getElem_mem hl), h.mark _ _ e⟩

theorem Marks.map {n W counts} (h : Marks n W counts) : counts.map (fun c => decide (0 ≤ c)) = (List.range n).map W := by
  apply List.ext_getElem (by simp [h.len])
  intro j h1 h2
  simp only [List.getElem_map, List.getElem_range]
  have hl : j < counts.length := by simpa using h1
  rw [Bool.eq_iff_iff]
  simpa using h.mark j counts[j] (List.getElem?_eq_getElem hl)

theorem Marks.count {n W counts} (h : Marks n W counts) :
    counts.countP (fun c => decide (0 ≤ c)) = (List.range n).countP W := by
  have e := congrArg (List.countP id) h.map
  simpa [List.countP_map, Function.comp_def] using e

theorem Marks.set {n W counts} (h : Marks n W counts) {i v : Int} (h0 : 0 ≤ i) (hi : i < n) (hv : 0 ≤ v) :
    goSet counts i v = .ok (counts.set i.toNat v) ∧
      Marks n (fun j => W j || decide (j = i.toNat)) (counts.set i.toNat v) := by
  refine ⟨goSet_int v h0 (by rw [h.len]; exact hi), by simp [h.len], ?_, ?_⟩
  · intro c hc
    rcases List.mem_or_eq_of_mem_set hc with hc | rfl
    · exact h.low c hc
    · omega
  · intro j c hj
    rw [List.getElem?_set] at hj
    split at hj
    · rename_i e
      subst e
      rw [if_pos (by rw [h.len]; omega)] at hj
      cases hj
      simp [hv]
    · rename_i hne
      rw [h.mark j c hj]
      have hne' : ¬ j = i.toNat := fun e => hne e.symm
      simp [hne']

theorem Marks.init (n : Nat) : Marks n (fun _ => false) (List.replicate n (-1)) := by
  refine ⟨by simp, ?_, ?_⟩
  · intro c hc; rw [List.eq_of_mem_replicate hc]; omega
  · intro j c hj
    have := List.eq_of_mem_replicate (List.mem_of_getElem? hj)
    subst this; simp

theorem Marks.congr {n W W' counts} (h : Marks n W counts) (e : ∀ j, W j = W' j) : Marks n W' counts := by
  have : W = W' := funext e
  exact this ▸ h

theorem count_or {n : Nat} (W : Nat → Bool) {k : Nat} (hk : k < n) (hW : W k = false) :
    (List.range n).countP (fun j => W j || decide (j = k)) = (List.range n).countP W + 1 := by
  induction n with
  | zero => omega
  | succ n ih =>
    simp only [List.range_succ, List.countP_append, List.countP_singleton]
    by_cases e : k = n
    · subst e
      have : (List.range k).countP (fun j => W j || decide (j = k)) = (List.range k).countP W := by
        apply List.countP_congr
        intro j hj
        have := List.mem_range.mp hj
        simp; omega
      rw [this]; simp [hW]
    · rw [ih (by omega)]
      have : (W n || decide (n = k)) = W n := by simp; omega
      rw [this]; omega

theorem count_or_of {n : Nat} (W : Nat → Bool) {k : Nat} (hW : W k = true) :
    (List.range n).countP (fun j => W j || decide (j = k)) = (List.range n).countP W := by
  apply List.countP_congr
  intro j _
  by_cases e : j = k
  · subst e; simp [hW]
  · simp [e]

/-- The marks set by the labels. -/
theorem mode4Labels_run {n : Nat} {l : Int} (hl : 0 ≤ l) : ∀ (label : List Int) (counts : List Int) (W : Nat → Bool),
    (∀ y ∈ label, 0 ≤ y ∧ y < n) → Marks n W counts →
    ∃ counts', mode4Labels l label counts = .ok counts' ∧
      Marks n (fun j => W j || decide ((j : Int) ∈ label)) counts' := by
  intro label
  induction label with
  | nil =>
    intro counts W _ hm
    exact ⟨counts, rfl, hm.congr (by simp)⟩
  | cons y label ih =>
    intro counts W hy hm
    obtain ⟨y0, y1⟩ := hy y (by simp)
    obtain ⟨e1, hm1⟩ := hm.set y0 y1 hl
    obtain ⟨c', e2, hm2⟩ := ih _ _ (fun z hz => hy z (by simp [hz])) hm1
    refine ⟨c', ?_, hm2.congr ?_⟩
    · unfold mode4Labels at e2 ⊢
      rw [List.foldlM_cons, e1, ok_bind, e2]
    · intro j
      have : (j = y.toNat) ↔ (j : Int) = y := by omega
      simp [this, Bool.or_assoc]

/-- The marks set by the retrieved ids. -/
theorem mode4Count_run {n : Nat} : ∀ (ids : List Int) (counts : List Int) (W : Nat → Bool) (e : Int),
    (∀ y ∈ ids, 0 ≤ y ∧ y < n) → Marks n W counts →
    ∃ counts', ids.foldlM mode4Count (counts, ((List.range n).countP W : Int) + e) =
        .ok (counts', ((List.range n).countP (fun j => W j || decide ((j : Int) ∈ ids)) : Int) + e) ∧
      Marks n (fun j => W j || decide ((j : Int) ∈ ids)) counts' := by
  intro ids
  induction ids with
  | nil =>
    intro counts W e _ hm
    exact ⟨counts, by simp [pure, Except.pure], hm.congr (by simp)⟩
  | cons y ids ih =>
    intro counts W e hy hm
    obtain ⟨y0, y1⟩ := hy y (by simp)
    obtain ⟨c, g1, g2, g3, g4⟩ := hm.get y0 y1
    have key : ∃ counts1, mode4Count (counts, ((List.range n).countP W : Int) + e) y =
        .ok (counts1, ((List.range n).countP (fun j => W j || decide (j = y.toNat)) : Int) + e) ∧
        Marks n (fun j => W j || decide (j = y.toNat)) counts1 := by
      unfold mode4Count
      rw [g2, ok_bind]
      by_cases h1 : c = -1
      · obtain ⟨e1, hm1⟩ := hm.set (v := 1) y0 y1 (by omega)
        rw [if_pos h1, e1, ok_bind]
        refine ⟨_, ?_, hm1⟩
        have hW : W y.toNat = false := by
          cases hw : W y.toNat
          · rfl
          · exact absurd (g4.mpr hw) (by omega)
        rw [count_or W (by omega) hW]
        simp only [pure, Except.pure, Except.ok.injEq, Prod.mk.injEq, true_and]
        omega
      · obtain ⟨e1, hm1⟩ := hm.set (v := c + 1) y0 y1 (by omega)
        rw [if_neg h1, e1, ok_bind]
        refine ⟨_, ?_, hm1⟩
        rw [count_or_of W (g4.mp (by omega))]
        rfl
    obtain ⟨counts1, e1, hm1⟩ := key
    obtain ⟨c', e2, hm2⟩ := ih counts1 _ e (fun z hz => hy z (by simp [hz])) hm1
    have hW : ∀ j : Nat, ((W j || decide (j = y.toNat)) || decide ((j : Int) ∈ ids)) =
        (W j || decide ((j : Int) ∈ y :: ids)) := by
      intro j
      have : (j = y.toNat) ↔ (j : Int) = y := by omega
      simp [this, Bool.or_assoc]
    refine ⟨c', ?_, hm2.congr hW⟩
    rw [List.foldlM_cons, e1, ok_bind, e2]
    simp only [hW]

/-- One padding loop. -/
theorem mode4Pad_run {n : Nat} : ∀ (order : List Int) (counts : List Int) (W : Nat → Bool) (e : Int),
    (∀ y ∈ order, 0 ≤ y ∧ y < n) → Marks n W counts →
    ∃ counts' W', mode4Pad order (counts, ((List.range n).countP W : Int) + e) =
        .ok (counts', ((List.range n).countP W' : Int) + e) ∧
      Marks n W' counts' ∧ (∀ j, W j = true → W' j = true) ∧
      (((List.range n).countP W : Int) + e ≥ 1000 → W' = W) ∧
      (((List.range n).countP W : Int) + e ≤ 1000 → ((List.range n).countP W' : Int) + e ≤ 1000) ∧
      (((List.range n).countP W' : Int) + e < 1000 → ∀ c ∈ order, W' c.toNat = true) := by
  intro order
  induction order with
  | nil =>
    intro counts W e _ hm
    exact ⟨counts, W, rfl, hm, fun _ h => h, fun _ => rfl, id, fun _ c hc => absurd hc (by simp)⟩
  | cons y order ih =>
    intro counts W e hy hm
    obtain ⟨y0, y1⟩ := hy y (by simp)
    unfold mode4Pad
    by_cases hs : ((List.range n).countP W : Int) + e ≥ 1000
    · rw [if_pos hs]
      exact ⟨counts, W, rfl, hm, fun _ h => h, fun _ => rfl, id, fun h => absurd h (by omega)⟩
    · obtain ⟨c, g1, g2, g3, g4⟩ := hm.get y0 y1
      rw [if_neg hs, g2, ok_bind]
      by_cases h1 : c = -1
      · obtain ⟨e1, hm1⟩ := hm.set (v := 0) y0 y1 (by omega)
        have hW : W y.toNat = false := by
          cases hw : W y.toNat
          · rfl
          · exact absurd (g4.mpr hw) (by omega)
        obtain ⟨c', W', e2, hm2, p1, p2, p3, p4⟩ := ih _ _ e (fun z hz => hy z (by simp [hz])) hm1
        rw [count_or W (by omega) hW] at e2 p2 p3
        have hsz : ((List.range n).countP W : Int) + e + 1 = (((List.range n).countP W + 1 : Nat) : Int) + e := by omega
        rw [if_pos h1, e1, ok_bind, hsz, e2]
        refine ⟨c', W', rfl, hm2, fun j hj => p1 j (by simp [hj]), fun h => absurd h hs, fun h => p3 (by omega), ?_⟩
        intro hlt z hz
        rcases List.mem_cons.mp hz with rfl | hz
        · exact p1 _ (by simp)
        · exact p4 hlt z hz
      · obtain ⟨c', W', e2, hm2, p1, p2, p3, p4⟩ := ih _ _ e (fun z hz => hy z (by simp [hz])) hm
        rw [if_neg h1, e2]
        refine ⟨c', W', rfl, hm2, p1, p2, p3, ?_⟩
        intro hlt z hz
        rcases List.mem_cons.mp hz with rfl | hz
        · exact p1 _ (g4.mp (by omega))
        · exact p4 hlt z hz

theorem countP_le_range {n : Nat} (W : Nat → Bool) : (List.range n).countP W ≤ n := by
  simpa using List.countP_le_length (p := W) (l := List.range n)

/-- The padding. -/
theorem mode4Padding_run {n : Nat} (hn : 0 < n) {order : List Int}
    (hp : order.Perm ((List.range n).map (fun (i : Nat) => (i : Int)))) (counts : List Int) (W : Nat → Bool) (e : Int)
    (hm : Marks n W counts) (r : Rng) :
    ∃ counts' W' r', mode4Padding n order (counts, ((List.range n).countP W : Int) + e) r =
        .ok ((counts', ((List.range n).countP W' : Int) + e), r') ∧
      Marks n W' counts' ∧ (∀ j, W j = true → W' j = true) ∧
      (((List.range n).countP W' : Int) + e = max (((List.range n).countP W : Int) + e) (min 1000 (n + e))) ∧
      (((List.range n).countP W : Int) + e ≥ 1000 → W' = W) := by
  have hin : ∀ y ∈ order, 0 ≤ y ∧ y < n := fun y hy => mem_ids.mp (hp.mem_iff.mp hy)
  have hle := countP_le_range (n := n) W
  unfold mode4Padding
  by_cases h1 : ((List.range n).countP W : Int) + e < 1500
  · rw [if_pos h1]
    have hr : randIntn r n = .ok (r 0 % n, r.tail) := by unfold randIntn; rw [if_neg (by omega)]
    have ho : orderFrom order (r 0 % n) n = .ok ((order.take n).drop (r 0 % n)) := by
      unfold orderFrom; rw [if_pos]; rw [hp.length_eq]; simp
    rw [hr, ok_bind]
    dsimp only
    rw [ho, ok_bind]
    obtain ⟨c1, W1, e1, hm1, p1, p2, p3, p4⟩ := mode4Pad_run ((order.take n).drop (r 0 % n)) counts W e
      (fun y hy => hin y (List.mem_of_mem_take (List.mem_of_mem_drop hy))) hm
    have hle1 := countP_le_range (n := n) W1
    rw [e1, ok_bind]
    dsimp only
    by_cases h2 : ((List.range n).countP W1 : Int) + e < 1000
    · rw [if_pos h2]
      obtain ⟨c2, W2, e2, hm2, q1, q2, q3, q4⟩ := mode4Pad_run order c1 W1 e hin hm1
      have hle2 := countP_le_range (n := n) W2
      rw [e2, ok_bind]
      have hsmall : ¬ ((List.range n).countP W : Int) + e ≥ 1000 := by
        intro hc
        rw [p2 hc] at h2; omega
      refine ⟨c2, W2, r.tail, rfl, hm2, fun j hj => q1 j (p1 j hj), ?_, fun hc => absurd hc hsmall⟩
      have hb := q3 (by omega)
      by_cases h3 : ((List.range n).countP W2 : Int) + e < 1000
      · have hall : (List.range n).countP W2 = n := by
          have : (List.range n).countP W2 = (List.range n).length := by
            rw [List.countP_eq_length]
            intro j hj
            have := q4 h3 (j : Int) (hp.mem_iff.mpr (mem_ids.mpr ⟨by omega, by have := List.mem_range.mp hj; omega⟩))
            simpa using this
          simpa using this
        rw [hall]; rw [hall] at h3; omega
      · omega
    · rw [if_neg h2]
      refine ⟨c1, W1, r.tail, rfl, hm1, p1, ?_, p2⟩
      by_cases h4 : ((List.range n).countP W : Int) + e ≥ 1000
      · rw [p2 h4]; omega
      · have := p3 (by omega); omega
  · rw [if_neg h1]
    exact ⟨counts, W, r, rfl, hm, fun _ h => h, by omega, fun _ => rfl⟩

/-- The collected ids. -/
theorem Marks.collect {n W counts} (h : Marks n W counts) (e : Nat) :
    mode4Collect counts (((List.range n).countP W : Int) + e) =
      .ok (((List.range n).filter W).map (fun (i : Nat) => (i : Int)) ++ List.replicate e 0) := by
  have hids : (counts.zipIdx.filter (fun (x : Int × Nat) => decide (x.1 ≥ 0))).map (fun x => (x.2 : Int)) =
      ((List.range n).filter W).map (fun (i : Nat) => (i : Int)) := by
    have hz : counts.zipIdx = (List.range n).pmap (fun i (hi : i < n) => (counts[i]'(by rw [h.len]; exact hi), i))
        (fun i hi => List.mem_range.mp hi) := by
      apply List.ext_getElem (by simp [h.len])
      intro j h1 h2
      simp
    have key : ∀ (l : List Nat) (hl : ∀ i ∈ l, i < n),
        ((l.pmap (fun i (hi : i < n) => (counts[i]'(by rw [h.len]; exact hi), i)) hl).filter
          (fun (x : Int × Nat) => decide (x.1 ≥ 0))).map (fun x => (x.2 : Int)) =
        (l.filter W).map (fun (i : Nat) => (i : Int)) := by
      intro l
      induction l with
      | nil => intro _; rfl
      | cons a l ih =>
        intro hl
        have ha : a < n := hl a (by simp)
        have hb : (decide (counts[a]'(by rw [h.len]; exact ha) ≥ 0)) = W a := by
          rw [Bool.eq_iff_iff]
          simpa using h.mark a _ (List.getElem?_eq_getElem (by rw [h.len]; exact ha))
        simp only [List.pmap_cons, List.filter_cons, hb]
        split <;> simp [ih]
    rw [hz]; exact key _ _
  have hlen : (((List.range n).filter W).map (fun (i : Nat) => (i : Int))).length = (List.range n).countP W := by
    rw [List.length_map, List.countP_eq_length_filter]
  unfold mode4Collect
  rw [if_neg (by omega)]
  dsimp only
  rw [hids, hlen, if_pos (by omega)]
  congr 3
  omega

/-- The ids that mode 4 has to include: labels (on a softmax layer) and retrieved ids. -/
def wanted (softmax : Bool) (label : List Int) (retrieved : List Int) (j : Nat) : Bool :=
  (softmax && decide ((j : Int) ∈ label)) || decide ((j : Int) ∈ retrieved)

theorem count_label {n : Nat} {label : List Int} (hy : ∀ y ∈ label, 0 ≤ y ∧ y < n) :
    (List.range n).countP (fun (j : Nat) => decide ((j : Int) ∈ label)) ≤ label.length ∧
    (label.Nodup → (List.range n).countP (fun (j : Nat) => decide ((j : Int) ∈ label)) = label.length) := by
  rw [List.countP_eq_length_filter]
  have hnd : ((List.range n).filter (fun (j : Nat) => decide ((j : Int) ∈ label))).Nodup := List.nodup_range.filter _
  constructor
  · have : ((List.range n).filter (fun (j : Nat) => decide ((j : Int) ∈ label))) ⊆ label.map Int.toNat := by
      intro j hj
      obtain ⟨_, h2⟩ := List.mem_filter.mp hj
      exact List.mem_map.mpr ⟨j, by simpa using h2, by simp⟩
    have := nodup_length_le hnd this
    simpa using this
  · intro hl
    have hnd2 : (label.map Int.toNat).Nodup := by
      rw [List.Nodup, List.pairwise_map]
      apply List.Pairwise.imp_of_mem _ hl
      intro a b ha hb hne
      have := hy a ha; have := hy b hb; omega
    have : ((List.range n).filter (fun (j : Nat) => decide ((j : Int) ∈ label))).Perm (label.map Int.toNat) := by
      rw [List.perm_ext_iff_of_nodup hnd hnd2]
      intro j
      simp only [List.mem_filter, List.mem_range, decide_eq_true_eq, List.mem_map]
      constructor
      · rintro ⟨_, h⟩; exact ⟨j, h, by simp⟩
      · rintro ⟨y, hy', rfl⟩
        have := hy y hy'
        exact ⟨by omega, by rw [Int.toNat_of_nonneg this.1]; exact hy'⟩
    simpa using this.length_eq

/-- Mode 4 completely. `e` is the number of repeated labels. -/
theorem mode4_run {softmax : Bool} {l : Int} (hl : 0 ≤ l) {n : Nat} (hn : 0 < n) {order label : List Int}
    {actives : List (List Int)} (hp : order.Perm ((List.range n).map (fun (i : Nat) => (i : Int))))
    (hy : softmax = true → ∀ y ∈ label, 0 ≤ y ∧ y < n) (hids : ∀ y ∈ actives.flatten, 0 ≤ y ∧ y < n) (r : Rng) :
    ∃ (W : Nat → Bool) (e : Nat) (r' : Rng),
      mode4 softmax l n order label actives r =
        .ok ((((List.range n).filter W).map (fun (i : Nat) => (i : Int)) ++ List.replicate e 0,
          ((List.range n).countP (wanted softmax label actives.flatten) : Int) + e), r') ∧
      (∀ j, wanted softmax label actives.flatten j = true → W j = true) ∧
      ((List.range n).countP W + e = max ((List.range n).countP (wanted softmax label actives.flatten) + e) (min 1000 (n + e))) ∧
      ((List.range n).countP (wanted softmax label actives.flatten) + e ≥ 1000 → W = wanted softmax label actives.flatten) ∧
      (e = if softmax = true then label.length - (List.range n).countP (fun (j : Nat) => decide ((j : Int) ∈ label)) else 0) := by
  have key : ∃ (counts : List Int) (e : Nat),
      mode4Start (softmax ∧ 0 < label.length) l n label = .ok counts ∧
      (if decide (softmax = true ∧ 0 < label.length) = true then (label.length : Int) else 0) =
        ((List.range n).countP (fun (j : Nat) => softmax && decide ((j : Int) ∈ label)) : Int) + e ∧
      Marks n (fun (j : Nat) => softmax && decide ((j : Int) ∈ label)) counts ∧
      (e = if softmax = true then label.length - (List.range n).countP (fun (j : Nat) => decide ((j : Int) ∈ label)) else 0) := by
    by_cases hs : softmax = true
    · obtain ⟨c', e1, hm1⟩ := mode4Labels_run hl label _ _ (hy hs) (Marks.init n)
      have hc := (count_label (hy hs)).1
      have hf : (fun j : Nat => softmax && decide ((j : Int) ∈ label)) = (fun j : Nat => decide ((j : Int) ∈ label)) := by
        funext j; rw [hs]; rfl
      rw [hf]
      by_cases h0 : 0 < label.length
      · refine ⟨c', _, by unfold mode4Start; rw [if_pos (by simp [hs, h0]), e1], ?_, hm1.congr (by simp), rfl⟩
        rw [if_pos (by simp [hs, h0]), if_pos hs]; omega
      · have hnil : label = [] := List.eq_nil_of_length_eq_zero (by omega)
        subst hnil
        refine ⟨List.replicate n (-1), _, by unfold mode4Start; rw [if_neg (by simp)], ?_, (Marks.init n).congr (by simp), rfl⟩
        rw [if_neg (by simp), if_pos hs]; simp
    · have hs' : softmax = false := by simpa using hs
      subst hs'
      exact ⟨List.replicate n (-1), 0, by simp [mode4Start], by simp, (Marks.init n).congr (by simp), by simp⟩
  obtain ⟨counts, e, k1, k2, k3, k4⟩ := key
  obtain ⟨c1, e1, hm1⟩ := mode4Count_run actives.flatten counts _ e hids k3
  obtain ⟨c2, W, r', e2, hm2, p1, p2, p3⟩ := mode4Padding_run hn hp c1 _ e hm1 r
  refine ⟨W, e, r', ?_, p1, ?_, fun h => p3 (by unfold wanted at h; omega), k4⟩
  · unfold mode4
    dsimp only
    rw [k1, ok_bind, k2, e1, ok_bind, e2, ok_bind]
    dsimp only
    rw [hm2.collect e, ok_bind]
    rfl
  · have : wanted softmax label actives.flatten = (fun j : Nat => (softmax && decide ((j : Int) ∈ label)) || decide ((j : Int) ∈ actives.flatten)) := rfl
    rw [this]; omega

end Goslide.Layer
