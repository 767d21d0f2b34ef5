import Verif.Proofs.Minhash
import Verif.Go.Exact
/-
Properties C22–C26 and the minhash part of C20 (densified_minhash).
-/
namespace Goslide.Props
open Spec
variable {F : Type} [GoFloat F]

/-- C22. `GetHash` ignores the data values and depends only on the set of the active indices
(order and repetitions are irrelevant), including whether it panics. -/
theorem C22_order_insensitive (dm : Minhash.DensifiedMinhash) (indices indices' binIds : List Int)
    (data data' : List F) (h : data.length = indices.length) (h' : data'.length = indices'.length)
    (hset : ∀ x, x ∈ indices ↔ x ∈ indices') :
    Minhash.getHash dm indices data binIds = Minhash.getHash dm indices' data' binIds := by
  rw [Minhash.getHash_eq dm indices binIds data h, Minhash.getHash_eq dm indices' binIds data' h']
  exact Minhash.hash_set dm indices indices' binIds hset

/-- C22. When every active index has a bin, `GetHash` succeeds and the code of each bin that contains
an active index is the largest of those. -/
theorem C22_code_is_bin_max (dm : Minhash.DensifiedMinhash) (hl : dm.logNumHash ≤ 31)
    (indices binIds : List Int) (data : List F) (h : data.length = indices.length)
    (hv : ∀ i ∈ indices, ValidIndex dm.numHashes binIds i) :
    ∃ codes, Minhash.getHash dm indices data binIds = .ok codes ∧ codes.length = dm.numHashes ∧
      ∀ (b : Nat), b < dm.numHashes → ¬ EmptyBin binIds indices b →
        ∃ v, codes[b]? = some v ∧ IsBinMax binIds indices b v := by
  rw [Minhash.getHash_eq dm indices binIds data h]
  obtain ⟨hs, e1, c1⟩ := Minhash.fold_cells dm.numHashes binIds indices [] _
    (Minhash.cells_empty dm binIds) hv
  simp only [List.nil_append] at c1
  obtain ⟨codes, d1, d2, d3⟩ := Minhash.densify_ok dm hs hl c1.1
  refine ⟨codes, by rw [e1, ok_bind, d1], d2, ?_⟩
  intro b hb hne
  obtain ⟨v, hv1, hv2⟩ := c1.2 b hb
  rcases hv2 with ⟨-, h2⟩ | h2
  · exact absurd h2 hne
  · obtain ⟨c, hc1, hc2⟩ := d3 b v hv1
    have hne' : v ≠ minInt64 := by
      have := h2.2.1.1
      unfold minInt64; omega
    rw [if_pos hne'] at hc2
    subst hc2
    exact ⟨_, hc1, h2⟩

/-- C22. Conversely `GetHash` panics, with an index error, as soon as one active index has no bin. -/
theorem C22_panics_on_bad_index (dm : Minhash.DensifiedMinhash)
    (indices binIds : List Int) (data : List F) (h : data.length = indices.length)
    (i : Int) (hi : i ∈ indices) (hv : ¬ ValidIndex dm.numHashes binIds i) :
    Minhash.getHash dm indices data binIds = .error .index := by
  rw [Minhash.getHash_eq dm indices binIds data h,
    Minhash.fold_invalid dm.numHashes binIds indices _ (by simp [Minhash.emptyHashes]) ⟨i, hi, hv⟩]
  rfl

-- four hashes; the active indices 5, 2, 7 are in bins 1, 0, 1
example : (Minhash.new 4 3 (fun _ => 0) (fun _ => 0)).1.logNumHash ≤ 31 ∧
    Minhash.getHash (Minhash.new 4 3 (fun _ => 0) (fun _ => 0)).1 [5, 2, 7] [(1 : Rat), 1, 1]
      [0, 0, 0, 0, 1, 1, 1, 1] = .ok [2, 7, 2, 2] := by decide +kernel

/-- C20 (minhash). The code of an empty bin `b` is the code of the first non-empty bin among the
bins probed at counts `1..101` — all below `numHashes`, computed by `GetRandDoubleHash` — or
`MinInt64` when they are all empty. -/
theorem C20_minhash_probe (dm : Minhash.DensifiedMinhash) (hl : dm.logNumHash ≤ 31)
    (indices binIds : List Int) (data : List F) (h : data.length = indices.length)
    (hv : ∀ i ∈ indices, ValidIndex dm.numHashes binIds i) :
    ∃ codes, Minhash.getHash dm indices data binIds = .ok codes ∧
      ∀ b, b < dm.numHashes → EmptyBin binIds indices b →
        ∃ target : Nat → Nat,
          (∀ count, target count < dm.numHashes) ∧
          (∀ count, ∃ v, Dwta.getRandDoubleHash dm.randHash0 dm.logNumHash b count = .ok v ∧
            minInt v ((dm.numHashes : Int) - 1) = (target count : Int)) ∧
          ((∃ c v, 1 ≤ c ∧ c ≤ 101 ∧ IsBinMax binIds indices (target c) v ∧
              (∀ c', 1 ≤ c' → c' < c → EmptyBin binIds indices (target c')) ∧
              codes[b]? = some v) ∨
           ((∀ c, 1 ≤ c → c ≤ 101 → EmptyBin binIds indices (target c)) ∧
              codes[b]? = some minInt64)) := by
  rw [Minhash.getHash_eq dm indices binIds data h]
  obtain ⟨hs, e1, c1⟩ := Minhash.fold_cells dm.numHashes binIds indices [] _
    (Minhash.cells_empty dm binIds) hv
  simp only [List.nil_append] at c1
  obtain ⟨codes, d1, d2, d3⟩ := Minhash.densify_ok dm hs hl c1.1
  refine ⟨codes, by rw [e1, ok_bind, d1], ?_⟩
  intro b hb hempty
  have hn : 0 < dm.numHashes := by omega
  have hmax : ∀ v, ∀ bb, IsBinMax binIds indices bb v → v ≠ minInt64 := by
    intro v bb hm
    have := hm.2.1.1
    unfold minInt64; omega
  have hemp : ∀ (bb : Nat), bb < dm.numHashes → (∀ v, hs[bb]? = some v → v = minInt64) →
      EmptyBin binIds indices bb := by
    intro bb hbb hv
    obtain ⟨v, hv1, hv2⟩ := c1.2 bb hbb
    rcases hv2 with ⟨-, h2⟩ | h2
    · exact h2
    · exact absurd (hv v hv1) (hmax v bb h2)
  refine ⟨Dwta.probed dm.randHash0 dm.logNumHash dm.numHashes b,
    fun c => Dwta.probed_lt _ _ _ _ _ hn,
    fun c => Dwta.getRandDoubleHash_ok _ _ _ _ _ hl hn, ?_⟩
  obtain ⟨v, hv1, hv2⟩ := c1.2 b hb
  obtain ⟨c, hc1, hc2⟩ := d3 b v hv1
  have hvm : v = minInt64 := by
    rcases hv2 with ⟨h1, -⟩ | h2
    · exact h1
    · exact absurd h2.2.1 (hempty v h2.1)
  rw [if_neg (by simpa using hvm)] at hc2
  rcases Minhash.probe_spec dm hs b hl hn c1.1 100 (Nat.le_refl _) with
    ⟨cnt, w, a1, a2, a3, a4, a5, a6⟩ | ⟨a1, a2⟩
  · left
    rw [a6] at hc2
    simp only [Except.ok.injEq] at hc2
    subst hc2
    refine ⟨cnt, w, a1, a2, ?_, ?_, hc1⟩
    · obtain ⟨w', hw1, hw2⟩ := c1.2 _ (Dwta.probed_lt dm.randHash0 dm.logNumHash dm.numHashes b cnt hn)
      rw [a3] at hw1
      simp only [Option.some.injEq] at hw1
      subst hw1
      rcases hw2 with ⟨h1, -⟩ | h2
      · exact absurd h1 a4
      · exact h2
    · intro c' h1 h2
      exact hemp _ (Dwta.probed_lt _ _ _ _ _ hn) (fun v hv => a5 c' v h1 h2 hv)
  · right
    rw [a2] at hc2
    simp only [Except.ok.injEq] at hc2
    subst hc2
    refine ⟨?_, hc1⟩
    intro c' h1 h2
    exact hemp _ (Dwta.probed_lt _ _ _ _ _ hn) (fun v hv => a1 c' v h1 h2 hv)

/-- C24 (what the code does). `GetHashEasyDense` hashes exactly the positions of `topK` *smallest*
values: the comparison of the queue orders it by decreasing value, so `Pop` discards the largest.
`S` are the hashed positions; no value left out is smaller than a selected one. The full property
(the largest values are selected) is false, see `C24_not_the_largest`. -/
theorem C24_smallest_partial [FloatOrder F] (dm : Minhash.DensifiedMinhash) (binIds : List Int)
    (data spare : List F) (topK : Nat) (hk : topK ≤ data.length)
    (hnan : ∀ x ∈ data, FloatOrder.isNaN x = false) :
    ∃ S : List Nat, S.length = topK ∧ S.Nodup ∧ (∀ p ∈ S, p < data.length) ∧
      (∀ p ∈ S, ∀ q, q < data.length → q ∉ S → ∀ x y, data[p]? = some x → data[q]? = some y →
        GoFloat.lt y x = false) ∧
      ∀ vals : List F, vals.length = topK →
        Minhash.getHashEasyDense dm binIds data spare topK =
          Minhash.getHash dm (S.map (fun (p : Nat) => (p : Int))) vals binIds := by
  obtain ⟨pq, dropped, h1, h2, h3, h4⟩ := Minhash.selectTop_min data spare topK hk hnan
  have hidx : ((pq ++ dropped).map (fun x => x.index)).Perm (List.range data.length) := by
    refine (h3.map _).trans ?_
    apply List.Perm.of_eq
    rw [List.map_map]
    show data.zipIdx.map Prod.snd = _
    rw [List.zipIdx_map_snd, ← List.range_eq_range']
  have hnd : ((pq ++ dropped).map (fun x => x.index)).Nodup := hidx.nodup_iff.mpr List.nodup_range
  have hval : ∀ x ∈ pq ++ dropped, data[x.index]? = some x.value := by
    intro x hx
    have := h3.mem_iff.mp hx
    rw [List.mem_map] at this
    obtain ⟨⟨v, i⟩, hvi, rfl⟩ := this
    exact (zipIdx_mem _ _ _).mp hvi
  refine ⟨pq.map (fun x => x.index), by simp [h2], ?_, ?_, ?_, ?_⟩
  · rw [List.map_append] at hnd
    exact (List.nodup_append.mp hnd).1
  · intro p hp
    have : p ∈ (pq ++ dropped).map (fun x => x.index) := by rw [List.map_append]; exact List.mem_append_left _ hp
    exact List.mem_range.mp (hidx.mem_iff.mp this)
  · intro p hp q hq hqn x y hx hy
    rw [List.mem_map] at hp
    obtain ⟨kp, hkp, rfl⟩ := hp
    have hq' : q ∈ (pq ++ dropped).map (fun x => x.index) := hidx.mem_iff.mpr (List.mem_range.mpr hq)
    rw [List.mem_map] at hq'
    obtain ⟨kq, hkq, rfl⟩ := hq'
    have hkd : kq ∈ dropped := by
      rcases List.mem_append.mp hkq with h | h
      · exact absurd (List.mem_map_of_mem (f := fun x => x.index) h) hqn
      · exact h
    have e1 := hval kp (List.mem_append_left _ hkp)
    have e2 := hval kq (List.mem_append_right _ hkd)
    rw [e1] at hx
    rw [e2] at hy
    simp only [Option.some.injEq] at hx hy
    rw [← hx, ← hy]
    exact h4 kp hkp kq hkd
  · intro vals hvals
    rw [Minhash.getHashEasyDense_of_select dm binIds data spare topK pq h1,
      Minhash.getHash_eq dm _ binIds vals (by simp [hvals, h2])]
    simp [List.map_map, Function.comp_def]

example : ∀ x ∈ [(5 : Rat), 1, 7, 3], FloatOrder.isNaN x = false := by decide
example : Minhash.getHashEasyDense (Minhash.new 2 3 (fun _ => 0) (fun _ => 987654321987654321)).1 [0, 1, 0, 1]
    [(5 : Rat), 1, 7, 3] [] 2 = .ok [3, 3] ∧
  Minhash.getHash (Minhash.new 2 3 (fun _ => 0) (fun _ => 987654321987654321)).1 [1, 3] [(0 : Rat), 0] [0, 1, 0, 1]
    = .ok [3, 3] := by decide +kernel

/-- C24 is false of the code: there is data for which the result is not the hash of the positions of
`topK` largest values. -/
theorem C24_not_the_largest :
    ¬ ∀ (dm : Minhash.DensifiedMinhash) (binIds : List Int) (data : List Rat) (topK : Nat),
      topK ≤ data.length →
      ∃ S : List Nat, S.length = topK ∧ S.Nodup ∧ (∀ p ∈ S, p < data.length) ∧
        (∀ p ∈ S, ∀ q, q < data.length → q ∉ S → ∀ x y, data[p]? = some x → data[q]? = some y → y ≤ x) ∧
        ∀ vals : List Rat, vals.length = topK →
          Minhash.getHashEasyDense dm binIds data [] topK =
            Minhash.getHash dm (S.map (fun (p : Nat) => (p : Int))) vals binIds := by
  intro h
  obtain ⟨S, h1, h2, h3, h4, h5⟩ := h (Minhash.new 1 1 (fun _ => 0) (fun _ => 0)).1 [0, 0] [0, 1] 1 (by decide)
  match S, h1 with
  | [p], _ =>
    have hp : p < 2 := h3 p (by simp)
    have hp1 : p = 1 := by
      rcases Nat.lt_or_ge p 1 with h' | h'
      · exfalso
        have hp0 : p = 0 := by omega
        subst hp0
        have := h4 0 (by simp) 1 (by decide) (by simp) 0 1 (by rfl) (by rfl)
        exact absurd this (by decide)
      · omega
    subst hp1
    have := h5 [0] rfl
    revert this
    decide +kernel

/-- C25. With enough values and every position mapped to a bin, `GetHashEasyDense` succeeds with
`numHashes` codes — for any values, NaN included. -/
theorem C25_succeeds (dm : Minhash.DensifiedMinhash) (hl : dm.logNumHash ≤ 31) (binIds : List Int)
    (data spare : List F) (topK : Nat) (hk : topK ≤ data.length)
    (hv : ∀ i : Nat, i < data.length → ValidIndex dm.numHashes binIds (i : Int)) :
    ∃ codes, Minhash.getHashEasyDense dm binIds data spare topK = .ok codes ∧
      codes.length = dm.numHashes := by
  obtain ⟨pq, dropped, h1, h2, h3⟩ := Minhash.selectTop_perm data spare topK hk
  have hval : ∀ x ∈ pq, x.index < data.length := by
    intro x hx
    have := h3.mem_iff.mp (List.mem_append_left _ hx)
    rw [List.mem_map] at this
    obtain ⟨⟨v, i⟩, hvi, rfl⟩ := this
    exact (List.getElem?_eq_some_iff.mp ((zipIdx_mem _ _ _).mp hvi)).1
  rw [Minhash.getHashEasyDense_of_select dm binIds data spare topK pq h1]
  obtain ⟨hs, e1, c1⟩ := Minhash.fold_cells dm.numHashes binIds (pq.map (fun x => (x.index : Int))) [] _
    (Minhash.cells_empty dm binIds) (by
      intro i hi
      rw [List.mem_map] at hi
      obtain ⟨x, hx, rfl⟩ := hi
      exact hv _ (hval x hx))
  obtain ⟨codes, d1, d2, -⟩ := Minhash.densify_ok dm hs hl c1.1
  exact ⟨codes, by rw [e1, ok_bind, d1], d2⟩

/-- C25. With fewer than `topK` values it always panics when there are no more bin ids than values
(as in the layers): either the slice expression `data[0:topK]` exceeds the capacity, or the spare
cells behind the slice are hashed and have no bin. -/
theorem C25_too_few_panics (dm : Minhash.DensifiedMinhash) (binIds : List Int)
    (data spare : List F) (topK : Nat) (hk : data.length < topK) (hb : binIds.length ≤ data.length) :
    Minhash.getHashEasyDense dm binIds data spare topK =
      .error (if topK ≤ data.length + spare.length then .index else .slice) := by
  by_cases hc : topK ≤ data.length + spare.length
  · have hsel : ∃ pq, Minhash.selectTop data spare topK = .ok pq ∧
        ∃ x ∈ pq, x.index = data.length := by
      unfold Minhash.selectTop Minhash.initQueue Minhash.firstK
      rw [if_pos hc, ok_bind]
      simp only [pure_bind]
      have e : (data.zipIdx).drop topK = [] := List.drop_eq_nil_of_le (by simp; omega)
      rw [e]
      refine ⟨_, rfl, ?_⟩
      have hlt : data.length < ((data ++ spare).take topK).length := by simp; omega
      refine ⟨{ index := data.length, value := ((data ++ spare).take topK)[data.length] }, ?_, rfl⟩
      rw [(GoHeap.init_perm _).mem_iff, List.mem_map]
      exact ⟨(((data ++ spare).take topK)[data.length], data.length),
        (zipIdx_mem _ _ _).mpr (List.getElem?_eq_getElem hlt), rfl⟩
    obtain ⟨pq, h1, x, hx, hxi⟩ := hsel
    rw [Minhash.getHashEasyDense_of_select dm binIds data spare topK pq h1,
      Minhash.fold_invalid dm.numHashes binIds _ _ (by simp [Minhash.emptyHashes])
        ⟨(x.index : Int), List.mem_map_of_mem (f := fun (x : Minhash.IndexValue F) => (x.index : Int)) hx, by
          rintro ⟨b, -, -, h⟩
          rw [hxi, Int.toNat_natCast, List.getElem?_eq_none hb] at h
          simp at h⟩, if_pos hc]
    rfl
  · unfold Minhash.getHashEasyDense Minhash.selectTop Minhash.initQueue Minhash.firstK
    rw [if_neg hc, if_neg hc]
    rfl

/-- C25. A selected position without a valid bin makes it panic: with `topK = len(data)` all
positions are selected. -/
theorem C25_bad_bin_panics (dm : Minhash.DensifiedMinhash) (binIds : List Int) (data spare : List F)
    (i : Nat) (hi : i < data.length) (hv : ¬ ValidIndex dm.numHashes binIds (i : Int)) :
    Minhash.getHashEasyDense dm binIds data spare data.length = .error .index := by
  obtain ⟨pq, dropped, h1, h2, h3⟩ := Minhash.selectTop_perm data spare data.length (Nat.le_refl _)
  have hd : dropped = [] := by
    have := h3.length_eq
    simp [h2] at this
    exact this
  have hmem : ({ index := i, value := data[i] } : Minhash.IndexValue F) ∈ pq := by
    have : ({ index := i, value := data[i] } : Minhash.IndexValue F) ∈ pq ++ dropped := by
      rw [h3.mem_iff, List.mem_map]
      exact ⟨(data[i], i), (zipIdx_mem _ _ _).mpr (List.getElem?_eq_getElem hi), rfl⟩
    rw [hd] at this
    simpa using this
  rw [Minhash.getHashEasyDense_of_select dm binIds data spare _ pq h1,
    Minhash.fold_invalid dm.numHashes binIds _ _ (by simp [Minhash.emptyHashes])
      ⟨(i : Int), by rw [List.mem_map]; exact ⟨_, hmem, rfl⟩, hv⟩]
  rfl

example : ∀ i : Nat, i < 3 → ValidIndex 2 [0, 1, 1] (i : Int) := by
  intro i hi
  match i, hi with
  | 0, _ => exact ⟨0, by decide, by decide, rfl⟩
  | 1, _ => exact ⟨1, by decide, by decide, rfl⟩
  | 2, _ => exact ⟨1, by decide, by decide, rfl⟩
-- fewer values than topK = 3: the spare cell behind the slice would be hashed
example : Minhash.getHashEasyDense (Minhash.new 2 3 (fun _ => 0) (fun _ => 0)).1 [0, 1]
    [(5 : Rat), 1] [9] 3 = .error .index := by decide +kernel

/-- C26 is false of the code: `GetHashEasy` hashes positions in the pair list; reordering the pairs
of a vector with distinct values changes the result. -/
theorem C26_order_matters :
    ¬ ∀ (dm : Minhash.DensifiedMinhash) (binIds : List Int) (pairs pairs' : List (Pair Rat)) (topK : Nat),
      pairs.Perm pairs' → (pairs.map (·.Value)).Nodup → (pairs.map (·.Index)).Nodup →
      Minhash.getHashEasy dm binIds pairs [] topK = Minhash.getHashEasy dm binIds pairs' [] topK := by
  intro h
  have hw := h (Minhash.new 1 1 (fun _ => 0) (fun _ => 0)).1 [0, 0] [⟨0, 1⟩, ⟨1, 2⟩] [⟨1, 2⟩, ⟨0, 1⟩] 1
    (List.Perm.swap _ _ _) (by decide +kernel) (by decide)
  revert hw
  decide +kernel

/-- C26 (what does hold). The indices of the pairs are never looked at: `GetHashEasy` is
`GetHashEasyDense` of the list of values. In particular it is correct for pairs that list every
coordinate in order. Missing: pair lists with absent or reordered coordinates, for which the
property is false. -/
theorem C26_positions_partial (dm : Minhash.DensifiedMinhash) (binIds : List Int)
    (pairs pairs' : List (Pair F)) (topK : Nat) (h : pairs.map (·.Value) = pairs'.map (·.Value)) :
    Minhash.getHashEasy dm binIds pairs [] topK = Minhash.getHashEasy dm binIds pairs' [] topK ∧
    Minhash.getHashEasy dm binIds pairs [] topK =
      Minhash.getHashEasyDense dm binIds (pairs.map (·.Value)) [] topK := by
  unfold Minhash.getHashEasy
  rw [h]
  exact ⟨rfl, rfl⟩

theorem rangeOf_small (r : Nat) (h : r ≤ 62) : Minhash.rangeOf r = 2 ^ r := by
  unfold Minhash.rangeOf
  have hp : 2 ^ r ≤ 2 ^ 62 := Nat.pow_le_pow_right (by decide) h
  have hn : (1#64 <<< r).toNat = 2 ^ r := by
    rw [BitVec.toNat_shiftLeft]
    simp only [BitVec.toNat_ofNat, Nat.shiftLeft_eq]
    rw [Nat.mod_eq_of_lt (by decide : 1 < 2 ^ 64), Nat.one_mul, Nat.mod_eq_of_lt]
    exact Nat.lt_of_le_of_lt hp (by decide)
  rw [BitVec.toInt_eq_toNat_of_lt (by rw [hn]; omega), hn]
  simp

/-- C23 (partial). For `rangePow ≤ 53` and at most `2^53` hashes every bin id lies in
`[0, numHashes)`, whatever the hash function returns; float64 rounding of the two divisions is
covered by the law `FloatIntDiv`. Missing: `rangePow > 53`, where the property is false
(`C23_false_from_54`, `C23_false_for_63`), and layers pass the number of input features as `rangePow`. -/
theorem C23_map_range_partial [FloatIntDiv F] (dm : Minhash.DensifiedMinhash) (n : Nat)
    (hr : dm.rangePow ≤ 53) (h0 : 0 < dm.numHashes) (hn : dm.numHashes ≤ 2 ^ 53) :
    (Minhash.getMap F dm n).length = n ∧
    ∀ b ∈ Minhash.getMap F dm n, 0 ≤ b ∧ b < dm.numHashes := by
  unfold Minhash.getMap
  refine ⟨by simp, ?_⟩
  intro b hb
  dsimp only at hb
  rw [List.mem_map] at hb
  obtain ⟨i, -, rfl⟩ := hb
  have hpow : (2 : Int) ^ dm.rangePow ≤ 2 ^ 53 := by
    have : 2 ^ dm.rangePow ≤ 2 ^ 53 := Nat.pow_le_pow_right (by decide) hr
    exact_mod_cast this
  have hpos : (0 : Int) < 2 ^ dm.rangePow := by
    have : 0 < 2 ^ dm.rangePow := Nat.pow_pos (by decide)
    exact_mod_cast this
  have hn' : (dm.numHashes : Int) ≤ 2 ^ 53 := by exact_mod_cast hn
  rw [rangeOf_small _ (by omega), FloatIntDiv.ceil_div (F := F) _ _ (by omega) hpow (by omega) hn']
  generalize hB : -(-(2 : Int) ^ dm.rangePow / (dm.numHashes : Int)) = B
  -- B is the ceiling of the quotient
  have hN : (0 : Int) < dm.numHashes := by omega
  have hB1 : (2 : Int) ^ dm.rangePow ≤ B * dm.numHashes := by
    have := Int.ediv_mul_le (-(2 : Int) ^ dm.rangePow) (by omega : (dm.numHashes : Int) ≠ 0)
    rw [← hB, Int.neg_mul]
    omega
  have hB2 : B ≤ 2 ^ 53 := by
    have h1 : -(2 : Int) ^ dm.rangePow ≤ -(2 : Int) ^ dm.rangePow / (dm.numHashes : Int) := by
      apply Int.le_ediv_of_mul_le hN
      have : (2 : Int) ^ dm.rangePow * 1 ≤ 2 ^ dm.rangePow * dm.numHashes :=
        Int.mul_le_mul_of_nonneg_left (by omega) (by omega)
      rw [Int.neg_mul]; omega
    omega
  have hB0 : 0 < B := by
    rcases Int.lt_or_le 0 B with h | h
    · exact h
    · exfalso
      have : B * dm.numHashes ≤ 0 * dm.numHashes := Int.mul_le_mul_of_nonneg_right h (by omega)
      omega
  -- the masked hash
  generalize hc : dm.hash i &&& (1#64 <<< dm.rangePow - 1#64) = c
  have hcl : (c.toNat : Int) < 2 ^ dm.rangePow := by
    have hp2 : 2 ^ dm.rangePow < 2 ^ 64 :=
      Nat.lt_of_le_of_lt (Nat.pow_le_pow_right (by decide) hr) (by decide)
    have hs : (1#64 <<< dm.rangePow).toNat = 2 ^ dm.rangePow := by
      rw [BitVec.toNat_shiftLeft]
      simp only [BitVec.toNat_ofNat, Nat.shiftLeft_eq]
      rw [Nat.mod_eq_of_lt (by decide : 1 < 2 ^ 64), Nat.one_mul, Nat.mod_eq_of_lt hp2]
    have hm : (1#64 <<< dm.rangePow - 1#64).toNat = 2 ^ dm.rangePow - 1 := by
      have hpos' : 0 < 2 ^ dm.rangePow := Nat.pow_pos (by decide)
      rw [BitVec.toNat_sub_of_le, hs]
      · rfl
      · rw [BitVec.le_def, hs]; exact hpos'
    have hle : c.toNat ≤ 2 ^ dm.rangePow - 1 := by
      rw [← hc, BitVec.toNat_and, hm]; exact Nat.and_le_right
    have hpos' : 0 < 2 ^ dm.rangePow := Nat.pow_pos (by decide)
    have : c.toNat < 2 ^ dm.rangePow := by omega
    exact_mod_cast this
  rw [FloatIntDiv.floor_div (F := F) _ _ (by omega) (by omega) hB0 hB2]
  constructor
  · exact Int.ediv_nonneg (by omega) (by omega)
  · apply Int.ediv_lt_of_lt_mul hB0
    rw [Int.mul_comm]
    omega

-- non-trivial instance: 9 bits into 5 bins, with exact arithmetic
example : Minhash.getMap Rat (Minhash.new 5 9 (fun i => BitVec.ofNat 64 (i * 12345678901)) (fun _ => 0)).1 6
    = [0, 0, 1, 1, 2, 2] := by decide +kernel

/-- C23 is false of the code: for `rangePow = 63` the range `1<<63` overflows to a negative `int` and
so does the bin size; bin ids become negative (already in exact arithmetic). -/
theorem C23_false_for_63 :
    ¬ ∀ (dm : Minhash.DensifiedMinhash) (n : Nat), 0 < dm.numHashes →
      ∀ b ∈ Minhash.getMap Rat dm n, 0 ≤ b ∧ b < dm.numHashes := by
  intro h
  have := h (Minhash.new 1 63 (fun _ => 1) (fun _ => 0)).1 1 (by decide) (-1) (by decide +kernel)
  exact absurd this.1 (by decide)

/-- C23. For `rangePow ≥ 64` the range is 0, hence the bin size is computed from `0/numHashes` and
every hash is divided by that: with the law `0/numHashes = 0` it is a division by zero, whose result
(±Inf or NaN) has no specified conversion to `int`. -/
theorem C23_divides_by_zero_from_64 (dm : Minhash.DensifiedMinhash) (n : Nat) (hr : 64 ≤ dm.rangePow)
    (hz : GoFloat.ceilInt (GoFloat.div (GoFloat.ofInt 0 : F) (GoFloat.ofInt (dm.numHashes : Int))) = 0) :
    Minhash.getMap F dm n = (List.range n).map (fun i =>
      GoFloat.floorInt (GoFloat.div (GoFloat.ofInt ((dm.hash i).toNat : Int) : F) (GoFloat.ofInt 0))) := by
  have hs : (1#64 <<< dm.rangePow) = 0#64 := by
    apply BitVec.eq_of_toNat_eq
    rw [BitVec.toNat_shiftLeft, Nat.shiftLeft_eq]
    obtain ⟨k, hk⟩ := Nat.le.dest hr
    rw [← hk, Nat.pow_add]
    simp [Nat.mul_mod_right]
  unfold Minhash.getMap Minhash.rangeOf
  rw [hs]
  simp only [BitVec.toInt_zero, hz, BitVec.zero_sub]
  apply List.map_congr_left
  intro i _
  have : dm.hash i &&& -1#64 = dm.hash i := by
    have e : -1#64 = BitVec.allOnes 64 := by decide
    rw [e, BitVec.and_allOnes]
  rw [this]

end Goslide.Props
