import Verif.Proofs.Bucket
/-
Properties C01–C05 (bucket/fifo/fifo.go and bucket/bucket.go).
`Fifo.run ops` / `Bucket.run ops` is the bucket after the client calls `ops` on a fresh bucket;
`Spec.sinceReset ops` is the list of ids added since the last Reset, oldest first.
-/
namespace Goslide.Props
open Spec

/-- C01. After any history, `GetAll` is the ring layout of the ids added since the last Reset:
it has `min(n,128)` cells and the id added at position `p` (among the newest 128) is in cell
`p mod 128`. -/
theorem C01_getAll_is_ring (ops : List BucketOp) :
    IsRing (sinceReset ops) (Fifo.getAll (Fifo.run ops)) :=
  (Fifo.rep_run ops).isRing

/-- C01. As a multiset `GetAll` is exactly the newest `min(n,128)` ids. -/
theorem C01_getAll_perm_newest (ops : List BucketOp) :
    (Fifo.getAll (Fifo.run ops)).Perm (newest128 (sinceReset ops)) :=
  Fifo.IsRing.perm (C01_getAll_is_ring ops)

/-- C01. `Add` returns the position of the new id modulo 128. -/
theorem C01_add_slot (ops : List BucketOp) (id : Int) :
    (Fifo.add (Fifo.run ops) id).1 = (((sinceReset ops).length % 128 : Nat) : Int) :=
  ((Fifo.rep_run ops).add id).2

/-- C01. With at most 128 ids added, `GetAll` is exactly these ids in the order of addition. -/
theorem C01_getAll_small (ops : List BucketOp) (h : (sinceReset ops).length ≤ 128) :
    Fifo.getAll (Fifo.run ops) = sinceReset ops := by
  obtain ⟨hl, hc⟩ := C01_getAll_is_ring ops
  apply List.ext_getElem?
  intro i
  by_cases hi : i < (sinceReset ops).length
  · have := hc i hi (by omega)
    rwa [Nat.mod_eq_of_lt (by omega)] at this
  · rw [List.getElem?_eq_none (by omega), List.getElem?_eq_none (by omega)]

-- a history that wraps around: 130 adds
example : Fifo.getAll (Fifo.run ((List.range 130).map (fun i : Nat => BucketOp.add i))) =
    [128, 129] ++ (List.range 126).map (fun i => ((i + 2 : Nat) : Int)) := by decide +kernel

/-- C02. `Retrieve` after any history: -1 from 128 on, 0 for a slot not written since the last
Reset, otherwise the newest id whose position is congruent to the slot. -/
theorem C02_retrieve_nonneg (ops : List BucketOp) (i : Nat) :
    ((128 ≤ i) → Fifo.retrieve (Fifo.run ops) i = .ok (-1)) ∧
    (i < 128 → (sinceReset ops).length ≤ i → Fifo.retrieve (Fifo.run ops) i = .ok 0) ∧
    (∀ p v, i < 128 → p % 128 = i → (sinceReset ops)[p]? = some v →
      (sinceReset ops).length ≤ p + 128 → Fifo.retrieve (Fifo.run ops) i = .ok v) := by
  have hr := Fifo.rep_run ops
  refine ⟨?_, ?_, ?_⟩
  · intro h
    unfold Fifo.retrieve Fifo.bucketSize
    rw [if_pos (by omega)]
  · intro h1 h2
    unfold Fifo.retrieve Fifo.bucketSize
    rw [if_neg (by omega), if_pos (by rw [hr.len_eq]; omega)]
  · intro p v h1 h2 h3 h4
    have hp : p < (sinceReset ops).length := by
      rcases Nat.lt_or_ge p (sinceReset ops).length with h | h
      · exact h
      · rw [List.getElem?_eq_none h] at h3; simp at h3
    obtain ⟨hl, hc⟩ := hr.isRing
    have hv := hc p hp h4
    rw [h2, h3] at hv
    have hi : i < (Fifo.content (Fifo.run ops)).length := by
      rcases Nat.lt_or_ge i (Fifo.content (Fifo.run ops)).length with h | h
      · exact h
      · rw [List.getElem?_eq_none h] at hv; simp at hv
    have hlen : (Fifo.content (Fifo.run ops)).length = (Fifo.run ops).len := by
      simp [Fifo.content, hr.back_len, hr.len_eq]
    unfold Fifo.retrieve Fifo.bucketSize goGet
    rw [if_neg (by omega), if_neg (by omega), if_neg (by omega)]
    simp [hv]

/-- C02. `Retrieve` panics exactly for negative indices. -/
theorem C02_retrieve_panics_iff (ops : List BucketOp) (i : Int) :
    (∃ e, Fifo.retrieve (Fifo.run ops) i = .error e) ↔ i < 0 := by
  have hr := Fifo.rep_run ops
  have hlen : (Fifo.content (Fifo.run ops)).length = (Fifo.run ops).len := by
    simp [Fifo.content, hr.back_len, hr.len_eq]
  unfold Fifo.retrieve Fifo.bucketSize goGet
  constructor
  · rintro ⟨e, he⟩
    apply Classical.byContradiction
    intro hn
    split at he
    · simp at he
    · split at he
      · simp at he
      · rw [List.getElem?_eq_getElem (by omega)] at he
        simp at he
  · intro h
    rw [if_neg (by omega), if_neg (by omega), if_pos h]
    exact ⟨_, rfl⟩

/-- C02. Whatever `Retrieve` returns is 0, -1 or one of the newest 128 ids added since the last
Reset: nothing older leaks out, although the backing array still holds it. -/
theorem C02_retrieve_no_stale (ops : List BucketOp) (i v : Int)
    (h : Fifo.retrieve (Fifo.run ops) i = .ok v) :
    (v = -1 ∧ 128 ≤ i) ∨ (v = 0 ∧ ((sinceReset ops).length : Int) ≤ i) ∨
      v ∈ newest128 (sinceReset ops) := by
  have hr := Fifo.rep_run ops
  have hl := hr.len_eq
  unfold Fifo.retrieve Fifo.bucketSize at h
  split at h
  · simp at h; exact Or.inl ⟨h.symm, by omega⟩
  · split at h
    · simp at h; refine Or.inr (Or.inl ⟨h.symm, ?_⟩); omega
    · right; right
      unfold goGet at h
      split at h
      · simp at h
      · split at h
        · rename_i a ha
          simp at h; subst h
          exact (Fifo.IsRing.mem_iff hr.isRing a).mp (List.mem_of_getElem? ha)
        · simp at h

-- after a Reset old ids are invisible although physically present
example : Fifo.retrieve (Fifo.run [.add 7, .add 8, .reset, .add 9]) 1 = .ok 0 ∧
    (Fifo.run [.add 7, .add 8, .reset, .add 9]).back[1]? = some 8 := by decide +kernel

/-- C03. A slice obtained from `GetAll` keeps its content through any further `Add`s that do not
overflow the bucket. -/
theorem C03_view_stable_until_full (ops : List BucketOp) (ids : List Int)
    (h : (sinceReset ops).length + ids.length ≤ 128) :
    Fifo.readView (Fifo.run (ops ++ ids.map BucketOp.add)) (Fifo.getAll (Fifo.run ops)).length
      = Fifo.getAll (Fifo.run ops) := by
  have hs : sinceReset (ops ++ ids.map BucketOp.add) = sinceReset ops ++ ids := by
    unfold sinceReset
    rw [List.foldl_append]
    generalize List.foldl _ [] ops = h0
    clear h
    induction ids generalizing h0 with
    | nil => simp
    | cons a t ih => simp only [List.map_cons, List.foldl_cons]; rw [ih]; simp
  have e1 := C01_getAll_small ops (by omega)
  have e2 := C01_getAll_small (ops ++ ids.map BucketOp.add) (by rw [hs]; simp; omega)
  have hr := Fifo.rep_run (ops ++ ids.map BucketOp.add)
  rw [e1]
  unfold Fifo.getAll Fifo.content at e2
  rw [hs] at e2
  have hlen := hr.len_eq
  rw [hs] at hlen
  unfold Fifo.readView
  have : ((Fifo.run (ops ++ ids.map BucketOp.add)).back.take
      (Fifo.run (ops ++ ids.map BucketOp.add)).len).take (sinceReset ops).length
      = sinceReset ops := by rw [e2]; simp
  rw [List.take_take] at this
  rw [List.length_append] at hlen
  have : min (sinceReset ops).length (Fifo.run (ops ++ ids.map BucketOp.add)).len
      = (sinceReset ops).length := by omega
  simp_all

/-- C03. An `Add` to a full bucket rewrites cell `n mod 128` of every slice returned earlier while
the bucket was full. -/
theorem C03_view_rewritten_when_full (ops : List BucketOp) (id : Int)
    (h : 128 ≤ (sinceReset ops).length) :
    Fifo.readView (Fifo.run (ops ++ [.add id])) (Fifo.getAll (Fifo.run ops)).length
      = (Fifo.getAll (Fifo.run ops)).set ((sinceReset ops).length % 128) id := by
  have hr := Fifo.rep_run ops
  have hl : (Fifo.run ops).len = 128 := by rw [hr.len_eq]; omega
  have hrun : Fifo.run (ops ++ [.add id]) = (Fifo.add (Fifo.run ops) id).2 := by
    simp [Fifo.run, List.foldl_append, Fifo.step]
  rw [hrun]
  unfold Fifo.readView Fifo.add Fifo.getAll Fifo.content Fifo.bucketSize
  rw [if_pos hl]
  simp only [hr.count_eq, Fifo.count_and_mask, hl]
  have hb := hr.back_len
  have e : (List.take 128 (Fifo.run ops).back) = (Fifo.run ops).back :=
    List.take_of_length_le (by omega)
  rw [e, List.take_of_length_le (by simp)]

/-- C03. After `Reset`, the next `Add` rewrites the first cell of every non-empty slice returned
before the Reset. -/
theorem C03_view_rewritten_after_reset (ops : List BucketOp) (id : Int) :
    Fifo.readView (Fifo.run (ops ++ [.reset, .add id])) (Fifo.getAll (Fifo.run ops)).length
      = (Fifo.getAll (Fifo.run ops)).set 0 id := by
  have hr := Fifo.rep_run ops
  have hrun : Fifo.run (ops ++ [.reset, .add id]) = (Fifo.add (Fifo.reset (Fifo.run ops)) id).2 := by
    simp [Fifo.run, List.foldl_append, Fifo.step]
  have hb := hr.back_len
  have hl := hr.len_eq
  have hlen : (Fifo.content (Fifo.run ops)).length = (Fifo.run ops).len := by
    simp [Fifo.content, hb, hl]
  rw [hrun]
  unfold Fifo.readView Fifo.add Fifo.getAll Fifo.bucketSize Fifo.reset
  simp only [hlen]
  rw [if_neg (by simp)]
  simp only [Fifo.content, List.take_set]

-- the aliasing really changes an earlier slice
example : Fifo.getAll (Fifo.run [.add 7, .add 8]) = [7, 8] ∧
    Fifo.readView (Fifo.run [.add 7, .add 8, .reset, .add 9]) 2 = [9, 8] := by decide +kernel

/-- C04. The legacy bucket returns the same slots as the FIFO bucket, for every history. -/
theorem C04_add_agrees (ops : List BucketOp) (id : Int) :
    (Bucket.add (Bucket.run ops) id).1 = (Fifo.add (Fifo.run ops) id).1 := by
  rw [((Bucket.rep_run ops).add id).2, ((Fifo.rep_run ops).add id).2]

/-- C04. The legacy bucket and the FIFO bucket return the same value (or both panic) from
`Retrieve`, for every history and index. -/
theorem C04_retrieve_agrees (ops : List BucketOp) (i : Int) :
    Bucket.retrieve (Bucket.run ops) i = Fifo.retrieve (Fifo.run ops) i := by
  have hb := Bucket.rep_run ops
  have hf := Fifo.rep_run ops
  have hlf := hf.len_eq
  unfold Bucket.retrieve Fifo.retrieve Bucket.bucketSize Fifo.bucketSize
  split
  · rfl
  · rename_i h128
    unfold goGet
    by_cases hneg : i < 0
    · rw [if_pos hneg, if_neg (by omega), if_pos hneg]
    · rw [if_neg hneg]
      by_cases hge : i ≥ ((Fifo.run ops).len : Int)
      · rw [if_pos hge]
        rcases hb.unwritten i.toNat (by omega) (by omega) with h | h
        · rw [h]
        · simp at h
      · rw [if_neg hge, if_neg hneg]
        have hi : i.toNat < min (sinceReset ops).length 128 := by omega
        have : ∃ p, p < (sinceReset ops).length ∧ (sinceReset ops).length ≤ p + 128 ∧
            p % 128 = i.toNat := by
          by_cases h1 : (sinceReset ops).length ≤ 128
          · exact ⟨i.toNat, by omega, by omega, Nat.mod_eq_of_lt (by omega)⟩
          · refine ⟨(sinceReset ops).length - 1 - ((sinceReset ops).length - 1 - i.toNat) % 128,
              by omega, by omega, by omega⟩
        obtain ⟨p, hp, hle, he⟩ := this
        have e1 := hb.cells p hp hle
        have e2 := hf.isRing.2 p hp hle
        rw [he] at e1 e2
        rw [e1, e2]

/-- C04. `GetSize` is the number of Adds since the last Reset (below 2^63 of them). -/
theorem C04_getSize (ops : List BucketOp) (h : (sinceReset ops).length < 2 ^ 63) :
    Bucket.getSize (Bucket.run ops) = ((sinceReset ops).length : Int) := by
  unfold Bucket.getSize
  rw [(Bucket.rep_run ops).count_eq, Bucket.toInt_ofNat_small _ h]

/-- C04. The legacy `GetAll` never panics, is nil exactly when nothing was added, and otherwise
returns 128 cells whose first `min(n,128)` are the content of the FIFO bucket. -/
theorem C04_getAll (ops : List BucketOp) (h : (sinceReset ops).length < 2 ^ 63) :
    ∃ r b', Bucket.getAll (Bucket.run ops) = .ok (r, b') ∧ (r = none ↔ sinceReset ops = []) ∧
      ∀ xs, r = some xs → xs.length = 128 ∧
        xs.take (min (sinceReset ops).length 128) = Fifo.getAll (Fifo.run ops) := by
  obtain ⟨r, b', h1, h2, h3, h4, h5⟩ := (Bucket.rep_run ops).getAll h
  refine ⟨r, b', h1, h3, ?_⟩
  intro xs hxs
  have hx := h4 xs hxs
  subst hx
  refine ⟨h2.arr_len, ?_⟩
  have hf := (Fifo.rep_run ops).isRing
  have hlen := h2.arr_len
  apply List.ext_getElem?
  intro i
  by_cases hi : i < min (sinceReset ops).length 128
  · rw [List.getElem?_take_of_lt hi]
    have : ∃ p, p < (sinceReset ops).length ∧ (sinceReset ops).length ≤ p + 128 ∧
        p % 128 = i := by
      by_cases h1 : (sinceReset ops).length ≤ 128
      · exact ⟨i, by omega, by omega, Nat.mod_eq_of_lt (by omega)⟩
      · refine ⟨(sinceReset ops).length - 1 - ((sinceReset ops).length - 1 - i) % 128,
          by omega, by omega, by omega⟩
    obtain ⟨p, hp, hle, he⟩ := this
    have e1 := h2.cells p hp hle
    have e2 := hf.2 p hp hle
    rw [he] at e1 e2
    rw [e1]
    exact e2.symm
  · have hl := hf.1
    unfold Fifo.getAll
    rw [List.getElem?_eq_none, List.getElem?_eq_none]
    · omega
    · simp; omega

example : (sinceReset [.add 5, .reset, .add 6]).length < 2 ^ 63 ∧
    Bucket.getAll (Bucket.run [.add 5, .reset, .add 6]) ≠ .ok (none, Bucket.new) := by
  decide +kernel

/-- C05 is false of the code: `GetAll` writes a sentinel, so it changes what a later `Retrieve`
returns. -/
theorem C05_getAll_not_readonly :
    ¬ ∀ (ops : List BucketOp) (r : Option (List Int)) (b' : Bucket.Bucket) (i : Int),
      Bucket.getAll (Bucket.run ops) = .ok (r, b') →
      Bucket.retrieve b' i = Bucket.retrieve (Bucket.run ops) i := by
  intro h
  have hw : (Bucket.getAll (Bucket.run [.add 5])).map (fun p => Bucket.retrieve p.2 1) ≠
      .ok (Bucket.retrieve (Bucket.run [.add 5]) 1) := by decide +kernel
  apply hw
  obtain ⟨r, b', h1, -⟩ := (Bucket.rep_run [.add 5]).getAll (by decide)
  rw [h1, ← h [.add 5] r b' 1 h1]
  rfl

/-- C05 (what does hold). `GetAll` changes exactly one `Retrieve` answer: slot `n` (the first
unwritten one, if `0 < n < 128`) then reads -1; every other index is unaffected. Missing from the
full property: that slot. -/
theorem C05_getAll_readonly_partial (ops : List BucketOp) (i : Int)
    (h : (sinceReset ops).length < 2 ^ 63) :
    ∃ r b', Bucket.getAll (Bucket.run ops) = .ok (r, b') ∧
      Bucket.retrieve b' i =
        if sinceReset ops ≠ [] ∧ i = ((sinceReset ops).length : Int) ∧ i < 128 then .ok (-1)
        else Bucket.retrieve (Bucket.run ops) i := by
  obtain ⟨r, b', h1, h2, h3, h4, h5⟩ := (Bucket.rep_run ops).getAll h
  refine ⟨r, b', h1, ?_⟩
  unfold Bucket.retrieve Bucket.bucketSize goGet
  by_cases h128 : i ≥ 128
  · rw [if_pos (by omega), if_neg (by omega), if_pos (by omega)]
  · have hn : ¬ i ≥ ((128 : Nat) : Int) := by omega
    simp only [if_neg hn]
    by_cases hneg : i < 0
    · simp only [if_pos hneg]
      rw [if_neg (by omega)]
    · simp only [if_neg hneg]
      rw [h5 i.toNat (by omega)]
      by_cases hc : sinceReset ops ≠ [] ∧ i.toNat = (sinceReset ops).length
      · rw [if_pos hc, if_pos ⟨hc.1, by omega, by omega⟩]
      · rw [if_neg hc, if_neg]
        intro ⟨ha, hb, _⟩
        exact hc ⟨ha, by omega⟩

/-- The calls that are no `GetAll`. -/
def addsOf : List Bucket.FullOp → List BucketOp
  | [] => []
  | .add id :: ops => .add id :: addsOf ops
  | .reset :: ops => .reset :: addsOf ops
  | .getAll :: ops => addsOf ops

/-- `GetAll` was called since the last `Add` or `Reset`. -/
def markedBy (ops : List Bucket.FullOp) : Bool :=
  ops.foldl (fun _ op => match op with | .getAll => true | _ => false) false

theorem addsOf_append (a b : List Bucket.FullOp) : addsOf (a ++ b) = addsOf a ++ addsOf b := by
  induction a with
  | nil => rfl
  | cons op a ih => cases op <;> simp [addsOf, ih]

theorem addsOf_length (a : List Bucket.FullOp) : (addsOf a).length ≤ a.length := by
  induction a with
  | nil => simp [addsOf]
  | cons op a ih => cases op <;> simp [addsOf] <;> omega

theorem sinceReset_length (ops : List BucketOp) : (sinceReset ops).length ≤ ops.length := by
  induction ops using Bucket.snoc_rec with
  | nil => simp [sinceReset]
  | append_singleton ops op ih =>
    unfold sinceReset at *
    rw [List.foldl_append]
    cases op <;> simp <;> omega

/-- C05 over whole histories. After any calls of `Add`, `Reset` and `GetAll` (less than 2^63) no call has panicked and every `Retrieve`
answers as if `GetAll` had never been called, except for slot `n`, the first unwritten one, which reads -1 if
`GetAll` was called since the last `Add` and `0 < n < 128`. Missing from the full property: that slot. -/
theorem C05_history_partial (ops : List Bucket.FullOp) (h : ops.length < 2 ^ 63) :
    ∃ b, Bucket.runFull ops = .ok b ∧ ∀ i : Int, Bucket.retrieve b i =
      if markedBy ops = true ∧ sinceReset (addsOf ops) ≠ [] ∧ i = ((sinceReset (addsOf ops)).length : Int) ∧ i < 128 then .ok (-1)
      else Bucket.retrieve (Bucket.run (addsOf ops)) i := by
  suffices hs : ∃ b s, Bucket.runFull ops = .ok b ∧ Bucket.Rep b (sinceReset (addsOf ops)) s ∧ ∀ p : Nat, p < 128 → b.arr[p]? =
      if markedBy ops = true ∧ sinceReset (addsOf ops) ≠ [] ∧ p = (sinceReset (addsOf ops)).length then some (-1)
      else (Bucket.run (addsOf ops)).arr[p]? by
    obtain ⟨b, s, h1, h2, h3⟩ := hs
    refine ⟨b, h1, fun i => ?_⟩
    unfold Bucket.retrieve Bucket.bucketSize goGet
    by_cases h128 : i ≥ 128
    · rw [if_pos (by omega), if_neg (by omega), if_pos (by omega)]
    · have hn : ¬ i ≥ ((128 : Nat) : Int) := by omega
      simp only [if_neg hn]
      by_cases hneg : i < 0
      · simp only [if_pos hneg]
        rw [if_neg (by omega)]
      · simp only [if_neg hneg]
        rw [h3 i.toNat (by omega)]
        by_cases hc : markedBy ops = true ∧ sinceReset (addsOf ops) ≠ [] ∧ i.toNat = (sinceReset (addsOf ops)).length
        · rw [if_pos hc, if_pos ⟨hc.1, hc.2.1, by omega, by omega⟩]
        · rw [if_neg hc, if_neg]
          intro ⟨ha, hb, hd, _⟩
          exact hc ⟨ha, hb, by omega⟩
  induction ops using Bucket.snoc_rec with
  | nil => exact ⟨_, true, rfl, Bucket.Rep.new _, fun p hp => by simp [markedBy, addsOf, Bucket.run]⟩
  | append_singleton ops op ih =>
    have hl : ops.length + 1 < 2 ^ 63 := by simpa using h
    obtain ⟨b, s, h1, h2, h3⟩ := ih (by omega)
    have hrun : Bucket.runFull (ops ++ [op]) = Bucket.stepFull b op := by
      unfold Bucket.runFull at *
      rw [List.foldlM_append, h1]
      show ([op].foldlM Bucket.stepFull b) = _
      simp [List.foldlM]
    have hlen : (sinceReset (addsOf ops)).length < 2 ^ 63 := by
      have := sinceReset_length (addsOf ops)
      have := addsOf_length ops
      omega
    have hb0 := Bucket.rep_run (addsOf ops)
    rw [hrun]
    cases op with
    | add id =>
      have e1 : sinceReset (addsOf (ops ++ [.add id])) = sinceReset (addsOf ops) ++ [id] := by
        rw [addsOf_append]; simp [addsOf, sinceReset, List.foldl_append]
      have e2 : Bucket.run (addsOf (ops ++ [.add id])) = (Bucket.add (Bucket.run (addsOf ops)) id).2 := by
        rw [addsOf_append]; simp [addsOf, Bucket.run, List.foldl_append, Bucket.step]
      rw [e1, e2]
      refine ⟨_, s, rfl, (h2.add id).1, fun p hp => ?_⟩
      have hm : markedBy (ops ++ [.add id]) = false := by simp [markedBy, List.foldl_append]
      rw [hm, if_neg (by simp)]
      have a1 := h2.count_eq
      have a2 := hb0.count_eq
      show (b.arr.set (b.counts &&& 127#64).toNat id)[p]? = ((Bucket.run (addsOf ops)).arr.set ((Bucket.run (addsOf ops)).counts &&& 127#64).toNat id)[p]?
      have hm2 : (BitVec.ofNat 64 (sinceReset (addsOf ops)).length &&& 127#64).toNat = (sinceReset (addsOf ops)).length % 128 := Fifo.count_and_mask _
      rw [a1, a2, hm2]
      have a3 := h2.arr_len
      have a4 := hb0.arr_len
      by_cases hpe : p = (sinceReset (addsOf ops)).length % 128
      · rw [← hpe, List.getElem?_set_self (by omega), List.getElem?_set_self (by omega)]
      · rw [List.getElem?_set_ne (by omega), List.getElem?_set_ne (by omega), h3 p hp, if_neg]
        intro hc
        omega
    | reset =>
      have e1 : sinceReset (addsOf (ops ++ [.reset])) = [] := by
        rw [addsOf_append]; simp [addsOf, sinceReset, List.foldl_append]
      have e2 : Bucket.run (addsOf (ops ++ [.reset])) = Bucket.reset (Bucket.run (addsOf ops)) := by
        rw [addsOf_append]; simp [addsOf, Bucket.run, List.foldl_append, Bucket.step]
      rw [e1, e2]
      exact ⟨_, s, rfl, h2.reset s, fun p hp => by rw [if_neg (by simp)]; rfl⟩
    | getAll =>
      have e0 : addsOf (ops ++ [.getAll]) = addsOf ops := by
        rw [addsOf_append]; simp [addsOf]
      have hm : markedBy (ops ++ [.getAll]) = true := by simp [markedBy, List.foldl_append]
      rw [e0, hm]
      obtain ⟨r, b', g1, g2, g3, g4, g5⟩ := h2.getAll hlen
      refine ⟨b', true, ?_, g2, fun p hp => ?_⟩
      · show (Bucket.getAll b >>= fun x => pure x.2) = _
        rw [g1]
        rfl
      · rw [g5 p hp]
        by_cases hc : sinceReset (addsOf ops) ≠ [] ∧ p = (sinceReset (addsOf ops)).length
        · rw [if_pos hc, if_pos ⟨rfl, hc⟩]
        · rw [if_neg hc, if_neg (fun x => hc x.2), h3 p hp, if_neg (fun x => hc x.2)]

-- a history with `GetAll` before and after a `Reset`; the marked slot is 1
example : markedBy [.add 5, .getAll, .add 6, .reset, .add 7, .getAll] = true ∧
    sinceReset (addsOf [.add 5, .getAll, .add 6, .reset, .add 7, .getAll]) = [7] := by decide

end Goslide.Props
