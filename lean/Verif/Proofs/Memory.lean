import Verif.Go.Memory
/-
Lemmas on slices and on computations with memory.
-/
namespace Goslide

namespace M
variable {S α β : Type}
theorem bind_ok {x : M S α} {f : α → M S β} {s s' : S} {a : α} (h : x s = .ok (a, s')) :
    (x >>= f) s = f a s' := by
  show M.bind x f s = _
  unfold M.bind
  rw [h]
theorem bind_error {x : M S α} {f : α → M S β} {s : S} {e : Panic} (h : x s = .error e) :
    (x >>= f) s = .error e := by
  show M.bind x f s = _
  unfold M.bind
  rw [h]
theorem bind_eq_ok {x : M S α} {f : α → M S β} {s s2 : S} {b : β} (h : (x >>= f) s = .ok (b, s2)) :
    ∃ a s1, x s = .ok (a, s1) ∧ f a s1 = .ok (b, s2) := by
  cases hx : x s with
  | error e => rw [bind_error hx] at h; cases h
  | ok as => obtain ⟨a, s1⟩ := as; rw [bind_ok hx] at h; exact ⟨a, s1, rfl, h⟩
@[simp] theorem pure_apply (a : α) (s : S) : (Pure.pure a : M S α) s = .ok (a, s) := rfl
@[simp] theorem throw_apply (e : Panic) (s : S) : (M.throw e : M S α) s = .error e := rfl
end M

theorem Slice.Disjoint.symm {s s' : Slice} (h : s.Disjoint s') : s'.Disjoint s := by
  unfold Slice.Disjoint at *
  rcases h with h | h | h | h | h
  · exact .inr (.inl h)
  · exact .inl h
  · exact .inr (.inr (.inl (Ne.symm h)))
  · exact .inr (.inr (.inr (.inr h)))
  · exact .inr (.inr (.inr (.inl h)))

variable {α : Type}

theorem readSlice_length {store : List (List α)} {s : Slice} {l : List α} (h : readSlice store s = some l) :
    l.length = s.len := by
  unfold readSlice at h
  split at h
  · rename_i h0; cases h; simp [h0]
  · split at h
    · cases h
    · split at h
      · cases h
        rw [List.length_take, List.length_drop]; omega
      · cases h

theorem readSlice_pos {store : List (List α)} {s : Slice} {l : List α} (h : readSlice store s = some l)
    (h0 : 0 < s.len) : ∃ a, store[s.arr]? = some a ∧ s.off + s.len ≤ a.length ∧ l = (a.drop s.off).take s.len := by
  unfold readSlice at h
  rw [if_neg (by omega)] at h
  split at h
  · cases h
  · rename_i a ha
    split at h
    · rename_i hl
      cases h
      exact ⟨a, ha, hl, rfl⟩
    · cases h

/-- Reading a cell of a valid slice. -/
theorem readCell_of {store : List (List α)} {s : Slice} {l : List α} (h : readSlice store s = some l) (i : Int) :
    readCell store s i = if hi : 0 ≤ i ∧ i < l.length then
      .ok (l[i.toNat]'(by omega)) else .error .index := by
  have hlen := readSlice_length h
  unfold readCell
  split
  · rename_i hi
    obtain ⟨a, ha, hl, rfl⟩ := readSlice_pos h (by omega)
    rw [dif_pos (by omega), ha]
    have hx : s.off + i.toNat < a.length := by omega
    dsimp only
    rw [List.getElem?_eq_getElem hx]
    simp [List.getElem_take, List.getElem_drop]
  · rw [dif_neg (by omega)]

theorem readCell_ok_of {store : List (List α)} {s : Slice} {l : List α} (h : readSlice store s = some l)
    {i : Nat} {x : α} (hx : l[i]? = some x) : readCell store s i = .ok x := by
  rw [readCell_of h]
  obtain ⟨hl, rfl⟩ := List.getElem?_eq_some_iff.mp hx
  rw [dif_pos (by omega)]
  rfl

/-- Writing outside the slice panics. -/
theorem writeCell_out {store : List (List α)} {s : Slice} {i : Int} (v : α) (hi : ¬ (0 ≤ i ∧ i < s.len)) :
    writeCell store s i v = .error .index := by
  unfold writeCell
  rw [if_neg hi]

/-- Writing a cell of a valid slice. -/
theorem writeCell_of {store : List (List α)} {s : Slice} {l : List α} (h : readSlice store s = some l) (i : Nat)
    (v : α) (hi : i < l.length) : ∃ store', writeCell store s i v = .ok store' ∧
      store'.length = store.length ∧
      (∀ k : Nat, store'[k]?.map List.length = store[k]?.map List.length) ∧
      (∀ k : Nat, k ≠ s.arr → store'[k]? = store[k]?) ∧
      readSlice store' s = some (l.set i v) ∧
      (∀ s' : Slice, s.Disjoint s' → readSlice store' s' = readSlice store s') ∧
      (l[i]? = some v → store' = store) := by
  have hlen := readSlice_length h
  obtain ⟨a, ha, hl, rfl⟩ := readSlice_pos h (by omega)
  have hoff : s.off + i < a.length := by omega
  obtain ⟨harr, rfl⟩ := List.getElem?_eq_some_iff.mp ha
  have hget : (store.set s.arr (store[s.arr].set (s.off + i) v))[s.arr]? = some (store[s.arr].set (s.off + i) v) := by
    rw [List.getElem?_set_self harr]
  refine ⟨store.set s.arr (store[s.arr].set (s.off + i) v), ?_, by simp, ?_, ?_, ?_, ?_, ?_⟩
  · unfold writeCell
    rw [if_pos (by omega), ha]
    dsimp only
    rw [Int.toNat_natCast, if_pos hoff]
  · intro k
    by_cases hk : k = s.arr
    · subst hk; rw [hget, ha]; simp
    · rw [List.getElem?_set_ne (by omega)]
  · intro k hk
    rw [List.getElem?_set_ne (by omega)]
  · unfold readSlice
    rw [if_neg (by omega), hget]
    dsimp only
    rw [if_pos (by rw [List.length_set]; omega)]
    congr 1
    apply List.ext_getElem?
    intro k
    rw [List.getElem?_take, List.getElem?_drop, List.getElem?_set, List.getElem?_set, List.getElem?_take,
      List.getElem?_drop, List.length_take, List.length_drop]
    by_cases hk : k < s.len
    · rw [if_pos hk, if_pos hk]
      by_cases hki : i = k
      · subst hki; rw [if_pos rfl, if_pos hoff, if_pos rfl, if_pos (by omega)]
      · rw [if_neg (by omega), if_neg hki]
    · rw [if_neg hk, if_neg hk, if_neg (by omega)]
  · intro s' hd
    unfold readSlice
    by_cases h0 : s'.len = 0
    · rw [if_pos h0, if_pos h0]
    · rw [if_neg h0, if_neg h0]
      by_cases hk : s'.arr = s.arr
      · rw [hk, hget, ha]
        dsimp only
        rw [List.length_set]
        split
        · rename_i hle
          congr 1
          apply List.ext_getElem?
          intro k
          rw [List.getElem?_take, List.getElem?_drop, List.getElem?_take, List.getElem?_drop]
          by_cases hk' : k < s'.len
          · rw [if_pos hk', if_pos hk', List.getElem?_set_ne]
            unfold Slice.Disjoint at hd
            rcases hd with hd | hd | hd | hd | hd <;> first | omega | exact absurd hk.symm hd
          · rw [if_neg hk', if_neg hk']
        · rfl
      · rw [List.getElem?_set_ne (Ne.symm hk)]
  · intro hv
    rw [List.getElem?_take, if_pos (by omega), List.getElem?_drop, List.getElem?_eq_getElem hoff] at hv
    cases hv
    rw [List.set_getElem_self, List.set_getElem_self]

theorem readSlice_append {store : List (List α)} {s : Slice} {l : List α} (h : readSlice store s = some l)
    (ext : List (List α)) : readSlice (store ++ ext) s = some l := by
  unfold readSlice at *
  split
  · rename_i h0; rw [if_pos h0] at h; exact h
  · rename_i h0
    rw [if_neg h0] at h
    split at h
    · cases h
    · rename_i a ha
      obtain ⟨hl, _⟩ := List.getElem?_eq_some_iff.mp ha
      rw [List.getElem?_append_left hl, ha]
      exact h

theorem readSlice_new (store : List (List α)) (l : List α) (ext : List (List α)) :
    readSlice (store ++ l :: ext) { arr := store.length, off := 0, len := l.length } = some l := by
  unfold readSlice
  by_cases h : l.length = 0
  · simp [List.length_eq_zero_iff.mp h]
  · rw [if_neg h]
    simp

/-- What a write does to any other slice: nothing, or one cell that held the old value. -/
theorem readSlice_write {store store' : List (List α)} {s : Slice} {i : Nat} {v old : α}
    (hw : writeCell store s i v = .ok store') (hr : readCell store s i = .ok old) {s' : Slice} {l' : List α}
    (h : readSlice store s' = some l') : readSlice store' s' = some l' ∨
      ∃ j : Nat, l'[j]? = some old ∧ readSlice store' s' = some (l'.set j v) := by
  unfold writeCell at hw
  unfold readCell at hr
  split at hw
  · rename_i hi
    rw [if_pos hi] at hr
    split at hw
    · cases hw
    · rename_i a ha
      rw [ha] at hr
      dsimp only at hr
      rw [Int.toNat_natCast] at hw hr
      split at hw
      · rename_i hlt
        cases hw
        obtain ⟨harr, rfl⟩ := List.getElem?_eq_some_iff.mp ha
        rw [List.getElem?_eq_getElem hlt] at hr
        dsimp only at hr
        cases hr
        by_cases h0 : s'.len = 0
        · left
          unfold readSlice at h ⊢
          rw [if_pos h0] at h ⊢
          exact h
        · obtain ⟨a', ha', hl', rfl⟩ := readSlice_pos h (by omega)
          by_cases hk : s'.arr = s.arr
          · have ha2 := ha'
            rw [hk, ha] at ha2
            cases ha2
            have hset : (store.set s.arr (store[s.arr].set (s.off + i) v))[s'.arr]?
                = some (store[s.arr].set (s.off + i) v) := by
              rw [hk, List.getElem?_set_self harr]
            by_cases hin : s'.off ≤ s.off + i ∧ s.off + i < s'.off + s'.len
            · right
              refine ⟨s.off + i - s'.off, ?_, ?_⟩
              · rw [List.getElem?_take, if_pos (by omega), List.getElem?_drop]
                have e : s'.off + (s.off + i - s'.off) = s.off + i := by omega
                rw [e, List.getElem?_eq_getElem hlt]
              · unfold readSlice
                rw [if_neg h0, hset]
                dsimp only
                rw [List.length_set, if_pos hl']
                congr 1
                apply List.ext_getElem?
                intro k
                rw [List.getElem?_take, List.getElem?_drop, List.getElem?_set, List.getElem?_set, List.getElem?_take,
                  List.getElem?_drop, List.length_take, List.length_drop]
                by_cases hk : k < s'.len
                · rw [if_pos hk, if_pos hk]
                  by_cases hki : s.off + i = s'.off + k
                  · rw [if_pos hki, if_pos hlt, if_pos (by omega), if_pos (by omega)]
                  · rw [if_neg hki, if_neg (by omega)]
                · rw [if_neg hk, if_neg hk, if_neg (by omega)]
            · left
              unfold readSlice
              rw [if_neg h0, hset]
              dsimp only
              rw [List.length_set, if_pos hl']
              congr 1
              apply List.ext_getElem?
              intro k
              rw [List.getElem?_take, List.getElem?_drop, List.getElem?_take, List.getElem?_drop]
              by_cases hk : k < s'.len
              · rw [if_pos hk, if_pos hk, List.getElem?_set_ne (by omega)]
              · rw [if_neg hk, if_neg hk]
          · left
            unfold readSlice
            rw [if_neg h0, List.getElem?_set_ne (Ne.symm hk), ha']
            dsimp only
            rw [if_pos hl']
      · cases hw
  · cases hw

theorem deref_of {store : List α} {p : Ptr} {a : α} (h : store[p]? = some a) : deref store p = .ok a := by
  unfold deref; rw [h]

end Goslide
