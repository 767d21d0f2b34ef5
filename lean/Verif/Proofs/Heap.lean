import Verif.Go.Heap
import Verif.Proofs.Shuffle
import Verif.Proofs.GoBasic
/-
`container/heap` keeps the heap order and the elements; `pop` removes an element that no other
element is `less` than.
-/
namespace Goslide.GoHeap
variable {α : Type} (less : α → α → Bool)

def sw (i j k : Nat) : Nat := if k = i then j else if k = j then i else k

theorem getElem?_swapAt (h : List α) (i j k : Nat) (hi : i < h.length) (hj : j < h.length) :
    (swapAt h i j)[k]? = h[sw i j k]? := by
  unfold swapAt sw
  rw [List.getElem?_eq_getElem hi, List.getElem?_eq_getElem hj]
  simp only [List.getElem?_set, List.length_set]
  by_cases h1 : k = i
  · subst h1
    by_cases h2 : j = k
    · subst h2; simp [hj]
    · simp [h2, hi, List.getElem?_eq_getElem hj]
  · by_cases h2 : k = j
    · subst h2; simp [hj, h1, List.getElem?_eq_getElem hi]
    · rw [if_neg (by omega), if_neg (by omega), if_neg h1, if_neg h2]

theorem lessAt_swapAt (h : List α) (i j a b : Nat) (hi : i < h.length) (hj : j < h.length) :
    lessAt less (swapAt h i j) a b = lessAt less h (sw i j a) (sw i j b) := by
  unfold lessAt
  rw [getElem?_swapAt h i j a hi hj, getElem?_swapAt h i j b hi hj]

theorem swapAt_length (h : List α) (i j : Nat) : (swapAt h i j).length = h.length :=
  (swapAt_perm h i j).length_eq

/-- `less` is a strict weak order on the elements satisfying `W`. -/
structure WeakOrder (W : α → Prop) : Prop where
  asym : ∀ a b, W a → W b → less a b = true → less b a = false
  ntr : ∀ a b c, W a → W b → W c → less a b = false → less b c = false → less a c = false

variable {less} {W : α → Prop}

theorem lessAt_of_lt (h : List α) (a b : Nat) (ha : a < h.length) (hb : b < h.length) :
    lessAt less h a b = less h[a] h[b] := by
  unfold lessAt
  rw [List.getElem?_eq_getElem ha, List.getElem?_eq_getElem hb]

theorem asymAt (ho : WeakOrder less W) (h : List α) (hW : ∀ x ∈ h, W x) (a b : Nat)
    (ha : a < h.length) (hb : b < h.length) (hl : lessAt less h a b = true) :
    lessAt less h b a = false := by
  rw [lessAt_of_lt h _ _ ha hb] at hl
  rw [lessAt_of_lt h _ _ hb ha]
  exact ho.asym _ _ (hW _ (List.getElem_mem ha)) (hW _ (List.getElem_mem hb)) hl

theorem ntrAt (ho : WeakOrder less W) (h : List α) (hW : ∀ x ∈ h, W x) (a b c : Nat)
    (ha : a < h.length) (hb : b < h.length) (hc : c < h.length)
    (h1 : lessAt less h a b = false) (h2 : lessAt less h b c = false) :
    lessAt less h a c = false := by
  rw [lessAt_of_lt h _ _ ha hb] at h1
  rw [lessAt_of_lt h _ _ hb hc] at h2
  rw [lessAt_of_lt h _ _ ha hc]
  exact ho.ntr _ _ _ (hW _ (List.getElem_mem ha)) (hW _ (List.getElem_mem hb))
    (hW _ (List.getElem_mem hc)) h1 h2

/-- Heap order between parents `≥ k` and children below `n`. -/
def HeapFrom (less : α → α → Bool) (k : Nat) (h : List α) (n : Nat) : Prop :=
  ∀ c, 0 < c → c < n → k ≤ (c - 1) / 2 → lessAt less h c ((c - 1) / 2) = false

theorem mem_swapAt (h : List α) (hW : ∀ x ∈ h, W x) (i j : Nat) : ∀ x ∈ swapAt h i j, W x :=
  fun x hx => hW x ((swapAt_perm h i j).mem_iff.mp hx)

theorem down_perm (fuel : Nat) : ∀ (h : List α) (i n : Nat), (down less fuel h i n).Perm h := by
  induction fuel with
  | zero => intro h i n; exact List.Perm.refl _
  | succ fuel ih =>
    intro h i n
    rw [down]
    dsimp only
    split
    · exact List.Perm.refl _
    · generalize (if 2 * i + 1 + 1 < n ∧ lessAt less h (2 * i + 1 + 1) (2 * i + 1) = true
        then 2 * i + 1 + 1 else 2 * i + 1) = j
      split
      · exact List.Perm.refl _
      · exact (ih _ _ _).trans (swapAt_perm _ _ _)

theorem up_perm (fuel : Nat) : ∀ (h : List α) (j : Nat), (up less fuel h j).Perm h := by
  induction fuel with
  | zero => intro h j; exact List.Perm.refl _
  | succ fuel ih =>
    intro h j
    rw [up]
    split
    · exact List.Perm.refl _
    · exact (ih _ _).trans (swapAt_perm _ _ _)

theorem down_ge (fuel : Nat) : ∀ (h : List α) (i n : Nat), i < n ∨ n = 0 → n ≤ h.length → ∀ c, n ≤ c →
    (down less fuel h i n)[c]? = h[c]? := by
  induction fuel with
  | zero => intro h i n _ _ c _; rfl
  | succ fuel ih =>
    intro h i n hi hn c hc
    rw [down]
    dsimp only
    split
    · rfl
    · rename_i hj
      generalize hjd : (if 2 * i + 1 + 1 < n ∧ lessAt less h (2 * i + 1 + 1) (2 * i + 1) = true
        then 2 * i + 1 + 1 else 2 * i + 1) = j
      have hj' : j < n ∧ i < j := by split at hjd <;> omega
      split
      · rfl
      · rw [ih _ _ _ (Or.inl hj'.1) (by rw [swapAt_length]; exact hn) c hc,
          getElem?_swapAt h i j c (by omega) (by omega)]
        unfold sw
        rw [if_neg (by omega), if_neg (by omega)]

theorem down_heap (ho : WeakOrder less W) (k n : Nat) (fuel : Nat) :
    ∀ (h : List α) (i : Nat), (∀ x ∈ h, W x) → n ≤ h.length → k ≤ i → n ≤ fuel + i →
      (∀ c, 0 < c → c < n → k ≤ (c - 1) / 2 → (c - 1) / 2 ≠ i →
        lessAt less h c ((c - 1) / 2) = false) →
      (∀ c, 0 < c → c < n → (c - 1) / 2 = i → 0 < i → k ≤ (i - 1) / 2 →
        lessAt less h c ((i - 1) / 2) = false) →
      HeapFrom less k (down less fuel h i n) n := by
  induction fuel with
  | zero =>
    intro h i hW hn hk hf A B c h0 hc hp
    exact A c h0 hc hp (by omega)
  | succ fuel ih =>
    intro h i hW hn hk hf A B
    rw [down]
    dsimp only
    by_cases hj1 : n ≤ 2 * i + 1
    · rw [if_pos hj1]
      intro c h0 hc hp
      exact A c h0 hc hp (by omega)
    · rw [if_neg hj1]
      generalize hjd : (if 2 * i + 1 + 1 < n ∧ lessAt less h (2 * i + 1 + 1) (2 * i + 1) = true
        then 2 * i + 1 + 1 else 2 * i + 1) = j
      have hjn : j < n ∧ (j - 1) / 2 = i ∧ 0 < j ∧ i < j := by split at hjd <;> omega
      -- every child of `i` is not less than `j`
      have hsib : ∀ c, 0 < c → c < n → (c - 1) / 2 = i → c ≠ j → lessAt less h c j = false := by
        intro c h0 hc hp hne
        split at hjd
        · rename_i hh
          have : c = 2 * i + 1 := by omega
          subst this; subst hjd
          exact asymAt ho h hW _ _ (by omega) (by omega) hh.2
        · rename_i hh
          have hc2 : c = 2 * i + 1 + 1 := by omega
          subst hc2; subst hjd
          have : ¬ lessAt less h (2 * i + 1 + 1) (2 * i + 1) = true := fun h' => hh ⟨hc, h'⟩
          simpa using this
      by_cases hl : lessAt less h j i = false
      · rw [if_pos hl]
        intro c h0 hc hp
        by_cases hpi : (c - 1) / 2 = i
        · rw [hpi]
          by_cases hcj : c = j
          · rw [hcj]; exact hl
          · exact ntrAt ho h hW c j i (by omega) (by omega) (by omega) (hsib c h0 hc hpi hcj) hl
        · exact A c h0 hc hp hpi
      · rw [if_neg hl]
        have hl' : lessAt less h j i = true := by simpa using hl
        have hij := asymAt ho h hW _ _ (by omega) (by omega) hl'
        apply ih _ _ (mem_swapAt h hW i j) (by rw [swapAt_length]; exact hn) (by omega) (by omega)
        · intro c h0 hc hp hpj
          rw [lessAt_swapAt less h i j _ _ (by omega) (by omega)]
          by_cases hpi : (c - 1) / 2 = i
          · rw [hpi]
            by_cases hcj : c = j
            · subst hcj
              have e1 : sw i c c = i := by unfold sw; rw [if_neg (by omega), if_pos rfl]
              have e2 : sw i c i = c := by unfold sw; rw [if_pos rfl]
              rw [e1, e2]; exact hij
            · have e1 : sw i j c = c := by unfold sw; rw [if_neg (by omega), if_neg hcj]
              have e2 : sw i j i = j := by unfold sw; rw [if_pos rfl]
              rw [e1, e2]; exact hsib c h0 hc hpi hcj
          · have e2 : sw i j ((c - 1) / 2) = (c - 1) / 2 := by unfold sw; rw [if_neg hpi, if_neg hpj]
            rw [e2]
            by_cases hci : c = i
            · subst hci
              have e1 : sw c j c = j := by unfold sw; rw [if_pos rfl]
              rw [e1]
              exact B j (by omega) hjn.1 hjn.2.1 h0 hp
            · have e1 : sw i j c = c := by
                unfold sw; rw [if_neg hci, if_neg (by intro h'; subst h'; omega)]
              rw [e1]
              exact A c h0 hc hp hpi
        · intro c h0 hc hp hj0 hkp
          rw [lessAt_swapAt less h i j _ _ (by omega) (by omega), hjn.2.1]
          have e1 : sw i j c = c := by unfold sw; rw [if_neg (by omega), if_neg (by omega)]
          have e2 : sw i j i = j := by unfold sw; rw [if_pos rfl]
          rw [e1, e2, ← hp]
          exact A c h0 hc (by omega) (by omega)

theorem initFrom_perm (i : Nat) : ∀ h : List α, (initFrom less h i).Perm h := by
  induction i with
  | zero => intro h; exact List.Perm.refl _
  | succ i ih => intro h; rw [initFrom]; exact (ih _).trans (down_perm _ _ _ _)

theorem initFrom_heap (ho : WeakOrder less W) (i : Nat) : ∀ h : List α, (∀ x ∈ h, W x) →
    HeapFrom less i h h.length → HeapFrom less 0 (initFrom less h i) h.length := by
  induction i with
  | zero => intro h _ hh; exact hh
  | succ i ih =>
    intro h hW hh
    rw [initFrom]
    have hp := down_perm (less := less) h.length h i h.length
    have := ih (down less h.length h i h.length) (fun x hx => hW x (hp.mem_iff.mp hx)) (by
      rw [hp.length_eq]
      apply down_heap ho i h.length h.length h i hW (Nat.le_refl _) (Nat.le_refl _) (by omega)
      · intro c h0 hc hk hne
        exact hh c h0 hc (by omega)
      · intro c h0 hc _ hi0 hk; omega)
    rw [hp.length_eq] at this
    exact this

theorem init_perm (h : List α) : (init less h).Perm h := initFrom_perm _ _

theorem init_heap (ho : WeakOrder less W) (h : List α) (hW : ∀ x ∈ h, W x) :
    HeapFrom less 0 (init less h) h.length := by
  apply initFrom_heap ho _ h hW
  intro c h0 hc hk; omega

theorem up_heap (ho : WeakOrder less W) (fuel : Nat) :
    ∀ (h : List α) (j : Nat), (∀ x ∈ h, W x) → j < h.length → j < fuel →
      (∀ c, 0 < c → c < h.length → c ≠ j → lessAt less h c ((c - 1) / 2) = false) →
      (∀ c, 0 < c → c < h.length → (c - 1) / 2 = j → 0 < j →
        lessAt less h c ((j - 1) / 2) = false) →
      HeapFrom less 0 (up less fuel h j) h.length := by
  induction fuel with
  | zero => intro h j _ _ hf; omega
  | succ fuel ih =>
    intro h j hW hj hf A B
    rw [up]
    by_cases hstop : (j - 1) / 2 = j ∨ lessAt less h j ((j - 1) / 2) = false
    · rw [if_pos hstop]
      intro c h0 hc _
      by_cases hcj : c = j
      · subst hcj
        rcases hstop with h' | h'
        · omega
        · exact h'
      · exact A c h0 hc hcj
    · rw [if_neg hstop]
      have hj0 : 0 < j := by
        rcases Nat.eq_zero_or_pos j with h' | h'
        · subst h'; exact absurd (Or.inl rfl) hstop
        · exact h'
      have hl : lessAt less h j ((j - 1) / 2) = true := by
        cases hv : lessAt less h j ((j - 1) / 2) with
        | true => rfl
        | false => exact absurd (Or.inr hv) hstop
      generalize hi : (j - 1) / 2 = i at *
      have hij := asymAt ho h hW _ _ hj (by omega) hl
      have := ih (swapAt h i j) i (mem_swapAt h hW i j) (by rw [swapAt_length]; omega) (by omega)
        (by
          intro c h0 hc hci
          rw [swapAt_length] at hc
          rw [lessAt_swapAt less h i j _ _ (by omega) (by omega)]
          by_cases hcj : c = j
          · subst hcj
            have e1 : sw i c c = i := by unfold sw; rw [if_neg hci, if_pos rfl]
            have e2 : sw i c i = c := by unfold sw; rw [if_pos rfl]
            rw [hi, e1, e2]; exact hij
          · have e1 : sw i j c = c := by unfold sw; rw [if_neg hci, if_neg hcj]
            rw [e1]
            by_cases hpi : (c - 1) / 2 = i
            · have e2 : sw i j i = j := by unfold sw; rw [if_pos rfl]
              rw [hpi, e2]
              have hA := A c h0 hc hcj
              rw [hpi] at hA
              exact ntrAt ho h hW c i j (by omega) (by omega) (by omega) hA hij
            · by_cases hpj : (c - 1) / 2 = j
              · have e2 : sw i j j = i := by unfold sw; rw [if_neg (by omega), if_pos rfl]
                rw [hpj, e2]
                exact B c h0 hc hpj hj0
              · have e2 : sw i j ((c - 1) / 2) = (c - 1) / 2 := by
                  unfold sw; rw [if_neg hpi, if_neg hpj]
                rw [e2]
                exact A c h0 hc hcj)
        (by
          intro c h0 hc hp hi0
          rw [swapAt_length] at hc
          rw [lessAt_swapAt less h i j _ _ (by omega) (by omega)]
          have e2 : sw i j ((i - 1) / 2) = (i - 1) / 2 := by
            unfold sw; rw [if_neg (by omega), if_neg (by omega)]
          rw [e2]
          have hig := A i hi0 (by omega) (by omega)
          by_cases hcj : c = j
          · subst hcj
            have e1 : sw i c c = i := by unfold sw; rw [if_neg (by omega), if_pos rfl]
            rw [e1]; exact hig
          · have e1 : sw i j c = c := by unfold sw; rw [if_neg (by omega), if_neg hcj]
            rw [e1]
            have hA := A c h0 hc hcj
            rw [hp] at hA
            exact ntrAt ho h hW c i _ (by omega) (by omega) (by omega) hA hig)
      rw [swapAt_length] at this
      exact this

theorem push_perm (h : List α) (x : α) : (push less h x).Perm (h ++ [x]) := up_perm _ _ _

theorem push_heap (ho : WeakOrder less W) (h : List α) (x : α) (hW : ∀ y ∈ h, W y) (hx : W x)
    (hh : HeapFrom less 0 h h.length) :
    HeapFrom less 0 (push less h x) (push less h x).length := by
  rw [(push_perm h x).length_eq]
  apply up_heap ho
  · intro y hy
    rcases List.mem_append.mp hy with hy | hy
    · exact hW y hy
    · simp at hy; subst hy; exact hx
  · simp
  · simp
  · intro c h0 hc hne
    simp only [List.length_append, List.length_singleton] at hc hne
    have := hh c h0 (by omega) (by omega)
    unfold lessAt at this ⊢
    rw [List.getElem?_append_left (by omega), List.getElem?_append_left (by omega)]
    exact this
  · intro c h0 hc hp
    simp only [List.length_append, List.length_singleton] at hc hp
    omega

/-- No element is `less` than the root of a heap. -/
theorem root_min (ho : WeakOrder less W) (h : List α) (hW : ∀ y ∈ h, W y) (n : Nat) (hn : n ≤ h.length)
    (hh : HeapFrom less 0 h n) : ∀ c, c < n → lessAt less h c 0 = false := by
  intro c
  induction c using Nat.strongRecOn with
  | ind c ih =>
    intro hc
    by_cases h0 : c = 0
    · subst h0
      cases hv : lessAt less h 0 0 with
      | false => rfl
      | true => rw [asymAt ho h hW 0 0 (by omega) (by omega) hv] at hv; simp at hv
    · exact ntrAt ho h hW c ((c - 1) / 2) 0 (by omega) (by omega) (by omega)
        (hh c (by omega) hc (by omega)) (ih ((c - 1) / 2) (by omega) (by omega))

/-- `heap.Pop` on a non-empty heap: removes one element that no remaining element is `less` than,
and leaves a heap. -/
theorem pop_spec (ho : WeakOrder less W) (h : List α) (hW : ∀ y ∈ h, W y) (hne : 0 < h.length)
    (hh : HeapFrom less 0 h h.length) :
    ∃ h' r, pop less h = .ok h' ∧ (r :: h').Perm h ∧ HeapFrom less 0 h' h'.length ∧
      ∀ y ∈ h', less y r = false := by
  unfold pop
  rw [if_neg (by omega)]
  refine ⟨_, h[0], rfl, ?_⟩
  generalize hd : down less h.length (swapAt h 0 (h.length - 1)) 0 (h.length - 1) = d
  have hperm : d.Perm h := by rw [← hd]; exact (down_perm _ _ _ _).trans (swapAt_perm _ _ _)
  have hlen : d.length = h.length := hperm.length_eq
  have hlast : d[h.length - 1]? = some h[0] := by
    rw [← hd, down_ge _ _ _ _ (by omega) (by rw [swapAt_length]; omega) _ (Nat.le_refl _),
      getElem?_swapAt h 0 (h.length - 1) _ hne (by omega)]
    unfold sw
    split
    · rename_i h'; rw [h']; exact List.getElem?_eq_getElem hne
    · rw [if_pos rfl]; exact List.getElem?_eq_getElem hne
  have hsplit : d = d.take (h.length - 1) ++ [h[0]] := by
    have h1 : d = d.take (h.length - 1) ++ d.drop (h.length - 1) := (List.take_append_drop _ _).symm
    have h2 : d.drop (h.length - 1) = [h[0]] := by
      obtain ⟨h3, h4⟩ := List.getElem?_eq_some_iff.mp hlast
      rw [List.drop_eq_getElem_cons h3, h4, List.drop_eq_nil_of_le (by omega)]
    rw [h2] at h1
    exact h1
  have hpermr : (h[0] :: d.take (h.length - 1)).Perm h := by
    refine List.Perm.trans ?_ hperm
    conv => rhs; rw [hsplit]
    exact (List.perm_append_singleton _ _).symm
  have htl : (d.take (h.length - 1)).length = h.length - 1 := by simp [hlen]
  have hheap : HeapFrom less 0 d (h.length - 1) := by
    rw [← hd]
    apply down_heap ho 0 _ _ _ 0 (mem_swapAt h hW _ _) (by rw [swapAt_length]; omega)
      (Nat.le_refl _) (by omega)
    · intro c h0 hc _ hp
      rw [lessAt_swapAt less h 0 (h.length - 1) _ _ hne (by omega)]
      have e1 : sw 0 (h.length - 1) c = c := by unfold sw; rw [if_neg (by omega), if_neg (by omega)]
      have e2 : sw 0 (h.length - 1) ((c - 1) / 2) = (c - 1) / 2 := by
        unfold sw; rw [if_neg (by omega), if_neg (by omega)]
      rw [e1, e2]
      exact hh c h0 (by omega) (by omega)
    · intro c _ _ _ h0; omega
  refine ⟨hpermr, ?_, ?_⟩
  · rw [htl]
    intro c h0 hc hk
    have := hheap c h0 hc hk
    unfold lessAt at this ⊢
    rw [List.getElem?_take_of_lt hc, List.getElem?_take_of_lt (by omega)]
    exact this
  · intro y hy
    have hy' : y ∈ h := hpermr.mem_iff.mp (List.mem_cons_of_mem _ hy)
    obtain ⟨c, hc, rfl⟩ := List.mem_iff_getElem.mp hy'
    have := root_min ho h hW h.length (Nat.le_refl _) hh c hc
    rw [lessAt_of_lt h _ _ hc hne] at this
    exact this

/-- Without any order assumption `Push` followed by `Pop` still never panics and drops exactly one
element. -/
theorem push_pop_perm (h : List α) (x : α) :
    ∃ h' r, pop less (push less h x) = .ok h' ∧ (r :: h').Perm (h ++ [x]) := by
  have hp := push_perm (less := less) h x
  have hl : (push less h x).length = h.length + 1 := by rw [hp.length_eq]; simp
  unfold pop
  rw [if_neg (by omega), hl]
  generalize hd : down less (h.length + 1) (swapAt (push less h x) 0 (h.length + 1 - 1)) 0 (h.length + 1 - 1) = d
  have hperm : d.Perm (h ++ [x]) := by
    rw [← hd]; exact ((down_perm _ _ _ _).trans (swapAt_perm _ _ _)).trans hp
  have hlen : d.length = h.length + 1 := by rw [hperm.length_eq]; simp
  have hlt : h.length < d.length := by omega
  refine ⟨_, d[h.length], rfl, ?_⟩
  refine List.Perm.trans ?_ hperm
  have h1 : d = d.take h.length ++ d.drop h.length := (List.take_append_drop _ _).symm
  have h2 : d.drop h.length = [d[h.length]] := by
    rw [List.drop_eq_getElem_cons hlt, List.drop_eq_nil_of_le (by omega)]
  rw [h2] at h1
  conv => rhs; rw [h1]
  exact (List.perm_append_singleton _ _).symm

end Goslide.GoHeap
