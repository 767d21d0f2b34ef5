import Verif.Go.Basic
namespace Goslide

theorem goGet_ofNat (l : List α) (i : Nat) :
    goGet l (i : Int) = match l[i]? with | some a => .ok a | none => .error .index := by
  unfold goGet
  rw [if_neg (by omega), Int.toNat_natCast]
  cases l[i]? <;> rfl

theorem goGet_ok_iff (l : List α) (i : Int) (a : α) :
    goGet l i = .ok a ↔ 0 ≤ i ∧ l[i.toNat]? = some a := by
  unfold goGet
  split
  · simp; omega
  · rename_i h
    constructor
    · intro h'
      split at h'
      · rename_i b hb; simp at h'; subst h'; exact ⟨by omega, hb⟩
      · simp at h'
    · rintro ⟨_, h'⟩; rw [h']

theorem goGet_ok_of_lt (l : List α) (i : Nat) (h : i < l.length) : goGet l (i : Int) = .ok l[i] := by
  rw [goGet_ofNat, List.getElem?_eq_getElem h]

theorem goGet_error_iff (l : List α) (i : Int) (e : Panic) :
    goGet l i = .error e ↔ e = .index ∧ (i < 0 ∨ (l.length : Int) ≤ i) := by
  unfold goGet
  split
  · simp; constructor
    · rintro rfl; exact ⟨rfl, by omega⟩
    · rintro ⟨rfl, _⟩; rfl
  · rename_i h
    by_cases hl : i.toNat < l.length
    · rw [List.getElem?_eq_getElem hl]; simp; omega
    · rw [List.getElem?_eq_none (by omega)]; simp
      constructor
      · rintro rfl; exact ⟨rfl, by omega⟩
      · rintro ⟨rfl, _⟩; rfl

theorem bind_ok_iff {α β} (x : Go α) (f : α → Go β) (b : β) :
    (x >>= f) = .ok b ↔ ∃ a, x = .ok a ∧ f a = .ok b := by
  cases x with
  | ok a => simp [bind, Except.bind]
  | error e => simp [bind, Except.bind]

@[simp] theorem ok_bind {α β} (a : α) (f : α → Go β) : ((Except.ok a : Go α) >>= f) = f a := rfl
@[simp] theorem error_bind {α β} (e : Panic) (f : α → Go β) :
    ((Except.error e : Go α) >>= f) = .error e := rfl

/-- `mapM` over `Go` succeeds exactly when every call does, and collects the results. -/
theorem mapM_ok_iff {α β} (f : α → Go β) (l : List α) (ys : List β) :
    l.mapM f = .ok ys ↔ ys.length = l.length ∧
      ∀ (i : Nat) (a : α), l[i]? = some a → ∃ b, ys[i]? = some b ∧ f a = .ok b := by
  induction l generalizing ys with
  | nil =>
    simp only [List.mapM_nil, pure, Except.pure, Except.ok.injEq, List.length_nil]
    constructor
    · rintro rfl; simp
    · rintro ⟨h, _⟩; exact (List.length_eq_zero_iff.mp h).symm
  | cons a l ih =>
    rw [List.mapM_cons, bind_ok_iff]
    constructor
    · rintro ⟨b, hb, h⟩
      rw [bind_ok_iff] at h
      obtain ⟨bs, hbs, h⟩ := h
      simp only [pure, Except.pure, Except.ok.injEq] at h
      subst h
      obtain ⟨h1, h2⟩ := (ih bs).mp hbs
      refine ⟨by simp [h1], ?_⟩
      intro i a' hi
      cases i with
      | zero => simp only [List.getElem?_cons_zero, Option.some.injEq] at hi; subst hi; exact ⟨b, by simp, hb⟩
      | succ i =>
        simp only [List.getElem?_cons_succ] at hi ⊢
        exact h2 i a' hi
    · rintro ⟨hl, h⟩
      cases ys with
      | nil => simp at hl
      | cons b bs =>
        obtain ⟨b', hb', hf⟩ := h 0 a (by simp)
        simp only [List.getElem?_cons_zero, Option.some.injEq] at hb'
        subst hb'
        refine ⟨b, hf, ?_⟩
        rw [(ih bs).mpr ⟨by simpa using hl, fun i a' hi => ?_⟩]
        · rfl
        · have := h (i + 1) a' (by simpa using hi)
          simpa using this

theorem mapM_ok_of_forall {α β} (f : α → Go β) (g : α → β) (l : List α)
    (h : ∀ a ∈ l, f a = .ok (g a)) : l.mapM f = .ok (l.map g) := by
  rw [mapM_ok_iff]
  refine ⟨by simp, ?_⟩
  intro i a hi
  exact ⟨g a, by simp [hi], h a (List.mem_of_getElem? hi)⟩

theorem mapM_error_of_mem {α β} (f : α → Go β) (l : List α) (a : α) (ha : a ∈ l)
    (hf : ∀ b, f a ≠ .ok b) : ∃ e, l.mapM f = .error e := by
  cases h : l.mapM f with
  | error e => exact ⟨e, rfl⟩
  | ok ys =>
    exfalso
    obtain ⟨i, hi⟩ := List.mem_iff_getElem?.mp ha
    obtain ⟨b, _, hb⟩ := ((mapM_ok_iff f l ys).mp h).2 i a hi
    exact hf b hb

/-- If all the calls that fail do so with the same panic, so does `mapM`. -/
theorem mapM_error_eq {α β} (f : α → Go β) (l : List α) (p : Panic)
    (h : ∀ a ∈ l, ∀ e, f a = .error e → e = p) (e : Panic) (he : l.mapM f = .error e) : e = p := by
  induction l with
  | nil => simp [pure, Except.pure] at he
  | cons a l ih =>
    rw [List.mapM_cons] at he
    cases hfa : f a with
    | error e' => rw [hfa] at he; simp at he; subst he; exact h a (by simp) _ hfa
    | ok b =>
      rw [hfa, ok_bind] at he
      cases hl : l.mapM f with
      | error e' =>
        rw [hl, error_bind] at he
        simp only [Except.error.injEq] at he; subst he
        exact ih (fun a' ha' => h a' (by simp [ha'])) hl
      | ok bs => rw [hl] at he; simp [pure, Except.pure] at he

end Goslide
