import Verif.Proofs.Lsh
/-
What the operations on the tables leave alone: everything but the buckets.
-/
namespace Goslide.Lsh

/-- The two structures differ in their buckets only. -/
def Shape (s s' : LSH) : Prop := s'.k = s.k ∧ s'.l = s.l ∧ s'.rangePow = s.rangePow ∧ s'.rand1 = s.rand1

theorem Shape.refl (s : LSH) : Shape s s := ⟨rfl, rfl, rfl, rfl⟩
theorem Shape.symm {s s' : LSH} (h : Shape s s') : Shape s' s := ⟨h.1.symm, h.2.1.symm, h.2.2.1.symm, h.2.2.2.symm⟩
theorem Shape.trans {s s' s'' : LSH} (h : Shape s s') (h' : Shape s' s'') : Shape s s'' :=
  ⟨h'.1.trans h.1, h'.2.1.trans h.2.1, h'.2.2.1.trans h.2.2.1, h'.2.2.2.trans h.2.2.2⟩

theorem addSingle_shape {s s' : LSH} {t i id x : Int} (h : addSingle s t i id = .ok (x, s')) : Shape s s' := by
  unfold addSingle at h
  cases h1 : goGet s.buckets t with
  | error e => rw [h1] at h; cases h
  | ok table =>
    rw [h1, ok_bind] at h
    cases h2 : goGet table i with
    | error e => rw [h2] at h; cases h
    | ok b => rw [h2, ok_bind] at h; cases h; exact ⟨rfl, rfl, rfl, rfl⟩

theorem addLoop_shape (indices : List Int) (id : Int) : ∀ (n i : Nat) (s : LSH) (x : List Int) (s' : LSH),
    addLoop indices id n i s = .ok (x, s') → Shape s s' := by
  intro n
  induction n with
  | zero => intro i s x s' h; cases h; exact Shape.refl _
  | succ n ih =>
    intro i s x s' h
    unfold addLoop at h
    cases h1 : goGet indices (i : Int) with
    | error e => rw [h1] at h; cases h
    | ok j =>
      rw [h1, ok_bind] at h
      cases h2 : addSingle s (i : Int) j id with
      | error e => rw [h2] at h; cases h
      | ok r =>
        obtain ⟨y, s1⟩ := r
        rw [h2, ok_bind] at h
        dsimp only at h
        cases h3 : addLoop indices id n (i + 1) s1 with
        | error e => rw [h3] at h; cases h
        | ok r =>
          obtain ⟨z, s2⟩ := r
          rw [h3, ok_bind] at h
          cases h
          exact (addSingle_shape h2).trans (ih _ _ _ _ h3)

theorem add_shape {s s' : LSH} {indices : List Int} {id : Int} {x : List Int} (h : add s indices id = .ok (x, s')) : Shape s s' :=
  addLoop_shape _ _ _ _ _ _ _ h

theorem clear_shape (s : LSH) : Shape s (clear s) := ⟨rfl, rfl, rfl, rfl⟩

theorem step_shape {s s' : LSH} {op : Op} (h : step s op = .ok s') : Shape s s' := by
  cases op with
  | add indices id =>
    unfold step at h
    cases h1 : Lsh.add s indices id with
    | error e => simp only [h1] at h; cases h
    | ok r => simp only [h1] at h; cases h; exact add_shape h1
  | addSingle t i id =>
    unfold step at h
    cases h1 : Lsh.addSingle s t i id with
    | error e => simp only [h1] at h; cases h
    | ok r => simp only [h1] at h; cases h; exact addSingle_shape h1
  | clear => cases h; exact clear_shape s

theorem run_cons (s : LSH) (op : Op) (ops : List Op) : run s (op :: ops) = step s op >>= fun s' => run s' ops := rfl

theorem run_append (s : LSH) (ops ops' : List Op) : run s (ops ++ ops') = run s ops >>= fun s' => run s' ops' := by
  unfold run
  rw [List.foldlM_append]

theorem run_shape {ops : List Op} : ∀ {s s' : LSH}, run s ops = .ok s' → Shape s s' := by
  induction ops with
  | nil => intro s s' h; cases h; exact Shape.refl _
  | cons op ops ih =>
    intro s s' h
    rw [run_cons] at h
    cases h1 : step s op with
    | error e => rw [h1] at h; cases h
    | ok s1 => rw [h1, ok_bind] at h; exact (step_shape h1).trans (ih h)

theorem indexLoop_shape {s s' : LSH} (h : Shape s s') (hf : HashFunction) (hashes : List Int) (i : Nat) :
    ∀ (n j : Nat) (x : BitVec 64), indexLoop hf s' hashes i n j x = indexLoop hf s hashes i n j x := by
  intro n
  induction n with
  | zero => intro j x; rfl
  | succ n ih =>
    intro j x
    unfold indexLoop
    have : term hf s' hashes i j = term hf s hashes i j := by
      obtain ⟨h1, _, _, h4⟩ := h
      unfold term
      rw [h1, h4]
    rw [this]
    simp only [ih]

theorem hashesToIndex_shape {s s' : LSH} (h : Shape s s') (hf : HashFunction) (hashes : List Int) :
    hashesToIndex hf s' hashes = hashesToIndex hf s hashes := by
  unfold hashesToIndex
  rw [h.2.1]
  congr 1
  funext i
  unfold tableIndex
  rw [indexLoop_shape h, h.1, h.2.2.1]

end Goslide.Lsh
