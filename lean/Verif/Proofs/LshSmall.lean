import Verif.Proofs.LshShape
/-
No bucket ever holds more than 128 ids.
-/
namespace Goslide.Lsh
open Fifo

/-- No bucket is longer than its backing array. -/
def Small (s : LSH) : Prop := ∀ bs ∈ s.buckets, ∀ b ∈ bs, b.len ≤ bucketSize

theorem small_add {b : FifoBucket} (h : b.len ≤ bucketSize) (id : Int) : (Fifo.add b id).2.len ≤ bucketSize := by
  unfold Fifo.add
  split
  · exact h
  · dsimp only; omega

theorem small_new {k l rp : Nat} {r r' : Rng} {s : LSH} (h : new k l rp r = .ok (s, r')) : Small s ∧ s.l = l := by
  have : ∃ n, s.buckets = List.replicate l (List.replicate n Fifo.new) ∧ s.l = l := by
    unfold new at h
    dsimp only at h
    split at h
    · cases h
      exact ⟨_, rfl, rfl⟩
    · cases hn : numBuckets rp with
      | error e => rw [hn] at h; cases h
      | ok n =>
        rw [hn] at h
        cases h
        exact ⟨_, rfl, rfl⟩
  obtain ⟨n, e, hl⟩ := this
  refine ⟨fun bs hbs b hb => ?_, hl⟩
  rw [e] at hbs
  rw [(List.mem_replicate.mp hbs).2] at hb
  rw [(List.mem_replicate.mp hb).2]
  exact Nat.zero_le _

theorem mem_set_or {α : Type} {l : List α} {i : Nat} {x y : α} (h : y ∈ l.set i x) : y ∈ l ∨ y = x := List.mem_or_eq_of_mem_set h

theorem small_addSingle {s s' : LSH} {t i id x : Int} (hs : Small s) (h : addSingle s t i id = .ok (x, s')) : Small s' := by
  unfold addSingle at h
  rw [bind_ok_iff] at h
  obtain ⟨bs, h1, h⟩ := h
  rw [bind_ok_iff] at h
  obtain ⟨b, h2, h⟩ := h
  cases h
  have m1 := List.mem_of_getElem? ((goGet_ok_iff _ _ _).mp h1).2
  have m2 := List.mem_of_getElem? ((goGet_ok_iff _ _ _).mp h2).2
  intro cs hcs c hc
  rcases mem_set_or hcs with hcs | rfl
  · exact hs cs hcs c hc
  · rcases mem_set_or hc with hc | rfl
    · exact hs bs m1 c hc
    · exact small_add (hs bs m1 b m2) id

theorem small_addLoop (indices : List Int) (id : Int) : ∀ (n i : Nat) (s : LSH) (x : List Int) (s' : LSH), Small s →
    addLoop indices id n i s = .ok (x, s') → Small s' := by
  intro n
  induction n with
  | zero => intro i s x s' hs h; cases h; exact hs
  | succ n ih =>
    intro i s x s' hs h
    rw [addLoop, bind_ok_iff] at h
    obtain ⟨ix, -, h⟩ := h
    rw [bind_ok_iff] at h
    obtain ⟨⟨a, s1⟩, h1, h⟩ := h
    dsimp only at h
    rw [bind_ok_iff] at h
    obtain ⟨⟨b, s2⟩, h2, h⟩ := h
    cases h
    exact ih _ _ _ _ (small_addSingle hs h1) h2

theorem small_step {s s' : LSH} {op : Op} (hs : Small s) (h : step s op = .ok s') : Small s' := by
  cases op with
  | add indices id =>
    unfold step at h
    cases h1 : Lsh.add s indices id with
    | error e => simp only [h1] at h; cases h
    | ok r => simp only [h1] at h; cases h; exact small_addLoop _ _ _ _ _ _ _ hs h1
  | addSingle t i id =>
    unfold step at h
    cases h1 : addSingle s t i id with
    | error e => simp only [h1] at h; cases h
    | ok r => simp only [h1] at h; cases h; exact small_addSingle hs h1
  | clear =>
    cases h
    intro bs hbs b hb
    obtain ⟨bs', h1, rfl⟩ := List.mem_map.mp hbs
    obtain ⟨b', h2, rfl⟩ := List.mem_map.mp hb
    exact Nat.zero_le _

theorem small_run {ops : List Op} : ∀ {s s' : LSH}, Small s → run s ops = .ok s' → Small s' := by
  induction ops with
  | nil => intro s s' hs h; cases h; exact hs
  | cons op ops ih =>
    intro s s' hs h
    rw [run_cons, bind_ok_iff] at h
    obtain ⟨s1, h1, h⟩ := h
    exact ih (small_step hs h1) h

theorem flatten_le {m : Nat} : ∀ (L : List (List Int)), (∀ x ∈ L, x.length ≤ m) → L.flatten.length ≤ L.length * m
  | [], _ => by simp
  | x :: L, h => by
    rw [List.flatten_cons, List.length_append, List.length_cons, Nat.add_mul, Nat.one_mul]
    have := flatten_le L (fun y hy => h y (by simp [hy]))
    have := h x (by simp)
    omega

theorem mapM_all {α β : Type} {f : α → Go β} {P : β → Prop} : ∀ {l : List α} {m : List β}, (∀ a b, f a = .ok b → P b) → l.mapM f = .ok m → m.length = l.length ∧ ∀ b ∈ m, P b
  | [], m, _, h => by cases h; simp
  | a :: l, m, hf, h => by
    rw [List.mapM_cons, bind_ok_iff] at h
    obtain ⟨b, h1, h⟩ := h
    rw [bind_ok_iff] at h
    obtain ⟨bs, h2, h⟩ := h
    cases h
    obtain ⟨e, hP⟩ := mapM_all hf h2
    refine ⟨by simp [e], fun c hc => ?_⟩
    rcases List.mem_cons.mp hc with rfl | hc
    · exact hf a _ h1
    · exact hP c hc

/-- A query of the tables yields at most 128 ids per table. -/
theorem small_raw {s : LSH} (hs : Small s) {indices : List Int} {raw : List (List Int)} (h : retrieveRaw s indices = .ok raw) : raw.flatten.length ≤ 128 * s.l := by
  obtain ⟨e, hP⟩ := mapM_all (P := fun x : List Int => x.length ≤ 128) (fun (i : Nat) x hx => by
    rw [bind_ok_iff] at hx
    obtain ⟨bs, h1, hx⟩ := hx
    rw [bind_ok_iff] at hx
    obtain ⟨ix, -, hx⟩ := hx
    rw [bind_ok_iff] at hx
    obtain ⟨b, h2, hx⟩ := hx
    cases hx
    have m1 := List.mem_of_getElem? ((goGet_ok_iff _ _ _).mp h1).2
    have m2 := List.mem_of_getElem? ((goGet_ok_iff _ _ _).mp h2).2
    have := hs bs m1 b m2
    unfold Fifo.getAll content
    rw [List.length_take]
    unfold bucketSize at this
    omega) h
  have := flatten_le raw hP
  rw [e, List.length_range, Nat.mul_comm] at this
  exact this

end Goslide.Lsh
