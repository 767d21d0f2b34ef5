/-
Small facts about lists.
-/
namespace Goslide

theorem nodup_length_le [DecidableEq α] : ∀ {l m : List α}, l.Nodup → (∀ x ∈ l, x ∈ m) → l.length ≤ m.length
  | [], _, _, _ => by simp
  | a :: l, m, hn, hs => by
    have ha := hs a (by simp)
    rw [List.nodup_cons] at hn
    have h1 : ∀ x ∈ l, x ∈ m.erase a := by
      intro x hx
      have hne : x ≠ a := by rintro rfl; exact hn.1 hx
      exact (List.mem_erase_of_ne hne).mpr (hs x (by simp [hx]))
    have h2 := nodup_length_le hn.2 h1
    rw [List.length_erase_of_mem ha] at h2
    have h3 : 0 < m.length := List.length_pos_of_mem ha
    simp only [List.length_cons]; omega

end Goslide
