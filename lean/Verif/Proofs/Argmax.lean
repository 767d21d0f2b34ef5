import Verif.Go.Float
import Verif.Spec.Argmax
namespace Goslide
open Spec
variable {F : Type} [GoFloat F]

/-- Running maximum with strict updates. -/
def argStep {α : Type} (val : α → F) (code : α → Int) (st : Int × F) (c : α) : Int × F :=
  if GoFloat.lt st.2 (val c) then (code c, val c) else st

theorem argStep_fold {α : Type} [FloatOrder F] (val : α → F) (code : α → Int) :
    ∀ (feats : List α) (h0 : Int) (v0 : F),
      (feats.foldl (argStep val code) (h0, v0) = (h0, v0) ∧ ∀ x ∈ feats, GoFloat.lt v0 (val x) = false) ∨
      ∃ c, feats.foldl (argStep val code) (h0, v0) = (code c, val c) ∧ GoFloat.lt v0 (val c) = true ∧
        IsFirstArgmax (FloatOrder.isNaN) GoFloat.lt val feats c := by
  intro feats
  induction feats with
  | nil => intro h0 v0; left; simp
  | cons x xs ih =>
    intro h0 v0
    simp only [List.foldl_cons]
    by_cases hx : GoFloat.lt v0 (val x) = true
    · have hs : argStep val code (h0, v0) x = (code x, val x) := by simp [argStep, hx]
      rw [hs]
      right
      rcases ih (code x) (val x) with ⟨h1, h2⟩ | ⟨c, h1, h2, pre, post, h3, h4, h5⟩
      · exact ⟨x, h1, hx, [], xs, rfl, by simp, h2⟩
      · refine ⟨c, h1, FloatOrder.lt_trans _ _ _ hx h2, x :: pre, post, by rw [h3]; rfl, ?_, h5⟩
        intro y hy
        rcases List.mem_cons.mp hy with rfl | hy
        · exact Or.inr h2
        · exact h4 y hy
    · have hx' : GoFloat.lt v0 (val x) = false := by simpa using hx
      have hs : argStep val code (h0, v0) x = (h0, v0) := by simp [argStep, hx']
      rw [hs]
      rcases ih h0 v0 with ⟨h1, h2⟩ | ⟨c, h1, h2, pre, post, h3, h4, h5⟩
      · left
        refine ⟨h1, ?_⟩
        intro y hy
        rcases List.mem_cons.mp hy with rfl | hy
        · exact hx'
        · exact h2 y hy
      · right
        refine ⟨c, h1, h2, x :: pre, post, by rw [h3]; rfl, ?_, h5⟩
        intro y hy
        rcases List.mem_cons.mp hy with rfl | hy
        · cases hn : FloatOrder.isNaN (val y) with
          | true => exact Or.inl rfl
          | false =>
            rcases FloatOrder.lt_weak _ _ _ hn h2 with h | h
            · rw [hx'] at h; simp at h
            · exact Or.inr h
        · exact h4 y hy

end Goslide
