import Verif.Proofs.Draws
import Verif.Spec.Train
/-
Computations with a bound on the number of draws: which bounds are allowed, and for which random sources they are wanted.
-/
namespace Goslide

/-- Allowed bounds `K` and random sources `J`. -/
structure Pace where
  K : Nat → Prop
  J : Rng → Prop
  zero : K 0
  max : ∀ {a b : Nat}, K a → K b → K (Nat.max a b)
  tail : ∀ {r : Rng}, J r → J r.tail

/-- No draws have to be allowed for, whatever the random source. -/
def Pace.any : Pace where
  K := fun k => k = 0
  J := fun _ => True
  zero := rfl
  max := by rintro a b rfl rfl; rfl
  tail := fun _ => trivial

theorem Pace.later (P : Pace) {r r' : Rng} (h : r.Later r') (hr : P.J r) : P.J r' := by
  obtain ⟨k, rfl⟩ := h
  induction k with
  | zero => exact hr
  | succ k ih =>
    have := P.tail ih
    have e : (Rng.tail fun i => r (i + k)) = fun i => r (i + (k + 1)) := by
      funext i
      show r (i + 1 + k) = _
      rw [Nat.add_assoc, Nat.add_comm 1 k]
    rw [e] at this
    exact this

theorem Network.Draws.pace {F : Type} {α : Type} {x : Layer.WM F α} (P : Pace) (hx : Network.Draws x) {w w' : Layer.World F} {a : α}
    (h : x w = .ok (a, w')) (hr : P.J w.rng) : P.J w'.rng := P.later (hx _ _ _ h) hr

/-- Any number of draws may be needed, for a random source that hits every node of every layer again and again. -/
def Pace.fair (sizes : List Int) : Pace where
  K := fun _ => True
  J := Spec.Network.FairSource sizes
  zero := trivial
  max := fun _ _ => trivial
  tail := by
    intro r h size hs v hv k
    obtain ⟨i, hi, e⟩ := h size hs v hv (k + 1)
    exact ⟨i - 1, by omega, by unfold Rng.tail; rw [Nat.sub_add_cancel (by omega)]; exact e⟩

/-- In mode 2 the random source has to be fair and the number of draws cannot be known in advance. -/
def Pace.Enough {F : Type} (P : Pace) (cfg : Configuration.Config F) (sizes : List Int) : Prop :=
  cfg.LayerMode = 2 → (∀ k, P.K k) ∧ ∀ r, P.J r → Spec.Network.FairSource sizes r

theorem Pace.enough_any {F : Type} {cfg : Configuration.Config F} (sizes : List Int) (h : cfg.LayerMode ≠ 2) : Pace.any.Enough cfg sizes :=
  fun e => absurd e h

theorem Pace.enough_fair {F : Type} (cfg : Configuration.Config F) (sizes : List Int) : (Pace.fair sizes).Enough cfg sizes :=
  fun _ => ⟨fun _ => trivial, fun _ h => h⟩

end Goslide
