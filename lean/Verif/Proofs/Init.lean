import Verif.Proofs.NetworkNew
import Verif.Proofs.MemoryOf
import Verif.Spec.Init
/-
The parameters of a new network.
-/
set_option linter.unusedSectionVars false
namespace Goslide.Network
open Goslide Node Lsh Configuration Spec.Node Spec.Network Layer
variable {F : Type} [GoFloat F]

theorem normals_get (f : Nat → F) (o n i : Nat) (h : i < n) : (normals f o n)[i]? = some (scaled (f (o + i))) := by
  unfold normals scaled
  rw [List.getElem?_map, List.getElem?_range h]
  rfl

theorem fits_mul {p n i k : Nat} (hi : i < n) (hk : k < p) : p * i + k < n * p := by
  have : (i + 1) * p ≤ n * p := Nat.mul_le_mul_right p hi
  rw [Nat.succ_mul, Nat.mul_comm i p] at this
  omega

theorem plan_memory {P : Plan F} {f : Nat → F} (h1 : P.ws = normals f 0 (P.n * P.p)) (h2 : P.bs = normals f (P.n * P.p) P.n) {i : Nat} (hi : i < P.n) :
    memory (P.params i) = initialNode P.adam f P.p P.n i := by
  unfold memory initialNode Plan.params Plan.zeros
  congr 1
  · rw [h1]
    refine List.ext_getElem? (fun k => ?_)
    by_cases hk : k < P.p
    · rw [List.getElem?_take_of_lt hk, List.getElem?_drop, normals_get _ _ _ _ (fits_mul hi hk), List.getElem?_map, List.getElem?_range hk]
      simp
    · rw [List.getElem?_eq_none (by rw [List.length_take]; omega), List.getElem?_eq_none (by simp; omega)]
  · rw [h2, normals_get _ _ _ _ hi]
    rfl

theorem initials {adam : Bool} : ∀ (Q : List (State F)) (f : Nat → F) (prev : Nat) (sizes : List Int), Inits adam f prev Q → Q.map (fun g => g.nodes.length) = sizes.map Int.toNat →
    Q.map (fun g => g.views.map (fun v => memory v.params)) = initialLayers adam f prev sizes
  | [], _, _, [], _, _ => rfl
  | g :: Q, f, prev, size :: sizes, hI, hs => by
    obtain ⟨⟨P, h, e1, e2, e3, e4, e5⟩, hI⟩ := hI
    rw [List.map_cons, List.map_cons, List.cons.injEq] at hs
    have hn : P.n = size.toNat := by rw [← hs.1, e1, Plan.nodes]; simp
    rw [List.map_cons, initialLayers]
    congr 1
    · unfold State.views
      rw [e1, Plan.nodes, List.map_map, List.map_map, ← hn, ← e2, ← e3]
      exact List.map_congr_left (fun i hi => plan_memory e4 e5 (List.mem_range.mp hi))
    · rw [← hs.1]
      exact initials Q _ _ _ hI hs.2

theorem range_mul (p : Nat) (g : Nat → F) : ∀ n, (List.range n).flatMap (fun i => (List.range p).map (fun k => g (p * i + k))) = (List.range (n * p)).map g
  | 0 => by simp
  | n + 1 => by
    rw [List.range_succ, List.flatMap_append, range_mul p g n, Nat.succ_mul, List.range_add, List.map_append, List.map_map]
    congr 1
    rw [List.flatMap_cons, List.flatMap_nil, List.append_nil, Nat.mul_comm p n]
    rfl

theorem parameters_initial (adam : Bool) : ∀ (sizes : List Int) (f : Nat → F) (prev : Nat),
    parametersOf (initialLayers adam f prev sizes) = (List.range (parameterCount prev sizes)).map (fun i => scaled (f i))
  | [], _, _ => rfl
  | size :: sizes, f, prev => by
    have ih := parameters_initial adam sizes (fun i => f (i + size.toNat + size.toNat * prev)) size.toNat
    unfold parametersOf at ih ⊢
    rw [initialLayers, parameterCount, List.flatMap_cons, ih, List.range_add, List.range_add, List.map_append, List.map_append]
    congr 1
    · congr 1
      · rw [List.flatMap_map]
        exact range_mul prev (fun i => scaled (f i)) size.toNat
      · rw [List.map_map, List.map_map]
        rfl
    · rw [List.map_map]
      refine List.map_congr_left (fun i _ => ?_)
      show scaled (f (i + size.toNat + size.toNat * prev)) = scaled (f (size.toNat * prev + size.toNat + i))
      congr 2
      omega

end Goslide.Network
