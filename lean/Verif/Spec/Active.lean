import Verif.Spec.Empty
/-
Which nodes are active for an example, and what a training step leaves alone.
-/
namespace Goslide.Spec.Network
open Goslide.Layer Goslide.Spec.Node Goslide.Node Configuration Xcrepo
variable {F : Type} [GoFloat F]

/-- The most nodes that can be active for an example with so many labels, in a layer of the given type and size with `l` hash tables. -/
def activeBound (cfg : Config F) (ty l size : Int) (sp : F) (labels : Nat) : Int :=
  let own : Int := if ty = Softmax then labels else 0
  if GoFloat.eq sp GoFloat.one then size
  else if cfg.LayerMode = 1 then min size (128 * l / 3 + own)
  else if cfg.LayerMode = 2 then (if ty = Softmax then min size (GoFloat.floorInt (GoFloat.mul (GoFloat.ofInt size) sp)) else 0)
  else if cfg.LayerMode = 3 then (if ty = Softmax then size else 0)
  else if cfg.LayerMode = 4 then min size (max 1000 (128 * l + own))
  else 0

/-- The labels of an example are active in a softmax layer: it is full, or the mode adds them. -/
def KeepsLabels (cfg : Config F) (sp : F) (l : Int) : Prop :=
  GoFloat.eq sp GoFloat.one = true ∨ cfg.LayerMode = 2 ∨ cfg.LayerMode = 3 ∨ cfg.LayerMode = 4 ∨ (cfg.LayerMode = 1 ∧ 3 ≤ l)

/-- What is known of the active nodes `S` (one list per layer) of a training example in a network built with the arguments `a`. -/
structure ActiveSets (cfg : Config F) (a : NetArgs F) (ex : Example F) (S : List (List Int)) : Prop where
  layers : (S.length : Int) = a.layers
  each : ∀ (j : Nat) (ids : List Int), S[j]? = some ids → ∃ size ty l sp, a.sizes[j]? = some size ∧ a.types[j]? = some ty ∧ a.l[j]? = some l ∧
    a.sparsity[j]? = some sp ∧ ids.Nodup ∧ (∀ id ∈ ids, 0 ≤ id ∧ id < size) ∧ (ids.length : Int) ≤ activeBound cfg ty l size sp ex.Labels.length ∧
    (GoFloat.eq sp GoFloat.one = true → ∀ id, 0 ≤ id → id < size → id ∈ ids) ∧
    (ty = Softmax → cfg.LayerMode = 2 ∨ cfg.LayerMode = 3 ∨ cfg.LayerMode = 4 ∨ (cfg.LayerMode = 1 ∧ 3 ≤ l) → ∀ y ∈ ex.Labels, 0 ≤ y → y < size → y ∈ ids)

/-- What is stored for node `i` of layer `j`. -/
def nodeAt (w : World F) (p : Ptr) (j i : Nat) : Option (Memory F) := ((memoryOf w p).bind (·[j]?)).bind (·[i]?)

/-- A weight and its moments. -/
def inputMemory (m : Memory F) (f : Nat) : Option F × Option F × Option F := (m.weights[f]?, m.mom[f]?, m.vel[f]?)

/-- A node that a training step with iteration number `iter` has left alone: it is unchanged, but with Adam the moments decay and the weights follow them. -/
def untrained (cfg : Config F) (a : NetArgs F) (iter : Int) (m : Memory F) : Memory F := if cfg.UseAdam then drift (adamRate a.rate iter) m else m

/-- Node `i` of layer `j` is among the active nodes. -/
def ActiveIn (S : List (List Int)) (j i : Nat) : Prop := ∃ ids, S[j]? = some ids ∧ (i : Int) ∈ ids

/-- Input `f` of layer `j` is active: a feature of the example or an active node of the previous layer. (With a negative feature index the code panics.) -/
def InputIn (ex : Example F) (S : List (List Int)) (j f : Nat) : Prop :=
  match j with
  | 0 => ∃ x ∈ ex.Features, x.Index.toNat = f
  | j + 1 => ActiveIn S j f

end Goslide.Spec.Network
