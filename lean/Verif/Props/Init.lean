import Verif.Proofs.Init
import Verif.Props.Layer
import Verif.Go.Real
import Mathlib.Tactic.Linarith
/-
The parameters of a new network are the draws of the normal distribution: C103.
-/
set_option linter.unusedSectionVars false
namespace Goslide.Props
open Goslide Node Lsh Configuration Spec.Node Spec.Network Layer Network

section
variable {F : Type} [GoFloat F]

/-- C103. What a new network contains: every weight and bias has its own draw, all moments are zero. -/
theorem C103_new {cfg : Config F} (hl : cfg.LoadWeight = false) {c nl b dim : Int} {sizes types ks ls rps : List Int} {lr : F} {sp : List F} {p : Ptr} {w w' : World F}
    (hr : Network.new cfg c nl sizes types b lr dim ks ls rps sp w = .ok (p, w')) :
    memoryOf w' p = some (initialLayers cfg.UseAdam w.norms dim.toNat (sizes.take nl.toNat)) := by
  obtain ⟨n, Q, hI, N, -, -, -, hn, -, hb⟩ := new_net_init hl hr
  rw [memoryOf_at N]
  have hlen : Q.length = nl.toNat := by have := N.count; omega
  congr 1
  refine initials Q _ _ _ hI (List.ext_getElem? (fun j => ?_))
  rw [List.getElem?_map, List.getElem?_map]
  by_cases hj : j < Q.length
  · obtain ⟨prev, ⟨size, ty, k, l, rp, P, w1, w2, q1, -, -, -, -, B⟩, -⟩ := hb j _ (List.getElem?_eq_getElem hj)
    have e : (Q[j].nodes).length = size.toNat := by
      have := B.pN
      rw [B.nodes, Plan.nodes]
      simp
      omega
    rw [List.getElem?_take_of_lt (by omega), q1, List.getElem?_eq_getElem hj, Option.map_some, Option.map_some, e]
  · rw [List.getElem?_eq_none (by omega), List.getElem?_eq_none (by rw [List.length_take]; omega)]
    rfl

/-- C103. In the order of the layers, the weights of a layer before its biases, the parameters are the first draws, as many as there are parameters. -/
theorem C103_draws {cfg : Config F} (hl : cfg.LoadWeight = false) {c nl b dim : Int} {sizes types ks ls rps : List Int} {lr : F} {sp : List F} {p : Ptr} {w w' : World F}
    (hr : Network.new cfg c nl sizes types b lr dim ks ls rps sp w = .ok (p, w')) :
    (memoryOf w' p).map parametersOf = some ((List.range (parameterCount dim.toNat (sizes.take nl.toNat))).map (fun i => scaled (w.norms i))) := by
  rw [C103_new hl hr, Option.map_some, parameters_initial]

/-- C103. Nothing else matters: not the hash functions with their tables and random numbers, the batch size, the learning rate or the sparsity. -/
theorem C103_only {cfg cfg' : Config F} (hl : cfg.LoadWeight = false) (hl' : cfg'.LoadWeight = false) (hu : cfg.UseAdam = cfg'.UseAdam) {c c' nl b b' dim : Int}
    {sizes types types' ks ks' ls ls' rps rps' : List Int} {lr lr' : F} {sp sp' : List F} {p p' : Ptr} {w w' w1 w1' : World F} (hn : w.norms = w'.norms)
    (hr : Network.new cfg c nl sizes types b lr dim ks ls rps sp w = .ok (p, w1)) (hr' : Network.new cfg' c' nl sizes types' b' lr' dim ks' ls' rps' sp' w' = .ok (p', w1')) :
    memoryOf w1 p = memoryOf w1' p' := by
  rw [C103_new hl hr, C103_new hl' hr', hu, hn]

end

/-- C103. If no two draws are equal then no two parameters are; in particular no two nodes of a layer begin alike. -/
theorem C103_distinct {cfg : Config ℝ} (hl : cfg.LoadWeight = false) {c nl b dim : Int} {sizes types ks ls rps : List Int} {lr : ℝ} {sp : List ℝ} {p : Ptr} {w w' : World ℝ}
    (hr : Network.new cfg c nl sizes types b lr dim ks ls rps sp w = .ok (p, w')) (hw : ∀ i j, w.norms i = w.norms j → i = j) :
    ∃ M, memoryOf w' p = some M ∧ (parametersOf M).Nodup := by
  refine ⟨_, C103_new hl hr, ?_⟩
  rw [parameters_initial]
  refine List.Nodup.map (fun i j hij => hw i j ?_) List.nodup_range
  simp only [scaled, GoFloat.add, GoFloat.mul, GoFloat.const, GoFloat.zero] at hij
  push_cast at hij
  linarith

-- two inputs, a layer of 2 nodes and one of 1 node: 2*2 + 2 + 1*2 + 1 parameters
example : (initialLayers true (fun i => ((100 * i : Nat) : Rat)) 2 [2, 1]).map (List.map (fun m => (m.weights, m.bias, m.mom))) =
    [[([0, 1], 4, [0, 0]), ([2, 3], 5, [0, 0])], [([6, 7], 8, [0, 0])]] := by decide +kernel
example : parameterCount 2 [2, 1] = 9 := by decide

/-- The network of the example is built. -/
example : ((Network.new { Configuration.default with UseAdam := true, HashFunction := 4, LayerMode := 4 } 0 2 [2, 1] [0, 1] 2 1 2 [1, 1] [1, 1] [6, 6] [1, 1]
    { LayerEx.w0 with norms := fun i => ((100 * i : Nat) : Rat) }).toOption.bind (fun x => (memoryOf x.2 x.1).map parametersOf)) =
    some [0, 1, 2, 3, 4, 5, 6, 7, 8] := by decide +kernel

end Goslide.Props
