import Verif.Model.Network
import Verif.Model.Driver
/-
The program: goslide.go with network/network.go.
-/
namespace Goslide.Program
open Configuration Layer Network Xcrepo Driver
variable {F : Type} [GoFloat F]

/-- The methods of `*network.Network` with cowId 0, as goslide.go calls them (goslide.go:25, 158-159, 205). -/
def netApi (cfg : Config F) (fuel : Nat) : NetApi F Ptr (World F) where
  processInput := fun p es iter rehash rebuild w => do
    let ((_, q), w') ← processInput cfg fuel p 0 es iter rehash rebuild w
    .ok (q, w')
  predictClass := fun p es w => do
    let ((k, q), w') ← predictClass cfg fuel p 0 es w
    .ok (k, q, w')

/-- The call of `network.New`, goslide.go:58-70; `types` is the result of `makeLayersTypes`. -/
def newNet (cfg : Config F) (types : List Bool) : World F → Go (Ptr × World F) :=
  Network.new cfg 0 cfg.NumLayer cfg.SizesOfLayers (types.map (fun b => if b then Node.Softmax else Node.ReLU)) cfg.BatchSize
    cfg.LearningRate cfg.InputDim cfg.K cfg.L cfg.RangePow cfg.Sparsity

/-- `main`, goslide.go:30-101, for the configuration `cfg`. -/
def main (parseFloat : Bytes → Option F) (files : Bytes → Option Bytes) (cfg : Config F) (fuel : Nat) (w : World F) :
    Go (State F (World F)) :=
  run (netApi cfg fuel) parseFloat files cfg (newNet cfg) ⟨w, []⟩

/-- `validateArguments` and `loadGlobalConfiguration`, goslide.go:222-239, then `main`: the whole program
for the command line `args` (without the program name). `parse` is the JSON syntax. -/
def program (parseFloat : Bytes → Option F) (parse : Bytes → Option Json) (files : Bytes → Option Bytes) (args : List Bytes)
    (fuel : Nat) (w : World F) : Go (State F (World F)) :=
  match args with
  | [path] =>
    match fromJsonFile parseFloat parse (files path) with
    | none => .error .exit
    | some cfg => main parseFloat files cfg fuel w
  | _ => .error .exit

end Goslide.Program
