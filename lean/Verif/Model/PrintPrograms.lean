import Verif.Model.PrintSolution
import Verif.Model.FreePrograms
import Verif.Model.InterchangeMain
/-!
# What the other programs print

What the programs write to the standard error (belt_balancer_net_free.py:122, 132, 381) is not modelled.
-/

namespace FSat

/-- belt_balancer_net_free.py:402-405, belt_balancer_net_free_power_of_2.py:125-128, interchange.py:247-250: the loop over the solutions of
a grid that was made with the given extra members, or the error before it.  With `--all` it runs for `fuel` rounds of `itersolve`. -/
def programRun (width height : Nat) (extras : TFields) (solver : Oracle) (all : Bool) (fuel : Nat) : Except PyErr (Grid × Cnf × Nat) → Run
  | .error e => ⟨[], .raised e⟩
  | .ok (g, cs, _) => printLoop (solutionText width height g.colours extras 0) all
      (itersolve solver ((importantLits g true).map Lit.var) (if all then fuel else 1) cs).1

/-- The extra members of the tiles of `belt_balancer_net_free` (belt_balancer_net_free.py:42-48, 135-150). -/
def freeExtras (m n : Nat) : TFields :=
  if m = n then nToNFields (m - 1) (m * nToNDenominator m).size else nToMFields m n (maxBeltFlow m n).size

/-- belt_balancer_net_free.py:364-405. -/
def freeRun (width height : Nat) (ugLen : Option Nat) (m n : Nat) (aligned : Bool) (partialLayout : Option (List (List Tile)))
    (solver : Oracle) (all : Bool) (fuel : Nat) : Run :=
  programRun width height (freeExtras m n) solver all fuel (freeProgram width height ugLen m n aligned partialLayout)

/-- belt_balancer_net_free_power_of_2.py:95-128. -/
def powerRun (lib : CardLib) (width height : Nat) (ugLen : Option Nat) (partialLayout : Option (List (List Tile))) (solver : Oracle)
    (all : Bool) (fuel : Nat) : Run :=
  programRun width height (levelFields (powerLevels height)) solver all fuel (powerProgram lib width height ugLen partialLayout)

/-- interchange.py:174-250. -/
def interchangeRun (lib : CardLib) (width height ugLen : Nat) (o : InterchangeOptions) (solver : Oracle) (all : Bool) (fuel : Nat) : Run :=
  programRun width height .nil solver all fuel (interchangeMain lib width height ugLen o)

end FSat
