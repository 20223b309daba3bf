import Verif.Model.NetFreeMain
import Verif.Model.PowerOfTwo
import Verif.Model.BalancerMain
/-!
# The programs for balancers without a network, with `--partial`
-/

namespace FSat

/-- belt_balancer_net_free.py:398-400, belt_balancer_net_free_power_of_2.py:121-123: the partial layout, as the array of tiles that
`convert_to_tiles` returns. -/
def withPartial (partialLayout : Option (List (List Tile))) (r : Except PyErr (Grid × Cnf × Nat)) : Except PyErr (Grid × Cnf × Nat) :=
  match r, partialLayout with
  | .error e, _ => .error e
  | .ok (g, cs, s), none => .ok (g, cs, s)
  | .ok (g, cs, s), some rows =>
    match setNonemptyTiles g rows with
    | .error e => .error e
    | .ok cs' => .ok (g, cs ++ cs', s)

/-- belt_balancer_net_free.py:364-400: the grid and the clauses that `main` gives to `itersolve`. -/
def freeProgram (width height : Nat) (ugLen : Option Nat) (m n : Nat) (aligned : Bool) (partialLayout : Option (List (List Tile))) :
    Except PyErr (Grid × Cnf × Nat) := withPartial partialLayout (freeBalancerMain width height ugLen m n aligned)

/-- belt_balancer_net_free_power_of_2.py:95-123: the same. -/
def powerProgram (lib : CardLib) (width height : Nat) (ugLen : Option Nat) (partialLayout : Option (List (List Tile))) :
    Except PyErr (Grid × Cnf × Nat) := withPartial partialLayout (powerBalancerMain lib width height ugLen)

end FSat
