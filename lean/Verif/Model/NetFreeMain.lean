import Verif.Model.NetFree
import Verif.Model.Optimisations
/-!
# The rest of the program for balancers without a network
-/

namespace FSat

/-- belt_balancer.py:281-284: not two straight belts side by side. -/
def doubleEdgeClause (a b : TileInst) : Clause := [-a.inp .right, -a.out .right, a.isSplitter, -b.inp .right, -b.out .right, b.isSplitter]

/-- belt_balancer.py:275-284 `prevent_double_edge_belts`: in column 1 and in the last but one.  `get_tile_instance` fails on a column
that does not exist. -/
def preventDoubleEdgeBelts (g : Grid) : Except PyErr Cnf :=
  concatE (fun x : Nat => concatE (fun y : Nat =>
    if x < g.width then .ok [doubleEdgeClause (g.at' (x, y)) (g.at' (x, y + 1))] else .error .indexError)
    (List.range (g.height - 1))) [1, max (g.width - 2) 1]

/-- belt_balancer_net_free.py:385-396: everything `main` adds before it reads the partial layout. -/
def freeBalancerMain (width height : Nat) (ugLen : Option Nat) (m n : Nat) (aligned : Bool) : Except PyErr (Grid × Cnf × Nat) :=
  match freeBalancer width height ugLen m n aligned with
  | .error e => .error e
  | .ok (g, cs, s) =>
    match joinE [expandUnderground g { minX := 1, maxX := some ((g.width : Int) - 2) }, applyGenericOptimisations g,
        preventDoubleEdgeBelts g] with
    | .error e => .error e
    | .ok cs' => .ok (g, cs ++ cs', s)

end FSat
