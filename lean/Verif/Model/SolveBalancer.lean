import Verif.Model.BalancerMain
import Verif.Model.Optimal
/-!
# calculate_optimal.py: the solver run for one size

`solve_balancer` (lines 34-51) up to the call of the solver.  What the solver answers, and how the answer is stored, are in
`Model/Search.lean` and `Model/Optimal.lean`.
-/

namespace FSat

/-- calculate_optimal.py:39-46: what is added to the clauses of `create_balancer`. -/
def solveBalancerClauses (lib : CardLib) (g : Grid) (node : Nat × Nat → List Lit) (net : PyDict Node Nat) : Gen :=
  Gen.all [
    Gen.pure (.ok (preventIntersection g)),
    setupBalancerEnds g net true false,
    Gen.pure (expandUnderground g { minX := 1, maxX := some ((g.width : Int) - 2) }),
    Gen.pure (applyGenericOptimisations g),
    enforceEdgeSplitters lib g node net,
    Gen.pure (enforceMaximumUndergroundLength g)]

/-- calculate_optimal.py:34-46 `solve_balancer`: the grid that is given to the solver.  The three numbers are not negative for the sizes that
`next_size` returns; an underground length below 1 fails, as it does in line 46. -/
def solveBalancerGrid (lib : CardLib) (network : Network) (size : Size) : Except PyErr (Grid × (Nat × Nat → List Lit) × Cnf × Nat) :=
  let net := deduplicateNetwork network
  match createBalancer lib net size.2.1.toNat size.2.2.toNat (some size.1.toNat) with
  | .error e => .error e
  | .ok (g, node, cs, s) =>
    match solveBalancerClauses lib g node net s with
    | .error e => .error e
    | .ok (cs', s') => .ok (g, node, cs ++ cs', s')

end FSat
