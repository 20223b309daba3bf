import Verif.Model.Library
import Verif.Model.Solver
import Mathlib.Algebra.Order.Group.Unbundled.Int
/-!
# Model of `factorio_sat/interchange.py`
-/

namespace FSat

/-- `a[::2]`. -/
def everySecond {α : Type} : List α → List α
  | a :: _ :: l => a :: everySecond l
  | l => l

/-- interchange.py:128-133 `flow_counts`; `//` on numpy ints is floor division. -/
def flowCounts (n : Nat) : List Int :=
  let counts := (List.range (n * 2 - 1)).map fun j : Nat =>
    if n % 2 = 1 then ((n / 2 : Nat) : Int) - |(j : Int) - ((n : Int) - 1)| / 2
    else ((n / 2 : Nat) : Int) - (|(j : Int) - ((n : Int) - 1)| + 1) / 2
  everySecond (counts.drop 1)

/-- interchange.py:137: the cuts (after row `y`) and their counts, `zip(range(1, height, 2), flow_counts(height // 2))`. -/
def flowCuts (height : Nat) : List (Nat × Int) :=
  ((List.range (height / 2)).map fun i => 1 + 2 * i).zip (flowCounts (height / 2))

end FSat
