import Verif.Model.Solver
import Verif.Spec.Mirror
import Verif.Spec.Layout
/-!
# A layout reflected from left to right with all its belts running backwards
-/

namespace FSat

/-- The flags of a cell as it looks in a mirror that exchanges left and right, if items also move the other way.  What moved to the right
still does, what moved up moves down; what enters leaves, and an underground entrance is an exit. -/
def CellVal.turned (c : CellVal) : CellVal :=
  { c with
    isUgIn := c.isUgOut
    isUgOut := c.isUgIn
    isInput := c.isOutput
    isOutput := c.isInput
    inp := fun d => c.out d.mirrorY
    out := fun d => c.inp d.mirrorY
    ug := fun d => c.ug d.mirrorY }

/-- Between the columns `minX` and `maxX`, `v'` describes the layout of `v` reflected and turned around. -/
def Grid.TurnedAround (g : Grid) (minX maxX : Nat) (v v' : Asg) : Prop :=
  ∀ x, minX ≤ x → x ≤ maxX → ∀ y < g.height, evalTile v' (g.tile x y) = (evalTile v (g.tile (minX + maxX - x) y)).turned

/-- The directions in which items enter a cell, as flags in the order right, up, left, down. -/
def CellVal.entering (c : CellVal) : List Bool := [c.inp .right, c.inp .up, c.inp .left, c.inp .down]

/-- The directions in which items leave a cell. -/
def CellVal.leaving (c : CellVal) : List Bool := [c.out .right, c.out .up, c.out .left, c.out .down]

/-- What kind of tile is in the cell. -/
def CellVal.sort (c : CellVal) : List Bool := [c.isBelt, c.isEmpty, c.isSplitter, c.isUgIn, c.isUgOut]

/-- The one or two columns at each end between `minX` and `maxX` that are compared, as the numbers of steps from that end. -/
def comparedSteps (minX maxX : Nat) : List Nat := if maxX + 1 < minX + 2 then [] else if maxX + 1 < minX + 4 then [0] else [0, 1]

/-- Two compared columns side by side: the first list is for the columns counted from the left, the second for those counted from the right,
where entering and leaving are exchanged. -/
def leftEnd (g : Grid) (C : Nat × Nat → CellVal) (minX maxX : Nat) : List Bool :=
  (comparedSteps minX maxX).flatMap fun dx => (List.range g.height).flatMap fun y =>
    (C (minX + dx, y)).entering ++ (C (minX + dx, y)).leaving ++ (C (minX + dx, y)).sort

/-- See `leftEnd`. -/
def rightEnd (g : Grid) (C : Nat × Nat → CellVal) (minX maxX : Nat) : List Bool :=
  (comparedSteps minX maxX).flatMap fun dx => (List.range g.height).flatMap fun y =>
    (C (maxX - dx, y)).leaving ++ (C (maxX - dx, y)).entering ++ (C (maxX - dx, y)).sort

end FSat
