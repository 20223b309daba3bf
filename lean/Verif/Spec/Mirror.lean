import Verif.Model.Solver
import Verif.Spec.Layout
/-!
# The mirror image of a layout

Rows are exchanged from top to bottom.  Nothing here mentions clauses.
-/

namespace FSat

/-- The mirror image of a tile: up and down are exchanged, and the head of a splitter becomes its tail. -/
def Tile.mirrorY : Tile → Tile
  | .belt i o => .belt i.mirrorY o.mirrorY
  | .underground d b => .underground d.mirrorY b
  | .splitter d h => .splitter d.mirrorY !h
  | t => t

/-- The flags of a cell of the mirror image. -/
def CellVal.mirrorY (c : CellVal) : CellVal :=
  { c with
    isHead := c.isSplitter && !c.isHead
    inp := fun d => c.inp d.mirrorY
    out := fun d => c.out d.mirrorY
    ug := fun d => c.ug d.mirrorY }

/-- The cell at the same place counted from the other end of the column. -/
def Grid.mirrorPos (g : Grid) (p : Nat × Nat) : Nat × Nat := (p.1, g.height - 1 - p.2)

/-- `v'` describes the mirror image of the layout that `v` describes: every flag and colour of every cell. -/
def Grid.Mirrored (g : Grid) (v v' : Asg) : Prop :=
  ∀ x < g.width, ∀ y < g.height, evalTile v' (g.tile x y) = (evalTile v (g.tile x (g.height - 1 - y))).mirrorY

end FSat
