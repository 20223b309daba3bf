import Verif.Model.Solver
import Verif.Spec.Layout
import Verif.Spec.Bits
/-!
# When the flags of a cell describe a tile, and what a layout on a grid must obey

`CellVal` is the record of truth values of one cell; everything else is independent of the clauses.
-/

namespace FSat

/-- The five kind flags, in the order belt, empty, splitter, underground entrance, underground exit. -/
def CellVal.kinds (c : CellVal) : List Bool := [c.isBelt, c.isEmpty, c.isSplitter, c.isUgIn, c.isUgOut]

/-- The flags of a cell say that it holds the given tile: exactly the kind flag of the tile is set, the direction flags set are
exactly its input and output directions, and only splitters are heads.  A splitter half may have its input or its output
unconnected, but not both, so only flags of its own direction may be set. -/
def Agrees (c : CellVal) : Tile → Prop
  | .empty => c.kinds = [false, true, false, false, false] ∧ c.isHead = false ∧
      (∀ d, c.inp d = false) ∧ (∀ d, c.out d = false)
  | .belt i o => c.kinds = [true, false, false, false, false] ∧ c.isHead = false ∧
      (∀ d, c.inp d = true ↔ d = i) ∧ (∀ d, c.out d = true ↔ d = o) ∧ o ≠ i.opp
  | .underground e true => c.kinds = [false, false, false, true, false] ∧ c.isHead = false ∧
      (∀ d, c.inp d = true ↔ d = e) ∧ (∀ d, c.out d = false)
  | .underground e false => c.kinds = [false, false, false, false, true] ∧ c.isHead = false ∧
      (∀ d, c.inp d = false) ∧ (∀ d, c.out d = true ↔ d = e)
  | .splitter e h => c.kinds = [false, false, true, false, false] ∧ c.isHead = h ∧
      (∀ d, c.inp d = true → d = e) ∧ (∀ d, c.out d = true → d = e) ∧ (c.inp e = true ∨ c.out e = true)
  | _ => False

end FSat
