import Verif.Model.Tile
/-!
# Specification of text grids
-/

namespace FSat

/-- The tiles that have a character of their own: everything except inserters and assembling machines. A belt that turns straight back is not
a tile. -/
def Tile.Drawable : Tile → Prop
  | .belt i o => i.reverse ≠ o
  | .inserter _ _ | .assembler _ _ => False
  | _ => True

/-- `text` consists of the lines `ls`, separated by line ends. -/
structure LinesOf (text : List Char) (ls : List (List Char)) : Prop where
  nonempty : ls ≠ []
  plain : ∀ l ∈ ls, '\n' ∉ l
  joined : List.intercalate ['\n'] ls = text

end FSat
