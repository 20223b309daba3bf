import Verif.Model.Json
import Verif.Model.Render
/-!
# Model of `render_attributes` (render.py:334-420)

The text of a value, `str(np.array(value)).split('\n')`, Python's `int(piece)` and the size of a line in the font are parameters; a
surface is as large as `font.size` says.
-/

namespace FSat

/-- `d.get(key)` of an object whose keys differ. -/
def objGet (fields : List (List Char × Json)) (key : List Char) : Json :=
  match fields.find? fun e => e.1 == key with
  | some e => e.2
  | none => .null

/-- render.py:350-358: the value of one name.  An item is an object, whose keys are strings, so that `item[int(piece)]` is a `KeyError`. -/
def attributePieces (toInt : List Char → Option Int) (item : List (List Char × Json)) : Json → List (List Char) → Except PyErr Json
  | sub, [] => .ok sub
  | sub, piece :: rest =>
    match toInt piece with
    | some _ => .error .keyError
    | none =>
      match sub with
      | .obj fields => attributePieces toInt item (objGet fields piece) rest
      | _ => .error .attributeError

/-- render.py:350-358 for the pieces of one name (`name.split('.')`). -/
def attributeValue (toInt : List Char → Option Int) (item : List (List Char × Json)) (pieces : List (List Char)) : Except PyErr Json :=
  attributePieces toInt item (.obj item) pieces

/-- A rectangle with its lower corner and size. -/
structure Box where
  x : Rat
  y : Rat
  width : Rat
  height : Rat
deriving DecidableEq

/-- render.py:382-416: the boxes of the lines of one cell, from the height `y` downwards. -/
def lineBoxes (scale : Rat) (x : Rat) : Rat → List (Nat × Nat) → List Box
  | _, [] => []
  | y, s :: rest => ⟨x, y, scale * s.1, scale * s.2⟩ :: lineBoxes scale x (y + scale * s.2) rest

/-- render.py:366-416: the boxes of all cells, each given by its place and the sizes of its lines; a cell has at least one line. -/
def textBoxes (cells : List ((Nat × Nat) × List (Nat × Nat))) : List ((Nat × Nat) × List Box) :=
  let maxWidth : Nat := (cells.map fun c => (c.2.map Prod.fst).foldl max 0).foldl max 0
  let maxHeight : Nat := (cells.map fun c => (c.2.map Prod.snd).sum).foldl max 0
  if maxWidth = 0 ∨ maxHeight = 0 then []
  else cells.map fun c => (c.1, lineBoxes (min (1 / (maxWidth : Rat)) (1 / (maxHeight : Rat))) (c.1.1 : Rat) (c.1.2 : Rat) c.2)

end FSat
