import Verif.Model.Tile
import Verif.Model.Dict
import Verif.Model.Network
/-!
# Model of `factorio_sat/stringifier.py`

Terminal styling (`style_seq` and its helpers, unused by the commands) is not modelled.
-/

namespace FSat

/-- stringifier.py:52-86 `MAPPING`. -/
def tileChars : PyDict Tile Char :=
  [(.empty, ' '), (.filler, 'X'),
   (.belt .right .right, '→'), (.belt .up .up, '↑'), (.belt .left .left, '←'), (.belt .down .down, '↓'),
   (.belt .right .up, 'h'), (.belt .up .left, 't'), (.belt .left .down, 'H'), (.belt .down .right, 'T'),
   (.belt .right .down, 'f'), (.belt .down .left, 'g'), (.belt .left .up, 'F'), (.belt .up .right, 'G'),
   (.underground .right true, 'l'), (.underground .right false, 'L'), (.underground .up true, 'i'), (.underground .up false, 'I'),
   (.underground .left true, 'j'), (.underground .left false, 'J'), (.underground .down true, 'k'), (.underground .down false, 'K'),
   (.splitter .right true, 'd'), (.splitter .right false, 'D'), (.splitter .up true, 'w'), (.splitter .up false, 'W'),
   (.splitter .left true, 'a'), (.splitter .left false, 'A'), (.splitter .down true, 's'), (.splitter .down false, 'S')]

/-- stringifier.py:88 `INV_MAPPING`. -/
def charTiles : PyDict Char Tile := PyDict.ofPairs (tileChars.map fun e => (e.2, e.1))

/-- stringifier.py:93-95 `encode_tile`, one tile. -/
def encodeTile (t : Tile) : Char := (PyDict.get tileChars t).getD 'U'

/-- stringifier.py:98-99 `decode_char`. -/
def decodeChar (c : Char) : Except PyErr Tile :=
  match PyDict.get charTiles c with
  | none => .error .keyError
  | some t => .ok t

/-- stringifier.py:103-113: the character grid after all assignments, later ones first. -/
def charAt (a : Arr Tile) (i j : Nat) : Char :=
  if i = a.rows + 1 ∧ j = 2 * a.cols then '┘'
  else if i = 0 ∧ j = 2 * a.cols then '┐'
  else if i = a.rows + 1 ∧ j = 0 then '└'
  else if i = 0 ∧ j = 0 then '┌'
  else if j = 0 ∨ j = 2 * a.cols then '│'
  else if i = 0 ∨ i = a.rows + 1 then '─'
  else if h : j % 2 = 1 ∧ i - 1 < a.rows ∧ (j - 1) / 2 < a.cols then encodeTile (a.get ⟨i - 1, h.2.1⟩ ⟨(j - 1) / 2, h.2.2⟩)
  else ' '

/-- The rows of the character grid. -/
def gridLines (a : Arr Tile) : List (List Char) :=
  (List.range (a.rows + 2)).map fun i => (List.range (2 * a.cols + 1)).map (charAt a i)

/-- stringifier.py:102-115 `encode`. `np.vectorize` raises `ValueError` on an array without cells (line 104). -/
def encodeGrid (a : Arr Tile) : Except PyErr (List Char) :=
  if a.rows = 0 ∨ a.cols = 0 then .error .valueError
  else .ok (List.intercalate ['\n'] (gridLines a))

/-- The loop stringifier.py:122-127 over the characters of a line; the state is the row of the grid. -/
def decodeChars : List Char → Nat → List (Option Tile) → Except PyErr (List (Option Tile))
  | [], _, row => .ok row
  | c :: cs, col, row =>
    if col % 2 ≠ 0 then
      if c ≠ ' ' then .error .runtimeError else decodeChars cs (col + 1) row
    else
      match decodeChar c with
      | .error e => .error e
      | .ok t => if col / 2 < row.length then decodeChars cs (col + 1) (row.set (col / 2) (some t)) else .error .indexError

/-- The loop stringifier.py:121-127 over the lines. -/
def decodeRows (width : Nat) : List (List Char) → Except PyErr (List (List (Option Tile)))
  | [] => .ok []
  | l :: ls =>
    match decodeChars l.dropLast.tail 0 (List.replicate width none) with
    | .error e => .error e
    | .ok row =>
      match decodeRows width ls with
      | .error e => .error e
      | .ok rows => .ok (row :: rows)

/-- stringifier.py:118-128 `decode`; `none` is Python's `None`, left where a line is too short. -/
def decodeGrid (lines : List (List Char)) : Except PyErr (Arr (Option Tile)) :=
  match lines with
  | [] => .error .indexError
  | [_] => .error .valueError
  | first :: second :: rest =>
    match decodeRows (first.length / 2) (second :: rest).dropLast with
    | .error e => .error e
    | .ok rows => .ok ⟨rest.length, first.length / 2, fun y x => (rows.getD y []).getD x none⟩

/-- `line.endswith(END_STOP)`, stringifier.py:90, 146. -/
def isLastLine (l : List Char) : Bool := l.getLast? = some '┘'

/-- The inner loop stringifier.py:144-147 on the lines of the input: the lines of the next grid and the rest; `none` at the end of the
input (`EOFError`). -/
def nextGrid : List (List Char) → Option (List (List Char) × List (List Char))
  | [] => none
  | l :: ls =>
    let l := stripWs l
    if isLastLine l then some ([l], ls)
    else
      match nextGrid ls with
      | none => none
      | some (g, rest) => some (l :: g, rest)

/-- The loop stringifier.py:142-149 in mode `decode`: the grids printed before the input ends or an exception is raised. Writing the tiles
(line 148) is not modelled. -/
def decodeInput (fuel : Nat) (ls : List (List Char)) : List (Arr (Option Tile)) :=
  match fuel with
  | 0 => []
  | fuel + 1 =>
    match nextGrid ls with
    | none => []
    | some (g, rest) =>
      match decodeGrid g with
      | .error _ => []
      | .ok a => a :: decodeInput fuel rest

end FSat
