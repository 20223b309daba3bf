import Verif.Model.Blueprint
import Verif.Model.Stringifier
import Verif.Model.ParseNetwork
/-!
# The commands that convert lines of text

`main` of blueprint.py:274-298, rotate.py:24-38, stringifier.py:131-149, blueprint_book.py:28-47, and the mode `parse` of
network.py:732-742.  What is printed and read are texts; the arguments are given as values (`argparse` is not modelled), and so is the
encoding of the standard streams.
-/

namespace FSat

/-- How a command ends.  `endOfInput` is the `EOFError` of `input()`, which nothing catches in the programs that read until it. -/
inductive Ending where
  | finished
  | endOfInput
  | raised (e : PyErr)
deriving DecidableEq, Repr

/-- What a command prints, and how it ends. -/
structure Run where
  out : List Char
  ending : Ending
deriving DecidableEq

/-- The results of `input()`, one after the other: the lines without their terminators. -/
def inputLines (text : List Char) : List (List Char) :=
  (readLines text).map fun l => if l.getLast? = some '\n' then l.dropLast else l

/-- `while True: print(f(input()))`: blueprint.py:287-296, rotate.py:30-38, stringifier.py:137-140. -/
def lineLoop (f : List Char → Except PyErr (List Char)) : List (List Char) → Run
  | [] => ⟨[], .endOfInput⟩
  | l :: ls =>
    match f l with
    | .error e => ⟨[], .raised e⟩
    | .ok s => ⟨s ++ '\n' :: (lineLoop f ls).out, (lineLoop f ls).ending⟩

/-! ### Grids as JSON -/

/-- The members of a cell. -/
abbrev Fields := List (List Char × Json)

/-- `'tile'`. -/
def Word.tile : List Char := ['t', 'i', 'l', 'e']

/-- The cells of one row; `none` when one of them is no object. -/
def rowCells : List Json → Option (List Fields)
  | [] => some []
  | .obj o :: r => (rowCells r).map fun os => o :: os
  | _ :: _ => none

/-- The rows; `none` when one of them is no list. -/
def gridRows : List Json → Option (List (List Fields))
  | [] => some []
  | .arr r :: rs =>
    match rowCells r with
    | none => none
    | some os => (gridRows rs).map fun m => os :: m
  | _ :: _ => none

/-- `np.array(json.loads(line))` for a list of equally long lists of objects.  For everything else the commands raise an exception here
or when they use the array; it is an error here, of a kind that is not modelled.  (Lists nested more deeply, and an empty list with
`rotate no_op`, are outside the model.) -/
def gridOf : Json → Except PyErr (Arr Fields)
  | .arr rs =>
    match gridRows rs with
    | some (first :: rest) =>
      if rest.all fun r => r.length = first.length then
        .ok ⟨rest.length + 1, first.length, fun y x => ((first :: rest).getD y []).getD x []⟩
      else .error .valueError
    | _ => .error .valueError
  | _ => .error .valueError

/-- `array.tolist()`. -/
def listOf (a : Arr Json) : Json :=
  .arr ((List.finRange a.rows).map fun y => .arr ((List.finRange a.cols).map fun x => a.get y x))

/-- The exception, if there is one. -/
def errorOf {β : Type} : Except PyErr β → Option PyErr
  | .error e => some e
  | .ok _ => none

/-- The result; only used where there is no exception. -/
def valueOf {β : Type} [Inhabited β] : Except PyErr β → β
  | .ok b => b
  | .error _ => default

/-- A loop over the cells in the order of `solution.flat` (rotate.py:33-36) or of two nested loops (network.py:734-736): the first exception
ends it. -/
def eachCell {α β : Type} [Inhabited β] (f : α → Except PyErr β) (a : Arr α) : Except PyErr (Arr β) :=
  match a.cells.findSome? fun p => errorOf (f (a.get p.1 p.2)) with
  | some e => .error e
  | none => .ok (a.map fun t => valueOf (f t))

/-- `np.vectorize(f)(array)`, which raises `ValueError` when there are no cells. -/
def vectorize {α β : Type} [Inhabited β] (f : α → Except PyErr β) (a : Arr α) : Except PyErr (Arr β) :=
  if a.rows = 0 ∨ a.cols = 0 then .error .valueError else eachCell f a

/-- A member of a tile object.  Values that are not numbers, truth values or strings stand for a string that names nothing. -/
def scalarOf : Json → JScalar
  | .int n => .int n
  | .bool b => .bool b
  | .str s => .str (String.ofList s)
  | _ => .str ""

/-- `BaseTile.read(item)` (tile.py:22-24) on JSON. -/
def tileOfJson : Json → Except PyErr Tile
  | .obj o => Tile.read (o.map fun e => (String.ofList e.1, scalarOf e.2))
  | _ => .error .typeError

/-- A scalar as JSON. -/
def JScalar.json : JScalar → Json
  | .int n => .int n
  | .bool b => .bool b
  | .str s => .str s.toList

/-- `tile.write()` as JSON. -/
def tileJson (t : Tile) : Json := .obj (t.write.map fun e => (e.1.toList, e.2.json))

/-- blueprint.py:202-204 `read_tile`.  Cells without a member `tile` (older formats, lines 206-252) are an error here; `readItem` in
`Model/OldFormats` has them. -/
def cellTile (cell : Fields) : Except PyErr Tile :=
  match PyDict.get cell Word.tile with
  | none => .error .keyError
  | some v => tileOfJson v

/-- blueprint.py:255-256 `write_tile`. -/
def writeTile (t : Tile) : Json := .obj [(Word.tile, tileJson t)]

instance : Inhabited Json := ⟨.null⟩

/-- The layout of a line of solver output: blueprint.py:288-289, stringifier.py:138-139. -/
def layoutOf (line : List Char) : Except PyErr (Arr Tile) :=
  match Json.loads line with
  | .error e => .error e
  | .ok v =>
    match gridOf v with
    | .error e => .error e
    | .ok g => vectorize cellTile g

/-! ### `blueprint` -/

/-- blueprint.py:288-290. -/
def encodeLine (c : Codec) (label : Option (List Char)) (level : BeltLevel) (line : List Char) : Except PyErr (List Char) :=
  match layoutOf line with
  | .error e => .error e
  | .ok a =>
    match makeBlueprint (.level level) label a with
    | .error e => .error e
    | .ok data => .ok (encodeBlueprint c data)

/-- blueprint.py:287-290, mode `encode`. -/
def blueprintEncode (c : Codec) (label : Option (List Char)) (level : BeltLevel) (text : List Char) : Run :=
  lineLoop (encodeLine c label level) (inputLines text)

/-- blueprint.py:294-296. -/
def decodeLine (c : Codec) (line : List Char) : Except PyErr (List Char) :=
  match decodeBlueprint c line with
  | .error e => .error e
  | .ok data =>
    match importBlueprint data with
    | .error e => .error e
    | .ok a =>
      match vectorize (fun t => .ok (writeTile t)) a with
      | .error e => .error e
      | .ok g => .ok (listOf g).dumps

/-- blueprint.py:292-296, mode `decode`. -/
def blueprintDecode (c : Codec) (text : List Char) : Run := lineLoop (decodeLine c) (inputLines text)

/-! ### `rotate` -/

/-- rotate.py:34-36, one cell: the member `tile` is replaced where it stands, the other members stay. -/
def rotateCell (op : Operation) (cell : Fields) : Except PyErr Json :=
  match PyDict.get cell Word.tile with
  | none => .error .keyError
  | some v =>
    match tileOfJson v with
    | .error e => .error e
    | .ok t =>
      if t.transformable then
        match op.tile t with
        | .error e => .error e
        | .ok t => .ok (.obj (PyDict.set cell Word.tile (tileJson t)))
      else .ok (.obj cell)

/-- rotate.py:31-38. -/
def rotateLine (op : Operation) (line : List Char) : Except PyErr (List Char) :=
  match Json.loads line with
  | .error e => .error e
  | .ok v =>
    match gridOf v with
    | .error e => .error e
    | .ok g =>
      match eachCell (rotateCell op) (op.grid g) with
      | .error e => .error e
      | .ok g => .ok (listOf g).dumps

/-- rotate.py:30-38, the loop of `main`. -/
def rotateMain (op : Operation) (text : List Char) : Run := lineLoop (rotateLine op) (inputLines text)

/-! ### `stringifier` -/

/-- stringifier.py:138-140. -/
def drawLine (line : List Char) : Except PyErr (List Char) :=
  match layoutOf line with
  | .error e => .error e
  | .ok a => encodeGrid a

/-- stringifier.py:136-140, mode `encode`. -/
def stringifierEncode (text : List Char) : Run := lineLoop drawLine (inputLines text)

/-- `write_tile` of a cell of a drawing that was read: `None` has no `write`. -/
def writeDrawn : Option Tile → Except PyErr Json
  | some t => .ok (writeTile t)
  | none => .error .attributeError

/-- stringifier.py:148-149. -/
def undrawn (lines : List (List Char)) : Except PyErr (List Char) :=
  match decodeGrid lines with
  | .error e => .error e
  | .ok a =>
    match vectorize writeDrawn a with
    | .error e => .error e
    | .ok g => .ok (listOf g).dumps

/-- The loop stringifier.py:142-149. -/
def undrawLoop : Nat → List (List Char) → Run
  | 0, _ => ⟨[], .endOfInput⟩
  | fuel + 1, ls =>
    match nextGrid ls with
    | none => ⟨[], .endOfInput⟩
    | some (g, rest) =>
      match undrawn g with
      | .error e => ⟨[], .raised e⟩
      | .ok s => ⟨s ++ '\n' :: (undrawLoop fuel rest).out, (undrawLoop fuel rest).ending⟩

/-- stringifier.py:141-149, mode `decode`.  The fuel is never used up: every grid takes at least one line. -/
def stringifierDecode (text : List Char) : Run := undrawLoop ((inputLines text).length + 1) (inputLines text)

/-! ### `blueprint_book` -/

/-- blueprint_book.py:34-39, mode `unpack`: one line is read, the others are ignored. -/
def bookUnpack (c : Codec) (text : List Char) : Run :=
  match inputLines text with
  | [] => ⟨[], .endOfInput⟩
  | l :: _ =>
    match decodeBlueprint c l with
    | .error e => ⟨[], .raised e⟩
    | .ok data =>
      match unpackBook data with
      | .error e => ⟨[], .raised e⟩
      | .ok bs => ⟨bs.flatMap fun b => encodeBlueprint c b ++ ['\n'], .finished⟩

/-- The loop blueprint_book.py:41-46. -/
def decodeAll (c : Codec) : List (List Char) → Except PyErr (List Json)
  | [] => .ok []
  | l :: ls =>
    match decodeBlueprint c l with
    | .error e => .error e
    | .ok data =>
      match decodeAll c ls with
      | .error e => .error e
      | .ok ds => .ok (data :: ds)

/-- blueprint_book.py:40-47, mode `pack`. -/
def bookPack (c : Codec) (label : Option (List Char)) (text : List Char) : Run :=
  match decodeAll c (inputLines text) with
  | .error e => ⟨[], .raised e⟩
  | .ok ds =>
    match packBook ds label with
    | .error e => ⟨[], .raised e⟩
    | .ok book => ⟨encodeBlueprint c book ++ ['\n'], .finished⟩

/-! ### `network parse` -/

/-- network.py:732-742, mode `parse`: what is written to the file; `none` when there is no input.  `ordP` and `ordT` are the orders in which
`parse_network` and `tidy_network` go through their sets. -/
def networkParse (ordP : List (Int × Int) → List (Int × Int)) (ordT : List Colour → List Colour) (assume : Bool) (text : List Char) :
    Option (Except PyErr (List Char)) :=
  match inputLines text with
  | [] => none
  | l :: _ => some <|
    match Json.loads l with
    | .error e => .error e
    | .ok v =>
      match gridOf v with
      | .error e => .error e
      | .ok g =>
        match eachCell cellTile g with
        | .error e => .error e
        | .ok a =>
          match parseNetwork ordP a assume with
          | .error e => .error e
          | .ok n =>
            match tidyNetwork ordT n with
            | .error e => .error e
            | .ok n => .ok (saveNetwork n)

end FSat
