import Verif.Model.Commands
/-!
# Model of `factorio_sat/blueprint.py`: `read_tile` on cells of older formats

Cells without the member `tile` come from older versions of the program.  The directions are taken from the JSON text as they are: numbers,
not members of the enumeration `Direction`.
-/

namespace FSat

/-- What `read_tile` returns: a tile, or the object made from the values in a cell of an older format. -/
inductive ReadTile
  | tile (t : Tile)
  | belt (input output : Json)
  | underground (direction : Json) (isInput : Bool)
  | splitter (direction head : Json)
  | inserter (direction kind : Json)
  | machine (x y : Json)

/-- Python's truth value. -/
def Json.truthy : Json → Bool
  | .null => false
  | .bool b => b
  | .int n => n ≠ 0
  | .half t => t ≠ 0
  | .str s => !s.isEmpty
  | .arr l => !l.isEmpty
  | .obj o => !o.isEmpty

/-- `value is None`. -/
def Json.isNull : Json → Bool
  | .null => true
  | _ => false

/-- `value is False`. -/
def Json.isFalse : Json → Bool
  | .bool false => true
  | _ => false

/-- `item[key]`. -/
def itemAt (cell : Fields) (key : String) : Except PyErr Json :=
  match PyDict.get cell key.toList with
  | none => .error .keyError
  | some v => .ok v

/-- tile.py:71-86 `Belt(input, output)` with values from JSON: `__post_init__` asks for `input.reverse`, an attribute that numbers do not
have.  (Lists have a method of this name.) -/
def oldBelt (input output : Json) : Except PyErr ReadTile :=
  match input with
  | .arr _ => .ok (.belt input output)
  | _ => .error .attributeError

/-- Twice the number that a value is in comparisons, where `True` counts as one. -/
def Json.twice : Json → Option Int
  | .bool b => some (if b then 2 else 0)
  | .int n => some (2 * n)
  | .half t => some t
  | _ => none

/-- tile.py:198-200 `assert 0 <= value < 3`. -/
def checkSide (v : Json) : Except PyErr Unit :=
  match v.twice with
  | none => .error .typeError
  | some n => if 0 ≤ n ∧ n < 6 then .ok () else .error .assertion

/-- tile.py:191-200 `AssemblingMachine(x, y)`. -/
def oldMachine (x y : Json) : Except PyErr ReadTile := do
  checkSide x
  checkSide y
  return .machine x y

/-- blueprint.py:208-235: the second oldest format. -/
def readOld2 (item : Fields) (input output : Json) : Except PyErr ReadTile := do
  let empty ← itemAt item "is_empty"
  if empty.truthy then return .tile .empty
  let belt ← itemAt item "is_belt"
  if belt.truthy then
    let input ← if input.isNull then itemAt item "colour_direction" else pure input
    let output ← if output.isNull then itemAt item "colour_direction" else pure output
    if input.isNull && output.isNull then throw .assertion
    return ← oldBelt input output
  let ugIn ← itemAt item "is_underground_in"
  if ugIn.truthy then return .underground input true
  let ugOut ← itemAt item "is_underground_out"
  if ugOut.truthy then return .underground output false
  let splitter ← itemAt item "is_splitter"
  if !splitter.isNull && !splitter.isFalse then
    match itemAt item "colour_direction" with
    | .ok d => return .splitter d splitter
    | .error _ =>
      let d ← itemAt item "splitter_direction"
      let s ← itemAt item "splitter_side"
      return .splitter d s
  let inserter ← itemAt item "is_inserter"
  if !inserter.isNull then
    let d ← itemAt item "inserter_direction"
    return .inserter d inserter
  let machine ← itemAt item "is_assembling_machine"
  if machine.truthy then
    let x ← itemAt item "assembling_x"
    let y ← itemAt item "assembling_y"
    return ← oldMachine x y
  throw .assertion

/-- blueprint.py:237-251: the oldest format. -/
def readOld1 (item : Fields) (input output : Json) : Except PyErr ReadTile := do
  let splitter ← itemAt item "is_splitter"
  if splitter.truthy then
    let d := if input.isNull then output else input
    if d.isNull then throw .assertion
    let head ← itemAt item "is_splitter_head"
    return .splitter d head
  if input.isNull && output.isNull then return .tile .empty
  if input.isNull || output.isNull then
    return .underground (if input.isNull then output else input) output.isNull
  return ← oldBelt input output

/-- blueprint.py:202-252 `read_tile`. -/
def readItem (item : Fields) : Except PyErr ReadTile :=
  match PyDict.get item Word.tile with
  | some v =>
    match tileOfJson v with
    | .error e => .error e
    | .ok t => .ok (.tile t)
  | none => do
    let input ← itemAt item "input_direction"
    let output ← itemAt item "output_direction"
    match PyDict.get item "is_empty".toList with
    | some _ => readOld2 item input output
    | none => readOld1 item input output

end FSat
