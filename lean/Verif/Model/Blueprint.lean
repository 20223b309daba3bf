import Verif.Model.Json
import Verif.Model.Dict
import Verif.Model.Tile
/-!
# Model of `factorio_sat/blueprint.py` and `factorio_sat/blueprint_book.py`

Compression and base64 (`zlib`, `base64`) are external: a parameter `Codec`.
-/

namespace FSat

/-! ### Words

The strings used by blueprint.py and blueprint_book.py, as lists of characters. -/

namespace Word

/-- `'entity_number'` -/
def entityNumber : List Char := ['e', 'n', 't', 'i', 't', 'y', '_', 'n', 'u', 'm', 'b', 'e', 'r']
/-- `'position'` -/
def position : List Char := ['p', 'o', 's', 'i', 't', 'i', 'o', 'n']
/-- `'x'` -/
def x : List Char := ['x']
/-- `'y'` -/
def y : List Char := ['y']
/-- `'name'` -/
def name : List Char := ['n', 'a', 'm', 'e']
/-- `'direction'` -/
def direction : List Char := ['d', 'i', 'r', 'e', 'c', 't', 'i', 'o', 'n']
/-- `'type'` -/
def type : List Char := ['t', 'y', 'p', 'e']
/-- `'input'` -/
def input : List Char := ['i', 'n', 'p', 'u', 't']
/-- `'output'` -/
def output : List Char := ['o', 'u', 't', 'p', 'u', 't']
/-- `'inserter'` -/
def inserter : List Char := ['i', 'n', 's', 'e', 'r', 't', 'e', 'r']
/-- `'long-handed-inserter'` -/
def longInserter : List Char := ['l', 'o', 'n', 'g', '-', 'h', 'a', 'n', 'd', 'e', 'd', '-', 'i', 'n', 's', 'e', 'r', 't', 'e', 'r']
/-- `'burner-inserter'` -/
def burnerInserter : List Char := ['b', 'u', 'r', 'n', 'e', 'r', '-', 'i', 'n', 's', 'e', 'r', 't', 'e', 'r']
/-- `'fast-inserter'` -/
def fastInserter : List Char := ['f', 'a', 's', 't', '-', 'i', 'n', 's', 'e', 'r', 't', 'e', 'r']
/-- `'filter-inserter'` -/
def filterInserter : List Char := ['f', 'i', 'l', 't', 'e', 'r', '-', 'i', 'n', 's', 'e', 'r', 't', 'e', 'r']
/-- `'stack-inserter'` -/
def stackInserter : List Char := ['s', 't', 'a', 'c', 'k', '-', 'i', 'n', 's', 'e', 'r', 't', 'e', 'r']
/-- `'stack-filter-inserter'` -/
def stackFilterInserter : List Char := ['s', 't', 'a', 'c', 'k', '-', 'f', 'i', 'l', 't', 'e', 'r', '-', 'i', 'n', 's', 'e', 'r', 't', 'e', 'r']
/-- `'assembling-machine-'` -/
def assembling : List Char := ['a', 's', 's', 'e', 'm', 'b', 'l', 'i', 'n', 'g', '-', 'm', 'a', 'c', 'h', 'i', 'n', 'e', '-']
/-- `'wooden-chest'` -/
def chest : List Char := ['w', 'o', 'o', 'd', 'e', 'n', '-', 'c', 'h', 'e', 's', 't']
/-- `'blueprint'` -/
def blueprint : List Char := ['b', 'l', 'u', 'e', 'p', 'r', 'i', 'n', 't']
/-- `'entities'` -/
def entities : List Char := ['e', 'n', 't', 'i', 't', 'i', 'e', 's']
/-- `'label'` -/
def label : List Char := ['l', 'a', 'b', 'e', 'l']
/-- `'icons'` -/
def icons : List Char := ['i', 'c', 'o', 'n', 's']
/-- `'item'` -/
def item : List Char := ['i', 't', 'e', 'm']
/-- `'version'` -/
def version : List Char := ['v', 'e', 'r', 's', 'i', 'o', 'n']
/-- `'signal'` -/
def signal : List Char := ['s', 'i', 'g', 'n', 'a', 'l']
/-- `'index'` -/
def index : List Char := ['i', 'n', 'd', 'e', 'x']
/-- `'transport-belt'` -/
def belt : List Char := ['t', 'r', 'a', 'n', 's', 'p', 'o', 'r', 't', '-', 'b', 'e', 'l', 't']
/-- `'underground-belt'` -/
def underground : List Char := ['u', 'n', 'd', 'e', 'r', 'g', 'r', 'o', 'u', 'n', 'd', '-', 'b', 'e', 'l', 't']
/-- `'splitter'` -/
def splitter : List Char := ['s', 'p', 'l', 'i', 't', 't', 'e', 'r']
/-- `'fast-transport-belt'` -/
def fastBelt : List Char := ['f', 'a', 's', 't', '-', 't', 'r', 'a', 'n', 's', 'p', 'o', 'r', 't', '-', 'b', 'e', 'l', 't']
/-- `'fast-underground-belt'` -/
def fastUnderground : List Char := ['f', 'a', 's', 't', '-', 'u', 'n', 'd', 'e', 'r', 'g', 'r', 'o', 'u', 'n', 'd', '-', 'b', 'e', 'l', 't']
/-- `'fast-splitter'` -/
def fastSplitter : List Char := ['f', 'a', 's', 't', '-', 's', 'p', 'l', 'i', 't', 't', 'e', 'r']
/-- `'express-transport-belt'` -/
def expressBelt : List Char := ['e', 'x', 'p', 'r', 'e', 's', 's', '-', 't', 'r', 'a', 'n', 's', 'p', 'o', 'r', 't', '-', 'b', 'e', 'l', 't']
/-- `'express-underground-belt'` -/
def expressUnderground : List Char := ['e', 'x', 'p', 'r', 'e', 's', 's', '-', 'u', 'n', 'd', 'e', 'r', 'g', 'r', 'o', 'u', 'n', 'd', '-', 'b', 'e', 'l', 't']
/-- `'express-splitter'` -/
def expressSplitter : List Char := ['e', 'x', 'p', 'r', 'e', 's', 's', '-', 's', 'p', 'l', 'i', 't', 't', 'e', 'r']
/-- `'blueprint_book'` -/
def book : List Char := ['b', 'l', 'u', 'e', 'p', 'r', 'i', 'n', 't', '_', 'b', 'o', 'o', 'k']
/-- `'blueprint-book'` -/
def bookItem : List Char := ['b', 'l', 'u', 'e', 'p', 'r', 'i', 'n', 't', '-', 'b', 'o', 'o', 'k']
/-- `'active_index'` -/
def activeIndex : List Char := ['a', 'c', 't', 'i', 'v', 'e', '_', 'i', 'n', 'd', 'e', 'x']
/-- `'blueprints'` -/
def blueprints : List Char := ['b', 'l', 'u', 'e', 'p', 'r', 'i', 'n', 't', 's']

end Word

/-! ### Access to JSON values -/

/-- `value[key]` for a string key. -/
def Json.item (j : Json) (key : List Char) : Except PyErr Json :=
  match j with
  | .obj o =>
    match PyDict.get o key with
    | none => .error .keyError
    | some v => .ok v
  | _ => .error .typeError

/-- A number, doubled: positions are multiples of one half. -/
def Json.doubled : Json → Except PyErr Int
  | .int n => .ok (2 * n)
  | .half t => .ok t
  | _ => .error .typeError

/-- `data.get(key)`. -/
def Json.find (j : Json) (key : List Char) : Except PyErr (Option Json) :=
  match j with
  | .obj o => .ok (PyDict.get o key)
  | _ => .error .attributeError

/-! ### Levels -/

/-- blueprint.py:17-25 `TransportBeltLevel`. -/
inductive BeltLevel where
  | normal | fast | express
deriving DecidableEq

namespace BeltLevel
/-- blueprint.py:18-20, iterated in definition order (lines 158-165). -/
def all : List BeltLevel := [normal, fast, express]
/-- blueprint.py:18-20, 23 `belt_variant`. -/
def beltVariant : BeltLevel → List Char
  | normal => Word.belt | fast => Word.fastBelt | express => Word.expressBelt
/-- blueprint.py:18-20, 24 `underground_variant`. -/
def undergroundVariant : BeltLevel → List Char
  | normal => Word.underground | fast => Word.fastUnderground | express => Word.expressUnderground
/-- blueprint.py:18-20, 25 `splitter_variant`. -/
def splitterVariant : BeltLevel → List Char
  | normal => Word.splitter | fast => Word.fastSplitter | express => Word.expressSplitter
end BeltLevel

/-- What is passed as `level`: a member of `TransportBeltLevel`, or, by calculate_optimal.py:297, a string, which has none of the
attributes. -/
inductive LevelArg where
  | level (l : BeltLevel)
  | text

/-- `level.belt_variant` and the other attributes. -/
def LevelArg.get (f : BeltLevel → List Char) : LevelArg → Except PyErr (List Char)
  | .level l => .ok (f l)
  | .text => .error .attributeError

/-! ### Making a blueprint -/

/-- blueprint.py:69-70, 75-76, 85-86, 100-101: the direction is only given when it is not zero. -/
def directionMember (d : Dir) : List (List Char × Json) :=
  if d.factorioDirection ≠ 0 then [(Word.direction, .int d.factorioDirection)] else []

/-- blueprint.py:64. Positions are given doubled. -/
def entityHead (number : Nat) (x2 y2 : Int) : List (List Char × Json) :=
  [(Word.entityNumber, .int number), (Word.position, .obj [(Word.x, .half x2), (Word.y, .half y2)])]

/-- The body of the loop blueprint.py:60-105 for the tile at `(x, y)`; `none` where the tile is skipped. -/
def cellEntity (level : LevelArg) (number : Nat) (x y : Nat) : Tile → Except PyErr (Option Json)
  | .empty => .ok none
  | .filler => .ok none
  | .belt _ o =>
    match level.get BeltLevel.beltVariant with
    | .error e => .error e
    | .ok name => .ok (some (.obj (entityHead number (2 * x + 1) (2 * y + 1) ++ [(Word.name, .str name)] ++ directionMember o)))
  | .underground d isInput =>
    match level.get BeltLevel.undergroundVariant with
    | .error e => .error e
    | .ok name =>
      .ok (some (.obj (entityHead number (2 * x + 1) (2 * y + 1) ++ [(Word.name, .str name)] ++ directionMember d ++
        [(Word.type, .str (if isInput then Word.input else Word.output))])))
  | .splitter d isHead =>
    if isHead then
      match level.get BeltLevel.splitterVariant with
      | .error e => .error e
      | .ok name =>
        .ok (some (.obj (entityHead number (2 * x + 1 + d.next.dx) (2 * y + 1 + d.next.dy) ++ [(Word.name, .str name)] ++
          directionMember d)))
    else .ok none
  | .inserter d type =>
    .ok (some (.obj (entityHead number (2 * x + 1) (2 * y + 1) ++
      (if type = 0 then [(Word.name, .str Word.inserter)] else if type = 1 then [(Word.name, .str Word.longInserter)] else []) ++
      directionMember d.reverse)))
  | .assembler _ _ => .error .runtimeError

/-- The order of `np.ndenumerate`: row by row. -/
def Arr.cells {α : Type} (a : Arr α) : List (Fin a.rows × Fin a.cols) :=
  (List.finRange a.rows).flatMap fun y => (List.finRange a.cols).map fun x => (y, x)

/-- The loop blueprint.py:60-105. -/
def entityLoop (level : LevelArg) (a : Arr Tile) : List (Fin a.rows × Fin a.cols) → Nat → Except PyErr (List Json)
  | [], _ => .ok []
  | (y, x) :: rest, number =>
    match cellEntity level number x y (a.get y x) with
    | .error e => .error e
    | .ok none => entityLoop level a rest number
    | .ok (some e) =>
      match entityLoop level a rest (number + 1) with
      | .error e => .error e
      | .ok es => .ok (e :: es)

/-- blueprint.py:54 `BLUEPRINT_TEMPLATE['blueprint']`. -/
def blueprintTemplate : List (List Char × Json) :=
  [(Word.icons, .arr [.obj [(Word.signal, .obj [(Word.type, .str Word.item), (Word.name, .str Word.splitter)]), (Word.index, .int 1)]]),
    (Word.item, .str Word.blueprint), (Word.version, .int 281474976710656)]

/-- blueprint.py:57-111 `make_blueprint`. -/
def makeBlueprint (level : LevelArg) (label : Option (List Char)) (a : Arr Tile) : Except PyErr Json :=
  match entityLoop level a a.cells 1 with
  | .error e => .error e
  | .ok es =>
    .ok (.obj [(Word.blueprint, .obj (blueprintTemplate ++ (label.elim [] fun l => [(Word.label, .str l)]) ++
      [(Word.entities, .arr es)]))])

/-! ### Reading a blueprint -/

/-- `name.startswith('assembling-machine-')`. -/
def isAssemblerName (name : List Char) : Bool := Word.assembling.isPrefixOf name

/-- blueprint.py:167. -/
def inserterNames : List (List Char) :=
  [Word.burnerInserter, Word.inserter, Word.fastInserter, Word.filterInserter, Word.stackInserter, Word.stackFilterInserter]

/-- The assignments to `entities` that blueprint.py:152-180 makes for one entity. A direction that is not an integer is an error
here. -/
def entityTiles (entity : Json) : Except PyErr (List ((Int × Int) × Tile)) := do
  let position ← entity.item Word.position
  let x ← position.item Word.x
  let position ← entity.item Word.position
  let y ← position.item Word.y
  let name ← entity.item Word.name
  let direction ← entity.find Word.direction
  let direction ← match direction with
    | none => .ok (Dir.fromFactorio 0)
    | some (.int n) => .ok (Dir.fromFactorio n)
    | some _ => .error .typeError
  let x2 ← x.doubled
  let y2 ← y.doubled
  match name with
  | .str name =>
    if BeltLevel.all.any fun level => name = level.splitterVariant then
      let (dx, dy) := (direction.next.dx, direction.next.dy)
      .ok [(((x2 - dx) / 2, (y2 - dy) / 2), .splitter direction true), (((x2 + dx) / 2, (y2 + dy) / 2), .splitter direction false)]
    else if BeltLevel.all.any fun level => name = level.beltVariant then
      .ok [((x2 / 2, y2 / 2), .belt direction direction)]
    else if BeltLevel.all.any fun level => name = level.undergroundVariant then do
      let type ← entity.item Word.type
      .ok [((x2 / 2, y2 / 2), .underground direction (match type with | .str t => t = Word.input | _ => false))]
    else if name ∈ inserterNames then
      .ok [((x2 / 2, y2 / 2), .inserter direction.reverse 0)]
    else if name = Word.longInserter then
      .ok [((x2 / 2, y2 / 2), .inserter direction.reverse 1)]
    else if isAssemblerName name then
      .ok ([0, 1, 2].flatMap fun dx => [0, 1, 2].map fun dy => ((x2 / 2 - 1 + dx, y2 / 2 - 1 + dy), .assembler dx dy))
    else if name = Word.chest then
      .ok [((x2 / 2, y2 / 2), .filler)]
    else .error .runtimeError
  | _ => .error .attributeError

/-- The loop blueprint.py:151-180. -/
def collectTiles : List Json → PyDict (Int × Int) Tile → Except PyErr (PyDict (Int × Int) Tile)
  | [], d => .ok d
  | e :: es, d =>
    match entityTiles e with
    | .error e => .error e
    | .ok ps => collectTiles es (ps.foldl (fun d p => PyDict.set d p.1 p.2) d)

/-- `min(values)` and `max(values)` of a list that is not empty. -/
def minInt : List Int → Int
  | [] => 0
  | x :: xs => xs.foldl min x
/-- `max(values)`, blueprint.py:190-191. -/
def maxInt : List Int → Int
  | [] => 0
  | x :: xs => xs.foldl max x

/-- `tiles[y, x] = t`. -/
def Arr.setAt {α : Type} (a : Arr α) (y : Fin a.rows) (x : Fin a.cols) (t : α) : Arr α :=
  ⟨a.rows, a.cols, fun i j => if i = y ∧ j = x then t else a.get i j⟩

/-- `tiles[y, x]` for a position of which blueprint.py:123 has checked that it is inside. -/
def Arr.lookup {α : Type} (a : Arr α) (x y : Int) : Option α :=
  if h : 0 ≤ x ∧ x < a.cols ∧ 0 ≤ y ∧ y < a.rows then some (a.get ⟨y.toNat, by omega⟩ ⟨x.toNat, by omega⟩) else none

/-- The loop blueprint.py:119-137 over the directions: `found` is `input_direction`. -/
def feedLoop (a : Arr Tile) (x y : Int) : List Dir → Option Dir → Option Dir
  | [], found => found
  | d :: rest, found =>
    match a.lookup (x - d.dx) (y - d.dy) with
    | none => feedLoop a x y rest found
    | some neighbour =>
      if neighbour.outputDirection ≠ some d then feedLoop a x y rest found
      else
        match found with
        | none => feedLoop a x y rest (some d)
        | some _ => none

/-- The loop blueprint.py:115-142. The array is changed while it is read. -/
def resolveLoop (a : Arr Tile) : List (Nat × Nat) → Except PyErr (Arr Tile)
  | [] => .ok a
  | (y, x) :: rest =>
    if h : y < a.rows ∧ x < a.cols then
      match a.get ⟨y, h.1⟩ ⟨x, h.2⟩ with
      | .belt _ o =>
        match Tile.mkBelt ((feedLoop a x y Dir.all none).getD o) o with
        | .error e => .error e
        | .ok t => resolveLoop (a.setAt ⟨y, h.1⟩ ⟨x, h.2⟩ t) rest
      | _ => resolveLoop a rest
    else .error .indexError

/-- blueprint.py:114-142 `resolve_belt_input_directions`. -/
def resolveInputs (a : Arr Tile) : Except PyErr (Arr Tile) := resolveLoop a (a.cells.map fun p => (p.1.val, p.2.val))

/-- blueprint.py:145-199 `import_blueprint`. (The array is filled by assignments at distinct positions, here by lookups.) -/
def importBlueprint (data : Json) : Except PyErr (Arr Tile) := do
  let blueprint ← data.item Word.blueprint
  let list ← blueprint.item Word.entities
  match list with
  | .arr [] => .ok ⟨0, 0, fun i => i.elim0⟩
  | .arr es => do
    let entities ← collectTiles es []
    let minX := minInt (entities.map fun e => e.1.1)
    let minY := minInt (entities.map fun e => e.1.2)
    let entities := PyDict.ofPairs (entities.map fun e => ((e.1.1 - minX, e.1.2 - minY), e.2))
    let width := maxInt (entities.map fun e => e.1.1) + 1
    let height := maxInt (entities.map fun e => e.1.2) + 1
    resolveInputs ⟨height.toNat, width.toNat, fun y x => (PyDict.get entities ((x.val : Int), (y.val : Int))).getD .empty⟩
  | _ => .error .typeError

/-! ### Strings -/

/-- `base64.b64encode(zlib.compress(...))` and its inverse, blueprint.py:40-42, 47-50: external. The texts are ASCII (`json.dumps` escapes
everything else). -/
structure Codec where
  pack : List Char → List Char
  unpack : List Char → Except PyErr (List Char)
  unpack_pack : ∀ t, unpack (pack t) = .ok t

/-- blueprint.py:47-51 `encode_blueprint`. -/
def encodeBlueprint (c : Codec) (data : Json) : List Char := '0' :: c.pack data.dumps

/-- blueprint.py:36-44 `decode_blueprint`. -/
def decodeBlueprint (c : Codec) : List Char → Except PyErr Json
  | [] => .error .indexError
  | version :: rest =>
    if version ≠ '0' then .error .runtimeError
    else
      match c.unpack rest with
      | .error e => .error e
      | .ok text => Json.loads text

/-! ### Versions -/

/-- blueprint.py:28-29 `encode_factorio_version`: `struct` rejects fields outside 16 bits (`struct.error`, here `valueError`). -/
def encodeVersion (major minor patch developer : Int) : Except PyErr Int :=
  if [major, minor, patch, developer].all fun f => 0 ≤ f && f < 65536 then
    .ok (major + minor * 65536 + patch * 4294967296 + developer * 281474976710656)
  else .error .valueError

/-- blueprint.py:32-33 `decode_factorio_version`. -/
def decodeVersion (value : Int) : Except PyErr (Int × Int × Int × Int) :=
  if 0 ≤ value ∧ value < 18446744073709551616 then
    .ok (value % 65536, value / 65536 % 65536, value / 4294967296 % 65536, value / 281474976710656 % 65536)
  else .error .valueError

/-! ### Books -/

/-- blueprint_book.py:7-8 `unpack_book`. -/
def unpackBook (book : Json) : Except PyErr (List Json) := do
  let inner ← book.item Word.book
  let list ← inner.item Word.blueprints
  match list with
  | .arr bs => .ok bs
  | _ => .error .typeError

/-- The loop blueprint_book.py:21-22: `item['index'] = i`. -/
def indexLoop : List Json → Nat → Except PyErr (List Json)
  | [], _ => .ok []
  | .obj o :: rest, i =>
    match indexLoop rest (i + 1) with
    | .error e => .error e
    | .ok more => .ok (.obj (PyDict.set o Word.index (.int i)) :: more)
  | _ :: _, _ => .error .typeError

/-- blueprint_book.py:14-25 `pack_book`; the argument is copied first (line 19), so it is not changed. -/
def packBook (blueprints : List Json) (label : Option (List Char)) : Except PyErr Json :=
  match indexLoop blueprints 0 with
  | .error e => .error e
  | .ok bs =>
    .ok (.obj [(Word.book, .obj ([(Word.item, .str Word.bookItem), (Word.activeIndex, .int 0), (Word.version, .int 281474976710656)] ++
      (label.elim [] fun l => [(Word.label, .str l)]) ++ [(Word.blueprints, .arr bs)]))])

end FSat
