import Verif.Model.Sat
/-!
# Model of `factorio_sat/direction.py`, `factorio_sat/tile.py` and `factorio_sat/rotate.py`
-/

namespace FSat

/-- direction.py:5-10, the enum `Direction`. -/
inductive Dir where
  | right | up | left | down
deriving DecidableEq, Repr, Inhabited

/-- direction.py:55-58, the enum `Axis`. -/
inductive Axis where
  | horizontal | vertical
deriving DecidableEq, Repr

namespace Dir

/-- `for direction in Direction` iterates in definition order (direction.py:7-10). -/
def all : List Dir := [right, up, left, down]

/-- direction.py:7-10 and `__index__` (23-24). -/
def value : Dir → Nat
  | right => 0 | up => 1 | left => 2 | down => 3

/-- `Direction(n)` for a Python int: the member with that value, else `ValueError` (direction.py:5-10). -/
def ofInt (n : Int) : Except PyErr Dir :=
  if n = 0 then .ok right else if n = 1 then .ok up else if n = 2 then .ok left else if n = 3 then .ok down
  else .error .valueError

/-- The member with value `n % 4`; `Direction(n % 4)` never fails. -/
def ofMod (n : Int) : Dir :=
  if n % 4 = 0 then right else if n % 4 = 1 then up else if n % 4 = 2 then left else down

/-- direction.py:12-13 `vec`, and `dx`, `dy` (26-32). -/
def dx : Dir → Int
  | right => 1 | up => 0 | left => -1 | down => 0
/-- direction.py:12-13 `vec`, and `dx`, `dy` (26-32). -/
def dy : Dir → Int
  | right => 0 | up => -1 | left => 0 | down => 1

/-- direction.py:19-21. -/
def add (d : Dir) (rotation : Int) : Dir := ofMod (d.value + rotation)

/-- direction.py:34-36. -/
def next (d : Dir) : Dir := d.add 1
/-- direction.py:38-40. -/
def prev (d : Dir) : Dir := d.add (-1)
/-- direction.py:42-44. -/
def reverse (d : Dir) : Dir := d.add 2

/-- direction.py:50-52. -/
def axis (d : Dir) : Axis := if d.value % 2 = 0 then .horizontal else .vertical

/-- direction.py:15-17. Python's `//` and `%` on ints are floor division and modulus (here `Int.fdiv`/`Int.fmod`,
which for the positive divisors used coincide with `/` and `%`). -/
def fromFactorio (direction : Int) : Dir := ofMod (1 - direction / 2)

/-- direction.py:46-48. -/
def factorioDirection (d : Dir) : Int := ((1 - (d.value : Int)) % 4) * 2

end Dir

/-- tile.py: the tile classes `EmptyTile` (44-50), `FillerTile` (53-59), `Belt` (71-97), `UndergroundBelt` (100-130),
`Splitter` (133-163), `Inserter` (166-188), `AssemblingMachine` (191-211). -/
inductive Tile where
  | empty
  | filler
  | belt (inp out : Dir)
  | underground (d : Dir) (isInput : Bool)
  | splitter (d : Dir) (isHead : Bool)
  | inserter (d : Dir) (type : Int)
  | assembler (x y : Int)
deriving DecidableEq, Repr, Inhabited

namespace Tile

/-- `Belt.__init__` with `__post_init__` (tile.py:84-86). -/
def mkBelt (inp out : Dir) : Except PyErr Tile :=
  if inp.reverse = out then .error .runtimeError else .ok (belt inp out)

/-- `AssemblingMachine.__init__` with `__post_init__` (tile.py:198-200). -/
def mkAssembler (x y : Int) : Except PyErr Tile :=
  if ¬ (0 ≤ x ∧ x < 3) then .error .assertion
  else if ¬ (0 ≤ y ∧ y < 3) then .error .assertion
  else .ok (assembler x y)

/-- The tiles whose constructor does not raise. -/
def Valid : Tile → Prop
  | belt i o => i.reverse ≠ o
  | assembler x y => (0 ≤ x ∧ x < 3) ∧ (0 ≤ y ∧ y < 3)
  | _ => True

instance : DecidablePred Valid := fun t => by cases t <;> simp only [Valid] <;> infer_instance

/-- `input_direction` of the `BeltConnectedTile` classes (tile.py:75, 107-109, 140-142); `none` is Python's `None` or a
tile that is not a `BeltConnectedTile`. -/
def inputDirection : Tile → Option Dir
  | belt i _ => some i
  | underground d true => some d
  | splitter d _ => some d
  | _ => none

/-- `output_direction` of the `BeltConnectedTile` classes (tile.py:76, 111-113, 144-146). -/
def outputDirection : Tile → Option Dir
  | belt _ o => some o
  | underground d false => some d
  | splitter d _ => some d
  | _ => none

/-- tile.py:67-68 `flip_x_direction`. -/
def flipXDirection (d : Dir) : Dir := if d.axis = .horizontal then d.reverse else d

/-- `isinstance(tile, TransformableTile)` (tile.py:71, 100, 133, 166). -/
def transformable : Tile → Bool
  | belt _ _ | underground _ _ | splitter _ _ | inserter _ _ => true
  | _ => false

/-- `rotate_90` (tile.py:81-82, 118-119, 151-152, 176-177); only called on transformable tiles. -/
def rotate90 : Tile → Except PyErr Tile
  | belt i o => mkBelt i.next o.next
  | underground d i => .ok (underground d.next i)
  | splitter d h => .ok (splitter d.next h)
  | inserter d t => .ok (inserter d.next t)
  | _ => .error .attributeError

/-- `flip_x` (tile.py:78-79, 115-116, 148-149, 173-174). -/
def flipX : Tile → Except PyErr Tile
  | belt i o => mkBelt (flipXDirection i) (flipXDirection o)
  | underground d i => .ok (underground (flipXDirection d) i)
  | splitter d h => .ok (splitter (flipXDirection d) (!h))
  | inserter d t => .ok (inserter (flipXDirection d) t)
  | _ => .error .attributeError

/-- tile.py:34-35. -/
def rotate180 (t : Tile) : Except PyErr Tile := t.rotate90 >>= rotate90
/-- tile.py:37-38. -/
def rotate270 (t : Tile) : Except PyErr Tile := t.rotate180 >>= rotate90
/-- tile.py:40-41. -/
def flipY (t : Tile) : Except PyErr Tile := t.rotate90 >>= flipX >>= rotate270

end Tile

/-! ### JSON form -/

/-- JSON scalars that occur in a tile dictionary. -/
inductive JScalar where
  | int (n : Int)
  | bool (b : Bool)
  | str (s : String)
deriving DecidableEq, Repr

/-- A JSON object with scalar members; a Python `dict`, so keys are looked up by name. -/
abbrev JObj := List (String × JScalar)

namespace JObj
/-- `d[key]`, `KeyError` when missing. -/
def get (d : JObj) (key : String) : Except PyErr JScalar :=
  match d.lookup key with
  | none => .error .keyError
  | some x => .ok x
/-- An int member.  Python does not check the type here; a member of another type is outside the model (`typeError`). -/
def getInt (d : JObj) (key : String) : Except PyErr Int :=
  match get d key with
  | .error e => .error e
  | .ok (.int n) => .ok n
  | .ok _ => .error .typeError
/-- A bool member, same remark. -/
def getBool (d : JObj) (key : String) : Except PyErr Bool :=
  match get d key with
  | .error e => .error e
  | .ok (.bool n) => .ok n
  | .ok _ => .error .typeError
/-- `Direction(json_dict[key])`. -/
def getDir (d : JObj) (key : String) : Except PyErr Dir :=
  match getInt d key with
  | .error e => .error e
  | .ok n => Dir.ofInt n
end JObj

namespace Tile

/-- `write` (tile.py:19-20, 88-93, 121-126, 154-159, 179-184, 202-207). -/
def write : Tile → JObj
  | empty => [("type", .str "empty")]
  | filler => [("type", .str "filler")]
  | belt i o => [("type", .str "belt"), ("input_direction", .int i.value), ("output_direction", .int o.value)]
  | underground d i => [("type", .str "underground_belt"), ("direction", .int d.value), ("is_input", .bool i)]
  | splitter d h => [("type", .str "splitter"), ("direction", .int d.value), ("is_head", .bool h)]
  | inserter d t => [("type", .str "inserter"), ("direction", .int d.value), ("insert_type", .int t)]
  | assembler x y => [("type", .str "assembling_machine"), ("x", .int x), ("y", .int y)]

/-- `BaseTile.read` and the class `read` methods (tile.py:22-24, 48-50, 57-59, 95-97, 128-130, 161-163, 186-188,
209-211).  `TILE_TYPES[key]` raises `KeyError` for an unknown type. -/
def read (d : JObj) : Except PyErr Tile := do
  match ← JObj.get d "type" with
  | .str "empty" => .ok empty
  | .str "filler" => .ok filler
  | .str "belt" => mkBelt (← JObj.getDir d "input_direction") (← JObj.getDir d "output_direction")
  | .str "underground_belt" => .ok (underground (← JObj.getDir d "direction") (← JObj.getBool d "is_input"))
  | .str "splitter" => .ok (splitter (← JObj.getDir d "direction") (← JObj.getBool d "is_head"))
  | .str "inserter" => .ok (inserter (← JObj.getDir d "direction") (← JObj.getInt d "insert_type"))
  | .str "assembling_machine" => mkAssembler (← JObj.getInt d "x") (← JObj.getInt d "y")
  | _ => .error .keyError

end Tile

/-! ### rotate.py -/

/-- A rectangular numpy array, `get row column` (= `get y x`). -/
structure Arr (α : Type) where
  rows : Nat
  cols : Nat
  get : Fin rows → Fin cols → α

namespace Arr
variable {α β : Type}

/-- Elementwise map (`for cell in solution.flat`). -/
def map (f : α → β) (a : Arr α) : Arr β := ⟨a.rows, a.cols, fun i j => f (a.get i j)⟩

/-- `np.rot90(grid, k=1)`, counterclockwise: `result[i, j] = a[j, cols-1-i]` (numpy, external). -/
def rot90 (a : Arr α) : Arr α := ⟨a.cols, a.rows, fun i j => a.get j i.rev⟩
/-- `np.rot90(grid, k=2)`: `result[i, j] = a[rows-1-i, cols-1-j]`. -/
def rot180 (a : Arr α) : Arr α := ⟨a.rows, a.cols, fun i j => a.get i.rev j.rev⟩
/-- `np.rot90(grid, k=3)`: `result[i, j] = a[rows-1-j, i]`. -/
def rot270 (a : Arr α) : Arr α := ⟨a.cols, a.rows, fun i j => a.get j.rev i⟩
/-- `grid[:, ::-1]` (rotate.py:16). -/
def flipX (a : Arr α) : Arr α := ⟨a.rows, a.cols, fun i j => a.get i j.rev⟩
/-- `grid[::-1, :]` (rotate.py:17). -/
def flipY (a : Arr α) : Arr α := ⟨a.rows, a.cols, fun i j => a.get i.rev j⟩
end Arr

/-- rotate.py:11-17 `Operation`. -/
inductive Operation where
  | noOp | rot90 | rot180 | rot270 | flipX | flipY
deriving DecidableEq, Repr

/-- The tile component of an operation (rotate.py:12-17). -/
def Operation.tile : Operation → Tile → Except PyErr Tile
  | noOp, t => .ok t
  | rot90, t => t.rotate90
  | rot180, t => t.rotate180
  | rot270, t => t.rotate270
  | flipX, t => t.flipX
  | flipY, t => t.flipY

/-- The grid component of an operation (rotate.py:12-17). -/
def Operation.grid {α : Type} : Operation → Arr α → Arr α
  | noOp, a => a
  | rot90, a => a.rot90
  | rot180, a => a.rot180
  | rot270, a => a.rot270
  | flipX, a => a.flipX
  | flipY, a => a.flipY

/-- rotate.py:33-36, one cell: transformable tiles are transformed, others kept. -/
def Operation.cell (op : Operation) (t : Tile) : Except PyErr Tile :=
  if t.transformable then op.tile t else .ok t

/-- rotate.py:31-36, the body of the loop of `main` on the tiles of a solution (the other keys of the cells are carried along
unchanged and are not modelled).  The transformed cell, or the exception raised for it, per position. -/
def Operation.apply (op : Operation) (a : Arr Tile) : Arr (Except PyErr Tile) := (op.grid a).map op.cell

end FSat
