import Verif.Model.Tile
import Mathlib.Algebra.Order.Field.Rat
import Mathlib.Data.List.Sort
/-!
# Model of `factorio_sat/render.py`

What is drawn is modelled as a list of sprites with their places and colours, not as pixels: OpenGL, pygame, ffmpeg and the textures are
not modelled.  Colour components are exact fractions in place of floats.  The items are modelled after `blueprint.read_tile`
(blueprint.py:202-204) has read their `tile`; the older format without that key is not modelled.
-/

namespace FSat

/-! ### Items -/

/-- The value of one of the keys `colour`, `colour_ux`, `colour_uy` of an item: no such key, `None`, an int or a list. -/
inductive ColourVal where
  | absent
  | null
  | one (c : Int)
  | many (l : List (Option Int))
deriving DecidableEq, Repr

/-- One cell of a solution read from standard input, as far as render.py looks at it; `underground` is `none` if there is no such key. -/
structure Item where
  tile : Tile
  colour : ColourVal := .absent
  colourUx : ColourVal := .absent
  colourUy : ColourVal := .absent
  underground : Option (List Bool) := none

/-- A solution: rows of items, all of the same length (`np.array(…, ndmin=2)`, render.py:525,540). -/
abbrev Picture := List (List Item)

/-- render.py:82-86 `get_animation_length`. -/
def animationLength (s : Picture) : Nat :=
  if s.flatten.any fun i => match i.tile with | .splitter _ _ => true | _ => false then 32 else 16

/-! ### Sprites -/

/-- The textures (tilemaps.py:90-113). -/
inductive Sheet where
  | belt | underground | splitterEast (part : Nat) | splitterWest (part : Nat) | splitterNorth | splitterSouth
  | inserterPlatform (type : Nat) | assembling
deriving DecidableEq, Repr

/-- render.py:89-91. -/
inductive Layer where
  | bottom | top
deriving DecidableEq, Repr

/-- A call of `Tilemap.render` (tilemaps.py:49): entry `x`, `y` of the sheet, the part of it between `lower` and `upper`, moved by `shift`
(the calls of `glTranslatef` before it). -/
structure Sprite where
  sheet : Sheet
  x : Nat
  y : Nat
  lower : Rat × Rat := (0, 0)
  upper : Rat × Rat := (1, 1)
  shift : Rat × Rat := (0, 0)
deriving DecidableEq

/-- Python indexing of a list literal by a non-negative int. -/
def pyIndex {α : Type} (l : List α) (i : Nat) : Except PyErr α :=
  match l[i]? with
  | some a => .ok a
  | none => .error .indexError

/-- render.py:94-238 `render_tile`.  An inserter ends in a `TypeError`: `1 - tile.direction` (line 156) subtracts a member of the plain
enumeration `Direction` (direction.py:5), which defines no arithmetic; before that `tilemaps.INSERTER_PLATFORM[tile.type]` is a tuple of
two.  The code after that line (the arm, lines 158-204) is never reached for an inserter, since the bottom layer comes first. -/
def renderTile (t : Tile) (animation : Nat) (layer : Layer) : Except PyErr (List Sprite) :=
  match t with
  | .belt i o =>
    match layer with
    | .bottom =>
      match pyIndex [[11, 8, 4, 7], [0, 2, 1, 3], [6, 10, 9, 5]] (((o.value : Int) - i.value + 1) % 4).toNat with
      | .error e => .error e
      | .ok row =>
        match pyIndex row i.value with
        | .error e => .error e
        | .ok y => .ok [{ sheet := .belt, x := animation % 16, y := y, shift := (-1/2, -1/2) }]
    | .top => .ok []
  | .underground d isInput =>
    match layer with
    | .bottom =>
      match pyIndex (if isInput then [19, 17, 15, 13] else [14, 12, 18, 16]) d.value with
      | .error e => .error e
      | .ok y => .ok [{ sheet := .belt, x := animation % 16, y := y, shift := (-1/2, -1/2) }]
    | .top =>
      match pyIndex (if isInput then [1, 0, 3, 2] else [3, 2, 1, 0]) d.value with
      | .error e => .error e
      | .ok x => .ok [{ sheet := .underground, x := x, y := if isInput then 1 else 0, shift := (-1, -1) }]
  | .splitter d isHead =>
    match layer with
    | .bottom =>
      match pyIndex [0, 2, 1, 3] d.value with
      | .error e => .error e
      | .ok y => .ok [{ sheet := .belt, x := animation % 16, y := y, shift := (-1/2, -1/2) }]
    | .top =>
      let x := animation % 8
      let y := animation / 8 % 4
      match d with
      | .right => if !isHead then .ok [{ sheet := .splitterEast 1, x := x, y := y, shift := (0, -1/2) }]
        else .ok [{ sheet := .splitterEast 0, x := x, y := y, shift := (0, -5/16) }]
      | .left => if !isHead then .ok [{ sheet := .splitterWest 0, x := x, y := y, shift := (0, -5/16) }]
        else .ok [{ sheet := .splitterWest 1, x := x, y := y, shift := (0, -5/16) }]
      | .up => if !isHead then .ok [{ sheet := .splitterNorth, x := x, y := y, upper := (13/32, 1) }]
        else .ok [{ sheet := .splitterNorth, x := x, y := y, lower := (13/32, 0) }]
      | .down => if !isHead then .ok [{ sheet := .splitterSouth, x := x, y := y, lower := (14/32, 0), shift := (-4/32, 0) }]
        else .ok [{ sheet := .splitterSouth, x := x, y := y, upper := (14/32, 1), shift := (-4/32 + -1/32, 0) }]
  | .inserter _ type => if type = 0 ∨ type = 1 ∨ type = -1 ∨ type = -2 then .error .typeError else .error .indexError
  | .assembler x y =>
    match layer with
    | .bottom =>
      match (if x = 0 then some ((-15/64 : Rat), (0 : Rat), (12/32 : Rat)) else if x = 1 then some (0, 12/32, 216/320)
          else if x = 2 then some (0, 216/320, 1) else none),
        (if y = 0 then some ((-27/128 : Rat), (21/32 : Rat), (1 : Rat)) else if y = 1 then some (0, 47/128, 21/32)
          else if y = 2 then some (0, 0, 47/128) else none) with
      | some (sx, lx, ux), some (sy, ly, uy) =>
        .ok [⟨.assembling, animation % 8, animation / 8 % 4, (lx, ly), (ux, uy), (sx, sy)⟩]
      | _, _ => .error .assertion
    | .top => .ok []
  | .empty => .error .assertion
  | .filler => .error .assertion

/-! ### Colours -/

/-- Red, green and blue. -/
abbrev Rgb := Rat × Rat × Rat

/-- render.py:451-467 `HSVtoRGB`, for a hue from 0 to 1, where `hue % 1` is the hue itself (`create_palette` passes `i / colours`); `a % 2` of
a fraction is `a - 2 * floor(a / 2)`. -/
def hsvToRgb (hue sat val : Rat) : Rgb :=
  let c := val * sat
  let h := (hue - hue.floor) * 6
  let x := c * (1 - |(h - 2 * (h / 2).floor) - 1|)
  let out : Rgb :=
    if h > 5 then (c, 0, x) else if h > 4 then (x, 0, c) else if h > 3 then (0, x, c) else if h > 2 then (0, c, x)
    else if h > 1 then (x, c, 0) else (c, x, 0)
  (out.1 + (val - c), out.2.1 + (val - c), out.2.2 + (val - c))

/-- render.py:470-480 `create_palette`, for a number of colours that is not negative. -/
def createPalette (colours : Nat) : List Rgb :=
  if colours = 1 then [(1, 1, 1)]
  else if colours ≤ 3 then [(1, 1/2, 1/2), (1/2, 1, 1/2), (1/2, 1/2, 1)].take colours
  else (List.range colours).map fun (i : Nat) => hsvToRgb ((i : Rat) / colours) (2/5) 1

/-- `glColor3f(0.5, 0.5, 0.5)` (render.py:278,304,321). -/
def grey : Rgb := (1/2, 1/2, 1/2)

/-- render.py:246-250: the colours that a value adds to `all_colours`; a missing key counts as 0. -/
def ColourVal.all : ColourVal → List (Option Int)
  | .absent => [some 0]
  | .null => [none]
  | .one c => [some c]
  | .many l => l

/-- render.py:269-271, 298-300, 315-317: the colour that is drawn; `colour[0]` fails on an empty list. -/
def ColourVal.shown : ColourVal → Except PyErr (Option Int)
  | .absent => .ok (some 0)
  | .null => .ok none
  | .one c => .ok (some c)
  | .many l => pyIndex l 0

/-- render.py:243-251: the set `all_colours` without `None`, sorted (line 255). -/
def allColours (s : Picture) : List Int :=
  ((s.flatten.flatMap fun i => i.colour.all ++ i.colourUx.all ++ i.colourUy.all).filterMap id).dedup.insertionSort (· ≤ ·)

/-- render.py:252-258: the colour of a number.  Without `--colour-count` a dict from the colours in use; otherwise an array, whose
indices may be negative. -/
def palette (s : Picture) : Option Int → Except PyErr (Int → Except PyErr Rgb)
  | none => .ok fun c =>
      match ((allColours s).zip (createPalette (allColours s).length)).find? fun e => e.1 == c with
      | some e => .ok e.2
      | none => .error .keyError
  | some count =>
    if (allColours s).length ≤ count then
      .ok fun c => if 0 ≤ c then pyIndex (createPalette count.toNat) c.toNat
        else if -count ≤ c then pyIndex (createPalette count.toNat) (count + c).toNat else .error .indexError
    else .error .assertion

/-- render.py:276-282, 302-308, 319-325: `glColor3f`. -/
def paint (pal : Option (Int → Except PyErr Rgb)) (c : Option Int) : Except PyErr Rgb :=
  match pal with
  | none => .ok (1, 1, 1)
  | some f =>
    match c with
    | none => .ok grey
    | some c => f c

/-! ### The picture -/

/-- Something drawn in the cell `x`, `y`: a sprite, or the line that marks an underground belt along an axis (render.py:309-312,
327-330). -/
inductive Drawing where
  | sprite (layer : Layer) (s : Sprite)
  | line (axis : Axis)
deriving DecidableEq

/-- A drawing with its cell and colour. -/
structure Mark where
  x : Nat
  y : Nat
  colour : Rgb
  what : Drawing
deriving DecidableEq

/-- Runs a function on every element and joins the results, stopping at the first exception. -/
def gather {α β : Type} (f : α → Except PyErr (List β)) : List α → Except PyErr (List β)
  | [] => .ok []
  | a :: as =>
    match f a with
    | .error e => .error e
    | .ok b =>
      match gather f as with
      | .error e => .error e
      | .ok bs => .ok (b ++ bs)

/-- `solution[y, x]`; the places asked for exist. -/
def Picture.at (s : Picture) (x y : Nat) : Option Item := s[y]?.bind (·[x]?)

/-- `solution.shape[1]`. -/
def Picture.width (s : Picture) : Nat := (s.headD []).length

/-- render.py:263-285: one cell in one layer. -/
def renderCell (pal : Option (Int → Except PyErr Rgb)) (animation : Nat) (layer : Layer) (x y : Nat) (i : Item) :
    Except PyErr (List Mark) :=
  if i.tile = .empty ∨ i.tile = .filler then .ok []
  else
    match i.colour.shown with
    | .error e => .error e
    | .ok c =>
      match paint pal c with
      | .error e => .error e
      | .ok rgb =>
        match renderTile i.tile animation layer with
        | .error e => .error e
        | .ok sprites => .ok (sprites.map fun s => ⟨x, y, rgb, .sprite layer s⟩)

/-- The elements at the even places, `l[0::2]`. -/
def evens {α : Type} : List α → List α
  | [] => []
  | [a] => [a]
  | a :: _ :: l => a :: evens l

/-- The elements at the odd places, `l[1::2]`. -/
def odds {α : Type} (l : List α) : List α := evens l.tail

/-- render.py:297-312 and 314-330: the line along one axis. -/
def renderLine (pal : Option (Int → Except PyErr Rgb)) (x y : Nat) (axis : Axis) (flags : List Bool) (colour : ColourVal) :
    Except PyErr (List Mark) :=
  if flags.any id then
    match colour.shown with
    | .error e => .error e
    | .ok c =>
      match paint pal c with
      | .error e => .error e
      | .ok rgb => .ok [⟨x, y, rgb, .line axis⟩]
  else .ok []

/-- render.py:288-331: the underground belts of one cell. -/
def renderUnderground (pal : Option (Int → Except PyErr Rgb)) (x y : Nat) (i : Item) : Except PyErr (List Mark) :=
  match i.underground with
  | none => .ok []
  | some u => gather id [renderLine pal x y .horizontal (evens u) i.colourUx, renderLine pal x y .vertical (odds u) i.colourUy]

/-- The cells in the order of render.py:261-262: columns from right to left, each from top to bottom. -/
def drawOrder (s : Picture) : List (Nat × Nat) :=
  (List.range s.width).reverse.flatMap fun x => (List.range s.length).map fun y => (x, y)

/-- The cells row by row, `np.ndenumerate` (render.py:288). -/
def rowOrder (s : Picture) : List (Nat × Nat) :=
  (List.range s.length).flatMap fun y => (List.range s.width).map fun x => (x, y)

/-- A cell of the solution given to a function. -/
def onCell (s : Picture) (f : Nat → Nat → Item → Except PyErr (List Mark)) (p : Nat × Nat) : Except PyErr (List Mark) :=
  match s.at p.1 p.2 with
  | some i => f p.1 p.2 i
  | none => .error .indexError

/-- render.py:241-331 `render_solution`: what is drawn, in order. -/
def renderSolution (s : Picture) (animation : Nat) (colouring : Bool) (colourCount : Option Int) (underground : Bool) :
    Except PyErr (List Mark) :=
  match (if colouring then (palette s colourCount).map some else .ok none) with
  | .error e => .error e
  | .ok pal =>
    gather id (([Layer.bottom, .top].map fun layer => gather (onCell s (renderCell pal animation layer)) (drawOrder s)) ++
      (if underground then [gather (onCell s (renderUnderground pal)) (rowOrder s)] else []))

end FSat
