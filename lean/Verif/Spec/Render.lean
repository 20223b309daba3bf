import Verif.Model.Render
import Verif.Spec.Layout
/-!
# What a picture of a layout should show
-/

namespace FSat

/-- A solution whose rows have the same length. -/
def Picture.Rect (s : Picture) : Prop := ∀ r ∈ s, r.length = s.width

/-- Every tile of the solution is one that can be built. -/
def Picture.Valid (s : Picture) : Prop := ∀ r ∈ s, ∀ i ∈ r, i.tile.Valid

/-- Nothing is drawn for this tile. -/
def Tile.Blank (t : Tile) : Prop := t = .empty ∨ t = .filler

/-- What a row of the game's sheet of belts shows: a straight belt, a turn from one side of the tile to another, and the pieces before the
first and behind the last tile of a line, on the given side. -/
inductive BeltRow where
  | straight (d : Dir)
  | turn (fromSide toSide : Dir)
  | starting (side : Dir)
  | ending (side : Dir)
deriving DecidableEq

/-- The rows of the game's sheet of belts, in its order (east, west, north, south, then the turns, then the ends). -/
def beltSheet : List BeltRow :=
  [.straight .right, .straight .left, .straight .up, .straight .down,
   .turn .right .up, .turn .up .right, .turn .left .up, .turn .up .left, .turn .down .right, .turn .right .down, .turn .down .left,
   .turn .left .down,
   .starting .down, .ending .down, .starting .left, .ending .left, .starting .up, .ending .up, .starting .right, .ending .right]

/-- The belt that belongs under a tile. -/
def Tile.beltRow : Tile → Option BeltRow
  | .belt i o => some (if i = o then .straight o else .turn i.opp o)
  | .underground d true => some (.ending d)
  | .underground d false => some (.starting d.opp)
  | .splitter d _ => some (.straight d)
  | _ => none

/-- The sprite of a mark, if it lies in this layer of this cell. -/
def spriteIn (x y : Nat) (layer : Layer) (m : Mark) : Option Sprite :=
  if m.x = x ∧ m.y = y then
    match m.what with
    | .sprite l s => if l = layer then some s else none
    | .line _ => none
  else none

/-- The sprites of one layer in one cell of a picture, in the order in which they are drawn. -/
def spritesAt (ms : List Mark) (x y : Nat) (layer : Layer) : List Sprite := ms.filterMap (spriteIn x y layer)

/-- `m` may be drawn before `m'`: first the lower layer, then the upper one, then the lines; in a layer the columns from right to left and
in a column from top to bottom. -/
def Mark.Before (m m' : Mark) : Prop :=
  match m.what, m'.what with
  | .sprite .bottom _, .sprite .top _ => True
  | .sprite .top _, .sprite .bottom _ => False
  | .sprite _ _, .sprite _ _ => m'.x < m.x ∨ (m.x = m'.x ∧ m.y ≤ m'.y)
  | .sprite _ _, .line _ => True
  | .line _, .sprite _ _ => False
  | .line _, .line _ => True

/-- The colour number that belongs to a mark in the cell of `i`: the colour of the tile, or that of the underground belt along the axis. -/
def Item.colourOf (i : Item) : Drawing → ColourVal
  | .sprite _ _ => i.colour
  | .line .horizontal => i.colourUx
  | .line .vertical => i.colourUy

/-- The place of a direction in the game's sheet of underground belts: north, east, south, west. -/
def Dir.compass : Dir → Nat
  | .up => 0
  | .right => 1
  | .down => 2
  | .left => 3

/-- The sheets with splitters of one direction. -/
def Sheet.OfSplitter (d : Dir) : Sheet → Prop
  | .splitterEast _ => d = .right
  | .splitterWest _ => d = .left
  | .splitterNorth => d = .up
  | .splitterSouth => d = .down
  | _ => False

/-- The sprites that show a tile in frame `a`: the belt below, and above it the hood of an underground belt (facing away from its belt,
in the row of its kind) or a half of a splitter of the right direction; an assembling machine is a single sprite.  Belts repeat after 16
frames, splitters and machines after 32. -/
def Tile.Shown (t : Tile) (a : Nat) (bottom top : List Sprite) : Prop :=
  match t with
  | .empty | .filler => bottom = [] ∧ top = []
  | .belt _ _ => ∃ s, bottom = [s] ∧ top = [] ∧ s.sheet = .belt ∧ s.x = a % 16 ∧ beltSheet[s.y]? = t.beltRow
  | .underground d isInput => ∃ s s', bottom = [s] ∧ top = [s'] ∧ s.sheet = .belt ∧ s.x = a % 16 ∧ beltSheet[s.y]? = t.beltRow ∧
      s'.sheet = .underground ∧ s'.y = (if isInput then 1 else 0) ∧ s'.x = (if isInput then d else d.opp).compass
  | .splitter d _ => ∃ s s', bottom = [s] ∧ top = [s'] ∧ s.sheet = .belt ∧ s.x = a % 16 ∧ beltSheet[s.y]? = t.beltRow ∧
      s'.sheet.OfSplitter d ∧ s'.x + 8 * s'.y = a % 32
  | .assembler _ _ => ∃ s, bottom = [s] ∧ top = [] ∧ s.sheet = .assembling ∧ s.x + 8 * s.y = a % 32
  | .inserter _ _ => False

/-- No inserter is in the solution. -/
def Picture.NoInserter (s : Picture) : Prop := ∀ r ∈ s, ∀ i ∈ r, ∀ d t, i.tile ≠ .inserter d t

/-- No colour of the solution is an empty list. -/
def Picture.NoEmptyColour (s : Picture) : Prop :=
  ∀ r ∈ s, ∀ i ∈ r, i.colour ≠ .many [] ∧ i.colourUx ≠ .many [] ∧ i.colourUy ≠ .many []

end FSat
