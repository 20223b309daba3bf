import Verif.Model.Tile
import Verif.Model.Template
import Verif.Model.Cardinality
import Mathlib.Data.Nat.Size
/-!
# Model of `factorio_sat/solver.py`

Clause lists are modelled up to the order of clauses in the list.
-/

namespace FSat

/-- The members of one tile instance that `Grid` reads (solver.py:13-29, 48-76).  A list of four literals indexed by `Direction`
is a function on `Dir`.  On a grid without colours the colour lists are empty. -/
structure TileInst where
  isBelt : Lit
  isEmpty : Lit
  isSplitter : Lit
  isUgIn : Lit
  isUgOut : Lit
  isHead : Lit
  isInput : Lit
  isOutput : Lit
  inp : Dir → Lit
  out : Dir → Lit
  ug : Dir → Lit
  colour : List Lit
  colourUx : List Lit
  colourUy : List Lit

/-- The list of the four literals in index order. -/
def dirs (f : Dir → Lit) : List Lit := Dir.all.map f

/-- solver.py:60-67, the alias `type`. -/
def TileInst.types (t : TileInst) : List Lit := [t.isBelt, t.isEmpty, t.isSplitter, t.isUgIn, t.isUgOut]

/-- solver.py:68, the alias `all_direction`. -/
def TileInst.allDir (t : TileInst) : List Lit := dirs t.inp ++ dirs t.out

/-- A `Grid` object (solver.py:32-83, template.py:271-294).  `ugLen = none` is `float('inf')`; `colours = none` is `None`;
`tile x y` is `tiles[y, x]`. -/
structure Grid where
  width : Nat
  height : Nat
  edge : EdgeMode
  colours : Option Nat
  ugLen : Option Nat
  tile : Nat → Nat → TileInst

namespace Grid

/-- The tile at a position. -/
def at' (g : Grid) (p : Nat × Nat) : TileInst := g.tile p.1 p.2

/-- `for x in range(self.width): for y in range(self.height)`, also the order of `iterate_tiles` (template.py:304-307). -/
def cells (g : Grid) : List (Nat × Nat) :=
  (List.range g.width).flatMap fun x => (List.range g.height).map fun y => (x, y)

/-- `get_tile_instance_offset` (template.py:373-386) as a position; the lookup inside never fails (`c14_offset`). -/
def offset (g : Grid) (p : Nat × Nat) (dx dy : Int) : Option (Nat × Nat) :=
  match offsetPos g.width g.height g.edge p.1 p.2 dx dy with
  | .ok r => r
  | .error _ => none

/-- The neighbour in a direction: `get_tile_instance_offset(x, y, *direction.vec)`. -/
def nb (g : Grid) (p : Nat × Nat) (d : Dir) : Option (Nat × Nat) := g.offset p d.dx d.dy

end Grid

/-- solver.py:85-125: the clauses of one tile, without the colour ranges. -/
def cellClauses (t : TileInst) : Cnf :=
  quadraticOne t.types
  ++ implies [t.isEmpty] (setAllFalse t.allDir)
  ++ implies [t.isBelt] [dirs t.inp, dirs t.out]
  ++ implies [t.isUgIn] ([dirs t.inp] ++ setAllFalse (dirs t.out))
  ++ implies [t.isUgOut] ([dirs t.out] ++ setAllFalse (dirs t.inp))
  ++ implies [t.isSplitter] [t.allDir]
  ++ quadraticAmo (dirs t.inp)
  ++ quadraticAmo (dirs t.out)
  ++ quadraticAmo [t.ug .right, t.ug .left]
  ++ quadraticAmo [t.ug .up, t.ug .down]
  ++ [[-t.isHead, t.isSplitter]]
  ++ Dir.all.flatMap (fun d =>
      implies [t.isSplitter, t.inp d] (setAllFalse ((Dir.all.filter (· ≠ d)).map t.out))
      ++ implies [t.isSplitter, t.out d] (setAllFalse ((Dir.all.filter (· ≠ d)).map t.inp)))
  ++ Dir.all.flatMap (fun d =>
      quadraticAmo [t.inp d, t.out d.reverse]
      ++ implies [t.isSplitter, t.inp d] [[-t.out d.next]])

/-- Concatenate the results of a clause generator that may raise. -/
def concatE {α : Type} (f : α → Except PyErr Cnf) : List α → Except PyErr Cnf
  | [] => .ok []
  | a :: as =>
    match f a with
    | .error e => .error e
    | .ok c =>
      match concatE f as with
      | .error e => .error e
      | .ok cs => .ok (c ++ cs)

/-- solver.py:127-130: the colour range clauses of one tile. -/
def colourRangeClauses (colours : Option Nat) (t : TileInst) : Except PyErr Cnf :=
  match colours with
  | none => .ok []
  | some n => concatE (fun r => setMaximum ((n : Int) - 1) r) [t.colour, t.colourUx, t.colourUy]

/-- solver.py:134-152 for one direction and one start tile. -/
def splitterLine (g : Grid) (d : Dir) (p : Nat × Nat) : Cnf :=
  let inv := d.reverse
  let a := g.at' p
  match g.nb p d.next with
  | none =>
    [[-a.inp d, -a.isSplitter, -a.isHead],
     [-a.out d, -a.isSplitter, -a.isHead],
     [-a.inp inv, -a.isSplitter, a.isHead],
     [-a.out inv, -a.isSplitter, a.isHead]]
  | some q =>
    let b := g.at' q
    [a.inp, a.out].flatMap fun side =>
      implies [side d, a.isHead] [[b.isSplitter], [-b.isHead]]
      ++ implies [side inv, a.isSplitter, -a.isHead] [[b.isHead]]
      ++ implies [side d, a.isHead] [[b.inp d, b.out d]]
      ++ implies [side inv, a.isSplitter, -a.isHead] [[b.inp inv, b.out inv]]

/-- solver.py:132-152. -/
def splitterClauses (g : Grid) : Cnf := Dir.all.flatMap fun d => g.cells.flatMap fun p => splitterLine g d p

/-- The six clauses of a corner, e.g. solver.py:161-166: inputs `i1`, `i2`, outputs `o1`, `o2`. -/
def cornerClauses (t : TileInst) (i1 i2 o1 o2 : Dir) : Cnf :=
  implies [t.isInput] [[t.inp i1, t.inp i2]]
  ++ implies [t.inp i1] [[t.isInput]]
  ++ implies [t.inp i2] [[t.isInput]]
  ++ implies [t.isOutput] [[t.out o1, t.out o2]]
  ++ implies [t.out o1] [[t.isOutput]]
  ++ implies [t.out o2] [[t.isOutput]]

/-- The four clauses of an edge, e.g. solver.py:177-180. -/
def sideClauses (t : TileInst) (i o : Dir) : Cnf :=
  implies [t.isInput] [[t.inp i]]
  ++ implies [t.inp i] [[t.isInput]]
  ++ implies [t.isOutput] [[t.out o]]
  ++ implies [t.out o] [[t.isOutput]]

/-- solver.py:157-220 for one cell. -/
def ioClauses (g : Grid) (p : Nat × Nat) : Cnf :=
  let t := g.at' p
  let x := p.1
  let y := p.2
  if x = 0 then
    if y = 0 then cornerClauses t .right .down .left .up
    else if y = g.height - 1 then cornerClauses t .right .up .left .down
    else sideClauses t .right .left
  else if x = g.width - 1 then
    if y = 0 then cornerClauses t .left .down .right .up
    else if y = g.height - 1 then cornerClauses t .left .up .right .down
    else sideClauses t .left .right
  else if y = 0 then sideClauses t .down .up
  else if y = g.height - 1 then sideClauses t .up .down
  else [[-t.isInput], [-t.isOutput]]

/-- The clauses `Grid.__init__` creates (solver.py:85-220). -/
def initClauses (g : Grid) : Except PyErr Cnf :=
  match concatE (fun p => colourRangeClauses g.colours (g.at' p)) g.cells with
  | .error e => .error e
  | .ok cs => .ok (g.cells.flatMap (fun p => cellClauses (g.at' p)) ++ cs ++ splitterClauses g
      ++ g.cells.flatMap (ioClauses g))

/-- `get_tile_instance` (template.py:369-371) for `Nat` coordinates. -/
def Grid.getTile (g : Grid) (x y : Nat) : Except PyErr TileInst :=
  if x < g.width ∧ y < g.height then .ok (g.tile x y) else .error .assertion

/-- solver.py:222-245 `set_tile`, the clauses added. -/
def setTile (g : Grid) (x y : Nat) (tile : Tile) : Except PyErr Cnf :=
  match g.getTile x y with
  | .error e => .error e
  | .ok t =>
    match tile with
    | .empty => .ok [[t.isEmpty]]
    | .filler => .ok [[t.isEmpty]]
    | .splitter d h => .ok [[t.isSplitter], [setLiteral t.isHead h], [t.inp d, t.out d]]
    | .belt i o => .ok [[t.isBelt], [t.inp i], [t.out o]]
    | .underground d true => .ok [[t.isUgIn], [t.inp d]]
    | .underground d false => .ok [[t.isUgOut], [t.out d]]
    | _ => .error .runtimeError

/-- The values of the literals of a tile under an assignment. -/
structure CellVal where
  isBelt : Bool
  isEmpty : Bool
  isSplitter : Bool
  isUgIn : Bool
  isUgOut : Bool
  isHead : Bool
  isInput : Bool
  isOutput : Bool
  inp : Dir → Bool
  out : Dir → Bool
  ug : Dir → Bool
  colour : List Bool
  colourUx : List Bool
  colourUy : List Bool

/-- Evaluate a tile instance: what `mapping[...]` returns for each of its literals (template.py:388-393). -/
def evalTile (v : Asg) (t : TileInst) : CellVal where
  isBelt := ev v t.isBelt
  isEmpty := ev v t.isEmpty
  isSplitter := ev v t.isSplitter
  isUgIn := ev v t.isUgIn
  isUgOut := ev v t.isUgOut
  isHead := ev v t.isHead
  isInput := ev v t.isInput
  isOutput := ev v t.isOutput
  inp := fun d => ev v (t.inp d)
  out := fun d => ev v (t.out d)
  ug := fun d => ev v (t.ug d)
  colour := t.colour.map (ev v)
  colourUx := t.colourUx.map (ev v)
  colourUy := t.colourUy.map (ev v)

/-- `OneHotTemplate.parse` (template.py:197-202) of a direction list, followed by `Direction(...)` (solver.py:250-253). -/
def firstDir (f : Dir → Bool) : Option Dir := Dir.all.find? f

/-- solver.py:247-272 `read_tile` on a parsed cell.  `Belt(None, _)` raises `AttributeError` in `__post_init__`
(tile.py:84-86); `Belt(i, None)` does not raise in Python but is reported as an error here. -/
def readTile (c : CellVal) : Except PyErr Tile :=
  let input := firstDir c.inp
  let output := firstDir c.out
  if c.isSplitter then
    match input with
    | some d => .ok (.splitter d c.isHead)
    | none =>
      match output with
      | some d => .ok (.splitter d c.isHead)
      | none => .error .assertion
  else if c.isEmpty then .ok .empty
  else if c.isUgIn then
    match input with
    | some d => .ok (.underground d true)
    | none => .error .assertion
  else if c.isUgOut then
    match output with
    | some d => .ok (.underground d false)
    | none => .error .assertion
  else if c.isBelt then
    match input, output with
    | some i, some o => Tile.mkBelt i o
    | _, _ => .error .attributeError
  else .error .assertion

/-- The decoded cell of a solution: `parse_cell` (template.py:452-455) up to the `write` of the tile. -/
def decodeCell (g : Grid) (v : Asg) (p : Nat × Nat) : Except PyErr Tile := readTile (evalTile v (g.at' p))

/-- solver.py:274-281. `set_not_number` may fail its assertion.  On a grid without colours Python raises; here the colour lists
are empty. -/
def preventColour (g : Grid) (colour : Int) : Except PyErr Cnf :=
  concatE (fun p =>
    let t := g.at' p
    if colour = 0 then
      match setNotNumber 0 t.colour with
      | .error e => .error e
      | .ok c => .ok (t.allDir.map fun l => -l :: c)
    else concatE (fun r => match setNotNumber colour r with
      | .error e => .error e
      | .ok c => .ok [c]) [t.colour, t.colourUx, t.colourUy]) g.cells

/-- solver.py:283-286. -/
def setColour (g : Grid) (x y : Nat) (colour : Int) : Except PyErr Cnf :=
  if colour < 0 then .error .assertion
  else
    match g.colours with
    | none => .error .typeError
    | some n =>
      if colour < n then
        match g.getTile x y with
        | .error e => .error e
        | .ok t => setNumber colour t.colour
      else .error .assertion

/-- solver.py:296-332 for one direction and cell; `q`, `qux`, `quy` are the (flattened) quantities of the tile at a position. -/
def transportCell (g : Grid) (q qux quy : Nat × Nat → List Lit) (d : Dir) (p : Nat × Nat) : Except PyErr Cnf :=
  match g.nb p d with
  | none => .ok []
  | some p' =>
    let a := g.at' p
    let b := g.at' p'
    let qu := if d.axis = .horizontal then qux else quy
    concatE (fun r : List Lit × List Lit × List Lit =>
      match setNumbersEqual r.2.1 r.2.2 with
      | .error e => .error e
      | .ok c => .ok (implies r.1 c))
      [([a.out d, -a.isSplitter], q p, q p'),
       ([a.ug d], qu p, qu p'),
       ([a.inp d, -a.isSplitter] ++ invertComponents (dirs a.out), q p, qu p'),
       ([b.out d, -b.isSplitter] ++ invertComponents (dirs b.inp), qu p, q p')]

/-- solver.py:288-332. -/
def transportQuantity (g : Grid) (q qux quy : Nat × Nat → List Lit) : Except PyErr Cnf :=
  concatE (fun d => concatE (transportCell g q qux quy d) g.cells) Dir.all

/-- solver.py:334-337. -/
def preventBadColouring (g : Grid) : Except PyErr Cnf :=
  if g.colours = some 1 ∨ g.colours = none then .ok []
  else transportQuantity g (fun p => (g.at' p).colour) (fun p => (g.at' p).colourUx) (fun p => (g.at' p).colourUy)

/-- The argument `edges` of the blocking methods after solver.py:340-347: `min_x, min_y, max_x, max_y`. -/
structure Edges where
  minX : Bool
  minY : Bool
  maxX : Bool
  maxY : Bool
deriving DecidableEq, Repr

/-- solver.py:340-345: a single bool, and a pair (horizontal, vertical). -/
def Edges.ofBool (b : Bool) : Edges := ⟨b, b, b, b⟩
/-- solver.py:343-345. -/
def Edges.ofPair (horizontal vertical : Bool) : Edges := ⟨horizontal, vertical, horizontal, vertical⟩

/-- One blocked cell of `block_underground_through_edges`, e.g. solver.py:351-354: `d` is the outward direction. -/
def blockUgCell (t : TileInst) (d : Dir) : Cnf :=
  setAllFalse (if d.axis = .horizontal then [t.ug .right, t.ug .left] else [t.ug .up, t.ug .down])
  ++ implies [t.inp d] [[-t.isUgIn]]
  ++ implies [t.out d.reverse] [[-t.isUgOut]]

/-- solver.py:339-372. -/
def blockUnderground (g : Grid) (e : Edges) : Cnf :=
  (if e.minX then (List.range g.height).flatMap fun y => blockUgCell (g.tile 0 y) .left else [])
  ++ (if e.maxX then (List.range g.height).flatMap fun y => blockUgCell (g.tile (g.width - 1) y) .right else [])
  ++ (if e.minY then (List.range g.width).flatMap fun x => blockUgCell (g.tile x 0) .up else [])
  ++ (if e.maxY then (List.range g.width).flatMap fun x => blockUgCell (g.tile x (g.height - 1)) .down else [])

/-- One blocked cell of `block_belts_through_edges`, e.g. solver.py:385-388: `d` is the outward direction. -/
def blockBeltCell (t : TileInst) (d : Dir) : Cnf :=
  setAllFalse [t.inp d.reverse, t.out d]
  ++ [(-t.inp d) :: dirs t.out, (-t.out d.reverse) :: dirs t.inp]

/-- solver.py:374-406. -/
def blockBelts (g : Grid) (e : Edges) : Cnf :=
  (if e.minX then (List.range g.height).flatMap fun y => blockBeltCell (g.tile 0 y) .left else [])
  ++ (if e.maxX then (List.range g.height).flatMap fun y => blockBeltCell (g.tile (g.width - 1) y) .right else [])
  ++ (if e.minY then (List.range g.width).flatMap fun x => blockBeltCell (g.tile x 0) .up else [])
  ++ (if e.maxY then (List.range g.width).flatMap fun x => blockBeltCell (g.tile x (g.height - 1)) .down else [])

/-- solver.py:415-455 for one direction and cell. -/
def undergroundCell (g : Grid) (d : Dir) (p : Nat × Nat) : Cnf :=
  let a := g.at' p
  implies [a.isUgIn, a.inp d] [[-a.ug d], [-a.ug d.reverse]]
  ++ implies [a.isUgOut, a.out d] [[-a.ug d], [-a.ug d.reverse]]
  ++ (match g.offset p d.dx d.dy with
      | none => []
      | some q => implies [a.isUgIn, a.inp d] [[(g.at' q).ug d]])
  ++ (match g.offset p (-d.dx) (-d.dy) with
      | none => []
      | some q => implies [a.isUgOut, a.out d] [[(g.at' q).ug d]])
  ++ (match g.offset p d.dx d.dy with
      | none => []
      | some q => implies [a.ug d, -(g.at' q).ug d] [[(g.at' q).isUgOut], [(g.at' q).out d]])
  ++ (match g.offset p (-d.dx) (-d.dy) with
      | none => []
      | some q => implies [a.ug d, -(g.at' q).ug d] [[(g.at' q).isUgIn], [(g.at' q).inp d]])

/-- solver.py:408-455. -/
def preventBadUndergrounding (g : Grid) : Cnf := Dir.all.flatMap fun d => g.cells.flatMap (undergroundCell g d)

/-- The loop solver.py:467-476 from offset `i` on with `n` iterations left: `none` when the loop hits `break`. -/
def lengthClause (g : Grid) (d : Dir) (p : Nat × Nat) : Nat → Nat → Option Clause
  | _, 0 => some []
  | i, n + 1 =>
    match g.offset p (d.dx * i) (d.dy * i) with
    | none => none
    | some q =>
      match lengthClause g d p (i + 1) n with
      | none => none
      | some c => some (-(g.at' q).ug d :: c)

/-- solver.py:457-476. -/
def enforceMaximumUndergroundLength (g : Grid) : Except PyErr Cnf :=
  match g.ugLen with
  | none => .ok []
  | some L =>
    if L ≥ 1 then
      .ok (Dir.all.flatMap fun d => g.cells.flatMap fun p =>
        match lengthClause g d p 0 (L + 1) with
        | none => []
        | some c => [c])
    else .error .assertion

/-- solver.py:480-496 for one direction and cell. -/
def intersectionCell (g : Grid) (d : Dir) (p : Nat × Nat) : Cnf :=
  match g.nb p d with
  | none => []
  | some q =>
    let a := g.at' p
    let b := g.at' q
    literalsSame (a.out d) (b.inp d)
    ++ implies [a.inp d, a.isSplitter, -b.isSplitter]
      [[-b.inp d.next, -b.out d.next],
       [-b.inp d.prev, -b.out d.prev],
       [-b.inp d.next, -b.out d],
       [-b.inp d.prev, -b.out d],
       [-b.inp d.reverse, -b.out d.next],
       [-b.inp d.reverse, -b.out d.prev]]

/-- solver.py:478-496. -/
def preventIntersection (g : Grid) : Cnf := Dir.all.flatMap fun d => g.cells.flatMap (intersectionCell g d)

/-- solver.py:499-507: the variables `Grid.itersolve` treats as important. -/
def importantLits (g : Grid) (ignoreColour : Bool) : List Lit :=
  g.cells.flatMap fun p =>
    let t := g.at' p
    t.allDir ++ [t.isSplitter] ++ (if ignoreColour then [] else t.colour ++ t.colourUx ++ t.colourUy)

/-! ### Construction from the template -/

/-- solver.py:48-81: the members of the tile template, then the caller's extras. -/
def gridFields (colours : Option Nat) (extras : TFields) : TFields :=
  .cons "is_belt" .bool <| .cons "is_empty" .bool <| .cons "is_splitter" .bool <|
  .cons "is_underground_in" .bool <| .cons "is_underground_out" .bool <| .cons "is_splitter_head" .bool <|
  .cons "is_input" .bool <| .cons "is_output" .bool <|
  .cons "input_direction" (.oneHot 4) <| .cons "output_direction" (.oneHot 4) <|
  .cons "underground" (.array .bool [4]) <|
  match colours with
  | none => extras
  | some n =>
    .cons "colour" (.number (n - 1).size false) <| .cons "colour_ux" (.number (n - 1).size false) <|
    .cons "colour_uy" (.number (n - 1).size false) extras

/-- A list of four literals indexed by `Direction`. -/
def byDir (ls : List Lit) (d : Dir) : Lit := ls.getD d.value default

/-- The tile instance as the record used above. -/
def toTileInst (colours : Option Nat) (extras : TFields) (i : (gridFields colours extras).Inst) : TileInst :=
  match colours, i with
  | none, (a, b, c, d, e, f, g, h, i, o, u, _) =>
    ⟨a, b, c, d, e, f, g, h, byDir i, byDir o, byDir u, [], [], []⟩
  | some _, (a, b, c, d, e, f, g, h, i, o, u, k, kx, ky, _) =>
    ⟨a, b, c, d, e, f, g, h, byDir i, byDir o, byDir u, k, kx, ky⟩

/-- The extra members of a tile instance. -/
def toExtras (colours : Option Nat) (extras : TFields) (i : (gridFields colours extras).Inst) : extras.Inst :=
  match colours, i with
  | none, (_, _, _, _, _, _, _, _, _, _, _, x) => x
  | some _, (_, _, _, _, _, _, _, _, _, _, _, _, _, _, x) => x

/-- The instance of cell `(x, y)` when the grid is created with pool counter `s` (template.py:292). -/
def cellInstance (width : Nat) (colours : Option Nat) (extras : TFields) (s x y : Nat) : (gridFields colours extras).Inst :=
  ((gridFields colours extras).instantiate (s + (y * width + x) * (gridFields colours extras).variableCount)).1

/-- `Grid(width, height, colours, underground_length, extras, pool, edge_mode)` (solver.py:33-83). -/
def mkGrid (width height : Nat) (edge : EdgeMode) (colours ugLen : Option Nat) (extras : TFields) (s : Nat) : Grid where
  width := width
  height := height
  edge := edge
  colours := colours
  ugLen := ugLen
  tile := fun x y => toTileInst colours extras (cellInstance width colours extras s x y)

end FSat
