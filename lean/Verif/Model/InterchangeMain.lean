import Verif.Model.Interchange
import Verif.Model.BalancerMain
import Verif.Model.MakeBlock
/-!
# The program `interchange`

`factorio_sat/interchange.py`: everything `main` puts into the grid before it asks the solver.  Reading the command line is not modelled:
the partial layout is the array that `convert_to_tiles` returns, and `--underground-length` is not negative.  Clause lists are modelled up
to the order of clauses in the list.
-/

namespace FSat

/-- The command line of `interchange` as far as it matters for the clauses (lines 179-183). -/
structure InterchangeOptions where
  alternating : Bool := false
  rotSymmetry : Bool := false
  partialLayout : Option (List (List Tile)) := none

/-- interchange.py:16-41 `prevent_passing`. -/
def preventPassing (g : Grid) : Except PyErr Cnf :=
  if (g.at' (0, 0)).colour.length = 1 then
    concatE (fun d : Dir => overBlocks g d d.next none fun p00 p01 p10 p11 =>
      [false, true].map fun sign => invertComponents [
        setLiteral ((g.at' p00).colour.getD 0 default) sign, setLiteral ((g.at' p01).colour.getD 0 default) sign,
        setLiteral ((g.at' p10).colour.getD 0 default) sign, setLiteral ((g.at' p11).colour.getD 0 default) sign,
        (g.at' p00).inp d, (g.at' p00).out d, (g.at' p01).inp d, (g.at' p01).out d,
        (g.at' p10).inp d.reverse, (g.at' p10).out d.reverse, (g.at' p11).inp d.reverse, (g.at' p11).out d.reverse]) Dir.all
  else .error .assertion

/-- interchange.py:44-71 `prevent_awkward_underground_entry`; blocks with a missing tile are skipped (lines 49-50). -/
def preventAwkwardEntry (g : Grid) : Except PyErr Cnf :=
  concatE (fun d : Dir =>
    match g.blocks d.next 3 d 3 none with
    | .error e => .error e
    | .ok bs => .ok (bs.flatMap fun b =>
      match b with
      | [[some p00, some _, some _], [some p10, some p11, some p12], [some p20, some p21, some p22]] =>
        [invertComponents [(g.at' p00).isEmpty, (g.at' p00).ug d, -(g.at' p10).ug d, (g.at' p11).isEmpty, (g.at' p20).out d.next,
          (g.at' p21).out d.next, (g.at' p22).out d.reverse, (g.at' p12).out d.reverse]]
      | _ => [])) Dir.all

/-- The tile that `np.rot90(grid.tiles, 2)` has at a position (line 75). -/
def Grid.turned (g : Grid) (p : Nat × Nat) : Nat × Nat := (g.width - 1 - p.1, g.height - 1 - p.2)

/-- Lines 76-87 for one pair of tiles. -/
def rotTiles (a b : TileInst) : Except PyErr Cnf :=
  match setNumbersEqual
      (dirs a.inp ++ dirs a.out ++ dirs a.ug ++ [a.isEmpty, a.isBelt, a.isSplitter, a.isUgIn, a.isUgOut])
      (dirs b.out ++ dirs b.inp ++ dirs b.ug ++ [b.isEmpty, b.isBelt, b.isSplitter, b.isUgOut, b.isUgIn]) with
  | .error e => .error e
  | .ok c => .ok (c ++ [[-a.isHead, -b.isHead]])

/-- interchange.py:74-87 `require_rotational_symmetry`. -/
def requireRotationalSymmetry (g : Grid) : Except PyErr Cnf := concatE (fun p => rotTiles (g.at' p) (g.at' (g.turned p))) g.cells

/-! ### Flows through lines -/

/-- interchange.py:90-93 `EdgeTemplate`. -/
structure EdgeLits where
  present : Lit
  colour : List Lit

/-- Code that adds clauses, may take variables from the pool, and returns something. -/
abbrev GenV (α : Type) := Nat → Except PyErr (α × Cnf × Nat)

/-- Code that goes on with what was returned. -/
def GenV.bind {α : Type} (f : GenV α) (k : α → Gen) : Gen := fun s =>
  match f s with
  | .error e => .error e
  | .ok (a, c, s1) =>
    match k a s1 with
    | .error e => .error e
    | .ok (c2, s2) => .ok (c ++ c2, s2)

/-- interchange.py:106-124 for one position: what leaves the tile `p` in direction `d`, over and under the ground.  The grid does not
wrap, so `get_tile_instance` fails exactly where there is no neighbour. -/
def edgeTile (g : Grid) (d : Dir) (p : Nat × Nat) : GenV (List EdgeLits) := fun s =>
  match g.nb p d with
  | none => .error .assertion
  | some q =>
    let a := g.at' p
    let b := g.at' q
    let u : Lit := ⟨s + 1, true⟩
    let uc := allocVars (s + 1) (a.colourU d).length
    match joinE [.ok (implies [u] [[a.ug d, b.ug d]]), .ok (implies [-u] (setAllFalse [a.ug d, b.ug d])),
        impliesE [a.ug d] (setNumbersEqual (a.colourU d) uc), impliesE [b.ug d] (setNumbersEqual (b.colourU d) uc)] with
    | .error e => .error e
    | .ok c => .ok ([⟨a.out d, b.colour⟩, ⟨u, uc⟩], c, s + 1 + (a.colourU d).length)

/-- The loop of lines 105-124. -/
def edgeTiles (g : Grid) (d : Dir) : List (Nat × Nat) → GenV (List EdgeLits)
  | [] => fun s => .ok ([], [], s)
  | p :: ps => fun s =>
    match edgeTile g d p s with
    | .error e => .error e
    | .ok (a, c, s1) =>
      match edgeTiles g d ps s1 with
      | .error e => .error e
      | .ok (as, cs, s2) => .ok (a ++ as, c ++ cs, s2)

/-- Lines 97-102. -/
def edgeLine (g : Grid) (d : Dir) (i : Nat) : List (Nat × Nat) :=
  if d.axis = .horizontal then (List.range g.height).map fun y => (i, y) else (List.range g.width).map fun x => (x, i)

/-- interchange.py:96-125 `create_edge`. -/
def createEdge (g : Grid) (d : Dir) (i : Nat) : GenV (List EdgeLits) := edgeTiles g d (edgeLine g d i)

/-- Lines 140-143, 145-148, 152-155, 157-160: literals that say which belts of an edge are there and have the colour `c`. -/
def edgeFlow (c : Nat) (edge : List EdgeLits) : GenV (List Lit) := fun s =>
  let flow := allocVars s edge.length
  match concatE (fun e : EdgeLits × Lit =>
      match setNumber c e.1.colour, setNotNumber c e.1.colour with
      | .ok c1, .ok c2 => .ok (implies [e.2] ([[e.1.present]] ++ c1) ++ implies [-e.2] [-e.1.present :: c2])
      | .error e, _ => .error e
      | _, .error e => .error e) (edge.zip flow) with
  | .error e => .error e
  | .ok cs => .ok (flow, cs, s + edge.length)

/-- Lines 138-162 for one cut below the row `y`. -/
def rowCut (lib : CardLib) (g : Grid) (y : Nat) (count : Int) : Gen :=
  (createEdge g .up (y + 1)).bind fun up => (createEdge g .down y).bind fun down =>
    (edgeFlow 1 up).bind fun upFlow => (edgeFlow 1 down).bind fun upInv => Gen.all [
      libraryAtleast lib (upFlow ++ invertComponents upInv) (count + upInv.length),
      (edgeFlow 0 down).bind fun downFlow => (edgeFlow 0 up).bind fun downInv =>
        libraryEquals lib (downFlow ++ invertComponents downInv) (count + downInv.length)]

/-- Lines 165-171 for one cut right of the column `x`. -/
def columnCut (lib : CardLib) (g : Grid) (x : Nat) : Gen :=
  (createEdge g .right x).bind fun fwd => (createEdge g .left (x + 1)).bind fun bwd =>
    libraryEquals lib (fwd.map (·.present) ++ invertComponents (bwd.map (·.present))) ((g.height : Int) + bwd.length)

/-- interchange.py:136-171 `require_correct_transport_through_edges`. -/
def requireTransport (lib : CardLib) (g : Grid) : Gen :=
  Gen.all [Gen.all ((flowCuts g.height).map fun e => rowCut lib g e.1 e.2), Gen.all ((List.range (g.width - 1)).map (columnCut lib g))]

/-! ### The program -/

/-- Lines 198-200. -/
def interchangeEnds (g : Grid) : Cnf :=
  (List.range g.height).flatMap fun y => [[(g.tile 0 y).inp .right], [(g.tile (g.width - 1) y).out .right]]

/-- Lines 202-205. -/
def interchangeInputs (g : Grid) : Except PyErr Cnf :=
  concatE (fun y => setColour g 0 y (if y < g.height / 2 then 0 else 1)) (List.range g.height)

/-- Lines 207-215. -/
def interchangeOutputs (g : Grid) (alternating : Bool) : Except PyErr Cnf :=
  if alternating then concatE (fun y : Nat => setNumber ((y % 2 : Nat) : Int) (g.tile (g.width - 1) y).colour) (List.range g.height)
  else concatE (fun i : Nat => setNumbers 0 1 (g.tile (g.width - 1) (2 * i)).colour (g.tile (g.width - 1) (2 * i + 1)).colour)
    (List.range (g.height / 2))

/-- Lines 226-236. -/
def interchangeOptimisations (g : Grid) (rotSymmetry : Bool) : Except PyErr Cnf :=
  if rotSymmetry then joinE [requireRotationalSymmetry g, expandUnderground g {}, .ok (preventSmallLoops g),
    .ok (preventEmptyAlongUnderground g), .ok (preventBeltHooks g), .ok (preventMergeableUnderground g), .ok (preventSemicircles g),
    .ok (preventUndergroundHook g)]
  else applyGenericOptimisations g

/-- Lines 192-245 on a given grid. -/
def interchangeClauses (lib : CardLib) (g : Grid) (o : InterchangeOptions) : Gen :=
  Gen.all [
    Gen.pure (initClauses g),
    Gen.pure (.ok (g.cells.map fun p => [-(g.at' p).isSplitter])),
    Gen.pure (.ok (interchangeEnds g)),
    Gen.pure (interchangeInputs g),
    Gen.pure (interchangeOutputs g o.alternating),
    Gen.pure (.ok (blockUnderground g (.ofBool true))),
    Gen.pure (.ok (blockBelts g (.ofPair false true))),
    Gen.pure (.ok (preventBadUndergrounding g)),
    Gen.pure (preventBadColouring g),
    Gen.pure (.ok (preventIntersection g)),
    Gen.pure (enforceMaximumUndergroundLength g),
    Gen.pure (interchangeOptimisations g o.rotSymmetry),
    Gen.pure (preventPassing g),
    Gen.pure (preventAwkwardEntry g),
    requireTransport lib g,
    Gen.pure (match o.partialLayout with
      | some rows => setNonemptyTiles g rows
      | none => .ok [])]

/-- interchange.py:186-245: the grid that `main` gives to the solver. -/
def interchangeMain (lib : CardLib) (width height ugLen : Nat) (o : InterchangeOptions) : Except PyErr (Grid × Cnf × Nat) :=
  if height < 1 then .error .runtimeError
  else if height % 2 = 1 then .error .runtimeError
  else if width = 0 then .error .assertion
  else
    let g := mkGrid width height ⟨false, false⟩ (some 2) (some ugLen) .nil 0
    match interchangeClauses lib g o (height * width * (gridFields (some 2) .nil).variableCount) with
    | .error e => .error e
    | .ok (cs, s) => .ok (g, cs, s)

end FSat
