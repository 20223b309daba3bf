import Verif.Model.Optimisations
import Verif.Model.NetFree
/-!
# Model of `factorio_sat/make_block.py`

Clause lists are modelled up to the order of clauses in the list.
-/

namespace FSat

/-- Lines 30-35: the colour of what passes below the tile. -/
def TileInst.colourU (t : TileInst) (d : Dir) : List Lit := if d.axis = .horizontal then t.colourUx else t.colourUy

/-- Lines 22-47 for one cell and direction.  Line 25 does not wrap the position. -/
def loopDir (g : Grid) (p : Nat × Nat) (d : Dir) : Except PyErr Cnf :=
  match g.nb p d with
  | none => .ok []
  | some q =>
    let a := g.at' p
    let b := g.at' q
    joinE [
      if (p.1 : Int) + d.dx = 0 ∧ (p.2 : Int) + d.dy = 0 then impliesE [a.out d] (setNumber ((g.colours.getD 1 : Int) - 1) a.colour)
      else impliesE [a.out d] (incrementNumber a.colour b.colour),
      impliesE (a.inp d :: invertComponents (dirs a.out)) (incrementNumber a.colour (b.colourU d)),
      impliesE (invertComponents (dirs b.inp) ++ [b.out d]) (setNumbersEqual (a.colourU d) b.colour),
      impliesE [a.ug d, b.ug d] (setNumbersEqual (a.colourU d) (b.colourU d))]

/-- Lines 15-20 for one cell. -/
def loopCell (g : Grid) (p : Nat × Nat) : Cnf :=
  if p.1 = 0 ∧ p.2 = 0 then setAllFalse (g.at' p).colour else [(g.at' p).colour]

/-- make_block.py:12-47 `ensure_loop_length`. -/
def ensureLoopLength (g : Grid) : Except PyErr Cnf :=
  concatE (fun p => joinE [.ok (loopCell g p), concatE (loopDir g p) Dir.all]) g.cells

/-- make_block.py:50-62 `prevent_parallel`.  A `Direction` cannot be added to a number (direction.py:5-50 has no `__add__`), so line 59
raises as soon as it is reached. -/
def preventParallel (g : Grid) : Except PyErr Cnf :=
  concatE (fun p => concatE (fun d : Dir =>
    match g.nb p d.next with
    | none => .ok []
    | some _ => .error .typeError) [.right, .up]) g.cells

/-- The command line of `make_block` as far as it matters for the clauses (make_block.py:66-78). -/
structure BlockOptions where
  width : Nat
  height : Nat
  tile : Bool
  allowEmpty : Bool
  ugLen : Int
  noParallel : Bool
  singleLoop : Bool
deriving DecidableEq

/-- make_block.py:83-89: the grid.  Without `--single-loop` the underground length is that of the default argument (solver.py:38). -/
def BlockOptions.grid (o : BlockOptions) : Grid :=
  let edge : EdgeMode := ⟨o.tile, o.tile⟩
  if o.singleLoop then mkGrid o.width o.height edge (some (o.width * o.height)) (some o.ugLen.toNat) .nil 0
  else mkGrid o.width o.height edge (some 1) (some 4) .nil 0

/-- Lines 109-116 for one tile. -/
def blockTile (o : BlockOptions) (t : TileInst) : Cnf :=
  (if o.allowEmpty then [] else [t.allDir]) ++ (if o.ugLen = 0 then setAllFalse (dirs t.ug) else []) ++ [[-t.isSplitter]]

/-- Lines 91-116: the clauses. -/
def blockClauses (o : BlockOptions) (g : Grid) : Except PyErr Cnf :=
  joinE [initClauses g,
    .ok (preventIntersection g),
    .ok (preventBadUndergrounding g),
    .ok (if o.tile then [] else blockBelts g (.ofBool true) ++ blockUnderground g (.ofBool true)),
    .ok (preventSmallLoops g),
    if g.ugLen.getD 0 > 0 then joinE [enforceMaximumUndergroundLength g, .ok (preventEmptyAlongUnderground g)] else .ok [],
    if o.noParallel then preventParallel g else .ok [],
    if o.singleLoop then ensureLoopLength g else .ok [],
    .ok (g.cells.flatMap fun p => blockTile o (g.at' p))]

/-- make_block.py:80-116: what `main` does before it starts the solver. -/
def makeBlock (o : BlockOptions) : Except PyErr (Grid × Cnf) :=
  if o.allowEmpty ∧ o.singleLoop then .error .runtimeError
  else if o.ugLen < 0 then .error .runtimeError
  else if o.width > 0 ∧ o.height > 0 then
    match blockClauses o o.grid with
    | .error e => .error e
    | .ok cs => .ok (o.grid, cs)
  else .error .assertion

end FSat
