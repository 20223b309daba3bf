import Verif.Model.BalancerEnds
import Verif.Model.NetFreeMain
import Verif.Model.BalancerOptions
/-!
# The program `belt_balancer`

`factorio_sat/belt_balancer.py:229-380`: everything `main` puts into the grid before it asks the solver.  Reading the files and the
command line is not modelled: the network is the `Counter` that `deduplicate_network` returns, the partial layout is the array that
`convert_to_tiles` returns, and `--underground-length -1` (lines 325-326) is no limit.
-/

namespace FSat

/-- `all(colour == c for colour in side)`, belt_balancer.py:243, 258. -/
def sideAll (c : Int) (s : Colour × Colour) : Bool := s.1 == some c && s.2 == some c

/-- belt_balancer.py:235-240: how often the colour `c` is on a side of the elements of the network. -/
def recirculations (side : Node → Colour × Colour) (net : PyDict Node Nat) (c : Int) : Nat :=
  ((elements net).map fun k => [(side k).1, (side k).2].count (some c)).sum

/-- belt_balancer.py:242-243, 257-258: the numbers of the node types with the colour `c` on both ends of a side, and how often they
occur. -/
def edgeNodes (side : Node → Colour × Colour) (net : PyDict Node Nat) (c : Int) : List (Nat × Nat) :=
  net.zipIdx.filterMap fun e => if sideAll c (side e.1.1) then some (e.2, e.1.2) else none

/-- belt_balancer.py:244-255, 259-272 for one edge; `x` is the column, which is checked by `get_tile_instance`. -/
def edgeColumn (lib : CardLib) (g : Grid) (node : Nat × Nat → List Lit) (x : Int) (nodes : List (Nat × Nat)) (recirculate : Nat) :
    Gen :=
  let column := (List.range g.height).map fun y => (x.toNat, y)
  let tile (f : Gen) : Gen := if g.height = 0 ∨ (0 ≤ x ∧ x < g.width) then f else fun _ => .error .assertion
  if recirculate = 0 then
    Gen.all (nodes.map fun e => tile (Gen.all [
      libraryEquals lib (column.map fun p => (node p).getD e.1 default) (e.2 : Nat),
      Gen.pure (.ok (column.flatMap fun p =>
        implies [(node p).getD e.1 default] [[(g.at' p).inp .right, (g.at' p).out .right]]))]))
  else if ((nodes.map Prod.snd).sum : Int) - recirculate > 0 then
    tile (libraryAtleast lib (column.flatMap fun p => nodes.map fun e => (node p).getD e.1 default)
      (((nodes.map Prod.snd).sum : Int) - recirculate))
  else Gen.all []

/-- belt_balancer.py:229-272 `enforce_edge_splitters`. -/
def enforceEdgeSplitters (lib : CardLib) (g : Grid) (node : Nat × Nat → List Lit) (net : PyDict Node Nat) : Gen :=
  match getInputOutputColours (elements net) with
  | .error e => fun _ => .error e
  | .ok ((inColour, _), (outColour, _)) => Gen.all [
      edgeColumn lib g node 1 (edgeNodes Prod.fst net inColour) (recirculations Prod.snd net inColour),
      edgeColumn lib g node ((g.width : Int) - 2) (edgeNodes Prod.snd net outColour) (recirculations Prod.fst net outColour)]

/-- `np.ndenumerate` of an array given by its rows, as `(column, row)` with the value there. -/
def enumerateTiles (rows : List (List Tile)) : List ((Nat × Nat) × Tile) :=
  rows.zipIdx.flatMap fun r => r.1.zipIdx.map fun c => ((c.2, r.2), c.1)

/-- belt_balancer.py:287-291 `set_nonempty_tiles`, for the array of tiles that `convert_to_tiles` returns. -/
def setNonemptyTiles (g : Grid) (rows : List (List Tile)) : Except PyErr Cnf :=
  concatE (fun e : (Nat × Nat) × Tile => if e.2 = .empty then .ok [] else setTile g e.1.1 e.1.2 e.2) (enumerateTiles rows)

/-- The checks belt_balancer.py:328-335. -/
def BalancerOptions.valid (o : BalancerOptions) : Bool :=
  !(o.edgeSplitters && o.edgeBelts) && !(decide ([o.aligned, o.turn90, o.turn180, o.custom].count true ≥ 2))
    && !(o.breakSymmetry && o.turn90)

/-- `if cond: ...`. -/
def Gen.when (cond : Bool) (f : Gen) : Gen := if cond then f else fun s => .ok ([], s)

/-- belt_balancer.py:373-380: which ends are set up. -/
def balancerMainEnds (g : Grid) (net : PyDict Node Nat) (o : BalancerOptions) : Gen :=
  if o.turn90 then setupBalancerEnds90 g net o.useEnds
  else if o.turn180 then setupBalancerEnds180 g net
  else if o.custom then Gen.all []
  else setupBalancerEnds g net o.aligned o.useEnds

/-- belt_balancer.py:343-380: what `main` adds to the clauses of `create_balancer`. -/
def balancerMainClauses (lib : CardLib) (g : Grid) (node : Nat × Nat → List Lit) (net : PyDict Node Nat) (o : BalancerOptions) : Gen :=
  Gen.all [
    Gen.pure (.ok (preventIntersection g)),
    Gen.when (o.edgeSplitters || o.fast) (enforceEdgeSplitters lib g node net),
    Gen.when o.edgeBelts (Gen.pure (preventDoubleEdgeBelts g)),
    Gen.when (o.glueSplitters || o.fast) (Gen.pure (joinE [.ok (FSat.glueSplitters g), gluePartialSplitters g])),
    Gen.when (o.expandUnderground || o.fast)
      (Gen.pure (FSat.expandUnderground g { minX := 1, maxX := some ((g.width : Int) - 2) })),
    Gen.when (o.preventMergeable || o.fast) (Gen.pure (.ok (preventMergeableUnderground g))),
    Gen.when o.breakSymmetry (breakVerticalSymmetry g),
    Gen.when (o.preventBadPatterns || o.fast) (Gen.pure (joinE [.ok (preventBeltHooks g), .ok (preventSemicircles g),
      .ok (preventSmallLoops g), .ok (preventUndergroundHook g), preventZigzags g, preventBeltParallelSplitter g])),
    Gen.pure (enforceMaximumUndergroundLength g),
    Gen.pure (.ok (preventEmptyAlongUnderground g)),
    Gen.pure (match o.partialLayout with
      | some rows => setNonemptyTiles g rows
      | none => .ok []),
    balancerMainEnds g net o]

/-- belt_balancer.py:328-380: the grid that `main` gives to the solver. -/
def balancerMain (lib : CardLib) (net : PyDict Node Nat) (width height : Nat) (ugLen : Option Nat) (o : BalancerOptions) :
    Except PyErr (Grid × (Nat × Nat → List Lit) × Cnf × Nat) :=
  if o.valid then
    match createBalancer lib net width height ugLen with
    | .error e => .error e
    | .ok (g, node, cs, s) =>
      match balancerMainClauses lib g node net o s with
      | .error e => .error e
      | .ok (cs', s') => .ok (g, node, cs ++ cs', s')
  else .error .runtimeError

end FSat
