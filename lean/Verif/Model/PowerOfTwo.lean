import Verif.Model.NetFreeMain
/-!
# Model of `factorio_sat/belt_balancer_net_free_power_of_2.py`

Clause lists are modelled up to the order of clauses in the list: the clauses that take no variables from the pool come first.
-/

namespace FSat

/-- The members `level` and `level_primary` of a tile (line 21). -/
structure LevelLits where
  level : List Lit
  primary : List Lit

/-- Line 21: the two extra members. -/
def levelFields (n : Nat) : TFields := .cons "level" (.oneHot n) <| .cons "level_primary" (.oneHot n) .nil

/-- The members of the tile at a position (the grid is created with a fresh pool). -/
def levelLits (width colours n : Nat) (p : Nat × Nat) : LevelLits :=
  let i := toExtras (some colours) (levelFields n) (cellInstance width (some colours) (levelFields n) 0 p.1 p.2)
  ⟨i.1, i.2.1⟩

/-- Line 19.  For a height of one or two the number in the code is negative, and so are the size of the members, which get no literals,
and the bounds of the loops in lines 40 and 90: zero stands for it. -/
def powerLevels (height : Nat) : Nat := Nat.log2 height - 2

/-- Lines 28-34 for one tile. -/
def powerTile (t : TileInst) (l : LevelLits) : Except PyErr Cnf :=
  match setNumbersEqual l.level l.primary with
  | .error e => .error e
  | .ok c => .ok (
      implies [t.isSplitter] [dirs t.inp, dirs t.out] ++
      implies [t.isHead] (quadraticOne l.level) ++
      implies [t.isSplitter, -t.isHead] (quadraticOne l.level) ++
      implies [-t.isSplitter] (setAllFalse l.level) ++
      implies [t.isSplitter] c ++
      implies [-t.isSplitter] (setAllFalse l.primary))

/-- Lines 61-72: one bit of the two inputs and of the two outputs. -/
def mixBit (in0 in1 out0 out1 : Lit) : Cnf :=
  [[-in0, -in1], [-in0, out0], [-in0, out1], [-in1, out0], [-in1, out1], [in0, in1, -out0], [in0, in1, -out1]]

/-- Lines 43-74 for one cell and direction. -/
def powerDir (g : Grid) (L : Nat × Nat → LevelLits) (p : Nat × Nat) (d : Dir) : Except PyErr Cnf :=
  let pre := [(g.at' p).isHead, (g.at' p).inp d]
  match g.nb p d, g.nb p d.next, g.offset p (d.dx + d.next.dx) (d.dy + d.next.dy) with
  | some p10, some p01, some p11 =>
    match setNumbersEqual (L p).level (L p01).level with
    | .error e => .error e
    | .ok c => .ok (
        ((g.at' p).colour.zip ((g.at' p01).colour.zip ((g.at' p10).colour.zip (g.at' p11).colour))).flatMap
          (fun e => implies pre (mixBit e.1 e.2.1 e.2.2.1 e.2.2.2)) ++
        implies pre c)
  | _, _, _ => .ok [invertComponents pre]

/-- Lines 40-41 for one cell. -/
def powerSizes (lib : CardLib) (g : Grid) (L : Nat × Nat → LevelLits) (p : Nat × Nat) : Gen :=
  Gen.all ((L p).level.zipIdx.map fun e => Gen.implies [e.1] (libraryEquals lib (g.at' p).colour ((2 ^ e.2 : Nat) : Int)))

/-- Lines 76-78 for one row. -/
def powerFirst (g : Grid) (y : Nat) : Except PyErr Cnf :=
  joinE [setTile g 0 y (.belt .right .right), setColour g 0 y ((2 ^ (y / 2) : Nat) : Int)]

/-- Lines 84-87 for the rows `y` and `y + 1`. -/
def powerPair (g : Grid) (y : Nat) : Except PyErr Cnf :=
  match g.getTile (g.width - 1) y, g.getTile (g.width - 1) (y + 1) with
  | .ok a, .ok b => .ok ((a.colour.zip b.colour).flatMap fun e => literalsDifferent e.1 e.2)
  | .error e, _ => .error e
  | _, .error e => .error e

/-- Line 89: the cells of the tiles in the order of the list. -/
def checkerboard (g : Grid) : List (Nat × Nat) :=
  (List.range g.height).flatMap fun y => ((List.range g.width).filter fun x => (x + y) % 2 ≠ 0).map fun x => (x, y)

/-- Lines 23-34, 43-87 and the clauses of the constructor of the grid. -/
def powerPlain (g : Grid) (L : Nat × Nat → LevelLits) : Except PyErr Cnf :=
  joinE [initClauses g,
    .ok (blockUnderground g (.ofBool true)),
    .ok (preventBadUndergrounding g),
    preventBadColouring g,
    concatE (fun p => powerTile (g.at' p) (L p)) g.cells,
    concatE (fun p => concatE (powerDir g L p) Dir.all) g.cells,
    concatE (powerFirst g) (List.range g.height),
    concatE (fun y => setTile g (g.width - 1) y (.belt .right .right)) (List.range g.height),
    concatE (fun k => powerPair g (2 * k)) (List.range ((g.height + 1) / 2))]

/-- Lines 23-91: the clauses on a given grid. -/
def powerClauses (lib : CardLib) (g : Grid) (L : Nat × Nat → LevelLits) : Gen :=
  Gen.all ([Gen.pure (powerPlain g L)] ++ g.cells.map (powerSizes lib g L) ++
    (List.range (powerLevels g.height)).map fun i =>
      libraryEquals lib ((checkerboard g).map fun p => (L p).primary.getD i default) ((g.height / 2 : Nat) : Int))

/-- belt_balancer_net_free_power_of_2.py:14-93 `create_balancer`: the grid, its clauses and the counter of its pool.  `is_power_of_two`
(util.py:311-312) is `value & (value - 1) == 0`. -/
def createPower (lib : CardLib) (width height : Nat) (ugLen : Option Nat) : Except PyErr (Grid × Cnf × Nat) :=
  if width > 0 ∧ height > 0 ∧ height &&& (height - 1) = 0 then
    let colours := 2 ^ (height / 2)
    let fields := levelFields (powerLevels height)
    let g := mkGrid width height ⟨false, false⟩ (some colours) ugLen fields 0
    match powerClauses lib g (levelLits width colours (powerLevels height))
        (height * width * (gridFields (some colours) fields).variableCount) with
    | .error e => .error e
    | .ok (cs, s) => .ok (g, cs, s)
  else .error .assertion

/-- belt_balancer_net_free_power_of_2.py:111-116: the clauses `main` adds before the optimisations. -/
def powerBalancer (lib : CardLib) (width height : Nat) (ugLen : Option Nat) : Except PyErr (Grid × Cnf × Nat) :=
  match createPower lib width height ugLen with
  | .error e => .error e
  | .ok (g, cs, s) =>
    match joinE [.ok (blockBelts g (.ofPair false true)), .ok (preventIntersection g), enforceMaximumUndergroundLength g] with
    | .error e => .error e
    | .ok cs' => .ok (g, cs ++ cs', s)

/-- belt_balancer_net_free_power_of_2.py:118-119: everything `main` adds before it reads the partial layout. -/
def powerBalancerMain (lib : CardLib) (width height : Nat) (ugLen : Option Nat) : Except PyErr (Grid × Cnf × Nat) :=
  match powerBalancer lib width height ugLen with
  | .error e => .error e
  | .ok (g, cs, s) =>
    match joinE [expandUnderground g { minX := 1, maxX := some ((g.width : Int) - 2) }, applyGenericOptimisations g] with
    | .error e => .error e
    | .ok cs' => .ok (g, cs ++ cs', s)

end FSat
