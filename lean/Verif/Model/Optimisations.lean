import Verif.Model.Solver
/-!
# Model of `factorio_sat/optimisations.py`

The lookup inside `get_tile_instance_offset` never fails (`c14_offset`), so a missing tile is `none` here.
-/

namespace FSat

/-- `min(grid.underground_length, max(grid.width, grid.height) - 2)`, optimisations.py:11, 273. -/
def Grid.effectiveLength (g : Grid) : Int :=
  match g.ugLen with
  | none => (max g.width g.height : Nat) - 2
  | some L => min (L : Int) ((max g.width g.height : Nat) - 2)

/-- The literals of `clause` at optimisations.py:27-38. -/
def emptySpanClause (g : Grid) (d : Dir) (start : Nat × Nat) (middle : List (Nat × Nat)) (stop : Nat × Nat) : Clause :=
  [-(g.at' start).isUgIn, -(g.at' start).inp d] ++ middle.map (fun q => -(g.at' q).isEmpty) ++
    [-(g.at' stop).isUgOut, -(g.at' stop).out d]

/-- The loop optimisations.py:17-40 from offset `i` on, with `n` turns left; `middle` are the tiles at offsets `1` to `i - 1`. -/
def emptySpans (g : Grid) (d : Dir) (p : Nat × Nat) : Nat → Nat → List (Nat × Nat) → Cnf
  | _, 0, _ => []
  | i, n + 1, middle =>
    match g.offset p (d.dx * i) (d.dy * i) with
    | none => []
    | some q =>
      (if middle.length > 0 then [emptySpanClause g d p middle q] else []) ++ emptySpans g d p (i + 1) n (middle ++ [q])

/-- optimisations.py:10-40 `prevent_empty_along_underground`. -/
def preventEmptyAlongUnderground (g : Grid) : Cnf :=
  Dir.all.flatMap fun d => g.cells.flatMap fun p => emptySpans g d p 1 (g.effectiveLength + 1).toNat []

/-- optimisations.py:43-77 `prevent_small_loops`. -/
def preventSmallLoops (g : Grid) : Cnf :=
  (List.range (g.width - 1)).flatMap fun x => (List.range (g.height - 1)).flatMap fun y =>
    let t00 := g.tile (x + 0) (y + 0)
    let t01 := g.tile (x + 0) (y + 1)
    let t10 := g.tile (x + 1) (y + 0)
    let t11 := g.tile (x + 1) (y + 1)
    [[-t00.inp .left, -t00.out .down, -t01.inp .down, -t01.out .right, -t11.inp .right, -t11.out .up, -t10.inp .up, -t10.out .left],
     [-t00.inp .up, -t00.out .right, -t10.inp .right, -t10.out .down, -t11.inp .down, -t11.out .left, -t01.inp .left, -t01.out .up]]

/-- A straight belt, as in optimisations.py:101-103: the negated literals. -/
def straight (t : TileInst) (d : Dir) : Clause := [-t.inp d, -t.out d, -t.isBelt]

/-- optimisations.py:80-108 `glue_splitters`. -/
def glueSplitters (g : Grid) : Cnf :=
  g.cells.flatMap fun p => Dir.all.flatMap fun d =>
    if d = .right ∧ (p.1 = 1 ∨ p.1 + 2 = g.width) then []
    else
      match g.offset p (-d.dx) (-d.dy), g.offset p (-d.dx + d.next.dx) (-d.dy + d.next.dy) with
      | some a, some b => [[-(g.at' p).isHead, -(g.at' p).inp d] ++ straight (g.at' a) d ++ straight (g.at' b) d]
      | _, _ => []

/-- optimisations.py:111-130 `shrink_underground`. -/
def shrinkUnderground (g : Grid) : Cnf :=
  g.cells.flatMap fun p => Dir.all.flatMap fun d =>
    match g.offset p d.dx d.dy with
    | none => []
    | some q =>
      implies [-(g.at' p).ug d, (g.at' q).ug d] [[-(g.at' q).isEmpty]] ++
      implies [(g.at' p).ug d, -(g.at' q).ug d] [[-(g.at' p).isEmpty]]

/-- `range(lo, hi + 1)`. -/
def irange (lo hi : Int) : List Int := (List.range (hi + 1 - lo).toNat).map fun k => lo + (k : Nat)

/-- Bounds `min_x, min_y, max_x, max_y`; `none` is `None`. -/
structure Window where
  minX : Int := 0
  minY : Int := 0
  maxX : Option Int := none
  maxY : Option Int := none

/-- optimisations.py:134-137, 178-181. -/
def Window.hiX (w : Window) (g : Grid) : Int := w.maxX.getD ((g.width : Int) - 1)
/-- optimisations.py:134-137, 178-181. -/
def Window.hiY (w : Window) (g : Grid) : Int := w.maxY.getD ((g.height : Int) - 1)

/-- The test at optimisations.py:146, 191: the far end is in the window. -/
def Window.holds (w : Window) (g : Grid) (x y : Int) : Prop := ¬ (x > w.hiX g ∨ y > w.hiY g ∨ x < w.minX ∨ y < w.minY)

instance (w : Window) (g : Grid) (x y : Int) : Decidable (w.holds g x y) := by unfold Window.holds; infer_instance

/-- The tiles at offsets `0` to `n - 1` in direction `d`, optimisations.py:149, 194, 280; `none` when one is missing. -/
def lineFrom (g : Grid) (x y : Int) (d : Dir) (n : Nat) : Option (List TileInst) :=
  (List.range n).mapM fun (i : Nat) =>
    match offsetPos g.width g.height g.edge x y (d.dx * i) (d.dy * i) with
    | .ok (some q) => some (g.at' q)
    | _ => none

/-- optimisations.py:153-170: the two clauses for one pair of cells. -/
def infiniteClauses (d : Dir) (a b : TileInst) : Cnf :=
  [straight a d ++ [-b.isUgIn, -b.inp d], [-a.isUgOut, -b.out d] ++ straight b d]

/-- All cells and directions of a window, in the order of the loops optimisations.py:139-141, 184-186. -/
def Window.starts (w : Window) (g : Grid) : List ((Int × Int) × Dir) :=
  (irange w.minX (w.hiX g)).flatMap fun x => (irange w.minY (w.hiY g)).flatMap fun y => Dir.all.map fun d => ((x, y), d)

/-- optimisations.py:133-170 `expand_underground_infinite`. -/
def expandUndergroundInfinite (g : Grid) (w : Window) : Except PyErr Cnf :=
  concatE (fun s : (Int × Int) × Dir =>
    let x := s.1.1
    let y := s.1.2
    let d := s.2
    if w.holds g (x + d.dx * 1) (y + d.dy * 1) then
      match lineFrom g x y d 2 with
      | some [a, b] => .ok (infiniteClauses d a b)
      | _ => .error .assertion
    else .ok []) (w.starts g)

/-- optimisations.py:198-221: the two clauses for a line of tiles. -/
def expandClauses (d : Dir) (tiles : List TileInst) : Cnf :=
  let none := (⟨⟨0, true⟩, ⟨0, true⟩, ⟨0, true⟩, ⟨0, true⟩, ⟨0, true⟩, ⟨0, true⟩, ⟨0, true⟩, ⟨0, true⟩, fun _ => ⟨0, true⟩,
    fun _ => ⟨0, true⟩, fun _ => ⟨0, true⟩, [], [], []⟩ : TileInst)
  let at' (i : Nat) := tiles.getD i none
  let n := tiles.length
  [straight (at' 0) d ++ [(at' 1).ug d] ++ ((tiles.drop 2).take (n - 3)).map (fun t => -t.ug d) ++ [(at' (n - 1)).ug d],
   [(at' 0).ug d] ++ ((tiles.drop 1).take (n - 3)).map (fun t => -t.ug d) ++ [(at' (n - 2)).ug d] ++ straight (at' (n - 1)) d]

/-- optimisations.py:173-221 `expand_underground`. -/
def expandUnderground (g : Grid) (w : Window) : Except PyErr Cnf :=
  match g.ugLen with
  | none => expandUndergroundInfinite g w
  | some L =>
    concatE (fun u : Nat => concatE (fun s : (Int × Int) × Dir =>
      let x := s.1.1
      let y := s.1.2
      let d := s.2
      if w.holds g (x + d.dx * (u + 1)) (y + d.dy * (u + 1)) then
        match lineFrom g x y d (u + 2) with
        | some tiles => .ok (expandClauses d tiles)
        | none => .error .assertion
      else .ok []) (w.starts g)) (List.range' 2 (L + 1 - 2))

/-- optimisations.py:224-254 `prevent_belt_hooks`. -/
def preventBeltHooks (g : Grid) : Cnf :=
  g.cells.flatMap fun p => Dir.all.flatMap fun d => [d.next, d.prev].flatMap fun t =>
    match g.offset p d.dx d.dy, g.offset p t.dx t.dy, g.offset p (d.dx + t.dx) (d.dy + t.dy) with
    | some p01, some p10, some p11 =>
      [d, t].flatMap fun i => [t, d.reverse].map fun o =>
        [-(g.at' p).isBelt, -(g.at' p).inp i, -(g.at' p).out d,
         -(g.at' p01).out t,
         -(g.at' p11).out d.reverse,
         -(g.at' p10).isBelt, -(g.at' p10).out o]
    | _, _, _ => []

/-- optimisations.py:257-269 `get_mergeable_underground_variations`. -/
def mergeableVariations (u : Nat) : List (List Bool) :=
  if u < 4 then []
  else (List.range' 1 (u - 2 - 1)).map fun offset =>
    [false] ++ List.replicate offset true ++ [false, false] ++ List.replicate (u - offset - 2) true ++ [false]

/-- optimisations.py:272-285 `prevent_mergeable_underground`. -/
def preventMergeableUnderground (g : Grid) : Cnf :=
  (List.range' 4 (g.effectiveLength + 1 - 4).toNat).flatMap fun u => g.cells.flatMap fun p => Dir.all.flatMap fun d =>
    match lineFrom g p.1 p.2 d (u + 2) with
    | none => []
    | some tiles => (mergeableVariations u).map fun variation =>
      (tiles.zip variation).map fun e => -setLiteral (e.1.ug d) e.2

/-- optimisations.py:288-320 `prevent_semicircles`; `tiles[j, i]` is `i` steps in `d` and `j` steps in `t`. -/
def preventSemicircles (g : Grid) : Cnf :=
  g.cells.flatMap fun p => Dir.all.flatMap fun d => [d.next, d.prev].flatMap fun t =>
    let tile (j i : Int) := g.offset p (d.dx * i + t.dx * j) (d.dy * i + t.dy * j)
    match tile 0 0, tile 0 1, tile 0 2, tile 1 0, tile 1 1, tile 1 2 with
    | some p00, some p01, some p02, some p10, some p11, some p12 =>
      [d, t].flatMap fun i => [t.reverse, d].map fun o =>
        [-(g.at' p00).inp i] ++ (if t = i then [(g.at' p00).isSplitter] else []) ++
        (g.at' p01).allDir ++
        [-(g.at' p02).inp t.reverse, -(g.at' p02).out o] ++ (if t.reverse = o then [(g.at' p02).isSplitter] else []) ++
        [-(g.at' p10).inp t, -(g.at' p11).inp d, (g.at' p11).isSplitter, -(g.at' p12).inp d]
    | _, _, _, _, _, _ => []

/-- optimisations.py:323-386 `prevent_underground_hook`. -/
def preventUndergroundHook (g : Grid) : Cnf :=
  g.cells.flatMap fun p => Dir.all.flatMap fun d =>
    match g.offset p d.dx d.dy with
    | none => []
    | some e =>
      match g.offset p (-d.dx) (-d.dy) with
      | none => []
      | some a => [d.next, d.prev].flatMap fun t =>
        match g.offset p (-t.dx - d.dx) (-t.dy - d.dy) with
        | none => []
        | some b =>
          match g.offset p (-t.dx) (-t.dy) with
          | none => []
          | some c =>
            ([d.reverse, t].map fun i =>
              (g.at' e).allDir ++ [-(g.at' e).ug d, (g.at' p).ug d, -(g.at' a).inp t, -(g.at' b).inp d.reverse,
                -(g.at' c).inp i, (g.at' c).isSplitter]) ++
            ([d, t.reverse].map fun o =>
              (g.at' e).allDir ++ [-(g.at' e).ug d.reverse, (g.at' p).ug d.reverse, -(g.at' a).out t.reverse, -(g.at' b).out d,
                -(g.at' c).out o, (g.at' c).isSplitter])

/-- The blocks that `iterate_tile_blocks` yields (template.py:309-355), without their anchors. -/
def Grid.blocks (g : Grid) (c : Dir) (columns : Nat) (r : Dir) (rows : Nat) (maxX : Option Int) :
    Except PyErr (List (List (List (Option (Nat × Nat))))) :=
  match iterateTileBlocks g.width g.height g.edge (c.dx, c.dy) columns (r.dx, r.dy) rows none none maxX none with
  | .error e => .error e
  | .ok bs => .ok (bs.map fun b => b.2.map fun row => row.map fun q => match q with
    | .ok q => q
    | .error _ => none)

/-- A loop over 2×2 blocks that skips those with a missing tile, optimisations.py:393-395, 523-525, 544-546. -/
def overBlocks (g : Grid) (c r : Dir) (maxX : Option Int) (f : (Nat × Nat) → (Nat × Nat) → (Nat × Nat) → (Nat × Nat) → Cnf) :
    Except PyErr Cnf :=
  match g.blocks c 2 r 2 maxX with
  | .error e => .error e
  | .ok bs => .ok (bs.flatMap fun b =>
    match b with
    | [[some p00, some p01], [some p10, some p11]] => f p00 p01 p10 p11
    | _ => [])

/-- optimisations.py:389-408 `prevent_zigzags`. -/
def preventZigzags (g : Grid) : Except PyErr Cnf :=
  concatE (fun d : Dir => concatE (fun t : Dir => overBlocks g d t none fun p00 p01 p10 p11 =>
    [[-(g.at' p00).inp d, -(g.at' p00).out t] ++ (g.at' p01).allDir ++ [-(g.at' p10).out d, -(g.at' p11).out t]])
    [d.next, d.prev]) Dir.all

/-- optimisations.py:520-538 `prevent_belt_parallel_splitter`. -/
def preventBeltParallelSplitter (g : Grid) : Except PyErr Cnf :=
  concatE (fun d : Dir => concatE (fun s : Dir × Bool => overBlocks g d s.1 none fun p00 _ p10 p11 =>
    [d, s.1].map fun i => invertComponents
      ([(g.at' p00).inp i, (g.at' p00).out d] ++ (if i = d then [-(g.at' p00).isSplitter] else []) ++
        [(g.at' p10).out s.1, (g.at' p11).isSplitter, setLiteral (g.at' p11).isHead s.2]))
    [(d.next, true), (d.prev, false)]) Dir.all

/-- optimisations.py:541-577 `glue_partial_splitters`. -/
def gluePartialSplitters (g : Grid) : Except PyErr Cnf :=
  concatE (fun d : Dir => overBlocks g d d.next (some ((g.width : Int) - 2)) fun p00 p01 p10 p11 =>
    let belts := [(g.at' p01).inp d, (g.at' p01).out d, (g.at' p01).isBelt, (g.at' p11).inp d, (g.at' p11).out d, (g.at' p11).isBelt]
    [invertComponents ([(g.at' p00).inp d, (g.at' p00).isHead, -(g.at' p10).inp d] ++ belts),
     invertComponents ([-(g.at' p00).inp d, (g.at' p10).inp d, (g.at' p10).isSplitter, -(g.at' p10).isHead] ++ belts)]) Dir.all

/-- optimisations.py:453-517 `prevent_spirals`: the corner of each block is set to `None` (line 459) before blocks with a `None` are skipped
(line 461), so no clause is ever added. The clauses of lines 464-517 are not modelled. -/
def preventSpirals (g : Grid) : Except PyErr Cnf :=
  concatE (fun d : Dir => concatE (fun a : Dir =>
    match g.blocks a 3 d 3 none with
    | .error e => .error e
    | .ok bs => .ok (bs.flatMap fun b =>
      let b := b.modify 0 fun row => row.set 0 none
      if b.any (fun row => row.any (·.isNone)) then [] else [[]])) [d.next, d.prev]) Dir.all

/-- Clauses that may fail to be generated, one after the other. -/
def appendE (a b : Except PyErr Cnf) : Except PyErr Cnf :=
  match a with
  | .error e => .error e
  | .ok a =>
    match b with
    | .error e => .error e
    | .ok b => .ok (a ++ b)

/-- optimisations.py:580-590 `apply_generic_optimisations`. -/
def applyGenericOptimisations (g : Grid) : Except PyErr Cnf :=
  appendE (.ok (preventSmallLoops g ++ preventEmptyAlongUnderground g ++ glueSplitters g ++ preventBeltHooks g ++
    preventMergeableUnderground g ++ preventSemicircles g ++ preventUndergroundHook g))
    (appendE (preventZigzags g) (appendE (preventBeltParallelSplitter g) (gluePartialSplitters g)))

/-- One row of the comparison in `break_vertical_symmetry`, optimisations.py:417-427: literals of the upper and of the lower tile. -/
def mirrorLits (t : TileInst) : List Lit × List Lit :=
  ([t.inp .right, t.inp .left, t.out .right, t.out .left] ++ t.types ++ [t.inp .up, t.out .up, t.inp .down, t.out .down],
   [t.inp .right, t.inp .left, t.out .right, t.out .left] ++ t.types ++ [t.inp .down, t.out .down, t.inp .up, t.out .up])

/-- One turn of the loop over `x`, optimisations.py:416-427, for row `dy`: what is appended to `top` and to `bot`. -/
def mirrorRow (g : Grid) (dy : Nat) : List Lit × List Lit :=
  ((List.range g.width).flatMap fun x => (mirrorLits (g.tile x dy)).1,
   (List.range g.width).flatMap fun x => (mirrorLits (g.tile x (g.height - 1 - dy))).2)

/-- The loop over `dy`, optimisations.py:415-429, from `dy` on with `n` turns left. `get_tile_instance` fails its assertion for rows
outside the grid. -/
def breakVerticalFrom (g : Grid) : Nat → Nat → List Lit → List Lit → Nat → Except PyErr (Cnf × Nat)
  | _, 0, _, _, s => .ok ([], s)
  | dy, n + 1, top, bot, s =>
    if dy < g.height then
      let top := top ++ (mirrorRow g dy).1
      let bot := bot ++ (mirrorRow g dy).2
      match breakSymmetry poolAlloc top bot s with
      | .error e => .error e
      | .ok (cs, s) =>
        match breakVerticalFrom g (dy + 1) n top bot s with
        | .error e => .error e
        | .ok (cs', s) => .ok (cs ++ cs', s)
    else .error .assertion

/-- optimisations.py:411-429 `break_vertical_symmetry`. -/
def breakVerticalSymmetry (g : Grid) (s : Nat) : Except PyErr (Cnf × Nat) :=
  breakVerticalFrom g 0 (max 2 (g.height / 2)) [] [] s

end FSat
