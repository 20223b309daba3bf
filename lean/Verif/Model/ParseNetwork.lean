import Verif.Model.Network
import Verif.Spec.Layout
/-!
# Model of `parse_network` (`factorio_sat/network.py`)

`tiles[x, y]` of the transposed array (line 505) at a position inside it is `a.board (x, y)`.  `colour_mapping` is a function; `none` is
`None`.  Python's limit on the depth of recursion is not modelled: `trace` calls itself once for every cell of a belt line.
-/

namespace FSat

/-- The colours of the cells, network.py:507. -/
abbrev ColourMap := Int × Int → Option Int

/-- `colour_mapping[pos] = colour`. -/
def ColourMap.set (m : ColourMap) (p : Int × Int) (c : Int) : ColourMap := fun q => if q = p then some c else m q

/-- The bounds checks in network.py:531, 564 and 614. -/
def Arr.inside (a : Arr Tile) (p : Int × Int) : Prop := 0 ≤ p.1 ∧ p.1 < a.cols ∧ 0 ≤ p.2 ∧ p.2 < a.rows

instance (a : Arr Tile) (p : Int × Int) : Decidable (a.inside p) := by unfold Arr.inside; infer_instance

/-- The position next to `p` in direction `d`. -/
def stepTo (p : Int × Int) (d : Dir) : Int × Int := (p.1 + d.dx, p.2 + d.dy)

/-- The position next to `p` against direction `d`. -/
def stepBack (p : Int × Int) (d : Dir) : Int × Int := (p.1 - d.dx, p.2 - d.dy)

/-- network.py:528-538 and, with `back`, network.py:549-559: the search for the other end of an underground belt.  The loop leaves the
array, and so fails, after less than `rows + cols` steps. -/
def searchEnd (a : Arr Tile) (d : Dir) (back : Bool) : Nat → Int × Int → Except PyErr (Int × Int)
  | 0, _ => .error .assertion
  | fuel + 1, p =>
    let q := if back then stepBack p d else stepTo p d
    if ¬ (a.inside q ∧ (back = true → 1 ≤ q.2)) then .error .assertion
    else if a.board q = .underground d (!back) then .error .assertion
    else if a.board q = .underground d back then .ok q
    else searchEnd a d back fuel q

/-- network.py:511-561 `next_tile`. -/
def nextTile (a : Arr Tile) (p : Int × Int) (isForward : Bool) : Except PyErr (Int × Int) :=
  match a.board p with
  | .belt i o => if isForward then .ok (stepTo p o) else .ok (stepTo p i.reverse)
  | .splitter _ _ => .error .assertion
  | .underground d true => if isForward then searchEnd a d false (a.rows + a.cols) p else .ok (stepBack p d)
  | .underground d false => if isForward then .ok (stepTo p d) else searchEnd a d true (a.rows + a.cols) p
  | _ => .error .runtimeError

/-- network.py:563-580 `trace`.  Every call but the last gives a colour to a cell that had none, so there are at most
`rows * cols + 1` of them: with that much fuel it never runs out. -/
def trace (a : Arr Tile) (colour : Int) (isForward : Bool) : Nat → Int × Int → ColourMap → Except PyErr ColourMap
  | 0, _, _ => .error .runtimeError
  | fuel + 1, p, m =>
    if ¬ a.inside p then .ok m
    else
      match a.board p with
      | .empty => .ok m
      | .splitter _ _ => .ok m
      | _ =>
        match m p with
        | some c => if c = colour then .ok m else .error .assertion
        | none =>
          match nextTile a p isForward with
          | .error e => .error e
          | .ok q => trace a colour isForward fuel q (m.set p colour)

/-- The variables of the loop in network.py:582-600: `colour_mapping`, `current_colour` and `splitters`. -/
structure ScanState where
  map : ColourMap
  current : Int
  heads : List (Int × Int)

/-- network.py:594-600 for one cell: a new colour for its whole belt line. -/
def newLine (a : Arr Tile) (p : Int × Int) (m : ColourMap) (colour : Int) : Except PyErr ColourMap :=
  match nextTile a p true with
  | .error e => .error e
  | .ok q =>
    match trace a colour true (a.rows * a.cols + 1) q (m.set p colour) with
    | .error e => .error e
    | .ok m =>
      match nextTile a p false with
      | .error e => .error e
      | .ok q => trace a colour false (a.rows * a.cols + 1) q m

/-- network.py:584-585. -/
def isHead : Tile → Bool
  | .splitter _ true => true
  | _ => false

/-- network.py:584-600: one cell. -/
def scanCell (a : Arr Tile) (s : ScanState) (p : Int × Int) : Except PyErr ScanState :=
  let heads := if isHead (a.board p) then s.heads ++ [p] else s.heads
  if (s.map p).isSome then .ok { s with heads := heads }
  else
    match a.board p with
    | .empty => .ok { s with map := s.map.set p (-1), heads := heads }
    | .filler => .ok { s with map := s.map.set p (-1), heads := heads }
    | .splitter _ _ => .ok { s with heads := heads }
    | _ =>
      match newLine a p s.map s.current with
      | .error e => .error e
      | .ok m => .ok ⟨m, s.current + 1, heads⟩

/-- The loop over the cells, column by column. -/
def scan (a : Arr Tile) : List (Int × Int) → ScanState → Except PyErr ScanState
  | [], s => .ok s
  | p :: ps, s =>
    match scanCell a s p with
    | .error e => .error e
    | .ok s => scan a ps s

/-- The cells in the order of network.py:582-583. -/
def Arr.columns (a : Arr Tile) : List (Int × Int) :=
  (List.range a.cols).flatMap fun (x : Nat) => (List.range a.rows).map fun (y : Nat) => ((x : Int), (y : Int))

/-- `offset_tile.input_direction`; the attribute of tiles without it is an error. -/
def inputDirection : Tile → Except PyErr (Option Dir)
  | .belt i o => .ok (Tile.belt i o).inputDirection
  | .underground d b => .ok (Tile.underground d b).inputDirection
  | .splitter d h => .ok (Tile.splitter d h).inputDirection
  | _ => .error .attributeError

/-- `offset_tile.output_direction`. -/
def outputDirection : Tile → Except PyErr (Option Dir)
  | .belt i o => .ok (Tile.belt i o).outputDirection
  | .underground d b => .ok (Tile.underground d b).outputDirection
  | .splitter d h => .ok (Tile.splitter d h).outputDirection
  | _ => .error .attributeError

/-- network.py:613-645: the colour of one of the ends of the splitter half at `base`. -/
def endColour (a : Arr Tile) (assume : Bool) (d : Dir) (isOutput : Bool) (base : Int × Int) (s : ColourMap × Int) :
    Except PyErr (Colour × (ColourMap × Int)) :=
  let pos := if isOutput then stepTo base d else stepBack base d
  if ¬ a.inside pos then
    if assume then .ok (some s.2, (s.1, s.2 + 1)) else .ok (none, s)
  else
    match a.board pos with
    | .splitter e _ =>
      if e = d then
        let p := if isOutput then pos else base
        match s.1 p with
        | some c => .ok (some c, s)
        | none => .ok (some s.2, (s.1.set p s.2, s.2 + 1))
      else .ok (none, s)
    | t =>
      match (if isOutput then inputDirection t else outputDirection t) with
      | .error e => .error e
      | .ok e => .ok (if some d = e then s.1 pos else none, s)

/-- network.py:603-647: the node of one splitter. -/
def parseNode (a : Arr Tile) (assume : Bool) (p : Int × Int) (s : ColourMap × Int) : Except PyErr (Node × (ColourMap × Int)) :=
  match a.board p with
  | .splitter d true => do
    let (i0, s) ← endColour a assume d false p s
    let (i1, s) ← endColour a assume d false (stepTo p d.next) s
    let (o0, s) ← endColour a assume d true p s
    let (o1, s) ← endColour a assume d true (stepTo p d.next) s
    .ok (((i0, i1), (o0, o1)), s)
  | _ => .error .assertion

/-- network.py:602-647: the loop over the splitters. -/
def parseNodes (a : Arr Tile) (assume : Bool) : List (Int × Int) → ColourMap × Int → Except PyErr Network
  | [], _ => .ok []
  | p :: ps, s =>
    match parseNode a assume p s with
    | .error e => .error e
    | .ok (node, s) =>
      match parseNodes a assume ps s with
      | .error e => .error e
      | .ok nodes => .ok (node :: nodes)

/-- network.py:650-659: the new colours.  All colours of one of the two sets get the same number, so the order in which the set is
iterated does not matter. -/
def parseMapping (n : Network) : PyDict Colour Colour :=
  let ext := getExteriorColours n
  let m : PyDict Colour Colour := ext.1.foldl (fun m c => m.set c (some 0)) []
  let r := n.foldl (fun (s : PyDict Colour Colour × Int) nd => ((s.1.set nd.2.1 (some s.2)).set nd.2.2 (some s.2), s.2 + 1)) (m, 1)
  ext.2.foldl (fun m c => m.set c (some r.2)) r.1

/-- network.py:504-664 `parse_network`.  `ord` is the order in which the set of splitters is iterated. -/
def parseNetwork (ord : List (Int × Int) → List (Int × Int)) (a : Arr Tile) (assume : Bool) : Except PyErr Network :=
  match scan a a.columns ⟨fun _ => none, 0, []⟩ with
  | .error e => .error e
  | .ok s =>
    match parseNodes a assume (ord s.heads) (s.map, s.current) with
    | .error e => .error e
    | .ok n => remapColours n ((parseMapping n).erase none)

end FSat
