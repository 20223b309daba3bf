import Verif.Model.Library
import Verif.Model.Solver
import Verif.Model.Network
/-!
# Model of `factorio_sat/belt_balancer.py`

Clause lists are modelled up to the order of clauses in the list.  A network is the `Counter` that `deduplicate_network` returns.
-/

namespace FSat

/-- belt_balancer.py:127-131: the colours of the network, without `None`. -/
def netColours (net : PyDict Node Nat) : List Int :=
  (net.flatMap fun e => [e.1.1.1, e.1.1.2, e.1.2.1, e.1.2.2]).filterMap id

/-- The first colour of a side that is not `None` (belt_balancer.py:202-205, 215-218). -/
def theColour (s : Colour × Colour) : Except PyErr Int :=
  match s.1 with
  | some c => .ok c
  | none =>
    match s.2 with
    | some c => .ok c
    | none => .error .assertion

/-- `None in side`. -/
def sideOpen (s : Colour × Colour) : Bool := s.1.isNone || s.2.isNone

/-- One side of a splitter, belt_balancer.py:200-211 and 213-225: `l0`, `l1` say that the belts are there, `c0`, `c1` are their
colours. -/
def nodeSide (pre : List Lit) (side : Colour × Colour) (l0 l1 : Lit) (c0 c1 : List Lit) : Except PyErr Cnf :=
  match side with
  | (some a, some b) =>
    match setNumbers a b c0 c1 with
    | .error e => .error e
    | .ok cs => .ok (implies pre [[l0], [l1]] ++ implies pre cs)
  | _ =>
    match theColour side with
    | .error e => .error e
    | .ok c =>
      match setNumber c c0, setNumber c c1 with
      | .ok n0, .ok n1 => .ok (implies pre (literalsDifferent l0 l1) ++ implies (pre ++ [l0]) n0 ++ implies (pre ++ [l1]) n1)
      | .error e, _ => .error e
      | _, .error e => .error e

/-- belt_balancer.py:179-225 for one node type, cell and direction; `node p` is the list `tile.node`. -/
def nodeDir (g : Grid) (node : Nat × Nat → List Lit) (i : Nat) (k : Node) (p : Nat × Nat) (d : Dir) : Except PyErr Cnf :=
  let t00 := g.at' p
  let pre := [(node p).getD i default, if sideOpen k.1 then t00.out d else t00.inp d]
  match g.nb p d, g.nb p d.next, g.offset p (d.dx + d.next.dx) (d.dy + d.next.dy) with
  | some p10, some p01, some p11 =>
    let t10 := g.at' p10
    let t01 := g.at' p01
    let t11 := g.at' p11
    match nodeSide pre k.1 (t00.inp d) (t01.inp d) t00.colour t01.colour,
        nodeSide pre k.2 (t00.out d) (t01.out d) t10.colour t11.colour with
    | .ok a, .ok b => .ok (a ++ b)
    | .error e, _ => .error e
    | _, .error e => .error e
  | _, _, _ => .ok [invertComponents pre]

/-- belt_balancer.py:168-225 for one node type and cell. -/
def nodeCell (g : Grid) (node : Nat × Nat → List Lit) (inColour outColour : Int) (i : Nat) (k : Node) (p : Nat × Nat) :
    Except PyErr Cnf :=
  let t := g.at' p
  match setNumber inColour t.colour, setNumber outColour t.colour, concatE (nodeDir g node i k p) Dir.all with
  | .ok a, .ok b, .ok c => .ok (implies [t.isInput] a ++ implies [t.isOutput] b
      ++ [-(node p).getD i default :: dirs (if sideOpen k.1 then t.out else t.inp)] ++ c)
  | .error e, _, _ => .error e
  | _, .error e, _ => .error e
  | _, _, .error e => .error e

/-- belt_balancer.py:165-225 for one node type: the assertion 166 and the cells. -/
def nodeClauses (g : Grid) (node : Nat × Nat → List Lit) (inColour outColour : Int) (i : Nat) (k : Node) : Except PyErr Cnf :=
  if [k.1.1, k.1.2, k.2.1, k.2.2].countP (·.isNone) ≤ 1 then concatE (nodeCell g node inColour outColour i k) g.cells
  else .error .assertion

/-- belt_balancer.py:133: the extra members of a tile. -/
def nodeFields (n : Nat) : TFields := .cons "node" (.oneHot n) .nil

/-- `tile.node` (the grid is created with a fresh pool). -/
def nodeLits (width colours n : Nat) (p : Nat × Nat) : List Lit :=
  (toExtras (some colours) (nodeFields n) (cellInstance width (some colours) (nodeFields n) 0 p.1 p.2)).1

/-- belt_balancer.py:139-225: the clauses of a grid with the member `node`. -/
def balancerClauses (lib : CardLib) (g : Grid) (node : Nat × Nat → List Lit) (net : PyDict Node Nat) : Gen :=
  match getInputOutputColours (elements net) with
  | .error e => fun _ => .error e
  | .ok ((inColour, inCount), (outColour, outCount)) =>
    Gen.all ([
      Gen.pure (.ok (blockUnderground g (.ofBool true))),
      Gen.pure (.ok (preventBadUndergrounding g)),
      Gen.pure (preventBadColouring g),
      libraryEquals lib ((g.cells.filter fun p => (p.1 + p.2) % 2 = 1).map fun p => (g.at' p).isSplitter)
        ((net.map Prod.snd).sum : Nat)]
      ++ net.zipIdx.map (fun e => libraryEquals lib (g.cells.map fun p => (node p).getD e.2 default) (e.1.2 : Nat))
      ++ [
      Gen.pure (.ok (g.cells.flatMap fun p => quadraticOne (-(g.at' p).isHead :: node p))),
      libraryEquals lib (g.cells.map fun p => (g.at' p).isInput) inCount,
      libraryEquals lib (g.cells.map fun p => (g.at' p).isOutput) outCount,
      Gen.pure (concatE (fun e : (Node × Nat) × Nat => nodeClauses g node inColour outColour e.2 e.1.1) net.zipIdx)])

/-- belt_balancer.py:124-226 `create_balancer`: the grid, its member `node`, its clauses and the counter of its pool.  Python's
`None` for an unlimited underground length is the argument's infinity.  Colours are written with the bits of `max(all_colours)`; a
network whose greatest colour is negative is rejected here, where Python would fail later. -/
def createBalancer (lib : CardLib) (net : PyDict Node Nat) (width height : Nat) (ugLen : Option Nat) :
    Except PyErr (Grid × (Nat × Nat → List Lit) × Cnf × Nat) :=
  if width > 0 ∧ height > 0 then
    match (netColours net).max? with
    | none => .error .valueError
    | some m =>
      if m < 0 then .error .assertion
      else
        let n := (m + 1).toNat
        let g := mkGrid width height ⟨false, false⟩ (some n) ugLen (nodeFields net.length) 0
        let node := nodeLits width n net.length
        let s := height * width * (gridFields (some n) (nodeFields net.length)).variableCount
        match Gen.all [
            Gen.pure (initClauses g),
            Gen.pure (concatE (fun c : Nat => if (c : Int) ∈ netColours net then .ok [] else preventColour g c) (List.range n)),
            balancerClauses lib g node net] s with
        | .error e => .error e
        | .ok (cs, s') => .ok (g, node, cs, s')
  else .error .assertion

end FSat
