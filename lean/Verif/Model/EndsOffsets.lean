import Verif.Model.PowerOfTwo
import Verif.Model.BalancerEnds
/-!
# Model of two functions that no program calls

`setup_balancer_ends_with_offsets` (belt_balancer.py) and `break_horisontal_symmetry` (optimisations.py).  Both can be called by a user of
the library.  Offsets and columns are natural numbers here; Python would also take negative ones.
-/

namespace FSat

/-- belt_balancer.py:24-32 and 34-42: one end column.  The tiles are set in column `x`, the colour in column `xc` (lines 29 and 39 pass
`grid.width - 1` in both cases). -/
def endColumn (g : Grid) (x xc offset count : Nat) (colour : Int) : Except PyErr Cnf :=
  joinE [concatE (fun y => setTile g x y .empty) (List.range offset),
    concatE (fun y => joinE [setTile g x y (.belt .right .right), setColour g xc y colour]) (List.range' offset count),
    concatE (fun y => setTile g x y .empty) (List.range' (offset + count) (g.height - (offset + count)))]

/-- belt_balancer.py:19-42 `setup_balancer_ends_with_offsets`, the clauses added. -/
def setupBalancerEndsWithOffsets (g : Grid) (net : PyDict Node Nat) (startOffset endOffset : Nat) : Except PyErr Cnf :=
  match getInputOutputColours (elements net) with
  | .error e => .error e
  | .ok ((a, m), (b, n)) =>
    if startOffset + m.toNat ≤ g.height ∧ endOffset + n.toNat ≤ g.height then
      joinE [endColumn g 0 (g.width - 1) startOffset m.toNat a, endColumn g (g.width - 1) (g.width - 1) endOffset n.toNat b]
    else .error .assertion

/-- optimisations.py:441-448: what one pair of tiles adds to `start` and to `end`. -/
def turnLits (a b : TileInst) : List Lit × List Lit := (dirs a.inp ++ dirs a.out ++ a.types, dirs b.out ++ dirs b.inp ++ b.types)

/-- The loops optimisations.py:439-448 over the positions of the first tiles, in order; the other tile is in column
`maxX - (x - minX)`. -/
def turnLoop (g : Grid) (minX maxX : Nat) : List (Nat × Nat) → Except PyErr (List Lit × List Lit)
  | [] => .ok ([], [])
  | p :: ps =>
    match g.getTile p.1 p.2 with
    | .error e => .error e
    | .ok a =>
      match g.getTile (maxX - (p.1 - minX)) p.2 with
      | .error e => .error e
      | .ok b =>
        match turnLoop g minX maxX ps with
        | .error e => .error e
        | .ok (l, r) => .ok ((turnLits a b).1 ++ l, (turnLits a b).2 ++ r)

/-- The positions optimisations.py:439-441 of the first tiles. -/
def turnCells (g : Grid) (minX maxX : Nat) : List (Nat × Nat) :=
  (List.range (min 2 ((maxX + 1 - minX) / 2))).flatMap fun dx => (List.range g.height).map fun y => (minX + dx, y)

/-- optimisations.py:432-450 `break_horisontal_symmetry`.  The difference in the number of turns is zero rather than negative when
`max_x` is below `min_x`, which gives the same empty range. -/
def breakHorisontalSymmetry (g : Grid) (minX : Nat := 0) (maxX : Option Nat := none) : Gen := fun s =>
  match turnLoop g minX (maxX.getD (g.width - 1)) (turnCells g minX (maxX.getD (g.width - 1))) with
  | .error e => .error e
  | .ok (l, r) => breakSymmetry poolAlloc l r s

end FSat
