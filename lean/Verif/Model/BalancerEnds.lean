import Verif.Model.BeltBalancer
/-!
# Model of the functions that fix the inputs and outputs of a balancer

`belt_balancer.py` and `belt_balancer_net_free.py`.  Variables are taken from `grid.pool`, whose counter is the argument `s`.
-/

namespace FSat

/-- The loops belt_balancer.py:56-62, 78-84 and belt_balancer_net_free.py:327-335, 345-352: what an offset `di` means for a line of
tiles. -/
def blockConsequences (inside rest : TileInst → Cnf) (tiles : List TileInst) (count di : Nat) : Cnf :=
  tiles.zipIdx.flatMap fun e => if di ≤ e.2 ∧ e.2 < di + count then inside e.1 else rest e.1

/-- belt_balancer.py:53-63, 75-85 and belt_balancer_net_free.py:323-337, 340-354: exactly one offset literal holds, and each implies
its consequences. -/
def offsetClauses (inside rest : TileInst → Cnf) (tiles : List TileInst) (count : Nat) (offsets : List Lit) : Cnf :=
  quadraticOne offsets ++ offsets.zipIdx.flatMap fun e => implies [e.1] (blockConsequences inside rest tiles count e.2)

/-- belt_balancer.py:57-58: inside the block. -/
def inputInside (d : Dir) (t : TileInst) : Cnf := [[t.inp d], [t.isBelt]]

/-- belt_balancer.py:59-62: outside the block. -/
def inputRest (d : Dir) (restEmpty : Bool) (t : TileInst) : Cnf :=
  if restEmpty then setAllFalse t.allDir else [[-t.inp d], [t.isBelt]]

/-- belt_balancer.py:45-64 `setup_balancer_input`: the offsets, the clauses and the counter of the pool. -/
def setupBalancerInput (tiles : List TileInst) (d : Dir) (count : Nat) (restEmpty : Bool) (s : Nat) :
    Except PyErr (List Lit × Cnf × Nat) :=
  if count ≤ tiles.length then
    let offsets := allocVars s (tiles.length - count)
    if tiles.length - count = 0 then .ok (offsets, tiles.flatMap (fun t => [[t.inp d]]), s)
    else .ok (offsets, offsetClauses (inputInside d) (inputRest d restEmpty) tiles count offsets, s + (tiles.length - count))
  else .error .assertion

/-- belt_balancer.py:79-80: inside the block. -/
def outputInside (d : Dir) (t : TileInst) : Cnf := [[t.out d], [t.isBelt]]

/-- belt_balancer.py:81-84: outside the block. -/
def outputRest (d : Dir) (restEmpty : Bool) (t : TileInst) : Cnf :=
  if restEmpty then setAllFalse t.allDir else [[-t.out d]]

/-- belt_balancer.py:67-86 `setup_balancer_output`. -/
def setupBalancerOutput (tiles : List TileInst) (d : Dir) (count : Nat) (restEmpty : Bool) (s : Nat) :
    Except PyErr (List Lit × Cnf × Nat) :=
  if count ≤ tiles.length then
    let offsets := allocVars s (tiles.length - count)
    if tiles.length - count = 0 then .ok (offsets, tiles.flatMap (outputInside d), s)
    else .ok (offsets, offsetClauses (outputInside d) (outputRest d restEmpty) tiles count offsets, s + (tiles.length - count))
  else .error .assertion

/-- belt_balancer.py:98-104 and belt_balancer_net_free.py:356-362. -/
def alignClauses (m n : Nat) (starts ends : List Lit) : Cnf :=
  if m ≥ n then starts.zipIdx.flatMap fun e => implies [e.1] [(ends.drop e.2).take (1 + m - n)]
  else ends.zipIdx.flatMap fun e => implies [e.1] [(starts.drop e.2).take (1 + n - m)]

/-- `[grid.get_tile_instance(x, y) for y in range(grid.height)]`. -/
def Grid.column (g : Grid) (x : Nat) : List TileInst := (List.range g.height).map (g.tile x)

/-- `[grid.get_tile_instance(x, y) for x in range(grid.width)]`. -/
def Grid.row (g : Grid) (y : Nat) : List TileInst := (List.range g.width).map fun x => g.tile x y

/-- One input line and one output line, and what depends on the offsets. -/
def endsClauses (ins outs : List TileInst) (din dout : Dir) (m n : Nat) (restEmpty aligned : Bool) : Gen := fun s =>
  match setupBalancerInput ins din m restEmpty s with
  | .error e => .error e
  | .ok (starts, c1, s1) =>
    match setupBalancerOutput outs dout n restEmpty s1 with
    | .error e => .error e
    | .ok (ends, c2, s2) => .ok (c1 ++ c2 ++ (if aligned then alignClauses m n starts ends else []), s2)

/-- belt_balancer.py:89-104 `setup_balancer_ends`; `network` is the `Counter`.  The counts are positive whenever
`get_input_output_colours` returns (`gio_iff`). -/
def setupBalancerEnds (g : Grid) (net : PyDict Node Nat) (aligned useEnds : Bool) : Gen :=
  match getInputOutputColours (elements net) with
  | .error e => fun _ => .error e
  | .ok ((_, m), (_, n)) => endsClauses (g.column 0) (g.column (g.width - 1)) .right .right m.toNat n.toNat (!useEnds) aligned

/-- belt_balancer.py:107-113 `setup_balancer_ends_90`. -/
def setupBalancerEnds90 (g : Grid) (net : PyDict Node Nat) (useEnds : Bool) : Gen :=
  match getInputOutputColours (elements net) with
  | .error e => fun _ => .error e
  | .ok ((_, m), (_, n)) => endsClauses (g.column 0) (g.row (g.height - 1)) .right .down m.toNat n.toNat (!useEnds) false

/-- belt_balancer.py:116-121 `setup_balancer_ends_180`. -/
def setupBalancerEnds180 (g : Grid) (net : PyDict Node Nat) : Gen :=
  match getInputOutputColours (elements net) with
  | .error e => fun _ => .error e
  | .ok ((_, m), (_, n)) => endsClauses (g.column 0) (g.column 0) .right .left m.toNat n.toNat false false

/-- belt_balancer_net_free.py:330-332, 347-349. -/
def freeInside (t : TileInst) : Cnf := [[t.inp .right], [t.out .right]]

/-- belt_balancer_net_free.py:327-329, 333-335. -/
def freeRest (t : TileInst) : Cnf := setAllFalse t.allDir

/-- belt_balancer_net_free.py:321-362 `setup_balancer_ends`; the counts are positive there (`create_n_to_m_balancer` asserts it). -/
def freeBalancerEnds (g : Grid) (m n : Nat) (aligned : Bool) : Gen := fun s =>
  let starts := allocVars s (g.height + 1 - m)
  let s1 := s + (g.height + 1 - m)
  let ends := allocVars s1 (g.height + 1 - n)
  .ok (offsetClauses freeInside freeRest (g.column 0) m starts
    ++ offsetClauses freeInside freeRest (g.column (g.width - 1)) n ends
    ++ (if aligned then alignClauses m n starts ends else []), s1 + (g.height + 1 - n))

end FSat
