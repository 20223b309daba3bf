import Verif.Model.BalancerEnds
/-!
# Model of `factorio_sat/belt_balancer_net_free.py`

Clause lists are modelled up to the order of clauses in the list.  The numbers of a tile are lists of literals.
-/

namespace FSat

/-- belt_balancer_net_free.py:16-22 `lcm` of one or more arguments. -/
def lcmAll : Nat → List Nat → Nat
  | a, [] => a
  | a, b :: l => (a * lcmAll b l) / Nat.gcd a (lcmAll b l)

/-- belt_balancer_net_free.py:25-26; `bit_length` is `Nat.size`. -/
def nextPowerOfTwo (x : Nat) : Nat := 1 <<< (x - 1).size

/-- The members of a tile that belong to one direction of flow (lines 43-47, 136-149). -/
structure FlowLits where
  flow : List (List Lit)
  diff : List (List Lit)
  carry : List (List Lit)
  ux : List (List Lit)
  uy : List (List Lit)

/-- Lines 81-85, 222-226, 234-238 for one component: `add_numbers(in0[1:], in1[1:], out0, carry, in0[0])`, `in0[0] == in1[0]` and
`out0 == out1`. -/
def halveBoth (in0 in1 out0 out1 carry : List Lit) : Except PyErr Cnf :=
  match in0, in1 with
  | a :: as, b :: bs =>
    match addNumbers fixedAlloc as bs out0 (some a) false carry, setNumbersEqual out0 out1 with
    | .ok (c, _), .ok e => .ok (c ++ literalsSame a b ++ e)
    | .error e, _ => .error e
    | _, .error e => .error e
  | _, _ => .error .indexError

/-- `implies(condition, clauses)` around code that may raise. -/
def impliesE (cond : List Lit) : Except PyErr Cnf → Except PyErr Cnf
  | .error e => .error e
  | .ok c => .ok (implies cond c)

/-- Lines 80-85, 216-226, 228-238: all components. -/
def halveAll (pre : List Lit) (in0 in1 out0 out1 carry : List (List Lit)) : Except PyErr Cnf :=
  concatE (fun e : List Lit × List Lit × List Lit × List Lit × List Lit => impliesE pre (halveBoth e.1 e.2.1 e.2.2.1 e.2.2.2.1 e.2.2.2.2))
    (in0.zip (in1.zip (out0.zip (out1.zip carry))))

/-- Lines 87-93, 240-248: the inputs of a splitter differ in some bit. -/
def diffClauses (pre : List Lit) (bits0 bits1 diff : List Lit) : Cnf :=
  (bits0.zip (bits1.zip diff)).flatMap (fun e => implies pre [[e.1, e.2.1, -e.2.2], [-e.1, -e.2.1, -e.2.2]])
  ++ implies pre [diff]

/-- Concatenate clause lists that may raise. -/
def joinE (l : List (Except PyErr Cnf)) : Except PyErr Cnf := concatE id l

/-- Lines 62-93 for one cell and direction. -/
def nToNCell (g : Grid) (F : Nat × Nat → FlowLits) (p : Nat × Nat) (d : Dir) : Except PyErr Cnf :=
  match g.nb p d, g.nb p d.next, g.offset p (d.dx + d.next.dx) (d.dy + d.next.dy) with
  | some p10, some p01, some p11 =>
    let pre := [(g.at' p).isHead, (g.at' p).inp d]
    joinE [halveAll pre (F p).flow (F p01).flow (F p10).flow (F p11).flow (F p).carry,
      .ok (diffClauses pre (F p).flow.flatten (F p01).flow.flatten (F p).diff.flatten)]
  | _, _, _ => .ok []

/-- Lines 53-57 for one tile. -/
def nToNTile (g : Grid) (F : Nat × Nat → FlowLits) (full : Nat) (p : Nat × Nat) : Except PyErr Cnf :=
  joinE [.ok (implies [(g.at' p).isSplitter] [dirs (g.at' p).inp, dirs (g.at' p).out]),
    concatE (fun c => setMaximum full c) (F p).flow]

/-- Lines 95-99, 303-305 (and 309-316): `value y i` is the number of component `i` in row `y` of the column `x`. -/
def columnFlow (g : Grid) (flow : Nat × Nat → List (List Lit)) (x : Nat) (value : Nat → Nat → Nat) : Except PyErr Cnf :=
  concatE (fun y => concatE (fun e : List Lit × Nat => setNumber (value y e.2) e.1) (flow (x, y)).zipIdx) (List.range g.height)

/-- Lines 97, 103, 303, 311. -/
def columnNoSplitter (g : Grid) (x : Nat) : Cnf := (List.range g.height).map fun y => [-(g.tile x y).isSplitter]

/-- Lines 36-37. -/
def nToNDenominator (size : Nat) : Nat := nextPowerOfTwo size / Nat.gcd (nextPowerOfTwo size) size

/-- Lines 42-48: `n` components of `bits` bits. -/
def nToNFields (n bits : Nat) : TFields :=
  .cons "flow" (.array (.number bits false) [n]) <| .cons "flow_diff" (.array .bool [n, bits]) <|
  .cons "flow_carry" (.array .bool [n, bits - 1]) <| .cons "flow_ux" (.array (.number bits false) [n]) <|
  .cons "flow_uy" (.array (.number bits false) [n]) .nil

/-- The members of an instance. -/
def nToNLitsOf (n bits : Nat) (i : (nToNFields n bits).Inst) : FlowLits := ⟨i.1, i.2.1, i.2.2.1, i.2.2.2.1, i.2.2.2.2.1⟩

/-- The members of the tile at a position (the grid is created with a fresh pool). -/
def nToNLits (width n bits : Nat) (p : Nat × Nat) : FlowLits :=
  nToNLitsOf n bits (toExtras none (nToNFields n bits) (cellInstance width none (nToNFields n bits) 0 p.1 p.2))

/-- Lines 50-105: the clauses on a given grid. -/
def nToNClauses (g : Grid) (F : Nat × Nat → FlowLits) (size : Nat) : Except PyErr Cnf :=
  let den := nToNDenominator size
  let full := size * den
  joinE [initClauses g,
    .ok (blockUnderground g (.ofBool true)),
    .ok (preventBadUndergrounding g),
    concatE (nToNTile g F full) g.cells,
    transportQuantity g (fun p => (F p).flow.flatten) (fun p => (F p).ux.flatten) (fun p => (F p).uy.flatten),
    concatE (fun p => concatE (nToNCell g F p) Dir.all) g.cells,
    .ok (columnNoSplitter g 0),
    columnFlow g (fun p => (F p).flow) 0 fun y i => if y % size = i then full else 0,
    .ok (columnNoSplitter g (g.width - 1)),
    columnFlow g (fun p => (F p).flow) (g.width - 1) fun _ _ => den]

/-- belt_balancer_net_free.py:29-107 `create_n_to_n_balancer`: the grid, its clauses and the counter of its pool. -/
def createNToN (width height : Nat) (ugLen : Option Nat) (size : Nat) : Except PyErr (Grid × Cnf × Nat) :=
  if width > 0 ∧ height > 0 ∧ size > 0 then
    let bits := (size * nToNDenominator size).size
    let fields := nToNFields (size - 1) bits
    let g := mkGrid width height ⟨false, false⟩ none ugLen fields 0
    match nToNClauses g (nToNLits width (size - 1) bits) size with
    | .error e => .error e
    | .ok cs => .ok (g, cs, height * width * (gridFields none fields).variableCount)
  else .error .assertion

/-! ### Different numbers of inputs and outputs -/

/-- Line 121. -/
def maxBeltFlow (m n : Nat) : Nat := lcmAll (nextPowerOfTwo (min m n)) [2, m, n]

/-- Lines 124-130: `forward_input_flow`, `forward_output_flow`, `backward_input_flow`, `backward_output_flow`. -/
def nToMFlows (m n : Nat) : Nat × Nat × Nat × Nat :=
  let total := maxBeltFlow m n * min m n
  (total / m, total / m / n, total / n, total / n / m)

/-- Lines 258-267, 290-299: one belt is halved onto two, for one component. -/
def splitOne (inF out0 out1 : List Lit) : Except PyErr Cnf :=
  match inF, out0.getLast?, out1.getLast? with
  | a :: as, some o0, some o1 =>
    match setNumbersEqual as out0.dropLast, setNumbersEqual as out1.dropLast with
    | .ok c0, .ok c1 => .ok ([[-a]] ++ c0 ++ c1 ++ [[-o0], [-o1]])
    | .error e, _ => .error e
    | _, .error e => .error e
  | _, _, _ => .error .indexError

/-- Lines 258-267, 290-299: all components. -/
def splitAll (pre : List Lit) (inF out0 out1 : List (List Lit)) : Except PyErr Cnf :=
  concatE (fun e : List Lit × List Lit × List Lit => impliesE pre (splitOne e.1 e.2.1 e.2.2)) (inF.zip (out0.zip out1))

/-- Lines 274, 288: two belts are merged into one, for one component. -/
def mergeOne (in0 in1 outF carry : List Lit) : Except PyErr Cnf :=
  match addNumbers fixedAlloc in0 in1 outF none false carry with
  | .error e => .error e
  | .ok (c, _) => .ok c

/-- Lines 269-274, 283-288: all components. -/
def mergeAll (pre : List Lit) (in0 in1 outF carry : List (List Lit)) : Except PyErr Cnf :=
  concatE (fun e : List Lit × List Lit × List Lit × List Lit => impliesE pre (mergeOne e.1 e.2.1 e.2.2.1 e.2.2.2))
    (in0.zip (in1.zip (outF.zip carry)))

/-- Lines 251-299 for one choice of the connected half: `c` is its cell, `c'` the cell in front of it, `u` the other half. -/
def nToMPartial (g : Grid) (F B : Nat × Nat → FlowLits) (d : Dir) (p00 p10 p01 p11 c c' u : Nat × Nat) : Except PyErr Cnf :=
  let preIn := [(g.at' p00).isHead, (g.at' p00).out d, (g.at' c).inp d, -(g.at' u).inp d]
  let preOut := [(g.at' p00).isHead, (g.at' p00).inp d, (g.at' c).out d, -(g.at' u).out d]
  joinE [splitAll preIn (F c).flow (F p10).flow (F p11).flow,
    mergeAll preIn (B p10).flow (B p11).flow (B c).flow (B p00).carry,
    mergeAll preOut (F p00).flow (F p01).flow (F c').flow (F p00).carry,
    splitAll preOut (B c').flow (B p00).flow (B p01).flow]

/-- Lines 180-206: a splitter half with one end has its other half connected on both ends. -/
def nToMHalves (a b : TileInst) (d : Dir) : Cnf :=
  [[-a.isHead, -a.inp d, a.out d, b.out d], [-a.isHead, -a.inp d, a.out d, b.inp d],
   [-a.isHead, -a.out d, a.inp d, b.inp d], [-a.isHead, -a.out d, a.inp d, b.out d]]

/-- Lines 168-299 for one cell and direction: `F` is `tile.forward`, `B` is `tile.backward`. -/
def nToMCell (g : Grid) (F B : Nat × Nat → FlowLits) (p : Nat × Nat) (d : Dir) : Except PyErr Cnf :=
  match g.nb p d, g.nb p d.next, g.offset p (d.dx + d.next.dx) (d.dy + d.next.dy) with
  | some p10, some p01, some p11 =>
    let a := g.at' p
    let b := g.at' p01
    let pre := [a.isHead, a.inp d, b.inp d, a.out d, b.out d]
    joinE [.ok (nToMHalves a b d),
      halveAll pre (F p).flow (F p01).flow (F p10).flow (F p11).flow (F p).carry,
      halveAll pre (B p10).flow (B p11).flow (B p).flow (B p01).flow (B p).carry,
      .ok (diffClauses pre ((F p).flow.flatten ++ (B p).flow.flatten) ((F p01).flow.flatten ++ (B p01).flow.flatten)
        ((F p).diff.flatten ++ (B p).diff.flatten)),
      nToMPartial g F B d p p10 p01 p11 p p10 p01,
      nToMPartial g F B d p p10 p01 p11 p01 p11 p]
  | _, _, _ => .ok []

/-- `[flow_component[-1] for flow_component in flow_direction]`, line 160. -/
def topBits : List (List Lit) → Except PyErr (List Lit)
  | [] => .ok []
  | c :: cs =>
    match c.getLast?, topBits cs with
    | some l, .ok ls => .ok (l :: ls)
    | none, _ => .error .indexError
    | _, .error e => .error e

/-- Lines 155-161 for one tile. -/
def nToMTile (F B : FlowLits) (maxFlow : Nat) : Except PyErr Cnf :=
  match topBits F.flow, topBits B.flow with
  | .ok f, .ok b => joinE [concatE (fun c => setMaximum maxFlow c) (F.flow ++ B.flow), .ok (quadraticAmo f ++ quadraticAmo b)]
  | .error e, _ => .error e
  | _, .error e => .error e

/-- Lines 136-142, 143-149: `n` components of `bits` bits. -/
def nToMMember (n bits : Nat) : TFields :=
  .cons "flow" (.array (.number bits false) [n]) <| .cons "diff" (.array .bool [n, bits]) <|
  .cons "carry" (.array .bool [n, bits]) <| .cons "ux" (.array (.number bits false) [n]) <|
  .cons "uy" (.array (.number bits false) [n]) .nil

/-- Lines 135-150. -/
def nToMFields (m n bits : Nat) : TFields :=
  .cons "forward" (.composite (nToMMember m bits)) <| .cons "backward" (.composite (nToMMember n bits)) .nil

/-- The members of an instance. -/
def nToMLitsOf (n bits : Nat) (i : (nToMMember n bits).Inst) : FlowLits := ⟨i.1, i.2.1, i.2.2.1, i.2.2.2.1, i.2.2.2.2.1⟩

/-- `tile.forward` and `tile.backward` of the tile at a position. -/
def nToMLits (width m n bits : Nat) (p : Nat × Nat) : FlowLits × FlowLits :=
  let i := toExtras none (nToMFields m n bits) (cellInstance width none (nToMFields m n bits) 0 p.1 p.2)
  (nToMLitsOf m bits i.1, nToMLitsOf n bits i.2.1)

/-- Lines 152-316: the clauses on a given grid. -/
def nToMClauses (g : Grid) (F B : Nat × Nat → FlowLits) (m n : Nat) : Except PyErr Cnf :=
  let (fIn, fOut, bIn, bOut) := nToMFlows m n
  joinE [initClauses g,
    .ok (blockUnderground g (.ofBool true)),
    .ok (preventBadUndergrounding g),
    concatE (fun p => nToMTile (F p) (B p) (maxBeltFlow m n)) g.cells,
    transportQuantity g (fun p => (F p).flow.flatten) (fun p => (F p).ux.flatten) (fun p => (F p).uy.flatten),
    transportQuantity g (fun p => (B p).flow.flatten) (fun p => (B p).ux.flatten) (fun p => (B p).uy.flatten),
    concatE (fun p => concatE (nToMCell g F B p) Dir.all) g.cells,
    .ok (columnNoSplitter g 0),
    columnFlow g (fun p => (F p).flow) 0 fun y i => if y % m = i then fIn else 0,
    columnFlow g (fun p => (B p).flow) 0 fun _ _ => bOut,
    .ok (columnNoSplitter g (g.width - 1)),
    columnFlow g (fun p => (F p).flow) (g.width - 1) fun _ _ => fOut,
    columnFlow g (fun p => (B p).flow) (g.width - 1) fun y i => if y % n = i then bIn else 0]

/-- belt_balancer_net_free.py:110-318 `create_n_to_m_balancer`. -/
def createNToM (width height : Nat) (ugLen : Option Nat) (m n : Nat) : Except PyErr (Grid × Cnf × Nat) :=
  if width > 0 ∧ height > 0 ∧ m > 0 ∧ n > 0 then
    if m = n then createNToN width height ugLen m
    else
      let bits := (maxBeltFlow m n).size
      let fields := nToMFields m n bits
      let g := mkGrid width height ⟨false, false⟩ none ugLen fields 0
      match nToMClauses g (fun p => (nToMLits width m n bits p).1) (fun p => (nToMLits width m n bits p).2) m n with
      | .error e => .error e
      | .ok cs => .ok (g, cs, height * width * (gridFields none fields).variableCount)
  else .error .assertion

/-- belt_balancer_net_free.py:385-392: the grid `main` builds; the optimisations and the partial layout (394-400) only add
clauses. -/
def freeBalancer (width height : Nat) (ugLen : Option Nat) (m n : Nat) (aligned : Bool) : Except PyErr (Grid × Cnf × Nat) :=
  match createNToM width height ugLen m n with
  | .error e => .error e
  | .ok (g, cs, s) =>
    match Gen.all [freeBalancerEnds g m n aligned,
        Gen.pure (.ok (blockBelts g (.ofPair false true))),
        Gen.pure (.ok (preventIntersection g)),
        Gen.pure (enforceMaximumUndergroundLength g)] s with
    | .error e => .error e
    | .ok (cs', s') => .ok (g, cs ++ cs', s')

end FSat
