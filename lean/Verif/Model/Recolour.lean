import Verif.Model.Network
import Verif.Model.Search
import Mathlib.Data.Int.Bitwise
/-!
# Model of `pop_count`, `calculate_cost` and `optimise_colours` (`factorio_sat/network.py`)
-/

namespace FSat

/-- The loop network.py:383-385, with the number of iterations that are left as a bound (it is at most the value, see `popCount`). -/
def popLoop : Nat → Nat → Nat → Nat
  | 0, _, result => result
  | k + 1, value, result => if value ≠ 0 then popLoop k (value >>> 1) (result + (value &&& 1)) else result

/-- network.py:380-386 `pop_count`. -/
def popCount (value : Int) : Except PyErr Nat :=
  if value > 0 then .ok (popLoop value.toNat value.toNat 0) else .error .assertion

/-- `for node in network: for side in node`, network.py:401-402 and 456-457. -/
def sidesOf (n : Network) : List (Colour × Colour) := n.flatMap fun nd => [nd.1, nd.2]

/-- The loop network.py:401-405. -/
def costLoop (middle : List Colour) : List (Colour × Colour) → Nat → Except PyErr Nat
  | [], cost => .ok cost
  | (some a, some b) :: rest, cost =>
    if some a ∈ middle ∨ some b ∈ middle then
      match popCount (Int.xor a b) with
      | .error e => .error e
      | .ok k => costLoop middle rest (cost + k)
    else costLoop middle rest cost
  | (none, _) :: rest, cost => costLoop middle rest cost
  | (some _, none) :: rest, cost => costLoop middle rest cost

/-- network.py:389-406 `calculate_cost`. -/
def calculateCost (n : Network) : Except PyErr Nat :=
  let inC := colourSet (insOf n)
  let outC := colourSet (outsOf n)
  costLoop (inC.filter (· ∈ outC)) (sidesOf n) 0

/-- network.py:433: the variables of the labels, in the order in which the set of the colours is visited. -/
def labelLoop (length : Nat) : List Int → Nat → Except PyErr (PyDict Int (List Lit) × Nat)
  | [], s => .ok ([], s)
  | c :: cs, s =>
    match allocMany poolAlloc length s with
    | .error e => .error e
    | .ok (l, s1) =>
      match labelLoop length cs s1 with
      | .error e => .error e
      | .ok (ls, s2) => .ok ((c, l) :: ls, s2)

/-- network.py:435-437: the clauses of the numbers that are not labels. -/
def excludeAll (labels : List (List Lit)) : List Nat → Except PyErr Cnf
  | [] => .ok []
  | k :: ks =>
    match labels.mapM fun l => setNotNumber (k : Int) l with
    | .error e => .error e
    | .ok c =>
      match excludeAll labels ks with
      | .error e => .error e
      | .ok cs => .ok (c ++ cs)

/-- network.py:447: the clauses of one bit of a difference. -/
def differenceBit (a b out : Lit) : Cnf := [[a, b, -out], [-a, -b, -out], [a, -b, out], [-a, b, out]]

/-- The loop network.py:446-447 over the bits of two labels. -/
def differenceBits : List Lit → List Lit → List Lit → Cnf
  | a :: as, b :: bs, o :: os => differenceBit a b o ++ differenceBits as bs os
  | _, _, _ => []

/-- The loops network.py:440-449 over the pairs of `labels.items()`: the clauses and `differences`.  (No pair of colours comes twice, so
the assignment in line 449 always adds an entry.) -/
def differenceLoop (length : Nat) : List ((Int × List Lit) × (Int × List Lit)) → Nat →
    Except PyErr (Cnf × PyDict (Int × Int) (List Lit) × Nat)
  | [], s => .ok ([], [], s)
  | (la, lb) :: rest, s =>
    if la.1 ≥ lb.1 then differenceLoop length rest s
    else
      match allocMany poolAlloc length s with
      | .error e => .error e
      | .ok (d, s1) =>
        match differenceLoop length rest s1 with
        | .error e => .error e
        | .ok (cs, ds, s2) => .ok (differenceBits la.2 lb.2 d ++ [d] ++ cs, ((la.1, lb.1), d) :: ds, s2)

/-- The loop network.py:451-466. -/
def countedLoop (edge : List Colour) (differences : PyDict (Int × Int) (List Lit)) : List (Colour × Colour) → Except PyErr (List Lit)
  | [] => .ok []
  | (some a, some b) :: rest =>
    if some a ∈ edge ∧ some b ∈ edge then countedLoop edge differences rest
    else
      match differences.get (if a > b then (b, a) else (a, b)) with
      | none => .error .keyError
      | some d =>
        match countedLoop edge differences rest with
        | .error e => .error e
        | .ok ds => .ok (d ++ ds)
  | (none, _) :: rest => countedLoop edge differences rest
  | (some _, none) :: rest => countedLoop edge differences rest

/-- The numbers `range(a, b)`. -/
def pyRange (a b : Nat) : List Nat := (List.range (b - a)).map (a + ·)

/-- network.py:412-474: `labels`, `result` and the clauses.  `bin_length(0)` is a `ValueError`. -/
def colourProblem (ord : List Colour → List Colour) (n : Network) (startingCost : Nat) :
    Except PyErr (PyDict Int (List Lit) × List Lit × Cnf) :=
  let inC := colourSet (insOf n)
  let outC := colourSet (outsOf n)
  let edge := inC.filter (· ∉ outC) ++ outC.filter (· ∉ inC)
  let all := (inC ++ outC).dedup
  if all.length = 0 then .error .valueError
  else
    let length := binLength all.length
    match labelLoop length ((ord all).filterMap id) 0 with
    | .error e => .error e
    | .ok (labels, s1) =>
      match excludeAll (labels.map Prod.snd) (pyRange all.length (1 <<< length)) with
      | .error e => .error e
      | .ok c1 =>
        match differenceLoop length (labels.flatMap fun a => labels.map fun b => (a, b)) s1 with
        | .error e => .error e
        | .ok (c2, differences, s2) =>
          match countedLoop edge differences (sidesOf n) with
          | .error e => .error e
          | .ok counted =>
            let resultBits := binLength (counted.length + 1)
            match allocMany poolAlloc resultBits s2 with
            | .error e => .error e
            | .ok (result, s3) =>
              match getPopcount poolAlloc counted result s3 with
              | .error e => .error e
              | .ok (c3, _) =>
                match excludeAll [result] (pyRange startingCost (1 <<< resultBits)) with
                | .error e => .error e
                | .ok c4 => .ok (labels, result, c1 ++ c2 ++ c3 ++ c4)

/-- The loop network.py:477-483: `model` and the value of `cost` after it.  The first argument is the cost of the next iteration; it
is zero when the range is exhausted, `cost` then keeps its last value. -/
def costSearch (solver : Oracle) (result : List Lit) : Nat → Nat → Cnf → Option (List Lit) → Except PyErr (Option (List Lit) × Nat)
  | 0, _, _, model => .ok (model, 1)
  | cost + 1, call, cs, model =>
    match solver call cs with
    | none => .ok (model, cost + 1)
    | some m =>
      match setNotNumber ((cost + 1 : Nat) : Int) result with
      | .error e => .error e
      | .ok c => costSearch solver result cost (call + 1) (cs ++ [c]) (some m)

/-- `values[lit]` (network.py:495) for a variable. -/
def lookUp (m : Mapping) (l : Lit) : Except PyErr Bool :=
  match m l.var with
  | some b => .ok b
  | none => .error .keyError

/-- network.py:493-496: `colour_map`. -/
def readColours (m : Mapping) : PyDict Int (List Lit) → Except PyErr (PyDict Colour Colour)
  | [] => .ok []
  | (c, ls) :: rest =>
    match ls.mapM (lookUp m) with
    | .error e => .error e
    | .ok bs =>
      match readNumber bs with
      | .error e => .error e
      | .ok k =>
        match readColours m rest with
        | .error e => .error e
        | .ok d => .ok ((some c, some k) :: d)

/-- network.py:409-501 `optimise_colours`. -/
def optimiseColours (ord : List Colour → List Colour) (solver : Oracle) (n : Network) : Except PyErr Network :=
  match calculateCost n with
  | .error e => .error e
  | .ok startingCost =>
    match colourProblem ord n startingCost with
    | .error e => .error e
    | .ok (labels, result, clauses) =>
      match costSearch solver result (startingCost - 1) 0 clauses none with
      | .error e => .error e
      | .ok (none, _) => .ok n
      | .ok (some m, cost) =>
        match readColours (mappingOf m) labels with
        | .error e => .error e
        | .ok colourMap =>
          match remapColours n colourMap with
          | .error e => .error e
          | .ok r =>
            match calculateCost r with
            | .error e => .error e
            | .ok k => if cost + 1 = k then .ok r else .error .assertion

end FSat
