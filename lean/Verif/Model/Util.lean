import Verif.Model.Sat
import Mathlib.Data.Nat.Log
/-!
# Model of `factorio_sat/util.py`
-/

namespace FSat

/-- util.py:331-332. -/
def literalsSame (a b : Lit) : Cnf := [[-a, b], [a, -b]]

/-- util.py:327-328. -/
def literalsDifferent (a b : Lit) : Cnf := [[a, b], [-a, -b]]

/-- util.py:321-324. -/
def implies (cond : List Lit) (cons : Cnf) : Cnf := cons.map fun c => cond.map (- ·) ++ c

/-- util.py:335-337. -/
def invertComponents (c : Clause) : Clause := c.map (- ·)

/-- util.py:182-183. -/
def setAllFalse (ls : List Lit) : Cnf := ls.map fun l => [-l]

/-- util.py:186-187. -/
def setAllTrue (ls : List Lit) : Cnf := ls.map fun l => [l]

/-- util.py:175-179. -/
def setLiteral (l : Lit) (b : Bool) : Lit := if b then l else -l

/-- util.py:315-318. `value & (1 << bit)` on Python ints (two's complement for negatives) is the parity of the
floor division by `2^bit`. -/
def getBits (value : Int) (n : Nat) : List Bool :=
  (List.range n).map fun i => decide ((value / 2 ^ i) % 2 = 1)

/-- util.py:157-161, the unsigned part of `read_number`: `result |= 1 << i` for the set bits. -/
def readNumberFrom : Nat → Nat → List Bool → Nat
  | _, r, [] => r
  | i, r, b :: bs => readNumberFrom (i + 1) (if b then r ||| (1 <<< i) else r) bs

/-- util.py:157-168. -/
def readNumber (bits : List Bool) (signed : Bool := false) : Except PyErr Int :=
  let result : Int := readNumberFrom 0 0 bits
  if signed then
    if bits.length > 1 then
      if bits.getLast? = some true then .ok (result - 2 ^ bits.length) else .ok result
    else .error .assertion
  else .ok result

/-- util.py:171-172. `ceil(log2 value)`; the float computation is modelled exactly, and `value = 0` (a `ValueError`
in Python) is handled by the callers. -/
def binLength (value : Nat) : Nat := Nat.clog 2 value

/-- util.py:311-312. -/
def isPowerOfTwo (value : Nat) : Bool := value &&& (value - 1) == 0

/-- The clauses of one bit position, util.py:60-89. -/
def addBit (a b out : Lit) (cin : Option Lit) (cout : Lit) : Cnf :=
  match cin with
  | none =>
    [[-a, -b, cout], [a, -cout], [b, -cout],
     [a, b, -out], [-a, b, out], [a, -b, out], [-a, -b, -out]]
  | some c =>
    [[-a, -b, cout], [-a, -c, cout], [-b, -c, cout],
     [a, b, -cout], [a, c, -cout], [b, c, -cout],
     [a, b, c, -out], [-a, b, c, out], [a, -b, c, out], [-a, -b, c, -out],
     [a, b, -c, out], [-a, b, -c, -out], [a, -b, -c, -out], [-a, -b, -c, out]]

/-- The loop util.py:57-91; returns the clauses and the last carry. -/
def addLoop {σ : Type} (al : Alloc σ) :
    List Lit → List Lit → List Lit → Option Lit → σ → Except PyErr (Cnf × Option Lit × σ)
  | a :: as, b :: bs, o :: os, c, s =>
    match al s with
    | .error e => .error e
    | .ok (co, s1) =>
      match addLoop al as bs os (some co) s1 with
      | .error e => .error e
      | .ok (cls, cf, s2) => .ok (addBit a b o c co ++ cls, cf, s2)
  | _, _, _, c, s => .ok ([], c, s)

/-- util.py:47-97. -/
def addNumbers {σ : Type} (al : Alloc σ) (a b out : List Lit) (cin : Option Lit) (allowOverflow : Bool) (s : σ) :
    Except PyErr (Cnf × σ) :=
  if a.length ≠ b.length then .error .assertion
  else if ¬ (out.length = a.length ∨ out.length = a.length + 1) then .error .assertion
  else
    match addLoop al a b out cin s with
    | .error e => .error e
    | .ok (cls, cf, s1) =>
      if out.length > a.length then
        match cf, out.getLast? with
        | some c, some o => .ok (cls ++ literalsSame c o, s1)
        | _, _ => .error .typeError
      else if !allowOverflow then
        match cf with
        | some c => .ok (cls ++ [[-c]], s1)
        | none => .error .typeError
      else .ok (cls, s1)

/-- The loop util.py:108-117: `numberIn` and the remaining numbers. -/
def sumLoop {σ : Type} (al : Alloc σ) (size : Nat) (output : List Lit) (ovf : Bool) :
    List Lit → List (List Lit) → σ → Except PyErr (Cnf × σ)
  | _, [], s => .ok ([], s)
  | numberIn, [number], s => addNumbers al numberIn number output none ovf s
  | numberIn, number :: rest, s =>
    match allocMany al size s with
    | .error e => .error e
    | .ok (numberOut, s1) =>
      match addNumbers al numberIn number numberOut none ovf s1 with
      | .error e => .error e
      | .ok (cls, s2) =>
        match sumLoop al size output ovf numberOut rest s2 with
        | .error e => .error e
        | .ok (cls', s3) => .ok (cls ++ cls', s3)

/-- util.py:100-119. -/
def sumNumbers {σ : Type} (al : Alloc σ) (numbers : List (List Lit)) (output : List Lit) (ovf : Bool) (s : σ) :
    Except PyErr (Cnf × σ) :=
  match numbers with
  | n0 :: n1 :: rest =>
    if (∀ n ∈ numbers, n.length = n0.length) ∧ n0.length = output.length then
      sumLoop al n0.length output ovf n0 (n1 :: rest) s
    else .error .assertion
  | _ => .error .assertion

/-- The loop util.py:127-131; `pre` is `input[:i]`. -/
def incrementLoop : List Lit → List Lit → List Lit → Cnf
  | pre, i :: is, o :: os =>
    implies pre (literalsDifferent i o) ++ pre.flatMap (fun l => implies [-l] (literalsSame i o))
      ++ incrementLoop (pre ++ [i]) is os
  | _, _, _ => []

/-- util.py:122-132. -/
def incrementNumber (input output : List Lit) : Except PyErr Cnf :=
  if input.length = output.length ∧ input.length > 0 then .ok (incrementLoop [] input output)
  else .error .assertion

/-- util.py:135-154. -/
def getPopcount {σ : Type} (al : Alloc σ) (bits output : List Lit) (s : σ) : Except PyErr (Cnf × σ) :=
  if binLength (bits.length + 1) ≠ output.length then .error .assertion
  else match bits with
  | [] => .error .assertion
  | [_] => .error .assertion
  | [b0, b1] => addNumbers al [b0] [b1] output none false s
  | [b0, b1, b2] => addNumbers al [b0] [b1] output (some b2) false s
  | b0 :: b1 :: b2 :: b3 :: rest =>
    let bs := b0 :: b1 :: b2 :: b3 :: rest
    let carryIn := if bs.length % 2 ≠ 0 then bs.getLast? else none
    let sub := bs.length / 2
    match allocMany al (output.length - 1) s with
    | .error e => .error e
    | .ok (outA, s1) =>
      match allocMany al (output.length - 1) s1 with
      | .error e => .error e
      | .ok (outB, s2) =>
        match getPopcount al (bs.take sub) outA s2 with
        | .error e => .error e
        | .ok (c1, s3) =>
          match getPopcount al ((bs.take (2 * sub)).drop sub) outB s3 with
          | .error e => .error e
          | .ok (c2, s4) =>
            match addNumbers al outA outB output carryIn false s4 with
            | .error e => .error e
            | .ok (c3, s5) => .ok (c1 ++ c2 ++ c3, s5)
termination_by bits.length
decreasing_by
  all_goals simp only [List.length_take, List.length_drop, List.length_cons]; omega

/-- Clauses of `set_number` (util.py:193-196), without the assertion. -/
def numberClauses (value : Int) (ls : List Lit) : Cnf :=
  (List.zip ls (getBits value ls.length)).map fun p => [setLiteral p.1 p.2]

/-- util.py:190-196. -/
def setNumber (value : Int) (ls : List Lit) : Except PyErr Cnf :=
  if value < 2 ^ ls.length then .ok (numberClauses value ls) else .error .assertion

/-- Clause of `set_not_number` (util.py:244-245), without the assertion: `-lit[0]` of each unit clause. -/
def notNumberClause (value : Int) (ls : List Lit) : Clause :=
  (numberClauses value ls).map fun c => -(c.headD default)

/-- util.py:244-245. -/
def setNotNumber (value : Int) (ls : List Lit) : Except PyErr Clause :=
  match setNumber value ls with
  | .error e => .error e
  | .ok cs => .ok (cs.map fun c => -(c.headD default))

/-- The first loop of `set_numbers`, util.py:206-214: clauses and `differences`. -/
def setNumbersLoop : List Lit → List Lit → List Bool → List Bool → Cnf × List (Lit × Lit × Bool)
  | la :: las, lb :: lbs, ba :: bas, bb :: bbs =>
    let (cls, ds) := setNumbersLoop las lbs bas bbs
    if ba = bb then ([setLiteral la ba] :: [setLiteral lb ba] :: cls, ds)
    else (literalsDifferent la lb ++ cls, (la, lb, ba) :: ds)
  | _, _, _, _ => ([], [])

/-- The second loop of `set_numbers`, util.py:216-225. -/
def setNumbersTail : List (Lit × Lit × Bool) → Cnf
  | [] => []
  | (la0, _, ba0) :: rest =>
    rest.flatMap fun d => if ba0 = d.2.2 then literalsSame la0 d.1 else literalsDifferent la0 d.1

/-- Clauses of `set_numbers` without the assertions. -/
def numbersClauses (a b : Int) (la lb : List Lit) : Cnf :=
  let r := setNumbersLoop la lb (getBits a la.length) (getBits b la.length)
  r.1 ++ setNumbersTail r.2

/-- util.py:199-227. -/
def setNumbers (a b : Int) (la lb : List Lit) : Except PyErr Cnf :=
  if la.length = lb.length ∧ a < 2 ^ la.length ∧ b < 2 ^ la.length then .ok (numbersClauses a b la lb)
  else .error .assertion

/-- The loop util.py:239-240. -/
def equalClauses (a b : List Lit) : Cnf := (List.zip a b).flatMap fun p => literalsSame p.1 p.2

/-- util.py:230-241. -/
def setNumbersEqual (a b : List Lit) (allowDifferent : Bool := false) : Except PyErr Cnf :=
  if allowDifferent then
    .ok (setAllFalse (a.drop b.length) ++ setAllFalse (b.drop a.length) ++ equalClauses a b)
  else if a.length = b.length then .ok (equalClauses a b)
  else .error .assertion

/-- util.py:248-261. `value >> 1` is floor division by 2 and `value & 1` the parity, also for negative ints. -/
def setMaximum : Int → List Lit → Except PyErr Cnf
  | value, [] => if value = 0 then .ok [] else .error .assertion
  | value, l :: tail =>
    match setMaximum (value / 2) tail with
    | .error e => .error e
    | .ok cls =>
      if value % 2 = 0 then
        .ok (cls ++ [(-l) :: ((List.zip (getBits (value / 2) tail.length) tail).filter (·.1)).map (fun p => -p.2)])
      else .ok cls

/-- The loop util.py:269-304 (recursion on the two lists; the last position allocates no carry). -/
def invertLoop {σ : Type} (al : Alloc σ) : List Lit → List Lit → Option Lit → σ → Except PyErr (Cnf × σ)
  | [a], [b], c, s =>
    match c with
    | none => .ok (literalsSame a b, s)
    | some c => .ok ([[-a, -b, -c], [-a, b, c], [a, -b, c], [a, b, -c]], s)
  | a :: as, b :: bs, c, s =>
    match al s with
    | .error e => .error e
    | .ok (co, s1) =>
      match invertLoop al as bs (some co) s1 with
      | .error e => .error e
      | .ok (cls, s2) =>
        match c with
        | none => .ok (literalsSame a b ++ [[-a, -b, co], [a, -co], [b, -co]] ++ cls, s2)
        | some c =>
          .ok ([[-a, -b, -c], [-a, b, c], [a, -b, c], [a, b, -c]]
            ++ [[-a, -b, co], [-a, -c, co], [-b, -c, co], [a, b, -co], [a, c, -co], [b, c, -co]] ++ cls, s2)
  | _, _, _, s => .ok ([], s)

/-- util.py:264-308. `input[-1]` of an empty list raises `IndexError`. -/
def invertNumber {σ : Type} (al : Alloc σ) (input output : List Lit) (s : σ) : Except PyErr (Cnf × σ) :=
  if input.length ≠ output.length then .error .assertion
  else
    match invertLoop al input output none s with
    | .error e => .error e
    | .ok (cls, s1) =>
      match input.getLast? with
      | none => .error .indexError
      | some last => .ok (cls ++ [input.dropLast ++ [-last]], s1)

/-- The loop util.py:366-382. -/
def breakSymmetryLoop : List Lit → List Lit → List Lit → Option Lit → Cnf
  | l :: ls, r :: rs, d :: ds, prev =>
    (match prev with
      | none => [[l, -r, d], [-l, -r, -d], [l, r, -d], [-l, r]]
      | some p => [[-p, d], [l, -r, d], [p, -l, -r, -d], [p, l, r, -d], [p, -l, r]])
    ++ breakSymmetryLoop ls rs ds (some d)
  | _, _, _, _ => []

/-- util.py:362-383. -/
def breakSymmetry {σ : Type} (al : Alloc σ) (left right : List Lit) (s : σ) : Except PyErr (Cnf × σ) :=
  if left.length ≠ right.length then .error .assertion
  else
    match allocMany al left.length s with
    | .error e => .error e
    | .ok (ds, s1) => .ok (breakSymmetryLoop left right ds none, s1)

end FSat
