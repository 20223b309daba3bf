import Verif.Model.Solver
/-!
# Model of the solver interfaces: `BaseGrid.solve`/`itersolve` and `run_command_solver` (`factorio_sat/template.py`),
`factorio_sat/ipasir.py`
-/

namespace FSat

/-! ### Enumeration -/

/-- An incremental solver: what the `n`-th call of `solve` (followed by `get_model`) answers when the clauses added so far are
`cs`; `none` when `solve` returns a false value.  The call number lets the answers depend on the whole history. -/
abbrev Oracle := Nat → Cnf → Option (List Lit)

/-- template.py:435: the clause added after a solution. -/
def blockingClause (important : List Nat) (solution : List Lit) : Clause :=
  (solution.filter fun l => important.contains l.var).map (- ·)

/-- template.py:430-435, `fuel` iterations of the loop, from the `n`-th call on: the solutions yielded and whether the loop
ended. -/
def itersolveFrom (solver : Oracle) (important : List Nat) : Nat → Nat → Cnf → List (List Lit) × Bool
  | 0, _, _ => ([], false)
  | fuel + 1, n, cs =>
    match solver n cs with
    | none => ([], true)
    | some solution =>
      let r := itersolveFrom solver important fuel (n + 1) (cs ++ [blockingClause important solution])
      (solution :: r.1, r.2)

/-- template.py:417-435 with an incremental solver. -/
def itersolve (solver : Oracle) (important : List Nat) (fuel : Nat) (cs : Cnf) : List (List Lit) × Bool :=
  itersolveFrom solver important fuel 0 cs

/-- template.py:418-422: with a command solver at most one solution is yielded. -/
def itersolveCmd (answer : Except PyErr (Option (List Lit))) : Except PyErr (List (List Lit)) :=
  match answer with
  | .error e => .error e
  | .ok none => .ok []
  | .ok (some solution) => .ok [solution]

/-- The assignment a solution stands for: `mapping` (template.py:392), false where it has no entry. -/
def asgOf (solution : List Lit) : Asg := fun x => (mappingOf solution x).getD false

/-! ### `run_command_solver` -/

/-- Put a character before the words of a text, given the first character of the text. -/
def glue (c : Char) : Option Char → List (List Char) → List (List Char)
  | some d, w :: ws => if d.isWhitespace then [c] :: w :: ws else (c :: w) :: ws
  | _, ws => [c] :: ws

/-- `str.split()` (template.py:71) on ASCII white space. -/
def splitWs : List Char → List (List Char)
  | [] => []
  | c :: cs => if c.isWhitespace then splitWs cs else glue c cs.head? (splitWs cs)

/-- The value of a decimal digit. -/
def digitVal (c : Char) : Option Nat := if '0' ≤ c ∧ c ≤ '9' then some (c.toNat - '0'.toNat) else none

/-- Digits, most significant first. -/
def natOf : Nat → List Char → Option Nat
  | acc, [] => some acc
  | acc, c :: cs =>
    match digitVal c with
    | none => none
    | some d => natOf (10 * acc + d) cs

/-- `int(text)` for an optional sign followed by ASCII digits; anything else is a `ValueError`.  (Python also accepts underscores and
other digits, which are not modelled.) -/
def intOf : List Char → Except PyErr Int
  | [] => .error .valueError
  | '-' :: c :: cs => match natOf 0 (c :: cs) with
    | none => .error .valueError
    | some n => .ok (-(n : Int))
  | '+' :: c :: cs => match natOf 0 (c :: cs) with
    | none => .error .valueError
    | some n => .ok n
  | c :: cs => match natOf 0 (c :: cs) with
    | none => .error .valueError
    | some n => .ok n

/-- `[int(v) for v in variables[1:]]`. -/
def intsOf : List (List Char) → Except PyErr (List Int)
  | [] => .ok []
  | w :: ws =>
    match intOf w with
    | .error e => .error e
    | .ok n =>
      match intsOf ws with
      | .error e => .error e
      | .ok ns => .ok (n :: ns)

/-- template.py:63-78, reading the model; the lines still to come, and `model` so far. -/
def readModel : List (List Char) → List Int → Except PyErr (List Int)
  | [], model => .ok model
  | line :: rest, model =>
    if line.head? = some 'c' then readModel rest model
    else
      match splitWs line with
      | [] => .error .indexError
      | w :: ws =>
        if w ≠ ['v'] then .error .runtimeError
        else
          match intsOf ws with
          | .error e => .error e
          | .ok ns =>
            match (model ++ ns).getLast? with
            | none => .error .indexError
            | some 0 => .ok (model ++ ns).dropLast
            | some _ => readModel rest (model ++ ns)

/-- template.py:38-77 `interpret_solver_answer` on the whole output of the process, as lines with their terminators.  `readline`
returns the empty string only at the end; the process has then ended (41-47 keeps polling until it has). -/
def interpretAnswer : List (List Char) → Except PyErr (Option (List Int))
  | [] => .error .runtimeError
  | line :: rest =>
    if line.head? = some 's' then
      if "s UNSATISFIABLE".toList.isPrefixOf line then .ok none
      else if "s SATISFIABLE".toList.isPrefixOf line then
        match readModel rest [] with
        | .error e => .error e
        | .ok m => .ok (some m)
      else .error .runtimeError
    else interpretAnswer rest

/-! ### `ipasir.py` -/

/-- The int of a literal. -/
def Lit.toInt (l : Lit) : Int := if l.pos then l.var else -(l.var : Int)

/-- What is known of an IPASIR solver object (ipasir.py:54-59): the ints sent with `ipasir_add` so far, the set `variables` (kept
without duplicates), and whether it was closed. -/
structure Ipasir where
  sent : List Int := []
  variables : List Nat := []
  closed : Bool := false
deriving DecidableEq, Repr

namespace Ipasir

/-- `self.variables.add(abs(lit))`. -/
def addVar (s : Ipasir) (x : Nat) : Ipasir := { s with variables := if s.variables.contains x then s.variables else s.variables ++ [x] }

/-- The loop over one clause, ipasir.py:68-71. -/
def sendClause (s : Ipasir) : List Int → Ipasir
  | [] => { s with sent := s.sent ++ [0] }
  | l :: ls => sendClause { (s.addVar l.natAbs) with sent := s.sent ++ [l] } ls

/-- ipasir.py:65-71. -/
def addClause (s : Ipasir) (c : List Int) : Except PyErr Ipasir :=
  if s.closed then .error .runtimeError else .ok (s.sendClause c)

/-- ipasir.py:105-114. -/
def addClauses (s : Ipasir) (cs : List (List Int)) : Except PyErr Ipasir :=
  if s.closed then .error .runtimeError else .ok (cs.foldl sendClause s)

/-- ipasir.py:121-131: the meaning of the return code; `none` is `None`. -/
def solveResult (s : Ipasir) (code : Int) : Except PyErr (Option Bool) :=
  if s.closed then .error .runtimeError
  else if code = 0 then .ok none
  else if code = 10 then .ok (some true)
  else if code = 20 then .ok (some false)
  else .error .runtimeError

/-- ipasir.py:133-142: `val` is `ipasir_val`. -/
def getModel (s : Ipasir) (val : Nat → Int) : Except PyErr (List Int) :=
  if s.closed then .error .runtimeError
  else .ok (s.variables.map fun x => if val x = 0 then (x : Int) else val x)

/-- ipasir.py:153-157 `__exit__`. -/
def exit (s : Ipasir) : Except PyErr Ipasir :=
  if s.closed then .error .runtimeError else .ok { s with closed := true }

end Ipasir

end FSat
