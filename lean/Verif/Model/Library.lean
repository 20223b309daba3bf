import Verif.Model.Cardinality
/-!
# The cardinality encodings of PySAT and clause generators with a variable pool

`pysat.card.CardEnc` is a library and not part of /repo: it is a parameter of the model, and what it must do is stated in
`Verif.Spec.Library`.
-/

namespace FSat

/-- `CardEnc.equals`, `CardEnc.atmost` and `CardEnc.atleast` with `vpool=pool` (cardinality.py:51, 58, 65): the clauses and the new
counter of the pool.  The argument `encoding` is part of the choice of the library. -/
structure CardLib where
  equals : List Lit → Int → Nat → Except PyErr (Cnf × Nat)
  atmost : List Lit → Int → Nat → Except PyErr (Cnf × Nat)
  atleast : List Lit → Int → Nat → Except PyErr (Cnf × Nat)

/-- cardinality.py:52-54, 59-61, 66-68: an empty clause list raises. -/
def nonEmptyClauses : Except PyErr (Cnf × Nat) → Except PyErr (Cnf × Nat)
  | .error e => .error e
  | .ok ([], _) => .error .runtimeError
  | .ok (c :: cs, s) => .ok (c :: cs, s)

/-- cardinality.py:50-54. -/
def libraryEquals (lib : CardLib) (ls : List Lit) (n : Int) (s : Nat) : Except PyErr (Cnf × Nat) := nonEmptyClauses (lib.equals ls n s)

/-- cardinality.py:57-61. -/
def libraryAtmost (lib : CardLib) (ls : List Lit) (n : Int) (s : Nat) : Except PyErr (Cnf × Nat) := nonEmptyClauses (lib.atmost ls n s)

/-- cardinality.py:64-68. -/
def libraryAtleast (lib : CardLib) (ls : List Lit) (n : Int) (s : Nat) : Except PyErr (Cnf × Nat) := nonEmptyClauses (lib.atleast ls n s)

/-- `[grid.allocate_variable() for _ in range(n)]` (template.py:366-367) with pool counter `s`; the counter becomes `s + n`. -/
def allocVars (s n : Nat) : List Lit := (List.range n).map fun i => ⟨s + 1 + i, true⟩

/-- A piece of code that adds clauses to `grid.clauses` and may take variables from `grid.pool`, whose counter is the argument. -/
abbrev Gen := Nat → Except PyErr (Cnf × Nat)

namespace Gen

/-- Code that takes no variables. -/
def pure (e : Except PyErr Cnf) : Gen := fun s =>
  match e with
  | .error e => .error e
  | .ok c => .ok (c, s)

/-- One piece after another. -/
def all : List Gen → Gen
  | [] => fun s => .ok ([], s)
  | f :: fs => fun s =>
    match f s with
    | .error e => .error e
    | .ok (c, s1) =>
      match all fs s1 with
      | .error e => .error e
      | .ok (cs, s2) => .ok (c ++ cs, s2)

/-- `implies(condition, clauses)` around the clauses of a piece of code. -/
def implies (cond : List Lit) (f : Gen) : Gen := fun s =>
  match f s with
  | .error e => .error e
  | .ok (c, s1) => .ok (FSat.implies cond c, s1)

end Gen

end FSat
