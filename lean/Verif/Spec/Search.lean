import Verif.Model.Search
import Mathlib.Data.Nat.Digits.Defs
/-!
# Correct solvers, and the output format of command line solvers
-/

namespace FSat

/-- The solution is a list of literals of distinct variables, it mentions every variable of the clauses, and whatever the other
variables are, the clauses hold. -/
structure IsModel (cs : Cnf) (solution : List Lit) : Prop where
  nodup : (solution.map Lit.var).Nodup
  covers : ∀ c ∈ cs, ∀ l ∈ c, ∃ l' ∈ solution, l'.var = l.var
  sat : ∀ v, (∀ l ∈ solution, ev v l = true) → Sat v cs

/-- A solver all of whose answers are right, in every call and for every clause list. -/
structure CorrectSolver (solver : Oracle) : Prop where
  model : ∀ n cs m, solver n cs = some m → IsModel cs m
  unsat : ∀ n cs, solver n cs = none → ¬ ∃ v, Sat v cs

/-- Decimal notation. -/
def showNat (n : Nat) : List Char := if n = 0 then ['0'] else (Nat.digits 10 n).reverse.map fun d => Char.ofNat ('0'.toNat + d)

/-- Decimal notation with a minus sign for negative numbers. -/
def showInt (n : Int) : List Char := if n < 0 then '-' :: showNat n.natAbs else showNat n.natAbs

/-- The words, each preceded by white space, and white space at the end. -/
inductive Spaced : List (List Char) → List Char → Prop
  | nil (w : List Char) : (∀ c ∈ w, c.isWhitespace = true) → Spaced [] w
  | cons (w t l : List Char) (ts : List (List Char)) : w ≠ [] → (∀ c ∈ w, c.isWhitespace = true) → Spaced ts l →
      Spaced (t :: ts) (w ++ t ++ l)

/-- A value line with the given numbers. -/
def ValueLine (ns : List Int) (line : List Char) : Prop := ∃ l, Spaced (ns.map showInt) l ∧ line = 'v' :: l

/-- The lines after `s SATISFIABLE`: the literals `ns` in order, spread over value lines in any way (no line without a number), a
zero at the end, comment lines anywhere, and anything after the zero. -/
inductive ModelLines : List Int → List (List Char) → Prop
  | comment (ns : List Int) (line : List Char) (ls : List (List Char)) : line.head? = some 'c' → ModelLines ns ls →
      ModelLines ns (line :: ls)
  | some (ns ms : List Int) (line : List Char) (ls : List (List Char)) : ns ≠ [] → ValueLine ns line →
      ModelLines ms ls → ModelLines (ns ++ ms) (line :: ls)
  | last (ns : List Int) (line : List Char) (rest : List (List Char)) : ValueLine (ns ++ [0]) line →
      ModelLines ns (line :: rest)

/-- The clauses of a zero-terminated stream, and what follows the last zero. -/
def decodeStream : List Int → List (List Int) × List Int
  | [] => ([], [])
  | l :: ls =>
    let r := decodeStream ls
    if l = 0 then ([] :: r.1, r.2)
    else
      match r.1 with
      | [] => ([], l :: r.2)
      | c :: cs => ((l :: c) :: cs, r.2)

end FSat
