import Verif.Spec.Optimal
import Verif.Spec.Network
import Verif.Spec.Search
import Verif.Model.Optimal
/-!
# Specification of the exported table

The file is Markdown: a heading for each network, and below it a table with a column for each width (without the columns for inputs and outputs)
and a row for each height.
-/

namespace FSat

/-- What is known about balancers of a size, as the table shows it: a yellow, red or blue square for the cheapest belts for which there is one, a
cross, or a question mark. -/
def Shows (d : PyDict Size Bool) (width height : Int) (mark : Char) : Prop :=
  (KnownYes d (4, width, height) ∧ mark = '🟨') ∨
  (¬ KnownYes d (4, width, height) ∧ KnownYes d (6, width, height) ∧ mark = '🟥') ∨
  (¬ KnownYes d (4, width, height) ∧ ¬ KnownYes d (6, width, height) ∧ KnownYes d (8, width, height) ∧ mark = '🟦') ∨
  ((∀ ul ∈ [(4 : Int), 6, 8], ¬ KnownYes d (ul, width, height)) ∧ (∃ ul ∈ [(4 : Int), 6, 8], KnownNo d (ul, width, height)) ∧ mark = '❌') ∨
  ((∀ ul ∈ [(4 : Int), 6, 8], ¬ KnownYes d (ul, width, height)) ∧ (∀ ul ∈ [(4 : Int), 6, 8], ¬ KnownNo d (ul, width, height)) ∧ mark = '❔')

/-- A cell: the text, followed by blanks up to a width of three. -/
def IsCell (text cell : List Char) : Prop := ∃ n, cell = text ++ List.replicate n ' ' ∧ cell.length = max 3 text.length

/-- A line of a table. -/
def tableLine (cells : List (List Char)) : List Char := '|' :: cells.flatMap (fun c => ' ' :: c ++ [' ', '|']) ++ ['\n']

/-- The line between the head and the body of a table with `n` columns. -/
def ruleLine (n : Nat) : List Char := '|' :: (List.replicate n "-----|".toList).flatten ++ ['\n']

/-- A greatest value. -/
def Greatest (values : List Int) (m : Int) : Prop := m ∈ values ∧ ∀ v ∈ values, v ≤ m

/-- The part of the file for a network: its name, the head with the widths from 1 on, and the rows for the heights from the larger number of ends on.
The greatest width and height are those of the records; two columns are needed for the ends. -/
def IsTable (s : Store) (text : List Char) : Prop :=
  ∃ (a i b o w h : Int) (head : List (List Char)) (rows : List (List (List Char))), Ends s.network a i b o ∧
    Greatest (s.exist.map fun e => e.1.2.1) (w + 2) ∧ Greatest (s.exist.map fun e => e.1.2.2) h ∧
    text = "## ".toList ++ s.name ++ ['\n'] ++ tableLine head ++ ruleLine (w + 1).toNat ++ (rows.map tableLine).flatten ++ ['\n'] ∧
    head.length = w.toNat + 1 ∧ IsCell [] (head.getD 0 []) ∧ (∀ k : Nat, k < w.toNat → IsCell (showInt (k + 1)) (head.getD (k + 1) [])) ∧
    rows.length = (h + 1 - max i o).toNat ∧ ∀ (j : Nat) (row : List (List Char)), rows[j]? = some row →
      row.length = w.toNat + 1 ∧ IsCell (showInt (max i o + j)) (row.getD 0 []) ∧
      ∀ k : Nat, k < w.toNat → ∃ mark, Shows s.exist (k + 1 + 2) (max i o + j) mark ∧ IsCell [mark] (row.getD (k + 1) [])

end FSat
