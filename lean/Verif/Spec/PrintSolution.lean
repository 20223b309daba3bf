import Verif.Spec.Template
import Verif.Spec.Commands
import Verif.Spec.Search
import Verif.Model.Solver
/-!
# What a printed answer shows

The members of a printed cell, the names of members, and solvers that answer for every variable.
-/

namespace FSat

/-- The nested JSON lists whose entries are related to those of a nested list. -/
def NestedShows {α : Type} (R : α → Json → Prop) : (shape : List Nat) → Nested α shape → Json → Prop
  | [], a, j => R a j
  | _ :: shape, as, j => ∃ js : List Json, j = .arr js ∧ List.Forall₂ (NestedShows R shape) as js

mutual
/-- The JSON value shows what the literals of the instance are under the assignment. -/
def Tmpl.Shows (v : Asg) : (t : Tmpl) → t.Inst → Json → Prop
  | .bool, i, j => j = .bool (ev v i)
  | .array c shape, i, j => NestedShows (c.Shows v) shape i j
  | .manyHot _, i, j => ∃ xs : List Nat, j = .arr (List.map (fun n : Nat => .int n) xs) ∧ TrueIndices v i xs
  | .oneHot _, i, j => (j = .null ∧ FirstTrue v i none) ∨ ∃ k : Nat, j = .int k ∧ FirstTrue v i (some k)
  | .number _ signed, i, j => j = .int (if signed then svalue v i else (value v i : Int))
  | .composite fs, i, j => ∃ o, j = .obj o ∧ fs.Shows v i o
/-- One member for each of the template's, in their order. -/
def TFields.Shows (v : Asg) : (fs : TFields) → fs.Inst → Fields → Prop
  | .nil, _, o => o = []
  | .cons name t rest, i, o => ∃ j o', o = member name j :: o' ∧ t.Shows v i.1 j ∧ rest.Shows v i.2 o'
end

/-- The names of the members. -/
def TFields.names : TFields → List String
  | .nil => []
  | .cons name _ rest => name :: rest.names

mutual
/-- No composite template in it has two members of the same name. -/
def Tmpl.Named : Tmpl → Prop
  | .array c _ => c.Named
  | .composite fs => fs.names.Nodup ∧ fs.Named
  | _ => True
/-- The same for the members. -/
def TFields.Named : TFields → Prop
  | .nil => True
  | .cons _ t rest => t.Named ∧ rest.Named
end

/-- The members a program adds to the tile template do not clash with the others. -/
def GoodExtras (colours : Option Nat) (extras : TFields) : Prop :=
  extras.Proper ∧ extras.Named ∧ ("tile" :: (gridFields colours extras).names).Nodup

/-- The cell that is printed for a tile: the members of the template, then the tile. -/
def CellShows (v : Asg) (colours : Option Nat) (extras : TFields) (i : (gridFields colours extras).Inst) (t : Tile) (cell : Fields) :
    Prop :=
  ∃ o, cell = o ++ [member "tile" (.obj t.members)] ∧ (gridFields colours extras).Shows v i o ∧
    (cell.map Prod.fst).Nodup ∧ ∀ e ∈ cell, e.2.Ok

/-- The answer has every variable up to the largest that occurs in the clauses. -/
def FillsIn (cs : Cnf) (solution : List Lit) : Prop :=
  ∀ c ∈ cs, ∀ l ∈ c, ∀ x, 0 < x → x ≤ l.var → ∃ l' ∈ solution, l'.var = x

/-- A solver that answers for every variable up to the largest. -/
def CompleteSolver (solver : Oracle) : Prop := ∀ n cs m, solver n cs = some m → FillsIn cs m

end FSat
