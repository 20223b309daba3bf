import Verif.Model.Optimal
import Verif.Spec.Json
/-!
# Vocabulary for the store of results

Independent of the functions of the model (only of the data they work on).
-/

namespace FSat

/-- Componentwise order of sizes. -/
def Size.LE (a b : Size) : Prop := a.1 ≤ b.1 ∧ a.2.1 ≤ b.2.1 ∧ a.2.2 ≤ b.2.2

instance (a b : Size) : Decidable (Size.LE a b) := by unfold Size.LE; infer_instance

/-- Whatever fits also fits with a longer underground or into a larger grid. -/
def UpClosed (fits : Size → Prop) : Prop := ∀ a b, Size.LE a b → fits a → fits b

/-- Every record tells the truth. -/
def Truthful (fits : Size → Prop) (d : PyDict Size Bool) : Prop := ∀ size b, (size, b) ∈ d → (b = true ↔ fits size)

/-- No size recorded as solved is componentwise at most one recorded as unsolvable. -/
def Consistent (d : PyDict Size Bool) : Prop := ∀ a b, (a, true) ∈ d → (b, false) ∈ d → ¬ Size.LE a b

/-- A recorded solution implies the size. -/
def KnownYes (d : PyDict Size Bool) (size : Size) : Prop := ∃ o, (o, true) ∈ d ∧ Size.LE o size

/-- A recorded failure implies the failure of the size. -/
def KnownNo (d : PyDict Size Bool) (size : Size) : Prop := ∃ o, (o, false) ∈ d ∧ Size.LE size o

/-- What the solver runs record: the records are those of a truthful solver, each solved size has its solution stored, and every stored
solution is of a solved size. -/
structure GoodStore (fits : Size → Prop) (s : Store) : Prop where
  valid : s.exist.Valid
  valid_solutions : s.solutions.Valid
  truthful : Truthful fits s.exist
  stored : ∀ size, (size, true) ∈ s.exist → ∃ v, (size, v) ∈ s.solutions
  solved : ∀ size v, (size, v) ∈ s.solutions → (size, true) ∈ s.exist

/-- What every balancer satisfies: it is as high as its larger end, and between its first and last column there is room for all splitters.
-/
structure Plausible (n : Network) (height : Int) (fits : Size → Prop) : Prop where
  up : UpClosed fits
  high : ∀ size, fits size → height ≤ size.2.2
  wide : ∀ size, fits size → 3 ≤ size.2.1
  room : ∀ size, fits size → 2 * (n.length : Int) ≤ (size.2.1 - 2) * size.2.2

/-- What can be saved: the names of the networks differ (they are names of files in one directory), and the dictionaries have no two
equal keys. -/
structure Saveable (stores : List Store) : Prop where
  names : (stores.map Store.name).Nodup
  valid : ∀ s ∈ stores, s.exist.Valid ∧ s.solutions.Valid
  ok : ∀ s ∈ stores, ∀ e ∈ s.solutions, e.2.Ok

/-- The stores as they are before the database is read. -/
def Store.blank (s : Store) : Store := { s with exist := [], solutions := [] }

/-- One solver run of a task, when the solver is a function of the network and the size. -/
def Task.turn (obj : Objective) (ul : Int) (solve : Network → Size → Option Json) (t : Task) : Task :=
  match t.state with
  | .waiting size => t.resume obj ul (solve t.store.network size)
  | _ => t

/-- The solver run of task `i` ends, when the solver is a function of the network and the size. -/
def Sys.turn (obj : Objective) (ul : Int) (solve : Network → Size → Option Json) (y : Sys) (i : Nat) : Sys :=
  match y.tasks[i]? with
  | none => y
  | some t =>
    match t.state with
    | .waiting size => Sys.event obj ul y (i, solve t.store.network size)
    | _ => y

/-- No task waits for a solver run. -/
def Sys.Settled (y : Sys) : Prop := ∀ t ∈ y.tasks, ∀ size, t.state ≠ .waiting size

end FSat
