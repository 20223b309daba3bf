import Verif.Model.Query
import Verif.Spec.Commands
import Verif.Spec.SolveBalancer
/-!
# What `calculate_optimal` knows and reports

The networks are given by the names of their files and their contents.
-/

namespace FSat

/-- The layout as an array of rows. -/
def boxArr (w h : Nat) (T : Nat × Nat → Tile) : Arr Tile := ⟨h, w, fun y x => T (x.val, y.val)⟩

/-- `T` is a balancer for the network, of this size: maximum underground length, width and height. -/
def BalancerOfSize (n : Network) (size : Size) (T : Nat × Nat → Tile) : Prop :=
  BalancerLayout (boxNb size.2.1.toNat size.2.2.toNat) (boxIn size.2.1.toNat size.2.2.toNat) (boxCells size.2.1.toNat size.2.2.toNat)
    (boxRim size.2.1.toNat size.2.2.toNat) size.2.1.toNat size.2.2.toNat (some size.1.toNat)
    (elements (deduplicateNetwork n)) searchOptions T

/-- The value stands for the layout: rows of cells, each with its tile, and possibly with other members (as its colour). -/
def Depicts (v : Json) (a : Arr Tile) : Prop :=
  ∃ cells : Fin a.rows → Fin a.cols → Fields, 0 < a.rows ∧ 0 < a.cols ∧
    v = .arr (List.ofFn fun y => .arr (List.ofFn fun x => .obj (cells y x))) ∧
    ∀ y x, ((cells y x).map Prod.fst).Nodup ∧ (∀ e ∈ cells y x, e.2.Ok) ∧ member "tile" (.obj (a.get y x).members) ∈ cells y x

/-- A right answer of the solver run for a network and a size: a balancer, or that there is none. -/
inductive RightAnswer (n : Network) (size : Size) : Option Json → Prop
  | yes {v : Json} (T : Nat × Nat → Tile) : BalancerOfSize n size T → Depicts v (boxArr size.2.1.toNat size.2.2.toNat T) →
      RightAnswer n size (some v)
  | no : (¬ ∃ T, BalancerOfSize n size T) → RightAnswer n size none

/-- A history of `compute` in which every solver run that was waited for gave a right answer. -/
inductive RightRun (obj : Objective) (ul : Int) : Sys → List (Nat × Option Json) → Prop
  | nil (y : Sys) : RightRun obj ul y []
  | cons {y : Sys} {ev : Nat × Option Json} {evs : List (Nat × Option Json)} :
      (∀ t size, y.tasks[ev.1]? = some t → t.state = .waiting size → RightAnswer t.store.network size ev.2) →
      RightRun obj ul (y.event obj ul ev) evs → RightRun obj ul y (ev :: evs)

/-- The contents of the database after any number of runs of `compute` with one underground length, in a directory with these networks.
Each run may list the directory in another order, may have another objective, and may be ended after any number of solver runs. -/
inductive Recorded (ul : Int) (nets : List (List Char × Network)) : Option (List Char) → Prop
  | start : Recorded ul nets none
  | run {file : Option (List Char)} {listing : List (List Char × Network)} {stores : List Store} {evs : List (Nat × Option Json)}
      (obj : Objective) : Recorded ul nets file → listing.Perm nets → startUp file (listing.map freshStore) = .ok stores →
      RightRun obj ul (Sys.start obj ul stores file) evs → Recorded ul nets (Sys.run obj ul (Sys.start obj ul stores file) evs).file

/-- The same, with runs of `compute` for any underground lengths. -/
inductive RecordedAny (nets : List (List Char × Network)) : Option (List Char) → Prop
  | start : RecordedAny nets none
  | run {file : Option (List Char)} {listing : List (List Char × Network)} {stores : List Store} {evs : List (Nat × Option Json)}
      (obj : Objective) (ul : Int) : RecordedAny nets file → listing.Perm nets → startUp file (listing.map freshStore) = .ok stores →
      RightRun obj ul (Sys.start obj ul stores file) evs → RecordedAny nets (Sys.run obj ul (Sys.start obj ul stores file) evs).file

/-- The line is a balancer for the network with the underground length. -/
def ReportsBalancer (ul : Int) (n : Network) (line : List Char) (size : Size) : Prop :=
  ∃ T, BalancerOfSize n size T ∧ size.1 = ul ∧ PrintedLine line (boxArr size.2.1.toNat size.2.2.toNat T)

/-- The size is at least as good as another one: lower, or as high and not wider; for the area, with no more area between the first and the
last column. -/
def NoWorse (obj : Objective) (size o : Size) : Prop :=
  match obj with
  | .length => size.2.2 < o.2.2 ∨ size.2.2 = o.2.2 ∧ size.2.1 ≤ o.2.1
  | .area => (size.2.1 - 2) * size.2.2 ≤ (o.2.1 - 2) * o.2.2

/-- The size is at least as good as that of every balancer for the network that the search considers; for the area, of those that are at most
twice as high as the larger end. -/
def BestSize (obj : Objective) (ul : Int) (n : Network) (size : Size) : Prop :=
  ∀ a p b q, Ends n a p b q → ∀ o T, Considered n ul (max p q) o → BalancerOfSize n o T → (obj = .area → o.2.2 ≤ 2 * max p q) →
    NoWorse obj size o

/-- A solution of that size is in the database. -/
def InDatabase (file : Option (List Char)) (e : List Char × Network) (size : Size) : Prop :=
  ∃ s v, startUp file [freshStore e] = .ok [s] ∧ (size, v) ∈ s.solutions

/-- Names such as `12x8` are in the order of the numbers: of inputs, then of outputs. -/
def InNumericOrder (names : List (List Char)) : Prop :=
  ∀ (i j a b a' b' : Nat) (sep sep' : Char) (rest rest' : List Char), names[i]? = some (showNat a ++ sep :: (showNat b ++ rest)) →
    names[j]? = some (showNat a' ++ sep' :: (showNat b' ++ rest')) → (sep = 'x' ∨ sep = '-') → (sep' = 'x' ∨ sep' = '-') →
    (∀ c, rest.head? = some c → ¬ ('0' ≤ c ∧ c ≤ '9')) → (∀ c, rest'.head? = some c → ¬ ('0' ≤ c ∧ c ≤ '9')) →
    '\n' ∉ rest → '\n' ∉ rest' → (a < a' ∨ a = a' ∧ b < b') → i < j

/-- Every network has its ends, and the names of the files differ. -/
structure Directory (nets : List (List Char × Network)) : Prop where
  names : (nets.map Prod.fst).Nodup
  ends : ∀ e ∈ nets, ∃ a p b q, Ends e.2 a p b q

end FSat
