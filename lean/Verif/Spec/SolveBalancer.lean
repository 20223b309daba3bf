import Verif.Spec.BalancerMain
import Verif.Spec.Optimal
/-!
# What `calculate_optimal` looks for

A balancer for a size, on a box of cells; and the histories of a store.  Nothing here mentions clauses or assignments.
-/

namespace FSat

/-- The cells of a box of `w` columns and `h` rows. -/
def boxIn (w h : Nat) (p : Nat × Nat) : Prop := p.1 < w ∧ p.2 < h

/-- The next cell of the box; rows grow downwards. -/
def boxNb (w h : Nat) (p : Nat × Nat) : Dir → Option (Nat × Nat)
  | .right => if p.1 + 1 < w ∧ p.2 < h then some (p.1 + 1, p.2) else none
  | .up => if p.1 < w ∧ 1 ≤ p.2 ∧ p.2 - 1 < h then some (p.1, p.2 - 1) else none
  | .left => if 1 ≤ p.1 ∧ p.1 - 1 < w ∧ p.2 < h then some (p.1 - 1, p.2) else none
  | .down => if p.1 < w ∧ p.2 + 1 < h then some (p.1, p.2 + 1) else none

/-- All cells, column by column. -/
def boxCells (w h : Nat) : List (Nat × Nat) := (List.range w).flatMap fun x => (List.range h).map fun y => (x, y)

/-- The cell is at that side of the box. -/
def boxRim (w h : Nat) (p : Nat × Nat) : Dir → Prop
  | .right => p.1 = w - 1
  | .up => p.2 = 0
  | .left => p.1 = 0
  | .down => p.2 = h - 1

/-- What `calculate_optimal` asks for: as `belt_balancer` with `--fast --aligned`. -/
def searchOptions : BalancerOptions := { fast := true, aligned := true }

/-- The network has a balancer of this size: maximum underground length, width and height. -/
def HasBalancer (network : Network) (size : Size) : Prop :=
  ∃ T, BalancerLayout (boxNb size.2.1.toNat size.2.2.toNat) (boxIn size.2.1.toNat size.2.2.toNat) (boxCells size.2.1.toNat size.2.2.toNat)
    (boxRim size.2.1.toNat size.2.2.toNat) size.2.1.toNat size.2.2.toNat (some size.1.toNat)
    (elements (deduplicateNetwork network)) searchOptions T

/-- The sizes that the search considers: the given underground length, at least three columns, at least as many rows as the larger end,
and room for all splitters between the first and the last column. -/
structure Considered (n : Network) (ul height : Int) (size : Size) : Prop where
  len : size.1 = ul
  wide : 3 ≤ size.2.1
  high : height ≤ size.2.2
  room : 2 * (n.length : Int) ≤ (size.2.1 - 2) * size.2.2

/-- The stores that `compute` can arrive at with an underground length, from an empty database and with any sequence of objectives, if
every answer of the solver is right. -/
inductive Computed (fits : Size → Prop) (ul : Int) (n : Network) (name : List Char) : Store → Prop
  | start : Computed fits ul n name ⟨n, name, [], []⟩
  | step {s : Store} {size : Size} (obj : Objective) (answer : Option Json) : Computed fits ul n name s →
      nextSize obj s ul = .ok (some size) → (answer.isSome = true ↔ fits size) → Computed fits ul n name (s.add size answer).clean

end FSat
