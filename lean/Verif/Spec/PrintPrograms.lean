import Verif.Spec.PrintSolution
import Verif.Spec.Commands
import Verif.Props.Blueprint
/-!
# What it means for a program to print the wanted layouts
-/

namespace FSat

/-- With `--all` the program ends without an error after printing lines for wanted layouts only, each of them among the lines. -/
def PrintsAll (g : Grid) (Wanted : (Nat × Nat → Tile) → Prop) (run : Nat → Run) : Prop :=
  ∃ enough, ∀ fuel, enough ≤ fuel → ∃ (ls : List (List Char)) (Ts : List (Nat × Nat → Tile)), run fuel = ⟨textOf ls, .finished⟩ ∧
    IsInput (textOf ls) ls ∧ List.Forall₂ PrintedLine ls (Ts.map (layoutArr g)) ∧ (∀ T ∈ Ts, Wanted T) ∧
    ∀ T, Wanted T → layoutArr g T ∈ Ts.map (layoutArr g)

/-- The same, and no layout is printed twice. -/
def PrintsOnce (g : Grid) (Wanted : (Nat × Nat → Tile) → Prop) (run : Nat → Run) : Prop :=
  ∃ enough, ∀ fuel, enough ≤ fuel → ∃ (ls : List (List Char)) (Ts : List (Nat × Nat → Tile)), run fuel = ⟨textOf ls, .finished⟩ ∧
    IsInput (textOf ls) ls ∧ List.Forall₂ PrintedLine ls (Ts.map (layoutArr g)) ∧ (∀ T ∈ Ts, Wanted T) ∧
    (∀ T, Wanted T → layoutArr g T ∈ Ts.map (layoutArr g)) ∧ (Ts.map (layoutArr g)).Nodup

/-- Without `--all` the program prints nothing if there is no wanted layout, and otherwise a single line, for a wanted layout. -/
def PrintsFirst (g : Grid) (Wanted : (Nat × Nat → Tile) → Prop) (run : Run) : Prop :=
  (run = ⟨[], .finished⟩ ∧ ¬ ∃ T, Wanted T) ∨
  ∃ l T, run = ⟨textOf [l], .finished⟩ ∧ IsInput (textOf [l]) [l] ∧ PrintedLine l (layoutArr g T) ∧ Wanted T

end FSat
