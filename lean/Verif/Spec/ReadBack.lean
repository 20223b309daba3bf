import Verif.Spec.PrintPrograms
import Verif.Model.Commands
/-!
# Layouts that come back from a blueprint
-/

namespace FSat

/-- The array is the layout, cut to the smallest rectangle around what it contains. -/
def CutOf (g : Grid) (T : Nat × Nat → Tile) (b : Arr Tile) : Prop :=
  ∃ x0 y0, BoundingBox (fun p => ((layoutArr g T).board p).Kept) x0 y0 b.cols b.rows ∧
    ∀ p, b.board (p.1 - x0, p.2 - y0) = (layoutArr g T).board p

/-- The program prints wanted layouts and ends without an error; `blueprint encode` and then `blueprint decode`, applied to what it prints,
read everything and print a line for each layout, in the same order, where `Back` says what is printed for a layout. -/
def ComesBack (g : Grid) (Wanted : (Nat × Nat → Tile) → Prop) (Back : (Nat × Nat → Tile) → Arr Tile → Prop) (c : Codec)
    (label : Option (List Char)) (level : BeltLevel) (run : Run) : Prop :=
  ∃ (ls : List (List Char)) (Ts : List (Nat × Nat → Tile)) (mid : List Char) (outs : List (List Char)) (bs : List (Arr Tile)),
    run = ⟨textOf ls, .finished⟩ ∧ List.Forall₂ PrintedLine ls (Ts.map (layoutArr g)) ∧ (∀ T ∈ Ts, Wanted T) ∧
    blueprintEncode c label level run.out = ⟨mid, .endOfInput⟩ ∧ blueprintDecode c mid = ⟨textOf outs, .endOfInput⟩ ∧
    List.Forall₂ SolutionLine outs bs ∧ List.Forall₂ Back Ts bs

end FSat
