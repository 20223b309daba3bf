import Verif.Spec.PrintPrograms
import Verif.Model.Commands
import Verif.Props.Transform
import Verif.Props.Pasted
/-!
# Layouts that are turned, made into a blueprint and pasted
-/

namespace FSat

/-- What is pasted from the text is the layout, turned or mirrored: nothing is outside of the moved cells, belts leave the area at the moved
cells, and with items supplied anywhere it carries exactly what the layout does, moved. -/
def PastesTurned (op : Operation) (g : Grid) (c : Codec) (T : Nat × Nat → Tile) (text : List Char) : Prop :=
  ∃ (r : Arr Tile) (B : Int × Int → Tile), op.Produces (layoutArr g T) r ∧ PastedAs c text B ∧
    let move := fun p : Nat × Nat => op.pos g.width g.height (toPlane p)
    (∀ q, r.In q ↔ ∃ p, g.In p ∧ move p = q) ∧ (∀ q, B q ≠ .empty → r.In q) ∧
    (∀ p, g.In p → (LeavesAt r.nb B (move p) ↔ LeavesAt g.nb T p)) ∧
    ∀ (supplied : Nat × Nat → Prop) (F : Int × Int → ℚ),
      Carries r.In r.nb B (Connected r.nb B) (fun q => ∃ p, (g.In p ∧ supplied p) ∧ move p = q) F ↔
      Carries g.In g.nb T (Connected g.nb T) supplied fun p => F (move p)

/-- The program prints wanted layouts and ends without an error; `rotate` and then `blueprint encode` read everything and print a line for each
layout, in the same order; and what is pasted from it is that layout, turned or mirrored. -/
def PastedTurned (op : Operation) (g : Grid) (Wanted : (Nat × Nat → Tile) → Prop) (c : Codec) (label : Option (List Char)) (level : BeltLevel)
    (run : Run) : Prop :=
  ∃ (ls : List (List Char)) (Ts : List (Nat × Nat → Tile)) (mid : List Char) (texts : List (List Char)),
    run = ⟨textOf ls, .finished⟩ ∧ List.Forall₂ PrintedLine ls (Ts.map (layoutArr g)) ∧ (∀ T ∈ Ts, Wanted T) ∧
    rotateMain op run.out = ⟨mid, .endOfInput⟩ ∧ blueprintEncode c label level mid = ⟨textOf texts, .endOfInput⟩ ∧
    List.Forall₂ (PastesTurned op g c) Ts texts

end FSat
