import Verif.Spec.Query
import Verif.Spec.DividesEvenly
import Verif.Spec.ReadBack
import Verif.Spec.LayoutFlow
/-!
# What the balancers that are reported do with items
-/

namespace FSat

/-- Every splitter of the network has two outputs. -/
def AllOutputsUsed (n : Network) : Prop := ∀ k ∈ n, k.2.1 ≠ none ∧ k.2.2 ≠ none

/-- Every splitter of the network has two inputs. -/
def AllInputsUsed (n : Network) : Prop := ∀ k ∈ n, k.1.1 ≠ none ∧ k.1.2 ≠ none

/-- No splitter stands directly in front of another. -/
def Apart {P : Type} (In : P → Prop) (nb : P → Dir → Option P) (T : P → Tile) : Prop :=
  ∀ p q d, In p → Connected nb T p q d → ¬ ((T p).IsSplitter ∧ (T q).IsSplitter)

open Classical in
/-- The layout has `m` inputs, in the first column, and `n` outputs, in the last one; and whatever is supplied in the first column, each
output carries the `n`-th part of everything. -/
def EvenLayout (w h : Nat) (T : Nat × Nat → Tile) (m n : Nat) : Prop :=
  ((boxCells w h).filter fun p => p.1 = 0 ∧ (T p).Takes .right).length = m ∧
  ((boxCells w h).filter fun p => LeavesAt (boxNb w h) T p).length = n ∧
  (∀ p, boxIn w h p → LeavesAt (boxNb w h) T p → p.1 + 1 = w) ∧
  ∀ X, Carries (boxIn w h) (boxNb w h) T (Connected (boxNb w h) T) (fun p => p.1 = 0) X →
    ∀ p, boxIn w h p → LeavesAt (boxNb w h) T p →
      X p * n = (((boxCells w h).filter fun p => p.1 = 0 ∧ (T p).Takes .right).map X).sum

/-- `b` is what is left of `a` when empty rows and columns at its sides are cut off. -/
def CutTo (a b : Arr Tile) : Prop :=
  ∃ x0 y0, BoundingBox (fun p => (a.board p).Kept) x0 y0 b.cols b.rows ∧ ∀ p, b.board (p.1 - x0, p.2 - y0) = a.board p

end FSat
