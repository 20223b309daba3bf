import Verif.Spec.LayoutFlow
import Verif.Spec.Ends
import Verif.Spec.BalancerMain
/-!
# Balancers described by the share of each input

`φ k p` is how much of what enters through input `k` arrives at the cell `p`, in whole units; `full` units enter through it.  Nothing here
mentions clauses or the solver.
-/

namespace FSat

/-- The shares of the inputs but the last one, in a layout whose first column holds the `n` inputs from row `i` on and whose last column,
`w - 1`, holds the `n` outputs from row `j` on. -/
structure InputShares (In : Nat × Nat → Prop) (nb : Nat × Nat → Dir → Option (Nat × Nat)) (T : Nat × Nat → Tile) (w n i j full : Nat)
    (φ : Nat → Nat × Nat → Nat) : Prop where
  /-- Each is a steady flow. -/
  steady : ∀ k < n - 1, Steady In nb T (Connected nb T) fun p => (φ k p : Rat)
  /-- No belt carries more than comes in. -/
  le : ∀ k < n - 1, ∀ p, In p → φ k p ≤ full
  /-- The share of an input on the input belts: all on its own, nothing on the others. -/
  inputs : ∀ k < n - 1, ∀ y, i ≤ y → y < i + n → φ k (0, y) = if y % n = k then full else 0
  /-- Every output gets the same part of every input. -/
  outputs : ∀ k < n - 1, ∀ y, j ≤ y → y < j + n → φ k (w - 1, y) * n = full

/-- No splitter is idle: what its two halves get differs. -/
def NoIdleSplitter (In : Nat × Nat → Prop) (nb : Nat × Nat → Dir → Option (Nat × Nat)) (T : Nat × Nat → Tile) (n : Nat)
    (φ : Nat → Nat × Nat → Nat) : Prop :=
  ∀ p q d, In p → SplitterPair nb T p q d → ∃ k < n - 1, φ k p ≠ φ k q

/-- No part of the layout is one of the patterns the program leaves out because something simpler would do, where `ent` and `out` tell
which ends are used. -/
structure TidyFree (In : Nat × Nat → Prop) (nb : Nat × Nat → Dir → Option (Nat × Nat)) (w h : Nat) (ugLen : Option Nat)
    (T : Nat × Nat → Tile) (ent out : Nat × Nat → Dir → Prop) : Prop where
  expanded : Expanded T nb In w h ugLen
  loops : ∀ x y, x + 1 < w → y + 1 < h → ¬ SmallLoop T x y
  spans : ∀ p q d k, In p → ¬ EmptySpan nb T p q d k
  glued : ∀ p d, In p → ¬ (d = .right ∧ (p.1 = 1 ∨ p.1 + 2 = w)) → ¬ GluedSplitter nb T p d
  patterns : ∀ p d t, In p → d.Across t →
    ¬ BeltHook nb T p d t ∧ ¬ Semicircle nb T p d t ∧ ¬ EntranceHook nb T p d t ∧ ¬ ExitHook nb T p d t ∧ ¬ Zigzag nb T p d t ∧
    ¬ BeltBesideSplitter nb T out p d t
  mergeable : ∀ p d k m, In p → (∀ L, ugLen = some L → k + m ≤ L) → ¬ MergeablePair nb T p d k m
  loose : ∀ p d, In p → (p.1 : Int) ≤ w - 2 → (p.1 : Int) + d.ccw.dx + d.dx ≤ w - 2 → ¬ LooseSplitter nb T ent p d
  edges : ∀ x y, x = 1 ∨ x = max (w - 2) 1 → y + 1 < h → ¬ (T (x, y) = .belt .right .right ∧ T (x, y + 1) = .belt .right .right)

end FSat
