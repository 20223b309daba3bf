import Verif.Spec.Mixing
import Verif.Spec.BalancerMain
import Verif.Spec.LayoutFlow
import Verif.Lemmas.Solver
import Mathlib.Data.Set.Card
/-!
# Balancers for powers of two described by sets of inputs
-/

namespace FSat

/-- How the inputs are mixed in a layout `w` wide and `h` high: `S p` is the set of pairs of rows of the first column from which the cell `p`
gets its items, and `level p` is the stage of the splitter at `p`. -/
structure PairMixing (In : Nat × Nat → Prop) (nb : Nat × Nat → Dir → Option (Nat × Nat)) (T : Nat × Nat → Tile) (w h : Nat)
    (S : Nat × Nat → Finset Nat) (level : Nat × Nat → Nat) : Prop where
  mixing : EvenMixing In nb T (Nat.log2 h - 2) S level
  sub : ∀ p, In p → S p ⊆ Finset.range (h / 2)
  /-- Both rows of a pair carry the number of the pair. -/
  inputs : ∀ y < h, S (0, y) = {y / 2}
  /-- The two rows of a pair of outputs share all inputs between them. -/
  outputs : ∀ k, 2 * k < h → Disjoint (S (w - 1, 2 * k)) (S (w - 1, 2 * k + 1)) ∧ S (w - 1, 2 * k) ∪ S (w - 1, 2 * k + 1) = Finset.range (h / 2)
  /-- Every stage has as many splitters as there are pairs of rows. -/
  stages : ∀ i < Nat.log2 h - 2, {p | In p ∧ (∃ d, T p = .splitter d true) ∧ level p = i}.ncard = h / 2

/-- No part of the layout is one of the patterns the program leaves out because something simpler would do, where `ent` and `out` tell
which ends are used. -/
structure TidyPower (In : Nat × Nat → Prop) (nb : Nat × Nat → Dir → Option (Nat × Nat)) (w h : Nat) (ugLen : Option Nat)
    (T : Nat × Nat → Tile) (ent out : Nat × Nat → Dir → Prop) : Prop where
  expanded : Expanded T nb In w h ugLen
  loops : ∀ x y, x + 1 < w → y + 1 < h → ¬ SmallLoop T x y
  spans : ∀ p q d k, In p → ¬ EmptySpan nb T p q d k
  glued : ∀ p d, In p → ¬ (d = .right ∧ (p.1 = 1 ∨ p.1 + 2 = w)) → ¬ GluedSplitter nb T p d
  patterns : ∀ p d t, In p → d.Across t →
    ¬ BeltHook nb T p d t ∧ ¬ Semicircle nb T p d t ∧ ¬ EntranceHook nb T p d t ∧ ¬ ExitHook nb T p d t ∧ ¬ Zigzag nb T p d t ∧
    ¬ BeltBesideSplitter nb T out p d t
  mergeable : ∀ p d k m, In p → (∀ L, ugLen = some L → k + m ≤ L) → ¬ MergeablePair nb T p d k m
  loose : ∀ p d, In p → (p.1 : Int) ≤ w - 2 → (p.1 : Int) + d.ccw.dx + d.dx ≤ w - 2 → ¬ LooseSplitter nb T ent p d

/-- A layout that obeys the rules, has belts to the right in the first and last columns, connects all ends of its splitters and mixes the
inputs evenly. -/
def PowerBalancer (g : Grid) (T : Nat × Nat → Tile) (w h : Nat) (ugLen : Option Nat) : Prop :=
  BasicRules g.In g.nb T (g.shut (.ofPair false true)) (g.shut (.ofBool true)) ugLen ∧
  (∀ y < h, T (0, y) = .belt .right .right ∧ T (w - 1, y) = .belt .right .right) ∧
  FullSplitters g.In T (Connected g.nb T) ∧
  ∃ S level, PairMixing g.In g.nb T w h S level


end FSat
