import Verif.Spec.Loop
import Verif.Spec.BalancerMain
import Mathlib.Logic.Relation
import Mathlib.Logic.Equiv.Defs
/-!
# What `interchange` may print

An interchange of `w` columns and `h` rows takes belts of one kind in its upper rows and belts of another kind in its lower rows, and puts
them out mixed.  Nothing here mentions clauses or assignments.
-/

namespace FSat

/-- The tile seen from behind: what it takes is what it put out before. -/
def Tile.backwards : Tile → Tile
  | .belt i o => .belt o i
  | .underground d b => .underground d !b
  | t => t

section
variable {P : Type} (nb : P → Dir → Option P) (T : P → Tile)

/-- Two straight belts in direction `d` from `p` on, and two of the same colour beside them that go back. -/
def Passing (col : P → Nat) (p : P) (d : Dir) : Prop :=
  ∃ a b e, nb p d = some a ∧ nb p d.ccw = some b ∧ nb b d = some e ∧ T p = .belt d d ∧ T a = .belt d d ∧
    T b = .belt d.opp d.opp ∧ T e = .belt d.opp d.opp ∧ col a = col p ∧ col b = col p ∧ col e = col p

/-- An underground belt comes out beyond the empty cell `p`, turns to the side and comes back beside its exit around an empty cell. -/
def AwkwardExit (p : P) (d : Dir) : Prop :=
  ∃ p10 p20 p11 p12 p21 p22, nb p d = some p10 ∧ nb p10 d = some p20 ∧ nb p10 d.ccw = some p11 ∧ nb p11 d.ccw = some p12 ∧
    nb p20 d.ccw = some p21 ∧ nb p21 d.ccw = some p22 ∧ T p = .empty ∧ T p10 = .underground d false ∧ T p11 = .empty ∧
    (T p20).Emits d.ccw ∧ (T p21).Emits d.ccw ∧ (T p22).Emits d.opp ∧ (T p12).Emits d.opp

end

/-- No part of the layout could be replaced by something simpler: no loops of four belts, nothing below empty cells only, no underground
belts that could be one, no detours. -/
structure TidyBelts (nb : Nat × Nat → Dir → Option (Nat × Nat)) (In : Nat × Nat → Prop) (w h L : Nat) (T : Nat × Nat → Tile) : Prop where
  loops : ∀ x y, x + 1 < w → y + 1 < h → ¬ SmallLoop T x y
  spans : ∀ p q d k, In p → ¬ EmptySpan nb T p q d k
  mergeable : ∀ p d k m, In p → k + m ≤ L → ¬ MergeablePair nb T p d k m
  detours : ∀ p d t, In p → d.Across t →
    ¬ BeltHook nb T p d t ∧ ¬ Semicircle nb T p d t ∧ ¬ EntranceHook nb T p d t ∧ ¬ ExitHook nb T p d t

/-- The colour of an input row: the upper half has colour 0, the lower half has colour 1. -/
def inputKind (h y : Nat) : Nat := if y < h / 2 then 0 else 1

/-- The layout `T` with the colours `col` is an interchange. -/
structure IsInterchange (nb : Nat × Nat → Dir → Option (Nat × Nat)) (In : Nat × Nat → Prop) (shutB shutU : Nat × Nat → Dir → Prop)
    (w h L : Nat) (alternating rotSymmetry : Bool) (T : Nat × Nat → Tile) (col : Nat × Nat → Nat) : Prop where
  rules : BasicRules In nb T shutB shutU (some L)
  noSplitter : ∀ p, In p → ¬ (T p).IsSplitter
  entry : ∀ y < h, (T (0, y)).Takes .right
  exit : ∀ y < h, (T (w - 1, y)).Emits .right
  colours : ColourRules In nb T 2 col
  inputs : ∀ y < h, col (0, y) = inputKind h y
  outputs : if alternating then ∀ y < h, col (w - 1, y) = y % 2
    else ∀ i, 2 * i + 1 < h → col (w - 1, 2 * i) ≠ col (w - 1, 2 * i + 1)
  passing : ∀ p d, In p → ¬ Passing nb T col p d
  awkward : ∀ p d, In p → ¬ AwkwardExit nb T p d
  tidy : TidyBelts nb In w h L T
  zigzags : rotSymmetry = false → ∀ p d t, In p → d.Across t → ¬ Zigzag nb T p d t
  symmetric : rotSymmetry = true → ∀ x y, x < w → y < h → T (w - 1 - x, h - 1 - y) = (T (x, y)).backwards
  expanded : rotSymmetry = true → ∀ p d k, In p → k ≤ L → ¬ BeltIntoUnderground nb T p d k ∧ ¬ UndergroundIntoBelt nb T p d k

/-- The belt that comes in on the left in row `y` goes out on the right in row `π y`.  With `alternating` the upper half goes to the even
rows and the lower half to the odd rows, else each pair of rows `2i`, `2i + 1` gets one belt from the upper half and one from the
lower half. -/
structure Routed (nb : Nat × Nat → Dir → Option (Nat × Nat)) (T : Nat × Nat → Tile) (w h : Nat) (alternating : Bool)
    (π : Equiv.Perm (Fin h)) : Prop where
  runs : ∀ y : Fin h, Relation.ReflTransGen (Follows nb T) (0, y.1) (w - 1, (π y).1)
  mixed : if alternating then ∀ y : Fin h, (π y).1 % 2 = inputKind h y
    else ∀ a b : Fin h, (π a).1 % 2 = 0 → (π b).1 = (π a).1 + 1 → inputKind h a ≠ inputKind h b

end FSat
