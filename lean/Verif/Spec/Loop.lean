import Verif.Spec.Rules
import Verif.Spec.Optimise
/-!
# Loops of belts
-/

namespace FSat

/-- Items go from `p` directly to `q`: on the surface, or from an underground entrance to its exit. -/
def Follows {P : Type} (nb : P → Dir → Option P) (T : P → Tile) (p q : P) : Prop :=
  (∃ d, Connected nb T p q d) ∨ ∃ d k, UgPair nb T p q d k

/-- From every cell exactly one cell follows, and starting from `start` one comes to each cell exactly once in `n` steps, and then to
`start` again. -/
structure SingleLoop {P : Type} (In : P → Prop) (step : P → P → Prop) (start : P) (n : Nat) : Prop where
  next : ∀ p, In p → ∃ q, In q ∧ step p q ∧ ∀ q', step p q' → q' = q
  tour : ∃ f : Nat → P, f 0 = start ∧ f n = start ∧ (∀ i, step (f i) (f (i + 1))) ∧ (∀ i, In (f i)) ∧
    ∀ p, In p → ∃ i, i < n ∧ f i = p ∧ ∀ j, j < n → f j = p → j = i

/-- What a block of belts has to obey: the basic rules, with at most `L` cells between the ends of an underground belt (none at all if `L` is
zero), no splitters, no empty cells unless they are allowed, no loop of four belts within the block, and nothing going below empty
cells only. -/
structure BlockRules (width height : Nat) (In : Nat × Nat → Prop) (nb : Nat × Nat → Dir → Option (Nat × Nat)) (T : Nat × Nat → Tile)
    (shut : Nat × Nat → Dir → Prop) (allowEmpty : Bool) (L : Nat) : Prop where
  basic : BasicRules In nb T shut shut (some L)
  noSplitter : ∀ p, In p → ¬ (T p).IsSplitter
  noEmpty : allowEmpty = false → ∀ p, In p → T p ≠ .empty
  noSmallLoop : ∀ x y, x + 1 < width → y + 1 < height → ¬ SmallLoop T x y
  noSpan : ∀ p q d k, In p → ¬ EmptySpan nb T p q d k

end FSat
