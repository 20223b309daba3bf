import Verif.Spec.Rules
import Mathlib.Data.Finset.Card
/-!
# Layouts that mix inputs evenly

`S p` is the set of inputs whose items are on the cell `p`, `level p` numbers the stage of the splitter at `p`.  Nothing here mentions
clauses or the solver.
-/

namespace FSat

/-- Belts and underground belts keep the set.  A splitter of level `i < levels` gets two disjoint sets of `2 ^ i` inputs each and passes
their union on to both its outputs. -/
structure EvenMixing {P : Type} (In : P → Prop) (nb : P → Dir → Option P) (T : P → Tile) (levels : Nat) (S : P → Finset Nat)
    (level : P → Nat) : Prop where
  surface : ∀ p q d, In p → Connected nb T p q d → ¬ (T p).IsSplitter → S q = S p
  under : ∀ p q d k, In p → UgPair nb T p q d k → S q = S p
  stage : ∀ p q d, In p → SplitterPair nb T p q d → level p < levels ∧ level q = level p
  size : ∀ p q d, In p → SplitterPair nb T p q d → (S p).card = 2 ^ level p ∧ (S q).card = 2 ^ level p
  disjoint : ∀ p q d, In p → SplitterPair nb T p q d → Disjoint (S p) (S q)
  union : ∀ p q d, In p → SplitterPair nb T p q d → ∀ r, Connected nb T p r d ∨ Connected nb T q r d → S r = S p ∪ S q

end FSat
