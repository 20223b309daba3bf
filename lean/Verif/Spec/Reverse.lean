import Verif.Spec.DividesEvenly
/-!
# Networks whose splitters have two inputs and two outputs
-/

namespace FSat

/-- Every splitter has two inputs and two outputs. -/
def AllFull (n : Network) : Prop := ∀ k ∈ n, k.1.1 ≠ none ∧ k.1.2 ≠ none ∧ k.2.1 ≠ none ∧ k.2.2 ≠ none

end FSat
