import Verif.Spec.Network
import Mathlib.Data.Rat.Defs
import Mathlib.Algebra.Order.Field.Rat
/-!
# Networks as wires between splitters
-/

namespace FSat

/-- The amount on a wire; nothing where there is no wire. -/
def onWire (F : Int → ℚ) : Colour → ℚ
  | none => 0
  | some c => F c

/-- What arrives at the splitter. -/
def Node.total (F : Int → ℚ) (k : Node) : ℚ := onWire F k.1.1 + onWire F k.1.2

/-- The splitter shares what arrives evenly between its outputs; without an output nothing can arrive. -/
def Splits (F : Int → ℚ) (k : Node) : Prop :=
  match k.2 with
  | (none, none) => k.total F = 0
  | (some c, none) => F c = k.total F
  | (none, some c) => F c = k.total F
  | (some c, some d) => F c = k.total F / 2 ∧ F d = k.total F / 2

/-- A steady flow: an amount for every wire so that every splitter shares evenly. -/
def WireFlow (n : Network) (F : Int → ℚ) : Prop := (∀ c, 0 ≤ F c) ∧ ∀ k ∈ n, Splits F k

/-- Every wire leads from at most one splitter output to at most one splitter input. -/
def SingleEnds (n : Network) : Prop := ∀ c, c ≠ none → (insOf n).count c ≤ 1 ∧ (outsOf n).count c ≤ 1

/-- Every splitter has an output. -/
def AllLead (n : Network) : Prop := ∀ k ∈ n, k.2 ≠ (none, none)

/-- The colour is that of a wire of the network. -/
def UsesWire (n : Network) (c : Int) : Prop := some c ∈ insOf n ∨ some c ∈ outsOf n

/-- No splitter lacks all inputs or all outputs, none only passes items on, and no splitter takes exactly the outputs of another one. -/
structure Simplified (n : Network) : Prop where
  fed : ∀ k ∈ n, k.1 ≠ (none, none)
  leads : ∀ k ∈ n, k.2 ≠ (none, none)
  needed : ∀ k ∈ n, (k.1.1 ≠ none ∧ k.1.2 ≠ none) ∨ (k.2.1 ≠ none ∧ k.2.2 ≠ none)
  notInRow : ∀ a ∈ n, ∀ b ∈ n, a ≠ b → ¬ ∀ c : Int, (some c = a.2.1 ∨ some c = a.2.2) ↔ (some c = b.1.1 ∨ some c = b.1.2)

/-- What becomes of the inputs and outputs when the network `n` is replaced by `n'`: no outputs are added; an output that is lost never
carries anything or always carries what comes in at an input; every input corresponds to one that always carries the same, and an input
without such a counterpart leads straight to an output. -/
structure KeepsEnds (n n' : Network) : Prop where
  left : ∀ c : Int, Leaves n' (some c) → Leaves n (some c)
  lost : ∀ c : Int, Leaves n (some c) → Leaves n' (some c) ∨ (∀ F, WireFlow n F → F c = 0) ∨
    ∃ e : Int, Enters n (some e) ∧ ∀ F, WireFlow n F → F c = F e
  entered : ∀ e : Int, Enters n' (some e) → ∃ e' : Int, Enters n (some e') ∧ ∀ F, WireFlow n F → F e = F e'
  kept : ∀ e : Int, Enters n (some e) → (∃ e' : Int, Enters n' (some e') ∧ ∀ F, WireFlow n F → F e = F e') ∨
    ∃ c : Int, Leaves n (some c) ∧ ∀ F, WireFlow n F → F e = F c

end FSat
