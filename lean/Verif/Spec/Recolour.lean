import Verif.Spec.Network
import Mathlib.Data.Int.Bitwise
import Mathlib.Data.Set.Card
import Mathlib.Data.Nat.Log
/-!
# The cost of the numbering of the colours
-/

namespace FSat

/-- How many binary digits of two numbers differ. -/
noncomputable def bitsApart (a b : Int) : Nat := {i : Nat | Int.testBit a i ≠ Int.testBit b i}.ncard

/-- The two colours of a side of a splitter, if both belts are there. -/
def bothColours : Colour × Colour → List (Int × Int)
  | (some a, some b) => [(a, b)]
  | _ => []

/-- The belt goes from one splitter to another. -/
def Inner (n : Network) (c : Int) : Prop := some c ∈ insOf n ∧ some c ∈ outsOf n

instance (n : Network) (c : Int) : Decidable (Inner n c) := by unfold Inner; infer_instance

/-- The pairs of belts that meet at a splitter (as its two inputs or its two outputs), of which one goes from splitter to splitter. -/
def innerPairs (n : Network) : List (Int × Int) :=
  (n.flatMap fun nd => bothColours nd.1 ++ bothColours nd.2).filter fun p => Inner n p.1 ∨ Inner n p.2

/-- The cost of the numbering: the digits in which these pairs differ. -/
noncomputable def NumberingCost (n : Network) : Nat := ((innerPairs n).map fun p => bitsApart p.1 p.2).sum

/-- The colours of a network. -/
def UsesColour (n : Network) (c : Int) : Prop := some c ∈ insOf n ∨ some c ∈ outsOf n

/-- How many colours there are. -/
def numColours (n : Network) : Nat := (colourSet (insOf n ++ outsOf n)).length

/-- New numbers for the colours: different ones, and no gaps. -/
structure Renumbers (n : Network) (f : Int → Int) : Prop where
  inj : ∀ c d, UsesColour n c → UsesColour n d → f c = f d → c = d
  range : ∀ c, UsesColour n c → 0 ≤ f c ∧ f c < numColours n

/-- Colours are not negative, and the pairs that are counted are of different colours. -/
structure Countable (n : Network) : Prop where
  nonneg : ∀ c, UsesColour n c → 0 ≤ c
  apart : ∀ p ∈ innerPairs n, p.1 ≠ p.2

end FSat
