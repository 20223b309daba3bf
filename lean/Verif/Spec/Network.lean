import Verif.Model.Network
import Mathlib.Data.Multiset.Basic
import Mathlib.Algebra.BigOperators.Group.Multiset.Defs
import Mathlib.Algebra.Order.Ring.Rat
/-!
# What networks mean

Only the notions of node, input colours and output colours of a network are taken from the model.
-/

namespace FSat

/-- How many more inputs than outputs have the colour. -/
def surplus (n : Network) (c : Colour) : Int := ((insOf n).count c : Int) - ((outsOf n).count c : Int)

/-- Colour `a` is the only one with more inputs than outputs, by `p`; `b` is the only one with more outputs than inputs, by `q`. -/
structure Ends (n : Network) (a p b q : Int) : Prop where
  pos : 0 < p
  neg : 0 < q
  input : surplus n (some a) = p
  output : surplus n (some b) = -q
  rest : ∀ c, c ≠ a → c ≠ b → surplus n (some c) = 0

/-- The network with its colours renamed; `None` stays. -/
def rename (f : Int → Int) (n : Network) : Network :=
  n.map fun nd => ((nd.1.1.map f, nd.1.2.map f), (nd.2.1.map f, nd.2.2.map f))

/-- The sides are equal or the other way round. -/
def SameSide (s t : Colour × Colour) : Prop := s = t ∨ s = (t.2, t.1)

/-- The same splitter, up to the order of its two inputs and of its two outputs. -/
def SameNode (x y : Node) : Prop := SameSide x.1 y.1 ∧ SameSide x.2 y.2

instance (x y : Node) : Decidable (SameNode x y) := by unfold SameNode SameSide; infer_instance

/-- A colour that enters the network: an input of a splitter and no splitter's output. -/
def Enters (n : Network) (c : Colour) : Prop := c ≠ none ∧ c ∈ insOf n ∧ c ∉ outsOf n

/-- A colour that leaves the network: an output of a splitter and no splitter's input. -/
def Leaves (n : Network) (c : Colour) : Prop := c ≠ none ∧ c ∈ outsOf n ∧ c ∉ insOf n

instance (n : Network) (c : Colour) : Decidable (Enters n c) := by unfold Enters; infer_instance
instance (n : Network) (c : Colour) : Decidable (Leaves n c) := by unfold Leaves; infer_instance

/-- The number of outputs of a splitter that leave the network, less the number of its inputs that enter it. -/
def rank (n : Network) (nd : Node) : Int :=
  ([nd.2.1, nd.2.2].countP (fun c => decide (Leaves n c)) : Int) - ([nd.1.1, nd.1.2].countP (fun c => decide (Enters n c)) : Int)

/-! ### Files -/

/-- A line of a network file without a node: blank, or a comment. -/
def Skipped (line : List Char) : Prop :=
  (∀ c ∈ line, c.isWhitespace = true) ∨ ∃ w r, (∀ x ∈ w, x.isWhitespace = true) ∧ line = w ++ '#' :: r

/-- A line with the four numbers, white space between them and possibly around them. -/
def NodeLine (a b c d : Int) (line : List Char) : Prop :=
  ∃ w l, (∀ x ∈ w, x.isWhitespace = true) ∧ Spaced ([b, c, d].map showInt) l ∧ line = w ++ showInt a ++ l

/-! ### Flow -/

/-- The amounts on the four belts of a splitter. -/
abbrev Amounts := (ℚ × ℚ) × (ℚ × ℚ)

/-- A splitter divides what arrives evenly between its outputs. -/
def Even (x : Amounts) : Prop := x.2.1 = (x.1.1 + x.1.2) / 2 ∧ x.2.2 = (x.1.1 + x.1.2) / 2

/-- The amounts arriving at splitter inputs of the colour. -/
def arriving (n : List (Node × Amounts)) (c : Colour) : Multiset ℚ :=
  ((n.flatMap fun x => [(x.1.1.1, x.2.1.1), (x.1.1.2, x.2.1.2)]).filterMap fun p => if p.1 = c then some p.2 else none : List ℚ)

/-- The amounts leaving splitter outputs of the colour. -/
def leaving (n : List (Node × Amounts)) (c : Colour) : Multiset ℚ :=
  ((n.flatMap fun x => [(x.1.2.1, x.2.2.1), (x.1.2.2, x.2.2.2)]).filterMap fun p => if p.1 = c then some p.2 else none : List ℚ)

/-- A steady flow through a machine built from the network `n`: every splitter divides evenly, and within each colour the belts
connect the splitter outputs, and for colour `a` the machine's inputs, one to one (in any way) with the splitter inputs, and
for colour `b` the machine's outputs. -/
structure SteadyFlow (n : Network) (a b : Int) (flow : List (Node × Amounts)) (inputs outputs : Multiset ℚ) : Prop where
  nodes : flow.map Prod.fst = n
  even : ∀ x ∈ flow, Even x.2
  connected : ∀ c : Int, leaving flow (some c) + (if c = a then inputs else 0) =
    arriving flow (some c) + (if c = b then outputs else 0)

end FSat
