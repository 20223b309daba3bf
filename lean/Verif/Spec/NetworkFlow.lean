import Verif.Spec.Network
import Verif.Spec.LayoutFlow
/-!
# What a layout does to the items that enter it, and what its network does to them

`Carries` is about a layout and does not mention networks or the solver; `NetworkFlow` is about a network and does not mention layouts.
-/

namespace FSat

/-! ### Networks, with splitters that may lack inputs or outputs -/

/-- How many outputs the splitter has. -/
def Node.outputs (k : Node) : Nat := [k.2.1, k.2.2].countP Option.isSome

/-- The amounts on the four belts of a splitter: nothing on a belt that is not there, and what arrives is shared evenly between the
outputs that are there. -/
structure Shares (k : Node) (x : Amounts) : Prop where
  in1 : k.1.1 = none → x.1.1 = 0
  in2 : k.1.2 = none → x.1.2 = 0
  out1 : if k.2.1 = none then x.2.1 = 0 else x.2.1 * k.outputs = x.1.1 + x.1.2
  out2 : if k.2.2 = none then x.2.2 = 0 else x.2.2 * k.outputs = x.1.1 + x.1.2

/-- A steady flow through a machine built from the network `n`: the splitters share evenly, and within each colour the belts connect the
splitter outputs, and for colour `a` the machine's inputs, one to one (in any way) with the splitter inputs, and for colour `b` the
machine's outputs. -/
structure NetworkFlow (n : Network) (a b : Int) (flow : List (Node × Amounts)) (inputs outputs : Multiset ℚ) : Prop where
  nodes : (flow.map Prod.fst).Perm n
  shares : ∀ x ∈ flow, Shares x.1 x.2
  connected : ∀ c : Int, leaving flow (some c) + (if c = a then inputs else 0) =
    arriving flow (some c) + (if c = b then outputs else 0)

/-- The network is a balancer: whatever arrives at its inputs, all its outputs carry the same. -/
def IsBalancer (n : Network) (a b : Int) : Prop :=
  ∀ flow inputs outputs, NetworkFlow n a b flow inputs outputs → ∀ x ∈ outputs, ∀ y ∈ outputs, x = y

/-! ### Layouts with belts that come from outside -/

section
variable {P : Type} (In : P → Prop) (nb : P → Dir → Option P) (T : P → Tile) (conn : P → P → Dir → Prop) (supplied : P → Prop)

/-- Items reach the cell `p` moving in direction `d`: from a neighbour, or from outside of the layout if something is supplied there. -/
def FedAt (p : P) (d : Dir) : Prop := (∃ r, In r ∧ conn r p d) ∨ (nb p d.opp = none ∧ supplied p)

open Classical in
/-- What the splitter half at `p`, facing `d`, gets. -/
noncomputable def gets (F : P → ℚ) (p : P) (d : Dir) : ℚ := if FedAt In nb conn supplied p d then F p else 0

/-- `F p` is how much arrives at the cell `p` per unit of time.  Nothing is lost, made or stored: belts and underground belts pass on what
they get, and a splitter shares what its two halves get evenly between its connected outputs. -/
structure Carries (F : P → ℚ) : Prop where
  surface : ∀ p q d, In p → conn p q d → ¬ (T p).IsSplitter → F q = F p
  under : ∀ p q d k, In p → UgPair nb T p q d k → F q = F p
  splitter : ∀ p q d, In p → In q → SplitterPair nb T p q d → ∀ r, conn p r d ∨ conn q r d →
    F r * (outlets conn p d + outlets conn q d) = gets In nb conn supplied F p d + gets In nb conn supplied F q d

end

end FSat
