import Verif.Spec.NetworkFlow
/-!
# What is expected of a balancer
-/

namespace FSat

/-- However the belts of each colour are connected, and whatever arrives: a machine built from the network, with the inputs of colour `a`
and the outputs of colour `b`, has `p` inputs and `q` outputs, and each of its outputs carries the same `q`-th part of what arrives. -/
def DividesEvenly (n : Network) (a : Int) (p : Nat) (b : Int) (q : Nat) : Prop :=
  ∀ flow inputs outputs, NetworkFlow n a b flow inputs outputs →
    inputs.card = p ∧ outputs.card = q ∧ ∀ x ∈ outputs, x * q = inputs.sum

end FSat
