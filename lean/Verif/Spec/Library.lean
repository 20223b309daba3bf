import Verif.Model.Library
import Verif.Spec.Bits
/-!
# What is expected of the library's cardinality encodings
-/

namespace FSat

/-- The clauses, which use the variables above `s` up to `s'` as auxiliary ones, have a solution with the given values of the other
variables exactly when `P` holds. -/
def Expresses (s s' : Nat) (cs : Cnf) (P : Asg → Prop) : Prop :=
  s ≤ s' ∧ CBound s' cs ∧ ∀ v, SatUpTo s v cs ↔ P v

/-- Whenever the library returns clauses, they say what they should.  It may refuse any input. -/
structure CardLib.Correct (lib : CardLib) : Prop where
  equals : ∀ ls n s cs s', LBound s ls → lib.equals ls n s = .ok (cs, s') → Expresses s s' cs fun v => (countTrue v ls : Int) = n
  atmost : ∀ ls n s cs s', LBound s ls → lib.atmost ls n s = .ok (cs, s') → Expresses s s' cs fun v => (countTrue v ls : Int) ≤ n
  atleast : ∀ ls n s cs s', LBound s ls → lib.atleast ls n s = .ok (cs, s') → Expresses s s' cs fun v => n ≤ (countTrue v ls : Int)

end FSat
