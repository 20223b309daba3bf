import Verif.Spec.Parse
import Verif.Spec.LayoutFlow
/-!
# Where a layout takes in and gives off the items that its splitters handle
-/

namespace FSat

section
variable {P : Type} (nb : P → Dir → Option P) (T : P → Tile)

/-- A belt or underground belt that brings items from outside of the layout to a splitter. -/
def BringsIn (p : P) : Prop := ¬ (T p).IsSplitter ∧ EntersAt nb T p ∧ ∃ r, (T r).IsSplitter ∧ Reaches nb T p r

/-- A belt or underground belt that takes items from a splitter to the outside of the layout. -/
def TakesOut (p : P) : Prop := ¬ (T p).IsSplitter ∧ LeavesAt nb T p ∧ ∃ r, (T r).IsSplitter ∧ Reaches nb T r p

end

end FSat
