import Verif.Spec.Rules
import Mathlib.Data.Rat.Defs
import Mathlib.Algebra.Order.Ring.Rat
/-!
# Steady flows on a layout

`F p` is how much arrives at the cell `p` per unit of time.  `conn p q d` says that the cell `p` passes items on to the cell `q`, its
neighbour in direction `d`; in the game this is `Connected nb T`.  Nothing here mentions clauses or the solver.
-/

namespace FSat

section
variable {P : Type} (In : P → Prop) (nb : P → Dir → Option P) (T : P → Tile) (conn : P → P → Dir → Prop)

open Classical in
/-- What the splitter half at `p`, facing `d`, gets: nothing if it is not connected. -/
noncomputable def arrives (F : P → Rat) (p : P) (d : Dir) : Rat := if ∃ r, In r ∧ conn r p d then F p else 0

open Classical in
/-- How many outputs the splitter half at `p` has. -/
noncomputable def outlets (p : P) (d : Dir) : Rat := if ∃ r, conn p r d then 1 else 0

/-- Nothing is lost, made or stored: belts and underground belts pass on what they get, and a splitter shares what its two halves get
evenly between its connected outputs. -/
structure Steady (F : P → Rat) : Prop where
  surface : ∀ p q d, In p → conn p q d → ¬ (T p).IsSplitter → F q = F p
  under : ∀ p q d k, In p → UgPair nb T p q d k → F q = F p
  splitter : ∀ p q d, In p → In q → SplitterPair nb T p q d → ∀ r, conn p r d ∨ conn q r d →
    F r * (outlets conn p d + outlets conn q d) = arrives In conn F p d + arrives In conn F q d

/-- Both halves of every splitter get items and can pass items on. -/
def FullSplitters : Prop := ∀ p d h, In p → T p = .splitter d h → (∃ q, conn p q d) ∧ ∃ q, In q ∧ conn q p d

/-- Items enter the layout at this cell. -/
def EntersAt (p : P) : Prop := ∃ d, (T p).Takes d ∧ nb p d.opp = none

/-- Items leave the layout at this cell. -/
def LeavesAt (p : P) : Prop := ∃ d, (T p).Emits d ∧ nb p d = none

end

end FSat

namespace FSat

section
variable {P : Type} (In : P → Prop) (nb : P → Dir → Option P) (T : P → Tile) (conn : P → P → Dir → Prop)

open Classical in
/-- What the cell `q` in front of the splitter half `p` draws from it: nothing if it is not connected. -/
noncomputable def departs (F : P → Rat) (p q : P) (d : Dir) : Rat := if conn p q d then F q else 0

open Classical in
/-- How many inputs the splitter half at `p` has. -/
noncomputable def inlets (p : P) (d : Dir) : Rat := if ∃ r, In r ∧ conn r p d then 1 else 0

/-- The same seen from the outputs: `F p` is how much is drawn through the cell `p`.  Belts and underground belts draw what is drawn
from them, and a splitter draws what is drawn from its two halves evenly through its connected inputs. -/
structure Drawn (F : P → Rat) : Prop where
  surface : ∀ p q d, In p → conn p q d → ¬ (T p).IsSplitter → F q = F p
  under : ∀ p q d k, In p → UgPair nb T p q d k → F q = F p
  splitter : ∀ p q d p' q', In p → In q → SplitterPair nb T p q d → nb p d = some p' → nb q d = some q' →
    ∀ r, (r = p ∨ r = q) → (∃ s, In s ∧ conn s r d) →
    F r * (inlets In conn p d + inlets In conn q d) = departs conn F p p' d + departs conn F q q' d

end

/-- Of the four ends of every splitter at most one is not connected. -/
def AlmostFull {P : Type} (In : P → Prop) (nb : P → Dir → Option P) (T : P → Tile) (conn : P → P → Dir → Prop) : Prop :=
  ∀ p q d, In p → In q → SplitterPair nb T p q d →
    3 ≤ inlets In conn p d + inlets In conn q d + outlets conn p d + outlets conn q d

/-- The connections the clauses reason with: between a splitter half and a splitter half in front of it a layout may leave out one that
the game has, everywhere else they are those of the game. -/
def SplitterChoice {P : Type} (In : P → Prop) (nb : P → Dir → Option P) (T : P → Tile) (conn : P → P → Dir → Prop) : Prop :=
  (∀ p q d, In p → conn p q d → Connected nb T p q d) ∧
  ∀ p q d, In p → Connected nb T p q d → ¬ ((T p).IsSplitter ∧ (T q).IsSplitter) → conn p q d

end FSat
