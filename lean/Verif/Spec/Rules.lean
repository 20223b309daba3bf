import Verif.Spec.Layout
/-!
# The basic rules of a belt layout

Generic over the positions `P`, the cells `In` that belong to the layout, the neighbour function `nb`, and the layout `T`.
`shutB p d` / `shutU p d`: belts / undergrounds may not leave the layout through the side `d` of the cell `p`.
-/

namespace FSat

/-- One half of a splitter. -/
def Tile.IsSplitter (t : Tile) : Prop := ∃ d h, t = .splitter d h

/-- The tiles the solver works with; a belt never turns back. -/
def Tile.Basic : Tile → Prop
  | .belt i o => o ≠ i.opp
  | .empty | .underground _ _ | .splitter _ _ => True
  | _ => False

section
variable {P : Type} (In : P → Prop) (nb : P → Dir → Option P) (T : P → Tile)

/-- Splitter halves come in pairs. -/
structure PairedSplitters : Prop where
  head : ∀ p d, In p → T p = .splitter d true → ∃ q, In q ∧ SplitterPair nb T p q d
  tail : ∀ q d, In q → T q = .splitter d false → ∃ p, In p ∧ SplitterPair nb T p q d

/-- Belts and underground ends connect: what one puts into a neighbouring cell is taken there, and what one takes from a
neighbouring cell is put there. -/
structure Joined : Prop where
  out : ∀ p q d, In p → nb p d = some q → (T p).Emits d → ¬ (T p).IsSplitter → (T q).Takes d
  inp : ∀ p q d, In p → nb p d = some q → (T q).Takes d → ¬ (T q).IsSplitter → (T p).Emits d

/-- Splitter halves are connected on at least one end (or lead out of the layout there), and a belt in front of a splitter half
runs straight on from it. -/
structure SplitterEnds : Prop where
  used : ∀ p d h, In p → T p = .splitter d h →
    (∀ q, nb p d = some q → (T q).Takes d) ∨ (∀ q, nb p d.opp = some q → (T q).Emits d)
  noLeak : ∀ p q d h, In p → T p = .splitter d h → nb p d = some q → ∀ i o, T q = .belt i o → i = d

/-- Underground entrances and exits come in pairs with at most `L` cells in between (`none`: no limit). -/
structure PairedUndergrounds (L : Option Nat) : Prop where
  entrance : ∀ p d, In p → T p = .underground d true → ∃ q k, In q ∧ UgPair nb T p q d k
  exit : ∀ q d, In q → T q = .underground d false → ∃ p k, In p ∧ UgPair nb T p q d k
  len : ∀ p q d k, In p → UgPair nb T p q d k → ∀ l, L = some l → k - 1 ≤ l

/-- No tile moves items through a shut side on the surface. -/
def SurfaceShut (shut : P → Dir → Prop) : Prop :=
  ∀ p d, In p → shut p d → ¬ (T p).Emits d ∧ ¬ (T p).Takes d.opp ∧
    T p ≠ .underground d true ∧ T p ≠ .underground d.opp false

/-- No underground connection passes through a shut side. -/
def UndergroundShut (shut : P → Dir → Prop) : Prop :=
  (∀ p d, In p → shut p d → T p ≠ .underground d true ∧ T p ≠ .underground d.opp false) ∧
  ∀ p q d k, In p → UgPair nb T p q d k → ∀ i, i < k → ∀ r s, walk nb p d i = some r → walk nb p d (i + 1) = some s →
    ¬ shut r d ∧ ¬ shut s d.opp

/-- All basic rules together. -/
structure BasicRules (shutB shutU : P → Dir → Prop) (L : Option Nat) : Prop where
  basic : ∀ p, In p → (T p).Basic
  splitters : PairedSplitters In nb T
  joined : Joined In nb T
  ends : SplitterEnds In nb T
  undergrounds : PairedUndergrounds In nb T L
  surface : SurfaceShut In T shutB
  under : UndergroundShut In nb T shutU

/-- A colouring that follows the belts: below `n`, and equal along surface connections that leave a belt or an underground exit
and along underground connections. -/
structure ColourRules (n : Nat) (col : P → Nat) : Prop where
  lt : ∀ p, In p → col p < n
  surface : ∀ p q d, In p → nb p d = some q → (T p).Emits d → ¬ (T p).IsSplitter → col p = col q
  under : ∀ p q d k, In p → UgPair nb T p q d k → col p = col q

end

end FSat
