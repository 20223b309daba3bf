import Verif.Spec.Rules
/-!
# What exporting and importing a layout should do
-/

namespace FSat

/-- The tiles that become entities. -/
def Tile.Kept : Tile → Prop
  | .empty | .filler => False
  | _ => True

/-- The smallest rectangle around a set of cells: its upper left corner, width and height. -/
structure BoundingBox (S : Int × Int → Prop) (x0 y0 : Int) (w h : Nat) : Prop where
  inside : ∀ p, S p → x0 ≤ p.1 ∧ p.1 < x0 + w ∧ y0 ≤ p.2 ∧ p.2 < y0 + h
  left : ∃ p, S p ∧ p.1 = x0
  right : ∃ p, S p ∧ p.1 = x0 + w - 1
  top : ∃ p, S p ∧ p.2 = y0
  bottom : ∃ p, S p ∧ p.2 = y0 + h - 1

/-- Some neighbour puts items that move in direction `d` onto the cell `p`. -/
def Fed (T : Int × Int → Tile) (p : Int × Int) (d : Dir) : Prop := ∃ q, planeNb q d = some p ∧ (T q).Emits d

/-- The cell is fed from exactly one side. -/
def OnlyFeeder (T : Int × Int → Tile) (p : Int × Int) (d : Dir) : Prop := ∀ e, Fed T p e ↔ e = d

/-- What is left of the tile at `p` after exporting and importing: chests and the like are dropped, and the input side of a belt is
found from what feeds it; a belt that is not fed from exactly one side runs straight. -/
def Restored (T : Int × Int → Tile) (p : Int × Int) (t : Tile) : Prop :=
  match T p with
  | .belt _ o => ∃ i, t = .belt i o ∧ ((OnlyFeeder T p i) ∨ (¬ ∃ d, OnlyFeeder T p d) ∧ i = o)
  | .filler => t = .empty
  | t' => t = t'

/-- The layouts that can be exported and read back. -/
structure Encodable (T : Int × Int → Tile) : Prop where
  noAssembler : ∀ p x y, T p ≠ .assembler x y
  inserters : ∀ p d k, T p = .inserter d k → k = 0 ∨ k = 1
  splitters : PairedSplitters (fun _ => True) planeNb T
  noHeadOn : ∀ p i o, T p = .belt i o → ¬ OnlyFeeder T p o.opp

end FSat
