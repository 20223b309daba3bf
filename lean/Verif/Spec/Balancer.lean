import Verif.Spec.Rules
import Verif.Spec.Network
/-!
# When a layout realises a splitter network

Generic over the positions.  `inp p d`: something arrives at the cell `p` moving in direction `d`; `out p d`: something leaves it in
direction `d`.  `col p` is the colour of what arrives at the cell `p`.
-/

namespace FSat

/-- What is known of the belts of a layout besides its tiles. -/
structure Flow (P : Type) where
  inp : P → Dir → Bool
  out : P → Dir → Bool
  col : P → Nat

/-- The colour of a connection; `None` if there is none. -/
def colourIf (present : Bool) (c : Nat) : Colour := if present then some (c : Int) else none

section
variable {P : Type} (nb : P → Dir → Option P) (T : P → Tile) (F : Flow P)

/-- The splitter with its head at `p`, facing `d`, is connected the way the node says: its two inputs have the node's input colours
and the cells in front of it, which exist, get the node's output colours, each in either order. -/
def Wired (k : Node) (p : P) (d : Dir) : Prop :=
  ∃ q p' q', SplitterPair nb T p q d ∧ nb p d = some p' ∧ nb q d = some q' ∧
    SameSide (colourIf (F.inp p d) (F.col p), colourIf (F.inp q d) (F.col q)) k.1 ∧
    SameSide (colourIf (F.out p d) (F.col p'), colourIf (F.out q d) (F.col q')) k.2

/-- `lab` labels the splitters of the layout, on their heads, with the nodes of the network: every splitter has a label, every node
is used as often as it occurs in the network, and the splitters are connected as their labels say. -/
structure Realises (cells : List P) (n : Network) (lab : P → Option Node) : Prop where
  heads : ∀ p ∈ cells, (∃ k, lab p = some k) ↔ ∃ d, T p = .splitter d true
  used : ∀ k, cells.countP (fun p => lab p = some k) = n.count k
  wired : ∀ p ∈ cells, ∀ k d, lab p = some k → T p = .splitter d true → Wired nb T F k p d

end

end FSat
