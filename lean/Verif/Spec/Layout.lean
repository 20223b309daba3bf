import Verif.Model.Tile
/-!
# What a belt layout means

Connection rules of the game, written for an arbitrary set of positions `P` with a neighbour function
`nb : P → Dir → Option P` (the plane, a bounded grid, a torus) and an arbitrary assignment `T : P → Tile`.
Nothing here mentions clauses or the solver.
-/

set_option linter.unusedSimpArgs false

namespace FSat

/-- Counterclockwise quarter turn, right → up → left → down (y grows downwards). -/
def Dir.ccw : Dir → Dir
  | .right => .up | .up => .left | .left => .down | .down => .right
/-- Opposite direction. -/
def Dir.opp : Dir → Dir
  | .right => .left | .up => .down | .left => .right | .down => .up
/-- Mirror image in a vertical line. -/
def Dir.mirrorX : Dir → Dir
  | .right => .left | .up => .up | .left => .right | .down => .down
/-- Mirror image in a horizontal line. -/
def Dir.mirrorY : Dir → Dir
  | .right => .right | .up => .down | .left => .left | .down => .up
/-- Same axis. -/
def Dir.Parallel (d e : Dir) : Prop := d = e ∨ d = e.opp

instance (d e : Dir) : Decidable (d.Parallel e) := by unfold Dir.Parallel; infer_instance

/-- The tile puts items onto the neighbouring cell in direction `d` (a splitter half can do so). -/
def Tile.Emits : Tile → Dir → Prop
  | .belt _ o, d => o = d
  | .underground e false, d => e = d
  | .splitter e _, d => e = d
  | _, _ => False

/-- The tile takes items that move in direction `d` on the surface (that is, from its neighbour in direction `d.opp`). -/
def Tile.Takes : Tile → Dir → Prop
  | .belt i _, d => i = d
  | .underground e true, d => e = d
  | .splitter e _, d => e = d
  | _, _ => False

instance (t : Tile) (d : Dir) : Decidable (t.Emits d) := by
  cases t <;> simp only [Tile.Emits] <;> try infer_instance
  rename_i b; cases b <;> simp only [Tile.Emits] <;> infer_instance
instance (t : Tile) (d : Dir) : Decidable (t.Takes d) := by
  cases t <;> simp only [Tile.Takes] <;> try infer_instance
  rename_i b; cases b <;> simp only [Tile.Takes] <;> infer_instance

/-- An underground belt end lying along the axis of `d`. -/
def Tile.UgAlong : Tile → Dir → Prop
  | .underground e _, d => e.Parallel d
  | _, _ => False

instance (t : Tile) (d : Dir) : Decidable (t.UgAlong d) := by
  cases t <;> simp only [Tile.UgAlong] <;> infer_instance

/-- `k` steps in direction `d`. -/
def walk {P : Type} (nb : P → Dir → Option P) (p : P) (d : Dir) : Nat → Option P
  | 0 => some p
  | k + 1 => (walk nb p d k).bind fun q => nb q d

section
variable {P : Type} (nb : P → Dir → Option P) (T : P → Tile)

/-- A surface connection from `p` to `q` in direction `d`. -/
def Connected (p q : P) (d : Dir) : Prop := nb p d = some q ∧ (T p).Emits d ∧ (T q).Takes d

/-- `p` and `q` are the two halves of one splitter facing `d`: the head, and the tail on its counterclockwise side. -/
def SplitterPair (p q : P) (d : Dir) : Prop :=
  T p = .splitter d true ∧ nb p d.ccw = some q ∧ T q = .splitter d false

/-- An underground entrance at `p` and an exit at `q`, `k` steps ahead in direction `d`, with `k - 1 ≥ 1` cells in between,
none of which is an underground end of the same axis. -/
def UgPair (p q : P) (d : Dir) (k : Nat) : Prop :=
  2 ≤ k ∧ walk nb p d k = some q ∧ T p = .underground d true ∧ T q = .underground d false ∧
    ∀ i, 0 < i → i < k → ∀ r, walk nb p d i = some r → ¬ (T r).UgAlong d

end

/-- The infinite plane: `(x, y)` with `y` growing downwards. -/
def planeNb (p : Int × Int) : Dir → Option (Int × Int)
  | .right => some (p.1 + 1, p.2)
  | .up => some (p.1, p.2 - 1)
  | .left => some (p.1 - 1, p.2)
  | .down => some (p.1, p.2 + 1)

/-- An array of tiles laid out on the plane, empty outside. -/
def Arr.board (a : Arr Tile) (p : Int × Int) : Tile :=
  if h : 0 ≤ p.1 ∧ p.1 < a.cols ∧ 0 ≤ p.2 ∧ p.2 < a.rows then
    a.get ⟨p.2.toNat, by omega⟩ ⟨p.1.toNat, by omega⟩
  else .empty

/-- Where each operation moves the position `(x, y)` of a grid of the given width and height. -/
def Operation.pos (op : Operation) (w h : Nat) (p : Int × Int) : Int × Int :=
  match op with
  | .noOp => p
  | .rot90 => (p.2, w - 1 - p.1)
  | .rot180 => (w - 1 - p.1, h - 1 - p.2)
  | .rot270 => (h - 1 - p.2, p.1)
  | .flipX => (w - 1 - p.1, p.2)
  | .flipY => (p.1, h - 1 - p.2)

/-- What each operation does to directions. -/
def Operation.dir (op : Operation) (d : Dir) : Dir :=
  match op with
  | .noOp => d
  | .rot90 => d.ccw
  | .rot180 => d.opp
  | .rot270 => d.opp.ccw
  | .flipX => d.mirrorX
  | .flipY => d.mirrorY

/-- Whether an operation reverses orientation (so that it exchanges the head and tail of a splitter). -/
def Operation.mirrors : Operation → Bool
  | .flipX | .flipY => true
  | _ => false

end FSat
