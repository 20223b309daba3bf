import Verif.Spec.Rules
/-!
# The layout patterns that the optimisations are meant to forbid

Generic over the positions and the neighbour function, except where the region considered is given by coordinates.
-/

namespace FSat

/-- `t` is one of the two directions at a right angle to `d`. -/
def Dir.Across (d t : Dir) : Prop := t = d.ccw ∨ t = d.ccw.opp

instance (d t : Dir) : Decidable (d.Across t) := by unfold Dir.Across; infer_instance

/-- Four belts going round a 2×2 block with corner `(x, y)`, counterclockwise or clockwise. -/
def SmallLoop (T : Nat × Nat → Tile) (x y : Nat) : Prop :=
  (T (x, y) = .belt .left .down ∧ T (x, y + 1) = .belt .down .right ∧
    T (x + 1, y + 1) = .belt .right .up ∧ T (x + 1, y) = .belt .up .left) ∨
  (T (x, y) = .belt .up .right ∧ T (x + 1, y) = .belt .right .down ∧
    T (x + 1, y + 1) = .belt .down .left ∧ T (x, y + 1) = .belt .left .up)

section
variable {P : Type} (nb : P → Dir → Option P) (T : P → Tile)

/-- An underground pair with nothing on the surface in between. -/
def EmptySpan (p q : P) (d : Dir) (k : Nat) : Prop :=
  UgPair nb T p q d k ∧ ∀ i, 0 < i → i < k → ∀ r, walk nb p d i = some r → T r = .empty

/-- A splitter facing `d` with head `p` and straight belts directly behind both halves: it could move one cell back. -/
def GluedSplitter (p : P) (d : Dir) : Prop :=
  T p = .splitter d true ∧ ∃ a b, nb p d.opp = some a ∧ nb a d.ccw = some b ∧ T a = .belt d d ∧ T b = .belt d d

/-- A straight belt at `p` leading directly into an underground pair of length `k`. -/
def BeltIntoUnderground (p : P) (d : Dir) (k : Nat) : Prop :=
  T p = .belt d d ∧ ∃ q r, nb p d = some q ∧ UgPair nb T q r d k

/-- An underground pair of length `k` from `p` leading directly into a straight belt. -/
def UndergroundIntoBelt (p : P) (d : Dir) (k : Nat) : Prop :=
  ∃ q r, UgPair nb T p q d k ∧ nb q d = some r ∧ T r = .belt d d

/-- An entrance at `p` with an empty cell ahead: it could move one cell on. -/
def EmptyAfterEntrance (p : P) (d : Dir) : Prop := T p = .underground d true ∧ ∃ q, nb p d = some q ∧ T q = .empty

/-- An exit at `p` with an empty cell behind. -/
def EmptyBeforeExit (p : P) (d : Dir) : Prop := T p = .underground d false ∧ ∃ q, nb p d.opp = some q ∧ T q = .empty

/-- Two underground pairs in one line, the exit of the first directly before the entrance of the second; `k` and `m` are the
lengths, so one pair in their place would have `k + m` cells in between. -/
def MergeablePair (p : P) (d : Dir) (k m : Nat) : Prop :=
  ∃ q r s, UgPair nb T p q d k ∧ nb q d = some r ∧ UgPair nb T r s d m

/-- A belt that goes one step in `d`, one in `t` and one back, where one step in `t` would do. -/
def BeltHook (p : P) (d t : Dir) : Prop :=
  ∃ q r s, nb p d = some q ∧ nb q t = some r ∧ nb r d.opp = some s ∧
    (T p = .belt d d ∨ T p = .belt t d) ∧ T q = .belt d t ∧ T r = .belt t d.opp ∧
    (T s = .belt d.opp t ∨ T s = .belt d.opp d.opp)

/-- A belt that goes round an empty cell `a`: from `p` one step in `t`, two in `d`, one back, where two steps in `d` would do. -/
def Semicircle (p : P) (d t : Dir) : Prop :=
  ∃ a e b c f, nb p d = some a ∧ nb a d = some e ∧ nb p t = some b ∧ nb b d = some c ∧ nb c d = some f ∧ nb e t = some f ∧
    T a = .empty ∧ (T p = .belt d t ∨ T p = .belt t t) ∧ T b = .belt t d ∧ T c = .belt d d ∧ T f = .belt d t.opp ∧
    (T e = .belt t.opp t.opp ∨ T e = .belt t.opp d)

/-- A belt that comes against `d` beside the entrance `p`, makes a half turn and enters it, with the next cell empty: the entrance
could be where the belt comes from. -/
def EntranceHook (p : P) (d t : Dir) : Prop :=
  ∃ e a b c, nb p d = some e ∧ nb p d.opp = some a ∧ nb a t.opp = some b ∧ nb b d = some c ∧
    T e = .empty ∧ T p = .underground d true ∧ T a = .belt t d ∧ T b = .belt d.opp t ∧
    (T c = .belt d.opp d.opp ∨ T c = .belt t d.opp)

/-- The same for an exit at `p`, leading to a half turn. -/
def ExitHook (p : P) (d t : Dir) : Prop :=
  ∃ e a b c, nb p d = some e ∧ nb p d.opp = some a ∧ nb a t.opp = some b ∧ nb b d = some c ∧
    T e = .empty ∧ T p = .underground d.opp false ∧ T a = .belt d.opp t.opp ∧ T b = .belt t.opp d ∧
    (T c = .belt d d ∨ T c = .belt d t.opp)

/-- A belt that turns `t`, `d`, `t` around the empty cell `a`, where going on in `d` first would do. -/
def Zigzag (p : P) (d t : Dir) : Prop :=
  ∃ a b c, nb p d = some a ∧ nb p t = some b ∧ nb b d = some c ∧
    T a = .empty ∧ T p = .belt d t ∧ T b = .belt t d ∧ T c = .belt d t

/-- A belt that passes, in direction `d`, behind the near half of a splitter facing `a`, and then turns into the far half; it could
have turned into the near half. -/
def BeltAlongSplitter (p : P) (d a : Dir) : Prop :=
  ∃ q near far, nb p d = some q ∧ nb p a = some near ∧ nb q a = some far ∧
    (T p = .belt d d ∨ T p = .belt a d) ∧ T q = .belt d a ∧
    (if d = a.ccw then SplitterPair nb T near far a else SplitterPair nb T far near a)

/-- What `prevent_belt_parallel_splitter` forbids: a belt leaving `p` in direction `d`, the cell `b` beside it putting out in direction
`a` (`out` tells which halves of splitters do), and in the cell `c` next to `b` a splitter half of the given side.  It is not asked
that `b` and `c` are halves of one splitter, nor that the splitter faces `a`. -/
def BeltBesideSplitter (out : P → Dir → Prop) (p : P) (d a : Dir) : Prop :=
  ∃ q b c, nb p d = some q ∧ nb p a = some b ∧ nb b d = some c ∧
    (T p = .belt d d ∨ T p = .belt a d) ∧ out b a ∧ ∃ e, T c = .splitter e (decide (a = d.ccw))

/-- A splitter facing `d` of which one half has no input (`ent` tells which halves have one), with straight belts directly in front
of both halves: it could move one cell on. -/
def LooseSplitter (ent : P → Dir → Prop) (p : P) (d : Dir) : Prop :=
  ∃ q a b, SplitterPair nb T p q d ∧ nb p d = some a ∧ nb q d = some b ∧ T a = .belt d d ∧ T b = .belt d d ∧
    ((ent p d ∧ ¬ ent q d) ∨ (¬ ent p d ∧ ent q d))

/-- `r` is one of the cells from `p` to `k` steps ahead. -/
def OnSpan (p : P) (d : Dir) (k : Nat) (r : P) : Prop := ∃ i, i ≤ k ∧ walk nb p d i = some r

open Classical in
/-- The layout with straight belts on these cells. -/
noncomputable def fillSpan (p : P) (d : Dir) (k : Nat) (r : P) : Tile := if OnSpan nb p d k r then .belt d d else T r

/-- No splitter half points at an empty cell, or from the side or the wrong end at an underground belt. -/
def SplittersLead (In : P → Prop) : Prop :=
  ∀ s b e h, In s → T s = .splitter e h → nb s e = some b → (T b = .empty ∨ ∃ x y, T b = .underground x y) → (T b).Takes e

/-- The same belts lead into and out of the layout. -/
def SameEnds (In : P → Prop) (T' : P → Tile) : Prop :=
  ∀ a e, In a → nb a e = none → ((T' a).Emits e ↔ (T a).Emits e) ∧ ((T' a).Takes e.opp ↔ (T a).Takes e.opp)

end

/-- The point lies in the box. -/
def InBox (x0 y0 x1 y1 : Int) (x y : Int) : Prop := x0 ≤ x ∧ x ≤ x1 ∧ y0 ≤ y ∧ y ≤ y1

instance (x0 y0 x1 y1 x y : Int) : Decidable (InBox x0 y0 x1 y1 x y) := by unfold InBox; infer_instance

end FSat
