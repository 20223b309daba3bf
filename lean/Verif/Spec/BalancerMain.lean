import Verif.Spec.Balancer
import Verif.Spec.Optimise
import Verif.Spec.Ends
import Verif.Model.BalancerOptions
/-!
# What `belt_balancer` may print

A layout `T` on a grid of `w` columns and `h` rows, the connections `F` along its belts, and the labels `lab` of its splitters.  Nothing
here mentions clauses or assignments.
-/

namespace FSat

section
variable {P : Type} (In : P → Prop) (nb : P → Dir → Option P) (T : P → Tile) (F : Flow P)

/-- The connections fit the tiles: what leaves a cell arrives at the next one; tiles other than splitters use all their ends, halves of
splitters at least one; nothing else is connected. -/
structure FlowFits : Prop where
  same : ∀ p q d, In p → nb p d = some q → F.out p d = F.inp q d
  takes : ∀ p d, In p → F.inp p d = true → (T p).Takes d
  emits : ∀ p d, In p → F.out p d = true → (T p).Emits d
  inp : ∀ p d, In p → ¬ (T p).IsSplitter → (T p).Takes d → F.inp p d = true
  out : ∀ p d, In p → ¬ (T p).IsSplitter → (T p).Emits d → F.out p d = true
  half : ∀ p d h, In p → T p = .splitter d h → F.inp p d = true ∨ F.out p d = true

/-- Something comes into the cell from outside of the grid. -/
def Flow.comesIn (p : P) : Bool := [Dir.right, .up, .left, .down].any fun d => F.inp p d && (nb p d.opp).isNone

/-- Something leaves the grid from the cell. -/
def Flow.goesOut (p : P) : Bool := [Dir.right, .up, .left, .down].any fun d => F.out p d && (nb p d).isNone

/-- The colour is one of those of the node. -/
def Node.HasColour (k : Node) (c : Int) : Prop := some c ∈ [k.1.1, k.1.2, k.2.1, k.2.2]

/-- The layout implements the network: its belts have colours of the network, the same all along, its splitters are those of the
network, connected as it says, and as many belts come in and go out, in the colours of the network's inputs and outputs, as the network
has. -/
structure Implements (cells : List P) (n : Network) (lab : P → Option Node) : Prop where
  fits : FlowFits In nb T F
  colours : ∀ p, In p → T p ≠ .empty → ∃ k ∈ n, k.HasColour (F.col p)
  surface : ∀ p q d, In p → nb p d = some q → (T p).Emits d → ¬ (T p).IsSplitter → F.col p = F.col q
  under : ∀ p q d k, In p → UgPair nb T p q d k → F.col p = F.col q
  realises : Realises nb T F cells n lab
  ends : ∃ a i b o, Ends n a i b o ∧ (cells.countP (F.comesIn nb) : Int) = i ∧ (cells.countP (F.goesOut nb) : Int) = o ∧
    (∀ p, In p → F.comesIn nb p = true → (F.col p : Int) = a) ∧ (∀ p, In p → F.goesOut nb p = true → (F.col p : Int) = b)

end

section
variable (T : Nat × Nat → Tile) (F : Flow (Nat × Nat)) (lab : Nat × Nat → Option Node)

/-- What `--edge-splitters` asks of the splitters that satisfy `hits`, for the column `x`: all of them are there and face right, if
nothing is fed back; otherwise all but as many as are fed back are there. -/
def AtEdge (cells : List (Nat × Nat)) (n : Network) (hits : Node → Bool) (back x : Nat) : Prop :=
  if back = 0 then ∀ p ∈ cells, ∀ k, lab p = some k → hits k = true → p.1 = x ∧ T p = .splitter .right true
  else n.countP hits ≤ cells.countP (fun p => p.1 == x && (lab p).any hits) + back

/-- `--edge-splitters`: the splitters both of whose inputs are of the input colour are in the second column, and those both of whose
outputs are of the output colour in the last but one. -/
def EdgeSplitters (w : Nat) (cells : List (Nat × Nat)) (n : Network) : Prop :=
  ∀ a i b o, Ends n a i b o →
    AtEdge T lab cells n (fun k => k.1 == (some a, some a)) ((outsOf n).count (some a)) 1 ∧
    AtEdge T lab cells n (fun k => k.2 == (some b, some b)) ((insOf n).count (some b)) (w - 2)

/-- `m` neighbouring tiles of a line take items in direction `d`, from tile `a` on; the others are empty, or, with `useEnds`, belts that
do not.  A block shorter than the line never reaches its last tile. -/
def EntryBlock (line : Nat → Nat × Nat) (len : Nat) (d : Dir) (m : Nat) (useEnds : Bool) (a : Nat) : Prop :=
  if m = len then a = 0 ∧ ∀ y < len, F.inp (line y) d = true
  else a + m < len ∧ BlockAt len a m (fun y => ∃ o, T (line y) = .belt d o)
    (fun y => if useEnds then ∃ i o, T (line y) = .belt i o ∧ i ≠ d else T (line y) = .empty)

/-- `n` neighbouring tiles of a line put out items in direction `d`, from tile `b` on. -/
def ExitBlock (line : Nat → Nat × Nat) (len : Nat) (d : Dir) (n : Nat) (useEnds : Bool) (b : Nat) : Prop :=
  if n = len then b = 0 ∧ ∀ y < len, ∃ i, T (line y) = .belt i d
  else b + n < len ∧ BlockAt len b n (fun y => ∃ i, T (line y) = .belt i d)
    (fun y => if useEnds then F.out (line y) d = false else T (line y) = .empty)

/-- Where `m` inputs and `n` outputs are, by `--90`, `--180`, `--custom`, `--aligned` and `--use-ends`. -/
def EndsPlaced (w h : Nat) (o : BalancerOptions) (m n : Nat) : Prop :=
  if o.turn90 then ∃ i j, EntryBlock T F (fun y => (0, y)) h .right m o.useEnds i ∧
    ExitBlock T F (fun x => (x, h - 1)) w .down n o.useEnds j
  else if o.turn180 then ∃ i j, EntryBlock T F (fun y => (0, y)) h .right m true i ∧ ExitBlock T F (fun y => (0, y)) h .left n true j
  else if o.custom then True
  else ∃ i j, EntryBlock T F (fun y => (0, y)) h .right m o.useEnds i ∧
    ExitBlock T F (fun y => (w - 1, y)) h .right n o.useEnds j ∧ (o.aligned = true → RowsNested i m j n)

/-- `--expand-underground`: between the first and the last column no underground belt could be longer, where it replaces a straight
belt before or behind it. -/
def Expanded (nb : Nat × Nat → Dir → Option (Nat × Nat)) (In : Nat × Nat → Prop) (w h : Nat) : Option Nat → Prop
  | some L => ∀ (p : Nat × Nat) (d : Dir) (k : Nat), In p → InBox 1 0 (w - 2) (h - 1) p.1 p.2 →
      InBox 1 0 (w - 2) (h - 1) (p.1 + d.dx * (k + 1)) (p.2 + d.dy * (k + 1)) → k ≤ L →
      ¬ BeltIntoUnderground nb T p d k ∧ ¬ UndergroundIntoBelt nb T p d k
  | none => ∀ (p q : Nat × Nat) (d : Dir), In p → nb p d = some q → InBox 1 0 (w - 2) (h - 1) p.1 p.2 →
      InBox 1 0 (w - 2) (h - 1) (p.1 + d.dx) (p.2 + d.dy) →
      ¬ (T p = .belt d d ∧ T q = .underground d true) ∧ ¬ (T p = .underground d false ∧ T q = .belt d d)

/-- A tile of a partial layout; a filler stands for nothing. -/
def Tile.required : Tile → Tile
  | .filler => .empty
  | t => t

/-- The tiles of the partial layout that are not empty are there. -/
def Contains (rows : List (List Tile)) : Prop :=
  ∀ x y row t, rows[y]? = some row → row[x]? = some t → t ≠ .empty → T (x, y) = t.required

/-- What the options ask for, apart from `--break-symmetry`. -/
structure MeetsOptions (nb : Nat × Nat → Dir → Option (Nat × Nat)) (In : Nat × Nat → Prop) (cells : List (Nat × Nat)) (w h : Nat)
    (ugLen : Option Nat) (n : Network) (o : BalancerOptions) : Prop where
  edgeSplitters : o.edgeSplitters = true ∨ o.fast = true → EdgeSplitters T lab w cells n
  edgeBelts : o.edgeBelts = true → ∀ x y, x = 1 ∨ x = max (w - 2) 1 → y + 1 < h →
    ¬ (T (x, y) = .belt .right .right ∧ T (x, y + 1) = .belt .right .right)
  glued : o.glueSplitters = true ∨ o.fast = true → ∀ p d, In p → ¬ (d = .right ∧ (p.1 = 1 ∨ p.1 + 2 = w)) → ¬ GluedSplitter nb T p d
  loose : o.glueSplitters = true ∨ o.fast = true → ∀ p d, In p → (p.1 : Int) ≤ w - 2 → (p.1 : Int) + d.ccw.dx + d.dx ≤ w - 2 →
    ¬ LooseSplitter nb T (fun q e => F.inp q e = true) p d
  expanded : o.expandUnderground = true ∨ o.fast = true → Expanded T nb In w h ugLen
  mergeable : o.preventMergeable = true ∨ o.fast = true →
    ∀ p d k m, In p → (∀ L, ugLen = some L → k + m ≤ L) → ¬ MergeablePair nb T p d k m
  loops : o.preventBadPatterns = true ∨ o.fast = true → ∀ x y, x + 1 < w → y + 1 < h → ¬ SmallLoop T x y
  patterns : o.preventBadPatterns = true ∨ o.fast = true → ∀ p d t, In p → d.Across t →
    ¬ BeltHook nb T p d t ∧ ¬ Semicircle nb T p d t ∧ ¬ EntranceHook nb T p d t ∧ ¬ ExitHook nb T p d t ∧ ¬ Zigzag nb T p d t ∧
    ¬ BeltBesideSplitter nb T (fun q e => F.out q e = true) p d t
  spans : ∀ p q d k, In p → ¬ EmptySpan nb T p q d k
  layout : ∀ rows, o.partialLayout = some rows → Contains T rows
  ends : ∀ a i b k, Ends n a i b k → EndsPlaced T F w h o i.toNat k.toNat

end

/-- What `belt_balancer` may print: a layout that obeys the rules of the game, implements the network, and meets the options. -/
def BalancerLayout (nb : Nat × Nat → Dir → Option (Nat × Nat)) (In : Nat × Nat → Prop) (cells : List (Nat × Nat))
    (shut : Nat × Nat → Dir → Prop) (w h : Nat) (ugLen : Option Nat) (n : Network) (o : BalancerOptions) (T : Nat × Nat → Tile) : Prop :=
  BasicRules In nb T (fun _ _ => False) shut ugLen ∧
    ∃ F lab, Implements In nb T F cells n lab ∧ MeetsOptions T F lab nb In cells w h ugLen n o

/-- Options that the program calls mutually exclusive. -/
def BalancerOptions.Contradictory (o : BalancerOptions) : Prop :=
  (o.edgeSplitters ∧ o.edgeBelts) ∨ (o.aligned ∧ o.turn90) ∨ (o.aligned ∧ o.turn180) ∨ (o.aligned ∧ o.custom) ∨ (o.turn90 ∧ o.turn180) ∨
    (o.turn90 ∧ o.custom) ∨ (o.turn180 ∧ o.custom) ∨ (o.breakSymmetry ∧ o.turn90)

end FSat
