import Verif.Spec.Loop
/-!
# The network of a layout

Which splitters of a layout are connected, and by which colours `parse_network` names the connections.
-/

namespace FSat

/-- Neighbours within an array of tiles. -/
def Arr.nb (a : Arr Tile) (p : Int × Int) (d : Dir) : Option (Int × Int) :=
  (planeNb p d).filter fun q => decide (0 ≤ q.1 ∧ q.1 < a.cols ∧ 0 ≤ q.2 ∧ q.2 < a.rows)

/-- The cells of an array. -/
def Arr.In (a : Arr Tile) (p : Int × Int) : Prop := 0 ≤ p.1 ∧ p.1 < a.cols ∧ 0 ≤ p.2 ∧ p.2 < a.rows

section
variable {P : Type} (In : P → Prop) (nb : P → Dir → Option P) (T : P → Tile)

/-- The rules a layout has to obey: only belts, underground belts and splitters, splitter halves and underground ends in pairs, and what
belts and underground ends pass on is taken and the other way round. -/
structure SoundLayout : Prop where
  basic : ∀ p, In p → (T p).Basic
  splitters : PairedSplitters In nb T
  joined : Joined In nb T
  undergrounds : PairedUndergrounds In nb T none

/-- Items that leave the cell `p` can come to the cell `q` without going through a splitter in between. -/
inductive Reaches (p : P) : P → Prop
  | step {q : P} : Follows nb T p q → Reaches p q
  | on {q r : P} : Reaches p q → ¬ (T q).IsSplitter → Follows nb T q r → Reaches p r

/-- The cell `p` is one half of the splitter with head `h`. -/
def HalfOf (h p : P) : Prop := ∃ q d, SplitterPair nb T h q d ∧ (p = h ∨ p = q)

/-- Something is connected to the splitter half `p`, facing `d`, from behind.  If `edges`, a half at the edge counts as connected. -/
def FedFrom (edges : Bool) (p : P) (d : Dir) : Prop := (∃ q, In q ∧ Connected nb T q p d) ∨ (edges = true ∧ nb p d.opp = none)

/-- The splitter half `p`, facing `d`, is connected to something in front of it. -/
def DrainsTo (edges : Bool) (p : P) (d : Dir) : Prop := (∃ q, Connected nb T p q d) ∨ (edges = true ∧ nb p d = none)

/-- The colour of the input of the splitter half `p`, given the heads of all splitters in order: none if nothing is connected, that of
the splitter it comes from, counted from one, or zero if it comes from no splitter. -/
structure InputColour (edges : Bool) (heads : List P) (p : P) (d : Dir) (c : Option Int) : Prop where
  none : c = none ↔ ¬ FedFrom In nb T edges p d
  outside : c = some 0 ↔ FedFrom In nb T edges p d ∧ ∀ h r, h ∈ heads → HalfOf nb T h r → ¬ Reaches nb T r p
  splitter : ∀ i : Nat, c = some ((i : Int) + 1) ↔ ∃ h r, heads[i]? = some h ∧ HalfOf nb T h r ∧ Reaches nb T r p

/-- The colour of the output of the splitter half `p` of the splitter number `i`: none if it is not connected, the number of the splitter,
counted from one, if it leads to a splitter, or the number after that of the last splitter if it leads to none. -/
structure OutputColour (edges : Bool) (heads : List P) (i : Nat) (p : P) (d : Dir) (c : Option Int) : Prop where
  none : c = none ↔ ¬ DrainsTo nb T edges p d
  inner : c = some ((i : Int) + 1) ↔ ∃ h r, h ∈ heads ∧ HalfOf nb T h r ∧ Reaches nb T p r
  outside : c = some ((heads.length : Int) + 1) ↔
    DrainsTo nb T edges p d ∧ ∀ h r, h ∈ heads → HalfOf nb T h r → ¬ Reaches nb T p r

end

/-- The network has a node for each of the splitters, in the order of the list, with the colours of its ends. -/
structure NetworkOf {P : Type} (In : P → Prop) (nb : P → Dir → Option P) (T : P → Tile) (edges : Bool) (heads : List P)
    (n : List ((Option Int × Option Int) × (Option Int × Option Int))) : Prop where
  length : n.length = heads.length
  inputs : ∀ (i : Nat) (h : P) (nd : (Option Int × Option Int) × (Option Int × Option Int)), heads[i]? = some h → n[i]? = some nd →
    ∀ q d, SplitterPair nb T h q d → InputColour In nb T edges heads h d nd.1.1 ∧ InputColour In nb T edges heads q d nd.1.2
  outputs : ∀ (i : Nat) (h : P) (nd : (Option Int × Option Int) × (Option Int × Option Int)), heads[i]? = some h → n[i]? = some nd →
    ∀ q d, SplitterPair nb T h q d → OutputColour nb T edges heads i h d nd.2.1 ∧ OutputColour nb T edges heads i q d nd.2.2

end FSat
