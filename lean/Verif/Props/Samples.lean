import Verif.Lemmas.OptimiseClauses
import Verif.Props.Solver
/-!
# Concrete layouts for the examples of C11, C59 and C60
-/

namespace FSat

/-- The assignment satisfies the clauses that every application has (the grid's own, no crossing belts, complete undergrounds) and
decodes to the layout `T`. -/
structure Solved (g : Grid) (v : Asg) (T : Nat × Nat → Tile) : Prop where
  wf : g.WF
  init : ∃ cs, initClauses g = .ok cs ∧ Sat v cs
  inter : Sat v (preventIntersection g)
  under : Sat v (preventBadUndergrounding g)
  decodes : Decodes g v T

theorem Solved.base {g : Grid} {v : Asg} {T : Nat × Nat → Tile} (h : Solved g v T) : Base g v T := by
  obtain ⟨cs, hc, hs⟩ := h.init
  have hi := sem_of_sat h.wf hc hs
  exact ⟨h.wf, lays_of_decodes hi h.decodes, (Sat_intersection g v).1 h.inter, (Sat_underground g v).1 h.under, hi.splitter⟩

/-- A grid with an assignment and the layout it decodes to, for the examples. -/
structure Sample where
  grid : Grid
  asg : Asg
  layout : Nat × Nat → Tile

/-- Everything `Solved` asks for except well-formedness. -/
def Sample.check (s : Sample) : Bool :=
  okSat s.asg (initClauses s.grid) && decide (Sat s.asg (preventIntersection s.grid)) &&
  decide (Sat s.asg (preventBadUndergrounding s.grid)) &&
  s.grid.cells.all fun p => match decodeCell s.grid s.asg p with
    | .ok t => decide (t = s.layout p)
    | .error _ => false

def Sample.Solved (s : Sample) : Prop := FSat.Solved s.grid s.asg s.layout

theorem Sample.solved {s : Sample} {w h : Nat} {L : Option Nat} (hw : 0 < w) (hh : 0 < h)
    (hg : s.grid = mkGrid w h ⟨false, false⟩ none L .nil 0) (hc : s.check = true) : s.Solved := by
  simp only [check, Bool.and_eq_true, decide_eq_true_eq, List.all_eq_true] at hc
  obtain ⟨⟨⟨h1, h2⟩, h3⟩, h4⟩ := hc
  refine ⟨hg ▸ mkGrid_wf hw hh _ _ _ (by intro n h; cases h) _ _, okSat_iff.1 h1, h2, h3, fun p hp => ?_⟩
  have := h4 p ((s.grid.mem_cells p).2 hp)
  revert this
  cases decodeCell s.grid s.asg p with
  | error e => intro h; cases h
  | ok t => intro h; rw [of_decide_eq_true h]

/-! ### Samples -/

/-- A loop of four belts. -/
def loopSample : Sample where
  grid := mkGrid 2 2 ⟨false, false⟩ none (some 4) .nil 0
  asg := fun x => [1, 10, 13, 21, 29, 36, 41, 51, 54, 61, 72, 75].contains x
  layout := fun p => match p with
    | (0, 0) => .belt .up .right
    | (0, 1) => .belt .left .up
    | (1, 0) => .belt .right .down
    | (1, 1) => .belt .down .left
    | _ => .empty

/-- An underground pair with one empty cell in between. -/
def spanSample : Sample where
  grid := mkGrid 3 1 ⟨false, false⟩ none (some 4) .nil 0
  asg := fun x => [4, 7, 9, 22, 37, 45, 48, 53].contains x
  layout := fun p => match p with
    | (0, 0) => .underground .right true
    | (2, 0) => .underground .right false
    | _ => .empty

/-- A splitter facing down with straight belts behind both halves. -/
def glueSample : Sample where
  grid := mkGrid 2 2 ⟨false, false⟩ none (some 4) .nil 0
  asg := fun x => [1, 7, 12, 16, 21, 27, 32, 36, 43, 46, 48, 52, 56, 63, 68, 72, 76].contains x
  layout := fun p => match p with
    | (0, 0) => .belt .down .down
    | (0, 1) => .splitter .down true
    | (1, 0) => .belt .down .down
    | (1, 1) => .splitter .down false
    | _ => .empty

/-- A belt that goes up, right and down again. -/
def hookSample : Sample where
  grid := mkGrid 2 2 ⟨false, false⟩ none (some 4) .nil 0
  asg := fun x => [1, 10, 13, 21, 29, 36, 41, 47, 50, 54, 61, 68, 72, 76].contains x
  layout := fun p => match p with
    | (0, 0) => .belt .up .right
    | (0, 1) => .belt .up .up
    | (1, 0) => .belt .right .down
    | (1, 1) => .belt .down .down
    | _ => .empty

/-- A belt round an empty cell. -/
def semiSample : Sample where
  grid := mkGrid 3 2 ⟨false, false⟩ none (some 4) .nil 0
  asg := fun x => [1, 7, 9, 16, 22, 41, 48, 50, 53, 61, 72, 73, 81, 89, 93, 101, 109, 114].contains x
  layout := fun p => match p with
    | (0, 0) => .belt .right .down
    | (0, 1) => .belt .down .right
    | (1, 1) => .belt .right .right
    | (2, 0) => .belt .up .right
    | (2, 1) => .belt .right .up
    | _ => .empty

/-- A belt that makes a half turn into an underground entrance. -/
def entSample : Sample where
  grid := mkGrid 4 2 ⟨false, false⟩ none (some 4) .nil 0
  asg := fun x => [1, 10, 13, 24, 29, 42, 57, 65, 68, 73, 81, 91, 94, 101, 111, 115, 121, 131, 135, 141, 147, 151, 155].contains x
  layout := fun p => match p with
    | (0, 0) => .belt .up .right
    | (0, 1) => .belt .left .up
    | (1, 0) => .underground .right true
    | (1, 1) => .belt .left .left
    | (2, 1) => .belt .left .left
    | (3, 0) => .underground .right false
    | (3, 1) => .belt .left .left
    | _ => .empty

/-- An underground exit that leads into a half turn. -/
def exitSample : Sample where
  grid := mkGrid 4 2 ⟨false, false⟩ none (some 4) .nil 0
  asg := fun x => [1, 11, 16, 25, 35, 42, 59, 64, 67, 71, 81, 92, 93, 101, 109, 113, 121, 129, 133, 141, 148, 149, 153].contains x
  layout := fun p => match p with
    | (0, 0) => .belt .left .down
    | (0, 1) => .belt .down .right
    | (1, 0) => .underground .left false
    | (1, 1) => .belt .right .right
    | (2, 1) => .belt .right .right
    | (3, 0) => .underground .left true
    | (3, 1) => .belt .right .right
    | _ => .empty

/-- A belt that turns down, right, down. -/
def zigSample : Sample where
  grid := mkGrid 2 2 ⟨false, false⟩ none (some 4) .nil 0
  asg := fun x => [1, 7, 9, 16, 22, 41, 52, 53, 61, 68, 69, 76].contains x
  layout := fun p => match p with
    | (0, 0) => .belt .right .down
    | (0, 1) => .belt .down .right
    | (1, 1) => .belt .right .down
    | _ => .empty

/-- A straight belt before an underground pair. -/
def beltUgSample : Sample where
  grid := mkGrid 4 1 ⟨false, false⟩ none (some 4) .nil 0
  asg := fun x => [1, 7, 9, 13, 24, 29, 42, 57, 65, 68, 73].contains x
  layout := fun p => match p with
    | (0, 0) => .belt .right .right
    | (1, 0) => .underground .right true
    | (3, 0) => .underground .right false
    | _ => .empty

/-- The same without a limit on the length. -/
def beltUgFreeSample : Sample where
  grid := mkGrid 4 1 ⟨false, false⟩ none (none) .nil 0
  asg := fun x => [1, 7, 9, 13, 24, 29, 42, 57, 65, 68, 73].contains x
  layout := fun p => match p with
    | (0, 0) => .belt .right .right
    | (1, 0) => .underground .right true
    | (3, 0) => .underground .right false
    | _ => .empty

/-- Two underground pairs in one line. -/
def mergeSample : Sample where
  grid := mkGrid 6 1 ⟨false, false⟩ none (some 4) .nil 0
  asg := fun x => [4, 7, 9, 22, 37, 45, 53, 64, 69, 82, 97, 105, 108, 113].contains x
  layout := fun p => match p with
    | (0, 0) => .underground .right true
    | (2, 0) => .underground .right false
    | (3, 0) => .underground .right true
    | (5, 0) => .underground .right false
    | _ => .empty

/-- A splitter without input in one half and straight belts in front. -/
def looseSample : Sample where
  grid := mkGrid 3 2 ⟨false, false⟩ none (some 4) .nil 0
  asg := fun x => [3, 13, 21, 29, 33, 41, 48, 49, 53, 63, 66, 67, 69, 73, 81, 89, 93, 101, 108, 109, 113].contains x
  layout := fun p => match p with
    | (0, 0) => .splitter .right false
    | (0, 1) => .splitter .right true
    | (1, 0) => .belt .right .right
    | (1, 1) => .belt .right .right
    | (2, 0) => .belt .right .right
    | (2, 1) => .belt .right .right
    | _ => .empty

/-- A belt that passes the near half of a splitter and turns into the far half. -/
def alongSample : Sample where
  grid := mkGrid 2 2 ⟨false, false⟩ none (some 4) .nil 0
  asg := fun x => [1, 10, 13, 23, 28, 29, 33, 41, 47, 50, 54, 63, 66, 68, 73].contains x
  layout := fun p => match p with
    | (0, 0) => .belt .up .right
    | (0, 1) => .belt .up .up
    | (1, 0) => .splitter .right false
    | (1, 1) => .splitter .right true
    | _ => .empty

/-- No belt turns into a splitter here. -/
def besideSample : Sample where
  grid := mkGrid 4 4 ⟨false, false⟩ none (some 4) .nil 0
  asg := fun x => [2, 25, 28, 34, 42, 62, 81, 88, 91, 95, 101, 111, 115, 118, 123, 126, 131, 135, 141, 147, 151, 155, 162, 184, 190, 203,
    211, 221, 227, 231, 235, 242, 261, 267, 270, 274, 281, 287, 290, 293, 301, 308, 309, 313].contains x
  layout := fun p => match p with
    | (0, 1) => .belt .left .left
    | (1, 0) => .underground .up false
    | (1, 1) => .belt .left .left
    | (1, 2) => .underground .up true
    | (1, 3) => .belt .up .up
    | (2, 1) => .splitter .left true
    | (2, 2) => .splitter .left false
    | (2, 3) => .belt .up .right
    | (3, 1) => .belt .left .left
    | (3, 2) => .belt .left .left
    | (3, 3) => .belt .right .right
    | _ => .empty

/-- A splitter, and belts, without any of the patterns. -/
def cleanSample : Sample where
  grid := mkGrid 3 3 ⟨false, false⟩ none (some 4) .nil 0
  asg := fun x => [1, 7, 9, 13, 23, 29, 33, 41, 48, 49, 54, 61, 70, 73, 83, 86, 89, 93, 101, 108, 109, 113, 121, 127, 130, 134, 142, 162].contains x
  layout := fun p => match p with
    | (0, 0) => .belt .right .right
    | (0, 1) => .belt .up .right
    | (0, 2) => .belt .up .up
    | (1, 0) => .splitter .right false
    | (1, 1) => .splitter .right true
    | (2, 0) => .belt .right .up
    | (2, 1) => .belt .right .right
    | _ => .empty

/-- A splitter whose tail points from the side at the entrance of an underground pair over an empty cell. -/
def sideSample : Sample where
  grid := mkGrid 4 2 ⟨false, false⟩ none (some 4) .nil 0
  asg := fun x => [3, 6, 7, 12, 16, 23, 27, 32, 42, 62, 81, 92, 93, 104, 109, 122, 137, 145, 148, 153].contains x
  layout := fun p => match p with
    | (0, 0) => .splitter .down true
    | (0, 1) => .belt .down .right
    | (1, 0) => .splitter .down false
    | (1, 1) => .underground .right true
    | (3, 1) => .underground .right false
    | _ => .empty

theorem loopSample_solved : loopSample.Solved := Sample.solved (by decide) (by decide) rfl (by decide +kernel)
theorem spanSample_solved : spanSample.Solved := Sample.solved (by decide) (by decide) rfl (by decide +kernel)
theorem glueSample_solved : glueSample.Solved := Sample.solved (by decide) (by decide) rfl (by decide +kernel)
theorem hookSample_solved : hookSample.Solved := Sample.solved (by decide) (by decide) rfl (by decide +kernel)
theorem semiSample_solved : semiSample.Solved := Sample.solved (by decide) (by decide) rfl (by decide +kernel)
theorem entSample_solved : entSample.Solved := Sample.solved (by decide) (by decide) rfl (by decide +kernel)
theorem exitSample_solved : exitSample.Solved := Sample.solved (by decide) (by decide) rfl (by decide +kernel)
theorem zigSample_solved : zigSample.Solved := Sample.solved (by decide) (by decide) rfl (by decide +kernel)
theorem beltUgSample_solved : beltUgSample.Solved := Sample.solved (by decide) (by decide) rfl (by decide +kernel)
theorem beltUgFreeSample_solved : beltUgFreeSample.Solved := Sample.solved (by decide) (by decide) rfl (by decide +kernel)
theorem mergeSample_solved : mergeSample.Solved := Sample.solved (by decide) (by decide) rfl (by decide +kernel)
theorem looseSample_solved : looseSample.Solved := Sample.solved (by decide) (by decide) rfl (by decide +kernel)
theorem alongSample_solved : alongSample.Solved := Sample.solved (by decide) (by decide) rfl (by decide +kernel)
theorem besideSample_solved : besideSample.Solved := Sample.solved (by decide) (by decide) rfl (by decide +kernel)
theorem cleanSample_solved : cleanSample.Solved := Sample.solved (by decide) (by decide) rfl (by decide +kernel)
theorem sideSample_solved : sideSample.Solved := Sample.solved (by decide) (by decide) rfl (by decide +kernel)

end FSat
