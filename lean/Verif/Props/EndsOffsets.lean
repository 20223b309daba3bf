import Verif.Model.EndsOffsets
import Verif.Props.Mirror
import Verif.Lemmas.PowerOfTwo
import Verif.Lemmas.BalancerMain
/-!
# C109: `setup_balancer_ends_with_offsets`

The rows of the inputs and outputs of a balancer are given.
-/

set_option linter.unusedSimpArgs false

namespace FSat

/-- The tiles of column `x`: belts to the right in the `count` rows from `offset` on, and nothing in the other rows. -/
def EndTiles (g : Grid) (T : Nat × Nat → Tile) (x offset count : Nat) : Prop :=
  BlockAt g.height offset count (fun y => T (x, y) = .belt .right .right) fun y => T (x, y) = .empty

/-- The colour in column `x`, in the `count` rows from `offset` on. -/
def EndColour (g : Grid) (v : Asg) (x offset count colour : Nat) : Prop :=
  ∀ y, offset ≤ y → y < offset + count → binVal (g.vals v (x, y)).colour = colour

theorem setTile_total {g : Grid} {x y : Nat} (h : g.In (x, y)) {t : Tile} (ht : t = .empty ∨ t = .belt .right .right) :
    ∃ cs, setTile g x y t = .ok cs := by
  unfold setTile Grid.getTile
  rw [if_pos (show x < g.width ∧ y < g.height from h)]
  rcases ht with rfl | rfl <;> exact ⟨_, rfl⟩

theorem joinE_both {e : Except PyErr Cnf} {l : List (Except PyErr Cnf)} {c cs : Cnf} (h1 : e = .ok c) (h2 : joinE l = .ok cs) :
    joinE (e :: l) = .ok (c ++ cs) := by
  unfold joinE at h2 ⊢
  simp only [concatE, id, h1, h2]

theorem endColumn_sem {g : Grid} (hg : g.WF) {k c : Nat} (hk : g.colours = some k) (hc : c < k) {x xc : Nat} (hx : x < g.width) (hxc : xc < g.width)
    {o m : Nat} (ho : o + m ≤ g.height) : ∃ cs, endColumn g x xc o m c = .ok cs ∧ ∀ v T, Lays g (g.vals v) T →
      (Sat v cs ↔ EndTiles g T x o m ∧ EndColour g v xc o m c) := by
  obtain ⟨c1, h1⟩ := concatE_total (f := fun y => setTile g x y .empty) (as := List.range o) fun y hy =>
    setTile_total ⟨hx, show y < g.height by rw [List.mem_range] at hy; omega⟩ (.inl rfl)
  obtain ⟨c3, h3⟩ := concatE_total (f := fun y => setTile g x y .empty) (as := List.range' (o + m) (g.height - (o + m))) fun y hy =>
    setTile_total ⟨hx, show y < g.height by rw [List.mem_range'_1] at hy; omega⟩ (.inl rfl)
  have each : ∀ y ∈ List.range' o m, ∃ cs, joinE [setTile g x y (.belt .right .right), setColour g xc y c] = .ok cs ∧
      ∀ v T, Lays g (g.vals v) T → (Sat v cs ↔ T (x, y) = .belt .right .right ∧ binVal (g.vals v (xc, y)).colour = c) := by
    intro y hy
    rw [List.mem_range'_1] at hy
    obtain ⟨a, ha⟩ := setTile_total (g := g) (x := x) (y := y) (t := .belt .right .right) ⟨hx, show y < g.height by omega⟩ (.inr rfl)
    obtain ⟨b, hb, hs⟩ := setColour_iff hg hk hc (x := xc) (y := y) ⟨hxc, show y < g.height by omega⟩
    refine ⟨a ++ (b ++ []), joinE_both ha (joinE_both hb rfl), fun v T hT => ?_⟩
    rw [Sat_append, Sat_append, setTile_sem hT ha, hs]
    simp [Tile.required]
  obtain ⟨c2, h2⟩ := concatE_total (as := List.range' o m) fun y hy => ⟨_, (each y hy).choose_spec.1⟩
  refine ⟨c1 ++ (c2 ++ (c3 ++ [])), joinE_both h1 (joinE_both h2 (joinE_both h3 rfl)), fun v T hT => ?_⟩
  rw [Sat_append, Sat_append, Sat_append, concatE_each h1 v (P := fun y => T (x, y) = .empty) fun y _ cs h => setTile_sem hT h,
    concatE_each h3 v (P := fun y => T (x, y) = .empty) fun y _ cs h => setTile_sem hT h,
    concatE_each h2 v (P := fun y => T (x, y) = .belt .right .right ∧ binVal (g.vals v (xc, y)).colour = c) fun y hy cs h => by
      obtain ⟨cs', e1, e2⟩ := each y hy
      rw [h] at e1
      cases e1
      exact e2 v T hT]
  simp only [List.mem_range, List.mem_range'_1, Sat_nil, and_true]
  constructor
  · rintro ⟨a1, a2, a3⟩
    refine ⟨⟨ho, fun y hy => ?_⟩, fun y h1 h2 => (a2 y ⟨h1, h2⟩).2⟩
    by_cases h : o ≤ y ∧ y < o + m
    · rw [if_pos h]; exact (a2 y h).1
    · rw [if_neg h]
      by_cases h' : y < o
      · exact a1 y h'
      · exact a3 y (by omega)
  · rintro ⟨⟨_, b1⟩, b2⟩
    refine ⟨fun y hy => ?_, fun y hy => ⟨?_, b2 y hy.1 hy.2⟩, fun y hy => ?_⟩
    · have := b1 y (by omega)
      rwa [if_neg (by omega)] at this
    · have := b1 y (by omega)
      rwa [if_pos hy] at this
    · have := b1 y (by omega)
      rwa [if_neg (by omega)] at this

variable {g : Grid} {net : PyDict Node Nat} {a b m n k o p : Nat}

/-- C109. What the clauses of `setup_balancer_ends_with_offsets` say: the tiles of the two end columns are as asked for, but both colours
are set in the last column, that of the inputs too. -/
theorem c109_exact_partial (hg : g.WF) (hk : g.colours = some k) (hE : Ends (elements net) a m b n) (ha : a < k) (hb : b < k)
    (ho : o + m ≤ g.height) (hp : p + n ≤ g.height) :
    ∃ cs, setupBalancerEndsWithOffsets g net o p = .ok cs ∧ ∀ v T, Lays g (g.vals v) T →
      (Sat v cs ↔ EndTiles g T 0 o m ∧ EndTiles g T (g.width - 1) p n ∧
        EndColour g v (g.width - 1) o m a ∧ EndColour g v (g.width - 1) p n b) := by
  have hw := hg.w
  obtain ⟨c1, h1, s1⟩ := endColumn_sem hg hk ha (x := 0) (xc := g.width - 1) (by omega) (by omega) ho
  obtain ⟨c2, h2, s2⟩ := endColumn_sem hg hk hb (x := g.width - 1) (xc := g.width - 1) (by omega) (by omega) hp
  refine ⟨c1 ++ (c2 ++ []), ?_, fun v T hT => ?_⟩
  · unfold setupBalancerEndsWithOffsets
    rw [(gio_iff _ _ _ _ _).2 hE]
    simp only [Int.toNat_natCast]
    rw [if_pos ⟨ho, hp⟩]
    exact joinE_both h1 (joinE_both h2 rfl)
  · rw [Sat_append, Sat_append, s1 v T hT, s2 v T hT]
    simp only [Sat_nil, and_true]
    tauto

/-- C109. Offsets that do not leave room for the inputs or outputs are reported. -/
theorem c109_no_room (hE : Ends (elements net) a m b n) (h : g.height < o + m ∨ g.height < p + n) :
    setupBalancerEndsWithOffsets g net o p = .error .assertion := by
  unfold setupBalancerEndsWithOffsets
  rw [(gio_iff _ _ _ _ _).2 hE]
  simp only [Int.toNat_natCast]
  rw [if_neg (by omega)]

/-- C109 is false: whenever an input and an output are in the same row, no assignment at all satisfies the clauses. -/
theorem c109_same_row_refuted (hg : g.WF) (hk : g.colours = some k) (hE : Ends (elements net) a m b n) (ha : a < k) (hb : b < k)
    (ho : o + m ≤ g.height) (hp : p + n ≤ g.height) {y : Nat} (h1 : o ≤ y ∧ y < o + m) (h2 : p ≤ y ∧ y < p + n) :
    ∃ ci cs, initClauses g = .ok ci ∧ setupBalancerEndsWithOffsets g net o p = .ok cs ∧ ∀ v, ¬ (Sat v ci ∧ Sat v cs) := by
  obtain ⟨ci, e1, e2⟩ := init_iff hg
  obtain ⟨cs, e3, e4⟩ := c109_exact_partial hg hk hE ha hb ho hp
  refine ⟨ci, cs, e1, e3, fun v hv => ?_⟩
  have hi := (e2 v).1 hv.1
  choose! T hT using hi.cell
  obtain ⟨-, -, a3, a4⟩ := (e4 v T hT).1 hv.2
  have hab : a = b := (a3 y h1.1 h1.2).symm.trans (a4 y h2.1 h2.2)
  subst hab
  have := hE.input
  rw [hE.output] at this
  have := hE.pos
  have := hE.neg
  omega

/-! ### A layout whose inputs have the wrong colour -/

/-- A cell of the example: whether items enter or leave the grid there, and the two directions of its belt, with colour 1. -/
def shiftCell (isIn isOut : Bool) (i o : Dir) : List Bool :=
  [true, false, false, false, false, false, isIn, isOut] ++ Dir.all.map (· == i) ++ Dir.all.map (· == o) ++ [false, false, false, false] ++
    [true, false, false]

/-- An empty cell. -/
def shiftEmpty : List Bool := [false, true]

/-- Two belts that start in the two upper rows and end in the two lower rows. -/
def shift : Asg := cellsAsg 23 [
  shiftCell true false .right .right, shiftCell false false .right .right, shiftCell false false .right .down, shiftEmpty,
  shiftCell true false .right .right, shiftCell false false .right .down, shiftCell false false .down .down, shiftEmpty,
  shiftEmpty, shiftCell false false .down .down, shiftCell false false .down .right, shiftCell false true .right .right,
  shiftEmpty, shiftCell false false .down .right, shiftCell false false .right .right, shiftCell false true .right .right]

/-- Its grid. -/
def shiftGrid : Grid := mkGrid 4 4 ⟨false, false⟩ (some 2) (some 4) .nil 0

theorem shift_solution : okB shift (basicClauses shiftGrid (.ofPair false true) (.ofBool true)) = true := by decide +kernel

theorem shift_ends : okB shift (setupBalancerEndsWithOffsets shiftGrid exOne 0 2) = true := by decide +kernel

theorem exOne_ends : Ends (elements exOne) (0 : Nat) (2 : Nat) (1 : Nat) (2 : Nat) := (gio_iff _ _ _ _ _).1 (by decide)

/-- C109 is false: the inputs need not carry the colour of the inputs of the network. -/
theorem c109_colour_refuted : ∃ (g : Grid) (net : PyDict Node Nat) (v : Asg) (c cs : Cnf), g.WF ∧
    Ends (elements net) (0 : Nat) (2 : Nat) (1 : Nat) (2 : Nat) ∧ basicClauses g (.ofPair false true) (.ofBool true) = .ok c ∧
    setupBalancerEndsWithOffsets g net 0 2 = .ok cs ∧ Sat v (c ++ cs) ∧ ¬ EndColour g v 0 0 2 0 := by
  obtain ⟨c, e1, e2⟩ := okB_iff.1 shift_solution
  obtain ⟨cs, e3, e4⟩ := okB_iff.1 shift_ends
  refine ⟨shiftGrid, exOne, shift, c, cs, mkGrid_wf (by decide) (by decide) _ _ _ (by intro n h; cases h; decide) _ _, exOne_ends, e1, e3,
    (Sat_append _ _ _).2 ⟨e2, e4⟩, fun h => ?_⟩
  have := h 0 (by omega) (by omega)
  revert this
  decide +kernel

/-- The hypotheses of the theorems are met: with inputs in the rows 0 and 1 and outputs in the rows 2 and 3 or 1 and 2, or with no room. -/
example : shiftGrid.WF ∧ shiftGrid.colours = some 2 ∧ 0 + 2 ≤ shiftGrid.height ∧ 2 + 2 ≤ shiftGrid.height ∧
    (∃ ci cs, initClauses shiftGrid = .ok ci ∧ setupBalancerEndsWithOffsets shiftGrid exOne 0 1 = .ok cs ∧ ∀ v, ¬ (Sat v ci ∧ Sat v cs)) ∧
    setupBalancerEndsWithOffsets shiftGrid exOne 3 0 = .error .assertion := by
  have hg : shiftGrid.WF := mkGrid_wf (by decide) (by decide) _ _ _ (by intro n h; cases h; decide) _ _
  exact ⟨hg, rfl, by decide, by decide, c109_same_row_refuted hg rfl exOne_ends (by decide) (by decide) (by decide) (by decide) (y := 1)
    (by decide) (by decide), c109_no_room exOne_ends (.inl (by decide))⟩

end FSat
