import Verif.Lemmas.Stringifier
/-!
# Text grids (C43)
-/

namespace FSat

/-- C43. Every grid with at least one cell is drawn; the text has two lines more than the grid has rows, each of `2 * cols + 1` characters. -/
theorem c43_text (a : Arr Tile) (hr : 0 < a.rows) (hc : 0 < a.cols) :
    ∃ text lines, encodeGrid a = .ok text ∧ LinesOf text lines ∧ lines.length = a.rows + 2 ∧ ∀ l ∈ lines, l.length = 2 * a.cols + 1 := by
  refine ⟨List.intercalate ['\n'] (gridLines a), gridLines a, ?_, gridLines_linesOf a, gridLines_length a, ?_⟩
  · unfold encodeGrid
    rw [if_neg (by omega)]
  · intro l hl
    unfold gridLines at hl
    simp only [List.mem_map] at hl
    obtain ⟨i, -, rfl⟩ := hl
    simp

/-- C43. Reading the lines of the text of a grid gives back the grid, whatever its size, if every tile is a belt, an underground end, a
splitter half, empty or filled. -/
theorem c43_roundtrip (a : Arr Tile) (text : List Char) (lines : List (List Char)) (h : ∀ y x, (a.get y x).Drawable)
    (he : encodeGrid a = .ok text) (hl : LinesOf text lines) : decodeGrid lines = .ok (a.map some) := by
  unfold encodeGrid at he
  split at he
  · cases he
  · cases he
    rw [linesOf_unique hl (gridLines_linesOf a)]
    exact decodeGrid_gridLines a (by omega) h

/-- C43. Different grids have different texts. -/
theorem c43_injective (a b : Arr Tile) (text : List Char) (ha : ∀ y x, (a.get y x).Drawable) (hb : ∀ y x, (b.get y x).Drawable)
    (h1 : encodeGrid a = .ok text) (h2 : encodeGrid b = .ok text) : a = b := by
  have hl : ∃ lines, LinesOf text lines := by
    unfold encodeGrid at h1
    split at h1
    · cases h1
    · cases h1
      exact ⟨_, gridLines_linesOf a⟩
  obtain ⟨lines, hl⟩ := hl
  have e := (c43_roundtrip a text lines ha h1 hl).symm.trans (c43_roundtrip b text lines hb h2 hl)
  simp only [Except.ok.injEq] at e
  obtain ⟨r, c, f⟩ := a
  obtain ⟨r', c', g⟩ := b
  simp only [Arr.map, Arr.mk.injEq] at e
  obtain ⟨rfl, rfl, e⟩ := e
  congr 1
  funext i j
  have := congrFun (congrFun (eq_of_heq e) i) j
  exact Option.some.inj this

/-- C43. A grid with an inserter or an assembling machine is drawn with the character `U`, and the text is rejected when it is read: it never
comes back as a different grid. -/
theorem c43_rejected (a : Arr Tile) (text : List Char) (lines : List (List Char)) (h : ∃ y x, ¬ (a.get y x).Drawable)
    (he : encodeGrid a = .ok text) (hl : LinesOf text lines) : decodeGrid lines = .error .keyError := by
  unfold encodeGrid at he
  split at he
  · cases he
  · cases he
    rw [linesOf_unique hl (gridLines_linesOf a)]
    exact decodeGrid_undrawable a h

/-- C43. The decoding command, fed with what the encoding command printed for any sequence of grids, one after the other with nothing in
between, prints the same sequence of grids. -/
theorem c43_stream (grids : List (Arr Tile)) (texts : List (List Char)) (h : ∀ a ∈ grids, ∀ y x, (a.get y x).Drawable)
    (he : List.Forall₂ (fun a text => encodeGrid a = .ok text) grids texts) :
    decodeInput (grids.length + 1) (readLines (texts.flatMap fun t => t ++ ['\n'])) = grids.map fun a => a.map some := by
  induction he with
  | nil => rfl
  | @cons a text grids texts e1 e2 ih =>
    unfold encodeGrid at e1
    split at e1
    · cases e1
    · cases e1
      simp only [List.flatMap_cons, List.length_cons]
      rw [List.append_assoc, List.singleton_append, readLines_intercalate _ (gridLines_newline a) (gridLines_linesOf a).nonempty, decodeInput,
        nextGrid_grid a (by omega)]
      simp only
      rw [decodeGrid_gridLines a (by omega) (h a (by simp))]
      simp only [List.map_cons]
      rw [ih fun b hb => h b (List.mem_cons_of_mem _ hb)]

/-- A 2×3 grid with a turn, an underground pair, a splitter half and filled and empty cells. -/
def sampleGrid : Arr Tile := ⟨2, 3, fun y x => match y.val, x.val with
  | 0, 0 => .belt .right .down
  | 0, 1 => .underground .up true
  | 0, 2 => .filler
  | 1, 0 => .splitter .left false
  | 1, 1 => .empty
  | _, _ => .belt .left .left⟩

theorem sampleGrid_drawable : ∀ y x, (sampleGrid.get y x).Drawable := by
  show ∀ y : Fin 2, ∀ x : Fin 3, (sampleGrid.get y x).Drawable
  intro y x
  match y, x with
  | ⟨0, _⟩, ⟨0, _⟩ => exact (show Dir.right.reverse ≠ Dir.down by decide)
  | ⟨0, _⟩, ⟨1, _⟩ => exact trivial
  | ⟨0, _⟩, ⟨2, _⟩ => exact trivial
  | ⟨1, _⟩, ⟨0, _⟩ => exact trivial
  | ⟨1, _⟩, ⟨1, _⟩ => exact trivial
  | ⟨1, _⟩, ⟨2, _⟩ => exact (show Dir.left.reverse ≠ Dir.left by decide)

/-- The text of the sample. -/
example : encodeGrid sampleGrid = .ok ['┌', '─', '─', '─', '─', '─', '┐', '\n', '│', 'f', ' ', 'i', ' ', 'X', '│', '\n',
    '│', 'A', ' ', ' ', ' ', '←', '│', '\n', '└', '─', '─', '─', '─', '─', '┘'] := by decide +kernel

example : ∃ text lines, encodeGrid sampleGrid = .ok text ∧ LinesOf text lines ∧ decodeGrid lines = .ok (sampleGrid.map some) := by
  obtain ⟨text, lines, h1, h2, -⟩ := c43_text sampleGrid (by decide) (by decide)
  exact ⟨text, lines, h1, h2, c43_roundtrip _ _ _ sampleGrid_drawable h1 h2⟩

/-- A grid with an inserter. -/
example : ∃ y x, ¬ ((⟨1, 1, fun _ _ => .inserter .up 0⟩ : Arr Tile).get y x).Drawable := ⟨⟨0, by decide⟩, ⟨0, by decide⟩, id⟩

/-- Two grids in a row. -/
example : ∃ text, List.Forall₂ (fun a text => encodeGrid a = .ok text) [sampleGrid, sampleGrid] [text, text] ∧
    decodeInput 3 (readLines ([text, text].flatMap fun t => t ++ ['\n'])) = [sampleGrid.map some, sampleGrid.map some] := by
  obtain ⟨text, lines, h1, -⟩ := c43_text sampleGrid (by decide) (by decide)
  have h : List.Forall₂ (fun a text => encodeGrid a = .ok text) [sampleGrid, sampleGrid] [text, text] := .cons h1 (.cons h1 .nil)
  refine ⟨text, h, c43_stream _ _ ?_ h⟩
  intro a ha
  simp only [List.mem_cons, List.not_mem_nil, or_false, or_self] at ha
  subst ha
  exact sampleGrid_drawable

end FSat
