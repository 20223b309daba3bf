import Verif.Lemmas.RenderColours
/-!
# The sprites of the tiles
-/

namespace FSat

/-- A tile that can be built and is neither blank nor an inserter is drawn, the way it should be. -/
theorem renderTile_shown {t : Tile} (hv : t.Valid) (hb : ¬ t.Blank) (hi : ∀ d ty, t ≠ .inserter d ty) (a : Nat) :
    ∃ b p, renderTile t a .bottom = .ok b ∧ renderTile t a .top = .ok p ∧ t.Shown a b p := by
  have h32 : a % 8 + 8 * (a / 8 % 4) = a % 32 := by omega
  cases t with
  | empty => exact absurd (.inl rfl) hb
  | filler => exact absurd (.inr rfl) hb
  | belt i o =>
    cases i <;> cases o <;> first | exact absurd rfl hv | exact ⟨_, _, rfl, rfl, _, rfl, rfl, rfl, rfl, rfl⟩
  | underground d inp =>
    cases d <;> cases inp <;>
      exact ⟨_, _, rfl, rfl, _, _, rfl, rfl, rfl, rfl, rfl, rfl, rfl, rfl⟩
  | splitter d h =>
    cases d <;> cases h <;>
      exact ⟨_, _, rfl, rfl, _, _, rfl, rfl, rfl, rfl, rfl, rfl, h32⟩
  | inserter d ty => exact absurd rfl (hi d ty)
  | assembler x y =>
    obtain ⟨⟨x0, x1⟩, y0, y1⟩ := hv
    have hx : x = 0 ∨ x = 1 ∨ x = 2 := by omega
    have hy : y = 0 ∨ y = 1 ∨ y = 2 := by omega
    rcases hx with rfl | rfl | rfl <;> rcases hy with rfl | rfl | rfl <;>
      exact ⟨_, _, rfl, rfl, _, rfl, rfl, rfl, h32⟩

theorem renderTile_inserter (d : Dir) (ty : Int) (a : Nat) (l : Layer) :
    ∃ e, renderTile (.inserter d ty) a l = .error e ∧ (e = .typeError ∨ e = .indexError) := by
  unfold renderTile
  simp only
  split
  · exact ⟨_, rfl, .inl rfl⟩
  · exact ⟨_, rfl, .inr rfl⟩

/-- Reads a tile back from its sprites. -/
def tileOf : List Sprite → List Sprite → Option Tile
  | [b], [] =>
    match b.sheet with
    | .assembling => some (.assembler (if b.lower.1 = 0 then 0 else if b.lower.1 = 3/8 then 1 else 2)
        (if b.lower.2 = 21/32 then 0 else if b.lower.2 = 47/128 then 1 else 2))
    | _ =>
      [Tile.belt .right .right, .belt .left .left, .belt .up .up, .belt .down .down, .belt .left .up, .belt .down .right, .belt .right .up,
        .belt .down .left, .belt .up .right, .belt .left .down, .belt .up .left, .belt .right .down][b.y]?
  | [b], [p] =>
    match p.sheet with
    | .splitterEast n => some (.splitter .right (n = 0))
    | .splitterWest n => some (.splitter .left (n = 1))
    | .splitterNorth => some (.splitter .up (p.lower.1 ≠ 0))
    | .splitterSouth => some (.splitter .down (p.lower.1 = 0))
    | _ =>
      [Tile.underground .up false, .underground .down true, .underground .right false, .underground .left true, .underground .down false,
        .underground .up true, .underground .left false, .underground .right true][b.y - 12]?
  | _, _ => none

theorem tileOf_renderTile {t : Tile} (hv : t.Valid) (hb : ¬ t.Blank) {a : Nat} {b p : List Sprite} (h1 : renderTile t a .bottom = .ok b)
    (h2 : renderTile t a .top = .ok p) : tileOf b p = some t := by
  cases t with
  | empty => exact absurd (.inl rfl) hb
  | filler => exact absurd (.inr rfl) hb
  | belt i o =>
    cases i <;> cases o <;> first | exact absurd rfl hv | (cases h1; cases h2; rfl)
  | underground d inp =>
    cases d <;> cases inp <;> (cases h1; cases h2; rfl)
  | splitter d h =>
    cases d <;> cases h <;> (cases h1; cases h2; first | rfl | (simp [tileOf]))
  | inserter d ty =>
    obtain ⟨e, he, _⟩ := renderTile_inserter d ty a .bottom
    rw [he] at h1; cases h1
  | assembler x y =>
    obtain ⟨⟨x0, x1⟩, y0, y1⟩ := hv
    have hx : x = 0 ∨ x = 1 ∨ x = 2 := by omega
    have hy : y = 0 ∨ y = 1 ∨ y = 2 := by omega
    cases h2
    rcases hx with rfl | rfl | rfl <;> rcases hy with rfl | rfl | rfl <;> (cases h1; simp [tileOf]; try norm_num)

/-- The frames of a tile without machines repeat after 16 or, with splitters, after 32. -/
theorem renderTile_loop {t : Tile} {n : Nat} (hn : n = 32 ∨ (n = 16 ∧ (∀ d h, t ≠ .splitter d h) ∧ ∀ x y, t ≠ .assembler x y)) (a : Nat)
    (l : Layer) : renderTile t (a + n) l = renderTile t a l := by
  have h16 : (a + n) % 16 = a % 16 := by omega
  have h32 : n = 32 → (a + n) % 8 = a % 8 ∧ (a + n) / 8 % 4 = a / 8 % 4 := fun h => by omega
  cases t with
  | splitter d h =>
    have hn : n = 32 := by
      rcases hn with h | ⟨_, h, _⟩
      · exact h
      · exact absurd rfl (h _ _)
    simp only [renderTile, h16, (h32 hn).1, (h32 hn).2]
  | assembler x y =>
    have hn : n = 32 := by
      rcases hn with h | ⟨_, _, h⟩
      · exact h
      · exact absurd rfl (h _ _)
    simp only [renderTile, (h32 hn).1, (h32 hn).2]
  | _ => simp only [renderTile, h16]

theorem shown_ok {v : ColourVal} (h : v ≠ .many []) : ∃ c, v.shown = .ok c := by
  cases v with
  | absent => exact ⟨_, rfl⟩
  | null => exact ⟨_, rfl⟩
  | one c => exact ⟨_, rfl⟩
  | many l =>
    cases l with
    | nil => exact absurd rfl h
    | cons a l => exact ⟨a, rfl⟩

/-- When the colours can be found, a solution is drawn unless it has an inserter. -/
theorem renders_of {s : Picture} (hr : s.Rect) (hv : s.Valid) (hc : s.NoEmptyColour) (hn : s.NoInserter) (a : Nat) (col : Bool)
    (cc : Option Int) (ug : Bool) {pal : Option (Int → Except PyErr Rgb)}
    (hp : (if col then (palette s cc).map some else .ok none) = .ok pal)
    (hk : ∀ c, (∀ c', c = some c' → c' ∈ allColours s) → ∃ rgb, paint pal c = .ok rgb) :
    ∃ ms, renderSolution s a col cc ug = .ok ms := by
  have paints : ∀ x y i, s.at x y = some i → ∀ w, (i.colourOf w) ≠ .many [] → ∃ c rgb, (i.colourOf w).shown = .ok c ∧ paint pal c = .ok rgb := by
    intro x y i hi w hw
    obtain ⟨c, hc⟩ := shown_ok hw
    obtain ⟨rgb, h⟩ := hk c fun c' e => shown_used hi (w := w) (by rw [hc, e])
    exact ⟨c, rgb, hc, h⟩
  refine ⟨_, renderSolution_iff.2 ⟨pal, hp, ?_, ?_, rfl⟩⟩
  · rintro l ⟨x, y⟩ hxy
    obtain ⟨hx, hy⟩ := mem_drawOrder.1 hxy
    obtain ⟨i, hi⟩ := at_some hr hx hy
    obtain ⟨r, hr', hir⟩ := at_mem hi
    have : ∃ bs, onCell s (renderCell pal a l) (x, y) = .ok bs := by
      simp only [onCell, hi]
      unfold renderCell
      split
      · exact ⟨_, rfl⟩
      · rename_i hb
        obtain ⟨c, rgb, h0, h2⟩ := paints x y i hi (.sprite .top ⟨.belt, 0, 0, 0, 0, 0⟩) (hc r hr' i hir).1
        have h1 : i.colour.shown = .ok c := h0
        obtain ⟨b, p, h3, h4, _⟩ := renderTile_shown (hv r hr' i hir) hb (hn r hr' i hir) a
        cases l with
        | bottom => rw [h1, h3]; simp only [h2]; exact ⟨_, rfl⟩
        | top => rw [h1, h4]; simp only [h2]; exact ⟨_, rfl⟩
    obtain ⟨bs, hbs⟩ := this
    simp only [got, hbs]
  · rintro - ⟨x, y⟩ hxy
    obtain ⟨hx, hy⟩ := mem_rowOrder.1 hxy
    obtain ⟨i, hi⟩ := at_some hr hx hy
    obtain ⟨r, hr', hir⟩ := at_mem hi
    have line : ∀ ax fl cv, (∃ c rgb, cv.shown = .ok c ∧ paint pal c = .ok rgb) → ∃ bs, renderLine pal x y ax fl cv = .ok bs := by
      rintro ax fl cv ⟨c, rgb, h1, h2⟩
      unfold renderLine
      split
      · simp only [h1, h2]; exact ⟨_, rfl⟩
      · exact ⟨_, rfl⟩
    have : ∃ bs, onCell s (renderUnderground pal) (x, y) = .ok bs := by
      simp only [onCell, hi]
      unfold renderUnderground
      split
      · exact ⟨_, rfl⟩
      · rename_i u _
        obtain ⟨b1, h1⟩ := line .horizontal (evens u) i.colourUx (paints x y i hi (.line .horizontal) (hc r hr' i hir).2.1)
        obtain ⟨b2, h2⟩ := line .vertical (odds u) i.colourUy (paints x y i hi (.line .vertical) (hc r hr' i hir).2.2)
        exact ⟨b1 ++ (b2 ++ []), by simp only [gather, id, h1, h2]⟩
    obtain ⟨bs, hbs⟩ := this
    simp only [got, hbs]

/-- A solution that is drawn has no inserter. -/
theorem noInserter_of {s : Picture} (hr : s.Rect) {a : Nat} {col : Bool} {cc : Option Int} {ug : Bool} {ms : List Mark}
    (h : renderSolution s a col cc ug = .ok ms) : s.NoInserter := by
  intro r hr' i hir d t e
  obtain ⟨x, y, hi⟩ := mem_at hr' hir
  rcases spritesAt_eq hr h hi .bottom with ⟨hb, _⟩ | ⟨_, h2⟩
  · rw [e] at hb; rcases hb with hb | hb <;> cases hb
  · obtain ⟨er, he, _⟩ := renderTile_inserter d t a .bottom
    rw [e, he] at h2; cases h2

end FSat
