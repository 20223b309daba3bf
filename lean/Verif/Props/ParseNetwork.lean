import Verif.Lemmas.ParseSound
/-!
# C62: the network read from a layout
-/

namespace FSat

/-- C62: if `parse_network` returns a network for a sound layout, then it has exactly one node for each splitter, and the colours of its
four ends say which splitters it is connected to. -/
theorem c62_network {a : Arr Tile} (hs : SoundLayout a.In a.nb a.board) {ord : List (Int × Int) → List (Int × Int)} (ho : ∀ l, (ord l).Perm l)
    {assume : Bool} {net : Network} (h : parseNetwork ord a assume = .ok net) :
    ∃ heads : List (Int × Int), heads.Nodup ∧ (∀ p, p ∈ heads ↔ ∃ d, a.board p = .splitter d true) ∧
      NetworkOf a.In a.nb a.board assume heads net := by
  refine ⟨ord a.heads, (ho _).nodup_iff.2 (heads_nodup a), fun p => (ho _).mem_iff.trans mem_heads, ?_⟩
  rcases parseNetwork_cases (assume := assume) hs (ho _) with ⟨net', h1, h2, _⟩ | ⟨h1, _⟩ | ⟨h1, _⟩
  · rw [h1] at h
    cases h
    exact h2
  · rw [h1] at h; cases h
  · rw [h1] at h; cases h

theorem facesEmpty_iff {a : Arr Tile} (hs : SoundLayout a.In a.nb a.board) :
    (∃ h d, a.board h = .splitter d true ∧ FacesEmpty a h d) ↔
      ∃ p d b q, a.board p = .splitter d b ∧ (a.nb p d = some q ∨ a.nb p d.opp = some q) ∧ a.board q = .empty := by
  have hopp : ∀ (p : Int × Int) (d : Dir), stepTo p d.opp = stepBack p d := by
    intro p d
    cases d <;> simp [stepTo, stepBack, Dir.opp, Dir.dx, Dir.dy] <;> omega
  have hside : ∀ {p : Int × Int} {d : Dir}, (∃ o : Bool, a.inside (SEnd.mk o p d).pos ∧ a.board (SEnd.mk o p d).pos = .empty) ↔
      ∃ q, (a.nb p d = some q ∨ a.nb p d.opp = some q) ∧ a.board q = .empty := by
    intro p d
    constructor
    · rintro ⟨o, h1, h2⟩
      refine ⟨_, ?_, h2⟩
      cases o with
      | true => exact .inl (nb_iff.2 ⟨rfl, h1⟩)
      | false => exact .inr (nb_iff.2 ⟨(hopp p d).symm, h1⟩)
    · rintro ⟨q, h1 | h1, h2⟩
      · obtain ⟨rfl, h3⟩ := nb_iff.1 h1
        exact ⟨true, h3, h2⟩
      · obtain ⟨rfl, h3⟩ := nb_iff.1 h1
        rw [hopp] at h2 h3
        exact ⟨false, h3, h2⟩
  constructor
  · rintro ⟨h, d, hd, o, p, hp, h1, h2⟩
    obtain ⟨q, h3, h4⟩ := hside.1 ⟨o, h1, h2⟩
    rcases hp with rfl | rfl
    · exact ⟨_, d, true, q, hd, h3, h4⟩
    · obtain ⟨r, _, hr⟩ := hs.splitters.head h d (inside_of_board (by rw [hd]; simp)) hd
      have : r = stepTo h d.next := by rw [next_eq_ccw]; exact (nb_iff.1 hr.2.1).1
      exact ⟨_, d, false, q, this ▸ hr.2.2, h3, h4⟩
  · rintro ⟨p, d, b, q, hd, h3, h4⟩
    obtain ⟨o, h1, h2⟩ := hside.2 ⟨q, h3, h4⟩
    cases b with
    | true => exact ⟨p, d, hd, o, p, .inl rfl, h1, h2⟩
    | false =>
      obtain ⟨r, _, hr⟩ := hs.splitters.tail p d (inside_of_board (by rw [hd]; simp)) hd
      refine ⟨r, d, hr.1, o, p, .inr ?_, h1, h2⟩
      rw [next_eq_ccw]
      exact (nb_iff.1 hr.2.1).1

/-- C62, partial: a sound layout without underground entrance in the top row is read exactly if no end of a splitter faces an empty cell.
The property asks for success on every sound layout, which `c62_row_refuted` and `c62_empty_refuted` refute. -/
theorem c62_succeeds_partial {a : Arr Tile} (hs : SoundLayout a.In a.nb a.board) (hrow : ∀ p d, a.board p = .underground d true → p.2 ≠ 0)
    {ord : List (Int × Int) → List (Int × Int)} (ho : ∀ l, (ord l).Perm l) (assume : Bool) :
    (∃ net, parseNetwork ord a assume = .ok net) ↔
      ∀ p d b q, a.board p = .splitter d b → a.nb p d = some q ∨ a.nb p d.opp = some q → a.board q ≠ .empty := by
  have hiff := facesEmpty_iff hs
  constructor
  · rintro ⟨net, h⟩ p d b q hd hq he
    obtain ⟨h', d', hd', hf⟩ := hiff.2 ⟨p, d, b, q, hd, hq, he⟩
    rcases parseNetwork_cases (assume := assume) hs (ho _) with ⟨net', h1, _, h2⟩ | ⟨h1, _⟩ | ⟨h1, _⟩
    · exact h2 h' d' hd' hf
    · rw [h1] at h; cases h
    · rw [h1] at h; cases h
  · intro h
    rcases parseNetwork_cases (assume := assume) hs (ho _) with ⟨net', h1, _⟩ | ⟨_, q, d, h1, h2⟩ | ⟨_, h1⟩
    · exact ⟨net', h1⟩
    · exact absurd h2 (hrow q d h1)
    · obtain ⟨p, d, b, q, hd, hq, he⟩ := hiff.1 h1
      exact absurd he (h p d b q hd hq)

/-- C62, partial: whatever goes wrong is one of the two: an assertion because of an underground entrance in the top row, or a missing
attribute because an end of a splitter faces an empty cell. -/
theorem c62_errors_partial {a : Arr Tile} (hs : SoundLayout a.In a.nb a.board) {ord : List (Int × Int) → List (Int × Int)} (ho : ∀ l, (ord l).Perm l)
    {assume : Bool} {e : PyErr} (h : parseNetwork ord a assume = .error e) :
    (e = .assertion ∧ ∃ p d, a.board p = .underground d true ∧ p.2 = 0) ∨
      (e = .attributeError ∧ ∃ p d b q, a.board p = .splitter d b ∧ (a.nb p d = some q ∨ a.nb p d.opp = some q) ∧ a.board q = .empty) := by
  rcases parseNetwork_cases (assume := assume) hs (ho _) with ⟨net', h1, _⟩ | ⟨h1, h2⟩ | ⟨h1, h2⟩
  · rw [h1] at h; cases h
  · rw [h1] at h; cases h
    exact .inl ⟨rfl, h2⟩
  · rw [h1] at h; cases h
    exact .inr ⟨rfl, (facesEmpty_iff hs).1 h2⟩

/-! ### Layouts -/

/-- Two splitters in a row, joined by a belt and by an underground belt, with belts before and after them. -/
def twoSplitters : Arr Tile := ⟨2, 7, fun y x => match y.val, x.val with
  | _, 0 => .belt .right .right
  | 1, 1 => .splitter .right true
  | 0, 1 => .splitter .right false
  | 1, 2 => .underground .right true
  | 1, 3 => .empty
  | 1, 4 => .underground .right false
  | 1, 5 => .splitter .right true
  | 0, 5 => .splitter .right false
  | _, _ => .belt .right .right⟩

theorem twoSplitters_sound : SoundLayout twoSplitters.In twoSplitters.nb twoSplitters.board :=
  (show SoundCheck twoSplitters from ⟨by decide +kernel, by decide +kernel, by decide +kernel, by decide +kernel, by decide +kernel,
    by decide +kernel, by decide +kernel⟩).sound

/-- The hypotheses of `c62_network` and `c62_succeeds_partial` can be met: here is the network of a layout. -/
example : SoundLayout twoSplitters.In twoSplitters.nb twoSplitters.board ∧
    parseNetwork id twoSplitters false = .ok [((some 0, some 0), (some 1, some 1)), ((some 1, some 1), (some 3, some 3))] :=
  ⟨twoSplitters_sound, by decide +kernel⟩

example : ∀ p d, twoSplitters.board p = .underground d true → p.2 ≠ 0 := by
  intro p d h
  have hp := (mem_columns _ _).2 (inside_of_board (p := p) (by rw [h]; simp))
  have : ∀ p ∈ twoSplitters.columns, ∀ d ∈ Dir.list, twoSplitters.board p = .underground d true → p.2 ≠ 0 := by decide +kernel
  exact this p hp d (Dir.mem_list d) h

/-- An underground belt that goes left in the top row. -/
def topRow : Arr Tile := ⟨1, 3, fun _ x => match x.val with
  | 0 => .underground .left false
  | 1 => .empty
  | _ => .underground .left true⟩

/-- C62: the backward search for an entrance does not accept the top row, so that `parse_network` fails on a sound layout. -/
theorem c62_row_refuted : ∃ a : Arr Tile, SoundLayout a.In a.nb a.board ∧ ∀ ord assume, parseNetwork ord a assume = .error .assertion :=
  ⟨topRow, (show SoundCheck topRow from ⟨by decide +kernel, by decide +kernel, by decide +kernel, by decide +kernel, by decide +kernel,
    by decide +kernel, by decide +kernel⟩).sound, fun ord assume => by
    have : scan topRow topRow.columns ⟨fun _ => none, 0, []⟩ = .error .assertion := by rfl
    unfold parseNetwork
    rw [this]⟩

/-- A splitter with one input. -/
def oneInput : Arr Tile := ⟨2, 3, fun y x => match y.val, x.val with
  | 0, 0 => .empty
  | 1, 1 => .splitter .right true
  | 0, 1 => .splitter .right false
  | _, _ => .belt .right .right⟩

/-- C62: `EmptyTile` has no directions, so that `parse_network` fails on a sound layout with an unused end of a splitter. -/
theorem c62_empty_refuted : ∃ a : Arr Tile, SoundLayout a.In a.nb a.board ∧ (∀ p d b, a.board p ≠ .underground d b) ∧
    ∀ assume, parseNetwork id a assume = .error .attributeError := by
  refine ⟨oneInput, (show SoundCheck oneInput from ⟨by decide +kernel, by decide +kernel, by decide +kernel, by decide +kernel, by decide +kernel,
    by decide +kernel, by decide +kernel⟩).sound, ?_, fun assume => by cases assume <;> decide +kernel⟩
  intro p d b h
  have hp := (mem_columns _ _).2 (inside_of_board (p := p) (by rw [h]; simp))
  have : ∀ p ∈ oneInput.columns, ∀ d ∈ Dir.list, ∀ b ∈ [true, false], oneInput.board p ≠ .underground d b := by decide +kernel
  exact this p hp d (Dir.mem_list d) b (by cases b <;> simp) h

end FSat
