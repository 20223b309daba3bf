import Verif.Lemmas.RenderTiles
/-!
# C86, C87 and C88: what the renderer draws
-/

namespace FSat

/-! ### A case to try the theorems on -/

/-- A splitter, a turn and an underground belt over a machine's corner; one colour is a list and one is missing. -/
def exPicture : Picture :=
  [[{ tile := .splitter .right false, colour := .one 4 }, { tile := .belt .right .down, colour := .null }],
   [{ tile := .splitter .right true, colour := .many [some 7, some 4] }, { tile := .empty }],
   [{ tile := .assembler 0 0 }, { tile := .underground .up true, colour := .one 4, colourUy := .one 9, underground := some [false, true, false, false] }]]

theorem exPicture_rect : exPicture.Rect := by
  intro r hr
  simp only [exPicture, List.mem_cons, List.not_mem_nil, or_false] at hr
  rcases hr with rfl | rfl | rfl <;> rfl

theorem exPicture_valid : exPicture.Valid := by
  intro r hr i hi
  simp only [exPicture, List.mem_cons, List.not_mem_nil, or_false] at hr
  rcases hr with rfl | rfl | rfl <;> simp only [List.mem_cons, List.not_mem_nil, or_false] at hi <;>
    rcases hi with rfl | rfl <;> decide

theorem exPicture_noInserter : exPicture.NoInserter := by
  intro r hr i hi d t
  simp only [exPicture, List.mem_cons, List.not_mem_nil, or_false] at hr
  rcases hr with rfl | rfl | rfl <;> simp only [List.mem_cons, List.not_mem_nil, or_false] at hi <;>
    rcases hi with rfl | rfl <;> simp

theorem exPicture_noEmpty : exPicture.NoEmptyColour := by
  intro r hr i hi
  simp only [exPicture, List.mem_cons, List.not_mem_nil, or_false] at hr
  rcases hr with rfl | rfl | rfl <;> simp only [List.mem_cons, List.not_mem_nil, or_false] at hi <;>
    rcases hi with rfl | rfl <;> simp

/-! ### C88: the picture shows the layout -/

/-- A solution that is drawn shows every tile the way it should be shown, and nothing in the other cells. -/
theorem c88_shown {s : Picture} (hr : s.Rect) (hv : s.Valid) {a : Nat} {col : Bool} {cc : Option Int} {ug : Bool} {ms : List Mark}
    (h : renderSolution s a col cc ug = .ok ms) {x y : Nat} :
    (∀ i, s.at x y = some i → i.tile.Shown a (spritesAt ms x y .bottom) (spritesAt ms x y .top)) ∧
      (s.at x y = none → ∀ m ∈ ms, ¬ (m.x = x ∧ m.y = y)) := by
  constructor
  · intro i hi
    obtain ⟨r, hr', hir⟩ := at_mem hi
    rcases spritesAt_eq hr h hi .bottom with ⟨hb, h1⟩ | ⟨hb, h1⟩
    · rcases spritesAt_eq hr h hi .top with ⟨_, h2⟩ | ⟨hb', _⟩
      · rw [h1, h2]
        rcases hb with hb | hb <;> rw [hb] <;> exact ⟨rfl, rfl⟩
      · exact absurd hb hb'
    · rcases spritesAt_eq hr h hi .top with ⟨hb', _⟩ | ⟨_, h2⟩
      · exact absurd hb' hb
      · obtain ⟨b, p, h3, h4, h5⟩ := renderTile_shown (hv r hr' i hir) hb (noInserter_of hr h r hr' i hir) a
        rw [h1] at h3; rw [h2] at h4
        cases h3; cases h4
        exact h5
  · rintro hi m hm ⟨rfl, rfl⟩
    obtain ⟨pal, _, hl, hu, rfl⟩ := renderSolution_iff.1 h
    obtain ⟨i, hi', _⟩ := mark_of hl hu hm
    rw [hi] at hi'; cases hi'

/-- Two solutions of the same size with the same picture have the same tiles, wherever they have one. -/
theorem c88_faithful {s s' : Picture} (hr : s.Rect) (hv : s.Valid) (hr' : s'.Rect) (hv' : s'.Valid)
    {a a' : Nat} {col col' : Bool} {cc cc' : Option Int} {ug ug' : Bool} {ms : List Mark} (h : renderSolution s a col cc ug = .ok ms)
    (h' : renderSolution s' a' col' cc' ug' = .ok ms) {x y : Nat} {i i' : Item} (hi : s.at x y = some i) (hi' : s'.at x y = some i') :
    i.tile = i'.tile ∨ (i.tile.Blank ∧ i'.tile.Blank) := by
  have one : ∀ {s : Picture}, s.Rect → s.Valid → ∀ {a col cc ug}, renderSolution s a col cc ug = .ok ms → ∀ {i}, s.at x y = some i →
      (i.tile.Blank ∧ tileOf (spritesAt ms x y .bottom) (spritesAt ms x y .top) = none) ∨
      tileOf (spritesAt ms x y .bottom) (spritesAt ms x y .top) = some i.tile := by
    intro s hr hv a col cc ug h i hi
    obtain ⟨r, hr', hir⟩ := at_mem hi
    rcases spritesAt_eq hr h hi .bottom with ⟨hb, h1⟩ | ⟨hb, h1⟩
    · exact .inl ⟨hb, by rw [h1]; rfl⟩
    · rcases spritesAt_eq hr h hi .top with ⟨hb', _⟩ | ⟨_, h2⟩
      · exact absurd hb' hb
      · exact .inr (tileOf_renderTile (hv r hr' i hir) hb h1 h2)
  rcases one hr hv h hi with ⟨hb, h1⟩ | h1 <;> rcases one hr' hv' h' hi' with ⟨hb', h2⟩ | h2
  · exact .inr ⟨hb, hb'⟩
  · rw [h1] at h2; cases h2
  · rw [h1] at h2; cases h2
  · rw [h1] at h2; exact .inl (Option.some.inj h2)

/-- The lower layer is drawn first, then the upper one, then the lines, and in a layer the columns from right to left. -/
theorem c88_order {s : Picture} {a : Nat} {col : Bool} {cc : Option Int} {ug : Bool} {ms : List Mark}
    (h : renderSolution s a col cc ug = .ok ms) : ms.Pairwise Mark.Before := by
  obtain ⟨pal, _, hl, hu, rfl⟩ := renderSolution_iff.1 h
  have mem : ∀ l m, m ∈ (drawOrder s).flatMap (got (onCell s (renderCell pal a l))) → ∃ sp, m.what = .sprite l sp := by
    intro l m hm
    obtain ⟨⟨x, y⟩, hp, hm⟩ := List.mem_flatMap.1 hm
    obtain ⟨i, hi, hc⟩ := got_onCell (hl l _ hp)
    exact (renderCell_mem hc hm).2.2.1
  have memU : ∀ m, m ∈ (if ug then (rowOrder s).flatMap (got (onCell s (renderUnderground pal))) else []) → ∃ ax, m.what = .line ax := by
    intro m hm
    cases ug with
    | false => cases hm
    | true =>
      simp only [if_true] at hm
      obtain ⟨⟨x, y⟩, hp, hm⟩ := List.mem_flatMap.1 hm
      obtain ⟨i, hi, hc⟩ := got_onCell (hu rfl _ hp)
      obtain ⟨u, ax, _, _, _, _, hw, _⟩ := (renderUnderground_mem hc).1 hm
      exact ⟨ax, hw⟩
  have layer : ∀ l, ((drawOrder s).flatMap (got (onCell s (renderCell pal a l)))).Pairwise Mark.Before := by
    intro l
    have base : ∀ m ∈ (drawOrder s).flatMap (got (onCell s (renderCell pal a l))),
        ∀ m' ∈ (drawOrder s).flatMap (got (onCell s (renderCell pal a l))), (m'.x < m.x ∨ (m.x = m'.x ∧ m.y ≤ m'.y)) → m.Before m' := by
      intro m hm m' hm' hxy
      obtain ⟨sp, e⟩ := mem l m hm
      obtain ⟨sp', e'⟩ := mem l m' hm'
      unfold Mark.Before
      rw [e, e']
      cases l <;> exact hxy
    have key := got_onCell_key (s := s) (f := renderCell pal a l) fun x y i bs h m hm =>
      ⟨(renderCell_mem h hm).1, (renderCell_mem h hm).2.1⟩
    have ord : (drawOrder s).Pairwise fun p q => q.1 < p.1 ∨ (p.1 = q.1 ∧ p.2 ≤ q.2) := by
      unfold drawOrder
      rw [List.pairwise_flatMap]
      refine ⟨fun x _ => ?_, ?_⟩
      · rw [List.pairwise_map]
        exact List.pairwise_lt_range.imp fun h => .inr ⟨rfl, h.le⟩
      · rw [List.pairwise_reverse]
        refine List.pairwise_lt_range.imp ?_
        intro x x' hx p hp q hq
        obtain ⟨y, _, rfl⟩ := List.mem_map.1 hp
        obtain ⟨y', _, rfl⟩ := List.mem_map.1 hq
        exact .inl hx
    refine List.Pairwise.imp_of_mem (fun {m m'} hm hm' h => base m hm m' hm' h) ?_
    rw [List.pairwise_flatMap]
    refine ⟨fun p _ => ?_, ?_⟩
    · refine List.pairwise_of_forall_mem_list ?_
      intro m hm m' hm'
      have h1 := key p m hm
      have h2 := key p m' hm'
      rw [← h1] at h2
      simp only [Prod.mk.injEq] at h2
      exact .inr ⟨h2.1.symm, h2.2.ge⟩
    · refine ord.imp ?_
      intro p q hpq m hm m' hm'
      have h1 := key p m hm
      have h2 := key q m' hm'
      rw [← h1, ← h2] at hpq
      exact hpq
  rw [List.pairwise_append]
  refine ⟨layer .bottom, ?_, ?_⟩
  · rw [List.pairwise_append]
    refine ⟨layer .top, ?_, ?_⟩
    · refine List.pairwise_of_forall_mem_list ?_
      intro m hm m' hm'
      obtain ⟨ax, e⟩ := memU m hm
      obtain ⟨ax', e'⟩ := memU m' hm'
      unfold Mark.Before
      rw [e, e']
      trivial
    · intro m hm m' hm'
      obtain ⟨sp, e⟩ := mem _ m hm
      obtain ⟨ax', e'⟩ := memU m' hm'
      unfold Mark.Before
      rw [e, e']
      trivial
  · intro m hm m' hm'
    obtain ⟨sp, e⟩ := mem _ m hm
    rcases List.mem_append.1 hm' with hm' | hm'
    · obtain ⟨sp', e'⟩ := mem _ m' hm'
      unfold Mark.Before
      rw [e, e']
      trivial
    · obtain ⟨ax', e'⟩ := memU m' hm'
      unfold Mark.Before
      rw [e, e']
      trivial

/-- A flag of a direction: the four flags of a cell are in the order of the directions. -/
theorem mem_evens_odds (u : List Bool) : (true ∈ evens u ↔ ∃ k, u[2 * k]? = some true) ∧ (true ∈ odds u ↔ ∃ k, u[2 * k + 1]? = some true) := by
  have main : ∀ u : List Bool, true ∈ evens u ↔ ∃ k, u[2 * k]? = some true := by
    intro u
    induction u using evens.induct with
    | case1 => simp [evens]
    | case2 a =>
      simp only [evens, List.mem_singleton]
      constructor
      · rintro rfl; exact ⟨0, rfl⟩
      · rintro ⟨k, hk⟩
        cases k with
        | zero => simpa using hk.symm
        | succ k => simp [Nat.mul_add] at hk
    | case3 a b l ih =>
      simp only [evens, List.mem_cons, ih]
      constructor
      · rintro (rfl | ⟨k, hk⟩)
        · exact ⟨0, rfl⟩
        · exact ⟨k + 1, by simpa [Nat.mul_add] using hk⟩
      · rintro ⟨k, hk⟩
        cases k with
        | zero => left; simpa using hk.symm
        | succ k => right; exact ⟨k, by simpa [Nat.mul_add] using hk⟩
  refine ⟨main u, ?_⟩
  unfold odds
  rw [main]
  simp [List.getElem?_tail]

/-- With `--show-underground` a cell gets a line along an axis exactly if one of its flags of that axis is set; without it there are no
lines. -/
theorem c88_lines {s : Picture} (hr : s.Rect) {a : Nat} {col : Bool} {cc : Option Int} {ug : Bool} {ms : List Mark}
    (h : renderSolution s a col cc ug = .ok ms) {x y : Nat} {i : Item} (hi : s.at x y = some i) (d : Axis) :
    (∃ m ∈ ms, m.x = x ∧ m.y = y ∧ m.what = .line d) ↔
      ug = true ∧ ∃ u dir, i.underground = some u ∧ Dir.axis dir = d ∧ ∃ k, u[dir.value + 4 * k]? = some true := by
  obtain ⟨pal, _, hl, hu, rfl⟩ := renderSolution_iff.1 h
  have flag : ∀ u : List Bool, true ∈ (match d with | .horizontal => evens u | .vertical => odds u) ↔
      ∃ dir, Dir.axis dir = d ∧ ∃ k, u[dir.value + 4 * k]? = some true := by
    intro u
    cases d with
    | horizontal =>
      simp only [(mem_evens_odds u).1]
      constructor
      · rintro ⟨k, hk⟩
        rcases Nat.even_or_odd' k with ⟨j, rfl | rfl⟩
        · exact ⟨.right, rfl, j, by rw [← hk]; congr 1; simp only [Dir.value]; omega⟩
        · exact ⟨.left, rfl, j, by rw [← hk]; congr 1; simp only [Dir.value]; omega⟩
      · rintro ⟨dir, hd, k, hk⟩
        cases dir with
        | right => exact ⟨2 * k, by rw [← hk]; congr 1; simp only [Dir.value]; omega⟩
        | left => exact ⟨2 * k + 1, by rw [← hk]; congr 1; simp only [Dir.value]; omega⟩
        | up => cases hd
        | down => cases hd
    | vertical =>
      simp only [(mem_evens_odds u).2]
      constructor
      · rintro ⟨k, hk⟩
        rcases Nat.even_or_odd' k with ⟨j, rfl | rfl⟩
        · exact ⟨.up, rfl, j, by rw [← hk]; congr 1; simp only [Dir.value]; omega⟩
        · exact ⟨.down, rfl, j, by rw [← hk]; congr 1; simp only [Dir.value]; omega⟩
      · rintro ⟨dir, hd, k, hk⟩
        cases dir with
        | up => exact ⟨2 * k, by rw [← hk]; congr 1; simp only [Dir.value]; omega⟩
        | down => exact ⟨2 * k + 1, by rw [← hk]; congr 1; simp only [Dir.value]; omega⟩
        | right => cases hd
        | left => cases hd
  have noSprite : ∀ l m, m ∈ (drawOrder s).flatMap (got (onCell s (renderCell pal a l))) → m.what ≠ .line d := by
    intro l m hm
    obtain ⟨⟨x, y⟩, hp, hm⟩ := List.mem_flatMap.1 hm
    obtain ⟨i, hi, hc⟩ := got_onCell (hl l _ hp)
    obtain ⟨sp, e⟩ := (renderCell_mem hc hm).2.2.1
    rw [e]; intro h; cases h
  constructor
  · rintro ⟨m, hm, hx, hy, hw⟩
    rcases List.mem_append.1 hm with hm | hm
    · exact absurd hw (noSprite _ _ hm)
    · rcases List.mem_append.1 hm with hm | hm
      · exact absurd hw (noSprite _ _ hm)
      · cases ug with
        | false => cases hm
        | true =>
          simp only [if_true] at hm
          obtain ⟨⟨x', y'⟩, hp, hm⟩ := List.mem_flatMap.1 hm
          obtain ⟨i', hi', hc⟩ := got_onCell (hu rfl _ hp)
          obtain ⟨u, ax, h1, h2, h3, h4, h5, _⟩ := (renderUnderground_mem hc).1 hm
          obtain rfl : x' = x := by omega
          obtain rfl : y' = y := by omega
          rw [hi] at hi'; cases hi'
          rw [h5] at hw; cases hw
          obtain ⟨dir, hd, k, hk⟩ := (flag u).1 h2
          exact ⟨rfl, u, dir, h1, hd, k, hk⟩
  · rintro ⟨rfl, u, dir, h1, hd, k, hk⟩
    have hp := mem_rowOrder.2 (at_lt hr hi)
    obtain ⟨i', hi', hc⟩ := got_onCell (hu rfl _ hp)
    rw [hi] at hi'; cases hi'
    have hf := (flag u).2 ⟨dir, hd, k, hk⟩
    -- the line is drawn, so its colour was found
    have : ∃ m ∈ got (onCell s (renderUnderground pal)) (x, y), m.x = x ∧ m.y = y ∧ m.what = .line d := by
      have hc' : gather id [renderLine pal x y .horizontal (evens u) i.colourUx, renderLine pal x y .vertical (odds u) i.colourUy] =
          .ok (got (onCell s (renderUnderground pal)) (x, y)) := by
        rw [← hc]; simp only [renderUnderground, h1]
      obtain ⟨h2, h3⟩ := gather_iff.1 hc'
      have col : ∀ fl cv bs, renderLine pal x y d fl cv = .ok bs → true ∈ fl → ∃ m ∈ bs, m.x = x ∧ m.y = y ∧ m.what = .line d := by
        intro fl cv bs hb hfl
        unfold renderLine at hb
        rw [if_pos (by simpa using hfl)] at hb
        split at hb
        · cases hb
        · split at hb
          · cases hb
          · cases hb; exact ⟨_, .head _, rfl, rfl, rfl⟩
      rw [h3]
      cases d with
      | horizontal =>
        obtain ⟨m, hm, h⟩ := col _ _ _ (h2 _ (.head _)) hf
        exact ⟨m, List.mem_flatMap.2 ⟨_, .head _, hm⟩, h⟩
      | vertical =>
        obtain ⟨m, hm, h⟩ := col _ _ _ (h2 _ (.tail _ (.head _))) hf
        exact ⟨m, List.mem_flatMap.2 ⟨_, .tail _ (.head _), hm⟩, h⟩
    obtain ⟨m, hm, h⟩ := this
    exact ⟨m, List.mem_append.2 (.inr (List.mem_append.2 (.inr (by simp only [if_true]; exact List.mem_flatMap.2 ⟨_, hp, hm⟩)))), h⟩

/-- A solution with an inserter is never drawn, whatever its colours and the options: the program stops with an exception. -/
theorem c88_inserter_refuted {s : Picture} (hr : s.Rect) (hn : ¬ s.NoInserter) (a : Nat) (col : Bool) (cc : Option Int) (ug : Bool)
    (ms : List Mark) : renderSolution s a col cc ug ≠ .ok ms := fun h => hn (noInserter_of hr h)

/-- Any other solution is drawn. -/
theorem c88_renders_partial {s : Picture} (hr : s.Rect) (hv : s.Valid) (hc : s.NoEmptyColour) (hn : s.NoInserter) (a : Nat) (col : Bool)
    (ug : Bool) : ∃ ms, renderSolution s a col none ug = .ok ms := by
  cases col with
  | false => exact renders_of hr hv hc hn a false none ug (pal := none) rfl fun c _ => ⟨_, rfl⟩
  | true =>
    obtain ⟨f, hf, h1, _⟩ := palette_none s
    refine renders_of hr hv hc hn a true none ug (pal := some f) (by simp [hf, Except.map]) fun c hcc => ?_
    cases c with
    | none => exact ⟨grey, rfl⟩
    | some c => obtain ⟨rgb, h, _⟩ := h1 c (hcc c rfl); exact ⟨rgb, h⟩

example : ∃ ms, renderSolution exPicture 5 true none true = .ok ms ∧ ms.length = 9 ∧ ¬ (ms.map (·.what) = []) := by
  obtain ⟨ms, h⟩ := c88_renders_partial exPicture_rect exPicture_valid exPicture_noEmpty exPicture_noInserter 5 true true
  refine ⟨ms, h, ?_⟩
  have : renderSolution exPicture 5 true none true = .ok ms → ms.length = 9 ∧ ¬ (ms.map (·.what) = []) := by
    have : (renderSolution exPicture 5 true none true).toOption.map List.length = some 9 := by decide +kernel
    intro h
    rw [h] at this
    have h9 : ms.length = 9 := Option.some.inj this
    exact ⟨h9, fun e => by simp at e; rw [e] at h9; cases h9⟩
  exact this h

/-- A single inserter. -/
example : ∃ s : Picture, s.Rect ∧ s.Valid ∧ s.NoEmptyColour ∧ ¬ s.NoInserter ∧ renderSolution s 0 false none false = .error .typeError := by
  refine ⟨[[{ tile := .inserter .up 0 }]], ?_, ?_, ?_, fun h => h _ (.head _) _ (.head _) _ _ rfl, rfl⟩
  · intro r hr; simp only [List.mem_singleton] at hr; rw [hr]; rfl
  · intro r hr i hi
    simp only [List.mem_singleton] at hr; subst hr
    simp only [List.mem_singleton] at hi; subst hi
    trivial
  · intro r hr i hi
    simp only [List.mem_singleton] at hr; subst hr
    simp only [List.mem_singleton] at hi; subst hi
    simp

/-! ### C87: the animation is a loop -/

/-- Without a machine, the frame after the last one is the first one again. -/
theorem c87_loop_partial {s : Picture} (hm : ∀ r ∈ s, ∀ i ∈ r, ∀ x y, i.tile ≠ .assembler x y) (a : Nat) (col : Bool) (cc : Option Int)
    (ug : Bool) : renderSolution s (a + animationLength s) col cc ug = renderSolution s a col cc ug := by
  have cell : ∀ pal l, onCell s (renderCell pal (a + animationLength s) l) = onCell s (renderCell pal a l) := by
    intro pal l
    funext p
    unfold onCell
    cases hi : s.at p.1 p.2 with
    | none => rfl
    | some i =>
      obtain ⟨r, hr, hir⟩ := at_mem hi
      have hn : animationLength s = 32 ∨
          (animationLength s = 16 ∧ (∀ d h, i.tile ≠ .splitter d h) ∧ ∀ x y, i.tile ≠ .assembler x y) := by
        unfold animationLength
        split
        · exact .inl rfl
        · rename_i hs
          refine .inr ⟨rfl, fun d h e => hs ?_, hm r hr i hir⟩
          rw [List.any_eq_true]
          exact ⟨i, List.mem_flatten.2 ⟨r, hr, hir⟩, by rw [e]⟩
      simp only
      unfold renderCell
      simp only [renderTile_loop hn a l]
  unfold renderSolution
  simp only [cell]

/-- The frames before that differ: no shorter loop would do for a solution with a splitter, nor for one with a belt only. -/
theorem c87_shortest {s : Picture} (hr : s.Rect) (hv : s.Valid) (hm : ∀ r ∈ s, ∀ i ∈ r, ∀ x y, i.tile ≠ .assembler x y)
    (hb : ∃ r ∈ s, ∃ i ∈ r, ¬ i.tile.Blank) {a b : Nat} (ha : a < animationLength s) (hab : b < animationLength s) {col col' : Bool}
    {cc cc' : Option Int} {ug ug' : Bool} {ms : List Mark} (h : renderSolution s a col cc ug = .ok ms)
    (h' : renderSolution s b col' cc' ug' = .ok ms) : a = b := by
  have frames : ∀ r ∈ s, ∀ i ∈ r, ¬ i.tile.Blank → a % 16 = b % 16 ∧ ((∃ d h, i.tile = .splitter d h) → a % 32 = b % 32) := by
    intro r hr' i hir hb
    obtain ⟨x, y, hi⟩ := mem_at hr' hir
    have h1 := (c88_shown hr hv h (x := x) (y := y)).1 i hi
    have h2 := (c88_shown hr hv h' (x := x) (y := y)).1 i hi
    have hma := hm r hr' i hir
    cases ht : i.tile with
    | empty => exact absurd (.inl ht) hb
    | filler => exact absurd (.inr ht) hb
    | assembler u v => exact absurd ht (hma u v)
    | inserter d t => exact absurd ht (noInserter_of hr h r hr' i hir d t)
    | belt p q =>
      rw [ht] at h1 h2
      obtain ⟨sp, e1, _, _, e2, _⟩ := h1
      obtain ⟨sp', e1', _, _, e2', _⟩ := h2
      rw [e1] at e1'; cases e1'
      exact ⟨by omega, fun ⟨d, h, e⟩ => by cases e⟩
    | underground d q =>
      rw [ht] at h1 h2
      obtain ⟨sp, _, e1, _, _, e2, _⟩ := h1
      obtain ⟨sp', _, e1', _, _, e2', _⟩ := h2
      rw [e1] at e1'; cases e1'
      exact ⟨by omega, fun ⟨d, h, e⟩ => by cases e⟩
    | splitter d q =>
      rw [ht] at h1 h2
      obtain ⟨sp, st, e1, e3, _, e2, _, _, e4⟩ := h1
      obtain ⟨sp', st', e1', e3', _, e2', _, _, e4'⟩ := h2
      rw [e1] at e1'; cases e1'
      rw [e3] at e3'; cases e3'
      exact ⟨by omega, fun _ => by omega⟩
  unfold animationLength at ha hab
  split at ha
  · rename_i hs
    rw [if_pos hs] at hab
    rw [List.any_eq_true] at hs
    obtain ⟨i, hi, hsp⟩ := hs
    obtain ⟨r, hr', hir⟩ := List.mem_flatten.1 hi
    have hsp : ∃ d h, i.tile = .splitter d h := by
      cases ht : i.tile with
      | splitter d h => exact ⟨d, h, rfl⟩
      | _ => rw [ht] at hsp; cases hsp
    have := (frames r hr' i hir (by obtain ⟨d, h, e⟩ := hsp; rw [e]; rintro (h | h) <;> cases h)).2 hsp
    omega
  · rename_i hs
    rw [if_neg hs] at hab
    obtain ⟨r, hr', i, hir, hb⟩ := hb
    have := (frames r hr' i hir hb).1
    omega

/-- With a machine and no splitter the animation jumps: the 16 frames are not a loop, since the machine needs 32. -/
theorem c87_loop_refuted : ∃ s : Picture, s.Rect ∧ s.Valid ∧ s.NoInserter ∧
    renderSolution s (0 + animationLength s) false none false ≠ renderSolution s 0 false none false := by
  refine ⟨[[{ tile := .assembler 1 1 }]], ?_, ?_, ?_, ?_⟩
  · intro r hr; simp only [List.mem_singleton] at hr; rw [hr]; rfl
  · intro r hr i hi
    simp only [List.mem_singleton] at hr; subst hr
    simp only [List.mem_singleton] at hi; subst hi
    decide
  · intro r hr i hi
    simp only [List.mem_singleton] at hr; subst hr
    simp only [List.mem_singleton] at hi; subst hi
    simp
  · intro h
    have : ((renderSolution [[{ tile := .assembler 1 1 }]] (0 + animationLength [[{ tile := .assembler 1 1 }]]) false none false).toOption ==
      (renderSolution [[{ tile := .assembler 1 1 }]] 0 false none false).toOption) = false := by decide +kernel
    rw [h] at this
    simp at this

/-- The first two rows of the picture above meet the hypotheses of `c87_loop_partial` and `c87_shortest`. -/
example : (∀ r ∈ exPicture.take 2, ∀ i ∈ r, ∀ x y, i.tile ≠ .assembler x y) ∧ (∃ r ∈ exPicture.take 2, ∃ i ∈ r, ¬ i.tile.Blank) ∧
    animationLength (exPicture.take 2) = 32 ∧ ∃ ms, renderSolution (exPicture.take 2) 3 true none true = .ok ms := by
  refine ⟨?_, ⟨_, .head _, _, .head _, by simp [Tile.Blank]⟩, by decide, ?_⟩
  · intro r hr i hi x y
    simp only [exPicture, List.take, List.mem_cons, List.not_mem_nil, or_false] at hr
    rcases hr with rfl | rfl <;> simp only [List.mem_cons, List.not_mem_nil, or_false] at hi <;> rcases hi with rfl | rfl <;> simp
  · obtain ⟨ms, h⟩ := c88_renders_partial (s := exPicture.take 2) (fun r hr => exPicture_rect r (List.mem_of_mem_take hr))
      (fun r hr => exPicture_valid r (List.mem_of_mem_take hr)) (fun r hr => exPicture_noEmpty r (List.mem_of_mem_take hr))
      (fun r hr => exPicture_noInserter r (List.mem_of_mem_take hr)) 3 true true
    exact ⟨ms, h⟩

example : animationLength exPicture = 32 ∧ animationLength [[{ tile := .belt .up .up }]] = 16 := by decide

/-! ### C86: colours -/

/-- Without `--colour-count`, things of the same colour number get the same colour and things of different numbers different colours; what has
no number is grey and nothing else is. -/
theorem c86_distinct {s : Picture} {a : Nat} {ug : Bool} {ms : List Mark} (h : renderSolution s a true none ug = .ok ms) {m m' : Mark}
    (hm : m ∈ ms) (hm' : m' ∈ ms) : ∃ i i' c c', s.at m.x m.y = some i ∧ s.at m'.x m'.y = some i' ∧
      (i.colourOf m.what).shown = .ok c ∧ (i'.colourOf m'.what).shown = .ok c' ∧ (m.colour = m'.colour ↔ c = c') ∧ (m.colour = grey ↔ c = none) := by
  obtain ⟨pal, hp, hl, hu, rfl⟩ := renderSolution_iff.1 h
  obtain ⟨f, hf, h1, h2⟩ := palette_none s
  simp only [if_true, hf, Except.map, Except.ok.injEq] at hp
  subst hp
  obtain ⟨i, hi, c, hc, hpc⟩ := mark_of hl hu hm
  obtain ⟨i', hi', c', hc', hpc'⟩ := mark_of hl hu hm'
  refine ⟨i, i', c, c', hi, hi', hc, hc', ?_, ?_⟩
  · cases c with
    | none =>
      have e1 : grey = m.colour := Except.ok.inj hpc
      cases c' with
      | none =>
        have e2 : grey = m'.colour := Except.ok.inj hpc'
        exact ⟨fun _ => rfl, fun _ => e1.symm.trans e2⟩
      | some c' =>
        obtain ⟨rgb, e, hg⟩ := h1 c' (shown_used hi' hc')
        have e' : f c' = .ok m'.colour := hpc'
        have e2 := Except.ok.inj (e.symm.trans e')
        exact ⟨fun h => absurd (e2.trans (h.symm.trans e1.symm)) hg, fun h => by cases h⟩
    | some c =>
      have e : f c = .ok m.colour := hpc
      cases c' with
      | none =>
        have e1 : grey = m'.colour := Except.ok.inj hpc'
        obtain ⟨rgb, e2, hg⟩ := h1 c (shown_used hi hc)
        have e3 := Except.ok.inj (e2.symm.trans e)
        exact ⟨fun h => absurd (e3.trans (h.trans e1.symm)) hg, fun h => by cases h⟩
      | some c' =>
        have e' : f c' = .ok m'.colour := hpc'
        constructor
        · intro h
          rw [h2 c (shown_used hi hc) c' (shown_used hi' hc') (by rw [e, e', h])]
        · intro h
          cases h
          exact Except.ok.inj (e.symm.trans e')
  · cases c with
    | none =>
      have e1 : grey = m.colour := Except.ok.inj hpc
      exact ⟨fun _ => rfl, fun _ => e1.symm⟩
    | some c =>
      obtain ⟨rgb, e2, hg⟩ := h1 c (shown_used hi hc)
      have e : f c = .ok m.colour := hpc
      have e3 := Except.ok.inj (e2.symm.trans e)
      exact ⟨fun h => absurd (e3.trans h) hg, fun h => by cases h⟩

/-- With `--colour-count n` and all numbers from 0 to `n - 1`, every solution without inserters is drawn, things of different numbers have
different colours, and a number has the same colour in every solution. -/
theorem c86_count_partial {n : Int} (hn : 0 ≤ n) : ∃ rgb : Option Int → Rgb,
    (∀ c c', (∀ k, c = some k → 0 ≤ k ∧ k < n) → (∀ k, c' = some k → 0 ≤ k ∧ k < n) → rgb c = rgb c' → c = c') ∧
    ∀ s : Picture, (∀ c ∈ allColours s, 0 ≤ c ∧ c < n) →
      (s.Rect → s.Valid → s.NoEmptyColour → s.NoInserter → ∀ a ug, ∃ ms, renderSolution s a true (some n) ug = .ok ms) ∧
      ∀ a ug ms, renderSolution s a true (some n) ug = .ok ms → ∀ m ∈ ms, ∃ i c, s.at m.x m.y = some i ∧
        (i.colourOf m.what).shown = .ok c ∧ m.colour = rgb c := by
  -- the colours of an empty solution are those of every solution
  let f : Int → Except PyErr Rgb := fun c => if 0 ≤ c then pyIndex (createPalette n.toNat) c.toNat
    else if -n ≤ c then pyIndex (createPalette n.toNat) (n + c).toNat else .error .indexError
  have pals : ∀ s : Picture, ∀ f', palette s (some n) = .ok f' → f' = f := by
    intro s f' h
    simp only [palette] at h
    split at h
    · cases h; rfl
    · cases h
  have h0 : palette [] (some n) = .ok f := by
    simp only [palette, allColours, List.flatten_nil, List.flatMap_nil, List.filterMap_nil]
    rw [if_pos (by simpa using hn)]
  obtain ⟨p1, p2, -, -⟩ := palette_some h0
  refine ⟨fun c => match c with
    | none => grey
    | some c => match f c with | .ok r => r | .error _ => grey, ?_, ?_⟩
  · intro c c' hc hc' h
    cases c with
    | none =>
      cases c' with
      | none => rfl
      | some c' =>
        obtain ⟨r, e, hg⟩ := p1 c' (hc' c' rfl).1 (hc' c' rfl).2
        simp only [e] at h
        exact absurd h.symm hg
    | some c =>
      obtain ⟨r, e, hg⟩ := p1 c (hc c rfl).1 (hc c rfl).2
      cases c' with
      | none =>
        simp only [e] at h
        exact absurd h hg
      | some c' =>
        obtain ⟨r', e', hg'⟩ := p1 c' (hc' c' rfl).1 (hc' c' rfl).2
        simp only [e, e'] at h
        rw [p2 c c' (hc c rfl).1 (hc c rfl).2 (hc' c' rfl).1 (hc' c' rfl).2 (by rw [e, e', h])]
  · intro s hs
    have hlen : ((allColours s).length : Int) ≤ n := by
      have := List.subperm_of_subset (allColours_nodup s) (l₂ := (List.range n.toNat).map fun (k : Nat) => (k : Int)) (by
        intro c hc
        have := hs c hc
        exact List.mem_map.2 ⟨c.toNat, List.mem_range.2 (by omega), by simp [this.1]⟩)
      have := this.length_le
      simp at this
      omega
    have hpal : palette s (some n) = .ok f := by
      simp only [palette]
      rw [if_pos hlen]
    constructor
    · intro hr hv hc hni a ug
      refine renders_of hr hv hc hni a true (some n) ug (pal := some f) (by simp [hpal, Except.map]) fun c hcc => ?_
      cases c with
      | none => exact ⟨grey, rfl⟩
      | some c =>
        obtain ⟨r, e, _⟩ := p1 c (hs c (hcc c rfl)).1 (hs c (hcc c rfl)).2
        exact ⟨r, e⟩
    · intro a ug ms h m hm
      obtain ⟨pal, hp, hl, hu, rfl⟩ := renderSolution_iff.1 h
      simp only [if_true, hpal, Except.map, Except.ok.injEq] at hp
      subst hp
      obtain ⟨i, hi, c, hc, hpc⟩ := mark_of hl hu hm
      refine ⟨i, c, hi, hc, ?_⟩
      cases c with
      | none => exact (Except.ok.inj hpc).symm
      | some c =>
        have e : f c = .ok m.colour := hpc
        simp only [e]

/-- A solution whose colour numbers are not 0, 1, … is not drawn with `--colour-count`, even if the count is large enough for them. -/
theorem c86_count_refuted : ∃ s : Picture, s.Rect ∧ s.Valid ∧ s.NoInserter ∧ s.NoEmptyColour ∧ (allColours s).length ≤ 2 ∧
    (∃ ms, renderSolution s 0 true none false = .ok ms) ∧ renderSolution s 0 true (some 2) false = .error .indexError := by
  have hs : ∀ P : Item → Prop, P { tile := .belt .up .up, colour := .one 5 } →
      ∀ r ∈ ([[{ tile := .belt .up .up, colour := .one 5 }]] : Picture), ∀ i ∈ r, P i := by
    intro P hP r hr i hi
    simp only [List.mem_singleton] at hr; subst hr
    simp only [List.mem_singleton] at hi; subst hi
    exact hP
  have hr : Picture.Rect [[{ tile := .belt .up .up, colour := .one 5 }]] := by
    intro r hr; simp only [List.mem_singleton] at hr; rw [hr]; rfl
  have hv : Picture.Valid [[{ tile := .belt .up .up, colour := .one 5 }]] := hs (fun i => i.tile.Valid) (by decide)
  have hn : Picture.NoInserter [[{ tile := .belt .up .up, colour := .one 5 }]] := hs (fun i => ∀ d t, i.tile ≠ .inserter d t) (by simp)
  have he : Picture.NoEmptyColour [[{ tile := .belt .up .up, colour := .one 5 }]] :=
    hs (fun i => i.colour ≠ .many [] ∧ i.colourUx ≠ .many [] ∧ i.colourUy ≠ .many []) (by simp)
  exact ⟨_, hr, hv, hn, he, by decide +kernel, c88_renders_partial hr hv he hn 0 true false, by rfl⟩

/-- The numbers -1 and 1 have the same colour with `--colour-count 2`. -/
theorem c86_negative_refuted : ∃ s : Picture, ∃ ms, renderSolution s 0 true (some 2) false = .ok ms ∧ ∃ i i' : Item, ∃ m ∈ ms, ∃ m' ∈ ms,
    s.at m.x m.y = some i ∧ s.at m'.x m'.y = some i' ∧ i.colour = .one 1 ∧ i'.colour = .one (-1) ∧ m.colour = m'.colour := by
  refine ⟨[[{ tile := .belt .up .up, colour := .one 1, colourUx := .null, colourUy := .null },
    { tile := .belt .up .up, colour := .one (-1), colourUx := .null, colourUy := .null }]], _, rfl, _, _, _, .tail _ (.head _), _, .head _,
    rfl, rfl, rfl, rfl, rfl⟩

end FSat
