import Verif.Lemmas.FillSpan
import Verif.Props.Samples
/-!
# C60: removing empty underground spans

`fillSpan g.nb T p d k` is the layout `T` with straight belts on the cells from `p` to `k` steps ahead.
-/

namespace FSat

/-- C60: replacing an empty underground span by surface belts keeps the basic rules, the belts into and out of the layout and the
colours, if no splitter half points at one of its cells from the side.  Missing: spans at which a splitter half does point, where
the claim is false (`c60_side_refuted`). -/
theorem c60_fill_partial {g : Grid} (hg : g.WF) {T : Nat × Nat → Tile} {shutB shutU : Nat × Nat → Dir → Prop} {L : Option Nat} {n : Nat}
    {col : Nat × Nat → Nat} (hr : BasicRules g.In g.nb T shutB shutU L) (hc : ColourRules g.In g.nb T n col)
    (hS : ∀ a e b, shutB a e → g.nb a e = some b → shutU a e) {p q : Nat × Nat} {d : Dir} {k : Nat} (hp : g.In p)
    (hs : EmptySpan g.nb T p q d k)
    (hside : ∀ s b e h, g.In s → T s = .splitter e h → g.nb s e = some b → OnSpan g.nb p d k b → e = d) :
    BasicRules g.In g.nb (fillSpan g.nb T p d k) shutB shutU L ∧ SameEnds g.nb T g.In (fillSpan g.nb T p d k) ∧
    ∃ col', ColourRules g.In g.nb (fillSpan g.nb T p d k) n col' ∧ ∀ r, T r ≠ .empty → col' r = col r := by
  have h : SpanAt g T shutB shutU L p q d k := ⟨hg, hr, hp, hs, hside, hS⟩
  exact ⟨h.basicRules, h.sameEnds, _, (h.colours hc).1, (h.colours hc).2⟩

/-- C60: so, where no splitter half points at an empty cell or at the side of an underground belt, every solution of the basic clauses
has a counterpart that also satisfies the clauses of `prevent_empty_along_underground`: the same belts lead in and out, tiles differ
only where empty cells and underground ends became straight belts, and colours are kept. -/
theorem c60_solutions_partial {width height : Nat} (hw : 0 < width) (hh : 0 < height) (edge : EdgeMode) (colours ugLen : Option Nat)
    (hn : ∀ n, colours = some n → 1 ≤ n) (hL : ∀ l, ugLen = some l → 1 ≤ l) (extras : TFields) (s : Nat) (eB eU : Edges)
    (hE : ∀ d, (mkGrid width height edge colours ugLen extras s).wraps d = false → eU.sel d = true)
    (hBU : ∀ d, eB.sel d = true → eU.sel d = true) :
    ∃ cs, basicClauses (mkGrid width height edge colours ugLen extras s) eB eU = .ok cs ∧
    ∀ (v : Asg) (T : Nat × Nat → Tile),
      let g := mkGrid width height edge colours ugLen extras s
      Sat v cs → Decodes g v T → SplittersLead g.nb T g.In →
      ∃ v' T', Sat v' cs ∧ Sat v' (preventEmptyAlongUnderground g) ∧ Decodes g v' T' ∧ SameEnds g.nb T g.In T' ∧
        (∀ r, T' r = T r ∨ ∃ d, T' r = .belt d d ∧ (T r = .empty ∨ ∃ b, T r = .underground d b)) ∧
        ∀ r, g.In r → T r ≠ .empty → value v' (g.at' r).colour = value v (g.at' r).colour := by
  obtain ⟨cs, h1, h2⟩ := c58_exact hw hh edge colours ugLen hn hL extras s eB eU hE
  have hg := mkGrid_wf hw hh edge colours ugLen hn extras s
  refine ⟨cs, h1, ?_⟩
  intro v T g hv hT hl
  obtain ⟨hr, hc⟩ := (h2 T fun p => value v (g.at' p).colour).1 ⟨v, hv, hT, fun _ _ => rfl⟩
  obtain ⟨T', col', k1, k2, k3, k4, k5⟩ := fill_all (g := g) hg (fun a e b hs _ => ⟨hBU e hs.1, hs.2⟩) _ T _ rfl hr hc hl
  obtain ⟨v', e1, e2, e3⟩ := (h2 T' col').2 ⟨k1, k2⟩
  have hs : Solved g v' T' := by
    obtain ⟨ci, hi1, _⟩ := init_iff hg
    rw [basicClauses, hi1] at h1
    split at h1
    · rename_i a b c x1 x2 x3
      cases x1; cases h1
      simp only [Sat_append] at e1
      exact ⟨hg, ⟨ci, hi1, e1.1.1.1.1.1.1⟩, e1.1.1.1.1.1.2, e1.1.1.1.1.2, e2⟩
    · cases h1
  refine ⟨v', T', e1, (Sat_emptySpans hs.base).2 fun p q d k hp _ => k5 p q d k hp, e2, k4.ends, k4.tiles, fun r hr hne => ?_⟩
  rw [e3 r hr]; exact k4.colours r hne

theorem spanSample_pattern : EmptySpan spanSample.grid.nb spanSample.layout (0, 0) (2, 0) .right 2 := by
  have h : ∀ i, 0 < i → i < 2 → ∀ r, walk spanSample.grid.nb (0, 0) .right i = some r → r = (1, 0) := by
    intro i h1 h2 r hr
    obtain rfl : i = 1 := by omega
    have : walk spanSample.grid.nb (0, 0) .right 1 = some (1, 0) := by decide
    rw [this] at hr; cases hr; rfl
  refine ⟨⟨by decide, by decide, rfl, rfl, fun i h1 h2 r hr => ?_⟩, fun i h1 h2 r hr => ?_⟩
  · obtain rfl := h i h1 h2 r hr
    show ¬ Tile.UgAlong .empty .right
    simp [Tile.UgAlong]
  · obtain rfl := h i h1 h2 r hr; rfl

/-- The layout with one empty span, no splitters, satisfies the hypotheses. -/
example : SplittersLead spanSample.grid.nb spanSample.layout spanSample.grid.In ∧
    (∃ cs, basicClauses spanSample.grid (.ofBool false) (.ofBool true) = .ok cs ∧ Sat spanSample.asg cs) ∧
    Decodes spanSample.grid spanSample.asg spanSample.layout ∧
    EmptySpan spanSample.grid.nb spanSample.layout (0, 0) (2, 0) .right 2 := by
  refine ⟨?_, okSat_iff.1 (by decide +kernel), spanSample_solved.decodes, spanSample_pattern⟩
  intro s b e h _ ht
  exfalso
  have : ∀ r e b, spanSample.layout r ≠ .splitter e b := by
    intro r e b
    show (match r with
      | (0, 0) => Tile.underground .right true
      | (2, 0) => .underground .right false
      | _ => .empty) ≠ _
    split <;> simp
  exact this s e h ht

/-- C60: where a splitter half points from the side at the entrance of an empty span, the layout with belts in its place breaks the
rules: the splitter would put items onto the side of the belt. -/
theorem c60_side_refuted : ∃ (g : Grid) (T : Nat × Nat → Tile) (p q : Nat × Nat) (d : Dir) (k : Nat) (eB eU : Edges),
    g.WF ∧ BasicRules g.In g.nb T (g.shut eB) (g.shut eU) g.ugLen ∧ (∀ e, eB.sel e = true → eU.sel e = true) ∧ g.In p ∧
    EmptySpan g.nb T p q d k ∧ ¬ BasicRules g.In g.nb (fillSpan g.nb T p d k) (g.shut eB) (g.shut eU) g.ugLen := by
  obtain ⟨cs, h1, h2⟩ := c58_exact (width := 4) (height := 2) (by decide) (by decide) ⟨false, false⟩ none (some 4)
    (by intro n h; cases h) (by intro n h; cases h; decide) .nil 0 (.ofBool false) (.ofBool true)
    (by intro d _; cases d <;> rfl)
  obtain ⟨cs', h3, h4⟩ := (okSat_iff (v := sideSample.asg) (e := basicClauses sideSample.grid (.ofBool false) (.ofBool true))).1
    (by decide +kernel)
  have : cs' = cs := by have := h3.symm.trans h1; cases this; rfl
  subst this
  refine ⟨sideSample.grid, sideSample.layout, (1, 1), (3, 1), .right, 2, .ofBool false, .ofBool true, sideSample_solved.wf,
    ((h2 sideSample.layout _).1 ⟨sideSample.asg, h4, sideSample_solved.decodes, fun _ _ => rfl⟩).1, ?_, by constructor <;> decide, ?_, ?_⟩
  · intro e h; cases e <;> cases h
  · have h : ∀ i, 0 < i → i < 2 → ∀ r, walk sideSample.grid.nb (1, 1) .right i = some r → r = (2, 1) := by
      intro i h1 h2 r hr
      obtain rfl : i = 1 := by omega
      have : walk sideSample.grid.nb (1, 1) .right 1 = some (2, 1) := by decide
      rw [this] at hr; cases hr; rfl
    refine ⟨⟨by decide, by decide, rfl, rfl, fun i h1 h2 r hr => ?_⟩, fun i h1 h2 r hr => ?_⟩
    · obtain rfl := h i h1 h2 r hr
      show ¬ Tile.UgAlong .empty .right
      simp [Tile.UgAlong]
    · obtain rfl := h i h1 h2 r hr; rfl
  · intro hb
    have hoff : fillSpan sideSample.grid.nb sideSample.layout (1, 1) .right 2 (1, 0) = .splitter .down false := by
      rw [fillSpan, if_neg]
      · rfl
      · rintro ⟨i, hi, hw⟩
        have : i = 0 ∨ i = 1 ∨ i = 2 := by omega
        rcases this with rfl | rfl | rfl <;> revert hw <;> decide
    have hon : fillSpan sideSample.grid.nb sideSample.layout (1, 1) .right 2 (1, 1) = .belt .right .right :=
      if_pos ⟨0, by decide, rfl⟩
    have := hb.ends.noLeak (1, 0) (1, 1) .down false (by constructor <;> decide) hoff (by decide) _ _ hon
    cases this

end FSat
