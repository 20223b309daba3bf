import Verif.Lemmas.OptimiseLines
import Verif.Lemmas.OptimiseSpans
import Verif.Props.Spans
/-!
# C59: what the generic optimisations forbid

`Solved g v T`: the assignment `v` satisfies the clauses every application has and decodes to the layout `T`.  The patterns are
defined in `Verif/Spec/Optimise.lean`.
-/

namespace FSat

section
variable {g : Grid} {v : Asg} {T : Nat × Nat → Tile}

/-- C59: `prevent_small_loops` rejects exactly the layouts with a loop of four belts. -/
theorem c59_small_loops (h : Solved g v T) : Sat v (preventSmallLoops g) ↔
    ∀ x y, x + 1 < g.width → y + 1 < g.height → ¬ SmallLoop T x y := Sat_smallLoops h.base

example : loopSample.Solved ∧ SmallLoop loopSample.layout 0 0 := ⟨loopSample_solved, by unfold SmallLoop; decide⟩

/-- C59: `prevent_empty_along_underground` rejects exactly the layouts with an underground pair, within the length limit, over empty
cells only. -/
theorem c59_empty_span (h : Solved g v T) : Sat v (preventEmptyAlongUnderground g) ↔
    ∀ p q d k, g.In p → (∀ L, g.ugLen = some L → k - 1 ≤ L) → ¬ EmptySpan g.nb T p q d k := Sat_emptySpans h.base

example : spanSample.Solved ∧ EmptySpan spanSample.grid.nb spanSample.layout (0, 0) (2, 0) .right 2 :=
  ⟨spanSample_solved, spanSample_pattern⟩

/-- C59: `shrink_underground` rejects exactly the layouts with an empty cell directly inside an underground end. -/
theorem c59_shrink (h : Solved g v T) : Sat v (shrinkUnderground g) ↔
    ∀ p d, g.In p → ¬ EmptyAfterEntrance g.nb T p d ∧ ¬ EmptyBeforeExit g.nb T p d := Sat_shrink h.base

example : spanSample.Solved ∧ EmptyAfterEntrance spanSample.grid.nb spanSample.layout (0, 0) .right ∧
    EmptyBeforeExit spanSample.grid.nb spanSample.layout (2, 0) .right :=
  ⟨spanSample_solved, ⟨rfl, (1, 0), by decide, rfl⟩, rfl, (1, 0), by decide, rfl⟩

/-- C59: `glue_splitters` rejects exactly the layouts with a splitter that has straight belts behind both halves, except splitters
facing right with their head in the second or the last but one column. -/
theorem c59_glue (h : Solved g v T) : Sat v (glueSplitters g) ↔
    ∀ p d, g.In p → ¬ (d = .right ∧ (p.1 = 1 ∨ p.1 + 2 = g.width)) → ¬ GluedSplitter g.nb T p d := Sat_glue h.base

example : glueSample.Solved ∧ GluedSplitter glueSample.grid.nb glueSample.layout (0, 1) .down :=
  ⟨glueSample_solved, rfl, (0, 0), (1, 0), by decide, by decide, rfl, rfl⟩

/-- C59: `prevent_belt_hooks`. -/
theorem c59_belt_hooks (h : Solved g v T) : Sat v (preventBeltHooks g) ↔
    ∀ p d t, g.In p → d.Across t → ¬ BeltHook g.nb T p d t := Sat_beltHooks h.base

example : hookSample.Solved ∧ Dir.up.Across .right ∧ BeltHook hookSample.grid.nb hookSample.layout (0, 1) .up .right :=
  ⟨hookSample_solved, .inr rfl, (0, 0), (1, 0), (1, 1), by decide, by decide, by decide, .inl rfl, rfl, rfl, .inr rfl⟩

/-- C59: `prevent_mergeable_underground` rejects exactly the layouts with two underground pairs in a line that one pair within the
length limit could replace.  In a wrapping grid only as far as the two together are not longer than the longer side of the grid. -/
theorem c59_mergeable (h : Solved g v T) : Sat v (preventMergeableUnderground g) ↔
    ∀ p d k m, g.In p → (∀ L, g.ugLen = some L → k + m ≤ L) → k + m + 2 ≤ max g.width g.height →
      ¬ MergeablePair g.nb T p d k m := Sat_mergeable h.base

/-- C59: without wrapping, nothing is said about the size of the grid. -/
theorem c59_mergeable_flat (h : Solved g v T) (hx : g.edge.wrapX = false) (hy : g.edge.wrapY = false) :
    Sat v (preventMergeableUnderground g) ↔
      ∀ p d k m, g.In p → (∀ L, g.ugLen = some L → k + m ≤ L) → ¬ MergeablePair g.nb T p d k m := by
  rw [c59_mergeable h]
  refine ⟨fun hh p d k m hp hL hm => hh p d k m hp hL ?_ hm, fun hh p d k m hp hL _ => hh p d k m hp hL⟩
  obtain ⟨q, r, s, h1, h2, h3⟩ := hm
  have hw : walk g.nb p d (k + 1 + m) = some s := by
    rw [walk_add, walk, h1.2.1]
    simp only [Option.bind_some, h2]
    exact h3.2.1
  by_contra hc
  have hlen : g.len d ≤ max g.width g.height := by
    unfold Grid.len; split
    · exact Nat.le_max_left _ _
    · exact Nat.le_max_right _ _
  obtain ⟨z, hz, _⟩ := walk_le hw (i := g.len d) (by omega)
  rw [Grid.walk_len h.wf hp] at hz
  have : g.wraps d = false := by cases d <;> simp [Grid.wraps, hx, hy]
  simp [this] at hz

example : mergeSample.Solved ∧ MergeablePair mergeSample.grid.nb mergeSample.layout (0, 0) .right 2 2 := by
  refine ⟨mergeSample_solved, (2, 0), (3, 0), (5, 0), ⟨by decide, by decide, rfl, rfl, fun i h1 h2 r hr => ?_⟩, by decide,
    ⟨by decide, by decide, rfl, rfl, fun i h1 h2 r hr => ?_⟩⟩
  all_goals
    obtain rfl : i = 1 := by omega
  · have : walk mergeSample.grid.nb (0, 0) .right 1 = some (1, 0) := by decide
    rw [this] at hr; cases hr
    show ¬ Tile.UgAlong .empty .right
    simp [Tile.UgAlong]
  · have : walk mergeSample.grid.nb (3, 0) .right 1 = some (4, 0) := by decide
    rw [this] at hr; cases hr
    show ¬ Tile.UgAlong .empty .right
    simp [Tile.UgAlong]

/-- C59: `prevent_semicircles`. -/
theorem c59_semicircles (h : Solved g v T) : Sat v (preventSemicircles g) ↔
    ∀ p d t, g.In p → d.Across t → ¬ Semicircle g.nb T p d t := Sat_semicircles h.base

example : semiSample.Solved ∧ Dir.right.Across .down ∧ Semicircle semiSample.grid.nb semiSample.layout (0, 0) .right .down :=
  ⟨semiSample_solved, .inr rfl, (1, 0), (2, 0), (0, 1), (1, 1), (2, 1), by decide, by decide, by decide, by decide, by decide,
    by decide, rfl, .inl rfl, rfl, rfl, rfl, .inr rfl⟩

/-- C59: `prevent_underground_hook`. -/
theorem c59_underground_hooks (h : Solved g v T) : Sat v (preventUndergroundHook g) ↔
    ∀ p d t, g.In p → d.Across t → ¬ EntranceHook g.nb T p d t ∧ ¬ ExitHook g.nb T p d t := Sat_ugHook h.base

example : entSample.Solved ∧ Dir.right.Across .up ∧ EntranceHook entSample.grid.nb entSample.layout (1, 0) .right .up :=
  ⟨entSample_solved, .inl rfl, (2, 0), (0, 0), (0, 1), (1, 1), by decide, by decide, by decide, by decide, rfl, rfl, rfl, rfl, .inl rfl⟩

example : exitSample.Solved ∧ Dir.right.Across .up ∧ ExitHook exitSample.grid.nb exitSample.layout (1, 0) .right .up :=
  ⟨exitSample_solved, .inl rfl, (2, 0), (0, 0), (0, 1), (1, 1), by decide, by decide, by decide, by decide, rfl, rfl, rfl, rfl, .inl rfl⟩

/-- C59: `prevent_zigzags` never fails. -/
theorem c59_zigzags (hg : g.WF) : ∃ cs, preventZigzags g = .ok cs ∧ ∀ v T, Solved g v T →
    (Sat v cs ↔ ∀ p d t, g.In p → d.Across t → ¬ Zigzag g.nb T p d t) := by
  obtain ⟨cs, h1, h2⟩ := zigzags_iff hg
  exact ⟨cs, h1, fun v T h => h2 v T h.base⟩

example : zigSample.Solved ∧ Dir.right.Across .down ∧ Zigzag zigSample.grid.nb zigSample.layout (0, 0) .right .down :=
  ⟨zigSample_solved, .inr rfl, (1, 0), (0, 1), (1, 1), by decide, by decide, by decide, rfl, rfl, rfl, rfl⟩

/-- C59: `expand_underground` with a length limit rejects exactly the layouts with an underground pair, shorter than the limit, that
has a straight belt before or behind it, all within the window. -/
theorem c59_expand (hg : g.WF) (w : Window) (hw : w.Inside g) (L : Nat) (hL : g.ugLen = some L) :
    ∃ cs, expandUnderground g w = .ok cs ∧ ∀ v T, Solved g v T →
      (Sat v cs ↔ ∀ (p : Nat × Nat) (d : Dir) (k : Nat), g.In p → InBox w.minX w.minY (w.hiX g) (w.hiY g) p.1 p.2 →
        InBox w.minX w.minY (w.hiX g) (w.hiY g) (p.1 + d.dx * (k + 1)) (p.2 + d.dy * (k + 1)) → k ≤ L →
        ¬ BeltIntoUnderground g.nb T p d k ∧ ¬ UndergroundIntoBelt g.nb T p d k) := by
  obtain ⟨cs, h1, h2⟩ := expandFinite_iff hg w hw L hL
  exact ⟨cs, h1, fun v T h => h2 v T h.base⟩

example : beltUgSample.Solved ∧ beltUgSample.grid.ugLen = some 4 ∧ ({} : Window).Inside beltUgSample.grid ∧
    InBox 0 0 (({} : Window).hiX beltUgSample.grid) (({} : Window).hiY beltUgSample.grid) (0 + Dir.right.dx * (2 + 1))
      (0 + Dir.right.dy * (2 + 1)) ∧
    BeltIntoUnderground beltUgSample.grid.nb beltUgSample.layout (0, 0) .right 2 := by
  refine ⟨beltUgSample_solved, rfl, ?_, by decide, rfl, (1, 0), (3, 0), by decide, by decide, by decide, rfl, rfl, fun i h1 h2 r hr => ?_⟩
  · unfold Window.Inside; decide
  · obtain rfl : i = 1 := by omega
    have : walk beltUgSample.grid.nb (1, 0) .right 1 = some (2, 0) := by decide
    rw [this] at hr; cases hr
    show ¬ Tile.UgAlong .empty .right
    simp [Tile.UgAlong]

/-- C59: without a limit, exactly the layouts with a straight belt directly before an entrance or behind an exit. -/
theorem c59_expand_unlimited (hg : g.WF) (w : Window) (hw : w.Inside g) (hL : g.ugLen = none) :
    ∃ cs, expandUnderground g w = .ok cs ∧ ∀ v T, Solved g v T →
      (Sat v cs ↔ ∀ (p q : Nat × Nat) d, g.In p → g.nb p d = some q → InBox w.minX w.minY (w.hiX g) (w.hiY g) p.1 p.2 →
        InBox w.minX w.minY (w.hiX g) (w.hiY g) (p.1 + d.dx) (p.2 + d.dy) →
        ¬ (T p = .belt d d ∧ T q = .underground d true) ∧ ¬ (T p = .underground d false ∧ T q = .belt d d)) := by
  obtain ⟨cs, h1, h2⟩ := expandInfinite_iff hg w hw hL
  exact ⟨cs, h1, fun v T h => h2 v T h.base⟩

example : beltUgFreeSample.Solved ∧ beltUgFreeSample.grid.ugLen = none ∧ ({} : Window).Inside beltUgFreeSample.grid ∧
    beltUgFreeSample.grid.nb (0, 0) .right = some (1, 0) ∧
    beltUgFreeSample.layout (0, 0) = .belt .right .right ∧ beltUgFreeSample.layout (1, 0) = .underground .right true :=
  ⟨beltUgFreeSample_solved, rfl, by unfold Window.Inside; decide, by decide, rfl, rfl⟩

/-- C59: `glue_partial_splitters` rejects exactly the layouts with a splitter facing `d` that has an input in one half only and straight
belts in front of both, in the columns up to the last but one. -/
theorem c59_loose_splitters (hg : g.WF) : ∃ cs, gluePartialSplitters g = .ok cs ∧ ∀ v T, Solved g v T →
    (Sat v cs ↔ ∀ p d, g.In p → (p.1 : Int) ≤ g.width - 2 → (p.1 : Int) + d.ccw.dx + d.dx ≤ g.width - 2 →
      ¬ LooseSplitter g.nb T (fun q e => (g.vals v q).inp e = true) p d) := by
  obtain ⟨cs, h1, h2⟩ := gluePartial_iff hg
  exact ⟨cs, h1, fun v T h => h2 v T h.base⟩

example : looseSample.Solved ∧
    LooseSplitter looseSample.grid.nb looseSample.layout (fun q e => (looseSample.grid.vals looseSample.asg q).inp e = true) (0, 1) .right :=
  ⟨looseSample_solved, (0, 0), (1, 1), (1, 0), ⟨rfl, by decide, rfl⟩, by decide, by decide, rfl, rfl,
    .inl ⟨by decide +kernel, by decide +kernel⟩⟩

/-- C59: what `prevent_belt_parallel_splitter` rejects.  Missing from the full claim: that only layouts with a belt passing one half of a
splitter and turning into the other are rejected, which is false (`c59_parallel_refuted`). -/
theorem c59_parallel_partial (hg : g.WF) : ∃ cs, preventBeltParallelSplitter g = .ok cs ∧ ∀ v T, Solved g v T →
    (Sat v cs ↔ ∀ p d a, g.In p → d.Across a → ¬ BeltBesideSplitter g.nb T (fun q e => (g.vals v q).out e = true) p d a) := by
  obtain ⟨cs, h1, h2⟩ := parallel_iff hg
  exact ⟨cs, h1, fun v T h => h2 v T h.base⟩

/-- C59: a belt that passes the near half of a splitter and turns into the far half is rejected. -/
theorem c59_parallel_rejects (h : Solved g v T) {cs : Cnf} (hc : preventBeltParallelSplitter g = .ok cs) {p : Nat × Nat} {d a : Dir}
    (hp : g.In p) (ha : d.Across a) (hpat : BeltAlongSplitter g.nb T p d a) : ¬ Sat v cs := by
  obtain ⟨cs', h1, h2⟩ := parallel_iff h.wf
  rw [hc] at h1; cases h1
  rw [h2 v T h.base]
  intro hno
  obtain ⟨q, near, far, e1, e2, e3, k1, k2, k3⟩ := hpat
  have hb := h.base
  have iq := Grid.nb_in h.wf e1
  have inear := Grid.nb_in h.wf e2
  have hfar : g.nb near d = some far := by
    have := Grid.nb_comm h.wf hp ha
    rw [e1, e2] at this
    simp only [Option.bind_some] at this
    rw [← this]; exact e3
  have hnear : ∃ hd, T near = .splitter a hd := by
    split at k3
    · exact ⟨_, k3.1⟩
    · exact ⟨_, k3.2.2⟩
  have hout : (g.vals v near).out a = true := by
    obtain ⟨hd, hn⟩ := hnear
    have hag := hb.lays near inear
    rw [hn] at hag
    rcases hag.2.2.2.2 with hi | ho
    · rw [← (hb.inter a p near hp e2).1] at hi
      have hpp := hb.lays p hp
      rcases k1 with k1 | k1 <;> rw [k1] at hpp <;>
        exact absurd ((hpp.2.2.2.1 a).1 hi) ha.ne.1.symm
    · exact ho
  refine hno p d a hp ha ⟨q, near, far, e1, e2, hfar, k1, hout, a, ?_⟩
  rcases ha with rfl | rfl
  · rw [if_neg (by cases d <;> decide)] at k3
    simpa using k3.1
  · rw [if_pos (by cases d <;> decide)] at k3
    rw [k3.2.2]
    cases d <;> rfl

example : alongSample.Solved ∧ Dir.up.Across .right ∧ BeltAlongSplitter alongSample.grid.nb alongSample.layout (0, 1) .up .right :=
  ⟨alongSample_solved, .inr rfl, (0, 0), (1, 1), (1, 0), by decide, by decide, by decide, .inl rfl, rfl, rfl, by decide, rfl⟩

/-- C59: but it also rejects layouts without such a belt, here one in which no belt leads sideways into a splitter. -/
theorem c59_parallel_refuted : ∃ (g : Grid) (v : Asg) (T : Nat × Nat → Tile) (cs : Cnf), Solved g v T ∧
    preventBeltParallelSplitter g = .ok cs ∧ (∀ p d a, g.In p → d.Across a → ¬ BeltAlongSplitter g.nb T p d a) ∧ ¬ Sat v cs := by
  obtain ⟨cs, h1, h2⟩ := parallel_iff besideSample_solved.wf
  refine ⟨_, _, _, cs, besideSample_solved, h1, ?_, fun hs => ?_⟩
  · have key : ∀ q ∈ besideSample.grid.cells, ∀ d ∈ Dir.all, ∀ a ∈ Dir.all, d ≠ a → besideSample.layout q = .belt d a →
        ∀ b, (besideSample.grid.nb q a).map besideSample.layout ≠ some (.splitter a b) := by decide +kernel
    rintro p d a hp ha ⟨q, near, far, e1, e2, e3, _, k2, k3⟩
    have hfar : ∃ b, besideSample.layout far = .splitter a b := by
      split at k3
      · exact ⟨_, k3.2.2⟩
      · exact ⟨_, k3.1⟩
    obtain ⟨b, hb⟩ := hfar
    refine key q ((Grid.mem_cells _ _).2 (Grid.nb_in besideSample_solved.wf e1)) d (by cases d <;> decide) a (by cases a <;> decide)
      ha.ne.1 k2 b ?_
    rw [e3, Option.map_some, hb]
  · refine (h2 _ _ besideSample_solved.base).1 hs (1, 3) .up .right (by constructor <;> decide) (.inr rfl)
      ⟨(1, 2), (2, 3), (2, 2), by decide, by decide, by decide, .inl rfl, ?_, .left, rfl⟩
    decide +kernel

/-- C59: `prevent_spirals` forbids nothing. -/
theorem c59_spirals (g : Grid) : preventSpirals g = .ok [] := by
  have conc : ∀ {α : Type} (f : α → Except PyErr Cnf) (l : List α), (∀ a, f a = .ok []) → concatE f l = .ok [] := by
    intro α f l hf
    induction l with
    | nil => rfl
    | cons a l ih => rw [concatE, hf a]; simp only [ih]; rfl
  unfold preventSpirals
  refine conc _ _ fun d => conc _ _ fun a => ?_
  have ha : a.dx.natAbs + a.dy.natAbs = 1 := by cases a <;> rfl
  have hd : d.dx.natAbs + d.dy.natAbs = 1 := by cases d <;> rfl
  have hb : ∃ bs, g.blocks a 3 d 3 none = .ok bs ∧ ∀ b ∈ bs, ∃ x r rest, b = (x :: r) :: rest := by
    unfold Grid.blocks iterateTileBlocks
    simp only [ha, hd, ne_eq, not_true_eq_false, if_false, show (3 : Nat) ≠ 0 by decide]
    refine ⟨_, rfl, fun b hb => ?_⟩
    simp only [List.mem_map, List.mem_flatMap, List.mem_range] at hb
    obtain ⟨c, ⟨x, hx, y, hy, hm⟩, rfl⟩ := hb
    split at hm
    · rw [List.mem_singleton] at hm
      subst hm
      simp only [show List.range 3 = [0, 1, 2] from rfl, List.map_cons, List.map_nil]
      exact ⟨_, _, _, rfl⟩
    · cases hm
  obtain ⟨bs, h1, h2⟩ := hb
  simp only [h1]
  congr 1
  rw [List.flatMap_eq_nil_iff]
  intro b hb
  obtain ⟨x, r, rest, rfl⟩ := h2 b hb
  simp

/-- C59: `apply_generic_optimisations` never fails, and a layout that passes has none of the patterns. -/
theorem c59_generic (hg : g.WF) : ∃ cs, applyGenericOptimisations g = .ok cs ∧ ∀ v T, Solved g v T →
    (Sat v cs ↔
      (∀ x y, x + 1 < g.width → y + 1 < g.height → ¬ SmallLoop T x y) ∧
      (∀ p q d k, g.In p → (∀ L, g.ugLen = some L → k - 1 ≤ L) → ¬ EmptySpan g.nb T p q d k) ∧
      (∀ p d, g.In p → ¬ (d = .right ∧ (p.1 = 1 ∨ p.1 + 2 = g.width)) → ¬ GluedSplitter g.nb T p d) ∧
      (∀ p d t, g.In p → d.Across t → ¬ BeltHook g.nb T p d t ∧ ¬ Semicircle g.nb T p d t ∧
        ¬ EntranceHook g.nb T p d t ∧ ¬ ExitHook g.nb T p d t ∧ ¬ Zigzag g.nb T p d t ∧
        ¬ BeltBesideSplitter g.nb T (fun q e => (g.vals v q).out e = true) p d t) ∧
      (∀ p d k m, g.In p → (∀ L, g.ugLen = some L → k + m ≤ L) → k + m + 2 ≤ max g.width g.height →
        ¬ MergeablePair g.nb T p d k m) ∧
      (∀ p d, g.In p → (p.1 : Int) ≤ g.width - 2 → (p.1 : Int) + d.ccw.dx + d.dx ≤ g.width - 2 →
        ¬ LooseSplitter g.nb T (fun q e => (g.vals v q).inp e = true) p d)) := by
  obtain ⟨cz, z1, z2⟩ := zigzags_iff hg
  obtain ⟨cp, p1, p2⟩ := parallel_iff hg
  obtain ⟨cl, l1, l2⟩ := gluePartial_iff hg
  refine ⟨_, by rw [applyGenericOptimisations, z1, p1, l1]; rfl, fun v T h => ?_⟩
  have hb := h.base
  simp only [Sat_append, Sat_smallLoops hb, Sat_emptySpans hb, Sat_glue hb, Sat_beltHooks hb, Sat_mergeable hb, Sat_semicircles hb,
    Sat_ugHook hb, z2 v T hb, p2 v T hb, l2 v T hb]
  constructor
  · rintro ⟨⟨⟨⟨⟨⟨⟨a, b⟩, c⟩, d⟩, e⟩, f⟩, g'⟩, h', i, j⟩
    exact ⟨a, b, c, fun p x t hp hx => ⟨d p x t hp hx, f p x t hp hx, (g' p x t hp hx).1, (g' p x t hp hx).2, h' p x t hp hx,
      i p x t hp hx⟩, e, j⟩
  · rintro ⟨a, b, c, d, e, j⟩
    exact ⟨⟨⟨⟨⟨⟨⟨a, b⟩, c⟩, fun p x t hp hx => (d p x t hp hx).1⟩, e⟩, fun p x t hp hx => (d p x t hp hx).2.1⟩,
      fun p x t hp hx => ⟨(d p x t hp hx).2.2.1, (d p x t hp hx).2.2.2.1⟩⟩, fun p x t hp hx => (d p x t hp hx).2.2.2.2.1,
      fun p x t hp hx => (d p x t hp hx).2.2.2.2.2, j⟩

/-- A layout that passes. -/
example : ∃ cs, applyGenericOptimisations cleanSample.grid = .ok cs ∧ Sat cleanSample.asg cs :=
  okSat_iff.1 (by decide +kernel)

end

end FSat
