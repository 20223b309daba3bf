import Verif.Props.NetFreeExact
import Verif.Lemmas.CheckClauses
/-!
# C84: a balancer that the net-free program leaves out
-/

namespace FSat

/-- The layout of the example. -/
def missRows : List (List Tile) := [
  [.empty, .belt .left .down, .belt .left .left, .belt .left .left, .belt .left .left, .belt .up .left, .empty, .empty, .empty, .empty],
  [.empty, .belt .down .right, .splitter .right false, .underground .right true, .empty, .belt .up .up, .underground .right false,
    .belt .right .down, .empty, .empty],
  [.belt .right .right, .belt .right .right, .splitter .right true, .belt .right .right, .splitter .right false, .belt .right .up, .empty,
    .belt .down .right, .splitter .right false, .belt .right .right],
  [.belt .right .right, .belt .right .right, .belt .right .right, .belt .right .right, .splitter .right true, .belt .right .right,
    .belt .right .right, .belt .right .right, .splitter .right true, .belt .right .right]]

/-- The layout of the example, cell by cell. -/
def missLayout (p : Nat × Nat) : Tile := (missRows.getD p.2 []).getD p.1 .empty

/-- Its grid. -/
def missGrid : Grid := mkGrid 10 4 ⟨false, false⟩ none (some 4) (nToNFields 1 2) 0

/-- An assignment that decodes to it. -/
def missAsg : Asg := Nat.testBit 0x1181000089200004404000220200011010000892000044040002202000110100008a080004604000220800018010000001000084040002208000110100008920000440400022820000002000000100020404000202000122010008001000004200002208000180100000010000000800000040000002000000100010804000880200044010002200800210040000004

theorem miss_cells : (missGrid.cells.all fun p => satB missAsg (cellClauses (missGrid.at' p))) = true := by decide +kernel
theorem miss_io : (missGrid.cells.all fun p => satB missAsg (ioClauses missGrid p)) = true := by decide +kernel
theorem miss_heads : satB missAsg (splitterClauses missGrid) = true := by decide +kernel
theorem miss_range : concatE (fun p => colourRangeClauses missGrid.colours (missGrid.at' p)) missGrid.cells = .ok [] := by decide +kernel
theorem miss_inter : satB missAsg (preventIntersection missGrid) = true := by decide +kernel
theorem miss_under : satB missAsg (preventBadUndergrounding missGrid) = true := by decide +kernel
theorem miss_belts : satB missAsg (blockBelts missGrid (.ofPair false true)) = true := by decide +kernel
theorem miss_shut : satB missAsg (blockUnderground missGrid (.ofBool true)) = true := by decide +kernel
theorem miss_length : okB missAsg (enforceMaximumUndergroundLength missGrid) = true := by decide +kernel
theorem miss_colour : okB missAsg (preventBadColouring missGrid) = true := by decide +kernel

theorem miss_init : okB missAsg (initClauses missGrid) = true := by
  unfold initClauses
  rw [miss_range]
  refine okB_iff.2 ⟨_, rfl, ?_⟩
  simp only [Sat_append, Sat_flatMap]
  exact ⟨⟨⟨fun p hp => satB_iff.1 (List.all_eq_true.1 miss_cells p hp), by simp⟩, satB_iff.1 miss_heads⟩,
    fun p hp => satB_iff.1 (List.all_eq_true.1 miss_io p hp)⟩

theorem miss_sat : ∃ cs, basicClauses missGrid (.ofPair false true) (.ofBool true) = .ok cs ∧ Sat missAsg cs := by
  obtain ⟨a, e1, s1⟩ := okB_iff.1 miss_init
  obtain ⟨b, e2, s2⟩ := okB_iff.1 miss_length
  obtain ⟨c, e3, s3⟩ := okB_iff.1 miss_colour
  refine ⟨_, by unfold basicClauses; rw [e1, e2, e3], ?_⟩
  simp only [Sat_append]
  exact ⟨⟨⟨⟨⟨⟨s1, satB_iff.1 miss_inter⟩, satB_iff.1 miss_under⟩, satB_iff.1 miss_belts⟩, satB_iff.1 miss_shut⟩, s2⟩, s3⟩

theorem miss_decodes : Decodes missGrid missAsg missLayout := by
  have key : ∀ x < 10, ∀ y < 4, (decodeCell missGrid missAsg (x, y)).toOption = some (missLayout (x, y)) := by decide +kernel
  intro p hp
  have := key p.1 hp.1 p.2 hp.2
  cases h : decodeCell missGrid missAsg p with
  | error e => rw [show (p.1, p.2) = p from rfl, h] at this; cases this
  | ok t => rw [show (p.1, p.2) = p from rfl, h] at this; exact congrArg _ (Option.some.inj this)

theorem miss_rules : BasicRules missGrid.In missGrid.nb missLayout (missGrid.shut (.ofPair false true)) (missGrid.shut (.ofBool true))
    (some 4) := by
  obtain ⟨cs, h1, h2⟩ := c58_exact (width := 10) (height := 4) (by decide) (by decide) ⟨false, false⟩ none (some 4)
    (by intro n h; cases h) (by intro n h; cases h; decide) (nToNFields 1 2) 0 (.ofPair false true) (.ofBool true)
    (by intro d _; cases d <;> rfl)
  obtain ⟨cs', h3, h4⟩ := miss_sat
  have : cs' = cs := by have := h3.symm.trans h1; cases this; rfl
  subst this
  exact ((h2 missLayout fun p => value missAsg (missGrid.at' p).colour).1 ⟨missAsg, h4, miss_decodes, fun _ _ => rfl⟩).1

/-- The splitters of the layout. -/
def missSplitters : List (Nat × Nat × Bool) := [(2, 1, false), (2, 2, true), (4, 2, false), (4, 3, true), (8, 2, false), (8, 3, true)]

theorem miss_splitters {x y : Nat} (hx : x < 10) (hy : y < 4) {d : Dir} {b : Bool} (h : missLayout (x, y) = .splitter d b) :
    d = .right ∧ (x, y, b) ∈ missSplitters := by
  have key : ∀ x < 10, ∀ y < 4, (match missLayout (x, y) with
    | .splitter d b => d == .right && missSplitters.contains (x, y, b)
    | _ => true) = true := by decide +kernel
  have := key x hx y hy
  rw [h] at this
  simpa using this

theorem miss_full : FullSplitters missGrid.In missLayout (Connected missGrid.nb missLayout) := by
  rintro ⟨x, y⟩ d b hp ht
  obtain ⟨rfl, h⟩ := miss_splitters hp.1 hp.2 ht
  have key : ∀ e ∈ missSplitters,
      missGrid.nb (e.1, e.2.1) .right = some (e.1 + 1, e.2.1) ∧ missGrid.nb (e.1 - 1, e.2.1) .right = some (e.1, e.2.1) ∧
      (missLayout (e.1, e.2.1)).Emits .right ∧ (missLayout (e.1, e.2.1)).Takes .right ∧ (missLayout (e.1 + 1, e.2.1)).Takes .right ∧
      (missLayout (e.1 - 1, e.2.1)).Emits .right ∧ e.1 - 1 < 10 ∧ e.2.1 < 4 := by decide +kernel
  obtain ⟨k1, k2, k3, k4, k5, k6, k7, k8⟩ := key _ h
  exact ⟨⟨_, k1, k3, k5⟩, (x - 1, y), ⟨k7, k8⟩, k2, k6, k4⟩

theorem miss_inputs : BlockAt 4 2 2 (fun y => missLayout (0, y) = .belt .right .right) (fun y => missLayout (0, y) = .empty) := by
  unfold BlockAt
  decide +kernel

theorem miss_outputs : BlockAt 4 2 2 (fun y => missLayout (10 - 1, y) = .belt .right .right) (fun y => missLayout (10 - 1, y) = .empty) := by
  unfold BlockAt
  decide +kernel

/-- What every steady flow through the layout satisfies. -/
theorem miss_flow {F : Nat × Nat → Rat} (hF : Steady missGrid.In missGrid.nb missLayout (Connected missGrid.nb missLayout) F) :
    F (3, 1) = (2 * F (0, 2) + F (0, 3)) / 3 ∧ F (9, 2) = (F (0, 2) + F (0, 3)) / 2 ∧ F (9, 3) = (F (0, 2) + F (0, 3)) / 2 := by
  have step : ∀ p q d, p.1 < 10 ∧ p.2 < 4 → missGrid.nb p d = some q → (missLayout p).Emits d → (missLayout q).Takes d →
      (∀ b, missLayout p ≠ .splitter .right b) → F q = F p :=
    fun p q d hp h1 h2 h3 h4 => hF.surface p q d hp ⟨h1, h2, h3⟩ fun ⟨e, b, h⟩ => h4 b (by
      obtain ⟨rfl, _⟩ := miss_splitters hp.1 hp.2 h; exact h)
  have half : ∀ p q r, p.1 < 10 ∧ p.2 < 4 → q.1 < 10 ∧ q.2 < 4 → missLayout p = .splitter .right true → missGrid.nb p .up = some q →
      missLayout q = .splitter .right false → (missGrid.nb p .right = some r ∨ missGrid.nb q .right = some r) →
      (missLayout r).Takes .right → F r = (F p + F q) / 2 := by
    intro p q r hp hq h1 h2 h3 h4 h5
    refine hF.halves miss_full hp hq ⟨h1, h2, h3⟩ ?_
    rcases h4 with h4 | h4
    · exact .inl ⟨h4, by rw [h1]; rfl, h5⟩
    · exact .inr ⟨h4, by rw [h3]; rfl, h5⟩
  have a1 := step (0, 2) (1, 2) .right (by decide +kernel) (by decide +kernel) (by decide +kernel) (by decide +kernel) (by decide +kernel)
  have a2 := step (1, 2) (2, 2) .right (by decide +kernel) (by decide +kernel) (by decide +kernel) (by decide +kernel) (by decide +kernel)
  have b1 := step (0, 3) (1, 3) .right (by decide +kernel) (by decide +kernel) (by decide +kernel) (by decide +kernel) (by decide +kernel)
  have b2 := step (1, 3) (2, 3) .right (by decide +kernel) (by decide +kernel) (by decide +kernel) (by decide +kernel) (by decide +kernel)
  have b3 := step (2, 3) (3, 3) .right (by decide +kernel) (by decide +kernel) (by decide +kernel) (by decide +kernel) (by decide +kernel)
  have b4 := step (3, 3) (4, 3) .right (by decide +kernel) (by decide +kernel) (by decide +kernel) (by decide +kernel) (by decide +kernel)
  have y1 := step (3, 2) (4, 2) .right (by decide +kernel) (by decide +kernel) (by decide +kernel) (by decide +kernel) (by decide +kernel)
  have f1 := step (5, 2) (5, 1) .up (by decide +kernel) (by decide +kernel) (by decide +kernel) (by decide +kernel) (by decide +kernel)
  have f2 := step (5, 1) (5, 0) .up (by decide +kernel) (by decide +kernel) (by decide +kernel) (by decide +kernel) (by decide +kernel)
  have f3 := step (5, 0) (4, 0) .left (by decide +kernel) (by decide +kernel) (by decide +kernel) (by decide +kernel) (by decide +kernel)
  have f4 := step (4, 0) (3, 0) .left (by decide +kernel) (by decide +kernel) (by decide +kernel) (by decide +kernel) (by decide +kernel)
  have f5 := step (3, 0) (2, 0) .left (by decide +kernel) (by decide +kernel) (by decide +kernel) (by decide +kernel) (by decide +kernel)
  have f6 := step (2, 0) (1, 0) .left (by decide +kernel) (by decide +kernel) (by decide +kernel) (by decide +kernel) (by decide +kernel)
  have f7 := step (1, 0) (1, 1) .down (by decide +kernel) (by decide +kernel) (by decide +kernel) (by decide +kernel) (by decide +kernel)
  have f8 := step (1, 1) (2, 1) .right (by decide +kernel) (by decide +kernel) (by decide +kernel) (by decide +kernel) (by decide +kernel)
  have x1 := hF.under (3, 1) (6, 1) .right 3 ⟨by decide, by decide⟩ ⟨by decide, by decide +kernel, rfl, rfl, fun i h1 h2 r hr => by
    have : i = 1 ∨ i = 2 := by omega
    rcases this with rfl | rfl
    · have e : walk missGrid.nb (3, 1) .right 1 = some (4, 1) := by decide +kernel
      rw [e] at hr; cases hr; exact id
    · have e : walk missGrid.nb (3, 1) .right 2 = some (5, 1) := by decide +kernel
      rw [e] at hr; cases hr; exact id⟩
  have x2 := step (6, 1) (7, 1) .right (by decide +kernel) (by decide +kernel) (by decide +kernel) (by decide +kernel) (by decide +kernel)
  have x3 := step (7, 1) (7, 2) .down (by decide +kernel) (by decide +kernel) (by decide +kernel) (by decide +kernel) (by decide +kernel)
  have x4 := step (7, 2) (8, 2) .right (by decide +kernel) (by decide +kernel) (by decide +kernel) (by decide +kernel) (by decide +kernel)
  have z1 := step (5, 3) (6, 3) .right (by decide +kernel) (by decide +kernel) (by decide +kernel) (by decide +kernel) (by decide +kernel)
  have z2 := step (6, 3) (7, 3) .right (by decide +kernel) (by decide +kernel) (by decide +kernel) (by decide +kernel) (by decide +kernel)
  have z3 := step (7, 3) (8, 3) .right (by decide +kernel) (by decide +kernel) (by decide +kernel) (by decide +kernel) (by decide +kernel)
  have s1 := half (2, 2) (2, 1) (3, 1) (by decide) (by decide) rfl (by decide +kernel) rfl (by decide +kernel) (by decide +kernel)
  have s2 := half (2, 2) (2, 1) (3, 2) (by decide) (by decide) rfl (by decide +kernel) rfl (by decide +kernel) (by decide +kernel)
  have s3 := half (4, 3) (4, 2) (5, 2) (by decide) (by decide) rfl (by decide +kernel) rfl (by decide +kernel) (by decide +kernel)
  have s4 := half (4, 3) (4, 2) (5, 3) (by decide) (by decide) rfl (by decide +kernel) rfl (by decide +kernel) (by decide +kernel)
  have s5 := half (8, 3) (8, 2) (9, 2) (by decide) (by decide) rfl (by decide +kernel) rfl (by decide +kernel) (by decide +kernel)
  have s6 := half (8, 3) (8, 2) (9, 3) (by decide) (by decide) rfl (by decide +kernel) rfl (by decide +kernel) (by decide +kernel)
  refine ⟨by linarith, by linarith, by linarith⟩

/-- The flow of the example, in sixths: how much of the upper and of the lower input a cell gets. -/
def missShare (p : Nat × Nat) : Nat × Nat :=
  (([[(0, 0), (2, 4), (2, 4), (2, 4), (2, 4), (2, 4), (0, 0), (0, 0), (0, 0), (0, 0)],
     [(0, 0), (2, 4), (2, 4), (4, 2), (0, 0), (2, 4), (4, 2), (4, 2), (0, 0), (0, 0)],
     [(6, 0), (6, 0), (6, 0), (4, 2), (4, 2), (2, 4), (0, 0), (4, 2), (4, 2), (3, 3)],
     [(0, 6), (0, 6), (0, 6), (0, 6), (0, 6), (2, 4), (2, 4), (2, 4), (2, 4), (3, 3)]] : List (List (Nat × Nat))).getD p.2 []).getD p.1 (0, 0)

theorem miss_steady (a b : Rat) : Steady missGrid.In missGrid.nb missLayout (Connected missGrid.nb missLayout)
    fun p => ((missShare p).1 * a + (missShare p).2 * b) / 6 := by
  refine ⟨fun p q d hp hc hns => ?_, fun p q d k hp hpair => ?_, fun p q d hp hq hpair r hr => ?_⟩
  · have key : ∀ x < 10, ∀ y < 4, ∀ d ∈ Dir.all, (match missGrid.nb (x, y) d with
      | some q => missSplitters.contains (x, y, true) || missSplitters.contains (x, y, false) || !decide ((missLayout (x, y)).Emits d) ||
          (missShare q == missShare (x, y))
      | none => true) = true := by decide +kernel
    have h := key p.1 hp.1 p.2 hp.2 d (by cases d <;> decide)
    rw [show (p.1, p.2) = p from rfl, hc.1] at h
    have k1 : ∀ c, (p.1, p.2, c) ∉ missSplitters := by
      intro c hm
      have : ∀ e ∈ missSplitters, missLayout (e.1, e.2.1) = .splitter .right e.2.2 := by decide +kernel
      exact hns ⟨.right, c, this _ hm⟩
    simp only [List.contains_eq_mem, k1, decide_false, hc.2.1, decide_true, Bool.not_true, Bool.or_self, Bool.false_or,
      beq_iff_eq] at h
    rw [h]
  · have key1 : ∀ x < 10, ∀ y < 4, (match missLayout (x, y) with
      | .underground _ _ => missShare (x, y) == (4, 2)
      | _ => true) = true := by decide +kernel
    have hq := walk_in (mkGrid_wf (by decide) (by decide) ⟨false, false⟩ none (some 4) (by intro n h; cases h) (nToNFields 1 2) 0)
      hp hpair.2.1
    have h1 := key1 p.1 hp.1 p.2 hp.2
    have h2 := key1 q.1 hq.1 q.2 hq.2
    rw [show (p.1, p.2) = p from rfl, hpair.2.2.1] at h1
    rw [show (q.1, q.2) = q from rfl, hpair.2.2.2.1] at h2
    simp only [beq_iff_eq] at h1 h2
    rw [h1, h2]
  · obtain ⟨a1, a2⟩ := miss_full p d true hp hpair.1
    obtain ⟨b1, b2⟩ := miss_full q d false hq hpair.2.2
    unfold outlets arrives
    rw [if_pos a1, if_pos b1, if_pos a2, if_pos b2]
    have key : ∀ e ∈ missSplitters, e.2.2 = true → missGrid.nb (e.1, e.2.1) .up = some (e.1, e.2.1 - 1) ∧
        (missShare (e.1 + 1, e.2.1)).1 * 2 = (missShare (e.1, e.2.1)).1 + (missShare (e.1, e.2.1 - 1)).1 ∧
        (missShare (e.1 + 1, e.2.1)).2 * 2 = (missShare (e.1, e.2.1)).2 + (missShare (e.1, e.2.1 - 1)).2 ∧
        missShare (e.1 + 1, e.2.1 - 1) = missShare (e.1 + 1, e.2.1) ∧ missGrid.nb (e.1, e.2.1) .right = some (e.1 + 1, e.2.1) ∧
        missGrid.nb (e.1, e.2.1 - 1) .right = some (e.1 + 1, e.2.1 - 1) := by decide +kernel
    obtain ⟨rfl, hm⟩ := miss_splitters hp.1 hp.2 hpair.1
    obtain ⟨k0, k1, k2, k3, k4, k5⟩ := key _ hm rfl
    obtain rfl : q = (p.1, p.2 - 1) := by have := hpair.2.1.symm.trans k0; simpa using this
    have hrr : r = (p.1 + 1, p.2) ∨ r = (p.1 + 1, p.2 - 1) := by
      rcases hr with hr | hr
      · left; have := hr.1.symm.trans k4; simpa using this
      · right; have := hr.1.symm.trans k5; simpa using this
    have hr' : missShare r = missShare (p.1 + 1, p.2) := by
      rcases hrr with rfl | rfl
      · rfl
      · exact k3
    have k1' : ((missShare (p.1 + 1, p.2)).1 : Rat) * 2 = (missShare p).1 + (missShare (p.1, p.2 - 1)).1 := by exact_mod_cast k1
    have k2' : ((missShare (p.1 + 1, p.2)).2 : Rat) * 2 = (missShare p).2 + (missShare (p.1, p.2 - 1)).2 := by exact_mod_cast k2
    rw [hr']
    push_cast
    linear_combination (a / 6) * k1' + (b / 6) * k2'

/-- C84 is false for balancers whose belts carry other fractions: this layout of three splitters obeys the rules, connects all of them
fully and, whatever comes in, shares it evenly between its two outputs; but the program for two belts does not find it, because one
third of an input flows back. -/
theorem c84_fractions_refuted : ∃ (g : Grid) (cs : Cnf) (s : Nat) (T : Nat × Nat → Tile),
    freeBalancer 10 4 (some 4) 2 2 true = .ok (g, cs, s) ∧
    BasicRules g.In g.nb T (g.shut (.ofPair false true)) (g.shut (.ofBool true)) (some 4) ∧
    FullSplitters g.In T (Connected g.nb T) ∧
    BlockAt 4 2 2 (fun y => T (0, y) = .belt .right .right) (fun y => T (0, y) = .empty) ∧
    BlockAt 4 2 2 (fun y => T (9, y) = .belt .right .right) (fun y => T (9, y) = .empty) ∧
    (∀ a b : Rat, ∃ F, Steady g.In g.nb T (Connected g.nb T) F ∧ F (0, 2) = a ∧ F (0, 3) = b) ∧
    (∀ F, Steady g.In g.nb T (Connected g.nb T) F → ∀ y, 2 ≤ y → y < 4 → F (9, y) = (F (0, 2) + F (0, 3)) / 2) ∧
    ¬ ∃ v, Sat v cs ∧ Decodes g v T := by
  obtain ⟨g, cs, s, h, hgw, hgh, hgu, _, hex⟩ := c84_exact (width := 10) (height := 4) (size := 2) (ugLen := some 4) (by decide) (by decide)
    (by decide) (by intro l h; cases h; decide) true
  have hu : Nat.lcm (2 ^ Nat.clog 2 2) 2 = 2 := by
    have : Nat.clog 2 2 = 1 := by decide +kernel
    rw [this]; decide
  rw [hu] at hex
  have hg : g = missGrid := by
    obtain ⟨_, _, h3⟩ := freeBalancer_grid h
    obtain ⟨_, h4, _⟩ := createNToN_eq (width := 10) (height := 4) (size := 2) (ugLen := some 4) (by decide) (by decide) (by decide)
    rw [h4] at h3
    simp only [Except.ok.injEq, Prod.mk.injEq] at h3
    refine h3.1.symm.trans ?_
    have : nToNDenominator 2 = 1 := by decide +kernel
    rw [this]
    have : Nat.size (2 * 1) = 2 := by decide +kernel
    rw [this]
    rfl
  subst hg
  refine ⟨missGrid, cs, s, missLayout, h, miss_rules, miss_full, miss_inputs, miss_outputs,
    fun a b => ⟨_, miss_steady a b, ?_, ?_⟩, fun F hF y h1 h2 => ?_, fun hv => ?_⟩
  · simp only [show missShare (0, 2) = (6, 0) from rfl]
    push_cast
    ring
  · simp only [show missShare (0, 3) = (0, 6) from rfl]
    push_cast
    ring
  · have : y = 2 ∨ y = 3 := by omega
    rcases this with rfl | rfl
    · exact (miss_flow hF).2.1
    · exact (miss_flow hF).2.2
  · obtain ⟨_, _, i, j, hi, _, _, φ, hφ, _⟩ := (hex missLayout).1 hv
    have hi2 : i = 2 := by
      have h1 := hi.1
      have h2 := hi.2 i (by have : missGrid.height = 4 := rfl; omega)
      rw [if_pos ⟨le_rfl, by omega⟩] at h2
      have h3 := hi.2 3 (by decide)
      have : i < 3 := by have : missGrid.height = 4 := rfl; omega
      interval_cases i
      · exact absurd h2 (by decide)
      · exact absurd h2 (by decide)
      · rfl
    subst hi2
    have e1 := hφ.inputs 0 (by decide) 2 (by decide) (by decide)
    have e2 := hφ.inputs 0 (by decide) 3 (by decide) (by decide)
    have e3 := (miss_flow (hφ.steady 0 (by decide))).1
    simp only [e1, e2, show 2 % 2 = 0 from rfl, show 3 % 2 = 1 from rfl, if_true] at e3
    norm_num at e3
    have : (φ 0 (3, 1)) * 3 = 4 := by
      have : (φ 0 (3, 1) : Rat) * 3 = 4 := by rw [e3]; norm_num
      exact_mod_cast this
    omega

end FSat
