import Verif.Model.EndsOffsets
import Verif.Spec.TurnAround
import Verif.Props.Mirror
import Verif.Props.Recolour
/-!
# C108: `break_horisontal_symmetry`

It compares the left end of a layout with the right end, entering with leaving, so it is about layouts reflected from left to right with the
belts running backwards (`Spec/TurnAround.lean`).
-/

set_option linter.unusedSimpArgs false

namespace FSat

theorem turnLoop_ok {g : Grid} {minX maxX : Nat} {ps : List (Nat × Nat)}
    (h : ∀ p ∈ ps, g.In p ∧ g.In (maxX - (p.1 - minX), p.2)) :
    turnLoop g minX maxX ps = .ok (ps.flatMap fun p => (turnLits (g.at' p) (g.at' (maxX - (p.1 - minX), p.2))).1,
      ps.flatMap fun p => (turnLits (g.at' p) (g.at' (maxX - (p.1 - minX), p.2))).2) := by
  induction ps with
  | nil => rfl
  | cons p ps ih =>
    obtain ⟨h1, h2⟩ := h p (.head _)
    simp only [turnLoop, Grid.getTile]
    rw [if_pos (show p.1 < g.width ∧ p.2 < g.height from h1),
      if_pos (show maxX - (p.1 - minX) < g.width ∧ p.2 < g.height from h2), ih fun q hq => h q (.tail _ hq)]
    rfl

theorem comparedSteps_eq (minX maxX : Nat) : comparedSteps minX maxX = List.range (min 2 ((maxX + 1 - minX) / 2)) := by
  unfold comparedSteps
  split
  · rw [show min 2 ((maxX + 1 - minX) / 2) = 0 by omega]; rfl
  · split
    · rw [show min 2 ((maxX + 1 - minX) / 2) = 1 by omega]; rfl
    · rw [show min 2 ((maxX + 1 - minX) / 2) = 2 by omega]; rfl

theorem turnLits_bound {s : Nat} {a b : TileInst} (ha : LBound s a.lits) (hb : LBound s b.lits) :
    LBound s (turnLits a b).1 ∧ LBound s (turnLits a b).2 := by
  have e : ∀ t : TileInst, ∀ l, (l ∈ dirs t.inp ∨ l ∈ dirs t.out) ∨ l ∈ t.types → l ∈ t.lits := by
    intro t l hl
    simp only [TileInst.types, List.mem_cons, List.not_mem_nil, or_false] at hl
    simp only [TileInst.lits, List.mem_append, List.mem_cons, List.not_mem_nil, or_false]
    rcases hl with (h | h) | (rfl | rfl | rfl | rfl | rfl) <;> simp [*]
  constructor
  · intro l hl
    simp only [turnLits, List.mem_append] at hl
    exact ha l (e a l hl)
  · intro l hl
    simp only [turnLits, List.mem_append] at hl
    exact hb l (e b l (by tauto))

theorem flatMap_length_eq {α β γ : Type} {f : α → List β} {f' : α → List γ} {l : List α} (h : ∀ a ∈ l, (f a).length = (f' a).length) :
    (l.flatMap f).length = (l.flatMap f').length := by
  induction l with
  | nil => rfl
  | cons a l ih =>
    rw [List.flatMap_cons, List.flatMap_cons, List.length_append, List.length_append, h a (.head _), ih fun b hb => h b (.tail _ hb)]

/-- C108. The clauses of `break_horisontal_symmetry` hold for an assignment exactly when the left end comes lexicographically no later than
the right end. -/
theorem c108_compares_partial {g : Grid} {minX maxX : Nat} (hx : maxX < g.width) {s : Nat} (hb : g.LitsLe s) :
    ∃ cs s', breakHorisontalSymmetry g minX (some maxX) s = .ok (cs, s') ∧
      ∀ v, SatUpTo s v cs ↔ LexLe (leftEnd g (g.vals v) minX maxX) (rightEnd g (g.vals v) minX maxX) := by
  have hin : ∀ p ∈ turnCells g minX maxX, g.In p ∧ g.In (maxX - (p.1 - minX), p.2) := by
    intro p hp
    simp only [turnCells, List.mem_flatMap, List.mem_range, List.mem_map] at hp
    obtain ⟨dx, h1, y, h2, rfl⟩ := hp
    exact ⟨⟨show minX + dx < g.width by omega, h2⟩, ⟨show maxX - (minX + dx - minX) < g.width by omega, h2⟩⟩
  have hlen : ((turnCells g minX maxX).flatMap fun p => (turnLits (g.at' p) (g.at' (maxX - (p.1 - minX), p.2))).1).length =
      ((turnCells g minX maxX).flatMap fun p => (turnLits (g.at' p) (g.at' (maxX - (p.1 - minX), p.2))).2).length :=
    flatMap_length_eq fun p _ => by simp [turnLits, dirs, TileInst.types]
  have hL : LBound s ((turnCells g minX maxX).flatMap fun p => (turnLits (g.at' p) (g.at' (maxX - (p.1 - minX), p.2))).1) := by
    intro l hl
    obtain ⟨p, hp, hl⟩ := List.mem_flatMap.1 hl
    exact (turnLits_bound (hb _ (hin p hp).1) (hb _ (hin p hp).2)).1 l hl
  have hR : LBound s ((turnCells g minX maxX).flatMap fun p => (turnLits (g.at' p) (g.at' (maxX - (p.1 - minX), p.2))).2) := by
    intro l hl
    obtain ⟨p, hp, hl⟩ := List.mem_flatMap.1 hl
    exact (turnLits_bound (hb _ (hin p hp).1) (hb _ (hin p hp).2)).2 l hl
  have el : ∀ v, ((turnCells g minX maxX).flatMap fun p => (turnLits (g.at' p) (g.at' (maxX - (p.1 - minX), p.2))).1).map (ev v) =
      leftEnd g (g.vals v) minX maxX := by
    intro v
    unfold leftEnd turnCells
    rw [comparedSteps_eq, List.flatMap_assoc, List.map_flatMap]
    congr 1
    funext dx
    rw [List.flatMap_map, List.map_flatMap]
    rfl
  have er : ∀ v, ((turnCells g minX maxX).flatMap fun p => (turnLits (g.at' p) (g.at' (maxX - (p.1 - minX), p.2))).2).map (ev v) =
      rightEnd g (g.vals v) minX maxX := by
    intro v
    unfold rightEnd turnCells
    rw [comparedSteps_eq, List.flatMap_assoc, List.map_flatMap]
    congr 1
    funext dx
    rw [List.flatMap_map, List.map_flatMap]
    simp only [Nat.add_sub_cancel_left]
    rfl
  have e1 := turnLoop_ok hin
  revert hlen hL hR el er e1
  generalize ((turnCells g minX maxX).flatMap fun p => (turnLits (g.at' p) (g.at' (maxX - (p.1 - minX), p.2))).1) = L
  generalize ((turnCells g minX maxX).flatMap fun p => (turnLits (g.at' p) (g.at' (maxX - (p.1 - minX), p.2))).2) = R
  intro hlen hL hR el er e1
  obtain ⟨cls, e2, h⟩ := breakSymmetry_pool L R s hlen hL hR
  refine ⟨cls, s + L.length, ?_, fun v => ?_⟩
  · simp only [breakHorisontalSymmetry, Option.getD_some]
    rw [e1]
    exact e2
  · rw [← el, ← er]
    exact h.iff (fun v w ha => by rw [map_ev_agree ha hL, map_ev_agree ha hR]) v

/-- C108. Without columns the whole width is meant. -/
theorem c108_default (g : Grid) (s : Nat) : breakHorisontalSymmetry g 0 none s = breakHorisontalSymmetry g 0 (some (g.width - 1)) s := rfl

/-- C108. A column outside the grid is reported, if there is anything to compare. -/
theorem c108_outside {g : Grid} (hh : 0 < g.height) {minX maxX : Nat} (hx : g.width ≤ maxX) (hm : minX < maxX) (s : Nat) :
    breakHorisontalSymmetry g minX (some maxX) s = .error .assertion := by
  have e : turnLoop g minX maxX (turnCells g minX maxX) = .error .assertion := by
    obtain ⟨k, hk⟩ : ∃ k, min 2 ((maxX + 1 - minX) / 2) = k + 1 := ⟨min 2 ((maxX + 1 - minX) / 2) - 1, by omega⟩
    obtain ⟨j, hj⟩ : ∃ j, g.height = j + 1 := ⟨g.height - 1, by omega⟩
    unfold turnCells
    rw [hk, List.range_succ_eq_map, List.flatMap_cons, hj, List.range_succ_eq_map, List.map_cons, List.cons_append]
    simp only [turnLoop, Grid.getTile]
    by_cases h1 : minX + 0 < g.width ∧ 0 < g.height
    · rw [if_pos h1]
      simp only
      rw [if_neg (by omega)]
    · rw [if_neg h1]
  simp only [breakHorisontalSymmetry, Option.getD_some]
  rw [e]

/-- C108. As long as nothing in the compared columns moves up or down or goes underground, a layout or the reflected one with its belts
running backwards is accepted. -/
theorem c108_survives_partial {g : Grid} {minX maxX : Nat} (hx : maxX < g.width) {s : Nat} (hb : g.LitsLe s) {v v' : Asg}
    (ht : g.TurnedAround minX maxX v v')
    (hp : ∀ dx ∈ comparedSteps minX maxX, ∀ y < g.height, ∀ x ∈ [minX + dx, maxX - dx], (g.vals v (x, y)).isUgIn = false ∧
      (g.vals v (x, y)).isUgOut = false ∧ ∀ d ∈ [Dir.up, Dir.down], (g.vals v (x, y)).inp d = false ∧ (g.vals v (x, y)).out d = false) :
    ∃ cs s', breakHorisontalSymmetry g minX (some maxX) s = .ok (cs, s') ∧ (SatUpTo s v cs ∨ SatUpTo s v' cs) := by
  obtain ⟨cs, s', h1, h2⟩ := c108_compares_partial (minX := minX) hx hb
  refine ⟨cs, s', h1, ?_⟩
  have hlt : ∀ dx ∈ comparedSteps minX maxX, minX + dx ≤ maxX - dx := by
    intro dx hd
    rw [comparedSteps_eq, List.mem_range] at hd
    omega
  have el : leftEnd g (g.vals v') minX maxX = rightEnd g (g.vals v) minX maxX := by
    unfold leftEnd rightEnd
    refine List.flatMap_congr fun dx hd => List.flatMap_congr fun y hy => ?_
    have hd' := hlt dx hd
    have hy' := List.mem_range.1 hy
    have e : g.vals v' (minX + dx, y) = (g.vals v (maxX - dx, y)).turned := by
      have := ht (minX + dx) (by omega) (by omega) y hy'
      rw [show minX + maxX - (minX + dx) = maxX - dx by omega] at this
      exact this
    rw [e]
    obtain ⟨a1, a2, a3⟩ := hp dx hd y hy' (maxX - dx) (by simp)
    have a4 := a3 .up (by simp)
    have a5 := a3 .down (by simp)
    simp [CellVal.entering, CellVal.leaving, CellVal.sort, CellVal.turned, Dir.mirrorY, a1, a2, a4, a5]
  have er : rightEnd g (g.vals v') minX maxX = leftEnd g (g.vals v) minX maxX := by
    unfold leftEnd rightEnd
    refine List.flatMap_congr fun dx hd => List.flatMap_congr fun y hy => ?_
    have hd' := hlt dx hd
    have hy' := List.mem_range.1 hy
    have e : g.vals v' (maxX - dx, y) = (g.vals v (minX + dx, y)).turned := by
      have := ht (maxX - dx) (by omega) (by omega) y hy'
      rw [show minX + maxX - (maxX - dx) = minX + dx by omega] at this
      exact this
    rw [e]
    obtain ⟨a1, a2, a3⟩ := hp dx hd y hy' (minX + dx) (by simp)
    have a4 := a3 .up (by simp)
    have a5 := a3 .down (by simp)
    simp [CellVal.entering, CellVal.leaving, CellVal.sort, CellVal.turned, Dir.mirrorY, a1, a2, a4, a5]
  rw [h2 v, h2 v', el, er]
  exact LexLe_total _ _

/-! ### A layout that is lost -/

/-- A belt cell of the example: whether items enter or leave the grid there, and its two directions. -/
def uTurnCell (isIn isOut : Bool) (i o : Dir) : List Bool :=
  [true, false, false, false, false, false, isIn, isOut] ++ Dir.all.map (· == i) ++ Dir.all.map (· == o) ++ [false, false, false, false]

/-- A belt that comes in from below on the left, turns right twice and leaves below on the right. -/
def uTurn : Asg := cellsAsg 20 [uTurnCell false false .up .right, uTurnCell false false .right .down, uTurnCell true false .up .up,
  uTurnCell false true .down .down]

/-- Its grid. -/
def uTurnGrid : Grid := mkGrid 2 2 ⟨false, false⟩ none none .nil 0

theorem uTurn_solution : okB uTurn (basicClauses uTurnGrid ⟨true, true, true, false⟩ (.ofBool true)) = true := by decide +kernel

theorem uTurn_turned : uTurnGrid.TurnedAround 0 1 uTurn uTurn := by
  intro x _ h2 y h3
  have hy : y < 2 := h3
  interval_cases x <;> interval_cases y <;>
    (simp only [CellVal.turned, evalTile, CellVal.mk.injEq]
     refine ⟨by decide +kernel, by decide +kernel, by decide +kernel, by decide +kernel, by decide +kernel, by decide +kernel,
       by decide +kernel, by decide +kernel, ?_, ?_, ?_, by decide +kernel, by decide +kernel, by decide +kernel⟩ <;>
     (funext d; cases d <;> decide +kernel))

theorem uTurn_lits : uTurnGrid.LitsLe 80 := (mkGrid_lits 2 2 ⟨false, false⟩ none none .nil 0).1

/-- A list which has a one at the first place where two lists differ does not come first. -/
theorem not_lexLe : ∀ {a b : List Bool}, (∃ k, a.take k = b.take k ∧ a[k]? = some true ∧ b[k]? = some false) → ¬ LexLe a b
  | [], _, h => by obtain ⟨k, _, h, _⟩ := h; simp at h
  | _ :: _, [], h => by obtain ⟨k, _, _, h⟩ := h; simp at h
  | x :: a, y :: b, ⟨0, _, h2, h3⟩ => by
    simp only [List.getElem?_cons_zero, Option.some.injEq] at h2 h3
    subst h2 h3
    simp [LexLe]
  | x :: a, y :: b, ⟨k + 1, h1, h2, h3⟩ => by
    simp only [List.take_succ_cons, List.cons.injEq, List.getElem?_cons_succ] at h1 h2 h3
    rintro (⟨rfl, rfl⟩ | ⟨_, h⟩)
    · cases h1.1
    · exact not_lexLe ⟨k, h1.2, h2, h3⟩ h

/-- C108 is false in general: `break_horisontal_symmetry` rejects a layout that is its own image. -/
theorem c108_self_refuted : ∃ (g : Grid) (c cs : Cnf) (s s' : Nat) (v : Asg), g.WF ∧ g.LitsLe s ∧
    basicClauses g ⟨true, true, true, false⟩ (.ofBool true) = .ok c ∧ Sat v c ∧ g.TurnedAround 0 (g.width - 1) v v ∧
    breakHorisontalSymmetry g 0 none s = .ok (cs, s') ∧ ¬ SatUpTo s v cs := by
  obtain ⟨c, e1, e2⟩ := okB_iff.1 uTurn_solution
  obtain ⟨cs, s', h1, h2⟩ := c108_compares_partial (g := uTurnGrid) (minX := 0) (maxX := 1) (by decide) uTurn_lits
  refine ⟨uTurnGrid, c, cs, 80, s', uTurn, mkGrid_wf (by decide) (by decide) _ _ _ (by simp) _ _, uTurn_lits, e1, e2, uTurn_turned, h1, ?_⟩
  rw [h2]
  exact not_lexLe ⟨1, by decide +kernel, by decide +kernel, by decide +kernel⟩

/-! ### A case of the partial theorem: two belts that run to the right -/

/-- A belt in the lower row only. -/
def lowBelt : Asg := cellsAsg 20 [[false, true], [false, true], uTurnCell true false .right .right, uTurnCell false true .right .right]

/-- The same in a grid of two columns, where it is its own image. -/
example : uTurnGrid.TurnedAround 0 1 lowBelt lowBelt ∧ ∃ cs s', breakHorisontalSymmetry uTurnGrid 0 (some 1) 80 = .ok (cs, s') ∧
    SatUpTo 80 lowBelt cs := by
  have ht : uTurnGrid.TurnedAround 0 1 lowBelt lowBelt := by
    intro x _ h2 y h3
    have hy : y < 2 := h3
    interval_cases x <;> interval_cases y <;>
      (simp only [CellVal.turned, evalTile, CellVal.mk.injEq]
       refine ⟨by decide +kernel, by decide +kernel, by decide +kernel, by decide +kernel, by decide +kernel, by decide +kernel,
         by decide +kernel, by decide +kernel, ?_, ?_, ?_, by decide +kernel, by decide +kernel, by decide +kernel⟩ <;>
       (funext d; cases d <;> decide +kernel))
  refine ⟨ht, ?_⟩
  obtain ⟨cs, s', h1, h2⟩ := c108_survives_partial (g := uTurnGrid) (by decide) uTurn_lits ht (by
    intro dx hd y hy x hx
    have hy : y < 2 := hy
    simp only [comparedSteps, List.mem_cons, List.not_mem_nil, or_false] at hd
    norm_num at hd
    subst hd
    simp only [List.mem_cons, List.not_mem_nil, or_false] at hx
    rcases hx with rfl | rfl <;> interval_cases y <;> decide +kernel)
  exact ⟨cs, s', h1, h2.elim id id⟩

end FSat
