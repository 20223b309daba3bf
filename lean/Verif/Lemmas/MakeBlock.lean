import Verif.Model.MakeBlock
import Verif.Lemmas.PowerOfTwo
import Verif.Lemmas.LayoutFlow
import Verif.Lemmas.Loop
import Verif.Props.Samples
/-!
What the clauses of the blocks of belts say.
-/

set_option linter.unusedSimpArgs false

namespace FSat

theorem Means.implies {cond : List Lit} {e : Except PyErr Cnf} {P : Asg → Prop} (h : Means e P) :
    Means (impliesE cond e) fun v => (∀ l ∈ cond, ev v l = true) → P v := by
  obtain ⟨cs, rfl, h⟩ := h
  exact ⟨_, rfl, fun v => by rw [Sat_implies, h]⟩

/-- What the clauses of `ensure_loop_length` say for one cell and direction. -/
structure LoopDirSem (g : Grid) (C : Nat × Nat → CellVal) (p q : Nat × Nat) (d : Dir) : Prop where
  back : (p.1 : Int) + d.dx = 0 ∧ (p.2 : Int) + d.dy = 0 → (C p).out d = true → binVal (C p).colour = g.colours.getD 1 - 1
  forth : ¬ ((p.1 : Int) + d.dx = 0 ∧ (p.2 : Int) + d.dy = 0) → (C p).out d = true →
    binVal (C q).colour = (binVal (C p).colour + 1) % 2 ^ g.bits
  enter : (C p).inp d = true → (∀ e, (C p).out e = false) → binVal ((C q).colourU d) = (binVal (C p).colour + 1) % 2 ^ g.bits
  exit : (∀ e, (C q).inp e = false) → (C q).out d = true → binVal ((C p).colourU d) = binVal (C q).colour
  under : (C p).ug d = true → (C q).ug d = true → binVal ((C p).colourU d) = binVal ((C q).colourU d)

/-- What the clauses of `ensure_loop_length` say. -/
structure LoopSem (g : Grid) (C : Nat × Nat → CellVal) : Prop where
  start : binVal (C (0, 0)).colour = 0
  other : ∀ p, g.In p → p ≠ (0, 0) → binVal (C p).colour ≠ 0
  step : ∀ p q d, g.In p → g.nb p d = some q → LoopDirSem g C p q d

theorem evalTile_colourU (v : Asg) (t : TileInst) (d : Dir) : (evalTile v t).colourU d = (t.colourU d).map (ev v) := by
  unfold CellVal.colourU TileInst.colourU
  split <;> rfl

theorem colourU_length {g : Grid} (hg : g.WF) (p : Nat × Nat) (d : Dir) : ((g.at' p).colourU d).length = g.bits := by
  unfold TileInst.colourU
  split
  · exact hg.cx p
  · exact hg.cy p

theorem binVal_eq_zero (bs : List Bool) : binVal bs = 0 ↔ ∀ b ∈ bs, b = false := by
  induction bs with
  | nil => simp [binVal]
  | cons b bs ih => cases b <;> simp [binVal, ih]

theorem loopDir_means {g : Grid} (hg : g.WF) {p q : Nat × Nat} {d : Dir} (hq : g.nb p d = some q) (hb : 0 < g.bits) :
    Means (loopDir g p d) fun v => LoopDirSem g (g.vals v) p q d := by
  have hn : ((g.colours.getD 1 : Int) - 1) = ((g.colours.getD 1 - 1 : Nat) : Int) := by
    have : 1 ≤ g.colours.getD 1 := by
      cases h : g.colours with
      | none => simp
      | some n => exact hg.n n h
    omega
  have e1 : Means (setNumber ((g.colours.getD 1 : Int) - 1) (g.at' p).colour) fun v => binVal (g.vals v p).colour = g.colours.getD 1 - 1 := by
    rw [hn]
    exact (c06_set_number _ _).1 (by rw [hg.c]; exact Nat.lt_size_self _)
  have e2 : Means (incrementNumber (g.at' p).colour (g.at' q).colour) fun v =>
      binVal (g.vals v q).colour = (binVal (g.vals v p).colour + 1) % 2 ^ g.bits := by
    have := c04_increment_number (g.at' p).colour (g.at' q).colour (by rw [hg.c, hg.c]) (by rw [hg.c]; exact hb)
    rw [hg.c] at this
    exact this
  have e3 : Means (incrementNumber (g.at' p).colour ((g.at' q).colourU d)) fun v =>
      binVal ((g.vals v q).colourU d) = (binVal (g.vals v p).colour + 1) % 2 ^ g.bits := by
    have := c04_increment_number (g.at' p).colour ((g.at' q).colourU d) (by rw [hg.c, colourU_length hg]) (by rw [hg.c]; exact hb)
    rw [hg.c] at this
    refine Means.congr this fun v => ?_
    simp only [Grid.vals, evalTile_colourU]
    rfl
  have e4 : Means (setNumbersEqual ((g.at' p).colourU d) (g.at' q).colour) fun v => binVal ((g.vals v p).colourU d) = binVal (g.vals v q).colour := by
    refine Means.congr (c07_set_numbers_equal _ _ (by rw [hg.c, colourU_length hg])) fun v => ?_
    simp only [Grid.vals, evalTile_colourU]
    rfl
  have e5 : Means (setNumbersEqual ((g.at' p).colourU d) ((g.at' q).colourU d)) fun v =>
      binVal ((g.vals v p).colourU d) = binVal ((g.vals v q).colourU d) := by
    refine Means.congr (c07_set_numbers_equal _ _ (by rw [colourU_length hg, colourU_length hg])) fun v => ?_
    simp only [Grid.vals, evalTile_colourU]
    rfl
  unfold loopDir
  simp only [hq]
  have e0 : Means (if (p.1 : Int) + d.dx = 0 ∧ (p.2 : Int) + d.dy = 0 then impliesE [(g.at' p).out d] (setNumber ((g.colours.getD 1 : Int) - 1) (g.at' p).colour)
      else impliesE [(g.at' p).out d] (incrementNumber (g.at' p).colour (g.at' q).colour)) fun v =>
      ((p.1 : Int) + d.dx = 0 ∧ (p.2 : Int) + d.dy = 0 → (g.vals v p).out d = true → binVal (g.vals v p).colour = g.colours.getD 1 - 1) ∧
      (¬ ((p.1 : Int) + d.dx = 0 ∧ (p.2 : Int) + d.dy = 0) → (g.vals v p).out d = true →
        binVal (g.vals v q).colour = (binVal (g.vals v p).colour + 1) % 2 ^ g.bits) := by
    split
    · rename_i h
      refine (Means.implies e1).congr fun v => ?_
      simp only [List.mem_cons, List.not_mem_nil, or_false, forall_eq, h, not_true_eq_false, true_implies, false_implies, and_true]
      rfl
    · rename_i h
      refine (Means.implies e2).congr fun v => ?_
      simp only [List.mem_cons, List.not_mem_nil, or_false, forall_eq, h, not_false_eq_true, true_implies, false_implies, true_and]
      rfl
  refine (e0.cons ((Means.implies e3).cons ((Means.implies e4).cons ((Means.implies e5).cons Means.nil)))).congr fun v => ?_
  simp only [List.mem_cons, List.mem_append, List.not_mem_nil, or_false, forall_eq, forall_eq_or_imp, or_imp, forall_and, forall_mem_invert_dirs, and_true]
  constructor
  · rintro ⟨⟨h1, h2⟩, h3, h4, h5⟩
    exact ⟨h1, h2, fun a b => h3 ⟨a, b⟩, fun a b => h4 ⟨a, b⟩, fun a b => h5 ⟨a, b⟩⟩
  · rintro ⟨h1, h2, h3, h4, h5⟩
    exact ⟨⟨h1, h2⟩, fun a => h3 a.1 a.2, fun a => h4 a.1 a.2, fun a => h5 a.1 a.2⟩

theorem loop_means {g : Grid} (hg : g.WF) (hb : ∀ p d q, g.In p → g.nb p d = some q → 0 < g.bits) :
    Means (ensureLoopLength g) fun v => LoopSem g (g.vals v) := by
  have hz : g.In (0, 0) := ⟨hg.w, hg.h⟩
  have hcell : ∀ v p, Sat v (loopCell g p) ↔ (p = (0, 0) ↔ binVal (g.vals v p).colour = 0) := by
    intro v p
    have h0 : binVal (g.vals v p).colour = 0 ↔ ∀ l ∈ (g.at' p).colour, ev v l = false := by
      rw [binVal_eq_zero]
      simp [Grid.vals, evalTile]
    unfold loopCell
    split
    · rename_i h
      have : p = (0, 0) := Prod.ext h.1 h.2
      rw [Sat_setAllFalse, h0]
      simp [this]
    · rename_i h
      have : ¬ p = (0, 0) := fun e => h (by rw [e]; exact ⟨rfl, rfl⟩)
      rw [h0]
      simp only [Sat_cons, Sat_nil, and_true, this, false_iff, SatC_iff_not]
  have hdir : ∀ p ∈ g.cells, ∀ d ∈ Dir.all, Means (loopDir g p d) fun v => ∀ q, g.nb p d = some q → LoopDirSem g (g.vals v) p q d := by
    intro p hp d _
    cases hn : g.nb p d with
    | none =>
      refine ⟨[], by simp only [loopDir, hn], fun v => by simp⟩
    | some q =>
      refine (loopDir_means hg hn (hb p d q ((g.mem_cells p).1 hp) hn)).congr fun v => ?_
      simp
  refine (Means.concat (P := fun p v => (p = (0, 0) ↔ binVal (g.vals v p).colour = 0) ∧ ∀ d ∈ Dir.all, ∀ q, g.nb p d = some q → LoopDirSem g (g.vals v) p q d)
    fun p hp => ((Means.ok fun v => hcell v p).cons ((Means.concat (hdir p hp)).cons Means.nil)).congr fun v => by simp).congr fun v => ?_
  simp only [forall_cells, Dir.forall_mem_all]
  constructor
  · intro h
    exact ⟨((h _ hz).1).1 rfl, fun p hp hne e => hne ((h p hp).1.2 e), fun p q d hp hq => (h p hp).2 d q hq⟩
  · rintro ⟨h1, h2, h3⟩ p hp
    refine ⟨⟨fun e => by rw [e]; exact h1, fun e => ?_⟩, fun d q hq => h3 p q d hp hq⟩
    by_contra hne
    exact h2 p hp hne e

end FSat
