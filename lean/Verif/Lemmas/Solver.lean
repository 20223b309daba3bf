import Verif.Lemmas.Grid
import Verif.Lemmas.Constants
import Verif.Spec.Rules

set_option linter.unusedSimpArgs false

namespace FSat

/-- The cell values under an assignment. -/
abbrev Grid.vals (g : Grid) (v : Asg) (p : Nat × Nat) : CellVal := evalTile v (g.at' p)

theorem concatE_iff {α : Type} (f : α → Except PyErr Cnf) (P : Asg → α → Prop) (as : List α)
    (h : ∀ a ∈ as, ∃ c, f a = .ok c ∧ ∀ v, Sat v c ↔ P v a) :
    ∃ cs, concatE f as = .ok cs ∧ ∀ v, Sat v cs ↔ ∀ a ∈ as, P v a := by
  induction as with
  | nil => exact ⟨[], rfl, by simp⟩
  | cons a as ih =>
    obtain ⟨c, hc, hs⟩ := h a (by simp)
    obtain ⟨cs, hcs, hss⟩ := ih fun b hb => h b (by simp [hb])
    exact ⟨c ++ cs, by simp [concatE, hc, hcs], by simp [hs, hss]⟩

theorem forall_cells (g : Grid) (P : Nat × Nat → Prop) : (∀ p ∈ g.cells, P p) ↔ ∀ p, g.In p → P p := by
  simp only [Grid.mem_cells]

/-! ### Colour ranges -/

theorem colourRange_iff {g : Grid} (hg : g.WF) (p : Nat × Nat) :
    ∃ c, colourRangeClauses g.colours (g.at' p) = .ok c ∧ ∀ v, Sat v c ↔
      binVal (g.vals v p).colour < g.colours.getD 1 ∧ binVal (g.vals v p).colourUx < g.colours.getD 1 ∧
      binVal (g.vals v p).colourUy < g.colours.getD 1 := by
  have hc := hg.c p
  have hcx := hg.cx p
  have hcy := hg.cy p
  unfold Grid.bits at hc hcx hcy
  cases hn : g.colours with
  | none =>
    rw [hn] at hc hcx hcy
    simp only [Option.getD_none, Nat.sub_self, Nat.size_zero, List.length_eq_zero_iff] at hc hcx hcy
    refine ⟨[], rfl, fun v => ?_⟩
    simp [evalTile, hc, hcx, hcy, binVal]
  | some n =>
    have h1 := hg.n n hn
    rw [hn] at hc hcx hcy
    simp only [Option.getD_some] at hc hcx hcy ⊢
    have hlt : n - 1 < 2 ^ (n - 1).size := Nat.lt_size_self _
    have key : ∀ r ∈ [(g.at' p).colour, (g.at' p).colourUx, (g.at' p).colourUy],
        ∃ c, setMaximum ((n : Int) - 1) r = .ok c ∧ ∀ v, Sat v c ↔ value v r < n := by
      intro r hr
      have hl : r.length = (n - 1).size := by
        simp only [List.mem_cons, List.not_mem_nil, or_false] at hr
        rcases hr with rfl | rfl | rfl <;> assumption
      have e : ((n : Int) - 1) = ((n - 1 : Nat) : Int) := by omega
      obtain ⟨c, hc, hs⟩ := (setMaximum_iff ((n : Int) - 1) r).1
        ⟨by omega, by rw [e, hl]; exact_mod_cast hlt⟩
      exact ⟨c, hc, fun v => by rw [hs]; omega⟩
    obtain ⟨c, hc, hs⟩ := concatE_iff _ (fun v r => value v r < n) _ key
    refine ⟨c, hc, fun v => ?_⟩
    rw [hs]
    simp [value, evalTile]

/-! ### Splitter pairing -/

/-- What the clauses solver.py:132-152 say. -/
def SplitterSem (g : Grid) (C : Nat × Nat → CellVal) : Prop :=
  ∀ d p, g.In p →
    match g.nb p d.ccw with
    | none =>
      ((C p).inp d = true ∨ (C p).out d = true → (C p).isSplitter = true → (C p).isHead = false) ∧
      ((C p).inp d.opp = true ∨ (C p).out d.opp = true → (C p).isSplitter = true → (C p).isHead = true)
    | some q =>
      ((C p).inp d = true ∨ (C p).out d = true → (C p).isHead = true →
        (C q).isSplitter = true ∧ (C q).isHead = false ∧ ((C q).inp d = true ∨ (C q).out d = true)) ∧
      ((C p).inp d.opp = true ∨ (C p).out d.opp = true → (C p).isSplitter = true → (C p).isHead = false →
        (C q).isHead = true ∧ ((C q).inp d.opp = true ∨ (C q).out d.opp = true))

theorem Sat_splitter (g : Grid) (v : Asg) : Sat v (splitterClauses g) ↔ SplitterSem g (g.vals v) := by
  simp only [splitterClauses, Sat_flatMap, Dir.forall_mem_all, forall_cells, SplitterSem]
  refine forall_congr' fun d => forall_congr' fun p => imp_congr_right fun _ => ?_
  simp only [splitterLine, Dir.next_eq, Dir.reverse_eq]
  cases g.nb p d.ccw with
  | none =>
    simp only [Sat_cons, Sat_nil, SatC_cons, SatC_nil, ev_neg, Grid.vals, evalTile, or_false, and_true]
    cases ev v ((g.at' p).inp d) <;> cases ev v ((g.at' p).out d) <;> cases ev v ((g.at' p).inp d.opp) <;>
      cases ev v ((g.at' p).out d.opp) <;> cases ev v (g.at' p).isSplitter <;> cases ev v (g.at' p).isHead <;> simp
  | some q =>
    simp only [Sat_flatMap, List.mem_cons, List.not_mem_nil, or_false, forall_eq_or_imp, forall_eq, Sat_append, Sat_implies,
      Sat_cons, Sat_nil, SatC_cons, SatC_nil, ev_neg, Grid.vals, evalTile, and_true, and_imp, Bool.not_eq_true']
    constructor
    · rintro ⟨⟨⟨⟨a1, a2⟩, a3⟩, a4⟩, ⟨⟨b1, b2⟩, b3⟩, b4⟩
      refine ⟨?_, ?_⟩
      · rintro (h | h) hh
        · exact ⟨(a1 h hh).1, (a1 h hh).2, a3 h hh⟩
        · exact ⟨(b1 h hh).1, (b1 h hh).2, b3 h hh⟩
      · rintro (h | h) hs hh
        · exact ⟨a2 h hs hh, a4 h hs hh⟩
        · exact ⟨b2 h hs hh, b4 h hs hh⟩
    · rintro ⟨h1, h2⟩
      refine ⟨⟨⟨⟨?_, ?_⟩, ?_⟩, ?_⟩, ⟨⟨?_, ?_⟩, ?_⟩, ?_⟩
      · intro h hh; exact ⟨(h1 (.inl h) hh).1, (h1 (.inl h) hh).2.1⟩
      · intro h hs hh; exact (h2 (.inl h) hs hh).1
      · intro h hh; exact (h1 (.inl h) hh).2.2
      · intro h hs hh; exact (h2 (.inl h) hs hh).2
      · intro h hh; exact ⟨(h1 (.inr h) hh).1, (h1 (.inr h) hh).2.1⟩
      · intro h hs hh; exact (h2 (.inr h) hs hh).1
      · intro h hh; exact (h1 (.inr h) hh).2.2
      · intro h hs hh; exact (h2 (.inr h) hs hh).2

/-! ### Input and output markers -/

/-- The directions whose input (output reversed) flags the clauses solver.py:154-220 connect to the markers. -/
def ioDirs (g : Grid) (p : Nat × Nat) : List Dir :=
  if p.1 = 0 then
    if p.2 = 0 then [.right, .down] else if p.2 = g.height - 1 then [.right, .up] else [.right]
  else if p.1 = g.width - 1 then
    if p.2 = 0 then [.left, .down] else if p.2 = g.height - 1 then [.left, .up] else [.left]
  else if p.2 = 0 then [.down]
  else if p.2 = g.height - 1 then [.up]
  else []

/-- What the clauses solver.py:154-220 say. -/
def IoSem (g : Grid) (C : Nat × Nat → CellVal) : Prop :=
  ∀ p, g.In p → ((C p).isInput = true ↔ ∃ d ∈ ioDirs g p, (C p).inp d = true) ∧
    ((C p).isOutput = true ↔ ∃ d ∈ ioDirs g p, (C p).out d.opp = true)

theorem Sat_side (v : Asg) (t : TileInst) (i : Dir) : Sat v (sideClauses t i i.opp) ↔
    ((evalTile v t).isInput = true ↔ ∃ d ∈ [i], (evalTile v t).inp d = true) ∧
    ((evalTile v t).isOutput = true ↔ ∃ d ∈ [i], (evalTile v t).out d.opp = true) := by
  simp only [sideClauses, Sat_append, Sat_implies, Sat_cons, Sat_nil, SatC_cons, SatC_nil, or_false, and_true,
    List.mem_singleton, forall_eq, exists_eq_left, evalTile]
  constructor
  · rintro ⟨⟨⟨a, b⟩, c⟩, d⟩; exact ⟨⟨a, b⟩, c, d⟩
  · rintro ⟨⟨a, b⟩, c, d⟩; exact ⟨⟨⟨a, b⟩, c⟩, d⟩

theorem Sat_corner (v : Asg) (t : TileInst) (i j : Dir) : Sat v (cornerClauses t i j i.opp j.opp) ↔
    ((evalTile v t).isInput = true ↔ ∃ d ∈ [i, j], (evalTile v t).inp d = true) ∧
    ((evalTile v t).isOutput = true ↔ ∃ d ∈ [i, j], (evalTile v t).out d.opp = true) := by
  simp only [cornerClauses, Sat_append, Sat_implies, Sat_cons, Sat_nil, SatC_cons, SatC_nil, or_false, and_true,
    List.mem_singleton, forall_eq, evalTile, List.mem_cons, List.not_mem_nil, exists_eq_or_imp, exists_eq_left]
  constructor
  · rintro ⟨⟨⟨⟨⟨a, b⟩, c⟩, d⟩, e⟩, f⟩
    exact ⟨⟨a, fun h => h.elim b c⟩, d, fun h => h.elim e f⟩
  · rintro ⟨⟨a, b⟩, c, d⟩
    exact ⟨⟨⟨⟨⟨a, fun h => b (.inl h)⟩, fun h => b (.inr h)⟩, c⟩, fun h => d (.inl h)⟩, fun h => d (.inr h)⟩

theorem Sat_io (g : Grid) (v : Asg) : Sat v (g.cells.flatMap (ioClauses g)) ↔ IoSem g (g.vals v) := by
  simp only [Sat_flatMap, forall_cells, IoSem]
  refine forall_congr' fun p => imp_congr_right fun _ => ?_
  simp only [ioClauses, ioDirs]
  split_ifs
  · exact Sat_corner v _ .right .down
  · exact Sat_corner v _ .right .up
  · exact Sat_side v _ .right
  · exact Sat_corner v _ .left .down
  · exact Sat_corner v _ .left .up
  · exact Sat_side v _ .left
  · exact Sat_side v _ .down
  · exact Sat_side v _ .up
  · simp [evalTile]

/-! ### Grid.__init__ -/

/-- What the clauses of `Grid.__init__` say. -/
structure InitSem (g : Grid) (C : Nat × Nat → CellVal) : Prop where
  cell : ∀ p, g.In p → ∃ T, Agrees (C p) T
  axisX : ∀ p, g.In p → ¬ ((C p).ug .right = true ∧ (C p).ug .left = true)
  axisY : ∀ p, g.In p → ¬ ((C p).ug .up = true ∧ (C p).ug .down = true)
  range : ∀ p, g.In p → binVal (C p).colour < g.colours.getD 1 ∧ binVal (C p).colourUx < g.colours.getD 1 ∧
      binVal (C p).colourUy < g.colours.getD 1
  splitter : SplitterSem g C
  io : IoSem g C

theorem init_iff {g : Grid} (hg : g.WF) :
    ∃ cs, initClauses g = .ok cs ∧ ∀ v, Sat v cs ↔ InitSem g (g.vals v) := by
  obtain ⟨cc, h1, h2⟩ := concatE_iff (fun p => colourRangeClauses g.colours (g.at' p)) _ g.cells
    (fun p _ => colourRange_iff hg p)
  refine ⟨_, (by simp only [initClauses, h1]; rfl), fun v => ?_⟩
  simp only [Sat_append, Sat_io, h2, Sat_splitter]
  simp only [Sat_flatMap, forall_cells, Sat_cellClauses]
  constructor
  · rintro ⟨⟨⟨a, b⟩, c⟩, d⟩
    exact ⟨fun p hp => (a p hp).1, fun p hp => (a p hp).2.1, fun p hp => (a p hp).2.2, b, c, d⟩
  · rintro ⟨a1, a2, a3, b, c, d⟩
    exact ⟨⟨⟨fun p hp => ⟨a1 p hp, a2 p hp, a3 p hp⟩, b⟩, c⟩, d⟩

/-! ### prevent_intersection -/

/-- What the clauses of `prevent_intersection` say. -/
def IntersectionSem (g : Grid) (C : Nat × Nat → CellVal) : Prop :=
  ∀ d p q, g.In p → g.nb p d = some q → (C p).out d = (C q).inp d ∧
    ((C p).inp d = true → (C p).isSplitter = true → (C q).isSplitter = false →
      ¬ ((C q).inp d.ccw = true ∧ (C q).out d.ccw = true) ∧
      ¬ ((C q).inp d.opp.ccw = true ∧ (C q).out d.opp.ccw = true) ∧
      ¬ ((C q).inp d.ccw = true ∧ (C q).out d = true) ∧
      ¬ ((C q).inp d.opp.ccw = true ∧ (C q).out d = true) ∧
      ¬ ((C q).inp d.opp = true ∧ (C q).out d.ccw = true) ∧
      ¬ ((C q).inp d.opp = true ∧ (C q).out d.opp.ccw = true))

theorem Sat_intersection (g : Grid) (v : Asg) : Sat v (preventIntersection g) ↔ IntersectionSem g (g.vals v) := by
  simp only [preventIntersection, Sat_flatMap, Dir.forall_mem_all, forall_cells, IntersectionSem]
  refine forall_congr' fun d => forall_congr' fun p => ?_
  rw [forall_comm]
  refine imp_congr_right fun _ => ?_
  simp only [intersectionCell]
  cases g.nb p d with
  | none => simp
  | some q =>
    simp only [Option.some.injEq, forall_eq', Sat_append, Sat_literalsSame, Sat_implies, Sat_cons, Sat_nil, SatC_cons, SatC_nil,
      or_false, and_true, ev_neg, List.mem_cons, List.not_mem_nil, forall_eq_or_imp, forall_eq, Dir.next_eq, Dir.prev_eq,
      Dir.reverse_eq, Bool.not_eq_true', and_imp, evalTile, Bool.not_eq_true, not_and]
    have hb : ∀ a b : Bool, (a = false ∨ b = false) ↔ (a = true → b = false) := by decide
    simp only [hb]

/-! ### prevent_bad_undergrounding -/

/-- What the clauses of `prevent_bad_undergrounding` say. -/
structure UndergroundSem (g : Grid) (C : Nat × Nat → CellVal) : Prop where
  notIn : ∀ d p, g.In p → (C p).isUgIn = true ∧ (C p).inp d = true → (C p).ug d = false ∧ (C p).ug d.opp = false
  notOut : ∀ d p, g.In p → (C p).isUgOut = true ∧ (C p).out d = true → (C p).ug d = false ∧ (C p).ug d.opp = false
  afterIn : ∀ d p q, g.In p → g.nb p d = some q → (C p).isUgIn = true ∧ (C p).inp d = true → (C q).ug d = true
  beforeOut : ∀ d p q, g.In p → g.nb p d.opp = some q → (C p).isUgOut = true ∧ (C p).out d = true → (C q).ug d = true
  next : ∀ d p q, g.In p → g.nb p d = some q → (C p).ug d = true → (C q).ug d = false →
    (C q).isUgOut = true ∧ (C q).out d = true
  prev : ∀ d p q, g.In p → g.nb p d.opp = some q → (C p).ug d = true → (C q).ug d = false →
    (C q).isUgIn = true ∧ (C q).inp d = true

theorem Sat_undergroundCell (g : Grid) (v : Asg) (d : Dir) (p : Nat × Nat) : Sat v (undergroundCell g d p) ↔
    ((g.vals v p).isUgIn = true ∧ (g.vals v p).inp d = true → (g.vals v p).ug d = false ∧ (g.vals v p).ug d.opp = false) ∧
    ((g.vals v p).isUgOut = true ∧ (g.vals v p).out d = true → (g.vals v p).ug d = false ∧ (g.vals v p).ug d.opp = false) ∧
    (∀ q, g.nb p d = some q → (g.vals v p).isUgIn = true ∧ (g.vals v p).inp d = true → (g.vals v q).ug d = true) ∧
    (∀ q, g.nb p d.opp = some q → (g.vals v p).isUgOut = true ∧ (g.vals v p).out d = true → (g.vals v q).ug d = true) ∧
    (∀ q, g.nb p d = some q → (g.vals v p).ug d = true → (g.vals v q).ug d = false →
      (g.vals v q).isUgOut = true ∧ (g.vals v q).out d = true) ∧
    (∀ q, g.nb p d.opp = some q → (g.vals v p).ug d = true → (g.vals v q).ug d = false →
      (g.vals v q).isUgIn = true ∧ (g.vals v q).inp d = true) := by
  have e : g.offset p d.dx d.dy = g.nb p d := rfl
  unfold undergroundCell
  simp only [e, Grid.offset_neg]
  cases g.nb p d <;> cases g.nb p d.opp <;>
  simp only [Sat_append, Sat_implies, Sat_cons, Sat_nil, SatC_cons, SatC_nil, or_false, and_true, ev_neg, List.mem_cons,
    List.not_mem_nil, forall_eq_or_imp, forall_eq, Dir.reverse_eq, Bool.not_eq_true', and_imp, Option.some.injEq, forall_eq',
    reduceCtorEq, false_imp_iff, implies_true, and_assoc, true_and, evalTile]

theorem Sat_underground (g : Grid) (v : Asg) : Sat v (preventBadUndergrounding g) ↔ UndergroundSem g (g.vals v) := by
  simp only [preventBadUndergrounding, Sat_flatMap, Dir.forall_mem_all, forall_cells, Sat_undergroundCell]
  constructor
  · intro h
    exact ⟨fun d p hp => (h d p hp).1, fun d p hp => (h d p hp).2.1,
      fun d p q hp hq => (h d p hp).2.2.1 q hq, fun d p q hp hq => (h d p hp).2.2.2.1 q hq,
      fun d p q hp hq => (h d p hp).2.2.2.2.1 q hq, fun d p q hp hq => (h d p hp).2.2.2.2.2 q hq⟩
  · rintro ⟨a, b, c, d, e, f⟩ dd p hp
    exact ⟨a dd p hp, b dd p hp, fun q => c dd p q hp, fun q => d dd p q hp, fun q => e dd p q hp, fun q => f dd p q hp⟩

/-! ### enforce_maximum_underground_length -/

/-- What the clauses of `enforce_maximum_underground_length` say. -/
def LengthSem (g : Grid) (C : Nat × Nat → CellVal) (L : Nat) : Prop :=
  ∀ d p, g.In p → (∀ i, i ≤ L → ∃ q, walk g.nb p d i = some q) →
    ∃ i, i ≤ L ∧ ∃ q, walk g.nb p d i = some q ∧ (C q).ug d = false

theorem lengthClause_spec {g : Grid} (hg : g.WF) (d : Dir) (p : Nat × Nat) (hp : g.In p) (n i : Nat) :
    match lengthClause g d p i n with
    | none => ∃ j, i ≤ j ∧ j < i + n ∧ walk g.nb p d j = none
    | some c => (∀ j, i ≤ j → j < i + n → ∃ q, walk g.nb p d j = some q) ∧
        ∀ v, SatC v c ↔ ∃ j, i ≤ j ∧ j < i + n ∧ ∃ q, walk g.nb p d j = some q ∧ (g.vals v q).ug d = false := by
  induction n generalizing i with
  | zero =>
    simp only [lengthClause, SatC_nil, false_iff]
    exact ⟨fun j h1 h2 => by omega, fun v ⟨j, h1, h2, _⟩ => by omega⟩
  | succ n ih =>
    simp only [lengthClause, Grid.offset_walk hg hp]
    cases hw : walk g.nb p d i with
    | none => exact ⟨i, le_refl _, by omega, hw⟩
    | some q =>
      have := ih (i + 1)
      simp only
      cases hl : lengthClause g d p (i + 1) n with
      | none =>
        rw [hl] at this
        obtain ⟨j, h1, h2, h3⟩ := this
        exact ⟨j, by omega, by omega, h3⟩
      | some c =>
        rw [hl] at this
        obtain ⟨h1, h2⟩ := this
        refine ⟨fun j hj1 hj2 => ?_, fun v => ?_⟩
        · rcases Nat.eq_or_lt_of_le hj1 with rfl | h
          · exact ⟨q, hw⟩
          · exact h1 j h (by omega)
        · simp only [SatC_cons, ev_neg, Bool.not_eq_true', h2]
          constructor
          · rintro (h | ⟨j, a, b, c⟩)
            · exact ⟨i, le_refl _, by omega, q, hw, h⟩
            · exact ⟨j, by omega, by omega, c⟩
          · rintro ⟨j, a, b, r, hr, hu⟩
            rcases Nat.eq_or_lt_of_le a with rfl | h
            · rw [hw] at hr; cases hr; exact .inl hu
            · exact .inr ⟨j, h, by omega, r, hr, hu⟩

theorem length_iff {g : Grid} (hg : g.WF) (L : Nat) (hL : g.ugLen = some L) (h1 : 1 ≤ L) :
    ∃ cs, enforceMaximumUndergroundLength g = .ok cs ∧ ∀ v, Sat v cs ↔ LengthSem g (g.vals v) L := by
  refine ⟨_, (by simp only [enforceMaximumUndergroundLength, hL, h1, ge_iff_le, if_true]; rfl), fun v => ?_⟩
  simp only [Sat_flatMap, Dir.forall_mem_all, forall_cells, LengthSem]
  refine forall_congr' fun d => forall_congr' fun p => imp_congr_right fun hp => ?_
  have := lengthClause_spec hg d p hp (L + 1) 0
  cases hl : lengthClause g d p 0 (L + 1) with
  | none =>
    rw [hl] at this
    obtain ⟨j, _, h2, h3⟩ := this
    simp only [Sat_nil, true_iff]
    intro h
    obtain ⟨q, hq⟩ := h j (by omega)
    rw [h3] at hq; cases hq
  | some c =>
    rw [hl] at this
    simp only [Sat_cons, Sat_nil, and_true, this.2]
    constructor
    · rintro ⟨j, _, h2, h3⟩ _
      exact ⟨j, by omega, h3⟩
    · intro h
      obtain ⟨j, h2, h3⟩ := h fun i hi => this.1 i (by omega) (by omega)
      exact ⟨j, by omega, by omega, h3⟩

/-! ### Edges -/

/-- The side `d` of the grid is selected. -/
def Edges.sel (e : Edges) : Dir → Bool
  | .right => e.maxX | .up => e.minY | .left => e.minX | .down => e.maxY

/-- The side `d` of the cell is a selected side of the grid. -/
def Grid.shut (g : Grid) (e : Edges) (p : Nat × Nat) (d : Dir) : Prop := e.sel d = true ∧ g.OnEdge p d

instance (g : Grid) (e : Edges) (p : Nat × Nat) (d : Dir) : Decidable (g.shut e p d) := by
  unfold Grid.shut; infer_instance

theorem edges_iff {g : Grid} (hg : g.WF) (e : Edges) (f : TileInst → Dir → Cnf) (v : Asg) :
    Sat v ((if e.minX then (List.range g.height).flatMap fun y => f (g.tile 0 y) .left else [])
      ++ (if e.maxX then (List.range g.height).flatMap fun y => f (g.tile (g.width - 1) y) .right else [])
      ++ (if e.minY then (List.range g.width).flatMap fun x => f (g.tile x 0) .up else [])
      ++ (if e.maxY then (List.range g.width).flatMap fun x => f (g.tile x (g.height - 1)) .down else [])) ↔
    ∀ p d, g.In p → g.shut e p d → Sat v (f (g.at' p) d) := by
  have hw := hg.w
  have hh := hg.h
  simp only [Sat_append, Sat_ite, Sat_flatMap, List.mem_range, Sat_nil]
  constructor
  · rintro ⟨⟨⟨a, b⟩, c⟩, d'⟩ ⟨x, y⟩ d ⟨hx, hy⟩ ⟨hs, ho⟩
    simp only at hx hy
    cases d <;> simp only [Grid.OnEdge, Edges.sel] at ho hs <;> subst ho
    · rw [if_pos hs] at b; exact b y hy
    · rw [if_pos hs] at c; exact c x hx
    · rw [if_pos hs] at a; exact a y hy
    · rw [if_pos hs] at d'; exact d' x hx
  · intro h
    refine ⟨⟨⟨?_, ?_⟩, ?_⟩, ?_⟩ <;> split
    · intro y hy; exact h (0, y) .left ⟨hw, hy⟩ ⟨by assumption, rfl⟩
    · trivial
    · intro y hy; exact h (g.width - 1, y) .right ⟨by simp; omega, hy⟩ ⟨by assumption, rfl⟩
    · trivial
    · intro x hx; exact h (x, 0) .up ⟨hx, hh⟩ ⟨by assumption, rfl⟩
    · trivial
    · intro x hx; exact h (x, g.height - 1) .down ⟨hx, by simp; omega⟩ ⟨by assumption, rfl⟩
    · trivial

/-- What the clauses of `block_underground_through_edges` say. -/
def BlockUgSem (g : Grid) (e : Edges) (C : Nat × Nat → CellVal) : Prop :=
  ∀ p d, g.In p → g.shut e p d → (C p).ug d = false ∧ (C p).ug d.opp = false ∧
    ¬ ((C p).isUgIn = true ∧ (C p).inp d = true) ∧ ¬ ((C p).isUgOut = true ∧ (C p).out d.opp = true)

theorem Sat_blockUg {g : Grid} (hg : g.WF) (e : Edges) (v : Asg) : Sat v (blockUnderground g e) ↔ BlockUgSem g e (g.vals v) := by
  unfold blockUnderground
  rw [edges_iff hg e blockUgCell v]
  refine forall_congr' fun p => forall_congr' fun d => imp_congr_right fun _ => imp_congr_right fun _ => ?_
  simp only [blockUgCell, Sat_append, Sat_setAllFalse, Sat_implies, Sat_cons, Sat_nil, SatC_cons, SatC_nil, or_false, and_true,
    ev_neg, List.mem_singleton, forall_eq, Dir.reverse_eq, Bool.not_eq_true', evalTile]
  have hb : ∀ a b : Bool, ¬ (a = true ∧ b = true) ↔ (b = true → a = false) := by decide
  simp only [hb, and_assoc]
  cases d <;> simp [Dir.axis, Dir.value, Dir.opp, and_assoc, and_left_comm]

/-- What the clauses of `block_belts_through_edges` say. -/
def BlockBeltSem (g : Grid) (e : Edges) (C : Nat × Nat → CellVal) : Prop :=
  ∀ p d, g.In p → g.shut e p d → (C p).inp d.opp = false ∧ (C p).out d = false ∧
    ((C p).inp d = true → ∃ d', (C p).out d' = true) ∧ ((C p).out d.opp = true → ∃ d', (C p).inp d' = true)

theorem Sat_blockBelt {g : Grid} (hg : g.WF) (e : Edges) (v : Asg) : Sat v (blockBelts g e) ↔ BlockBeltSem g e (g.vals v) := by
  unfold blockBelts
  rw [edges_iff hg e blockBeltCell v]
  refine forall_congr' fun p => forall_congr' fun d => imp_congr_right fun _ => imp_congr_right fun _ => ?_
  simp only [blockBeltCell, Sat_append, Sat_setAllFalse, Sat_cons, Sat_nil, SatC_cons, SatC_nil, or_false, and_true,
    ev_neg, List.mem_cons, List.not_mem_nil, forall_eq_or_imp, forall_eq, Dir.reverse_eq, Bool.not_eq_true', evalTile, SatC_dirs,
    and_assoc]
  have hb : ∀ (a : Bool) (q : Prop), (a = false ∨ q) ↔ (a = true → q) := by
    intro a q; cases a <;> simp
  simp only [hb]

/-! ### Colours -/

/-- The underground colour that belongs to a direction. -/
def CellVal.colourU (c : CellVal) (d : Dir) : List Bool := if d.axis = .horizontal then c.colourUx else c.colourUy

/-- What the clauses of `transport_quantity` say about the colours. -/
structure ColourSem (g : Grid) (C : Nat × Nat → CellVal) : Prop where
  surface : ∀ d p q, g.In p → g.nb p d = some q → (C p).out d = true → (C p).isSplitter = false →
    binVal (C p).colour = binVal (C q).colour
  under : ∀ d p q, g.In p → g.nb p d = some q → (C p).ug d = true → binVal ((C p).colourU d) = binVal ((C q).colourU d)
  entrance : ∀ d p q, g.In p → g.nb p d = some q → (C p).inp d = true → (C p).isSplitter = false →
    (∀ e, (C p).out e = false) → binVal (C p).colour = binVal ((C q).colourU d)
  exit : ∀ d p q, g.In p → g.nb p d = some q → (C q).out d = true → (C q).isSplitter = false →
    (∀ e, (C q).inp e = false) → binVal ((C p).colourU d) = binVal (C q).colour

theorem forall_mem_invert_dirs (f : Dir → Lit) (v : Asg) :
    (∀ l ∈ invertComponents (dirs f), ev v l = true) ↔ ∀ d, ev v (f d) = false := by
  rw [forall_mem_invertComponents, forall_dirs]

/-- What the clauses of `transport_quantity` say about any quantity. -/
structure TransportSem (g : Grid) (C : Nat × Nat → CellVal) (Q : Nat × Nat → List Bool) (U : Dir → Nat × Nat → List Bool) : Prop where
  surface : ∀ d p q, g.In p → g.nb p d = some q → (C p).out d = true → (C p).isSplitter = false → Q p = Q q
  under : ∀ d p q, g.In p → g.nb p d = some q → (C p).ug d = true → U d p = U d q
  entrance : ∀ d p q, g.In p → g.nb p d = some q → (C p).inp d = true → (C p).isSplitter = false →
    (∀ e, (C p).out e = false) → Q p = U d q
  exit : ∀ d p q, g.In p → g.nb p d = some q → (C q).out d = true → (C q).isSplitter = false →
    (∀ e, (C q).inp e = false) → U d p = Q q

theorem Sat_equalClauses_map (v : Asg) (a b : List Lit) (h : a.length = b.length) :
    Sat v (equalClauses a b) ↔ a.map (ev v) = b.map (ev v) := by
  rw [Sat_equalClauses_value v _ _ h]
  exact ⟨fun e => binVal_inj (by simpa using h) e, fun e => congrArg binVal e⟩

theorem transportCell_iff {g : Grid} {n : Nat} {q qux quy : Nat × Nat → List Lit} (hq : ∀ p, (q p).length = n)
    (hx : ∀ p, (qux p).length = n) (hy : ∀ p, (quy p).length = n) (d : Dir) (p : Nat × Nat) :
    ∃ c, transportCell g q qux quy d p = .ok c ∧ ∀ v, Sat v c ↔ ∀ p', g.nb p d = some p' →
      ((g.vals v p).out d = true → (g.vals v p).isSplitter = false → (q p).map (ev v) = (q p').map (ev v)) ∧
      ((g.vals v p).ug d = true → ((if d.axis = .horizontal then qux else quy) p).map (ev v) =
        ((if d.axis = .horizontal then qux else quy) p').map (ev v)) ∧
      ((g.vals v p).inp d = true → (g.vals v p).isSplitter = false → (∀ e, (g.vals v p).out e = false) →
        (q p).map (ev v) = ((if d.axis = .horizontal then qux else quy) p').map (ev v)) ∧
      ((g.vals v p').out d = true → (g.vals v p').isSplitter = false → (∀ e, (g.vals v p').inp e = false) →
        ((if d.axis = .horizontal then qux else quy) p).map (ev v) = (q p').map (ev v)) := by
  unfold transportCell
  cases hnb : g.nb p d with
  | none => exact ⟨[], rfl, by simp⟩
  | some p' =>
    simp only
    have hu : ∀ r, ((if d.axis = .horizontal then qux else quy) r).length = n := by
      intro r; split
      · exact hx r
      · exact hy r
    generalize (if d.axis = .horizontal then qux else quy) = qu at hu
    obtain ⟨c, hc, hs⟩ := concatE_iff
      (fun r : List Lit × List Lit × List Lit =>
        match setNumbersEqual r.2.1 r.2.2 with
        | .error e => .error e
        | .ok c => .ok (implies r.1 c))
      (fun v r => (∀ l ∈ r.1, ev v l = true) → r.2.1.map (ev v) = r.2.2.map (ev v))
      [([(g.at' p).out d, -(g.at' p).isSplitter], q p, q p'),
       ([(g.at' p).ug d], qu p, qu p'),
       ([(g.at' p).inp d, -(g.at' p).isSplitter] ++ invertComponents (dirs (g.at' p).out), q p, qu p'),
       ([(g.at' p').out d, -(g.at' p').isSplitter] ++ invertComponents (dirs (g.at' p').inp), qu p, q p')]
      (by
        intro r hr
        have hl : r.2.1.length = r.2.2.length := by
          simp only [List.mem_cons, List.not_mem_nil, or_false] at hr
          rcases hr with rfl | rfl | rfl | rfl <;> simp [hq, hu]
        refine ⟨implies r.1 (equalClauses r.2.1 r.2.2), by simp [setNumbersEqual, hl], fun v => ?_⟩
        rw [Sat_implies, Sat_equalClauses_map v _ _ hl])
    refine ⟨c, hc, fun v => ?_⟩
    rw [hs]
    simp only [List.mem_cons, List.not_mem_nil, or_false, forall_eq_or_imp, forall_eq, List.forall_mem_append, ev_neg,
      Bool.not_eq_true', forall_mem_invert_dirs, Option.some.injEq, forall_eq', and_imp]
    rfl

theorem transport_iff {g : Grid} {n : Nat} {q qux quy : Nat × Nat → List Lit} (hq : ∀ p, (q p).length = n)
    (hx : ∀ p, (qux p).length = n) (hy : ∀ p, (quy p).length = n) :
    ∃ cs, transportQuantity g q qux quy = .ok cs ∧ ∀ v, Sat v cs ↔ TransportSem g (g.vals v) (fun p => (q p).map (ev v))
      (fun d p => ((if d.axis = .horizontal then qux else quy) p).map (ev v)) := by
  have inner : ∀ d ∈ Dir.all, ∃ c, concatE (transportCell g q qux quy d) g.cells = .ok c ∧ _ :=
    fun d _ => concatE_iff _ _ g.cells (fun p _ => transportCell_iff hq hx hy d p)
  obtain ⟨cs, hc, hs⟩ := concatE_iff (fun d => concatE (transportCell g q qux quy d) g.cells) _ Dir.all inner
  refine ⟨cs, hc, fun v => ?_⟩
  rw [hs]
  simp only [Dir.forall_mem_all, forall_cells]
  constructor
  · intro h
    exact ⟨fun d p q hp hq => (h d p hp q hq).1, fun d p q hp hq => (h d p hp q hq).2.1,
      fun d p q hp hq => (h d p hp q hq).2.2.1, fun d p q hp hq => (h d p hp q hq).2.2.2⟩
  · rintro ⟨a, b, c, e⟩ d p hp q hq
    exact ⟨a d p q hp hq, b d p q hp hq, c d p q hp hq, e d p q hp hq⟩

theorem colouring_iff {g : Grid} (hg : g.WF) :
    ∃ cs, preventBadColouring g = .ok cs ∧ ∀ v, Sat v cs ↔ ColourSem g (g.vals v) := by
  unfold preventBadColouring
  by_cases h1 : g.colours = some 1 ∨ g.colours = none
  · rw [if_pos h1]
    refine ⟨[], rfl, fun v => ?_⟩
    have hb : g.bits = 0 := by unfold Grid.bits; rcases h1 with h | h <;> simp [h]
    have hc : ∀ p, binVal (g.vals v p).colour = 0 := by
      intro p; have := hg.c p; rw [hb, List.length_eq_zero_iff] at this; simp [evalTile, this, binVal]
    have hu : ∀ p d, binVal ((g.vals v p).colourU d) = 0 := by
      intro p d
      have h1 := hg.cx p; rw [hb, List.length_eq_zero_iff] at h1
      have h2 := hg.cy p; rw [hb, List.length_eq_zero_iff] at h2
      unfold CellVal.colourU
      split <;> simp [evalTile, h1, h2, binVal]
    simp only [Sat_nil, true_iff]
    constructor <;> (intros; simp [hc, hu])
  · rw [if_neg h1]
    obtain ⟨cs, hc, hs⟩ := transport_iff (g := g) hg.c hg.cx hg.cy
    refine ⟨cs, hc, fun v => ?_⟩
    rw [hs]
    have hQ : ∀ p q, ((g.at' p).colour.map (ev v) = (g.at' q).colour.map (ev v)) ↔
        binVal (g.vals v p).colour = binVal (g.vals v q).colour :=
      fun p q => ⟨fun e => congrArg binVal e, fun e => binVal_inj (by simp [hg.c]) e⟩
    have hU : ∀ d p, ((if d.axis = .horizontal then fun p => (g.at' p).colourUx else fun p => (g.at' p).colourUy) p).map (ev v) =
        (g.vals v p).colourU d := by
      intro d p; unfold CellVal.colourU; split <;> rfl
    have hl : ∀ d p, ((g.vals v p).colourU d).length = g.bits := by
      intro d p; unfold CellVal.colourU; split <;> simp [evalTile, hg.cx, hg.cy]
    have hc' : ∀ p, (g.vals v p).colour.length = g.bits := fun p => by simp [evalTile, hg.c]
    constructor
    · rintro ⟨a, b, c, e⟩
      simp only [hU] at b c e
      exact ⟨fun d p q h1 h2 h3 h4 => congrArg binVal (a d p q h1 h2 h3 h4), fun d p q h1 h2 h3 => congrArg binVal (b d p q h1 h2 h3),
        fun d p q h1 h2 h3 h4 h5 => congrArg binVal (c d p q h1 h2 h3 h4 h5),
        fun d p q h1 h2 h3 h4 h5 => congrArg binVal (e d p q h1 h2 h3 h4 h5)⟩
    · rintro ⟨a, b, c, e⟩
      refine ⟨fun d p q h1 h2 h3 h4 => (hQ p q).2 (a d p q h1 h2 h3 h4), ?_, ?_, ?_⟩ <;> simp only [hU]
      · exact fun d p q h1 h2 h3 => binVal_inj (by simp [hl]) (b d p q h1 h2 h3)
      · exact fun d p q h1 h2 h3 h4 h5 => binVal_inj (by simp [hl, hg.c]) (c d p q h1 h2 h3 h4 h5)
      · exact fun d p q h1 h2 h3 h4 h5 => binVal_inj (by simp [hl, hg.c]) (e d p q h1 h2 h3 h4 h5)

end FSat
