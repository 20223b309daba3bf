import Verif.Lemmas.Rules
import Mathlib.Algebra.BigOperators.Intervals
import Mathlib.Algebra.Order.Ring.Int
/-!
# What flows into a grid without splitters flows out of it
-/

set_option linter.unusedSimpArgs false

namespace FSat

/-- 1 if it holds. -/
def tally (b : Bool) : Int := if b then 1 else 0

section
variable {g : Grid} {C : Nat × Nat → CellVal} {T : Nat × Nat → Tile} {f : Nat → Bool}

/-- The belts, over and under the ground, that leave a cell in direction `d`, in the colours `f`. -/
def goingOut (C : Nat × Nat → CellVal) (f : Nat → Bool) (d : Dir) (p : Nat × Nat) : Int :=
  tally ((C p).out d && f (binVal (C p).colour)) + tally ((C p).ug d && f (binVal ((C p).colourU d))) +
    tally ((C p).isUgIn && (C p).inp d && f (binVal (C p).colour))

/-- The belts, over and under the ground, that arrive at a cell in direction `d`, in the colours `f`. -/
def comingIn (C : Nat × Nat → CellVal) (f : Nat → Bool) (d : Dir) (p : Nat × Nat) : Int :=
  tally ((C p).inp d && f (binVal (C p).colour)) + tally ((C p).ug d && f (binVal ((C p).colourU d))) +
    tally ((C p).isUgOut && (C p).out d && f (binVal (C p).colour))

/-- What `create_edge` counts between two cells. -/
def crossing (C : Nat × Nat → CellVal) (f : Nat → Bool) (d : Dir) (p q : Nat × Nat) : Int :=
  tally ((C p).out d && f (binVal (C q).colour)) +
    tally (((C p).ug d || (C q).ug d) && f (binVal (if (C p).ug d then (C p).colourU d else (C q).colourU d)))

theorem Agrees.flow {c : CellVal} {t : Tile} (h : Agrees c t) (hs : ¬ t.IsSplitter) :
    (∀ d, c.inp d = decide (t.Takes d)) ∧ (∀ d, c.out d = decide (t.Emits d)) := by
  have h0 := h.isSplitter_false hs
  exact ⟨fun d => by rw [Bool.eq_iff_iff, decide_eq_true_iff]; exact h.takes_iff h0 d,
    fun d => by rw [Bool.eq_iff_iff, decide_eq_true_iff]; exact h.emits_iff h0 d⟩

theorem conserve {p : Nat × Nat} (h : Agrees (C p) (T p)) (hs : ¬ (T p).IsSplitter) :
    comingIn C f .right p + comingIn C f .up p + comingIn C f .left p + comingIn C f .down p =
    goingOut C f .right p + goingOut C f .up p + goingOut C f .left p + goingOut C f .down p := by
  obtain ⟨hi, ho⟩ := h.flow hs
  unfold comingIn goingOut
  simp only [hi, ho]
  generalize f (binVal (C p).colour) = b
  generalize tally ((C p).ug .right && _) = u1
  generalize tally ((C p).ug .up && _) = u2
  generalize tally ((C p).ug .left && _) = u3
  generalize tally ((C p).ug .down && _) = u4
  have t1 : tally true = 1 := rfl
  have t0 : tally false = 0 := rfl
  have d0 : decide False = false := rfl
  revert h hs
  cases T p with
  | belt i o =>
    intro h _
    have : (C p).isUgIn = false ∧ (C p).isUgOut = false := by
      have := h.1; simp only [CellVal.kinds, List.cons.injEq] at this; exact ⟨this.2.2.2.1, this.2.2.2.2.1⟩
    rw [this.1, this.2]
    cases i <;> cases o <;> cases b <;> simp [t0, t1, d0, Tile.Takes, Tile.Emits] <;> omega
  | underground e b' =>
    intro h _
    cases b' with
    | true =>
      have : (C p).isUgIn = true ∧ (C p).isUgOut = false := by
        have := h.1; simp only [CellVal.kinds, List.cons.injEq] at this; exact ⟨this.2.2.2.1, this.2.2.2.2.1⟩
      rw [this.1, this.2]
      cases e <;> cases b <;> simp [t0, t1, d0, Tile.Takes, Tile.Emits] <;> omega
    | false =>
      have : (C p).isUgIn = false ∧ (C p).isUgOut = true := by
        have := h.1; simp only [CellVal.kinds, List.cons.injEq] at this; exact ⟨this.2.2.2.1, this.2.2.2.2.1⟩
      rw [this.1, this.2]
      cases e <;> cases b <;> simp [t0, t1, d0, Tile.Takes, Tile.Emits] <;> omega
  | splitter e b' => intro _ h; exact absurd ⟨e, b', rfl⟩ h
  | empty =>
    intro h _
    have : (C p).isUgIn = false ∧ (C p).isUgOut = false := by
      have := h.1; simp only [CellVal.kinds, List.cons.injEq] at this; exact ⟨this.2.2.2.1, this.2.2.2.2.1⟩
    rw [this.1, this.2]
    simp [t0, t1, d0, Tile.Takes, Tile.Emits]
  | _ => intro h; exact h.elim

/-- Everything that is known about the cells. -/
structure FlowSem (g : Grid) (C : Nat × Nat → CellVal) (T : Nat × Nat → Tile) : Prop where
  wf : g.WF
  lays : Lays g C T
  plain : ∀ p, g.In p → ¬ (T p).IsSplitter
  inter : IntersectionSem g C
  under : UndergroundSem g C
  colour : ColourSem g C

theorem FlowSem.noOut (h : FlowSem g C T) {p : Nat × Nat} (hp : g.In p) (hu : (C p).isUgIn = true) (e : Dir) : (C p).out e = false := by
  have ha := h.lays p hp
  revert ha
  cases T p with
  | underground d b =>
    cases b with
    | true => exact fun ha => ha.2.2.2 e
    | false => intro ha; have := ha.1; simp only [CellVal.kinds, List.cons.injEq] at this; rw [hu] at this; simp at this
  | belt i o => intro ha; have := ha.1; simp only [CellVal.kinds, List.cons.injEq] at this; rw [hu] at this; simp at this
  | splitter d b => intro ha; have := ha.1; simp only [CellVal.kinds, List.cons.injEq] at this; rw [hu] at this; simp at this
  | empty => exact fun ha => ha.2.2.2 e
  | _ => exact fun ha => ha.elim

theorem FlowSem.noIn (h : FlowSem g C T) {p : Nat × Nat} (hp : g.In p) (hu : (C p).isUgOut = true) (e : Dir) : (C p).inp e = false := by
  have ha := h.lays p hp
  revert ha
  cases T p with
  | underground d b =>
    cases b with
    | false => exact fun ha => ha.2.2.1 e
    | true => intro ha; have := ha.1; simp only [CellVal.kinds, List.cons.injEq] at this; rw [hu] at this; simp at this
  | belt i o => intro ha; have := ha.1; simp only [CellVal.kinds, List.cons.injEq] at this; rw [hu] at this; simp at this
  | splitter d b => intro ha; have := ha.1; simp only [CellVal.kinds, List.cons.injEq] at this; rw [hu] at this; simp at this
  | empty => exact fun ha => ha.2.2.1 e
  | _ => exact fun ha => ha.elim

/-- What leaves a cell is what crosses the line, and what arrives at the next. -/
theorem FlowSem.edge (h : FlowSem g C T) {p q : Nat × Nat} {d : Dir} (hp : g.In p) (hq : g.nb p d = some q) :
    goingOut C f d p = crossing C f d p q ∧ comingIn C f d q = crossing C f d p q := by
  have hq' := Grid.nb_in h.wf hq
  have hb := Grid.nb_opp h.wf hp hq
  have hs := (h.lays p hp).isSplitter_false (h.plain p hp)
  have hsq := (h.lays q hq').isSplitter_false (h.plain q hq')
  have hio := (h.inter d p q hp hq).1
  have hsurf : tally ((C p).out d && f (binVal (C p).colour)) = tally ((C p).out d && f (binVal (C q).colour)) := by
    cases ho : (C p).out d with
    | false => rfl
    | true => rw [h.colour.surface d p q hp hq ho hs]
  have hin : ((C p).isUgIn && (C p).inp d) = (!(C p).ug d && (C q).ug d) := by
    cases hu : (C p).isUgIn && (C p).inp d with
    | true =>
      rw [Bool.and_eq_true] at hu
      rw [(h.under.notIn d p hp hu).1, h.under.afterIn d p q hp hq hu]; rfl
    | false =>
      by_contra hc
      have hc : (!(C p).ug d && (C q).ug d) = true := by simpa using Ne.symm hc
      simp only [Bool.and_eq_true, Bool.not_eq_true'] at hc
      have := h.under.prev d q p hq' hb hc.2 hc.1
      rw [this.1, this.2] at hu; cases hu
  have hout : ((C q).isUgOut && (C q).out d) = ((C p).ug d && !(C q).ug d) := by
    cases hu : (C q).isUgOut && (C q).out d with
    | true =>
      rw [Bool.and_eq_true] at hu
      rw [(h.under.notOut d q hq' hu).1, h.under.beforeOut d q p hq' hb hu]; rfl
    | false =>
      by_contra hc
      have hc : ((C p).ug d && !(C q).ug d) = true := by simpa using Ne.symm hc
      simp only [Bool.and_eq_true, Bool.not_eq_true'] at hc
      have := h.under.next d p q hp hq hc.1 hc.2
      rw [this.1, this.2] at hu; cases hu
  unfold goingOut comingIn crossing
  rw [hsurf, hin, hout, ← hio]
  have t0 : tally false = 0 := rfl
  cases h1 : (C p).ug d <;> cases h2 : (C q).ug d
  · simp [t0]
  · have hu : ((C p).isUgIn && (C p).inp d) = true := by rw [hin, h1, h2]; rfl
    rw [Bool.and_eq_true] at hu
    rw [h.colour.entrance d p q hp hq hu.2 hs (h.noOut hp hu.1)]
    simp [t0]
  · have hu : ((C q).isUgOut && (C q).out d) = true := by rw [hout, h1, h2]; rfl
    rw [Bool.and_eq_true] at hu
    simp [t0, h.colour.exit d p q hp hq hu.2 hsq (h.noIn hq' hu.1)]
  · simp [t0, h.colour.under d p q hp hq h1]

/-! ### Lines through the grid -/

/-- Adding up what is conserved in every cell. -/
theorem sum_cells (X Y : Nat → Nat → Int) (w k : Nat)
    (h : ∀ x < w, ∀ y < k, X x y + Y x y = X (x + 1) y + Y x (y + 1)) :
    (∑ x ∈ Finset.range w, Y x k) - ∑ x ∈ Finset.range w, Y x 0 = ∑ y ∈ Finset.range k, (X 0 y - X w y) := by
  induction k with
  | zero => simp
  | succ k ih =>
    rw [Finset.sum_range_succ, ← ih fun x hx y hy => h x hx y (by omega)]
    have : (∑ x ∈ Finset.range w, Y x (k + 1)) - ∑ x ∈ Finset.range w, Y x k = X 0 k - X w k := by
      rw [← Finset.sum_sub_distrib, ← neg_sub (X w k), ← Finset.sum_range_sub (fun x => X x k) w, ← Finset.sum_neg_distrib]
      refine Finset.sum_congr rfl fun x hx => ?_
      have := h x (Finset.mem_range.1 hx) k (by omega)
      omega
    omega

/-- What moves right between column `i - 1` and column `i`. -/
def rightward (C : Nat × Nat → CellVal) (f : Nat → Bool) (i y : Nat) : Int :=
  if i = 0 then comingIn C f .right (0, y) - goingOut C f .left (0, y)
  else goingOut C f .right (i - 1, y) - comingIn C f .left (i - 1, y)

/-- What moves down between row `j - 1` and row `j`. -/
def downward (C : Nat × Nat → CellVal) (f : Nat → Bool) (x j : Nat) : Int :=
  if j = 0 then comingIn C f .down (x, 0) - goingOut C f .up (x, 0)
  else goingOut C f .down (x, j - 1) - comingIn C f .up (x, j - 1)

/-- The grid does not wrap. -/
def Flat (g : Grid) : Prop := g.edge = ⟨false, false⟩

theorem Flat.right (he : Flat g) (hg : g.WF) {x y : Nat} (hx : x + 1 < g.width) (hy : y < g.height) :
    g.nb (x, y) .right = some (x + 1, y) := by
  rw [Grid.nb, Grid.offset_iff hg, he]
  exact ⟨⟨hx, by simp [Dir.dx]⟩, hy, by simp [Dir.dy]⟩

theorem Flat.down (he : Flat g) (hg : g.WF) {x y : Nat} (hx : x < g.width) (hy : y + 1 < g.height) :
    g.nb (x, y) .down = some (x, y + 1) := by
  rw [Grid.nb, Grid.offset_iff hg, he]
  exact ⟨⟨hx, by simp [Dir.dx]⟩, hy, by simp [Dir.dy]⟩

theorem Flat.left (he : Flat g) (hg : g.WF) {x y : Nat} (hx : x + 1 < g.width) (hy : y < g.height) :
    g.nb (x + 1, y) .left = some (x, y) :=
  Grid.nb_opp hg (d := .right) ⟨by show x < g.width; omega, hy⟩ (he.right hg hx hy)

theorem Flat.up (he : Flat g) (hg : g.WF) {x y : Nat} (hx : x < g.width) (hy : y + 1 < g.height) :
    g.nb (x, y + 1) .up = some (x, y) :=
  Grid.nb_opp hg (d := .down) ⟨hx, by show y < g.height; omega⟩ (he.down hg hx hy)

/-- Between two columns. -/
theorem FlowSem.rightward (h : FlowSem g C T) (he : Flat g) {x y : Nat} (hx : x + 1 < g.width) (hy : y < g.height) :
    rightward C f (x + 1) y = crossing C f .right (x, y) (x + 1, y) - crossing C f .left (x + 1, y) (x, y) ∧
    rightward C f (x + 1) y = comingIn C f .right (x + 1, y) - goingOut C f .left (x + 1, y) := by
  have h1 := h.edge (f := f) ⟨by show x < g.width; omega, hy⟩ (he.right h.wf hx hy)
  have h2 := h.edge (f := f) ⟨hx, hy⟩ (he.left h.wf hx hy)
  unfold FSat.rightward
  rw [if_neg (by omega), Nat.add_sub_cancel, h1.1, h1.2, h2.1, h2.2]
  exact ⟨rfl, rfl⟩

/-- Between two rows. -/
theorem FlowSem.downward (h : FlowSem g C T) (he : Flat g) {x y : Nat} (hx : x < g.width) (hy : y + 1 < g.height) :
    downward C f x (y + 1) = crossing C f .down (x, y) (x, y + 1) - crossing C f .up (x, y + 1) (x, y) ∧
    downward C f x (y + 1) = comingIn C f .down (x, y + 1) - goingOut C f .up (x, y + 1) := by
  have h1 := h.edge (f := f) ⟨hx, by show y < g.height; omega⟩ (he.down h.wf hx hy)
  have h2 := h.edge (f := f) ⟨hx, hy⟩ (he.up h.wf hx hy)
  unfold FSat.downward
  rw [if_neg (by omega), Nat.add_sub_cancel, h1.1, h1.2, h2.1, h2.2]
  exact ⟨rfl, rfl⟩

theorem FlowSem.cell (h : FlowSem g C T) (he : Flat g) {x y : Nat} (hx : x < g.width) (hy : y < g.height) :
    FSat.rightward C f x y + FSat.downward C f x y = FSat.rightward C f (x + 1) y + FSat.downward C f x (y + 1) := by
  have h1 : FSat.rightward C f x y = comingIn C f .right (x, y) - goingOut C f .left (x, y) := by
    cases x with
    | zero => exact if_pos rfl
    | succ x => exact (h.rightward he hx hy).2
  have h2 : FSat.downward C f x y = comingIn C f .down (x, y) - goingOut C f .up (x, y) := by
    cases y with
    | zero => exact if_pos rfl
    | succ y => exact (h.downward he hx hy).2
  have h3 : FSat.rightward C f (x + 1) y = goingOut C f .right (x, y) - comingIn C f .left (x, y) := by
    unfold FSat.rightward; rw [if_neg (by omega), Nat.add_sub_cancel]
  have h4 : FSat.downward C f x (y + 1) = goingOut C f .down (x, y) - comingIn C f .up (x, y) := by
    unfold FSat.downward; rw [if_neg (by omega), Nat.add_sub_cancel]
  have := conserve (f := f) (h.lays (x, y) ⟨hx, hy⟩) (h.plain _ ⟨hx, hy⟩)
  rw [h1, h2, h3, h4]
  omega

/-- Nothing passes the upper and the lower edge, and no underground belt passes an edge. -/
structure Enclosed (g : Grid) (C : Nat × Nat → CellVal) : Prop where
  belts : BlockBeltSem g (.ofPair false true) C
  under : BlockUgSem g (.ofBool true) C

theorem Enclosed.top (h : Enclosed g C) (hg : g.WF) {x : Nat} (hx : x < g.width) : FSat.downward C f x 0 = 0 := by
  have hp : g.In (x, 0) := ⟨hx, hg.h⟩
  have h1 := h.belts (x, 0) .up hp ⟨rfl, rfl⟩
  have h2 := h.under (x, 0) .up hp ⟨rfl, rfl⟩
  have t0 : tally false = 0 := rfl
  unfold FSat.downward comingIn goingOut
  rw [if_pos rfl]
  simp only [Dir.opp] at h1 h2
  have e1 : ((C (x, 0)).isUgOut && (C (x, 0)).out .down) = false := by
    rw [← Bool.not_eq_true, Bool.and_eq_true]; exact h2.2.2.2
  have e2 : ((C (x, 0)).isUgIn && (C (x, 0)).inp .up) = false := by
    rw [← Bool.not_eq_true, Bool.and_eq_true]; exact h2.2.2.1
  rw [h1.1, h1.2.1, h2.1, h2.2.1, e1, e2]
  simp [t0]

theorem Enclosed.bottom (h : Enclosed g C) (hg : g.WF) {x : Nat} (hx : x < g.width) : FSat.downward C f x g.height = 0 := by
  have hh := hg.h
  have hp : g.In (x, g.height - 1) := ⟨hx, by show g.height - 1 < g.height; omega⟩
  have h1 := h.belts (x, g.height - 1) .down hp ⟨rfl, rfl⟩
  have h2 := h.under (x, g.height - 1) .down hp ⟨rfl, rfl⟩
  have t0 : tally false = 0 := rfl
  unfold FSat.downward comingIn goingOut
  rw [if_neg (by omega)]
  simp only [Dir.opp] at h1 h2
  have e1 : ((C (x, g.height - 1)).isUgOut && (C (x, g.height - 1)).out .up) = false := by
    rw [← Bool.not_eq_true, Bool.and_eq_true]; exact h2.2.2.2
  have e2 : ((C (x, g.height - 1)).isUgIn && (C (x, g.height - 1)).inp .down) = false := by
    rw [← Bool.not_eq_true, Bool.and_eq_true]; exact h2.2.2.1
  rw [h1.1, h1.2.1, h2.1, h2.2.1, e1, e2]
  simp [t0]

/-- A cell at the left edge that takes items from outside. -/
theorem Enclosed.left (h : Enclosed g C) (hF : FlowSem g C T) {y : Nat} (hy : y < g.height) (hin : (C (0, y)).inp .right = true) :
    FSat.rightward C f 0 y = tally (f (binVal (C (0, y)).colour)) := by
  have hp : g.In (0, y) := ⟨hF.wf.w, hy⟩
  have h2 := h.under (0, y) .left hp ⟨rfl, rfl⟩
  have t0 : tally false = 0 := rfl
  unfold FSat.rightward comingIn goingOut
  rw [if_pos rfl]
  simp only [Dir.opp] at h2
  have e1 : ((C (0, y)).isUgOut && (C (0, y)).out .right) = false := by
    rw [← Bool.not_eq_true, Bool.and_eq_true]; exact h2.2.2.2
  have e2 : ((C (0, y)).isUgIn && (C (0, y)).inp .left) = false := by
    rw [← Bool.not_eq_true, Bool.and_eq_true]; exact h2.2.2.1
  have e3 : (C (0, y)).out .left = false := by
    have ha := hF.lays _ hp
    have hs := hF.plain _ hp
    rw [(ha.flow hs).2, decide_eq_false_iff_not]
    have ht := (ha.takes_iff (ha.isSplitter_false hs) .right).1 hin
    have hb := ha.basic
    revert ht hb hs
    cases T (0, y) with
    | belt i o => intro _ h1 h2 h3; rw [show i = .right from h1, show o = .left from h3] at h2; exact h2 rfl
    | underground e b => cases b <;> simp [Tile.Takes, Tile.Emits]
    | splitter e b => intro hs; exact absurd ⟨e, b, rfl⟩ hs
    | _ => simp [Tile.Takes, Tile.Emits]
  rw [hin, h2.1, h2.2.1, e1, e2, e3]
  simp [t0]

/-- A cell at the right edge that puts items out. -/
theorem Enclosed.right (h : Enclosed g C) (hF : FlowSem g C T) {y : Nat} (hy : y < g.height)
    (hout : (C (g.width - 1, y)).out .right = true) :
    FSat.rightward C f g.width y = tally (f (binVal (C (g.width - 1, y)).colour)) := by
  have hw := hF.wf.w
  have hp : g.In (g.width - 1, y) := ⟨by show g.width - 1 < g.width; omega, hy⟩
  have h2 := h.under (g.width - 1, y) .right hp ⟨rfl, rfl⟩
  have t0 : tally false = 0 := rfl
  unfold FSat.rightward comingIn goingOut
  rw [if_neg (by omega)]
  simp only [Dir.opp] at h2
  have e1 : ((C (g.width - 1, y)).isUgOut && (C (g.width - 1, y)).out .left) = false := by
    rw [← Bool.not_eq_true, Bool.and_eq_true]; exact h2.2.2.2
  have e2 : ((C (g.width - 1, y)).isUgIn && (C (g.width - 1, y)).inp .right) = false := by
    rw [← Bool.not_eq_true, Bool.and_eq_true]; exact h2.2.2.1
  have e3 : (C (g.width - 1, y)).inp .left = false := by
    have ha := hF.lays _ hp
    have hs := hF.plain _ hp
    rw [(ha.flow hs).1, decide_eq_false_iff_not]
    have ht := (ha.emits_iff (ha.isSplitter_false hs) .right).1 hout
    have hb := ha.basic
    revert ht hb hs
    cases T (g.width - 1, y) with
    | belt i o => intro _ h1 h2 h3; rw [show o = .right from h1, show i = .left from h3] at h2; exact h2 rfl
    | underground e b => cases b <;> simp [Tile.Takes, Tile.Emits]
    | splitter e b => intro hs; exact absurd ⟨e, b, rfl⟩ hs
    | _ => simp [Tile.Takes, Tile.Emits]
  rw [hout, h2.1, h2.2.1, e1, e2, e3]
  simp [t0]

/-- What moves down through a line below `k` rows: what comes in above it, less what goes out above it. -/
theorem FlowSem.throughRow (h : FlowSem g C T) (he : Flat g) (hE : Enclosed g C)
    (hin : ∀ y < g.height, (C (0, y)).inp .right = true) (hout : ∀ y < g.height, (C (g.width - 1, y)).out .right = true)
    {k : Nat} (hk : k ≤ g.height) :
    ∑ x ∈ Finset.range g.width, FSat.downward C f x k =
      (∑ y ∈ Finset.range k, tally (f (binVal (C (0, y)).colour))) -
        ∑ y ∈ Finset.range k, tally (f (binVal (C (g.width - 1, y)).colour)) := by
  have := sum_cells (FSat.rightward C f) (FSat.downward C f) g.width k fun x hx y hy => h.cell he hx (by omega)
  rw [Finset.sum_eq_zero (s := Finset.range g.width) (f := fun x => FSat.downward C f x 0)
    fun x hx => hE.top h.wf (Finset.mem_range.1 hx), sub_zero] at this
  rw [this, ← Finset.sum_sub_distrib]
  refine Finset.sum_congr rfl fun y hy => ?_
  have hy := Finset.mem_range.1 hy
  rw [hE.left h (by omega) (hin y (by omega)), hE.right h (by omega) (hout y (by omega))]

/-- What moves right through a line is what comes in. -/
theorem FlowSem.throughColumn (h : FlowSem g C T) (he : Flat g) (hE : Enclosed g C)
    (hin : ∀ y < g.height, (C (0, y)).inp .right = true) {i : Nat} (hi : i ≤ g.width) :
    ∑ y ∈ Finset.range g.height, FSat.rightward C f i y = ∑ y ∈ Finset.range g.height, tally (f (binVal (C (0, y)).colour)) := by
  have := sum_cells (fun y x => FSat.downward C f x y) (fun y x => FSat.rightward C f x y) g.height i fun y hy x hx => by
    have := h.cell (f := f) he (x := x) (y := y) (by omega) hy
    omega
  rw [Finset.sum_eq_zero (s := Finset.range i) (f := fun x => FSat.downward C f x 0 - FSat.downward C f x g.height) fun x hx => by
      have hx := Finset.mem_range.1 hx
      rw [hE.top h.wf (by omega), hE.bottom h.wf (by omega), sub_zero]] at this
  rw [sub_eq_zero] at this
  rw [this]
  refine Finset.sum_congr rfl fun y hy => ?_
  have hy := Finset.mem_range.1 hy
  exact hE.left h hy (hin y hy)

end
end FSat
