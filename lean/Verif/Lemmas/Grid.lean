import Verif.Lemmas.Cell
import Verif.Props.Template

set_option linter.unusedSimpArgs false

namespace FSat

/-- The cell lies in the grid. -/
def Grid.In (g : Grid) (p : Nat × Nat) : Prop := p.1 < g.width ∧ p.2 < g.height

instance (g : Grid) (p : Nat × Nat) : Decidable (g.In p) := by unfold Grid.In; infer_instance

/-- Number of bits of a colour. -/
def Grid.bits (g : Grid) : Nat := ((g.colours.getD 1) - 1).size

/-- What the constructors establish (template.py:281, solver.py:43-76): positive dimensions, and all colour members have as many
bits as the number of colours needs. -/
structure Grid.WF (g : Grid) : Prop where
  w : 0 < g.width
  h : 0 < g.height
  n : ∀ n, g.colours = some n → 1 ≤ n
  c : ∀ p, (g.at' p).colour.length = g.bits
  cx : ∀ p, (g.at' p).colourUx.length = g.bits
  cy : ∀ p, (g.at' p).colourUy.length = g.bits

theorem Grid.mem_cells (g : Grid) (p : Nat × Nat) : p ∈ g.cells ↔ g.In p := by
  obtain ⟨x, y⟩ := p
  simp [Grid.cells, Grid.In]

theorem Grid.offset_iff {g : Grid} (hg : g.WF) (p : Nat × Nat) (dx dy : Int) (q : Nat × Nat) :
    g.offset p dx dy = some q ↔
      AxisAt g.edge.wrapX g.width (p.1 + dx) q.1 ∧ AxisAt g.edge.wrapY g.height (p.2 + dy) q.2 := by
  obtain ⟨r, h1, h2⟩ := c14_offset g.width g.height hg.w hg.h g.edge p.1 p.2 dx dy
  unfold Grid.offset
  rw [h1]
  exact h2 q.1 q.2

theorem Grid.offset_in {g : Grid} (hg : g.WF) {p : Nat × Nat} {dx dy : Int} {q : Nat × Nat}
    (h : g.offset p dx dy = some q) : g.In q := by
  rw [Grid.offset_iff hg] at h
  exact ⟨h.1.1, h.2.1⟩

theorem Grid.nb_in {g : Grid} (hg : g.WF) {p q : Nat × Nat} {d : Dir} (h : g.nb p d = some q) : g.In q :=
  Grid.offset_in hg h

theorem AxisAt_symm {wrap : Bool} {size a b : Nat} {δ : Int} (ha : a < size) (h : AxisAt wrap size (a + δ) b) :
    AxisAt wrap size (b - δ) a := by
  obtain ⟨h1, h2⟩ := h
  refine ⟨ha, ?_⟩
  cases wrap with
  | false => simp at h2 ⊢; omega
  | true =>
    simp at h2 ⊢
    obtain ⟨k, hk⟩ := h2
    refine ⟨-k, ?_⟩
    rw [Int.neg_mul]; omega

theorem Grid.nb_opp {g : Grid} (hg : g.WF) {p q : Nat × Nat} {d : Dir} (hp : g.In p) (h : g.nb p d = some q) :
    g.nb q d.opp = some p := by
  unfold Grid.nb at h ⊢
  rw [Grid.offset_iff hg] at h ⊢
  rw [Dir.dx_opp, Dir.dy_opp]
  exact ⟨AxisAt_symm hp.1 h.1, AxisAt_symm hp.2 h.2⟩

theorem Grid.nb_opp_iff {g : Grid} (hg : g.WF) {p q : Nat × Nat} {d : Dir} (hp : g.In p) (hq : g.In q) :
    g.nb p d = some q ↔ g.nb q d.opp = some p := by
  refine ⟨Grid.nb_opp hg hp, fun h => ?_⟩
  have := Grid.nb_opp hg hq h
  rwa [Dir.opp_opp] at this

theorem Grid.offset_neg (g : Grid) (p : Nat × Nat) (d : Dir) : g.offset p (-d.dx) (-d.dy) = g.nb p d.opp := by
  unfold Grid.nb; rw [Dir.dx_opp, Dir.dy_opp]

theorem Grid.nb_inj {g : Grid} (hg : g.WF) {p p' q : Nat × Nat} {d : Dir} (hp : g.In p) (hp' : g.In p')
    (h : g.nb p d = some q) (h' : g.nb p' d = some q) : p = p' := by
  have a := Grid.nb_opp hg hp h
  have b := Grid.nb_opp hg hp' h'
  rw [a] at b; exact Option.some.inj b

/-! ### Walks -/

theorem walk_in {g : Grid} (hg : g.WF) {p q : Nat × Nat} {d : Dir} {k : Nat} (hp : g.In p) (h : walk g.nb p d k = some q) :
    g.In q := by
  cases k with
  | zero => cases h; exact hp
  | succ k =>
    simp only [walk, Option.bind_eq_some_iff] at h
    obtain ⟨r, _, h⟩ := h
    exact Grid.nb_in hg h

theorem walk_succ_some {P : Type} {nb : P → Dir → Option P} {p q r : P} {d : Dir} {k : Nat} (h : walk nb p d k = some q)
    (h' : nb q d = some r) : walk nb p d (k + 1) = some r := by
  simp [walk, h, h']

theorem walk_add {P : Type} (nb : P → Dir → Option P) (p : P) (d : Dir) (a b : Nat) :
    walk nb p d (a + b) = (walk nb p d a).bind fun q => walk nb q d b := by
  induction b with
  | zero => simp [walk]
  | succ b ih => rw [← Nat.add_assoc, walk, ih, Option.bind_assoc]; rfl

theorem walk_le {P : Type} {nb : P → Dir → Option P} {p q : P} {d : Dir} {k : Nat} (h : walk nb p d k = some q) {i : Nat}
    (hi : i ≤ k) : ∃ r, walk nb p d i = some r ∧ walk nb r d (k - i) = some q := by
  have : k = i + (k - i) := by omega
  rw [this, walk_add, Option.bind_eq_some_iff] at h
  exact h

theorem walk_opp {g : Grid} (hg : g.WF) {p q : Nat × Nat} {d : Dir} {k : Nat} (hp : g.In p) (h : walk g.nb p d k = some q) :
    walk g.nb q d.opp k = some p := by
  induction k generalizing q with
  | zero => cases h; rfl
  | succ k ih =>
    simp only [walk, Option.bind_eq_some_iff] at h
    obtain ⟨r, h1, h2⟩ := h
    have hr := walk_in hg hp h1
    rw [Nat.add_comm, walk_add]
    simp [walk, Grid.nb_opp hg hr h2, ih h1]

theorem AxisAt_step {wrap : Bool} {size x : Nat} (hx : x < size) {δ : Int} (hδ : δ = 0 ∨ δ = 1 ∨ δ = -1) (i b : Nat) :
    AxisAt wrap size (x + δ * ((i : Int) + 1)) b ↔ ∃ a, AxisAt wrap size (x + δ * i) a ∧ AxisAt wrap size (a + δ) b := by
  cases wrap with
  | false =>
    simp only [AxisAt, Bool.false_eq_true, if_false]
    constructor
    · rintro ⟨h1, h2⟩
      refine ⟨((x : Int) + δ * i).toNat, ?_⟩
      rcases hδ with rfl | rfl | rfl <;> omega
    · rintro ⟨a, ⟨h1, h2⟩, h3, h4⟩
      refine ⟨h3, ?_⟩
      rcases hδ with rfl | rfl | rfl <;> omega
  | true =>
    simp only [AxisAt, if_true]
    have hs : (0 : Int) < size := by omega
    constructor
    · rintro ⟨h1, k, hk⟩
      have e1 : (x : Int) + δ * (i + 1) = (x + δ * i) + δ := by ring
      rw [e1] at hk
      generalize (x : Int) + δ * i = X at hk ⊢
      have hm0 := Int.emod_nonneg X (by omega : (size : Int) ≠ 0)
      have hm1 := Int.emod_lt_of_pos X hs
      have hd := Int.emod_add_mul_ediv X size
      rw [Int.mul_comm] at hd
      refine ⟨(X % size).toNat, ⟨by omega, X / size, ?_⟩, h1, k - X / size, ?_⟩
      · rw [Int.toNat_of_nonneg hm0]; omega
      · rw [Int.toNat_of_nonneg hm0, Int.sub_mul]; omega
    · rintro ⟨a, ⟨_, k, hk⟩, h1, l, hl⟩
      refine ⟨h1, k + l, ?_⟩
      have : (x : Int) + δ * (i + 1) = (x + δ * i) + δ := by ring
      have e : (k + l) * (size : Int) = k * size + l * size := by ring
      rw [this, e]; omega

theorem Dir.dx_cases (d : Dir) : d.dx = 0 ∨ d.dx = 1 ∨ d.dx = -1 := by cases d <;> simp [Dir.dx]
theorem Dir.dy_cases (d : Dir) : d.dy = 0 ∨ d.dy = 1 ∨ d.dy = -1 := by cases d <;> simp [Dir.dy]

/-- The cell at `i` times the direction vector is reached by walking `i` steps. -/
theorem Grid.offset_walk {g : Grid} (hg : g.WF) {p : Nat × Nat} (hp : g.In p) (d : Dir) (i : Nat) :
    g.offset p (d.dx * i) (d.dy * i) = walk g.nb p d i := by
  induction i with
  | zero =>
    apply (Grid.offset_iff hg p _ _ p).2
    constructor
    · refine ⟨hp.1, ?_⟩; split
      · exact ⟨0, by simp⟩
      · simp
    · refine ⟨hp.2, ?_⟩; split
      · exact ⟨0, by simp⟩
      · simp
  | succ i ih =>
    apply Option.ext
    intro q
    rw [Grid.offset_iff hg, walk, ← ih, Option.bind_eq_some_iff]
    push_cast
    rw [AxisAt_step hp.1 d.dx_cases, AxisAt_step hp.2 d.dy_cases]
    constructor
    · rintro ⟨⟨a, ha, ha'⟩, b, hb, hb'⟩
      exact ⟨(a, b), (Grid.offset_iff hg _ _ _ _).2 ⟨ha, hb⟩, (Grid.offset_iff hg _ _ _ _).2 ⟨ha', hb'⟩⟩
    · rintro ⟨⟨a, b⟩, h, h'⟩
      have h := (Grid.offset_iff hg _ _ _ _).1 h
      have h' := (Grid.offset_iff hg _ _ _ _).1 h'
      exact ⟨⟨a, h.1, h'.1⟩, b, h.2, h'.2⟩

/-- The axis of the direction wraps around. -/
def Grid.wraps (g : Grid) (d : Dir) : Bool := if d.axis = .horizontal then g.edge.wrapX else g.edge.wrapY

/-- The size of the grid along the direction. -/
def Grid.len (g : Grid) (d : Dir) : Nat := if d.axis = .horizontal then g.width else g.height

theorem Grid.len_pos {g : Grid} (hg : g.WF) (d : Dir) : 0 < g.len d := by
  unfold Grid.len; split
  · exact hg.w
  · exact hg.h

theorem Grid.walk_len {g : Grid} (hg : g.WF) {p : Nat × Nat} (hp : g.In p) (d : Dir) :
    walk g.nb p d (g.len d) = if g.wraps d then some p else none := by
  rw [← Grid.offset_walk hg hp]
  obtain ⟨hx, hy⟩ := hp
  have key : ∀ q, g.offset p (d.dx * g.len d) (d.dy * g.len d) = some q ↔ (g.wraps d = true ∧ q = p) := by
    intro q
    rw [Grid.offset_iff hg]
    have hself : ∀ (wr : Bool) (s a : Nat) (b : Nat), a < s → (AxisAt wr s (a + 0) b ↔ b = a) := by
      intro wr s a b ha
      constructor
      · intro h
        have h2 : AxisAt wr s ((a : Int) + 0) a := ⟨ha, by cases wr <;> simp⟩
        exact AxisAt_unique h h2
      · rintro rfl
        exact ⟨ha, by cases wr <;> simp⟩
    have hfull : ∀ (wr : Bool) (s a b : Nat) (δ : Int), (δ = 1 ∨ δ = -1) → a < s →
        (AxisAt wr s (a + δ * s) b ↔ wr = true ∧ b = a) := by
      intro wr s a b δ hδ ha
      cases wr with
      | false =>
        simp only [AxisAt, Bool.false_eq_true, if_false, false_and, iff_false, not_and]
        rcases hδ with rfl | rfl <;> omega
      | true =>
        constructor
        · intro h
          refine ⟨rfl, ?_⟩
          have h2 : AxisAt true s ((a : Int) + δ * s) a := ⟨ha, by simp⟩
          exact AxisAt_unique h h2
        · rintro ⟨_, rfl⟩
          exact ⟨ha, by simp⟩
    obtain ⟨x, y⟩ := p; obtain ⟨x', y'⟩ := q
    simp only at hx hy
    cases d
    · simp only [Grid.len, Grid.wraps, show Dir.right.axis = .horizontal from rfl, if_true, Dir.dx, Dir.dy, Int.zero_mul,
        hself _ _ _ _ hy, hfull _ _ _ _ 1 (.inl rfl) hx, Prod.mk.injEq, and_assoc]
    · simp only [Grid.len, Grid.wraps, show Dir.up.axis ≠ .horizontal by decide, if_false, Dir.dx, Dir.dy, Int.zero_mul,
        hself _ _ _ _ hx, hfull _ _ _ _ (-1) (.inr rfl) hy, Prod.mk.injEq]
      tauto
    · simp only [Grid.len, Grid.wraps, show Dir.left.axis = .horizontal from rfl, if_true, Dir.dx, Dir.dy, Int.zero_mul,
        hself _ _ _ _ hy, hfull _ _ _ _ (-1) (.inr rfl) hx, Prod.mk.injEq, and_assoc]
    · simp only [Grid.len, Grid.wraps, show Dir.down.axis ≠ .horizontal by decide, if_false, Dir.dx, Dir.dy, Int.zero_mul,
        hself _ _ _ _ hx, hfull _ _ _ _ 1 (.inl rfl) hy, Prod.mk.injEq]
      tauto
  split
  · exact (key p).2 ⟨by assumption, rfl⟩
  · cases hq : g.offset p (d.dx * g.len d) (d.dy * g.len d) with
    | none => rfl
    | some q => exact absurd ((key q).1 hq).1 (by assumption)

/-- The cell lies on the outermost row or column in direction `d`. -/
def Grid.OnEdge (g : Grid) (p : Nat × Nat) : Dir → Prop
  | .right => p.1 = g.width - 1
  | .up => p.2 = 0
  | .left => p.1 = 0
  | .down => p.2 = g.height - 1

instance (g : Grid) (p : Nat × Nat) (d : Dir) : Decidable (g.OnEdge p d) := by
  cases d <;> simp only [Grid.OnEdge] <;> infer_instance

/-- The plane position next to the cell in direction `d` lies outside the grid. -/
theorem Grid.onEdge_iff {g : Grid} {p : Nat × Nat} (hp : g.In p) (d : Dir) :
    g.OnEdge p d ↔ ¬ (0 ≤ (p.1 : Int) + d.dx ∧ (p.1 : Int) + d.dx < g.width ∧ 0 ≤ (p.2 : Int) + d.dy ∧
      (p.2 : Int) + d.dy < g.height) := by
  obtain ⟨hx, hy⟩ := hp
  cases d <;> simp only [Grid.OnEdge, Dir.dx, Dir.dy] <;> omega

theorem Grid.nb_none_iff {g : Grid} (hg : g.WF) {p : Nat × Nat} (hp : g.In p) (d : Dir) :
    g.nb p d = none ↔ g.wraps d = false ∧ g.OnEdge p d := by
  have hx := hp.1
  have hy := hp.2
  have hself : ∀ (wr : Bool) (s a : Nat), a < s → AxisAt wr s ((a : Int) + 0) a := by
    intro wr s a ha; exact ⟨ha, by cases wr <;> simp⟩
  have hstep : ∀ (wr : Bool) (s a : Nat) (δ : Int), a < s → 
      ((∃ b, AxisAt wr s ((a : Int) + δ) b) ↔ wr = true ∨ (0 ≤ (a : Int) + δ ∧ (a : Int) + δ < s)) := by
    intro wr s a δ ha
    cases wr with
    | false =>
      simp only [AxisAt, Bool.false_eq_true, if_false, false_or]
      exact ⟨fun ⟨b, h⟩ => by omega, fun h => ⟨((a : Int) + δ).toNat, by omega⟩⟩
    | true =>
      simp only [AxisAt, if_true, true_or, iff_true]
      have hm0 := Int.emod_nonneg ((a : Int) + δ) (by omega : (s : Int) ≠ 0)
      have hm1 := Int.emod_lt_of_pos ((a : Int) + δ) (by omega : (0 : Int) < s)
      have hd := Int.emod_add_mul_ediv ((a : Int) + δ) s
      refine ⟨(((a : Int) + δ) % s).toNat, by omega, ((a : Int) + δ) / s, ?_⟩
      rw [Int.toNat_of_nonneg hm0, Int.mul_comm _ (s : Int)]; omega
  have key : g.nb p d ≠ none ↔ (∃ b, AxisAt g.edge.wrapX g.width (p.1 + d.dx) b) ∧
      ∃ b, AxisAt g.edge.wrapY g.height (p.2 + d.dy) b := by
    unfold Grid.nb
    rw [Option.ne_none_iff_exists']
    constructor
    · rintro ⟨q, hq⟩
      rw [Grid.offset_iff hg] at hq
      exact ⟨⟨_, hq.1⟩, _, hq.2⟩
    · rintro ⟨⟨a, ha⟩, b, hb⟩
      exact ⟨(a, b), (Grid.offset_iff hg _ _ _ _).2 ⟨ha, hb⟩⟩
  rw [← not_iff_not, ← ne_eq, key, hstep _ _ _ _ hx, hstep _ _ _ _ hy]
  cases d
  · simp only [Grid.wraps, show Dir.right.axis = .horizontal from rfl, if_true, Grid.OnEdge, Dir.dx, Dir.dy]
    cases g.edge.wrapX <;> simp <;> omega
  · simp only [Grid.wraps, show Dir.up.axis ≠ .horizontal by decide, if_false, Grid.OnEdge, Dir.dx, Dir.dy]
    cases g.edge.wrapY <;> simp <;> omega
  · simp only [Grid.wraps, show Dir.left.axis = .horizontal from rfl, if_true, Grid.OnEdge, Dir.dx, Dir.dy]
    cases g.edge.wrapX <;> simp <;> omega
  · simp only [Grid.wraps, show Dir.down.axis ≠ .horizontal by decide, if_false, Grid.OnEdge, Dir.dx, Dir.dy]
    cases g.edge.wrapY <;> simp <;> omega

end FSat
