import Verif.Spec.Mirror
import Verif.Lemmas.Complete
import Verif.Lemmas.Free
import Verif.Lemmas.Labels
import Verif.Model.Optimisations
/-!
# The mirror image of a solution
-/

set_option linter.unusedSimpArgs false

namespace FSat

@[simp] theorem Dir.mirrorY_mirrorY (d : Dir) : d.mirrorY.mirrorY = d := by cases d <;> rfl
theorem Dir.mirrorY_opp (d : Dir) : d.opp.mirrorY = d.mirrorY.opp := by cases d <;> rfl
theorem Dir.mirrorY_ccw (d : Dir) : d.ccw.mirrorY = d.mirrorY.opp.ccw := by cases d <;> rfl
theorem Dir.mirrorY_opp_ccw (d : Dir) : d.opp.ccw.mirrorY = d.mirrorY.ccw := by cases d <;> rfl
theorem Dir.mirrorY_axis (d : Dir) : d.mirrorY.axis = d.axis := by cases d <;> rfl
theorem Dir.mirrorY_inj {d e : Dir} : d.mirrorY = e.mirrorY ↔ d = e := by cases d <;> cases e <;> decide
theorem Dir.mirrorY_eq {d e : Dir} : d.mirrorY = e ↔ d = e.mirrorY := by cases d <;> cases e <;> decide
theorem Dir.exists_mirrorY {P : Dir → Prop} : (∃ d : Dir, P d.mirrorY) ↔ ∃ d, P d :=
  ⟨fun ⟨d, h⟩ => ⟨_, h⟩, fun ⟨d, h⟩ => ⟨d.mirrorY, by simpa using h⟩⟩
theorem Dir.forall_mirrorY {P : Dir → Prop} : (∀ d : Dir, P d.mirrorY) ↔ ∀ d, P d :=
  ⟨fun h d => by simpa using h d.mirrorY, fun h d => h _⟩

section
variable {g : Grid}

theorem Grid.mirrorPos_in {p : Nat × Nat} (hp : g.In p) : g.In (g.mirrorPos p) := ⟨hp.1, by
  have := hp.2
  simp only [Grid.mirrorPos]; omega⟩

theorem Grid.mirrorPos_mirrorPos {p : Nat × Nat} (hp : g.In p) : g.mirrorPos (g.mirrorPos p) = p := by
  have := hp.2
  simp only [Grid.mirrorPos]
  exact Prod.ext rfl (by simp; omega)

theorem AxisAt_mirror {wrap : Bool} {size a b : Nat} {δ : Int} (ha : a < size) (h : AxisAt wrap size (a + δ) b) :
    AxisAt wrap size (((size - 1 - a : Nat) : Int) + -δ) (size - 1 - b) := by
  obtain ⟨h1, h2⟩ := h
  refine ⟨by omega, ?_⟩
  cases wrap with
  | false => simp at h2 ⊢; omega
  | true =>
    simp at h2 ⊢
    obtain ⟨k, hk⟩ := h2
    refine ⟨-k, ?_⟩
    rw [Int.neg_mul]; omega

theorem Grid.nb_mirror (hg : g.WF) {p q : Nat × Nat} (hp : g.In p) {d : Dir} (h : g.nb p d = some q) :
    g.nb (g.mirrorPos p) d.mirrorY = some (g.mirrorPos q) := by
  unfold Grid.nb at h ⊢
  rw [Grid.offset_iff hg] at h ⊢
  have h2 := AxisAt_mirror hp.2 h.2
  have ex : d.mirrorY.dx = d.dx := by cases d <;> rfl
  have ey : d.mirrorY.dy = -d.dy := by cases d <;> rfl
  rw [ex, ey]
  exact ⟨h.1, h2⟩

theorem Grid.nb_mirror_iff (hg : g.WF) {p : Nat × Nat} (hp : g.In p) (d : Dir) :
    g.nb (g.mirrorPos p) d.mirrorY = (g.nb p d).map g.mirrorPos := by
  cases h : g.nb p d with
  | some q => exact Grid.nb_mirror hg hp h
  | none =>
    cases h' : g.nb (g.mirrorPos p) d.mirrorY with
    | none => rfl
    | some q =>
      have := Grid.nb_mirror hg (Grid.mirrorPos_in hp) h'
      rw [Grid.mirrorPos_mirrorPos hp, Dir.mirrorY_mirrorY, h] at this
      cases this

/-- Induction principle: a statement about a cell and its neighbour in the mirror image. -/
theorem Grid.nb_mirror' (hg : g.WF) {p q : Nat × Nat} (hp : g.In p) {d : Dir} (h : g.nb p d.mirrorY = some q) :
    g.nb (g.mirrorPos p) d = some (g.mirrorPos q) := by
  have := Grid.nb_mirror hg hp h
  rwa [Dir.mirrorY_mirrorY] at this

theorem Grid.walk_mirror (hg : g.WF) {p : Nat × Nat} (hp : g.In p) (d : Dir) (i : Nat) :
    walk g.nb (g.mirrorPos p) d.mirrorY i = (walk g.nb p d i).map g.mirrorPos := by
  induction i with
  | zero => rfl
  | succ i ih =>
    simp only [walk, ih]
    cases h : walk g.nb p d i with
    | none => rfl
    | some q =>
      have hq : g.In q := by
        clear ih
        induction i generalizing q with
        | zero => simp only [walk, Option.some.injEq] at h; exact h ▸ hp
        | succ i ih =>
          simp only [walk, Option.bind_eq_some_iff] at h
          obtain ⟨r, _, h⟩ := h
          exact Grid.nb_in hg h
      simp only [Option.map_some, Option.bind_some]
      exact Grid.nb_mirror_iff hg hq d

theorem Grid.onEdge_mirror {p : Nat × Nat} (hp : g.In p) (d : Dir) : g.OnEdge (g.mirrorPos p) d.mirrorY ↔ g.OnEdge p d := by
  obtain ⟨hx, hy⟩ := hp
  cases d <;> simp only [Grid.OnEdge, Dir.mirrorY, Grid.mirrorPos] <;> omega

/-- The values of the cells of the mirror image. -/
def Grid.mirrorVals (g : Grid) (C : Nat × Nat → CellVal) (p : Nat × Nat) : CellVal := (C (g.mirrorPos p)).mirrorY

theorem Agrees.mirrorY {c : CellVal} {t : Tile} (h : Agrees c t) : Agrees c.mirrorY t.mirrorY := by
  have hk : c.mirrorY.kinds = c.kinds := rfl
  cases t with
  | empty =>
    obtain ⟨h1, h2, h3, h4⟩ := h
    refine ⟨h1, ?_, fun d => h3 _, fun d => h4 _⟩
    simp only [CellVal.kinds, List.cons.injEq] at h1
    simp [CellVal.mirrorY, h1.2.2.1]
  | belt i o =>
    obtain ⟨h1, h2, h3, h4, h5⟩ := h
    refine ⟨h1, ?_, fun d => (h3 _).trans Dir.mirrorY_eq, fun d => (h4 _).trans Dir.mirrorY_eq, ?_⟩
    · simp only [CellVal.kinds, List.cons.injEq] at h1
      simp [CellVal.mirrorY, h1.2.2.1]
    · rw [← Dir.mirrorY_opp]; exact fun h => h5 (Dir.mirrorY_inj.1 h)
  | underground e b =>
    cases b with
    | true =>
      obtain ⟨h1, h2, h3, h4⟩ := h
      refine ⟨h1, ?_, fun d => (h3 _).trans Dir.mirrorY_eq, fun d => h4 _⟩
      simp only [CellVal.kinds, List.cons.injEq] at h1
      simp [CellVal.mirrorY, h1.2.2.1]
    | false =>
      obtain ⟨h1, h2, h3, h4⟩ := h
      refine ⟨h1, ?_, fun d => h3 _, fun d => (h4 _).trans Dir.mirrorY_eq⟩
      simp only [CellVal.kinds, List.cons.injEq] at h1
      simp [CellVal.mirrorY, h1.2.2.1]
  | splitter e hd =>
    obtain ⟨h1, h2, h3, h4, h5⟩ := h
    refine ⟨h1, ?_, fun d hd => Dir.mirrorY_eq.1 (h3 _ hd), fun d hd => Dir.mirrorY_eq.1 (h4 _ hd), ?_⟩
    · simp only [CellVal.kinds, List.cons.injEq] at h1
      simp [CellVal.mirrorY, h1.2.2.1, h2]
    · simpa [CellVal.mirrorY] using h5
  | _ => exact h.elim

theorem head_splitter {c : CellVal} {t : Tile} (h : Agrees c t) (hh : c.isHead = true) : c.isSplitter = true := by
  cases t with
  | splitter e hd => have := h.1; simp only [CellVal.kinds, List.cons.injEq] at this; exact this.2.2.1
  | underground e b => cases b <;> (have := h.2.1; simp_all)
  | empty => have := h.2.1; simp_all
  | belt i o => have := h.2.1; simp_all
  | _ => exact h.elim

theorem SplitterSem.mirror (hg : g.WF) {C : Nat × Nat → CellVal} (hc : ∀ p, g.In p → ∃ t, Agrees (C p) t) (h : SplitterSem g C) :
    SplitterSem g (g.mirrorVals C) := by
  intro d p hp
  have hp' := Grid.mirrorPos_in hp
  have key := h d.mirrorY.opp (g.mirrorPos p) hp'
  rw [← Dir.mirrorY_ccw, Grid.nb_mirror_iff hg hp, Dir.opp_opp] at key
  cases e : g.nb p d.ccw with
  | none =>
    rw [e] at key
    simp only [Option.map_none] at key
    simp only [Grid.mirrorVals, CellVal.mirrorY, Dir.mirrorY_opp]
    obtain ⟨k1, k2⟩ := key
    constructor
    · intro h1 h2; rw [k2 h1 h2, h2]; rfl
    · intro h1 h2; rw [k1 h1 h2, h2]; rfl
  | some q =>
    rw [e] at key
    simp only [Option.map_some] at key
    simp only [Grid.mirrorVals, CellVal.mirrorY, Dir.mirrorY_opp]
    obtain ⟨k1, k2⟩ := key
    obtain ⟨tp, htp⟩ := hc _ hp'
    obtain ⟨tq, htq⟩ := hc _ (Grid.mirrorPos_in (Grid.nb_in hg e))
    constructor
    · intro h1 h2
      simp only [Bool.and_eq_true, Bool.not_eq_true'] at h2
      obtain ⟨a, b⟩ := k2 h1 h2.1 h2.2
      refine ⟨head_splitter htq a, by rw [a]; simp, b⟩
    · intro h1 h2 h3
      rw [h2] at h3
      simp only [Bool.true_and, Bool.not_eq_false'] at h3
      obtain ⟨a, b, c⟩ := k1 h1 h3
      exact ⟨by rw [a, b]; rfl, c⟩

theorem ioDirs_mirror (hh : 2 ≤ g.height) {p : Nat × Nat} (hp : g.In p) (d : Dir) :
    d ∈ ioDirs g (g.mirrorPos p) ↔ d.mirrorY ∈ ioDirs g p := by
  obtain ⟨hx, hy⟩ := hp
  have e1 : (g.height - 1 - p.2 = 0) ↔ p.2 = g.height - 1 := by omega
  have e2 : (g.height - 1 - p.2 = g.height - 1) ↔ p.2 = 0 := by omega
  simp only [ioDirs, Grid.mirrorPos, e1, e2]
  split_ifs <;> first | omega | (cases d <;> simp [Dir.mirrorY])

theorem InitSem.mirror (hg : g.WF) (hh : 2 ≤ g.height) {C : Nat × Nat → CellVal} (h : InitSem g C) : InitSem g (g.mirrorVals C) := by
  refine ⟨fun p hp => ?_, fun p hp => h.axisX _ (Grid.mirrorPos_in hp), fun p hp hc => h.axisY _ (Grid.mirrorPos_in hp) ⟨hc.2, hc.1⟩,
    fun p hp => h.range _ (Grid.mirrorPos_in hp), h.splitter.mirror hg h.cell, fun p hp => ?_⟩
  · obtain ⟨t, ht⟩ := h.cell _ (Grid.mirrorPos_in hp)
    exact ⟨_, ht.mirrorY⟩
  · obtain ⟨h1, h2⟩ := h.io _ (Grid.mirrorPos_in hp)
    simp only [ioDirs_mirror hh hp] at h1 h2
    constructor
    · refine h1.trans ⟨fun ⟨d, a, b⟩ => ⟨_, a, by simpa [Grid.mirrorVals, CellVal.mirrorY] using b⟩, fun ⟨d, a, b⟩ => ⟨d.mirrorY, by simpa using a, b⟩⟩
    · refine h2.trans ⟨fun ⟨d, a, b⟩ => ⟨_, a, by simpa [Grid.mirrorVals, CellVal.mirrorY, ← Dir.mirrorY_opp] using b⟩,
        fun ⟨d, a, b⟩ => ⟨d.mirrorY, by simpa using a, by rw [← Dir.mirrorY_opp]; exact b⟩⟩

theorem IntersectionSem.mirror (hg : g.WF) {C : Nat × Nat → CellVal} (h : IntersectionSem g C) : IntersectionSem g (g.mirrorVals C) := by
  intro d p q hp hq
  obtain ⟨h1, h2⟩ := h _ _ _ (Grid.mirrorPos_in hp) (Grid.nb_mirror hg hp hq)
  refine ⟨h1, fun a b c => ?_⟩
  obtain ⟨k1, k2, k3, k4, k5, k6⟩ := h2 a b c
  simp only [Grid.mirrorVals, CellVal.mirrorY, Dir.mirrorY_opp_ccw, Dir.mirrorY_ccw, Dir.mirrorY_opp, Dir.opp_opp] at *
  exact ⟨k2, k1, k4, k3, k6, k5⟩

theorem UndergroundSem.mirror (hg : g.WF) {C : Nat × Nat → CellVal} (h : UndergroundSem g C) : UndergroundSem g (g.mirrorVals C) := by
  have hnb : ∀ {p q : Nat × Nat} {d : Dir}, g.In p → g.nb p d.opp = some q → g.nb (g.mirrorPos p) d.mirrorY.opp = some (g.mirrorPos q) := by
    intro p q d hp hq
    rw [← Dir.mirrorY_opp]; exact Grid.nb_mirror hg hp hq
  refine ⟨fun d p hp a => ?_, fun d p hp a => ?_, fun d p q hp hq a => ?_, fun d p q hp hq a => ?_, fun d p q hp hq a b => ?_,
    fun d p q hp hq a b => ?_⟩
  · have := h.notIn d.mirrorY _ (Grid.mirrorPos_in hp) a
    simpa only [Grid.mirrorVals, CellVal.mirrorY, Dir.mirrorY_opp] using this
  · have := h.notOut d.mirrorY _ (Grid.mirrorPos_in hp) a
    simpa only [Grid.mirrorVals, CellVal.mirrorY, Dir.mirrorY_opp] using this
  · exact h.afterIn _ _ _ (Grid.mirrorPos_in hp) (Grid.nb_mirror hg hp hq) a
  · exact h.beforeOut _ _ _ (Grid.mirrorPos_in hp) (hnb hp hq) a
  · exact h.next _ _ _ (Grid.mirrorPos_in hp) (Grid.nb_mirror hg hp hq) a b
  · exact h.prev _ _ _ (Grid.mirrorPos_in hp) (hnb hp hq) a b

theorem LengthSem.mirror (hg : g.WF) {C : Nat × Nat → CellVal} {L : Nat} (h : LengthSem g C L) : LengthSem g (g.mirrorVals C) L := by
  intro d p hp hw
  obtain ⟨i, hi, q, hq, hu⟩ := h d.mirrorY (g.mirrorPos p) (Grid.mirrorPos_in hp) (fun i hi => by
    obtain ⟨q, hq⟩ := hw i hi
    exact ⟨_, by rw [Grid.walk_mirror hg hp, hq]; rfl⟩)
  obtain ⟨r, hr⟩ := hw i hi
  refine ⟨i, hi, r, hr, ?_⟩
  rw [Grid.walk_mirror hg hp, hr] at hq
  simp only [Option.map_some, Option.some.injEq] at hq
  subst hq; exact hu

/-- The same sides at the top and at the bottom. -/
def Edges.Even (e : Edges) : Prop := e.minY = e.maxY

theorem Grid.shut_mirror {e : Edges} (he : e.Even) {p : Nat × Nat} (hp : g.In p) (d : Dir) :
    g.shut e (g.mirrorPos p) d.mirrorY ↔ g.shut e p d := by
  unfold Grid.shut
  rw [Grid.onEdge_mirror hp]
  have : e.sel d.mirrorY = e.sel d := by
    unfold Edges.Even at he
    cases d <;> simp [Edges.sel, Dir.mirrorY, he]
  rw [this]

theorem BlockUgSem.mirror {e : Edges} (he : e.Even) {C : Nat × Nat → CellVal} (h : BlockUgSem g e C) : BlockUgSem g e (g.mirrorVals C) := by
  intro p d hp hs
  have := h _ _ (Grid.mirrorPos_in hp) ((Grid.shut_mirror he hp d).2 hs)
  simpa only [Grid.mirrorVals, CellVal.mirrorY, Dir.mirrorY_opp] using this

theorem BlockBeltSem.mirror {e : Edges} (he : e.Even) {C : Nat × Nat → CellVal} (h : BlockBeltSem g e C) :
    BlockBeltSem g e (g.mirrorVals C) := by
  intro p d hp hs
  have := h _ _ (Grid.mirrorPos_in hp) ((Grid.shut_mirror he hp d).2 hs)
  simp only [Grid.mirrorVals, CellVal.mirrorY, Dir.mirrorY_opp]
  refine ⟨this.1, this.2.1, fun a => ?_, fun a => ?_⟩
  · exact Dir.exists_mirrorY.2 (this.2.2.1 a)
  · exact Dir.exists_mirrorY.2 (this.2.2.2 a)

theorem colourU_mirror (c : CellVal) (d : Dir) : c.mirrorY.colourU d = c.colourU d.mirrorY := by
  simp only [CellVal.colourU, CellVal.mirrorY, Dir.mirrorY_axis]

theorem ColourSem.mirror (hg : g.WF) {C : Nat × Nat → CellVal} (h : ColourSem g C) : ColourSem g (g.mirrorVals C) := by
  refine ⟨fun d p q hp hq a b => h.surface _ _ _ (Grid.mirrorPos_in hp) (Grid.nb_mirror hg hp hq) a b, fun d p q hp hq a => ?_,
    fun d p q hp hq a b c => ?_, fun d p q hp hq a b c => ?_⟩
  · simp only [Grid.mirrorVals, colourU_mirror]
    exact h.under _ _ _ (Grid.mirrorPos_in hp) (Grid.nb_mirror hg hp hq) a
  · simp only [Grid.mirrorVals, colourU_mirror]
    exact h.entrance _ _ _ (Grid.mirrorPos_in hp) (Grid.nb_mirror hg hp hq) a b (Dir.forall_mirrorY.1 c)
  · simp only [Grid.mirrorVals, colourU_mirror]
    exact h.exit _ _ _ (Grid.mirrorPos_in hp) (Grid.nb_mirror hg hp hq) a b (Dir.forall_mirrorY.1 c)

theorem NoColourSem.mirror {C : Nat × Nat → CellVal} {c : Nat} (h : NoColourSem g c C) : NoColourSem g c (g.mirrorVals C) := by
  intro p hp
  have := h _ (Grid.mirrorPos_in hp)
  split at this
  · rename_i hc
    rw [if_pos hc]
    exact fun d a => this _ a
  · rename_i hc
    rw [if_neg hc]
    exact this

theorem Grid.mirrored_iff (v v' : Asg) : g.Mirrored v v' ↔ ∀ p, g.In p → g.vals v' p = g.mirrorVals (g.vals v) p :=
  ⟨fun h p hp => h p.1 hp.1 p.2 hp.2, fun h x hx y hy => h (x, y) ⟨hx, hy⟩⟩

end

end FSat
