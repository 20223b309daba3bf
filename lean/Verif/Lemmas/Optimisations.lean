import Verif.Model.Optimisations
import Verif.Spec.Optimise
import Verif.Lemmas.Rules

set_option linter.unusedSimpArgs false
set_option linter.unusedVariables false

namespace FSat

/-! ### Corners -/

theorem Dir.Across.symm {d t : Dir} (h : d.Across t) : t.Across d := by
  revert h; cases d <;> cases t <;> decide

theorem Dir.Across.opp_left {d t : Dir} (h : d.Across t) : d.opp.Across t := by
  revert h; cases d <;> cases t <;> decide

theorem Dir.Across.opp_right {d t : Dir} (h : d.Across t) : d.Across t.opp := by
  revert h; cases d <;> cases t <;> decide

theorem Dir.Across.ne {d t : Dir} (h : d.Across t) : d ≠ t ∧ d ≠ t.opp ∧ t ≠ d.opp := by
  revert h; cases d <;> cases t <;> decide

theorem Dir.across_ccw (d : Dir) : d.Across d.ccw := .inl rfl

theorem forall_across (d : Dir) (P : Dir → Prop) : (∀ t ∈ [d.next, d.prev], P t) ↔ ∀ t, d.Across t → P t := by
  have e : d.opp.ccw = d.ccw.opp := by cases d <;> rfl
  simp only [List.mem_cons, List.not_mem_nil, or_false, Dir.next_eq, Dir.prev_eq, Dir.Across, e]

theorem AxisAt_zero {wrap : Bool} {size a b : Nat} (ha : a < size) : AxisAt wrap size a b ↔ b = a := by
  constructor
  · rintro ⟨h1, h2⟩
    cases wrap with
    | false => simp at h2; omega
    | true =>
      simp at h2
      obtain ⟨k, hk⟩ := h2
      have hk0 : k = 0 := by
        by_contra hne
        rcases Int.lt_or_gt_of_ne hne with h | h
        · have : k * size ≤ -1 * size := Int.mul_le_mul_of_nonneg_right (by omega) (by omega)
          omega
        · have : 1 * (size : Int) ≤ k * size := Int.mul_le_mul_of_nonneg_right (by omega) (by omega)
          omega
      subst hk0; omega
  · rintro rfl
    refine ⟨ha, ?_⟩
    cases wrap with
    | false => simp
    | true => exact ⟨0, by simp⟩

theorem Grid.offset_xy {g : Grid} (hg : g.WF) {p : Nat × Nat} (hp : g.In p) (a b : Int) (r : Nat × Nat) :
    g.offset p a b = some r ↔ ∃ q, g.offset p a 0 = some q ∧ g.offset q 0 b = some r := by
  simp only [Grid.offset_iff hg, Int.add_zero]
  constructor
  · rintro ⟨h1, h2⟩
    exact ⟨(r.1, p.2), ⟨h1, (AxisAt_zero hp.2).2 rfl⟩, (AxisAt_zero h1.1).2 rfl, h2⟩
  · rintro ⟨q, ⟨h1, h2⟩, h3, h4⟩
    rw [AxisAt_zero hp.2] at h2
    rw [AxisAt_zero h1.1] at h3
    rw [h3, ← h2]; exact ⟨h1, h4⟩

theorem Grid.offset_yx {g : Grid} (hg : g.WF) {p : Nat × Nat} (hp : g.In p) (a b : Int) (r : Nat × Nat) :
    g.offset p a b = some r ↔ ∃ q, g.offset p 0 b = some q ∧ g.offset q a 0 = some r := by
  simp only [Grid.offset_iff hg, Int.add_zero]
  constructor
  · rintro ⟨h1, h2⟩
    exact ⟨(p.1, r.2), ⟨(AxisAt_zero hp.1).2 rfl, h2⟩, h1, (AxisAt_zero h2.1).2 rfl⟩
  · rintro ⟨q, ⟨h1, h2⟩, h3, h4⟩
    rw [AxisAt_zero hp.1] at h1
    rw [AxisAt_zero h2.1] at h4
    rw [h4, ← h1]; exact ⟨h3, h2⟩

theorem Grid.offset_corner {g : Grid} (hg : g.WF) {p : Nat × Nat} (hp : g.In p) {d t : Dir} (h : d.Across t) (i j : Int) :
    g.offset p (d.dx * i + t.dx * j) (d.dy * i + t.dy * j) =
      (g.offset p (d.dx * i) (d.dy * i)).bind fun q => g.offset q (t.dx * j) (t.dy * j) := by
  apply Option.ext
  intro r
  rw [Option.bind_eq_some_iff]
  have hx := Grid.offset_xy hg hp
  have hy := Grid.offset_yx hg hp
  revert h
  cases d <;> cases t <;> intro h <;>
    first
    | exact absurd h (by decide)
    | simpa [Dir.dx, Dir.dy] using hx _ _ r
    | simpa [Dir.dx, Dir.dy] using hy _ _ r

theorem Grid.offset_corner1 {g : Grid} (hg : g.WF) {p : Nat × Nat} (hp : g.In p) {d t : Dir} (h : d.Across t) :
    g.offset p (d.dx + t.dx) (d.dy + t.dy) = (g.nb p d).bind fun q => g.nb q t := by
  simpa [Grid.nb] using Grid.offset_corner hg hp h 1 1

theorem Grid.nb_comm {g : Grid} (hg : g.WF) {p : Nat × Nat} (hp : g.In p) {d t : Dir} (h : d.Across t) :
    ((g.nb p d).bind fun q => g.nb q t) = (g.nb p t).bind fun q => g.nb q d := by
  rw [← Grid.offset_corner1 hg hp h, ← Grid.offset_corner1 hg hp h.symm, Int.add_comm, Int.add_comm d.dy]

/-- The fourth corner of a square. -/
theorem Grid.square {g : Grid} (hg : g.WF) {p q r : Nat × Nat} (hp : g.In p) {d t : Dir} (h : d.Across t)
    (h1 : g.nb p d = some q) (h2 : g.nb q t = some r) : ∃ s, g.nb p t = some s ∧ g.nb s d = some r := by
  have := Grid.nb_comm hg hp h
  rw [h1] at this
  simp only [Option.bind_some, h2] at this
  exact Option.bind_eq_some_iff.1 this.symm

/-! ### Tiles from flags -/

theorem Agrees.turn_iff {c : CellVal} {t : Tile} (h : Agrees c t) {i o : Dir} (hio : i ≠ o) :
    t = .belt i o ↔ c.inp i = true ∧ c.out o = true := by
  constructor
  · rintro rfl
    exact ⟨(h.2.2.1 i).2 rfl, (h.2.2.2.1 o).2 rfl⟩
  · rintro ⟨h1, h2⟩
    have a := h.inp_takes h1
    have b := h.out_emits h2
    cases t with
    | underground e x => cases x <;> simp [Tile.Takes, Tile.Emits] at a b
    | splitter e x => simp [Tile.Takes, Tile.Emits] at a b; exact absurd (a.symm.trans b) hio
    | belt i' o' => simp [Tile.Takes, Tile.Emits] at a b; rw [a, b]
    | _ => simp [Tile.Takes, Tile.Emits] at a b

theorem Agrees.belt_iff {c : CellVal} {t : Tile} (h : Agrees c t) (i o : Dir) :
    t = .belt i o ↔ c.inp i = true ∧ c.out o = true ∧ c.isBelt = true := by
  constructor
  · rintro rfl
    exact ⟨(h.2.2.1 i).2 rfl, (h.2.2.2.1 o).2 rfl, h.isBelt_iff.2 ⟨_, _, rfl⟩⟩
  · rintro ⟨h1, h2, h3⟩
    obtain ⟨i', o', rfl⟩ := h.isBelt_iff.1 h3
    rw [(h.2.2.1 i).1 h1, (h.2.2.2.1 o).1 h2]

theorem Agrees.through_iff {c : CellVal} {t : Tile} (h : Agrees c t) (i o : Dir) :
    t = .belt i o ↔ c.inp i = true ∧ c.out o = true ∧ c.isSplitter = false := by
  constructor
  · rintro rfl
    exact ⟨(h.2.2.1 i).2 rfl, (h.2.2.2.1 o).2 rfl, h.isSplitter_false (by rintro ⟨_, _, hh⟩; cases hh)⟩
  · rintro ⟨h1, h2, h3⟩
    have a := h.inp_takes h1
    have b := h.out_emits h2
    cases t with
    | underground e x => cases x <;> simp [Tile.Takes, Tile.Emits] at a b
    | splitter e x => simp_all [Agrees, CellVal.kinds]
    | belt i' o' => simp [Tile.Takes, Tile.Emits] at a b; rw [a, b]
    | _ => simp [Tile.Takes, Tile.Emits] at a b

theorem Agrees.empty_iff {c : CellVal} {t : Tile} (h : Agrees c t) :
    t = .empty ↔ (∀ d, c.inp d = false) ∧ ∀ d, c.out d = false := by
  constructor
  · rintro rfl; exact ⟨h.2.2.1, h.2.2.2⟩
  · rintro ⟨h1, h2⟩
    cases t with
    | empty => rfl
    | belt i o => have := (h.2.2.1 i).2 rfl; simp [h1] at this
    | underground e x =>
      cases x
      · have := (h.2.2.2 e).2 rfl; simp [h2] at this
      · have := (h.2.2.1 e).2 rfl; simp [h1] at this
    | splitter e x => have := h.2.2.2.2; simp [h1, h2] at this
    | _ => exact absurd h (by simp [Agrees])

theorem Agrees.head_iff {c : CellVal} {t : Tile} (h : Agrees c t) (d : Dir) (hd : c.inp d = true) :
    t = .splitter d true ↔ c.isHead = true := by
  constructor
  · rintro rfl; exact h.2.1
  · intro hh
    obtain ⟨e, rfl⟩ := h.isHead_iff.1 hh
    rw [h.2.2.1 d hd]

theorem SatC_iff_not (v : Asg) (c : Clause) : SatC v c ↔ ¬ ∀ l ∈ c, ev v l = false := by
  simp [SatC]

/-! ### The patterns, in terms of the flags -/

section
variable {g : Grid} {C : Nat × Nat → CellVal} {T : Nat × Nat → Tile}

theorem smallLoop_iff (hT : Lays g C T) {x y : Nat} (hx : x + 1 < g.width) (hy : y + 1 < g.height) :
    (((C (x, y)).inp .left = true ∧ (C (x, y)).out .down = true ∧ (C (x, y + 1)).inp .down = true ∧
      (C (x, y + 1)).out .right = true ∧ (C (x + 1, y + 1)).inp .right = true ∧ (C (x + 1, y + 1)).out .up = true ∧
      (C (x + 1, y)).inp .up = true ∧ (C (x + 1, y)).out .left = true) ∨
     ((C (x, y)).inp .up = true ∧ (C (x, y)).out .right = true ∧ (C (x + 1, y)).inp .right = true ∧
      (C (x + 1, y)).out .down = true ∧ (C (x + 1, y + 1)).inp .down = true ∧ (C (x + 1, y + 1)).out .left = true ∧
      (C (x, y + 1)).inp .left = true ∧ (C (x, y + 1)).out .up = true)) ↔ SmallLoop T x y := by
  have h00 := hT (x, y) ⟨by show x < _; omega, by show y < _; omega⟩
  have h01 := hT (x, y + 1) ⟨by show x < _; omega, hy⟩
  have h10 := hT (x + 1, y) ⟨hx, by show y < _; omega⟩
  have h11 := hT (x + 1, y + 1) ⟨hx, hy⟩
  unfold SmallLoop
  rw [h00.turn_iff (by decide), h01.turn_iff (by decide), h10.turn_iff (by decide), h11.turn_iff (by decide),
    h00.turn_iff (by decide), h01.turn_iff (by decide), h10.turn_iff (by decide), h11.turn_iff (by decide)]
  simp only [and_assoc]

theorem hook_iff (hg : g.WF) (hT : Lays g C T) (hx : IntersectionSem g C) {d t i o : Dir} (ha : d.Across t)
    {p q r s : Nat × Nat} (hp : g.In p) (hq : g.nb p d = some q) (hr : g.nb q t = some r) (hs : g.nb r d.opp = some s) :
    ((C p).isBelt = true ∧ (C p).inp i = true ∧ (C p).out d = true ∧ (C q).out t = true ∧ (C r).out d.opp = true ∧
      (C s).isBelt = true ∧ (C s).out o = true) ↔
    T p = .belt i d ∧ T q = .belt d t ∧ T r = .belt t d.opp ∧ T s = .belt d.opp o := by
  have iq := Grid.nb_in hg hq
  have ir := Grid.nb_in hg hr
  have is' := Grid.nb_in hg hs
  rw [(hT p hp).belt_iff, (hT q iq).turn_iff ha.ne.1, (hT r ir).turn_iff ha.ne.2.2, (hT s is').belt_iff]
  have e1 := (hx d p q hp hq).1
  have e2 := (hx t q r iq hr).1
  have e3 := (hx d.opp r s ir hs).1
  rw [← e1, ← e2, ← e3]
  tauto

theorem semicircle_iff (hg : g.WF) (hT : Lays g C T) (hx : IntersectionSem g C) {d t i o : Dir} (ha : d.Across t)
    (hi : i = d ∨ i = t) (ho : o = t.opp ∨ o = d)
    {p a e b c f : Nat × Nat} (hp : g.In p) (h1 : g.nb p d = some a) (h2 : g.nb a d = some e) (h3 : g.nb p t = some b)
    (h4 : g.nb b d = some c) (h5 : g.nb c d = some f) (h6 : g.nb e t = some f) :
    ((C p).inp i = true ∧ (t = i → (C p).isSplitter = false) ∧ ((∀ x, (C a).inp x = false) ∧ ∀ x, (C a).out x = false) ∧
      (C e).inp t.opp = true ∧ (C e).out o = true ∧ (t.opp = o → (C e).isSplitter = false) ∧
      (C b).inp t = true ∧ (C c).inp d = true ∧ (C c).isSplitter = false ∧ (C f).inp d = true) ↔
    T a = .empty ∧ T p = .belt i t ∧ T b = .belt t d ∧ T c = .belt d d ∧ T f = .belt d t.opp ∧ T e = .belt t.opp o := by
  have ia := Grid.nb_in hg h1
  have ie := Grid.nb_in hg h2
  have ib := Grid.nb_in hg h3
  have ic := Grid.nb_in hg h4
  have jf := Grid.nb_in hg h5
  have h6' := Grid.nb_opp hg ie h6
  have e1 := (hx t p b hp h3).1
  have e2 := (hx d b c ib h4).1
  have e3 := (hx d c f ic h5).1
  have e4 := (hx t.opp f e jf h6').1
  have hpe : T p = .belt i t ↔ (C p).inp i = true ∧ (C p).out t = true ∧ (t = i → (C p).isSplitter = false) := by
    rcases hi with rfl | rfl
    · rw [(hT p hp).turn_iff ha.ne.1]
      constructor
      · rintro ⟨x, y⟩; exact ⟨x, y, fun h => absurd h.symm ha.ne.1⟩
      · rintro ⟨x, y, _⟩; exact ⟨x, y⟩
    · rw [(hT p hp).through_iff]; simp
  have hee : T e = .belt t.opp o ↔ (C e).inp t.opp = true ∧ (C e).out o = true ∧ (t.opp = o → (C e).isSplitter = false) := by
    rcases ho with rfl | rfl
    · rw [(hT e ie).through_iff]; simp
    · rw [(hT e ie).turn_iff (ha.ne.2.1.symm)]
      constructor
      · rintro ⟨x, y⟩; exact ⟨x, y, fun h => absurd h.symm ha.ne.2.1⟩
      · rintro ⟨x, y, _⟩; exact ⟨x, y⟩
  rw [hpe, hee, (hT a ia).empty_iff, (hT b ib).turn_iff ha.ne.1.symm, (hT c ic).through_iff, (hT f jf).turn_iff ha.ne.2.1,
    e1, e2, e3, e4]
  tauto

theorem zigzag_iff (hg : g.WF) (hT : Lays g C T) (hx : IntersectionSem g C) {d t : Dir} (ha : d.Across t)
    {p a b c : Nat × Nat} (hp : g.In p) (h1 : g.nb p d = some a) (h2 : g.nb p t = some b) (h3 : g.nb b d = some c) :
    ((C p).inp d = true ∧ (C p).out t = true ∧ ((∀ x, (C a).inp x = false) ∧ ∀ x, (C a).out x = false) ∧
      (C b).out d = true ∧ (C c).out t = true) ↔
    T a = .empty ∧ T p = .belt d t ∧ T b = .belt t d ∧ T c = .belt d t := by
  have ia := Grid.nb_in hg h1
  have ib := Grid.nb_in hg h2
  have ic := Grid.nb_in hg h3
  rw [(hT a ia).empty_iff, (hT p hp).turn_iff ha.ne.1, (hT b ib).turn_iff ha.ne.1.symm, (hT c ic).turn_iff ha.ne.1,
    ← (hx t p b hp h2).1, ← (hx d b c ib h3).1]
  tauto

theorem ug_start (hT : Lays g C T) (hu : UndergroundSem g C) {d : Dir} {p e : Nat × Nat} (hg : g.WF) (hp : g.In p)
    (he : g.nb p d = some e) : ((C e).ug d = true ∧ (C p).ug d = false) ↔ T p = .underground d true ∧ (C e).ug d = true := by
  have ie := Grid.nb_in hg he
  rw [← (hT p hp).ugIn_iff d]
  constructor
  · rintro ⟨h1, h2⟩
    have := hu.prev d e p ie (Grid.nb_opp hg hp he) h1 h2
    exact ⟨this, h1⟩
  · rintro ⟨h1, h2⟩
    exact ⟨h2, (hu.notIn d p hp h1).1⟩

theorem ug_start' (hT : Lays g C T) (hu : UndergroundSem g C) {d : Dir} {p e : Nat × Nat} (hg : g.WF) (hp : g.In p)
    (he : g.nb p d = some e) : ((C e).ug d = true ∧ (C p).ug d = false) ↔ T p = .underground d true := by
  rw [ug_start hT hu hg hp he]
  refine ⟨fun h => h.1, fun h => ⟨h, ?_⟩⟩
  exact hu.afterIn d p e hp he (((hT p hp).ugIn_iff d).2 h)

theorem ug_stop (hT : Lays g C T) (hu : UndergroundSem g C) {d : Dir} {p e : Nat × Nat} (hg : g.WF) (hp : g.In p)
    (he : g.nb p d.opp = some e) : ((C e).ug d = true ∧ (C p).ug d = false) ↔ T p = .underground d false := by
  have ie := Grid.nb_in hg he
  have hb := Grid.nb_opp hg hp he
  rw [Dir.opp_opp] at hb
  rw [← (hT p hp).ugOut_iff d]
  constructor
  · rintro ⟨h1, h2⟩
    exact hu.next d e p ie hb h1 h2
  · intro h
    exact ⟨hu.beforeOut d p e hp he h, (hu.notOut d p hp h).1⟩

theorem entranceHook_iff (hg : g.WF) (hT : Lays g C T) (hx : IntersectionSem g C) (hu : UndergroundSem g C) {d t i : Dir}
    (ha : d.Across t) (hi : i = d.opp ∨ i = t)
    {p e a b c : Nat × Nat} (hp : g.In p) (h1 : g.nb p d = some e) (h2 : g.nb p d.opp = some a) (h3 : g.nb a t.opp = some b)
    (h4 : g.nb b d = some c) :
    (((∀ x, (C e).inp x = false) ∧ ∀ x, (C e).out x = false) ∧ (C e).ug d = true ∧ (C p).ug d = false ∧ (C a).inp t = true ∧
      (C b).inp d.opp = true ∧ (C c).inp i = true ∧ (C c).isSplitter = false) ↔
    T e = .empty ∧ T p = .underground d true ∧ T a = .belt t d ∧ T b = .belt d.opp t ∧ T c = .belt i d.opp := by
  have ie := Grid.nb_in hg h1
  have ia := Grid.nb_in hg h2
  have ib := Grid.nb_in hg h3
  have ic := Grid.nb_in hg h4
  have h2' := Grid.nb_opp hg hp h2
  have h3' := Grid.nb_opp hg ia h3
  have h4' := Grid.nb_opp hg ib h4
  rw [Dir.opp_opp] at h2' h3'
  rw [(hT e ie).empty_iff, ← ug_start' hT hu hg hp h1, (hT a ia).turn_iff ha.ne.1.symm, (hT b ib).turn_iff ha.ne.2.2.symm,
    (hT c ic).through_iff, ← (hx t b a ib h3').1, (hx d.opp c b ic h4').1, (hx d a p ia h2').1]
  constructor
  · rintro ⟨k1, k2, k3, k4, k5, k6, k7⟩
    have := (ug_start' hT hu hg hp h1).1 ⟨k2, k3⟩
    exact ⟨k1, ⟨k2, k3⟩, ⟨k4, (((hT p hp).ugIn_iff d).2 this).2⟩, ⟨k5, k4⟩, k6, k5, k7⟩
  · rintro ⟨k1, ⟨k2, k3⟩, ⟨k4, k4'⟩, ⟨k5, k5'⟩, k6, k7, k8⟩
    exact ⟨k1, k2, k3, k5', k5, k6, k8⟩

theorem exitHook_iff (hg : g.WF) (hT : Lays g C T) (hx : IntersectionSem g C) (hu : UndergroundSem g C) {d t o : Dir}
    (ha : d.Across t) (ho : o = d ∨ o = t.opp)
    {p e a b c : Nat × Nat} (hp : g.In p) (h1 : g.nb p d = some e) (h2 : g.nb p d.opp = some a) (h3 : g.nb a t.opp = some b)
    (h4 : g.nb b d = some c) :
    (((∀ x, (C e).inp x = false) ∧ ∀ x, (C e).out x = false) ∧ (C e).ug d.opp = true ∧ (C p).ug d.opp = false ∧
      (C a).out t.opp = true ∧ (C b).out d = true ∧ (C c).out o = true ∧ (C c).isSplitter = false) ↔
    T e = .empty ∧ T p = .underground d.opp false ∧ T a = .belt d.opp t.opp ∧ T b = .belt t.opp d ∧ T c = .belt d o := by
  have ie := Grid.nb_in hg h1
  have ia := Grid.nb_in hg h2
  have ib := Grid.nb_in hg h3
  have ic := Grid.nb_in hg h4
  have h1' : g.nb p d.opp.opp = some e := by rw [Dir.opp_opp]; exact h1
  rw [(hT e ie).empty_iff, ← ug_stop hT hu hg hp h1', (hT a ia).turn_iff ha.opp_left.opp_right.ne.1,
    (hT b ib).turn_iff ha.opp_right.ne.1.symm,
    (hT c ic).through_iff, ← (hx t.opp a b ia h3).1, ← (hx d b c ib h4).1, ← (hx d.opp p a hp h2).1]
  constructor
  · rintro ⟨k1, k2, k3, k4, k5, k6, k7⟩
    have := (ug_stop hT hu hg hp h1').1 ⟨k2, k3⟩
    exact ⟨k1, ⟨k2, k3⟩, ⟨(((hT p hp).ugOut_iff d.opp).2 this).2, k4⟩, ⟨k4, k5⟩, k5, k6, k7⟩
  · rintro ⟨k1, ⟨k2, k3⟩, ⟨k4, k4'⟩, ⟨k5, k5'⟩, k6, k7, k8⟩
    exact ⟨k1, k2, k3, k5, k6, k7, k8⟩

/-- A run of underground flags is an underground pair. -/
theorem ugPair_iff (hg : g.WF) (hT : Lays g C T) (hu : UndergroundSem g C) {d : Dir} {p q : Nat × Nat} {k : Nat} (hp : g.In p)
    (hk : 2 ≤ k) (hw : walk g.nb p d k = some q) :
    UgPair g.nb T p q d k ↔ (C p).ug d = false ∧ (C q).ug d = false ∧
      ∀ i, 0 < i → i < k → ∀ r, walk g.nb p d i = some r → (C r).ug d = true := by
  have iq := walk_in hg hp hw
  obtain ⟨e, he, _⟩ := walk_le hw (i := 1) (by omega)
  have he1 : g.nb p d = some e := by simpa [walk] using he
  obtain ⟨f, hf, hf'⟩ := walk_le hw (i := k - 1) (by omega)
  have jf := walk_in hg hp hf
  have hfe : g.nb f d = some q := by
    have : k - (k - 1) = 1 := by omega
    rw [this] at hf'; simpa [walk] using hf'
  have hqf := Grid.nb_opp hg jf hfe
  constructor
  · intro h
    refine ⟨(hu.notIn d p hp (((hT p hp).ugIn_iff d).2 h.2.2.1)).1, (hu.notOut d q iq (((hT q iq).ugOut_iff d).2 h.2.2.2.1)).1, ?_⟩
    intro i h0 hi r hr
    obtain ⟨r', hr', hur⟩ := pair_run hg hT hu hp h i h0 hi
    rw [hr] at hr'; cases hr'; exact hur
  · rintro ⟨h1, h2, h3⟩
    refine ⟨hk, hw, ?_, ?_, ?_⟩
    · exact (ug_start' hT hu hg hp he1).1 ⟨h3 1 (by omega) (by omega) e he, h1⟩
    · exact (ug_stop hT hu hg iq hqf).1 ⟨h3 (k - 1) (by omega) (by omega) f hf, h2⟩
    · intro i h0 hi r hr
      exact hu.not_along hT (walk_in hg hp hr) (h3 i h0 hi r hr)

theorem glued_iff (hg : g.WF) (hT : Lays g C T) (hx : IntersectionSem g C) {d : Dir} {p a b : Nat × Nat} (hp : g.In p)
    (h1 : g.nb p d.opp = some a) (h2 : g.nb a d.ccw = some b) :
    ((C p).isHead = true ∧ (C p).inp d = true ∧ (C a).inp d = true ∧ (C a).out d = true ∧ (C a).isBelt = true ∧
      (C b).inp d = true ∧ (C b).out d = true ∧ (C b).isBelt = true) ↔
    T p = .splitter d true ∧ T a = .belt d d ∧ T b = .belt d d := by
  have ia := Grid.nb_in hg h1
  have ib := Grid.nb_in hg h2
  have h1' := Grid.nb_opp hg hp h1
  rw [Dir.opp_opp] at h1'
  rw [(hT a ia).belt_iff, (hT b ib).belt_iff]
  have e := (hx d a p ia h1').1
  constructor
  · rintro ⟨k1, k2, k3⟩
    exact ⟨((hT p hp).head_iff d k2).2 k1, ⟨k3.1, k3.2.1, k3.2.2.1⟩, k3.2.2.2⟩
  · rintro ⟨k1, ⟨k2, k3, k4⟩, k5⟩
    have hi : (C p).inp d = true := by rw [← e]; exact k3
    exact ⟨((hT p hp).head_iff d hi).1 k1, hi, k2, k3, k4, k5⟩

theorem loose_iff (hg : g.WF) (hT : Lays g C T) (hs : SplitterSem g C) {d : Dir} {p q a b : Nat × Nat} (hp : g.In p)
    (hq : g.nb p d.ccw = some q) (h1 : g.nb p d = some a) (h2 : g.nb q d = some b) :
    (((C p).inp d = true ∧ (C p).isHead = true ∧ (C q).inp d = false ∧
        (C a).inp d = true ∧ (C a).out d = true ∧ (C a).isBelt = true ∧
        (C b).inp d = true ∧ (C b).out d = true ∧ (C b).isBelt = true) ∨
      ((C p).inp d = false ∧ (C q).inp d = true ∧ (C q).isSplitter = true ∧ (C q).isHead = false ∧
        (C a).inp d = true ∧ (C a).out d = true ∧ (C a).isBelt = true ∧
        (C b).inp d = true ∧ (C b).out d = true ∧ (C b).isBelt = true)) ↔
    (SplitterPair g.nb T p q d ∧ T a = .belt d d ∧ T b = .belt d d ∧
      (((C p).inp d = true ∧ ¬ (C q).inp d = true) ∨ (¬ (C p).inp d = true ∧ (C q).inp d = true))) := by
  have ia := Grid.nb_in hg h1
  have iq := Grid.nb_in hg hq
  have ib := Grid.nb_in hg h2
  have hpair := (splitterSem_iff hg hT).1 hs
  rw [(hT a ia).belt_iff, (hT b ib).belt_iff]
  constructor
  · rintro (⟨k1, k2, k3, k4⟩ | ⟨k1, k2, k3, k4, k5⟩)
    · have hh := ((hT p hp).head_iff d k1).2 k2
      obtain ⟨q', _, hq'⟩ := hpair.head p d hp hh
      have : q' = q := by rw [hq'.2.1] at hq; exact Option.some.inj hq
      subst this
      exact ⟨hq', ⟨k4.1, k4.2.1, k4.2.2.1⟩, k4.2.2.2, .inl ⟨k1, by simp [k3]⟩⟩
    · have hh := (hT q iq).splitter_dir k3 (d := d) (.inl k2)
      rw [k4] at hh
      obtain ⟨p', ip', hp'⟩ := hpair.tail q d iq hh
      have : p' = p := Grid.nb_inj hg ip' hp hp'.2.1 hq
      subst this
      exact ⟨hp', ⟨k5.1, k5.2.1, k5.2.2.1⟩, k5.2.2.2, .inr ⟨by simp [k1], k2⟩⟩
  · rintro ⟨hpq, k1, k2, k3 | k3⟩
    · left
      refine ⟨k3.1, ((hT p hp).head_iff d k3.1).1 hpq.1, by simpa using k3.2, k1.1, k1.2.1, k1.2.2, k2⟩
    · right
      obtain ⟨s1, s2, _⟩ := (hpq.2.2 ▸ hT q iq).splitter_flags
      exact ⟨by simpa using k3.1, k3.2, s1, s2, k1.1, k1.2.1, k1.2.2, k2⟩

end

end FSat
