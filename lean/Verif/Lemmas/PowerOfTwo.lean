import Verif.Model.PowerOfTwo
import Verif.Lemmas.NetFree
import Verif.Lemmas.Labels
/-!
What the clauses of the balancers for powers of two say.
-/

set_option linter.unusedSimpArgs false

namespace FSat

/-- The code returns clauses that say `P`. -/
def Means (e : Except PyErr Cnf) (P : Asg → Prop) : Prop := ∃ cs, e = .ok cs ∧ ∀ v, Sat v cs ↔ P v

theorem Means.nil : Means (joinE []) fun _ => True := ⟨[], rfl, fun v => by simp⟩

theorem Means.cons {e : Except PyErr Cnf} {l : List (Except PyErr Cnf)} {P Q : Asg → Prop} (h : Means e P) (h' : Means (joinE l) Q) :
    Means (joinE (e :: l)) fun v => P v ∧ Q v := by
  obtain ⟨c, rfl, hc⟩ := h
  obtain ⟨cs, hl, hcs⟩ := h'
  unfold joinE at hl
  refine ⟨c ++ cs, ?_, fun v => by rw [Sat_append, hc, hcs]⟩
  simp only [joinE, concatE, id, hl]

theorem Means.congr {e : Except PyErr Cnf} {P Q : Asg → Prop} (h : Means e P) (he : ∀ v, P v ↔ Q v) : Means e Q := by
  obtain ⟨cs, h1, h2⟩ := h
  exact ⟨cs, h1, fun v => (h2 v).trans (he v)⟩

theorem Means.concat {α : Type} {f : α → Except PyErr Cnf} {P : α → Asg → Prop} {as : List α} (h : ∀ a ∈ as, Means (f a) (P a)) :
    Means (concatE f as) fun v => ∀ a ∈ as, P a v := concatE_iff f (fun v a => P a v) as h

theorem Means.ok {c : Cnf} {P : Asg → Prop} (h : ∀ v, Sat v c ↔ P v) : Means (.ok c) P := ⟨c, rfl, h⟩

/-! ### One tile -/

/-- What lines 28-34 say about the values of a cell, of its level and of its second copy of the level. -/
structure PowerTileSem (c : CellVal) (lv pr : List Bool) : Prop where
  both : c.isSplitter = true → (∃ d, c.inp d = true) ∧ ∃ d, c.out d = true
  one : c.isHead = true ∨ c.isSplitter = true → lv.count true = 1
  none : c.isSplitter = false → ∀ b ∈ lv, b = false
  same : c.isSplitter = true → lv = pr
  noneP : c.isSplitter = false → ∀ b ∈ pr, b = false

theorem powerTile_iff (t : TileInst) (l : LevelLits) (h : l.level.length = l.primary.length) :
    Means (powerTile t l) fun v => PowerTileSem (evalTile v t) (l.level.map (ev v)) (l.primary.map (ev v)) := by
  obtain ⟨c, e, s⟩ := c07_set_numbers_equal l.level l.primary h
  unfold powerTile
  rw [e]
  refine .ok fun v => ?_
  have e1 : evalTile v t = evalTile v t := rfl
  simp only [Sat_append, Sat_implies, Sat_setAllFalse, s, c09_quadratic_one, List.mem_cons, List.not_mem_nil, or_false, forall_eq,
    forall_eq_or_imp, ev_neg, Bool.not_eq_true', Sat_cons, Sat_nil, and_true]
  have ev1 : value v l.level = value v l.primary ↔ l.level.map (ev v) = l.primary.map (ev v) :=
    ⟨fun e => binVal_inj (by simpa using h) e, fun e => congrArg binVal e⟩
  have hd : ∀ f : Dir → Lit, SatC v (dirs f) ↔ ∃ d, ev v (f d) = true := by
    intro f
    simp only [SatC, dirs, List.mem_map]
    constructor
    · rintro ⟨_, ⟨d, _, rfl⟩, h⟩; exact ⟨d, h⟩
    · rintro ⟨d, h⟩; exact ⟨_, ⟨d, by cases d <;> simp [Dir.all], rfl⟩, h⟩
  rw [ev1, hd, hd]
  constructor
  · rintro ⟨⟨⟨⟨⟨h1, h2⟩, h3⟩, h4⟩, h5⟩, h6⟩
    refine ⟨h1, ?_, ?_, h5, ?_⟩
    · rintro (hh | hs)
      · exact h2 hh
      · cases hh : ev v t.isHead with
        | true => exact h2 hh
        | false => exact h3 ⟨hs, hh⟩
    · intro hs b hb
      obtain ⟨x, hx, rfl⟩ := List.mem_map.1 hb
      exact h4 hs x hx
    · intro hs b hb
      obtain ⟨x, hx, rfl⟩ := List.mem_map.1 hb
      exact h6 hs x hx
  · rintro ⟨h1, h2, h3, h4, h5⟩
    exact ⟨⟨⟨⟨⟨h1, fun hh => h2 (.inl hh)⟩, fun hh => h2 (.inr hh.1)⟩, fun hs x hx => h3 hs _ (List.mem_map_of_mem hx)⟩, h4⟩,
      fun hs x hx => h5 hs _ (List.mem_map_of_mem hx)⟩

/-! ### One splitter -/

/-- The two inputs of a splitter have no bit in common and both outputs have the bits of either. -/
def MixBits (a b c d : List Bool) : Prop :=
  ∀ k, ¬ (a.getD k false = true ∧ b.getD k false = true) ∧
    (c.getD k false = true ↔ a.getD k false = true ∨ b.getD k false = true) ∧
    (d.getD k false = true ↔ a.getD k false = true ∨ b.getD k false = true)

theorem Sat_mixBit (v : Asg) (a b c d : Lit) : Sat v (mixBit a b c d) ↔ ¬ (ev v a = true ∧ ev v b = true) ∧
    (ev v c = true ↔ ev v a = true ∨ ev v b = true) ∧ (ev v d = true ↔ ev v a = true ∨ ev v b = true) := by
  simp only [mixBit, Sat_cons, Sat_nil, SatC_cons, SatC_nil, ev_neg, or_false, and_true]
  cases ev v a <;> cases ev v b <;> cases ev v c <;> cases ev v d <;> simp

theorem getD_map_ev (v : Asg) (l : List Lit) {k : Nat} (h : k < l.length) : (l.map (ev v)).getD k false = ev v (l.getD k default) := by
  simp [List.getD_eq_getElem?_getD, h]

theorem mixAll_iff (v : Asg) (pre : List Lit) {n : Nat} {a b c d : List Lit} (ha : a.length = n) (hb : b.length = n) (hc : c.length = n)
    (hd : d.length = n) :
    Sat v ((a.zip (b.zip (c.zip d))).flatMap fun e => implies pre (mixBit e.1 e.2.1 e.2.2.1 e.2.2.2)) ↔
      ((∀ l ∈ pre, ev v l = true) → MixBits (a.map (ev v)) (b.map (ev v)) (c.map (ev v)) (d.map (ev v))) := by
  rw [Sat_flatMap]
  simp only [Sat_implies, Sat_mixBit]
  constructor
  · intro h hp k
    by_cases hk : k < n
    · rw [getD_map_ev v a (by omega), getD_map_ev v b (by omega), getD_map_ev v c (by omega), getD_map_ev v d (by omega)]
      refine h (a.getD k default, b.getD k default, c.getD k default, d.getD k default) ?_ hp
      have e3 := zip_getD (l := c) (l' := d) default default (i := k) (by omega) (by omega)
      have e2 := zip_getD (l := b) (l' := c.zip d) default (default, default) (i := k) (by omega) (by simp; omega)
      have e1 := mem_zip_getD (l := a) (l' := b.zip (c.zip d)) default (default, default, default) (i := k) (by omega) (by simp; omega)
      rw [e2, e3] at e1
      exact e1
    · have : ∀ l : List Lit, l.length = n → (l.map (ev v)).getD k false = false := by
        intro l hl
        rw [List.getD_eq_getElem?_getD, List.getElem?_eq_none (by simp; omega)]
        rfl
      rw [this a ha, this b hb, this c hc, this d hd]
      simp
  · intro h e he hp
    obtain ⟨k, hk, rfl⟩ := List.mem_iff_getElem.1 he
    have hk' : k < n := by simp at hk; omega
    have := h hp k
    rw [getD_map_ev v a (by omega), getD_map_ev v b (by omega), getD_map_ev v c (by omega), getD_map_ev v d (by omega)] at this
    have g : ∀ l : List Lit, (hl : l.length = n) → l.getD k default = l[k]'(by omega) := by
      intro l hl
      rw [List.getD_eq_getElem?_getD, List.getElem?_eq_getElem (by omega)]
      rfl
    rw [g a ha, g b hb, g c hc, g d hd] at this
    simpa using this

/-- What lines 43-74 say about one cell and direction. -/
def PowerDirSem (g : Grid) (C : Nat × Nat → CellVal) (lv : Nat × Nat → List Bool) (p : Nat × Nat) (d : Dir) : Prop :=
  (C p).isHead = true → (C p).inp d = true → ∃ p' q q', g.nb p d = some p' ∧ g.nb p d.ccw = some q ∧ g.nb q d = some q' ∧
    MixBits (C p).colour (C q).colour (C p').colour (C q').colour ∧ lv p = lv q

theorem powerDir_iff {g : Grid} (hg : g.WF) {L : Nat × Nat → LevelLits} {n : Nat} (hL : ∀ p, (L p).level.length = n) {p : Nat × Nat}
    (hp : g.In p) (d : Dir) :
    Means (powerDir g L p d) fun v => PowerDirSem g (g.vals v) (fun p => (L p).level.map (ev v)) p d := by
  have hoff : g.offset p (d.dx + d.next.dx) (d.dy + d.next.dy) = (g.nb p d.ccw).bind fun q => g.nb q d := by
    rw [Dir.next_eq, Grid.offset_corner1 hg hp d.across_ccw, Grid.nb_comm hg hp d.across_ccw]
  unfold powerDir
  rw [hoff, Dir.next_eq]
  have hpre : ∀ v, (∀ l ∈ [(g.at' p).isHead, (g.at' p).inp d], ev v l = true) ↔
      (g.vals v p).isHead = true ∧ (g.vals v p).inp d = true := by
    intro v
    simp only [List.mem_cons, List.not_mem_nil, or_false, forall_eq_or_imp, forall_eq]
    rfl
  have hneg : (∀ v, ¬ ∃ p' q q', g.nb p d = some p' ∧ g.nb p d.ccw = some q ∧ g.nb q d = some q' ∧
      MixBits (g.vals v p).colour (g.vals v q).colour (g.vals v p').colour (g.vals v q').colour ∧
      (L p).level.map (ev v) = (L q).level.map (ev v)) →
      Means (.ok [invertComponents [(g.at' p).isHead, (g.at' p).inp d]])
        fun v => PowerDirSem g (g.vals v) (fun p => (L p).level.map (ev v)) p d := by
    intro h
    refine .ok fun v => ?_
    unfold PowerDirSem
    have : SatC v (invertComponents [(g.at' p).isHead, (g.at' p).inp d]) ↔
        ¬ ((g.vals v p).isHead = true ∧ (g.vals v p).inp d = true) := by
      show SatC v [-(g.at' p).isHead, -(g.at' p).inp d] ↔ ¬ (ev v (g.at' p).isHead = true ∧ ev v ((g.at' p).inp d) = true)
      simp only [SatC_cons, SatC_nil, ev_neg, or_false]
      cases ev v (g.at' p).isHead <;> cases ev v ((g.at' p).inp d) <;> simp
    rw [Sat_cons, this]
    simp only [Sat_nil, and_true]
    constructor
    · exact fun h1 h2 h3 => absurd ⟨h2, h3⟩ h1
    · exact fun h1 h2 => h v (h1 h2.1 h2.2)
  cases e1 : g.nb p d with
  | none => exact hneg fun v h => by obtain ⟨_, _, _, h, _⟩ := h; rw [e1] at h; cases h
  | some p' =>
    cases e2 : g.nb p d.ccw with
    | none => exact hneg fun v h => by obtain ⟨_, _, _, _, h, _⟩ := h; rw [e2] at h; cases h
    | some q =>
      simp only [Option.bind_some]
      cases e3 : g.nb q d with
      | none =>
        exact hneg fun v h => by
          obtain ⟨_, q1, _, _, h1, h2, _⟩ := h
          rw [e2] at h1; cases h1
          rw [e3] at h2; cases h2
      | some q' =>
        simp only
        obtain ⟨c, e, s⟩ := c07_set_numbers_equal (L p).level (L q).level ((hL p).trans (hL q).symm)
        rw [e]
        refine .ok fun v => ?_
        have hv : value v (L p).level = value v (L q).level ↔ (L p).level.map (ev v) = (L q).level.map (ev v) :=
          ⟨fun e => binVal_inj (by simp [hL]) e, fun e => congrArg binVal e⟩
        rw [Sat_append, mixAll_iff v _ (hg.c p) (hg.c q) (hg.c p') (hg.c q'), Sat_implies, s, hv, hpre]
        unfold PowerDirSem
        constructor
        · rintro ⟨h1, h2⟩ hh hi
          exact ⟨p', q, q', e1, e2, e3, h1 ⟨hh, hi⟩, h2 ⟨hh, hi⟩⟩
        · intro h
          refine ⟨fun hh => ?_, fun hh => ?_⟩
          all_goals
            obtain ⟨a, b, c, f1, f2, f3, f4, f5⟩ := h hh.1 hh.2
            rw [e1] at f1; cases f1
            rw [e2] at f2; cases f2
            rw [e3] at f3; cases f3
          · exact f4
          · exact f5

/-! ### The columns -/

theorem setTile_belt_iff {g : Grid} {x y : Nat} (h : g.In (x, y)) (i o : Dir) :
    Means (setTile g x y (.belt i o)) fun v => (g.vals v (x, y)).isBelt = true ∧ (g.vals v (x, y)).inp i = true ∧
      (g.vals v (x, y)).out o = true := by
  refine ⟨_, by simp only [setTile, Grid.getTile]; rw [if_pos (show x < g.width ∧ y < g.height from h)], fun v => ?_⟩
  simp only [Sat_cons, Sat_nil, SatC_cons, SatC_nil, or_false, and_true]
  rfl

theorem setColour_iff {g : Grid} (hg : g.WF) {n k : Nat} (hn : g.colours = some n) (hk : k < n) {x y : Nat} (h : g.In (x, y)) :
    Means (setColour g x y (k : Int)) fun v => binVal (g.vals v (x, y)).colour = k := by
  have hlt : k < 2 ^ (g.tile x y).colour.length := by
    have : (g.tile x y).colour.length = (n - 1).size := by
      have : (g.tile x y).colour.length = g.bits := hg.c (x, y)
      rw [this]
      simp [Grid.bits, hn]
    rw [this]
    exact Nat.lt_of_le_of_lt (by omega) (Nat.lt_size_self (n - 1))
  obtain ⟨c, e, s⟩ := (c06_set_number k (g.tile x y).colour).1 hlt
  refine ⟨c, ?_, s⟩
  unfold setColour
  rw [if_neg (by omega), hn]
  simp only
  rw [if_pos (by exact_mod_cast hk)]
  simp only [Grid.getTile]
  rw [if_pos (show x < g.width ∧ y < g.height from h)]
  exact e

theorem diffAll_iff (v : Asg) {a b : List Lit} (h : a.length = b.length) :
    Sat v ((a.zip b).flatMap fun e => literalsDifferent e.1 e.2) ↔ ∀ k < a.length, ((a.map (ev v)).getD k false = true ↔ ¬ (b.map (ev v)).getD k false = true) := by
  rw [Sat_flatMap]
  simp only [Sat_literalsDifferent']
  constructor
  · intro hh k hk
    have := hh _ (mem_zip_getD (l := a) (l' := b) default default hk (by omega))
    rw [getD_map_ev v a hk, getD_map_ev v b (by omega)]
    revert this
    simp only
    cases ev v (a.getD k default) <;> cases ev v (b.getD k default) <;> simp
  · intro hh e he
    obtain ⟨k, hk, rfl⟩ := List.mem_iff_getElem.1 he
    have hk1 : k < a.length := by simp at hk; omega
    have hk2 : k < b.length := by omega
    have := hh k hk1
    rw [getD_map_ev v a hk1, getD_map_ev v b hk2] at this
    simp only [List.getD_eq_getElem?_getD, List.getElem?_eq_getElem hk1, List.getElem?_eq_getElem hk2, Option.getD_some] at this
    rw [List.getElem_zip]
    simp only
    revert this
    cases ev v a[k] <;> cases ev v b[k] <;> simp

theorem powerPair_iff {g : Grid} (hg : g.WF) {y : Nat} (h : y + 1 < g.height) :
    Means (powerPair g y) fun v => ∀ k < g.bits, ((g.vals v (g.width - 1, y)).colour.getD k false = true ↔
      ¬ (g.vals v (g.width - 1, y + 1)).colour.getD k false = true) := by
  have hw := hg.w
  refine ⟨_, by
    simp only [powerPair, Grid.getTile]
    rw [if_pos ⟨by omega, by omega⟩, if_pos ⟨by omega, h⟩], fun v => ?_⟩
  have l1 : (g.tile (g.width - 1) y).colour.length = g.bits := hg.c (g.width - 1, y)
  have l2 : (g.tile (g.width - 1) (y + 1)).colour.length = g.bits := hg.c (g.width - 1, y + 1)
  rw [diffAll_iff v (l1.trans l2.symm), l1]
  rfl

/-! ### All clauses that take no variables -/

/-- What the clauses of `powerPlain` say. -/
structure PowerSem (g : Grid) (C : Nat × Nat → CellVal) (lv pr : Nat × Nat → List Bool) : Prop where
  init : InitSem g C
  shut : BlockUgSem g (.ofBool true) C
  under : UndergroundSem g C
  colour : ColourSem g C
  tile : ∀ p, g.In p → PowerTileSem (C p) (lv p) (pr p)
  mix : ∀ p, g.In p → ∀ d, PowerDirSem g C lv p d
  first : ∀ y < g.height, ((C (0, y)).isBelt = true ∧ (C (0, y)).inp .right = true ∧ (C (0, y)).out .right = true) ∧
    binVal (C (0, y)).colour = 2 ^ (y / 2)
  last : ∀ y < g.height, (C (g.width - 1, y)).isBelt = true ∧ (C (g.width - 1, y)).inp .right = true ∧
    (C (g.width - 1, y)).out .right = true
  pairs : ∀ k, 2 * k + 1 < g.height → ∀ b < g.bits, ((C (g.width - 1, 2 * k)).colour.getD b false = true ↔
      ¬ (C (g.width - 1, 2 * k + 1)).colour.getD b false = true)

theorem powerPlain_iff {g : Grid} (hg : g.WF) {L : Nat × Nat → LevelLits} {n : Nat} (hL : ∀ p, (L p).level.length = n)
    (hP : ∀ p, (L p).primary.length = n) (hc : g.colours = some (2 ^ (g.height / 2))) (hev : g.height % 2 = 0) :
    Means (powerPlain g L) fun v => PowerSem g (g.vals v) (fun p => (L p).level.map (ev v)) (fun p => (L p).primary.map (ev v)) := by
  have hw := hg.w
  refine Means.congr (Means.cons (init_iff hg) <| Means.cons (.ok fun v => Sat_blockUg hg _ v) <|
    Means.cons (.ok fun v => Sat_underground g v) <| Means.cons (colouring_iff hg) <|
    Means.cons (Means.concat fun p _ => powerTile_iff (g.at' p) (L p) ((hL p).trans (hP p).symm)) <|
    Means.cons (Means.concat fun p hp => Means.concat fun d _ => powerDir_iff hg hL ((g.mem_cells p).1 hp) d) <|
    Means.cons (Means.concat fun y hy => Means.cons (setTile_belt_iff (g := g) (x := 0) ⟨hw, List.mem_range.1 hy⟩ .right .right)
      (Means.cons (setColour_iff hg hc (k := 2 ^ (y / 2)) (Nat.pow_lt_pow_right (by omega) (by have := List.mem_range.1 hy; omega))
        ⟨hw, List.mem_range.1 hy⟩) Means.nil)) <|
    Means.cons (Means.concat fun y hy => setTile_belt_iff (g := g) (x := g.width - 1) ⟨by omega, List.mem_range.1 hy⟩ .right .right) <|
    Means.cons (Means.concat fun k hk => powerPair_iff hg (y := 2 * k) (by have := List.mem_range.1 hk; omega)) Means.nil) fun v => ?_
  simp only [and_true, List.mem_range, forall_cells, Dir.forall_mem_all]
  constructor
  · rintro ⟨h1, h2, h3, h4, h5, h6, h7, h8, h9⟩
    exact ⟨h1, h2, h3, h4, h5, h6, h7, h8, fun k hk => h9 k (by omega)⟩
  · rintro ⟨h1, h2, h3, h4, h5, h6, h7, h8, h9⟩
    exact ⟨h1, h2, h3, h4, h5, h6, h7, h8, fun k hk => h9 k (by omega)⟩

theorem PowerSem.congr {g : Grid} (hg : g.WF) {C C' : Nat × Nat → CellVal} {lv lv' pr pr' : Nat × Nat → List Bool}
    (h : ∀ p, g.In p → C' p = C p) (hl : ∀ p, g.In p → lv' p = lv p) (hp : ∀ p, g.In p → pr' p = pr p) (hs : PowerSem g C lv pr) :
    PowerSem g C' lv' pr' := by
  have hw := hg.w
  refine ⟨hs.init.congr hg h, hs.shut.congr h, hs.under.congr hg h, hs.colour.congr hg h, ?_, ?_, ?_, ?_, ?_⟩
  · intro p hin
    rw [h p hin, hl p hin, hp p hin]
    exact hs.tile p hin
  · intro p hin d hh hi
    rw [h p hin] at hh hi
    obtain ⟨p', q, q', f1, f2, f3, f4, f5⟩ := hs.mix p hin d hh hi
    have i1 := Grid.nb_in hg f1
    have i2 := Grid.nb_in hg f2
    have i3 := Grid.nb_in hg f3
    exact ⟨p', q, q', f1, f2, f3, by rw [h p hin, h _ i1, h _ i2, h _ i3]; exact f4, by rw [hl p hin, hl _ i2]; exact f5⟩
  · intro y hy
    rw [h (0, y) ⟨hw, hy⟩]
    exact hs.first y hy
  · intro y hy
    rw [h (g.width - 1, y) ⟨Nat.sub_lt hw Nat.one_pos, hy⟩]
    exact hs.last y hy
  · intro k hk b hb
    have := hs.pairs k hk b hb
    rw [h (g.width - 1, 2 * k) ⟨Nat.sub_lt hw Nat.one_pos, Nat.lt_of_succ_lt hk⟩]
    rw [h (g.width - 1, 2 * k + 1) ⟨Nat.sub_lt hw Nat.one_pos, hk⟩]
    exact this

/-! ### All clauses -/

theorem zipIdx_getD {l : List Lit} {e : Lit × Nat} (he : e ∈ l.zipIdx) : e.2 < l.length ∧ e.1 = l.getD e.2 default := by
  obtain ⟨h1, h2⟩ := List.mem_zipIdx' he
  refine ⟨h1, ?_⟩
  rw [List.getD_eq_getElem?_getD, List.getElem?_eq_getElem h1]
  exact h2

theorem powerClauses_enc {lib : CardLib} (hl : lib.Correct) {g : Grid} (hg : g.WF) {s0 : Nat} (hb : g.LitsLe s0)
    {L : Nat × Nat → LevelLits} {n : Nat} (hn : n = powerLevels g.height) (hL : ∀ p, (L p).level.length = n)
    (hP : ∀ p, (L p).primary.length = n) (hbL : ∀ p, g.In p → LBound s0 (L p).level) (hbP : ∀ p, g.In p → LBound s0 (L p).primary)
    (hc : g.colours = some (2 ^ (g.height / 2))) (hev : g.height % 2 = 0) :
    GenEnc s0 (powerClauses lib g L) fun v =>
      PowerSem g (g.vals v) (fun p => (L p).level.map (ev v)) (fun p => (L p).primary.map (ev v)) ∧
      (∀ p, g.In p → ∀ i < n, ((L p).level.map (ev v)).getD i false = true → (g.vals v p).colour.count true = 2 ^ i) ∧
      ∀ i < n, (checkerboard g).countP (fun p => ((L p).primary.map (ev v)).getD i false) = g.height / 2 := by
  subst hn
  have hcb : ∀ p, p ∈ checkerboard g → g.In p := by
    intro p hp
    simp only [checkerboard, List.mem_flatMap, List.mem_map, List.mem_filter, List.mem_range] at hp
    obtain ⟨y, hy, x, ⟨hx, _⟩, rfl⟩ := hp
    exact ⟨hx, hy⟩
  have hgl : ∀ (l : List Lit), LBound s0 l → ∀ i < l.length, (l.getD i default).var ≤ s0 := by
    intro l h i hi
    rw [List.getD_eq_getElem?_getD, List.getElem?_eq_getElem hi]
    exact h _ (List.getElem_mem hi)
  have v_eq : ∀ {v w : Asg}, Agree s0 v w → ∀ p, g.In p → g.vals w p = g.vals v p := fun h p hp => g.vals_agree hb h hp
  obtain ⟨c, e, s⟩ := powerPlain_iff hg hL hP hc hev
  unfold powerClauses
  refine GenEnc.congr (GenEnc.append (GenEnc.append (GenEnc.cons (P := fun v => PowerSem g (g.vals v) (fun p => (L p).level.map (ev v))
      (fun p => (L p).primary.map (ev v))) (GenEnc.pure ?_ ?_) (GenEnc.nil s0))
    (GenEnc.map g.cells fun p hp => GenEnc.map (L p).level.zipIdx fun e he => GenEnc.implies ?_ (GenEnc.equals hl ?_ _)))
    (GenEnc.map (List.range (powerLevels g.height)) fun i hi => GenEnc.equals hl ?_ _)) ?_
  · intro v w h
    have e1 : ∀ p, g.In p → (L p).level.map (ev w) = (L p).level.map (ev v) := fun p hp => map_ev_agree h (hbL p hp)
    have e2 : ∀ p, g.In p → (L p).primary.map (ev w) = (L p).primary.map (ev v) := fun p hp => map_ev_agree h (hbP p hp)
    exact ⟨PowerSem.congr hg (fun p hp => (v_eq h p hp).symm) (fun p hp => (e1 p hp).symm) (fun p hp => (e2 p hp).symm),
      PowerSem.congr hg (fun p hp => v_eq h p hp) e1 e2⟩
  · intro cs he v
    rw [e] at he
    cases he
    exact s v
  · intro l hl
    rw [List.mem_singleton] at hl
    subst hl
    obtain ⟨h1, h2⟩ := zipIdx_getD he
    rw [h2]
    exact hgl _ (hbL p ((g.mem_cells p).1 hp)) _ h1
  · intro l hl
    exact hb p ((g.mem_cells p).1 hp) l (by simp [TileInst.lits, hl])
  · intro l hl
    obtain ⟨p, hp, rfl⟩ := List.mem_map.1 hl
    exact hgl _ (hbP p (hcb p hp)) _ (by rw [hP]; exact List.mem_range.1 hi)
  · intro v
    simp only [and_true, forall_cells, countTrue_map, List.mem_singleton, forall_eq, List.mem_range]
    rw [and_assoc]
    refine and_congr_right' (and_congr ?_ ?_)
    · refine forall_congr' fun p => imp_congr_right fun hp => ?_
      have hcount : countTrue v (g.at' p).colour = (g.vals v p).colour.count true := rfl
      rw [hcount]
      constructor
      · intro h i hi ht
        have hi' : i < (L p).level.length := by rw [hL]; exact hi
        have := h ((L p).level.getD i default, i) (by
          rw [List.mem_zipIdx_iff_getElem?, List.getD_eq_getElem?_getD, List.getElem?_eq_getElem hi']
          rfl) (by rw [getD_map_ev v _ hi'] at ht; exact ht)
        exact_mod_cast this
      · intro h e he ht
        obtain ⟨h1, h2⟩ := zipIdx_getD he
        have := h e.2 (by rw [hL] at h1; exact h1) (by rw [getD_map_ev v _ h1, ← h2]; exact ht)
        exact_mod_cast this
    · refine forall_congr' fun i => imp_congr_right fun hi => ?_
      have : (checkerboard g).countP (fun p => ev v ((L p).primary.getD i default)) =
          (checkerboard g).countP (fun p => ((L p).primary.map (ev v)).getD i false) :=
        List.countP_congr fun p hp => by rw [getD_map_ev v _ (by rw [hP]; exact hi)]
      rw [this]
      exact_mod_cast Iff.rfl

end FSat
