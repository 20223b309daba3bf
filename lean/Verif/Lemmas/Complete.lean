import Verif.Lemmas.Rules

set_option linter.unusedSimpArgs false

namespace FSat

open Classical

section
variable {g : Grid} {T : Nat × Nat → Tile}

/-- The first underground end of the axis of `e` that one meets from `r` in direction `e`. -/
def FirstAlong (g : Grid) (T : Nat × Nat → Tile) (r : Nat × Nat) (e : Dir) (j : Nat) (s : Nat × Nat) : Prop :=
  0 < j ∧ walk g.nb r e j = some s ∧ (T s).UgAlong e ∧
    ∀ i, 0 < i → i < j → ∀ s', walk g.nb r e i = some s' → ¬ (T s').UgAlong e

theorem FirstAlong.unique {r : Nat × Nat} {e : Dir} {j j' : Nat} {s s' : Nat × Nat} (h : FirstAlong g T r e j s)
    (h' : FirstAlong g T r e j' s') : j = j' ∧ s = s' := by
  have hj : j = j' := by
    rcases Nat.lt_trichotomy j j' with hlt | he | hlt
    · exact absurd h.2.2.1 (h'.2.2.2 j h.1 hlt s h.2.1)
    · exact he
    · exact absurd h'.2.2.1 (h.2.2.2 j' h'.1 hlt s' h'.2.1)
  subst hj
  have := h.2.1.symm.trans h'.2.1
  exact ⟨rfl, by simpa using this⟩

theorem Tile.ugAlong_opp (t : Tile) (d : Dir) : t.UgAlong d.opp ↔ t.UgAlong d := by
  simp only [Tile.ugAlong_iff, Dir.opp_opp]
  exact exists_congr fun b => or_comm

/-- `r` lies strictly between the entrance `p0`, facing `d`, and its exit. -/
def CoveredBy (g : Grid) (T : Nat × Nat → Tile) (d : Dir) (r p0 : Nat × Nat) : Prop :=
  g.In p0 ∧ ∃ q k i, UgPair g.nb T p0 q d k ∧ 0 < i ∧ i < k ∧ walk g.nb p0 d i = some r

theorem CoveredBy.in (hg : g.WF) {d : Dir} {r p0 : Nat × Nat} (h : CoveredBy g T d r p0) : g.In r := by
  obtain ⟨h0, q, k, i, _, _, _, h4⟩ := h
  exact walk_in hg h0 h4

theorem CoveredBy.not_along {d : Dir} {r p0 : Nat × Nat} (h : CoveredBy g T d r p0) : ¬ (T r).UgAlong d := by
  obtain ⟨_, q, k, i, h1, h2, h3, h4⟩ := h
  exact h1.2.2.2.2 i h2 h3 r h4

theorem CoveredBy.exit {d : Dir} {r p0 : Nat × Nat} (h : CoveredBy g T d r p0) :
    ∃ j q k i, UgPair g.nb T p0 q d k ∧ 0 < i ∧ i + j = k ∧ FirstAlong g T r d j q := by
  obtain ⟨h0, q, k, i, h1, h2, h3, h4⟩ := h
  have hw : ∀ m, walk g.nb r d m = walk g.nb p0 d (i + m) := by
    intro m
    rw [walk_add, h4]; rfl
  refine ⟨k - i, q, k, i, h1, h2, by omega, by omega, ?_, h1.along_right, ?_⟩
  · rw [hw, show i + (k - i) = k by omega]; exact h1.2.1
  · intro m hm1 hm2 s hs
    rw [hw] at hs
    exact h1.2.2.2.2 (i + m) (by omega) (by omega) s hs

theorem CoveredBy.entrance (hg : g.WF) {d : Dir} {r p0 : Nat × Nat} (h : CoveredBy g T d r p0) :
    ∃ j, FirstAlong g T r d.opp j p0 ∧ T p0 = .underground d true := by
  obtain ⟨h0, q, k, i, h1, h2, h3, h4⟩ := h
  refine ⟨i, ⟨h2, walk_opp hg h0 h4, ?_, ?_⟩, h1.2.2.1⟩
  · rw [Tile.ugAlong_opp]; exact h1.along_left
  · intro m hm1 hm2 s hs
    rw [Tile.ugAlong_opp]
    obtain ⟨s', hs1, hs2⟩ := walk_le h4 (show i - m ≤ i by omega)
    have hs1in := walk_in hg h0 hs1
    have := walk_opp hg hs1in hs2
    rw [show i - (i - m) = m by omega, hs] at this
    cases this
    exact h1.2.2.2.2 (i - m) (by omega) (by omega) s hs1

theorem CoveredBy.unique (hg : g.WF) {d d' : Dir} {r p0 p0' : Nat × Nat} (h : CoveredBy g T d r p0)
    (h' : CoveredBy g T d' r p0') (hd : d'.Parallel d) : d = d' ∧ p0 = p0' := by
  rcases hd with rfl | rfl
  · obtain ⟨j, a, _⟩ := h.entrance hg
    obtain ⟨j', a', _⟩ := h'.entrance hg
    exact ⟨rfl, (a.unique a').2⟩
  · obtain ⟨j, a, ht⟩ := h'.entrance hg
    rw [Dir.opp_opp] at a
    obtain ⟨j', q, k, i, hp, _, _, a'⟩ := h.exit
    obtain ⟨_, rfl⟩ := a.unique a'
    have := ht.symm.trans hp.2.2.2.1
    simp at this

/-- The colour of the underground belt of an axis below a cell. -/
noncomputable def underCol (g : Grid) (T : Nat × Nat → Tile) (col : Nat × Nat → Nat) (d : Dir) (r : Nat × Nat) : Nat :=
  if h : ∃ p0, CoveredBy g T d r p0 then col (choose h)
  else if h : ∃ p0, CoveredBy g T d.opp r p0 then col (choose h) else col r

theorem underCol_covered (hg : g.WF) {col : Nat × Nat → Nat} {d e : Dir} {r p0 : Nat × Nat} (h : CoveredBy g T d r p0)
    (he : d.Parallel e) : underCol g T col e r = col p0 := by
  unfold underCol
  rcases he with rfl | rfl
  · have h1 : ∃ p0, CoveredBy g T d r p0 := ⟨p0, h⟩
    rw [dif_pos h1, ((choose_spec h1).unique hg h (.inl rfl)).2]
  · have h1 : ∃ p0, CoveredBy g T e.opp r p0 := ⟨p0, h⟩
    have h2 : ¬ ∃ p0, CoveredBy g T e r p0 := by
      rintro ⟨p1, hp1⟩
      exact Dir.opp_ne e (hp1.unique hg h (.inr rfl)).1.symm
    rw [dif_neg h2, dif_pos h1, ((choose_spec h1).unique hg h (.inl rfl)).2]

theorem underCol_along {col : Nat × Nat → Nat} {e : Dir} {r : Nat × Nat} (h : (T r).UgAlong e) :
    underCol g T col e r = col r := by
  unfold underCol
  rw [dif_neg (fun ⟨p, hp⟩ => hp.not_along h), dif_neg (fun ⟨p, hp⟩ => hp.not_along ((Tile.ugAlong_opp _ _).2 h))]

theorem underCol_lt (hg : g.WF) {col : Nat × Nat → Nat} {n : Nat} (hn : ∀ p, g.In p → col p < n) {e : Dir} {r : Nat × Nat}
    (hr : g.In r) : underCol g T col e r < n := by
  unfold underCol
  split
  · rename_i h; exact hn _ (choose_spec h).1
  · split
    · rename_i h; exact hn _ (choose_spec h).1
    · exact hn r hr

/-- The input flags of a layout. -/
def InpFlag (g : Grid) (T : Nat × Nat → Tile) (p : Nat × Nat) (d : Dir) : Prop :=
  (T p).Takes d ∧ ∀ q, g.nb p d.opp = some q → (T q).Emits d

/-- The output flags of a layout. -/
def OutFlag (g : Grid) (T : Nat × Nat → Tile) (p : Nat × Nat) (d : Dir) : Prop :=
  (T p).Emits d ∧ ∀ q, g.nb p d = some q → (T q).Takes d

/-- The values of the variables of a coloured layout with the direction flags `fi` and `fo`. -/
noncomputable def drawCell (g : Grid) (T : Nat × Nat → Tile) (fi fo : Nat × Nat → Dir → Bool) (col : Nat × Nat → Nat) (p : Nat × Nat) :
    CellVal where
  isBelt := decide (∃ i o, T p = .belt i o)
  isEmpty := decide (T p = .empty)
  isSplitter := decide (T p).IsSplitter
  isUgIn := decide (∃ d, T p = .underground d true)
  isUgOut := decide (∃ d, T p = .underground d false)
  isHead := decide (∃ d, T p = .splitter d true)
  isInput := decide (∃ d ∈ ioDirs g p, fi p d = true)
  isOutput := decide (∃ d ∈ ioDirs g p, fo p d.opp = true)
  inp := fi p
  out := fo p
  ug := fun d => decide (∃ p0, CoveredBy g T d p p0)
  colour := getBits (col p) g.bits
  colourUx := getBits (underCol g T col .right p) g.bits
  colourUy := getBits (underCol g T col .up p) g.bits

/-- The values of the variables of a coloured layout in which all that is connected in the game is connected. -/
noncomputable def realise (g : Grid) (T : Nat × Nat → Tile) (col : Nat × Nat → Nat) (p : Nat × Nat) : CellVal :=
  drawCell g T (fun p d => decide (InpFlag g T p d)) (fun p d => decide (OutFlag g T p d)) col p

section
variable {col : Nat × Nat → Nat} {shutB shutU : Nat × Nat → Dir → Prop} {L : Option Nat} {fi fo : Nat × Nat → Dir → Bool}

theorem inpFlag_iff (hg : g.WF) (hj : Joined g.In g.nb T) {p : Nat × Nat} (hp : g.In p) (hs : ¬ (T p).IsSplitter) (d : Dir) :
    InpFlag g T p d ↔ (T p).Takes d := by
  refine ⟨fun h => h.1, fun h => ⟨h, fun q hq => ?_⟩⟩
  have hn := Grid.nb_opp hg hp hq
  rw [Dir.opp_opp] at hn
  exact hj.inp q p d (Grid.nb_in hg hq) hn h hs

theorem outFlag_iff (hj : Joined g.In g.nb T) {p : Nat × Nat} (hp : g.In p) (hs : ¬ (T p).IsSplitter) (d : Dir) :
    OutFlag g T p d ↔ (T p).Emits d :=
  ⟨fun h => h.1, fun h => ⟨h, fun q hq => hj.out p q d hp hq h hs⟩⟩

theorem realise_lays (hg : g.WF) (hb : ∀ p, g.In p → (T p).Basic) (hj : Joined g.In g.nb T)
    (he : SplitterEnds g.In g.nb T) : Lays g (realise g T col) T := by
  intro p hp
  have fi : ¬ (T p).IsSplitter → ∀ d, (realise g T col p).inp d = true ↔ (T p).Takes d := fun hs d =>
    decide_eq_true_iff.trans (inpFlag_iff hg hj hp hs d)
  have fo : ¬ (T p).IsSplitter → ∀ d, (realise g T col p).out d = true ↔ (T p).Emits d := fun hs d =>
    decide_eq_true_iff.trans (outFlag_iff hj hp hs d)
  have fi' : ¬ (T p).IsSplitter → ∀ d, (realise g T col p).inp d = false ↔ ¬ (T p).Takes d := fun hs d => by
    rw [← fi hs, Bool.not_eq_true]
  have fo' : ¬ (T p).IsSplitter → ∀ d, (realise g T col p).out d = false ↔ ¬ (T p).Emits d := fun hs d => by
    rw [← fo hs, Bool.not_eq_true]
  have hb := hb p hp
  cases hT : T p with
  | empty =>
    have hs : ¬ (T p).IsSplitter := by rw [hT]; rintro ⟨_, _, h⟩; cases h
    refine ⟨by simp [CellVal.kinds, realise, drawCell, hT, Tile.IsSplitter], by simp [realise, drawCell, hT], fun d => ?_, fun d => ?_⟩
    · rw [fi' hs, hT]; exact fun h => h
    · rw [fo' hs, hT]; exact fun h => h
  | belt i o =>
    have hs : ¬ (T p).IsSplitter := by rw [hT]; rintro ⟨_, _, h⟩; cases h
    rw [hT] at hb
    refine ⟨by simp [CellVal.kinds, realise, drawCell, hT, Tile.IsSplitter], by simp [realise, drawCell, hT], fun d => ?_, fun d => ?_, hb⟩
    · rw [fi hs, hT]; exact eq_comm
    · rw [fo hs, hT]; exact eq_comm
  | underground d b =>
    have hs : ¬ (T p).IsSplitter := by rw [hT]; rintro ⟨_, _, h⟩; cases h
    cases b
    · refine ⟨by simp [CellVal.kinds, realise, drawCell, hT, Tile.IsSplitter], by simp [realise, drawCell, hT], fun d => ?_, fun d => ?_⟩
      · rw [fi' hs, hT]; exact fun h => h
      · rw [fo hs, hT]; exact eq_comm
    · refine ⟨by simp [CellVal.kinds, realise, drawCell, hT, Tile.IsSplitter], by simp [realise, drawCell, hT], fun d => ?_, fun d => ?_⟩
      · rw [fi hs, hT]; exact eq_comm
      · rw [fo' hs, hT]; exact fun h => h
  | splitter d b =>
    simp only [Agrees, CellVal.kinds, realise, drawCell, hT]
    refine ⟨by simp [Tile.IsSplitter], by cases b <;> simp, ?_, ?_, ?_⟩
    · intro e h
      have := (of_decide_eq_true h).1
      rw [hT] at this
      exact this.symm
    · intro e h
      have := (of_decide_eq_true h).1
      rw [hT] at this
      exact this.symm
    · rcases he.used p d b hp hT with h | h
      · right
        refine decide_eq_true ⟨?_, h⟩
        rw [hT]; exact rfl
      · left
        refine decide_eq_true ⟨?_, h⟩
        rw [hT]; exact rfl
  | _ => rw [hT] at hb; exact hb.elim

theorem realise_intersection (hg : g.WF) (hb : ∀ p, g.In p → (T p).Basic) (hj : Joined g.In g.nb T)
    (he : SplitterEnds g.In g.nb T) : IntersectionSem g (realise g T col) := by
  have hl := realise_lays (col := col) hg hb hj he
  intro d p q hp hq
  have hq' := Grid.nb_in hg hq
  constructor
  · have hn := Grid.nb_opp hg hp hq
    simp only [realise, drawCell, decide_eq_decide, OutFlag, InpFlag, hq, hn, Option.some.injEq, forall_eq']
    exact and_comm
  · intro h1 h2 h3
    have hdir := (hl p hp).splitter_dir h2 (.inl h1)
    have hns : ¬ (T q).IsSplitter := by
      intro hs
      rw [(hl q hq').isSplitter_iff.2 hs] at h3; cases h3
    have key : ∀ a b, a ≠ d → ¬ ((realise g T col q).inp a = true ∧ (realise g T col q).out b = true) := by
      rintro a b hab ⟨ha, hb'⟩
      have ht := (hl q hq').inp_takes ha
      have hm := (hl q hq').out_emits hb'
      cases hT : T q with
      | belt i o =>
        rw [hT] at ht
        have : i = a := ht
        exact hab (this ▸ he.noLeak p q d _ hp hdir hq i o hT)
      | underground e b => rw [hT] at ht hm; cases b <;> simp [Tile.Takes, Tile.Emits] at ht hm
      | splitter e b => exact hns ⟨e, b, hT⟩
      | _ => rw [hT] at ht; exact ht.elim
    have e1 : d.ccw ≠ d := by cases d <;> simp [Dir.ccw]
    have e2 : d.opp.ccw ≠ d := by cases d <;> simp [Dir.ccw, Dir.opp]
    have e3 : d.opp ≠ d := Dir.opp_ne d
    exact ⟨key _ _ e1, key _ _ e2, key _ _ e1, key _ _ e2, key _ _ e3, key _ _ e3⟩

theorem draw_underground (hg : g.WF) (hl : Lays g (drawCell g T fi fo col) T) (hu : PairedUndergrounds g.In g.nb T L) :
    UndergroundSem g (drawCell g T fi fo col) := by
  have along : ∀ d p b, T p = .underground d b → (drawCell g T fi fo col p).ug d = false ∧ (drawCell g T fi fo col p).ug d.opp = false := by
    intro d p b ht
    have ha : (T p).UgAlong d := by rw [ht]; exact .inl rfl
    exact ⟨decide_eq_false fun ⟨p0, h0⟩ => h0.not_along ha,
      decide_eq_false fun ⟨p0, h0⟩ => h0.not_along ((Tile.ugAlong_opp _ _).2 ha)⟩
  constructor
  · intro d p hp h
    exact along d p true (((hl p hp).ugIn_iff d).1 h)
  · intro d p hp h
    exact along d p false (((hl p hp).ugOut_iff d).1 h)
  · intro d p q hp hq h
    obtain ⟨r, k, hr, hpair⟩ := hu.entrance p d hp (((hl p hp).ugIn_iff d).1 h)
    exact decide_eq_true ⟨p, hp, r, k, 1, hpair, by omega, by have := hpair.1; omega, hq⟩
  · intro d p q hp hq h
    obtain ⟨r, k, hr, hpair⟩ := hu.exit p d hp (((hl p hp).ugOut_iff d).1 h)
    have hk := hpair.1
    obtain ⟨s, hs1, hs2⟩ := walk_le hpair.2.1 (show k - 1 ≤ k by omega)
    rw [show k - (k - 1) = 1 by omega] at hs2
    have hsin := walk_in hg hr hs1
    have hn := Grid.nb_opp hg hsin (d := d) hs2
    rw [hq] at hn; cases hn
    exact decide_eq_true ⟨r, hr, p, k, k - 1, hpair, by omega, by omega, hs1⟩
  · intro d p q hp hq h1 h2
    have hq' := Grid.nb_in hg hq
    obtain ⟨p0, h0, r, k, i, hpair, hi0, hik, hw⟩ := of_decide_eq_true h1
    have hw' := walk_succ_some hw hq
    rw [(hl q hq').ugOut_iff d]
    rcases Nat.eq_or_lt_of_le (Nat.succ_le_of_lt hik) with rfl | hlt
    · have : r = q := by have := hpair.2.1.symm.trans hw'; simpa using this
      subst this
      exact hpair.2.2.2.1
    · exact absurd ⟨p0, h0, r, k, i + 1, hpair, by omega, hlt, hw'⟩ (of_decide_eq_false h2)
  · intro d p q hp hq h1 h2
    have hq' := Grid.nb_in hg hq
    obtain ⟨p0, h0, r, k, i, hpair, hi0, hik, hw⟩ := of_decide_eq_true h1
    rw [(hl q hq').ugIn_iff d]
    obtain ⟨s, hs1, hs2⟩ := walk_le hw (show i - 1 ≤ i by omega)
    rw [show i - (i - 1) = 1 by omega] at hs2
    have hsin := walk_in hg h0 hs1
    have hn := Grid.nb_opp hg hsin (d := d) hs2
    rw [hq] at hn; cases hn
    rcases Nat.eq_zero_or_pos (i - 1) with hz | hpos
    · rw [hz] at hs1
      cases hs1
      exact hpair.2.2.1
    · exact absurd ⟨p0, h0, r, k, i - 1, hpair, hpos, by omega, hs1⟩ (of_decide_eq_false h2)

theorem draw_length (hg : g.WF) {l : Nat} (hu : PairedUndergrounds g.In g.nb T (some l)) :
    LengthSem g (drawCell g T fi fo col) l := by
  intro d p hp hw
  by_contra hc
  push Not at hc
  have hall : ∀ i, i ≤ l → ∀ q, walk g.nb p d i = some q → ∃ p0, CoveredBy g T d q p0 := by
    intro i hi q hq
    by_contra hn
    exact hc i hi q hq (decide_eq_false hn)
  obtain ⟨p0, h0⟩ := hall 0 (by omega) p rfl
  obtain ⟨j, q, k, i, hpair, hi, hij, hf⟩ := h0.exit
  have hlen := hu.len p0 q d k h0.1 hpair l rfl
  obtain ⟨p1, h1⟩ := hall j (by omega) q hf.2.1
  exact h1.not_along hf.2.2.1

theorem draw_blockUg (hg : g.WF) (hl : Lays g (drawCell g T fi fo col) T) {e : Edges}
    (hu : UndergroundShut g.In g.nb T (g.shut e)) : BlockUgSem g e (drawCell g T fi fo col) := by
  intro p d hp hs
  refine ⟨decide_eq_false ?_, decide_eq_false ?_, ?_, ?_⟩
  · rintro ⟨p0, h0, q, k, i, hpair, hi0, hik, hw⟩
    obtain ⟨s, hs1, _⟩ := walk_le hpair.2.1 (show i + 1 ≤ k by omega)
    exact (hu.2 p0 q d k h0 hpair i hik p s hw hs1).1 hs
  · rintro ⟨p0, h0, q, k, i, hpair, hi0, hik, hw⟩
    obtain ⟨s, hs1, _⟩ := walk_le hw (show i - 1 ≤ i by omega)
    have := (hu.2 p0 q d.opp k h0 hpair (i - 1) (by omega) s p hs1 (by rwa [show i - 1 + 1 = i by omega])).2
    rw [Dir.opp_opp] at this
    exact this hs
  · rw [(hl p hp).ugIn_iff]; exact (hu.1 p d hp hs).1
  · rw [(hl p hp).ugOut_iff]; exact (hu.1 p d hp hs).2

theorem bits_lt (hg : g.WF) {x : Nat} (hx : x < g.colours.getD 1) : x < 2 ^ g.bits := by
  have : g.colours.getD 1 - 1 < 2 ^ g.bits := Nat.lt_size_self _
  omega

theorem draw_colour (hg : g.WF) (hl : Lays g (drawCell g T fi fo col) T) (hu : PairedUndergrounds g.In g.nb T L)
    (hc : ColourRules g.In g.nb T (g.colours.getD 1) col) : ColourSem g (drawCell g T fi fo col) := by
  have v1 : ∀ p, g.In p → binVal (drawCell g T fi fo col p).colour = col p := fun p hp =>
    binVal_getBits_of_range _ _ (bits_lt hg (hc.lt p hp))
  have par : ∀ d : Dir, (d.axis = .horizontal ∧ Dir.right.Parallel d) ∨ (d.axis ≠ .horizontal ∧ Dir.up.Parallel d) := by
    intro d; cases d <;> simp [Dir.axis, Dir.value, Dir.Parallel, Dir.opp]
  have v2 : ∀ p d, g.In p → ∃ e, d.Parallel e ∧ binVal ((drawCell g T fi fo col p).colourU d) = underCol g T col e p := by
    intro p d hp
    rcases par d with ⟨h1, h2⟩ | ⟨h1, h2⟩
    · refine ⟨.right, ?_, ?_⟩
      · revert h2; cases d <;> simp [Dir.Parallel, Dir.opp]
      · rw [CellVal.colourU, if_pos h1]
        exact binVal_getBits_of_range _ _ (bits_lt hg (underCol_lt hg hc.lt hp))
    · refine ⟨.up, ?_, ?_⟩
      · revert h2; cases d <;> simp [Dir.Parallel, Dir.opp]
      · rw [CellVal.colourU, if_neg h1]
        exact binVal_getBits_of_range _ _ (bits_lt hg (underCol_lt hg hc.lt hp))
  have v3 : ∀ p d p0, CoveredBy g T d p p0 → binVal ((drawCell g T fi fo col p).colourU d) = col p0 := by
    intro p d p0 h0
    obtain ⟨e, he, h⟩ := v2 p d (h0.in hg)
    rw [h, underCol_covered hg h0 he]
  have v4 : ∀ p d, g.In p → (T p).UgAlong d → binVal ((drawCell g T fi fo col p).colourU d) = col p := by
    intro p d hp ha
    obtain ⟨e, he, h⟩ := v2 p d hp
    rw [h, underCol_along]
    rcases he with rfl | rfl
    · exact ha
    · exact (Tile.ugAlong_opp _ _).1 ha
  constructor
  · intro d p q hp hq ho hs
    rw [v1 p hp, v1 q (Grid.nb_in hg hq)]
    refine hc.surface p q d hp hq ((hl p hp).out_emits ho) ?_
    intro h
    rw [(hl p hp).isSplitter_iff.2 h] at hs; cases hs
  · intro d p q hp hq h1
    have hq' := Grid.nb_in hg hq
    obtain ⟨p0, h0, r, k, i, hpair, hi0, hik, hw⟩ := of_decide_eq_true h1
    rw [v3 p d p0 ⟨h0, r, k, i, hpair, hi0, hik, hw⟩]
    have hw' := walk_succ_some hw hq
    rcases Nat.eq_or_lt_of_le (Nat.succ_le_of_lt hik) with rfl | hlt
    · have : r = q := by have := hpair.2.1.symm.trans hw'; simpa using this
      subst this
      rw [v4 r d hq' hpair.along_right]
      exact hc.under p0 r d _ h0 hpair
    · rw [v3 q d p0 ⟨h0, r, k, i + 1, hpair, by omega, hlt, hw'⟩]
  · intro d p q hp hq hi hs ho
    have ht := (hl p hp).inp_takes hi
    have hTp : T p = .underground d true := by
      have ha := hl p hp
      cases hT : T p with
      | belt i o => rw [hT] at ha; have := (ha.2.2.2.1 o).2 rfl; rw [ho] at this; cases this
      | underground e b => rw [hT] at ht; cases b <;> simp_all [Tile.Takes]
      | splitter e b => rw [hT] at ha; rw [ha.splitter_flags.1] at hs; cases hs
      | _ => rw [hT] at ht; exact ht.elim
    obtain ⟨r, k, hr, hpair⟩ := hu.entrance p d hp hTp
    rw [v1 p hp, v3 q d p ⟨hp, r, k, 1, hpair, by omega, by have := hpair.1; omega, hq⟩]
  · intro d p q hp hq ho hs hi
    have hq' := Grid.nb_in hg hq
    have ht := (hl q hq').out_emits ho
    have hTq : T q = .underground d false := by
      have ha := hl q hq'
      cases hT : T q with
      | belt i o => rw [hT] at ha; have := (ha.2.2.1 i).2 rfl; rw [hi] at this; cases this
      | underground e b => rw [hT] at ht; cases b <;> simp_all [Tile.Emits]
      | splitter e b => rw [hT] at ha; rw [ha.splitter_flags.1] at hs; cases hs
      | _ => rw [hT] at ht; exact ht.elim
    obtain ⟨r, k, hr, hpair⟩ := hu.exit q d hq' hTq
    have hk := hpair.1
    obtain ⟨s, hs1, hs2⟩ := walk_le hpair.2.1 (show k - 1 ≤ k by omega)
    rw [show k - (k - 1) = 1 by omega] at hs2
    have hsp : s = p := by
      have hsin := walk_in hg hr hs1
      exact Grid.nb_inj hg hsin hp (d := d) hs2 hq
    subst hsp
    rw [v1 q hq', v3 s d r ⟨hr, q, k, k - 1, hpair, by omega, by omega, hs1⟩]
    exact hc.under r q d k hr hpair

theorem draw_init (hg : g.WF) (hl : Lays g (drawCell g T fi fo col) T) (hs : PairedSplitters g.In g.nb T)
    (hc : ∀ p, g.In p → col p < g.colours.getD 1) : InitSem g (drawCell g T fi fo col) := by
  refine ⟨fun p hp => ⟨T p, hl p hp⟩, ?_, ?_, ?_, (splitterSem_iff hg hl).2 hs, ?_⟩
  · rintro p hp ⟨h1, h2⟩
    obtain ⟨p0, h1⟩ := of_decide_eq_true h1
    obtain ⟨p1, h2⟩ := of_decide_eq_true h2
    have := (h1.unique hg h2 (.inr rfl)).1
    cases this
  · rintro p hp ⟨h1, h2⟩
    obtain ⟨p0, h1⟩ := of_decide_eq_true h1
    obtain ⟨p1, h2⟩ := of_decide_eq_true h2
    have := (h1.unique hg h2 (.inr rfl)).1
    cases this
  · intro p hp
    have h1 := hc p hp
    have h2 := underCol_lt (T := T) hg hc (e := .right) hp
    have h3 := underCol_lt (T := T) hg hc (e := .up) hp
    refine ⟨?_, ?_, ?_⟩
    · exact (binVal_getBits_of_range _ _ (bits_lt hg h1)).trans_lt h1
    · exact (binVal_getBits_of_range _ _ (bits_lt hg h2)).trans_lt h2
    · exact (binVal_getBits_of_range _ _ (bits_lt hg h3)).trans_lt h3
  · intro p hp
    simp [drawCell]

theorem realise_underground (hg : g.WF) (hl : Lays g (realise g T col) T) (hu : PairedUndergrounds g.In g.nb T L) :
    UndergroundSem g (realise g T col) := draw_underground hg hl hu

theorem realise_length (hg : g.WF) {l : Nat} (hu : PairedUndergrounds g.In g.nb T (some l)) :
    LengthSem g (realise g T col) l := draw_length hg hu

theorem realise_blockUg (hg : g.WF) (hl : Lays g (realise g T col) T) {e : Edges}
    (hu : UndergroundShut g.In g.nb T (g.shut e)) : BlockUgSem g e (realise g T col) := draw_blockUg hg hl hu

theorem realise_colour (hg : g.WF) (hl : Lays g (realise g T col) T) (hu : PairedUndergrounds g.In g.nb T L)
    (hc : ColourRules g.In g.nb T (g.colours.getD 1) col) : ColourSem g (realise g T col) := draw_colour hg hl hu hc

theorem realise_init (hg : g.WF) (hl : Lays g (realise g T col) T) (hs : PairedSplitters g.In g.nb T)
    (hc : ∀ p, g.In p → col p < g.colours.getD 1) : InitSem g (realise g T col) := draw_init hg hl hs hc

end

end

end FSat
