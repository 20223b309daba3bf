import Verif.Lemmas.Solver

set_option linter.unusedSimpArgs false

namespace FSat

section
variable {g : Grid} {C : Nat × Nat → CellVal} {T : Nat × Nat → Tile}

/-- The cell values describe the layout. -/
def Lays (g : Grid) (C : Nat × Nat → CellVal) (T : Nat × Nat → Tile) : Prop := ∀ p, g.In p → Agrees (C p) (T p)


theorem Agrees.basic {c : CellVal} {t : Tile} (h : Agrees c t) : t.Basic := by
  cases t with
  | belt i o => exact h.2.2.2.2
  | underground d b => trivial
  | splitter d b => trivial
  | empty => trivial
  | _ => exact h

theorem Agrees.isSplitter_false {c : CellVal} {t : Tile} (h : Agrees c t) (hs : ¬ t.IsSplitter) : c.isSplitter = false := by
  rw [← Bool.not_eq_true]; exact fun hh => hs (h.isSplitter_iff.1 hh)

/-! ### Splitters -/

theorem Agrees.splitter_flags {c : CellVal} {d : Dir} {b : Bool} (h : Agrees c (.splitter d b)) :
    c.isSplitter = true ∧ c.isHead = b ∧ (c.inp d = true ∨ c.out d = true) :=
  ⟨h.isSplitter_iff.2 ⟨d, b, rfl⟩, h.2.1, h.2.2.2.2⟩

theorem splitterSem_iff (hg : g.WF) (hT : Lays g C T) : SplitterSem g C ↔ PairedSplitters g.In g.nb T := by
  constructor
  · intro h
    constructor
    · intro p d hp hd
      obtain ⟨h1, h2, h3⟩ := (hd ▸ hT p hp).splitter_flags
      have := h d p hp
      cases hq : g.nb p d.ccw with
      | none => rw [hq] at this; have := this.1 h3 h1; simp_all
      | some q =>
        rw [hq] at this
        obtain ⟨a, b, c⟩ := this.1 h3 h2
        have hq' := Grid.nb_in hg hq
        exact ⟨q, hq', hd, hq, by rw [(hT q hq').splitter_dir a c, b]⟩
    · intro q d hq hd
      obtain ⟨h1, h2, h3⟩ := (hd ▸ hT q hq).splitter_flags
      have := h d.opp q hq
      rw [Dir.opp_opp] at this
      cases hp : g.nb q d.opp.ccw with
      | none => rw [hp] at this; have := this.2 h3 h1; simp_all
      | some p =>
        rw [hp] at this
        obtain ⟨a, c⟩ := this.2 h3 h1 h2
        have hp' := Grid.nb_in hg hp
        have hs : (C p).isSplitter = true := by
          obtain ⟨e, he⟩ := (hT p hp').isHead_iff.1 a
          exact (hT p hp').isSplitter_iff.2 ⟨e, _, he⟩
        have hn := Grid.nb_opp hg hq hp
        have e : d.opp.ccw.opp = d.ccw := by cases d <;> rfl
        rw [e] at hn
        exact ⟨p, hp', by rw [(hT p hp').splitter_dir hs c, a], hn, hd⟩
  · rintro ⟨hh, ht⟩ d p hp
    have key1 : (C p).inp d = true ∨ (C p).out d = true → (C p).isHead = true →
        ∃ q, g.In q ∧ SplitterPair g.nb T p q d := by
      intro h1 h2
      obtain ⟨e, he⟩ := (hT p hp).isHead_iff.1 h2
      have hs := (hT p hp).isSplitter_iff.2 ⟨e, _, he⟩
      have := (hT p hp).splitter_dir hs h1
      rw [h2] at this
      exact hh p d hp this
    have key2 : (C p).inp d.opp = true ∨ (C p).out d.opp = true → (C p).isSplitter = true → (C p).isHead = false →
        ∃ q, g.In q ∧ T q = .splitter d.opp true ∧ g.nb p d.ccw = some q := by
      intro h1 h2 h3
      have := (hT p hp).splitter_dir h2 h1
      rw [h3] at this
      obtain ⟨q, hq, a, b, c⟩ := ht p d.opp hp this
      have hn := Grid.nb_opp hg hq b
      have e : d.opp.ccw.opp = d.ccw := by cases d <;> rfl
      rw [e] at hn
      exact ⟨q, hq, a, hn⟩
    cases hq : g.nb p d.ccw with
    | none =>
      refine ⟨fun h1 h2 => ?_, fun h1 h2 => ?_⟩
      · cases hc : (C p).isHead with
        | false => rfl
        | true => obtain ⟨q, _, _, h, _⟩ := key1 h1 hc; rw [hq] at h; cases h
      · cases hc : (C p).isHead with
        | true => rfl
        | false => obtain ⟨q, _, _, h⟩ := key2 h1 h2 hc; rw [hq] at h; cases h
    | some q =>
      refine ⟨fun h1 h2 => ?_, fun h1 h2 h3 => ?_⟩
      · obtain ⟨q', hq', _, h, ha⟩ := key1 h1 h2
        rw [hq] at h; cases h
        obtain ⟨a, b, c⟩ := (ha ▸ hT q hq').splitter_flags
        exact ⟨a, b, c⟩
      · obtain ⟨q', hq', ha, h⟩ := key2 h1 h2 h3
        rw [hq] at h; cases h
        obtain ⟨a, b, c⟩ := (ha ▸ hT q hq').splitter_flags
        exact ⟨b, c⟩

/-! ### Surface connections -/

theorem joined_of_sem (hg : g.WF) (hT : Lays g C T) (h : IntersectionSem g C) : Joined g.In g.nb T := by
  constructor
  · intro p q d hp hq he hs
    have ho := ((hT p hp).emits_iff ((hT p hp).isSplitter_false hs) d).2 he
    rw [(h d p q hp hq).1] at ho
    exact (hT q (Grid.nb_in hg hq)).inp_takes ho
  · intro p q d hp hq ht hs
    have hq' := Grid.nb_in hg hq
    have ho := ((hT q hq').takes_iff ((hT q hq').isSplitter_false hs) d).2 ht
    rw [← (h d p q hp hq).1] at ho
    exact (hT p hp).out_emits ho

theorem ends_of_sem (hg : g.WF) (hT : Lays g C T) (h : IntersectionSem g C) : SplitterEnds g.In g.nb T := by
  constructor
  · intro p d b hp hd
    obtain ⟨h1, h2, h3 | h3⟩ := (hd ▸ hT p hp).splitter_flags
    · right
      intro q hq
      have hn := Grid.nb_opp hg hp hq
      rw [Dir.opp_opp] at hn
      have hq' := Grid.nb_in hg hq
      have := (h d q p hq' hn).1
      rw [h3] at this
      exact (hT q hq').out_emits this
    · left
      intro q hq
      have := (h d p q hp hq).1
      rw [h3] at this
      exact (hT q (Grid.nb_in hg hq)).inp_takes this.symm
  · intro p q d b hp hd hq i o hb
    have hq' := Grid.nb_in hg hq
    have ha := hb ▸ hT q hq'
    obtain ⟨h1, h2, h3⟩ := (hd ▸ hT p hp).splitter_flags
    obtain ⟨k1, k2⟩ := h d p q hp hq
    by_contra hi
    have h4 : (C q).inp d = false := by
      rw [← Bool.not_eq_true, ha.2.2.1]; exact fun h => hi h.symm
    rw [h4] at k1
    have h5 : (C p).inp d = true := by rcases h3 with h | h <;> simp_all
    have hns : (C q).isSplitter = false := ha.isSplitter_false (by rintro ⟨_, _, h⟩; cases h)
    obtain ⟨a1, a2, a3, a4, a5, a6⟩ := k2 h5 h1 hns
    simp only [ha.2.2.1, ha.2.2.2.1] at a1 a2 a3 a4 a5 a6
    have hback := Grid.nb_opp hg hp hq
    have h6 := (h d.opp q p hq' hback).1
    have ho : o ≠ d.opp := by
      rintro rfl
      rw [(ha.2.2.2.1 _).2 rfl] at h6
      have := (hd ▸ hT p hp).2.2.1 _ h6.symm
      exact Dir.opp_ne d this
    have hio := ha.2.2.2.2
    revert hi ho hio a1 a2 a3 a4 a5 a6
    clear * -
    cases d <;> cases i <;> cases o <;> simp [Dir.ccw, Dir.opp]

/-! ### Shut sides -/

theorem blockBelt_iff (hT : Lays g C T) (e : Edges) : BlockBeltSem g e C ↔ SurfaceShut g.In T (g.shut e) := by
  refine forall_congr' fun p => forall_congr' fun d => imp_congr_right fun hp => imp_congr_right fun _ => ?_
  have ha := hT p hp
  constructor
  · rintro ⟨h1, h2, h3, h4⟩
    refine ⟨fun he => ?_, fun he => ?_, fun he => ?_, fun he => ?_⟩
    · by_cases hs : (T p).IsSplitter
      · obtain ⟨e, b, hs⟩ := hs
        rw [hs] at he ha
        have : e = d := he
        subst this
        obtain ⟨_, _, hi⟩ := ha.splitter_flags
        rw [h2] at hi
        obtain ⟨d', hd'⟩ := h3 (by simpa using hi)
        have := ha.2.2.2.1 d' hd'
        subst this
        simp_all
      · rw [(ha.emits_iff (ha.isSplitter_false hs) d).2 he] at h2; cases h2
    · by_cases hs : (T p).IsSplitter
      · obtain ⟨e, b, hs⟩ := hs
        rw [hs] at he ha
        have : e = d.opp := he
        subst this
        obtain ⟨_, _, hi⟩ := ha.splitter_flags
        rw [h1] at hi
        obtain ⟨d', hd'⟩ := h4 (by simpa using hi)
        have := ha.2.2.1 d' hd'
        subst this
        simp_all
      · rw [(ha.takes_iff (ha.isSplitter_false hs) d.opp).2 he] at h1; cases h1
    · rw [he] at ha
      obtain ⟨d', hd'⟩ := h3 ((ha.2.2.1 d).2 rfl)
      rw [ha.2.2.2] at hd'; cases hd'
    · rw [he] at ha
      obtain ⟨d', hd'⟩ := h4 ((ha.2.2.2 d.opp).2 rfl)
      rw [ha.2.2.1] at hd'; cases hd'
  · rintro ⟨h1, h2, h3, h4⟩
    refine ⟨?_, ?_, fun hi => ?_, fun ho => ?_⟩
    · rw [← Bool.not_eq_true]; exact fun h => h2 (ha.inp_takes h)
    · rw [← Bool.not_eq_true]; exact fun h => h1 (ha.out_emits h)
    · have ht := ha.inp_takes hi
      revert ha h1 h3 ht
      cases T p with
      | belt i o => intro ha _ _ _; exact ⟨o, (ha.2.2.2.1 o).2 rfl⟩
      | underground e b => cases b <;> simp_all [Tile.Takes]
      | splitter e b => intro _ h1 _ ht; exact absurd ht h1
      | _ => simp [Tile.Takes]
    · have ht := ha.out_emits ho
      revert ha h2 h4 ht
      cases T p with
      | belt i o => intro ha _ _ _; exact ⟨i, (ha.2.2.1 i).2 rfl⟩
      | underground e b => cases b <;> simp_all [Tile.Emits]
      | splitter e b => intro _ h1 _ ht; exact absurd ht h1
      | _ => simp [Tile.Emits]

/-! ### Undergrounds -/

/-- The first cell after `p` in direction `e` that does not satisfy `f`. -/
theorem exists_run (hg : g.WF) {p : Nat × Nat} (hp : g.In p) (e : Dir) (f : Nat × Nat → Bool) (h0 : f p = false)
    (h1 : ∀ r, g.In r → r = p ∨ f r = true → g.nb r e ≠ none) :
    ∃ k q, 1 ≤ k ∧ walk g.nb p e k = some q ∧ f q = false ∧
      ∀ i, 0 < i → i < k → ∃ r, walk g.nb p e i = some r ∧ f r = true := by
  have hex : ∃ k, 1 ≤ k ∧ ¬ ∃ r, walk g.nb p e k = some r ∧ f r = true := by
    refine ⟨g.len e, g.len_pos hg e, ?_⟩
    rintro ⟨r, hr, hf⟩
    rw [Grid.walk_len hg hp] at hr
    split at hr
    · cases hr; rw [h0] at hf; cases hf
    · cases hr
  classical
  obtain ⟨k, ⟨hk, hn⟩, hmin⟩ : ∃ k, (1 ≤ k ∧ ¬ ∃ r, walk g.nb p e k = some r ∧ f r = true) ∧
      ∀ i, i < k → ¬ (1 ≤ i ∧ ¬ ∃ r, walk g.nb p e i = some r ∧ f r = true) :=
    ⟨Nat.find hex, Nat.find_spec hex, fun i hi => Nat.find_min hex hi⟩
  have hint : ∀ i, 0 < i → i < k → ∃ r, walk g.nb p e i = some r ∧ f r = true := by
    intro i h1 h2
    by_contra hc
    exact hmin i h2 ⟨h1, hc⟩
  have hprev : ∃ r, walk g.nb p e (k - 1) = some r ∧ (r = p ∨ f r = true) := by
    by_cases hk1 : k = 1
    · subst hk1; exact ⟨p, rfl, .inl rfl⟩
    · obtain ⟨r, a, b⟩ := hint (k - 1) (by omega) (by omega)
      exact ⟨r, a, .inr b⟩
  obtain ⟨r, hr, hor⟩ := hprev
  have hrin := walk_in hg hp hr
  cases hq : g.nb r e with
  | none => exact absurd hq (h1 r hrin hor)
  | some q =>
    have hw : walk g.nb p e k = some q := by
      have := walk_succ_some hr hq
      rwa [show k - 1 + 1 = k by omega] at this
    refine ⟨k, q, hk, hw, ?_, hint⟩
    rw [← Bool.not_eq_true]
    exact fun hf => hn ⟨q, hw, hf⟩

/-- Undergrounds cannot leave the grid: every side that does not wrap is selected. -/
def Grid.Sealed (g : Grid) (e : Edges) : Prop := ∀ d, g.wraps d = false → e.sel d = true

theorem Grid.sealed_nb (hg : g.WF) {e : Edges} (hs : g.Sealed e) {p : Nat × Nat} (hp : g.In p) {d : Dir}
    (h : g.nb p d = none) : g.shut e p d := by
  obtain ⟨h1, h2⟩ := (Grid.nb_none_iff hg hp d).1 h
  exact ⟨hs d (by simpa using h1), h2⟩

theorem Tile.ugAlong_iff (t : Tile) (d : Dir) :
    t.UgAlong d ↔ ∃ b, t = .underground d b ∨ t = .underground d.opp b := by
  cases t with
  | underground e b => cases b <;> simp [Tile.UgAlong, Dir.Parallel]
  | _ => simp [Tile.UgAlong]

theorem UndergroundSem.not_along (hT : Lays g C T) (h : UndergroundSem g C) {r : Nat × Nat} (hr : g.In r) {d : Dir}
    (hu : (C r).ug d = true) : ¬ (T r).UgAlong d := by
  rw [Tile.ugAlong_iff]
  rintro ⟨b, hb | hb⟩ <;> cases b
  · have := (h.notOut d r hr ((hT r hr).ugOut_iff d |>.2 hb)).1; simp_all
  · have := (h.notIn d r hr ((hT r hr).ugIn_iff d |>.2 hb)).1; simp_all
  · have := (h.notOut d.opp r hr ((hT r hr).ugOut_iff d.opp |>.2 hb)).2; rw [Dir.opp_opp] at this; simp_all
  · have := (h.notIn d.opp r hr ((hT r hr).ugIn_iff d.opp |>.2 hb)).2; rw [Dir.opp_opp] at this; simp_all

theorem entrance_run (hg : g.WF) (hT : Lays g C T) (h : UndergroundSem g C) {e : Edges} (hb : BlockUgSem g e C)
    (hs : g.Sealed e) {p : Nat × Nat} {d : Dir} (hp : g.In p) (ht : T p = .underground d true) :
    ∃ q k, g.In q ∧ UgPair g.nb T p q d k ∧ ∀ i, 0 < i → i < k → ∃ r, walk g.nb p d i = some r ∧ (C r).ug d = true := by
  have hpi := ((hT p hp).ugIn_iff d).2 ht
  have h0 := (h.notIn d p hp hpi).1
  obtain ⟨k, q, hk, hw, hf, hint⟩ := exists_run hg hp d (fun r => (C r).ug d) h0 (by
    rintro r hr (rfl | hu) hn
    · exact (hb r d hr (Grid.sealed_nb hg hs hr hn)).2.2.1 hpi
    · have := (hb r d hr (Grid.sealed_nb hg hs hr hn)).1; simp_all)
  have hq := walk_in hg hp hw
  have hk2 : 2 ≤ k := by
    by_contra hc
    have : k = 1 := by omega
    subst this
    have hw' : g.nb p d = some q := hw
    have := h.afterIn d p q hp hw' hpi
    rw [hf] at this; cases this
  obtain ⟨r, hr, hu⟩ := hint (k - 1) (by omega) (by omega)
  have hnb : g.nb r d = some q := by
    have : walk g.nb p d (k - 1 + 1) = some q := by rwa [show k - 1 + 1 = k by omega]
    simpa [walk, hr] using this
  have hrin := walk_in hg hp hr
  have hout := h.next d r q hrin hnb hu hf
  refine ⟨q, k, hq, ⟨hk2, hw, ht, ((hT q hq).ugOut_iff d).1 hout, ?_⟩, hint⟩
  intro i h1 h2 s hs'
  obtain ⟨s', ha, hb'⟩ := hint i h1 h2
  rw [hs'] at ha; cases ha
  exact h.not_along hT (walk_in hg hp hs') hb'

theorem exit_run (hg : g.WF) (hT : Lays g C T) (h : UndergroundSem g C) {e : Edges} (hb : BlockUgSem g e C)
    (hs : g.Sealed e) {q : Nat × Nat} {d : Dir} (hq : g.In q) (ht : T q = .underground d false) :
    ∃ p k, g.In p ∧ UgPair g.nb T p q d k := by
  have hqi := ((hT q hq).ugOut_iff d).2 ht
  have h0 := (h.notOut d q hq hqi).1
  obtain ⟨k, p, hk, hw, hf, hint⟩ := exists_run hg hq d.opp (fun r => (C r).ug d) h0 (by
    rintro r hr (rfl | hu) hn
    · have := (hb r d.opp hr (Grid.sealed_nb hg hs hr hn)).2.2.2
      rw [Dir.opp_opp] at this
      exact this hqi
    · have := (hb r d.opp hr (Grid.sealed_nb hg hs hr hn)).2.1
      rw [Dir.opp_opp] at this
      simp_all)
  have hp := walk_in hg hq hw
  have hk2 : 2 ≤ k := by
    by_contra hc
    have : k = 1 := by omega
    subst this
    have hw' : g.nb q d.opp = some p := hw
    have := h.beforeOut d q p hq hw' hqi
    rw [hf] at this; cases this
  obtain ⟨r, hr, hu⟩ := hint (k - 1) (by omega) (by omega)
  have hnb : g.nb r d.opp = some p := by
    have : walk g.nb q d.opp (k - 1 + 1) = some p := by rwa [show k - 1 + 1 = k by omega]
    simpa [walk, hr] using this
  have hrin := walk_in hg hq hr
  have hin := h.prev d r p hrin hnb hu hf
  have hback : ∀ j s, j ≤ k → walk g.nb q d.opp j = some s → walk g.nb p d (k - j) = some s := by
    intro j s hj hs'
    have hsin := walk_in hg hq hs'
    have : walk g.nb s d.opp (k - j) = some p := by
      have := walk_add g.nb q d.opp j (k - j)
      rw [show j + (k - j) = k by omega, hw, hs'] at this
      exact this.symm
    have := walk_opp hg hsin this
    rwa [Dir.opp_opp] at this
  refine ⟨p, k, hp, hk2, ?_, ((hT p hp).ugIn_iff d).1 hin, ht, ?_⟩
  · have := hback 0 q (by omega) rfl
    simpa using this
  · intro i h1 h2 s hs'
    obtain ⟨s', ha, hb'⟩ := hint (k - i) (by omega) (by omega)
    have := hback (k - i) s' (by omega) ha
    rw [show k - (k - i) = i by omega, hs'] at this
    cases this
    exact h.not_along hT (walk_in hg hp hs') hb'

end

section
variable {P : Type} {nb : P → Dir → Option P} {T : P → Tile}

theorem UgPair.along_right {p q : P} {d : Dir} {k : Nat} (h : UgPair nb T p q d k) : (T q).UgAlong d := by
  rw [h.2.2.2.1]; exact .inl rfl

theorem UgPair.along_left {p q : P} {d : Dir} {k : Nat} (h : UgPair nb T p q d k) : (T p).UgAlong d := by
  rw [h.2.2.1]; exact .inl rfl

/-- An entrance has one exit. -/
theorem UgPair.unique {p q q' : P} {d d' : Dir} {k k' : Nat} (h : UgPair nb T p q d k) (h' : UgPair nb T p q' d' k') :
    d = d' ∧ k = k' ∧ q = q' := by
  have hd : d = d' := by
    have := h.2.2.1.symm.trans h'.2.2.1
    simpa using this
  subst hd
  have hk : k = k' := by
    rcases Nat.lt_trichotomy k k' with hlt | he | hlt
    · exact absurd h.along_right (h'.2.2.2.2 k (by have := h.1; omega) hlt q h.2.1)
    · exact he
    · exact absurd h'.along_right (h.2.2.2.2 k' (by have := h'.1; omega) hlt q' h'.2.1)
  subst hk
  refine ⟨rfl, rfl, ?_⟩
  have := h.2.1.symm.trans h'.2.1
  simpa using this

end

section
variable {g : Grid} {C : Nat × Nat → CellVal} {T : Nat × Nat → Tile}

theorem pair_run (hg : g.WF) (hT : Lays g C T) (h : UndergroundSem g C) {p q : Nat × Nat} {d : Dir} {k : Nat} (hp : g.In p)
    (hpair : UgPair g.nb T p q d k) : ∀ i, 0 < i → i < k → ∃ r, walk g.nb p d i = some r ∧ (C r).ug d = true := by
  intro i
  induction i with
  | zero => intro h; omega
  | succ i ih =>
    intro _ hik
    obtain ⟨r, hr, _⟩ := walk_le hpair.2.1 (show i + 1 ≤ k by omega)
    obtain ⟨s, hs, hsr⟩ := walk_le hr (show i ≤ i + 1 by omega)
    rw [show i + 1 - i = 1 by omega] at hsr
    have hsr : g.nb s d = some r := hsr
    have hsin := walk_in hg hp hs
    have hrin := walk_in hg hp hr
    refine ⟨r, hr, ?_⟩
    rcases Nat.eq_zero_or_pos i with rfl | hpos
    · cases hs
      exact h.afterIn d p r hp hsr (((hT p hp).ugIn_iff d).2 hpair.2.2.1)
    · obtain ⟨s', hs', hu⟩ := ih hpos (by omega)
      rw [hs] at hs'; cases hs'
      cases hur : (C r).ug d with
      | true => rfl
      | false =>
        have := ((hT r hrin).ugOut_iff d).1 (h.next d s r hsin hsr hu hur)
        exact absurd (show (T r).UgAlong d by rw [this]; exact .inl rfl) (hpair.2.2.2.2 (i + 1) (by omega) hik r hr)

theorem pairs_len (hg : g.WF) (hT : Lays g C T) (h : UndergroundSem g C) {L : Nat} (hl : LengthSem g C L) {p q : Nat × Nat} {d : Dir} {k : Nat} (hp : g.In p)
    (hpair : UgPair g.nb T p q d k) : k - 1 ≤ L := by
  have hrun := pair_run hg hT h hp hpair
  by_contra hc
  obtain ⟨r, hr, _⟩ := hrun 1 (by omega) (by omega)
  have hrin := walk_in hg hp hr
  have hw : ∀ i, walk g.nb r d i = walk g.nb p d (i + 1) := by
    intro i
    have := walk_add g.nb p d 1 i
    rw [hr] at this
    rw [Nat.add_comm i 1, this]; rfl
  obtain ⟨i, hi, s, hs1, hs2⟩ := hl d r hrin (fun i hi => by
    rw [hw]
    obtain ⟨s, hs, _⟩ := hrun (i + 1) (by omega) (by omega)
    exact ⟨s, hs⟩)
  rw [hw] at hs1
  obtain ⟨s', ha, hb'⟩ := hrun (i + 1) (by omega) (by omega)
  rw [hs1] at ha; cases ha
  rw [hs2] at hb'; cases hb'

theorem underShut_of_sem (hg : g.WF) (hT : Lays g C T) (h : UndergroundSem g C) {e : Edges} (hb : BlockUgSem g e C) : UndergroundShut g.In g.nb T (g.shut e) := by
  refine ⟨fun p d hp hsh => ?_, ?_⟩
  · obtain ⟨_, _, h1, h2⟩ := hb p d hp hsh
    exact ⟨fun ht => h1 (((hT p hp).ugIn_iff d).2 ht), fun ht => h2 (((hT p hp).ugOut_iff d.opp).2 ht)⟩
  · intro p q d k hp hpair i hi r s hr hs'
    have hrun := pair_run hg hT h hp hpair
    have hrin := walk_in hg hp hr
    have hsin := walk_in hg hp hs'
    refine ⟨fun hsh => ?_, fun hsh => ?_⟩
    · rcases Nat.eq_zero_or_pos i with rfl | hpos
      · have : p = r := by simpa [walk] using hr
        subst this
        exact (hb p d hp hsh).2.2.1 (((hT p hp).ugIn_iff d).2 hpair.2.2.1)
      · obtain ⟨r', ha, hu⟩ := hrun i hpos hi
        rw [hr] at ha; cases ha
        have := (hb r d hrin hsh).1; simp_all
    · rcases Nat.eq_or_lt_of_le (Nat.succ_le_of_lt hi) with rfl | hlt
      · have := hs'.symm.trans hpair.2.1
        have : s = q := by simpa using this
        subst this
        have := (hb s d.opp hsin hsh).2.2.2
        rw [Dir.opp_opp] at this
        exact this (((hT s hsin).ugOut_iff d).2 hpair.2.2.2.1)
      · obtain ⟨r', ha, hu⟩ := hrun (i + 1) (by omega) hlt
        rw [hs'] at ha; cases ha
        have := (hb s d.opp hsin hsh).2.1
        rw [Dir.opp_opp] at this; simp_all

/-! ### Colours -/

theorem colourRules_of_sem (hg : g.WF) (hT : Lays g C T) (h : UndergroundSem g C) (hc : ColourSem g C) {n : Nat} (hn : ∀ p, g.In p → binVal (C p).colour < n) :
    ColourRules g.In g.nb T n fun p => binVal (C p).colour := by
  refine ⟨hn, ?_, ?_⟩
  · intro p q d hp hq he hns
    have hf := (hT p hp).isSplitter_false hns
    exact hc.surface d p q hp hq (((hT p hp).emits_iff hf d).2 he) hf
  · intro p q d k hp hpair
    have hrun := pair_run hg hT h hp hpair
    have hk := hpair.1
    have ha := hpair.2.2.1 ▸ hT p hp
    have hpf := ha.isSplitter_false (by rintro ⟨_, _, h⟩; cases h)
    have hall : ∀ i, i + 1 < k → ∀ r, walk g.nb p d (i + 1) = some r → binVal (C p).colour = binVal ((C r).colourU d) := by
      intro i
      induction i with
      | zero =>
        intro _ r hr
        exact hc.entrance d p r hp hr ((ha.2.2.1 d).2 rfl) hpf ha.2.2.2
      | succ i ih =>
        intro hi r hr
        obtain ⟨s, hs1, hs2⟩ := hrun (i + 1) (by omega) (by omega)
        rw [ih (by omega) s hs1]
        have : g.nb s d = some r := by
          have : walk g.nb p d (i + 1 + 1) = some r := hr
          rw [walk, hs1] at this
          simpa using this
        exact hc.under d s r (walk_in hg hp hs1) this hs2
    obtain ⟨s, hs1, hs2⟩ := hrun (k - 1) (by omega) (by omega)
    have hsq : g.nb s d = some q := by
      have : walk g.nb p d (k - 1 + 1) = some q := by rw [show k - 1 + 1 = k by omega]; exact hpair.2.1
      rw [walk, hs1] at this
      simpa using this
    have hq := Grid.nb_in hg hsq
    have haq := hpair.2.2.2.1 ▸ hT q hq
    have h1 := hall (k - 2) (by omega) s (by rwa [show k - 2 + 1 = k - 1 by omega])
    rw [h1]
    exact hc.exit d s q (walk_in hg hp hs1) hsq ((haq.2.2.2 d).2 rfl)
      (haq.isSplitter_false (by rintro ⟨_, _, h⟩; cases h)) haq.2.2.1

end

end FSat
