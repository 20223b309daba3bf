import Verif.Lemmas.MakeBlockLoop
/-!
The blocks of one loop, and the completeness of the clauses for blocks.
-/

set_option linter.unusedSimpArgs false

namespace FSat

open Classical

section
variable {g : Grid} {T : Nat × Nat → Tile} {o : BlockOptions} {l : Nat}

theorem Grid.cells_length (g : Grid) : g.cells.length = g.width * g.height := by
  simp [Grid.cells, List.length_flatMap, Nat.mul_comm]

/-- The clauses for one loop give one loop. -/
theorem block_loop (hg : g.WF) (he : g.edge = ⟨o.tile, o.tile⟩) {v : Asg} (hT : Lays g (g.vals v) T) (h : BlockSem o g (g.vals v)) {ae : Bool}
    {L : Nat} (hr : BlockRules g.width g.height g.In g.nb T (g.shut (.ofBool !o.tile)) ae L) (hae : ae = false) (hs : o.singleLoop = true) :
    SingleLoop g.In (Follows g.nb T) (0, 0) (g.width * g.height) := by
  have hl := h.loop hs
  rw [← Grid.cells_length]
  refine SingleLoop.of_numbers g.cells g.cells_nodup g.mem_cells ⟨hg.w, hg.h⟩ (fun p hp => follows_next hg (blockSealed he) hr hae hp)
    (fun p p' q hp hp' => follows_prev hg hr hp hp') (c := fun p => binVal (g.vals v p).colour) (m := 2 ^ g.bits) (fun p hp => ?_) (fun p hp h0 => ?_)
    (fun p q hp hf hq => ?_)
  · have := binVal_lt (g.vals v p).colour
    rwa [show (g.vals v p).colour.length = g.bits by simp [Grid.vals, evalTile, hg.c]] at this
  · by_contra hne
    exact hl.other p hp hne h0
  · rcases loop_step hg hT h.under hl h.noSplit hp hf with h1 | ⟨d, hc, hd⟩
    · exact h1
    · exact absurd (directEntry_nb hg hd hc.1) hq

/-- The loop comes to the first cell without crossing the edge, or the number of cells is a power of two. -/
def LoopEntry (g : Grid) (T : Nat × Nat → Tile) : Prop :=
  (∃ k, g.width * g.height = 2 ^ k) ∨ ∃ p d, g.In p ∧ Connected g.nb T p (0, 0) d ∧ DirectEntry p d

theorem size_le (hg : g.WF) (hN : g.colours = some (g.width * g.height)) : 0 < g.width * g.height ∧ g.width * g.height ≤ 2 ^ g.bits := by
  have h1 : 0 < g.width * g.height := Nat.mul_pos hg.w hg.h
  have : g.colours.getD 1 - 1 < 2 ^ g.bits := Nat.lt_size_self _
  rw [hN, Option.getD_some] at this
  omega

theorem size_pow (hg : g.WF) (hN : g.colours = some (g.width * g.height)) : (∃ k, g.width * g.height = 2 ^ k) ↔ g.width * g.height = 2 ^ g.bits := by
  refine ⟨fun ⟨k, hk⟩ => ?_, fun h => ⟨_, h⟩⟩
  obtain ⟨h1, h2⟩ := size_le hg hN
  have h3 : g.bits ≤ k := by
    unfold Grid.bits
    rw [hN, Option.getD_some, Nat.size_le]
    omega
  have h4 : 2 ^ g.bits ≤ 2 ^ k := Nat.pow_le_pow_right (by omega) h3
  omega

theorem SingleLoop.numbers {P : Type} {In : P → Prop} {step : P → P → Prop} {start : P} {n : Nat} (hn : 0 < n)
    (h : SingleLoop In step start n) : ∃ c : P → Nat, (∀ p, In p → c p < n) ∧ c start = 0 ∧ (∀ p, In p → c p = 0 → p = start) ∧
      ∀ p q, In p → step p q → c q = (c p + 1) % n := by
  obtain ⟨f, h0, h1, h2, h3, h4⟩ := h.tour
  have hc : ∀ p, ∃ i, In p → i < n ∧ f i = p ∧ ∀ j, j < n → f j = p → j = i := by
    intro p
    by_cases hp : In p
    · obtain ⟨i, hi⟩ := h4 p hp
      exact ⟨i, fun _ => hi⟩
    · exact ⟨0, fun h => absurd h hp⟩
  choose c hc using hc
  have hst : In start := h0 ▸ h3 0
  have hc0 : c start = 0 := ((hc start hst).2.2 0 hn h0).symm
  refine ⟨c, fun p hp => (hc p hp).1, hc0, fun p hp he => ?_, fun p q hp hs => ?_⟩
  · have := (hc p hp).2.1
    rw [he, h0] at this
    exact this.symm
  · obtain ⟨q', hq', _, hu⟩ := h.next p hp
    have e1 : f (c p + 1) = q := by
      have a := hu _ hs
      have b := h2 (c p)
      rw [(hc p hp).2.1] at b
      rw [hu _ b, a]
    have hqin : In q := e1 ▸ h3 _
    by_cases hlt : c p + 1 < n
    · rw [Nat.mod_eq_of_lt hlt]
      exact ((hc q hqin).2.2 _ hlt e1).symm
    · have heq : c p + 1 = n := by have := (hc p hp).1; omega
      rw [heq, Nat.mod_self]
      rw [heq, h1] at e1
      rw [← e1]; exact hc0

theorem block_entry (hg : g.WF) (hN : g.colours = some (g.width * g.height)) {v : Asg} (hT : Lays g (g.vals v) T) (h : BlockSem o g (g.vals v))
    (hs : o.singleLoop = true) (hloop : SingleLoop g.In (Follows g.nb T) (0, 0) (g.width * g.height)) : LoopEntry g T := by
  have hl := h.loop hs
  obtain ⟨hpos, hle⟩ := size_le hg hN
  obtain ⟨f, h0, h1, h2, h3, h4⟩ := hloop.tour
  have hne : ∀ i, 0 < i → i < g.width * g.height → f i ≠ (0, 0) := by
    intro i hi hi' he
    obtain ⟨j, _, _, hj⟩ := h4 (0, 0) ⟨hg.w, hg.h⟩
    have a := hj 0 hpos h0
    have b := hj i hi' he
    omega
  have hnum : ∀ i, i < g.width * g.height → binVal (g.vals v (f i)).colour = i := by
    intro i
    induction i with
    | zero => intro _; rw [h0]; exact hl.start
    | succ i ih =>
      intro hi
      rcases loop_step hg hT h.under hl h.noSplit (h3 i) (h2 i) with e | ⟨d, hc, hd⟩
      · rw [e, ih (by omega), Nat.mod_eq_of_lt (by omega)]
      · exact absurd (directEntry_nb hg hd hc.1) (hne _ (by omega) hi)
  have hlast := h2 (g.width * g.height - 1)
  rw [show g.width * g.height - 1 + 1 = g.width * g.height by omega, h1] at hlast
  rcases loop_step hg hT h.under hl h.noSplit (h3 _) hlast with e | ⟨d, hc, hd⟩
  · left
    rw [hl.start, hnum _ (by omega), show g.width * g.height - 1 + 1 = g.width * g.height by omega] at e
    refine (size_pow hg hN).2 ?_
    by_contra hne'
    rw [Nat.mod_eq_of_lt (by omega)] at e
    omega
  · exact .inr ⟨_, d, h3 _, hc, hd⟩

/-! ### Completeness -/

/-- The values of a layout whose cells are numbered: below the ground is the number of the exit. -/
noncomputable def realiseLoop (g : Grid) (T : Nat × Nat → Tile) (col col' : Nat × Nat → Nat) (p : Nat × Nat) : CellVal :=
  { realise g T col p with
    colourUx := getBits (underCol g T col' .right p) g.bits
    colourUy := getBits (underCol g T col' .up p) g.bits }

/-- The direction that stands for the axis. -/
def Dir.main (d : Dir) : Dir := if d.axis = .horizontal then .right else .up

theorem Dir.main_parallel (d : Dir) : d.Parallel d.main := by cases d <;> decide

theorem realiseLoop_under (hg : g.WF) {col col' : Nat × Nat → Nat} (hc : ∀ p, g.In p → col' p < g.colours.getD 1) {p : Nat × Nat} (hp : g.In p)
    (d : Dir) : binVal ((realiseLoop g T col col' p).colourU d) = underCol g T col' d.main p := by
  unfold CellVal.colourU Dir.main
  split <;> exact binVal_getBits_of_range _ _ (bits_lt hg (underCol_lt hg hc hp))

theorem realiseLoop_covered (hg : g.WF) {col col' : Nat × Nat → Nat} (hc : ∀ p, g.In p → col' p < g.colours.getD 1) {p p0 : Nat × Nat}
    {d : Dir} (h : CoveredBy g T d p p0) : binVal ((realiseLoop g T col col' p).colourU d) = col' p0 := by
  rw [realiseLoop_under hg hc (h.in hg), underCol_covered hg h d.main_parallel]

theorem realiseLoop_init (hg : g.WF) {col col' : Nat × Nat → Nat} (hl : Lays g (realise g T col) T) (hs : PairedSplitters g.In g.nb T)
    (hc : ∀ p, g.In p → col p < g.colours.getD 1) (hc' : ∀ p, g.In p → col' p < g.colours.getD 1) :
    InitSem g (realiseLoop g T col col') := by
  have h := realise_init hg hl hs hc
  refine ⟨h.cell, h.axisX, h.axisY, fun p hp => ⟨(h.range p hp).1, ?_, ?_⟩, h.splitter, h.io⟩
  · show binVal (getBits _ _) < _
    rw [binVal_getBits_of_range _ _ (bits_lt hg (underCol_lt hg hc' hp))]
    exact underCol_lt hg hc' hp
  · show binVal (getBits _ _) < _
    rw [binVal_getBits_of_range _ _ (bits_lt hg (underCol_lt hg hc' hp))]
    exact underCol_lt hg hc' hp

/-- A numbered loop satisfies the clauses for loops. -/
theorem realiseLoop_loop (hg : g.WF) (hN : g.colours = some (g.width * g.height)) {e : Edges} {ae : Bool} {L : Nat}
    (hr : BlockRules g.width g.height g.In g.nb T (g.shut e) ae L) (hent : LoopEntry g T) {col : Nat × Nat → Nat}
    (hlt : ∀ p, g.In p → col p < g.width * g.height) (h0 : col (0, 0) = 0) (hz : ∀ p, g.In p → col p = 0 → p = (0, 0))
    (hst : ∀ p q, g.In p → Follows g.nb T p q → col q = (col p + 1) % (g.width * g.height)) :
    LoopSem g (realiseLoop g T col fun p => (col p + 1) % (g.width * g.height)) := by
  obtain ⟨hpos, hle⟩ := size_le hg hN
  have hlays := realise_lays (col := col) hg hr.basic.basic hr.basic.joined hr.basic.ends
  have hc : ∀ p, g.In p → col p < g.colours.getD 1 := by rw [hN]; exact hlt
  have hc' : ∀ p, g.In p → (col p + 1) % (g.width * g.height) < g.colours.getD 1 := by
    rw [hN]; exact fun p _ => Nat.mod_lt _ hpos
  have v1 : ∀ p, g.In p → binVal (realiseLoop g T col (fun p => (col p + 1) % (g.width * g.height)) p).colour = col p := fun p hp =>
    binVal_getBits_of_range _ _ (bits_lt hg (hc p hp))
  have hns : ∀ p, g.In p → (realise g T col p).isSplitter = false := fun p hp => (hlays p hp).isSplitter_false (hr.noSplitter p hp)
  have hmod : ∀ p, g.In p → (∀ q, Follows g.nb T p q → q = (0, 0) → ∃ k, g.width * g.height = 2 ^ k) → (∃ q, g.In q ∧ Follows g.nb T p q) →
      (col p + 1) % (g.width * g.height) = (col p + 1) % 2 ^ g.bits := by
    rintro p hp hq ⟨q, hqin, hf⟩
    have hlt' := hlt p hp
    by_cases hlast : col p + 1 = g.width * g.height
    · have hq0 : q = (0, 0) := by
        refine hz q hqin ?_
        rw [hst p q hp hf, hlast, Nat.mod_self]
      rw [← (size_pow hg hN).1 (hq q hf hq0)]
    · rw [Nat.mod_eq_of_lt (by omega), Nat.mod_eq_of_lt (by omega)]
  refine ⟨?_, fun p hp hne he => ?_, fun p q d hp hq => ⟨fun hd ho => ?_, fun hd ho => ?_, fun hi ho => ?_, fun hi ho => ?_, fun hu hu' => ?_⟩⟩
  · rw [v1 _ ⟨hg.w, hg.h⟩, h0]
  · rw [v1 p hp] at he
    exact hne (hz p hp he)
  · have hem := ((hlays p hp).emits_iff (hns p hp) d).1 ho
    have hf : Follows g.nb T p q := .inl ⟨d, hq, hem, hr.basic.joined.out p q d hp hq hem (hr.noSplitter p hp)⟩
    have hq0 := directEntry_nb hg hd hq
    have := hst p q hp hf
    rw [hq0, h0] at this
    rw [v1 p hp, hN, Option.getD_some]
    have hlt' := hlt p hp
    by_contra hne
    rw [Nat.mod_eq_of_lt (by omega)] at this
    omega
  · have hem := ((hlays p hp).emits_iff (hns p hp) d).1 ho
    have hf : Follows g.nb T p q := .inl ⟨d, hq, hem, hr.basic.joined.out p q d hp hq hem (hr.noSplitter p hp)⟩
    have hqin := Grid.nb_in hg hq
    rw [v1 p hp, v1 q hqin, hst p q hp hf]
    refine hmod p hp (fun q' hf' hq0 => ?_) ⟨q, hqin, hf⟩
    rcases hent with hk | ⟨p', d', hp', hcon, hd'⟩
    · exact hk
    · subst hq0
      have hpp := follows_prev hg hr hp hp' hf' (.inl ⟨d', hcon⟩)
      subst hpp
      exfalso
      have hdd : d' = d := by
        have h1 := hcon.2.1
        cases ht : T p with
        | belt i o => rw [ht] at h1 hem; exact h1.symm.trans hem
        | underground e b =>
          rw [ht] at h1 hem
          cases b with
          | true => exact h1.elim
          | false => exact h1.symm.trans hem
        | splitter e b => exact absurd ⟨e, b, ht⟩ (hr.noSplitter p hp)
        | _ => rw [ht] at h1; exact h1.elim
      subst hdd
      exact hd hd'
  · have ht : T p = .underground d true := by
      have h1 := (hlays p hp).inp_takes hi
      have h2 : ∀ e, ¬ (T p).Emits e := fun e he => by
        have := ((hlays p hp).emits_iff (hns p hp) e).2 he
        have h3 : (realise g T col p).out e = false := ho e
        rw [h3] at this; cases this
      cases ht : T p with
      | belt i o => exact absurd (by rw [ht]; rfl) (h2 o)
      | underground e b =>
        cases b with
        | true => rw [ht] at h1; rw [show e = d from h1]
        | false => exact absurd (by rw [ht]; rfl) (h2 e)
      | splitter e b => exact absurd ⟨e, b, ht⟩ (hr.noSplitter p hp)
      | _ => rw [ht] at h1; exact h1.elim
    obtain ⟨r, k, hrin, hpair⟩ := hr.basic.undergrounds.entrance p d hp ht
    have hcov : CoveredBy g T d q p := ⟨hp, r, k, 1, hpair, by omega, by have := hpair.1; omega, hq⟩
    rw [realiseLoop_covered hg hc' hcov, v1 p hp]
    refine hmod p hp (fun q' hf' hq0 => ?_) ⟨r, hrin, .inr ⟨d, k, hpair⟩⟩
    rcases hent with hk | ⟨p', d', hp', hcon, hd'⟩
    · exact hk
    · subst hq0
      have hpp := follows_prev hg hr hp hp' hf' (.inl ⟨d', hcon⟩)
      subst hpp
      have h1 := hcon.2.1
      rw [ht] at h1
      exact h1.elim
  · have hqin := Grid.nb_in hg hq
    have ht : T q = .underground d false := by
      have h1 := (hlays q hqin).out_emits ho
      have h2 : ∀ e, ¬ (T q).Takes e := fun e he => by
        have := ((hlays q hqin).takes_iff (hns q hqin) e).2 he
        have h3 : (realise g T col q).inp e = false := hi e
        rw [h3] at this; cases this
      cases ht : T q with
      | belt i o => exact absurd (by rw [ht]; rfl) (h2 i)
      | underground e b =>
        cases b with
        | false => rw [ht] at h1; rw [show e = d from h1]
        | true => exact absurd (by rw [ht]; rfl) (h2 e)
      | splitter e b => exact absurd ⟨e, b, ht⟩ (hr.noSplitter q hqin)
      | _ => rw [ht] at h1; exact h1.elim
    obtain ⟨p0, k, hp0, hpair⟩ := hr.basic.undergrounds.exit q d hqin ht
    have hk := hpair.1
    obtain ⟨s, hs1, hs2⟩ := walk_le hpair.2.1 (show k - 1 ≤ k by omega)
    have hsq : g.nb s d = some q := by
      rw [show k - (k - 1) = 1 by omega] at hs2
      exact hs2
    have hsp : s = p := Grid.nb_inj hg (walk_in hg hp0 hs1) hp hsq hq
    subst hsp
    have hcov : CoveredBy g T d s p0 := ⟨hp0, q, k, k - 1, hpair, by omega, by omega, hs1⟩
    rw [realiseLoop_covered hg hc' hcov, v1 q hqin, hst p0 q hp0 (.inr ⟨d, k, hpair⟩)]
  · obtain ⟨p0, hcov⟩ := of_decide_eq_true hu
    obtain ⟨p1, hcov1⟩ := of_decide_eq_true hu'
    have : CoveredBy g T d q p0 := by
      obtain ⟨hp0, r, k, i, hpair, hi0, hik, hw⟩ := hcov
      have hw' : walk g.nb p0 d (i + 1) = some q := by rw [walk, hw]; exact hq
      refine ⟨hp0, r, k, i + 1, hpair, by omega, ?_, hw'⟩
      by_contra hge
      have : i + 1 = k := by omega
      rw [this, hpair.2.1] at hw'
      cases hw'
      exact hcov1.not_along hpair.along_right
    rw [realiseLoop_covered hg hc' hcov, realiseLoop_covered hg hc' this]

/-- The values of a layout that obeys the rules for blocks satisfy the clauses. -/
theorem realiseLoop_sem (hg : g.WF) (hl : g.ugLen = some l) {col col' : Nat × Nat → Nat}
    (hr : BlockRules g.width g.height g.In g.nb T (g.shut (.ofBool !o.tile)) o.allowEmpty (blockLimit o l))
    (hc : ∀ p, g.In p → col p < g.colours.getD 1) (hc' : ∀ p, g.In p → col' p < g.colours.getD 1)
    (hloop : o.singleLoop = true → LoopSem g (realiseLoop g T col col')) : BlockSem o g (realiseLoop g T col col') := by
  have hlays := realise_lays (col := col) hg hr.basic.basic hr.basic.joined hr.basic.ends
  have hlim : blockLimit o l ≤ l := by unfold blockLimit; split <;> omega
  have hlimit : PairedUndergrounds g.In g.nb T (some l) := ⟨hr.basic.undergrounds.entrance, hr.basic.undergrounds.exit,
    fun p q d k hp hpair l' hl' => by
      cases hl'
      exact Nat.le_trans (hr.basic.undergrounds.len p q d k hp hpair _ rfl) hlim⟩
  have hun := realise_underground hg hlays hr.basic.undergrounds
  refine ⟨realiseLoop_init hg hlays hr.basic.splitters hc hc', realise_intersection (col := col) hg hr.basic.basic hr.basic.joined hr.basic.ends,
    ⟨hun.notIn, hun.notOut, hun.afterIn, hun.beforeOut, hun.next, hun.prev⟩, (blockBelt_iff hlays _).2 hr.basic.surface, realise_blockUg hg hlays hr.basic.under, ?_, hloop,
    fun ha p hp => ?_, fun hz p d hp => ?_, fun p hp => (hlays p hp).isSplitter_false (hr.noSplitter p hp)⟩
  · intro _
    rw [hl]
    exact realise_length (col := col) hg hlimit
  · by_contra hn
    push Not at hn
    refine hr.noEmpty ha p hp ((hlays p hp).empty_iff.2 ⟨fun d => ?_, fun d => ?_⟩)
    · exact Bool.eq_false_iff.2 (hn d).1
    · exact Bool.eq_false_iff.2 (hn d).2
  · refine decide_eq_false ?_
    rintro ⟨p0, hp0, q, k, i, hpair, _⟩
    have := hr.basic.undergrounds.len p0 q d k hp0 hpair _ rfl
    unfold blockLimit at this
    rw [if_pos hz] at this
    have := hpair.1
    omega

end

end FSat
