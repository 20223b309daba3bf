import Verif.Lemmas.MakeBlock
import Verif.Lemmas.Complete
import Verif.Lemmas.FillSpan
import Verif.Lemmas.Free
/-!
The layouts of the blocks of belts.
-/

set_option linter.unusedSimpArgs false

namespace FSat

open Classical

/-! ### The clauses -/

/-- What the clauses say, without those that forbid patterns. -/
structure BlockSem (o : BlockOptions) (g : Grid) (C : Nat × Nat → CellVal) : Prop where
  init : InitSem g C
  inter : IntersectionSem g C
  under : UndergroundSem g C
  belt : BlockBeltSem g (.ofBool !o.tile) C
  ug : BlockUgSem g (.ofBool !o.tile) C
  len : 0 < g.ugLen.getD 0 → LengthSem g C (g.ugLen.getD 0)
  loop : o.singleLoop = true → LoopSem g C
  noEmpty : o.allowEmpty = false → ∀ p, g.In p → ∃ d, (C p).inp d = true ∨ (C p).out d = true
  noUg : o.ugLen = 0 → ∀ p d, g.In p → (C p).ug d = false
  noSplit : ∀ p, g.In p → (C p).isSplitter = false

theorem shut_false (g : Grid) (p : Nat × Nat) (d : Dir) : ¬ g.shut (.ofBool false) p d := by
  rintro ⟨h, _⟩
  cases d <;> cases h

theorem SatC_allDir (v : Asg) (t : TileInst) : SatC v t.allDir ↔ ∃ d, ev v (t.inp d) = true ∨ ev v (t.out d) = true := by
  rw [SatC_iff_not, ev_allDir]
  simp only [← Bool.not_eq_true]
  push Not
  constructor
  · intro h
    by_contra hn
    push Not at hn
    obtain ⟨d, hd⟩ := h fun d => (hn d).1
    exact (hn d).2 hd
  · rintro ⟨d, h⟩ h1
    rcases h with h | h
    · exact absurd h (h1 d)
    · exact ⟨d, h⟩

theorem Sat_blockTile (v : Asg) (o : BlockOptions) (t : TileInst) : Sat v (blockTile o t) ↔
    (o.allowEmpty = false → ∃ d, ev v (t.inp d) = true ∨ ev v (t.out d) = true) ∧ (o.ugLen = 0 → ∀ d, ev v (t.ug d) = false) ∧
      ev v t.isSplitter = false := by
  unfold blockTile
  rw [Sat_append, Sat_append]
  have h1 : Sat v (if o.allowEmpty then [] else [t.allDir]) ↔
      (o.allowEmpty = false → ∃ d, ev v (t.inp d) = true ∨ ev v (t.out d) = true) := by
    cases o.allowEmpty with
    | true => simp
    | false => simp only [Bool.false_eq_true, if_false, Sat_cons, Sat_nil, and_true, true_implies, SatC_allDir]
  have h2 : Sat v (if o.ugLen = 0 then setAllFalse (dirs t.ug) else []) ↔ (o.ugLen = 0 → ∀ d, ev v (t.ug d) = false) := by
    split
    · rename_i h
      rw [Sat_setAllFalse, forall_dirs]
      simp [h]
    · rename_i h
      simp [h]
  rw [h1, h2]
  simp only [Sat_cons, Sat_nil, SatC_cons, SatC_nil, or_false, and_true, ev_neg, Bool.not_eq_true', and_assoc]

theorem block_means {g : Grid} (hg : g.WF) {o : BlockOptions} (hnp : o.noParallel = false) {l : Nat} (hl : g.ugLen = some l)
    (hb : o.singleLoop = true → ∀ p d q, g.In p → g.nb p d = some q → 0 < g.bits) :
    Means (blockClauses o g) fun v => BlockSem o g (g.vals v) ∧ Sat v (preventSmallLoops g) ∧
      (0 < l → Sat v (preventEmptyAlongUnderground g)) := by
  have m1 : Means (initClauses g) fun v => InitSem g (g.vals v) := init_iff hg
  have m2 : Means (.ok (preventIntersection g)) fun v => IntersectionSem g (g.vals v) := .ok (Sat_intersection g)
  have m3 : Means (.ok (preventBadUndergrounding g)) fun v => UndergroundSem g (g.vals v) := .ok (Sat_underground g)
  have m4 : Means (.ok (if o.tile then [] else blockBelts g (.ofBool true) ++ blockUnderground g (.ofBool true))) fun v =>
      BlockBeltSem g (.ofBool !o.tile) (g.vals v) ∧ BlockUgSem g (.ofBool !o.tile) (g.vals v) := by
    refine .ok fun v => ?_
    cases o.tile with
    | true =>
      simp only [if_true, Sat_nil, true_iff, Bool.not_true]
      exact ⟨fun p d _ h => absurd h (shut_false g p d), fun p d _ h => absurd h (shut_false g p d)⟩
    | false => simp only [Bool.false_eq_true, if_false, Sat_append, Sat_blockBelt hg, Sat_blockUg hg, Bool.not_false]
  have m5 : Means (.ok (preventSmallLoops g)) fun v => Sat v (preventSmallLoops g) := .ok fun v => Iff.rfl
  have m6 : Means (if g.ugLen.getD 0 > 0 then joinE [enforceMaximumUndergroundLength g, .ok (preventEmptyAlongUnderground g)] else .ok [])
      fun v => (0 < l → LengthSem g (g.vals v) l) ∧ (0 < l → Sat v (preventEmptyAlongUnderground g)) := by
    rw [hl, Option.getD_some]
    split
    · rename_i h
      have : Means (enforceMaximumUndergroundLength g) fun v => LengthSem g (g.vals v) l := length_iff hg l hl h
      refine (this.cons ((Means.ok (P := fun v => Sat v (preventEmptyAlongUnderground g)) fun v => Iff.rfl).cons Means.nil)).congr fun v => ?_
      simp only [gt_iff_lt] at h
      simp [h]
    · rename_i h
      refine .ok fun v => ?_
      simp only [gt_iff_lt] at h
      simp [h]
  have m7 : Means (if o.noParallel then preventParallel g else .ok []) fun _ => True := by
    rw [hnp]
    exact .ok fun v => by simp
  have m8 : Means (if o.singleLoop then ensureLoopLength g else .ok []) fun v => o.singleLoop = true → LoopSem g (g.vals v) := by
    cases hs : o.singleLoop with
    | true => exact (loop_means hg (hb hs)).congr fun v => by simp
    | false => exact .ok fun v => by simp
  have m9 : Means (.ok (g.cells.flatMap fun p => blockTile o (g.at' p))) fun v =>
      ∀ p, g.In p → (o.allowEmpty = false → ∃ d, (g.vals v p).inp d = true ∨ (g.vals v p).out d = true) ∧
        (o.ugLen = 0 → ∀ d, (g.vals v p).ug d = false) ∧ (g.vals v p).isSplitter = false := by
    refine .ok fun v => ?_
    simp only [Sat_flatMap, forall_cells, Sat_blockTile]
    rfl
  unfold blockClauses
  refine (m1.cons (m2.cons (m3.cons (m4.cons (m5.cons (m6.cons (m7.cons (m8.cons (m9.cons Means.nil))))))))).congr fun v => ?_
  constructor
  · rintro ⟨h1, h2, h3, ⟨h4, h5⟩, h6, ⟨h7, h8⟩, _, h9, h10, _⟩
    refine ⟨⟨h1, h2, h3, h4, h5, ?_, h9, fun h p hp => (h10 p hp).1 h, fun h p d hp => (h10 p hp).2.1 h d, fun p hp => (h10 p hp).2.2⟩, h6, h8⟩
    rw [hl]; exact h7
  · rintro ⟨⟨h1, h2, h3, h4, h5, h6, h7, h8, h9, h10⟩, h11, h12⟩
    rw [hl] at h6
    exact ⟨h1, h2, h3, ⟨h4, h5⟩, h11, ⟨h6, h12⟩, trivial, h7, fun p hp => ⟨fun h => h8 h p hp, fun h d => h9 h p d hp, h10 p hp⟩, trivial⟩

/-! ### The layouts -/

section
variable {g : Grid} {T : Nat × Nat → Tile} {o : BlockOptions} {l : Nat}

/-- The limit on the cells between the ends of an underground belt that the clauses enforce. -/
def blockLimit (o : BlockOptions) (l : Nat) : Nat := if o.ugLen = 0 then 0 else l

theorem blockSealed (he : g.edge = ⟨o.tile, o.tile⟩) : g.Sealed (.ofBool !o.tile) := by
  intro d hd
  unfold Grid.wraps at hd
  rw [he] at hd
  have : o.tile = false := by revert hd; split <;> exact id
  rw [this]
  cases d <;> rfl

theorem block_rules (hg : g.WF) (he : g.edge = ⟨o.tile, o.tile⟩) (hl : g.ugLen = some l) (h0 : o.ugLen = 0 ∨ 0 < l) {v : Asg}
    (hT : Lays g (g.vals v) T) (h : BlockSem o g (g.vals v)) (hsl : Sat v (preventSmallLoops g))
    (hsp : 0 < l → Sat v (preventEmptyAlongUnderground g)) :
    BlockRules g.width g.height g.In g.nb T (g.shut (.ofBool !o.tile)) o.allowEmpty (blockLimit o l) := by
  have hlen : ∀ l', g.ugLen = some l' → LengthSem g (g.vals v) l' := by
    intro l' hl'
    rw [hl] at hl'; cases hl'
    by_cases hz : 0 < l
    · have := h.len (by rw [hl]; exact hz)
      rwa [hl] at this
    · have hu := h.noUg (h0.resolve_right hz)
      intro d p hp _
      exact ⟨0, by omega, p, rfl, hu p d hp⟩
  have hb := layout_of_sem hg hT h.init h.inter h.under h.belt h.ug hlen (blockSealed he)
  have hbase : Base g v T := ⟨hg, hT, h.inter, h.under, h.init.splitter⟩
  have hno : o.ugLen = 0 → ∀ p q d k, g.In p → ¬ UgPair g.nb T p q d k := by
    intro hz p q d k hp hpair
    obtain ⟨r, hr, hu⟩ := pair_run hg hT h.under hp hpair 1 (by omega) (by have := hpair.1; omega)
    rw [h.noUg hz r d (walk_in hg hp hr)] at hu
    cases hu
  refine ⟨⟨hb.basic, hb.splitters, hb.joined, hb.ends, ⟨hb.undergrounds.entrance, hb.undergrounds.exit, ?_⟩, hb.surface, hb.under⟩, ?_, ?_,
    (Sat_smallLoops hbase).1 hsl, ?_⟩
  · intro p q d k hp hpair l' hl'
    unfold blockLimit at hl'
    by_cases hz : o.ugLen = 0
    · exact absurd hpair (hno hz p q d k hp)
    · rw [if_neg hz] at hl'; cases hl'
      exact hb.undergrounds.len p q d k hp hpair l hl
  · intro p hp hs
    have := (hT p hp).isSplitter_iff.2 hs
    rw [h.noSplit p hp] at this
    cases this
  · intro ha p hp ht
    obtain ⟨d, hd⟩ := h.noEmpty ha p hp
    have := (hT p hp).empty_iff.1 ht
    rw [this.1 d, this.2 d] at hd
    simp at hd
  · intro p q d k hp hspan
    by_cases hz : o.ugLen = 0
    · exact hno hz p q d k hp hspan.1
    · exact (Sat_emptySpans hbase).1 (hsp (h0.resolve_left hz)) p q d k hp (fun L hL => hb.undergrounds.len p q d k hp hspan.1 L hL) hspan

/-! ### The successor of a cell -/

theorem follows_next (hg : g.WF) {e : Edges} {ae : Bool} {L : Nat} (hE : g.Sealed e)
    (h : BlockRules g.width g.height g.In g.nb T (g.shut e) ae L) (hae : ae = false) {p : Nat × Nat} (hp : g.In p) :
    ∃ q, g.In q ∧ Follows g.nb T p q ∧ ∀ q', Follows g.nb T p q' → q' = q := by
  have hns := h.noSplitter p hp
  have hsurf : ∀ d, (T p).Emits d → (∀ d', (T p).Emits d' → d' = d) → (∀ d b, T p = .underground d b → b = false) →
      ∃ q, g.In q ∧ Follows g.nb T p q ∧ ∀ q', Follows g.nb T p q' → q' = q := by
    intro d hd hu hb
    cases hn : g.nb p d with
    | none => exact absurd hd (h.basic.surface p d hp (Grid.sealed_nb hg hE hp hn)).1
    | some q =>
      refine ⟨q, Grid.nb_in hg hn, .inl ⟨d, hn, hd, h.basic.joined.out p q d hp hn hd hns⟩, ?_⟩
      rintro q' (⟨d', h1, h2, _⟩ | ⟨d', k, hpair⟩)
      · rw [hu d' h2, hn] at h1
        exact (Option.some.inj h1).symm
      · have := hb d' true hpair.2.2.1
        cases this
  have hbasic := h.basic.basic p hp
  cases ht : T p with
  | empty => exact absurd ht (h.noEmpty hae p hp)
  | belt i o =>
    refine hsurf o (by rw [ht]; rfl) (fun d' hd' => ?_) (fun d b hd => ?_)
    · rw [ht] at hd'; exact hd'.symm
    · rw [ht] at hd; cases hd
  | underground d b =>
    cases b with
    | true =>
      obtain ⟨q, k, hq, hpair⟩ := h.basic.undergrounds.entrance p d hp ht
      refine ⟨q, hq, .inr ⟨d, k, hpair⟩, ?_⟩
      rintro q' (⟨d', _, h2, _⟩ | ⟨d', k', hpair'⟩)
      · rw [ht] at h2; exact h2.elim
      · exact (hpair.unique hpair').2.2.symm
    | false =>
      refine hsurf d (by rw [ht]; rfl) (fun d' hd' => ?_) (fun d' b hd => ?_)
      · rw [ht] at hd'; exact hd'.symm
      · rw [ht] at hd; cases hd; rfl
  | splitter d b => exact absurd ⟨d, b, ht⟩ hns
  | _ => rw [ht] at hbasic; exact hbasic.elim

theorem follows_prev (hg : g.WF) {e : Edges} {ae : Bool} {L : Nat} (h : BlockRules g.width g.height g.In g.nb T (g.shut e) ae L)
    {p p' q : Nat × Nat} (hp : g.In p) (hp' : g.In p') (hf : Follows g.nb T p q) (hf' : Follows g.nb T p' q) : p = p' := by
  have hq : g.In q := by
    rcases hf with ⟨d, h1, _⟩ | ⟨d, k, hpair⟩
    · exact Grid.nb_in hg h1
    · exact walk_in hg hp hpair.2.1
  have hns := h.noSplitter q hq
  have htake : ∀ d d', (T q).Takes d → (T q).Takes d' → d = d' := by
    intro d d' h1 h2
    cases ht : T q with
    | belt i o => rw [ht] at h1 h2; exact h1.symm.trans h2
    | underground e b =>
      rw [ht] at h1 h2
      cases b with
      | true => exact h1.symm.trans h2
      | false => exact h1.elim
    | splitter d b => exact absurd ⟨d, b, ht⟩ hns
    | _ => rw [ht] at h1; exact h1.elim
  have hmix : ∀ (d d' : Dir) (k : Nat) (r : Nat × Nat), (T q).Takes d → ¬ UgPair g.nb T r q d' k := by
    intro d d' k r h1 hpair
    rw [hpair.2.2.2.1] at h1
    exact h1
  rcases hf with ⟨d, h1, h2, h3⟩ | ⟨d, k, hpair⟩ <;> rcases hf' with ⟨d', h1', h2', h3'⟩ | ⟨d', k', hpair'⟩
  · rw [← htake d d' h3 h3'] at h1'
    exact Grid.nb_inj hg hp hp' h1 h1'
  · exact absurd hpair' (hmix d d' k' p' h3)
  · exact absurd hpair (hmix d' d k p h3')
  · have hd : d = d' := by
      have := hpair.2.2.2.1.symm.trans hpair'.2.2.2.1
      simpa using this
    subst hd
    exact ((hpair.back hg hp).unique (hpair'.back hg hp')).2

/-! ### The numbers of the cells -/

/-- The step comes directly, without crossing the edge, to the first cell. -/
def DirectEntry (p : Nat × Nat) (d : Dir) : Prop := (p.1 : Int) + d.dx = 0 ∧ (p.2 : Int) + d.dy = 0

theorem directEntry_nb (hg : g.WF) {p q : Nat × Nat} {d : Dir} (h : DirectEntry p d) (hq : g.nb p d = some q) : q = (0, 0) := by
  rw [Grid.nb, Grid.offset_iff hg] at hq
  obtain ⟨⟨h1, h2⟩, h3, h4⟩ := hq
  obtain ⟨h5, h6⟩ := h
  rw [h5] at h2
  rw [h6] at h4
  have key : ∀ (wr : Bool) (a w : Nat), a < w → (if wr = true then ∃ k : Int, (0 : Int) = a + k * w else (0 : Int) = a) → a = 0 := by
    intro wr a w ha h
    cases wr with
    | false => simp at h; omega
    | true =>
      rw [if_pos rfl] at h
      obtain ⟨k, hk⟩ := h
      have e1 : (a : Int) % w = a := Int.emod_eq_of_lt (by omega) (by omega)
      rw [show (a : Int) = -k * w by rw [Int.neg_mul]; omega, Int.mul_emod_left] at e1
      rw [Int.neg_mul] at e1
      omega
  exact Prod.ext (key _ _ _ h1 h2) (key _ _ _ h3 h4)

theorem loop_step (hg : g.WF) {C : Nat × Nat → CellVal} (hT : Lays g C T) (hu : UndergroundSem g C) (hl : LoopSem g C)
    (hns : ∀ p, g.In p → (C p).isSplitter = false) {p q : Nat × Nat} (hp : g.In p) (hf : Follows g.nb T p q) :
    binVal (C q).colour = (binVal (C p).colour + 1) % 2 ^ g.bits ∨ ∃ d, Connected g.nb T p q d ∧ DirectEntry p d := by
  rcases hf with ⟨d, hc⟩ | ⟨d, k, hpair⟩
  · have ho : (C p).out d = true := ((hT p hp).emits_iff (hns p hp) d).2 hc.2.1
    by_cases hd : DirectEntry p d
    · exact .inr ⟨d, hc, hd⟩
    · exact .inl ((hl.step p q d hp hc.1).forth hd ho)
  · refine .inl ?_
    have hrun := pair_run hg hT hu hp hpair
    have hk := hpair.1
    have ha := hpair.2.2.1 ▸ hT p hp
    have hall : ∀ i, i + 1 < k → ∀ r, walk g.nb p d (i + 1) = some r → binVal ((C r).colourU d) = (binVal (C p).colour + 1) % 2 ^ g.bits := by
      intro i
      induction i with
      | zero =>
        intro _ r hr
        exact (hl.step p r d hp hr).enter ((ha.2.2.1 d).2 rfl) ha.2.2.2
      | succ i ih =>
        intro hi r hr
        obtain ⟨s, hs1, hs2⟩ := hrun (i + 1) (by omega) (by omega)
        obtain ⟨r', hr1, hr2⟩ := hrun (i + 1 + 1) (by omega) (by omega)
        rw [hr] at hr1; cases hr1
        rw [← ih (by omega) s hs1]
        have : g.nb s d = some r := by
          have : walk g.nb p d (i + 1 + 1) = some r := hr
          rw [walk, hs1] at this
          simpa using this
        exact ((hl.step s r d (walk_in hg hp hs1) this).under hs2 hr2).symm
    obtain ⟨s, hs1, hs2⟩ := hrun (k - 1) (by omega) (by omega)
    have hsq : g.nb s d = some q := by
      have : walk g.nb p d (k - 1 + 1) = some q := by rw [show k - 1 + 1 = k by omega]; exact hpair.2.1
      rw [walk, hs1] at this
      simpa using this
    have hq := Grid.nb_in hg hsq
    have haq := hpair.2.2.2.1 ▸ hT q hq
    have h1 := hall (k - 2) (by omega) s (by rwa [show k - 2 + 1 = k - 1 by omega])
    rw [← h1]
    exact ((hl.step s q d (walk_in hg hp hs1) hsq).exit haq.2.2.1 ((haq.2.2.2 d).2 rfl)).symm

end

end FSat
