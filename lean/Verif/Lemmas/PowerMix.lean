import Verif.Lemmas.PowerOfTwo
import Verif.Spec.Mixing
import Mathlib.Tactic.FieldSimp
/-!
Flows of layouts that mix evenly, and the sets of the layouts for powers of two.
-/

set_option linter.unusedSimpArgs false

namespace FSat

open Finset

section
variable {P : Type} {In : P → Prop} {nb : P → Dir → Option P} {T : P → Tile} {levels : Nat} {S : P → Finset Nat} {level : P → Nat}

/-- What is on each cell if the input `k` gets `x k`. -/
def average (S : P → Finset Nat) (x : Nat → Rat) (p : P) : Rat := (∑ k ∈ S p, x k) / ((S p).card : Rat)

theorem steady_of_halves {conn : P → P → Dir → Prop} (hfull : FullSplitters In T conn) {F : P → Rat}
    (h1 : ∀ p q d, In p → conn p q d → ¬ (T p).IsSplitter → F q = F p) (h2 : ∀ p q d k, In p → UgPair nb T p q d k → F q = F p)
    (h3 : ∀ p q d, In p → SplitterPair nb T p q d → ∀ r, conn p r d ∨ conn q r d → F r * 2 = F p + F q) :
    Steady In nb T conn F := by
  refine ⟨h1, h2, fun p q d hp hq hpair r hr => ?_⟩
  obtain ⟨a1, a2⟩ := hfull p d true hp hpair.1
  obtain ⟨b1, b2⟩ := hfull q d false hq hpair.2.2
  unfold outlets arrives
  rw [if_pos a1, if_pos b1, if_pos a2, if_pos b2]
  have := h3 p q d hp hpair r hr
  linarith

theorem EvenMixing.steady (h : EvenMixing In nb T levels S level) (hfull : FullSplitters In T (Connected nb T)) (x : Nat → Rat) :
    Steady In nb T (Connected nb T) (average S x) := by
  refine steady_of_halves hfull (fun p q d hp hc hs => ?_) (fun p q d k hp hu => ?_) (fun p q d hp hpair r hr => ?_)
  · unfold average; rw [h.surface p q d hp hc hs]
  · unfold average; rw [h.under p q d k hp hu]
  · obtain ⟨s1, s2⟩ := h.size p q d hp hpair
    have hd := h.disjoint p q d hp hpair
    unfold average
    rw [h.union p q d hp hpair r hr, sum_union hd, card_union_of_disjoint hd, s1, s2]
    have : ((2 ^ level p : Nat) : Rat) ≠ 0 := by positivity
    push_cast at this ⊢
    field_simp
    ring

open Classical in
/-- Whether the number of inputs on a cell is one that occurs in a layout. -/
noncomputable def stageFlow (levels : Nat) (S : P → Finset Nat) (p : P) : Rat := if ∃ j ≤ levels, (S p).card = 2 ^ j then 1 else 0

theorem EvenMixing.stageFlow (h : EvenMixing In nb T levels S level) (hfull : FullSplitters In T (Connected nb T)) :
    Steady In nb T (Connected nb T) (stageFlow levels S) := by
  refine steady_of_halves hfull (fun p q d hp hc hs => ?_) (fun p q d k hp hu => ?_) (fun p q d hp hpair r hr => ?_)
  · unfold FSat.stageFlow; rw [h.surface p q d hp hc hs]
  · unfold FSat.stageFlow; rw [h.under p q d k hp hu]
  · obtain ⟨s1, s2⟩ := h.size p q d hp hpair
    have hlt := (h.stage p q d hp hpair).1
    unfold FSat.stageFlow
    have hr' : (S r).card = 2 ^ (level p + 1) := by
      rw [h.union p q d hp hpair r hr, card_union_of_disjoint (h.disjoint p q d hp hpair), s1, s2]
      ring
    rw [if_pos ⟨level p + 1, hlt, hr'⟩, if_pos ⟨level p, hlt.le, s1⟩, if_pos ⟨level p, hlt.le, s2⟩]
    norm_num

end

/-- Flows that agree on the inputs agree on the outputs. -/
theorem FreeLayout.determined {g : Grid} {T : Nat × Nat → Tile} {m n i j : Nat} (hg : g.WF) (he : g.edge = ⟨false, false⟩)
    (h : FreeLayout g T m n i j) {C : Nat × Nat → CellVal} (hl : Lays g C T) (hi : IntersectionSem g C) {F G : Nat × Nat → Rat}
    (hF : Steady g.In g.nb T (g.linked C) F) (hG : Steady g.In g.nb T (g.linked C) G)
    (h0 : ∀ y, i ≤ y → y < i + m → F (0, y) = G (0, y)) {y : Nat} (hy : j ≤ y) (hy' : y < j + n) :
    F (g.width - 1, y) = G (g.width - 1, y) := by
  obtain ⟨hin, hlv⟩ := h.leaves hg he hy hy'
  exact Steady.unique (In := g.In) (nb := g.nb) (T := T) (conn := g.linked C) g.cells.toFinset (fun p => by rw [List.mem_toFinset, Grid.mem_cells])
    (fun p q d hp hq => Grid.nb_in hg hq) (fun p q d hp hq => Grid.nb_opp hg hp hq) h.rules.basic h.rules.splitters
    (fun p q d hp hc => ⟨hc.1, (hl p hp).out_emits hc.2, (hl q (Grid.nb_in hg hc.1)).inp_takes ((hi d p q hp hc.1).1 ▸ hc.2)⟩)
    (fun p q d hp hq ht hns => ⟨hq, (hi d p q hp hq).1.trans
      (((hl q (Grid.nb_in hg hq)).takes_iff ((hl q (Grid.nb_in hg hq)).isSplitter_false hns) d).2 ht)⟩)
    (fun q d hq ht => h.rules.undergrounds.exit q d hq ht) (h.inner hg he) hF hG (by
      intro p hp hent
      obtain ⟨y, rfl, hy1, hy2⟩ := h.enters hg he hp hent
      exact h0 y hy1 hy2) (g.width - 1, y) hin hlv

/-! ### The sets of a solution -/

/-- The bits set in the colour of a cell. -/
def bitSet (bits : Nat) (bs : List Bool) : Finset Nat := (range bits).filter fun k => bs.getD k false = true

theorem mem_bitSet {bits : Nat} {bs : List Bool} (h : bs.length = bits) {k : Nat} : k ∈ bitSet bits bs ↔ bs.getD k false = true := by
  simp only [bitSet, mem_filter, mem_range, and_iff_right_iff_imp]
  intro hk
  by_contra hn
  rw [List.getD_eq_getElem?_getD, List.getElem?_eq_none (by omega)] at hk
  cases hk

theorem card_bitSet (bs : List Bool) : (bitSet bs.length bs).card = bs.count true := by
  induction bs with
  | nil => rfl
  | cons b bs ih =>
    have : bitSet (b :: bs).length (b :: bs) = (if b = true then {0} else ∅) ∪ (bitSet bs.length bs).map ⟨Nat.succ, Nat.succ_injective⟩ := by
      ext k
      rw [mem_bitSet rfl]
      cases k with
      | zero => cases b <;> simp
      | succ k =>
        have e : (b :: bs).getD (k + 1) false = bs.getD k false := by simp [List.getD_eq_getElem?_getD]
        rw [e, ← mem_bitSet (bits := bs.length) rfl]
        cases b <;> simp
    rw [this, card_union_of_disjoint, card_map, ih]
    · cases b <;> simp [Nat.add_comm]
    · rw [disjoint_left]
      intro k hk hk'
      simp only [mem_map, Function.Embedding.coeFn_mk] at hk'
      obtain ⟨j, _, rfl⟩ := hk'
      cases b <;> simp at hk

theorem binVal_getD (bs : List Bool) (k : Nat) : bs.getD k false = (binVal bs).testBit k := by
  induction bs generalizing k with
  | nil => simp [binVal]
  | cons b bs ih =>
    have e : binVal (b :: bs) = Nat.bit b (binVal bs) := by
      cases b <;> (simp [binVal, Nat.bit]; try omega)
    rw [e]
    cases k with
    | zero => simp
    | succ k => rw [Nat.testBit_bit_succ, ← ih]; simp [List.getD_eq_getElem?_getD]

theorem bitSet_pow {bits k : Nat} {bs : List Bool} (h : bs.length = bits) (hv : binVal bs = 2 ^ k) : bitSet bits bs = {k} := by
  ext j
  rw [mem_bitSet h, binVal_getD, hv, mem_singleton, Nat.testBit_two_pow]
  simp [eq_comm]

/-! ### Levels -/

theorem one_idxOf {l : List Bool} (h : l.count true = 1) : l.idxOf true < l.length ∧ ∀ i, l.getD i false = true ↔ l.idxOf true = i := by
  have hm : true ∈ l := List.count_pos_iff.1 (by omega)
  have hlt := List.idxOf_lt_length_of_mem hm
  refine ⟨hlt, fun i => ?_⟩
  have h1 : ((List.range l.length).map fun i => l.getD i false).count true = 1 := by rw [getD_range]; exact h
  obtain ⟨j, hj, hjt, hu⟩ := (range_one _ _).1 h1
  have hx : l.getD (l.idxOf true) false = true := by
    rw [List.getD_eq_getElem?_getD, List.getElem?_eq_getElem hlt]
    simp
  have ej := hu _ hlt hx
  constructor
  · intro hi
    have : i < l.length := by
      by_contra hn
      rw [List.getD_eq_getElem?_getD, List.getElem?_eq_none (by omega)] at hi
      cases hi
    rw [ej, hu i this hi]
  · rintro rfl; exact hx

/-- The same for the splitters with a property that holds for both halves or none. -/
theorem splitter_count_of {g : Grid} (hg : g.WF) (he : g.edge = ⟨false, false⟩) {C : Nat × Nat → CellVal} {T : Nat × Nat → Tile}
    (hT : Lays g C T) (hs : PairedSplitters g.In g.nb T) (K : Nat × Nat → Bool)
    (hK : ∀ p q d, g.In p → SplitterPair g.nb T p q d → K q = K p) :
    (g.cells.filter fun p => (p.1 + p.2) % 2 = 1).countP (fun p => (C p).isSplitter && K p) =
      g.cells.countP (fun p => (C p).isHead && K p) := by
  let T' : Nat × Nat → Tile := fun p => if K p = true then T p else .empty
  let e : CellVal := ⟨false, true, false, false, false, false, false, false, fun _ => false, fun _ => false, fun _ => false, [], [], []⟩
  let C' : Nat × Nat → CellVal := fun p => if K p = true then C p else e
  have key := splitter_count (g := g) (C := C') (T := T') hg he (fun p hp => by
    by_cases hk : K p = true
    · simp only [C', T', hk, if_true]; exact hT p hp
    · simp only [C', T', if_neg hk]
      exact ⟨rfl, rfl, fun _ => rfl, fun _ => rfl⟩) (by
    have hT' : ∀ {p d b}, T' p = .splitter d b → K p = true ∧ T p = .splitter d b := by
      intro p d b ht
      by_cases hk : K p = true
      · exact ⟨hk, by simpa only [T', hk, if_true] using ht⟩
      · simp only [T', if_neg hk] at ht; cases ht
    have hpair : ∀ {p q d}, g.In p → K p = true → SplitterPair g.nb T p q d → SplitterPair g.nb T' p q d := by
      intro p q d hp hk h
      have hq : K q = true := (hK p q d hp h).trans hk
      exact ⟨by simp only [T', hk, if_true]; exact h.1, h.2.1, by simp only [T', hq, if_true]; exact h.2.2⟩
    refine ⟨fun p d hp ht => ?_, fun q d hq ht => ?_⟩
    · obtain ⟨hk, ht⟩ := hT' ht
      obtain ⟨q, hq, h⟩ := hs.head p d hp ht
      exact ⟨q, hq, hpair hp hk h⟩
    · obtain ⟨hk, ht⟩ := hT' ht
      obtain ⟨p, hp, h⟩ := hs.tail q d hq ht
      exact ⟨p, hp, hpair hp ((hK p q d hp h).symm.trans hk) h⟩)
  have e1 : ∀ p, (C' p).isSplitter = ((C p).isSplitter && K p) := by
    intro p
    by_cases hk : K p = true
    · simp only [C', hk, if_true, Bool.and_true]
    · simp only [C', if_neg hk, e, Bool.eq_false_iff.2 hk, Bool.and_false]
  have e2 : ∀ p, (C' p).isHead = ((C p).isHead && K p) := by
    intro p
    by_cases hk : K p = true
    · simp only [C', hk, if_true, Bool.and_true]
    · simp only [C', if_neg hk, e, Bool.eq_false_iff.2 hk, Bool.and_false]
  simp only [e1, e2] at key
  exact key

theorem checkerboard_perm (g : Grid) : (checkerboard g).Perm (g.cells.filter fun p => (p.1 + p.2) % 2 = 1) := by
  refine (List.perm_ext_iff_of_nodup ?_ (g.cells_nodup.filter _)).2 fun p => ?_
  · unfold checkerboard
    rw [List.nodup_flatMap]
    refine ⟨fun x _ => (List.nodup_range.filter _).map fun a b h => (Prod.mk.inj h).1, ?_⟩
    refine List.nodup_range.imp fun {a b} hab => ?_
    intro c hc hc'
    obtain ⟨y, _, rfl⟩ := List.mem_map.1 hc
    obtain ⟨y', _, h⟩ := List.mem_map.1 hc'
    exact hab (Prod.mk.inj h).2.symm
  · obtain ⟨x, y⟩ := p
    simp only [checkerboard, List.mem_flatMap, List.mem_map, List.mem_filter, List.mem_range, Grid.mem_cells, decide_eq_true_eq,
      Prod.mk.injEq, Grid.In]
    constructor
    · rintro ⟨y', hy, x', ⟨hx, hp⟩, rfl, rfl⟩
      exact ⟨⟨hx, hy⟩, by omega⟩
    · rintro ⟨⟨hx, hy⟩, hp⟩
      exact ⟨y, hy, x, ⟨hx, by omega⟩, rfl, rfl⟩

/-! ### Solutions mix evenly -/

section
variable {g : Grid} {C : Nat × Nat → CellVal} {T : Nat × Nat → Tile} {lv pr : Nat × Nat → List Bool}

theorem PowerSem.full (hs : PowerSem g C lv pr) (hl : Lays g C T) {p : Nat × Nat} {d : Dir} {b : Bool} (hp : g.In p)
    (ht : T p = .splitter d b) : (C p).inp d = true ∧ (C p).out d = true := by
  have ha : Agrees (C p) (.splitter d b) := ht ▸ hl p hp
  obtain ⟨⟨e, h1⟩, e', h2⟩ := (hs.tile p hp).both ha.splitter_flags.1
  have := ha.2.2.1 e h1
  subst this
  have := ha.2.2.2.1 e' h2
  subst this
  exact ⟨h1, h2⟩

theorem PowerSem.linked_iff (hg : g.WF) (hs : PowerSem g C lv pr) (hi : IntersectionSem g C) (hl : Lays g C T)
    (p q : Nat × Nat) (d : Dir) (hp : g.In p) : g.linked C p q d ↔ Connected g.nb T p q d := by
  constructor
  · rintro ⟨h1, h2⟩
    exact ⟨h1, (hl p hp).out_emits h2, (hl q (Grid.nb_in hg h1)).inp_takes ((hi d p q hp h1).1 ▸ h2)⟩
  · rintro ⟨h1, h2, _⟩
    refine ⟨h1, ?_⟩
    by_cases hsp : (T p).IsSplitter
    · obtain ⟨e, b, ht⟩ := hsp
      have : e = d := by rw [ht] at h2; exact h2
      subst this
      exact (hs.full hl hp ht).2
    · exact ((hl p hp).emits_iff ((hl p hp).isSplitter_false hsp) d).2 h2

theorem PowerSem.fullSplitters (hg : g.WF) (hs : PowerSem g C lv pr) (hi : IntersectionSem g C) (hl : Lays g C T)
    (hin : InnerSplitters g T) : FullSplitters g.In T (Connected g.nb T) := by
  intro p d b hp ht
  obtain ⟨h1, h2⟩ := hs.full hl hp ht
  obtain ⟨a1, a2⟩ := hin p d b hp ht
  obtain ⟨f, hf⟩ := Option.ne_none_iff_exists'.1 a1
  obtain ⟨x, hx⟩ := Option.ne_none_iff_exists'.1 a2
  obtain ⟨q, hq⟩ := (outflow_iff hf).2 h2
  obtain ⟨r, hr, hr'⟩ := (inflow_iff hg hi hp hx).2 h1
  exact ⟨⟨q, (hs.linked_iff hg hi hl p q d hp).1 hq⟩, r, hr, (hs.linked_iff hg hi hl r p d hr).1 hr'⟩

theorem PowerSem.transport (hs : PowerSem g C lv pr) (hc : ∀ p, (C p).colour.length = g.bits)
    (hcu : ∀ p d, ((C p).colourU d).length = g.bits) : TransportSem g C (fun p => (C p).colour) (fun d p => (C p).colourU d) := by
  refine ⟨fun d p q hp hq h1 h2 => ?_, fun d p q hp hq h1 => ?_, fun d p q hp hq h1 h2 h3 => ?_, fun d p q hp hq h1 h2 h3 => ?_⟩
  · exact binVal_inj (by rw [hc, hc]) (hs.colour.surface d p q hp hq h1 h2)
  · exact binVal_inj (by rw [hcu, hcu]) (hs.colour.under d p q hp hq h1)
  · exact binVal_inj (by rw [hc, hcu]) (hs.colour.entrance d p q hp hq h1 h2 h3)
  · exact binVal_inj (by rw [hc, hcu]) (hs.colour.exit d p q hp hq h1 h2 h3)

theorem PowerSem.mixing (hg : g.WF) (hs : PowerSem g C lv pr) (hi : IntersectionSem g C) (hl : Lays g C T) {n : Nat}
    (hlv : ∀ p, (lv p).length = n) (hc : ∀ p, (C p).colour.length = g.bits) (hcu : ∀ p d, ((C p).colourU d).length = g.bits)
    (hsize : ∀ p, g.In p → ∀ i < n, (lv p).getD i false = true → (C p).colour.count true = 2 ^ i) :
    EvenMixing g.In g.nb T n (fun p => bitSet g.bits (C p).colour) (fun p => (lv p).idxOf true) := by
  have ht := hs.transport hc hcu
  have key : ∀ p q d, g.In p → SplitterPair g.nb T p q d → ∃ p' q', g.nb p d = some p' ∧ g.nb q d = some q' ∧
      MixBits (C p).colour (C q).colour (C p').colour (C q').colour ∧ lv p = lv q := by
    intro p q d hp hpair
    have hh := ((hpair.1 ▸ hl p hp : Agrees _ (.splitter d true)).splitter_flags).2.1
    obtain ⟨p', q1, q', f1, f2, f3, f4, f5⟩ := hs.mix p hp d hh (hs.full hl hp hpair.1).1
    have : q1 = q := Option.some.inj (f2.symm.trans hpair.2.1)
    subst this
    exact ⟨p', q', f1, f3, f4, f5⟩
  have one : ∀ p, g.In p → (T p).IsSplitter → (lv p).idxOf true < n ∧ (bitSet g.bits (C p).colour).card = 2 ^ (lv p).idxOf true := by
    rintro p hp ⟨d, b, h⟩
    have h1 := (hs.tile p hp).one (.inr ((h ▸ hl p hp : Agrees _ (.splitter d b)).splitter_flags).1)
    obtain ⟨h2, h3⟩ := one_idxOf h1
    rw [hlv] at h2
    refine ⟨h2, ?_⟩
    rw [← hsize p hp _ h2 ((h3 _).2 rfl), ← card_bitSet, hc]
  refine ⟨fun p q d hp hcon hns => ?_, fun p q d k hp hu => ?_, fun p q d hp hpair => ?_, fun p q d hp hpair => ?_,
    fun p q d hp hpair => ?_, fun p q d hp hpair r hr => ?_⟩
  · obtain ⟨h1, h2⟩ := (hs.linked_iff hg hi hl p q d hp).2 hcon
    rw [ht.surface d p q hp h1 h2 ((hl p hp).isSplitter_false hns)]
  · rw [transport_under hg hl hs.under ht hp hu]
  · obtain ⟨_, _, _, _, _, h5⟩ := key p q d hp hpair
    exact ⟨(one p hp ⟨d, _, hpair.1⟩).1, by simp only [h5]⟩
  · obtain ⟨_, _, _, _, _, h5⟩ := key p q d hp hpair
    refine ⟨(one p hp ⟨d, _, hpair.1⟩).2, ?_⟩
    have := (one q (Grid.nb_in hg hpair.2.1) ⟨d, _, hpair.2.2⟩).2
    rw [h5]; exact this
  · obtain ⟨_, _, _, _, h4, _⟩ := key p q d hp hpair
    rw [disjoint_left]
    intro k h1 h2
    rw [mem_bitSet (hc _)] at h1 h2
    exact (h4 k).1 ⟨h1, h2⟩
  · obtain ⟨p', q', f1, f2, h4, _⟩ := key p q d hp hpair
    ext k
    rw [mem_union, mem_bitSet (hc _), mem_bitSet (hc _), mem_bitSet (hc _)]
    rcases hr with hr | hr
    · have : r = p' := Option.some.inj (hr.1.symm.trans f1)
      subst this; exact (h4 k).2.1
    · have : r = q' := Option.some.inj (hr.1.symm.trans f2)
      subst this; exact (h4 k).2.2

theorem PowerSem.count (hg : g.WF) (he : g.edge = ⟨false, false⟩) (hs : PowerSem g C lv pr) (hl : Lays g C T)
    (hps : PairedSplitters g.In g.nb T) 
    (hmix : ∀ p q d, g.In p → SplitterPair g.nb T p q d → (lv q).idxOf true = (lv p).idxOf true)
    (i : Nat) : (checkerboard g).countP (fun p => (pr p).getD i false) =
      g.cells.countP (fun p => (C p).isHead && decide ((lv p).idxOf true = i)) := by
  rw [(checkerboard_perm g).countP_eq, ← splitter_count_of hg he hl hps (fun p => decide ((lv p).idxOf true = i))
    (fun p q d hp h => by simp only [hmix p q d hp h])]
  refine List.countP_congr fun p hp => ?_
  have hin : g.In p := (g.mem_cells p).1 (List.mem_filter.1 hp).1
  have ht := hs.tile p hin
  cases hsp : (C p).isSplitter with
  | true =>
    rw [← ht.same hsp, (one_idxOf (ht.one (.inr hsp))).2 i]
    simp
  | false =>
    have : (pr p).getD i false = false := by
      rw [List.getD_eq_getElem?_getD]
      cases h : (pr p)[i]? with
      | none => rfl
      | some b => exact ht.noneP hsp b (List.mem_of_getElem? h)
    rw [this]
    simp

end

end FSat
