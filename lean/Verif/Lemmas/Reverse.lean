import Verif.Lemmas.NetFreeMix
/-!
A layout read backwards: what is drawn through it is a steady flow of the reversed layout.
-/

set_option linter.unusedSimpArgs false

namespace FSat

/-- The tile with its direction of movement reversed. -/
def Tile.rev : Tile → Tile
  | .belt i o => .belt o.opp i.opp
  | .underground d b => .underground d.opp (!b)
  | .splitter d b => .splitter d.opp (!b)
  | t => t

theorem Dir.opp_eq_iff {d e : Dir} : d.opp = e ↔ d = e.opp := by cases d <;> cases e <;> decide

theorem Tile.rev_emits (t : Tile) (d : Dir) : t.rev.Emits d ↔ t.Takes d.opp := by
  cases t with
  | underground e b => cases b <;> simp [Tile.rev, Tile.Emits, Tile.Takes, Dir.opp_eq_iff]
  | _ => simp [Tile.rev, Tile.Emits, Tile.Takes, Dir.opp_eq_iff]

theorem Tile.rev_takes (t : Tile) (d : Dir) : t.rev.Takes d ↔ t.Emits d.opp := by
  cases t with
  | underground e b => cases b <;> simp [Tile.rev, Tile.Emits, Tile.Takes, Dir.opp_eq_iff]
  | _ => simp [Tile.rev, Tile.Emits, Tile.Takes, Dir.opp_eq_iff]

theorem Tile.rev_basic (t : Tile) : t.rev.Basic ↔ t.Basic := by
  cases t with
  | belt i o => cases i <;> cases o <;> simp [Tile.rev, Tile.Basic, Dir.opp]
  | _ => exact Iff.rfl

theorem Tile.rev_isSplitter (t : Tile) : t.rev.IsSplitter ↔ t.IsSplitter := by
  cases t with
  | splitter d b => exact ⟨fun _ => ⟨d, b, rfl⟩, fun _ => ⟨_, _, rfl⟩⟩
  | _ => exact ⟨fun ⟨_, _, h⟩ => (by cases h), fun ⟨_, _, h⟩ => (by cases h)⟩

theorem Tile.rev_splitter {t : Tile} {d : Dir} {b : Bool} : t.rev = .splitter d b ↔ t = .splitter d.opp (!b) := by
  cases t with
  | splitter e c =>
    simp only [Tile.rev, Tile.splitter.injEq, Dir.opp_eq_iff]
    cases b <;> cases c <;> simp
  | _ => exact ⟨fun h => (by cases h), fun h => (by cases h)⟩

theorem Tile.rev_underground {t : Tile} {d : Dir} {b : Bool} : t.rev = .underground d b ↔ t = .underground d.opp (!b) := by
  cases t with
  | underground e c =>
    simp only [Tile.rev, Tile.underground.injEq, Dir.opp_eq_iff]
    cases b <;> cases c <;> simp
  | _ => exact ⟨fun h => (by cases h), fun h => (by cases h)⟩

theorem Tile.rev_along (t : Tile) (d : Dir) : t.rev.UgAlong d ↔ t.UgAlong d.opp := by
  cases t with
  | underground e c => simp only [Tile.rev, Tile.UgAlong]; cases e <;> cases d <;> decide
  | _ => exact Iff.rfl

section
variable {g : Grid} (hg : g.WF) {T : Nat × Nat → Tile}
include hg

theorem rev_connected {p q : Nat × Nat} {d : Dir} (hp : g.In p) (hq : g.In q) :
    Connected g.nb (fun p => (T p).rev) p q d ↔ Connected g.nb T q p d.opp := by
  unfold Connected
  rw [Grid.nb_opp_iff hg hp hq, Tile.rev_emits, Tile.rev_takes]
  tauto

theorem rev_pair {p q : Nat × Nat} {d : Dir} (hp : g.In p) (hq : g.In q) :
    SplitterPair g.nb (fun p => (T p).rev) p q d ↔ SplitterPair g.nb T q p d.opp := by
  unfold SplitterPair
  rw [Grid.nb_opp_iff hg hp hq, Tile.rev_splitter, Tile.rev_splitter, show d.ccw.opp = d.opp.ccw by cases d <;> rfl]
  simp only [Bool.not_true, Bool.not_false]
  tauto

theorem rev_ugPair {p q : Nat × Nat} {d : Dir} {k : Nat} (hp : g.In p) (hq : g.In q) :
    UgPair g.nb (fun p => (T p).rev) p q d k ↔ UgPair g.nb T q p d.opp k := by
  unfold UgPair
  rw [Tile.rev_underground, Tile.rev_underground]
  simp only [Bool.not_true, Bool.not_false, Tile.rev_along]
  have hw : walk g.nb p d k = some q ↔ walk g.nb q d.opp k = some p := by
    refine ⟨walk_opp hg hp, fun h => ?_⟩
    have := walk_opp hg hq h
    rwa [Dir.opp_opp] at this
  have key : ∀ {p q : Nat × Nat} {d e : Dir}, g.In p → walk g.nb p d k = some q → (∀ i, 0 < i → i < k → ∀ r, walk g.nb p d i = some r → ¬ (T r).UgAlong e) →
      ∀ i, 0 < i → i < k → ∀ r, walk g.nb q d.opp i = some r → ¬ (T r).UgAlong e := by
    intro p q d e hp h1 h2 i hi hik r hr
    obtain ⟨s, hs, hs'⟩ := walk_le h1 (i := k - i) (by omega)
    have h3 := walk_opp hg (walk_in hg hp hs) hs'
    rw [show k - (k - i) = i by omega, hr] at h3
    cases h3
    exact h2 (k - i) (by omega) (by omega) r hs
  constructor
  · rintro ⟨h1, h2, h3, h4, h5⟩
    exact ⟨h1, hw.1 h2, h4, h3, key hp h2 h5⟩
  · rintro ⟨h1, h2, h3, h4, h5⟩
    refine ⟨h1, hw.2 h2, h4, h3, ?_⟩
    have := key hq h2 h5
    rwa [Dir.opp_opp] at this

end

section
variable {P : Type} {In : P → Prop} {nb : P → Dir → Option P} {T : P → Tile} {conn : P → P → Dir → Prop}

open Finset in
theorem Drawn.sum {ι : Type} (s : Finset ι) (c : ι → Rat) (φ : ι → P → Rat) (h : ∀ i ∈ s, Drawn In nb T conn (φ i)) :
    Drawn In nb T conn fun p => ∑ i ∈ s, c i * φ i p := by
  have ea : ∀ p q d, departs conn (fun p => ∑ i ∈ s, c i * φ i p) p q d = ∑ i ∈ s, c i * departs conn (φ i) p q d := by
    intro p q d
    unfold departs
    split
    · rfl
    · simp
  refine ⟨fun p q d hp hc hns => sum_congr rfl fun i hi => by rw [(h i hi).surface p q d hp hc hns],
    fun p q d k hp hc => sum_congr rfl fun i hi => by rw [(h i hi).under p q d k hp hc], fun p q d p' q' hp hq hpair hp' hq' r hr hf => ?_⟩
  rw [ea, ea, sum_mul, ← sum_add_distrib]
  refine sum_congr rfl fun i hi => ?_
  have := (h i hi).splitter p q d p' q' hp hq hpair hp' hq' r hr hf
  rw [mul_assoc, this]; ring

end

section
variable {g : Grid} {T : Nat × Nat → Tile}

/-- What passes the cell on the other side of a splitter half. -/
def shifted (g : Grid) (T : Nat × Nat → Tile) (F : Nat × Nat → Rat) (p : Nat × Nat) : Rat :=
  match T p with
  | .splitter d _ => match g.nb p d with
    | some q => F q
    | none => 0
  | _ => F p

theorem shifted_not {F : Nat × Nat → Rat} {p : Nat × Nat} (h : ¬ (T p).IsSplitter) : shifted g T F p = F p := by
  unfold shifted
  cases ht : T p with
  | splitter d b => exact (h ⟨d, b, ht⟩).elim
  | _ => rfl

theorem shifted_splitter {F : Nat × Nat → Rat} {p q : Nat × Nat} {d : Dir} {b : Bool} (h : T p = .splitter d b) (hq : g.nb p d = some q) :
    shifted g T F p = F q := by
  unfold shifted
  rw [h]; simp only; rw [hq]

/-- The reversed connections. -/
def backConn (g : Grid) (conn : Nat × Nat → Nat × Nat → Dir → Prop) (p q : Nat × Nat) (d : Dir) : Prop := g.In q ∧ conn q p d.opp

theorem Drawn.reversed (hg : g.WF) {conn : Nat × Nat → Nat × Nat → Dir → Prop} (hsub : ∀ p q d, g.In p → conn p q d → Connected g.nb T p q d)
    (hin : InnerSplitters g T) {F : Nat × Nat → Rat} (h : Drawn g.In g.nb T conn F) :
    Steady g.In g.nb (fun p => (T p).rev) (backConn g conn) (shifted g T F) := by
  have hend : ∀ {p q : Nat × Nat} {d : Dir}, g.In p → conn p q d → shifted g T F p = F q := by
    intro p q d hp hc
    by_cases hs : (T p).IsSplitter
    · obtain ⟨e, b, ht⟩ := hs
      have hcc := hsub _ _ _ hp hc
      have : e = d := by have := hcc.2.1; rw [ht] at this; exact this
      subst this
      exact shifted_splitter ht hcc.1
    · rw [shifted_not hs, h.surface p q d hp hc hs]
  refine ⟨?_, ?_, ?_⟩
  · rintro p q d hp ⟨hq, hc⟩ hns
    rw [Tile.rev_isSplitter] at hns
    rw [hend hq hc, shifted_not hns]
  · intro p q d k hp hpair
    have hq := walk_in hg hp hpair.2.1
    rw [rev_ugPair hg hp hq] at hpair
    rw [shifted_not (by rintro ⟨_, _, ht⟩; rw [hpair.2.2.1] at ht; cases ht), shifted_not (by rintro ⟨_, _, ht⟩; rw [hpair.2.2.2.1] at ht; cases ht),
      h.under _ _ _ _ hq hpair]
  · intro p q d hp hq hpair r hr
    rw [rev_pair hg hp hq] at hpair
    obtain ⟨q', hq'⟩ := Option.ne_none_iff_exists'.1 (hin q _ _ hq hpair.1).1
    obtain ⟨p', hp'⟩ := Option.ne_none_iff_exists'.1 (hin p _ _ hp hpair.2.2).1
    have ho : ∀ x, g.In x → outlets (backConn g conn) x d = inlets g.In conn x d.opp := fun x _ => rfl
    have ha : ∀ x x' b, g.In x → g.nb x d.opp = some x' → T x = .splitter d.opp b →
        arrives g.In (backConn g conn) (shifted g T F) x d = departs conn F x x' d.opp := by
      intro x x' b hx hx' ht
      unfold arrives departs
      by_cases hc : conn x x' d.opp
      · rw [if_pos hc, if_pos ⟨x', Grid.nb_in hg hx', hx, hc⟩, shifted_splitter ht hx']
      · rw [if_neg hc, if_neg]
        rintro ⟨r, _, _, hr⟩
        have := (hsub _ _ _ hx hr).1
        rw [hx'] at this
        cases this
        exact hc hr
    rw [ho p hp, ho q hq, ha p p' _ hp hp' hpair.2.2, ha q q' _ hq hq' hpair.1]
    have key := h.splitter q p d.opp q' p' hq hp hpair hq' hp'
    rcases hr with ⟨hr, hc⟩ | ⟨hr, hc⟩
    · rw [hend hr hc, add_comm, key p (.inr rfl) ⟨r, hr, hc⟩, add_comm]
    · rw [hend hr hc, add_comm, key q (.inl rfl) ⟨r, hr, hc⟩, add_comm]

end

section
variable {g : Grid} {T : Nat × Nat → Tile} {m n i j : Nat} (hg : g.WF) (he : g.edge = ⟨false, false⟩) (h : FreeLayout g T m n i j)
include hg he h

open Finset in
/-- What is drawn through single outputs determines everything that is drawn. -/
theorem FreeLayout.balanceBack {C : Nat × Nat → CellVal} (hl : Lays g C T) (hi : IntersectionSem g C) {φ : Nat → Nat × Nat → Rat}
    (hφ : ∀ k < n, Drawn g.In g.nb T (g.linked C) (φ k)) {a b : Rat} (ha : a ≠ 0)
    (h0 : ∀ k < n, ∀ y, j ≤ y → y < j + n → φ k (g.width - 1, y) = if y % n = k then a else 0)
    (h1 : ∀ k < n, ∀ y, i ≤ y → y < i + m → φ k (0, y) = b)
    (F : Nat × Nat → Rat) (hF : Drawn g.In g.nb T (g.linked C) F) {y : Nat} (hy : i ≤ y) (hy' : y < i + m) :
    F (0, y) = (∑ k ∈ range n, F (g.width - 1, j + k)) * (b / a) := by
  have hm : ∀ k ∈ range n, (j + k) % n < n := fun k hk => Nat.mod_lt _ (by have := mem_range.1 hk; omega)
  have hG := Drawn.sum (range n) (fun k => F (g.width - 1, j + k) / a) (fun k => φ ((j + k) % n)) fun k hk => hφ _ (hm k hk)
  have hsub : ∀ p q d, g.In p → g.linked C p q d → Connected g.nb T p q d := fun p q d hp hc =>
    ⟨hc.1, (hl p hp).out_emits hc.2, (hl q (Grid.nb_in hg hc.1)).inp_takes ((hi d p q hp hc.1).1 ▸ hc.2)⟩
  have hin := h.inner hg he
  have hyh : y < g.height := by have := h.inputs.1; omega
  have hbelt : T (0, y) = .belt .right .right := by
    have := h.inputs.2 y hyh
    rwa [if_pos ⟨hy, hy'⟩] at this
  have hpin : g.In (0, y) := ⟨hg.w, hyh⟩
  have key := Steady.unique (In := g.In) (nb := g.nb) (T := fun p => (T p).rev) (conn := backConn g (g.linked C)) g.cells.toFinset
    (fun p => by rw [List.mem_toFinset, Grid.mem_cells])
    (fun p q d hp hq => Grid.nb_in hg hq) (fun p q d hp hq => Grid.nb_opp hg hp hq)
    (fun p hp => (Tile.rev_basic _).2 (h.rules.basic p hp))
    ⟨fun p d hp ht => by
        obtain ⟨q, hq, hpair⟩ := h.rules.splitters.tail p d.opp hp (Tile.rev_splitter.1 ht)
        exact ⟨q, hq, (rev_pair hg hp hq).2 hpair⟩,
      fun p d hp ht => by
        obtain ⟨q, hq, hpair⟩ := h.rules.splitters.head p d.opp hp (Tile.rev_splitter.1 ht)
        exact ⟨q, hq, (rev_pair hg hq hp).2 hpair⟩⟩
    (fun p q d hp hc => (rev_connected hg hp hc.1).2 (hsub q p d.opp hc.1 hc.2))
    (fun p q d hp hq ht hns => by
      rw [Tile.rev_takes] at ht
      rw [Tile.rev_isSplitter] at hns
      have hqi := Grid.nb_in hg hq
      exact ⟨hqi, Grid.nb_opp hg hp hq, ((hl q hqi).emits_iff ((hl q hqi).isSplitter_false hns) _).2 ht⟩)
    (fun q d hq ht => by
      obtain ⟨p, k, hp, hpair⟩ := h.rules.undergrounds.entrance q d.opp hq (Tile.rev_underground.1 ht)
      exact ⟨p, k, hp, (rev_ugPair hg hp hq).2 hpair⟩)
    (fun p d b hp ht => by
      have := hin p d.opp (!b) hp (Tile.rev_splitter.1 ht)
      rw [Dir.opp_opp] at this
      exact this.symm)
    (hF.reversed hg hsub hin) (hG.reversed hg hsub hin) (by
      rintro p hp ⟨d, hd1, hd2⟩
      rw [Tile.rev_takes] at hd1
      have hcase : ∃ y, p = (g.width - 1, y) ∧ T p = .belt .right .right ∧ j ≤ y ∧ y < j + n := by
        rcases h.edge hg he hp hd2 with h3 | ⟨h3, y, rfl, h4, _⟩ | ⟨_, y, h4, h5⟩
        · exact (h3.1 hd1).elim
        · rw [h4, h3] at hd1; cases hd1
        · exact ⟨y, h4, h5⟩
      obtain ⟨y, rfl, ht, hy1, hy2⟩ := hcase
      have hns : ¬ (T (g.width - 1, y)).IsSplitter := by rintro ⟨_, _, h⟩; rw [ht] at h; cases h
      rw [shifted_not hns, shifted_not hns]
      have hmem : y - j ∈ range n := mem_range.2 (by omega)
      rw [sum_eq_single_of_mem (y - j) hmem]
      · rw [h0 _ (hm _ hmem) y hy1 hy2, show j + (y - j) = y by omega, if_pos rfl, div_mul_cancel₀ _ ha]
      · intro k hk hne
        rw [h0 _ (hm k hk) y hy1 hy2, if_neg, mul_zero]
        intro hmod
        have := block_mod (i := j) (k := k) (k' := y - j) (n := n) (by rw [show j + (y - j) = y by omega]; exact hmod.symm) (by omega) (mem_range.1 hk)
        omega) (0, y) hpin
      ⟨.left, by rw [Tile.rev_emits, hbelt]; rfl, (Grid.nb_none_iff hg hpin .left).2 ⟨by simp [Grid.wraps, he, Dir.axis], rfl⟩⟩
  have hns : ¬ (T (0, y)).IsSplitter := by rintro ⟨_, _, h⟩; rw [hbelt] at h; cases h
  rw [shifted_not hns, shifted_not hns] at key
  rw [key, sum_mul]
  refine sum_congr rfl fun k hk => ?_
  rw [h1 _ (hm k hk) y hy hy']
  ring

end

end FSat
