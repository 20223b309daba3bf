import Verif.Lemmas.OptimiseClauses
import Verif.Lemmas.Complete

set_option linter.unusedSimpArgs false
set_option linter.unusedVariables false

namespace FSat

section
variable {g : Grid} {T : Nat × Nat → Tile} {shutB shutU : Nat × Nat → Dir → Prop} {L : Option Nat}

theorem UgPair.first {a b : Nat × Nat} {e : Dir} {m : Nat} (h : UgPair g.nb T a b e m) : FirstAlong g T a e m b :=
  ⟨by have := h.1; omega, h.2.1, h.along_right, h.2.2.2.2⟩

theorem UgPair.back (hg : g.WF) {a b : Nat × Nat} {e : Dir} {m : Nat} (ha : g.In a) (h : UgPair g.nb T a b e m) :
    FirstAlong g T b e.opp m a := by
  refine ⟨by have := h.1; omega, walk_opp hg ha h.2.1, (Tile.ugAlong_opp _ _).2 h.along_left, fun i h1 h2 s hs => ?_⟩
  rw [Tile.ugAlong_opp]
  obtain ⟨s', k1, k2⟩ := walk_le h.2.1 (show m - i ≤ m by omega)
  have := walk_opp hg (walk_in hg ha k1) k2
  rw [show m - (m - i) = i by omega, hs] at this
  cases this
  exact h.2.2.2.2 (m - i) (by omega) (by omega) s k1

/-- The facts about one empty span in a layout that obeys the rules. -/
structure SpanAt (g : Grid) (T : Nat × Nat → Tile) (shutB shutU : Nat × Nat → Dir → Prop) (L : Option Nat) (p q : Nat × Nat) (d : Dir)
    (k : Nat) : Prop where
  wf : g.WF
  rules : BasicRules g.In g.nb T shutB shutU L
  start : g.In p
  span : EmptySpan g.nb T p q d k
  side : ∀ s b e h, g.In s → T s = .splitter e h → g.nb s e = some b → OnSpan g.nb p d k b → e = d
  shut : ∀ a e b, shutB a e → g.nb a e = some b → shutU a e

namespace SpanAt
variable {p q : Nat × Nat} {d : Dir} {k : Nat} (h : SpanAt g T shutB shutU L p q d k)
include h

theorem two : 2 ≤ k := h.span.1.1

theorem cases {r : Nat × Nat} (hr : OnSpan g.nb p d k r) :
    (r = p ∧ T r = .underground d true) ∨ T r = .empty ∨ (r = q ∧ T r = .underground d false) := by
  obtain ⟨i, hi, hw⟩ := hr
  rcases Nat.eq_zero_or_pos i with rfl | h0
  · cases hw; exact .inl ⟨rfl, h.span.1.2.2.1⟩
  · rcases Nat.lt_or_ge i k with h1 | h1
    · exact .inr (.inl (h.span.2 i h0 h1 r hw))
    · obtain rfl : i = k := by omega
      rw [h.span.1.2.1] at hw; cases hw
      exact .inr (.inr ⟨rfl, h.span.1.2.2.2.1⟩)

theorem p_on : OnSpan g.nb p d k p := ⟨0, by omega, rfl⟩
theorem q_on : OnSpan g.nb p d k q := ⟨k, Nat.le_refl _, h.span.1.2.1⟩

theorem takes_p {r : Nat × Nat} {e : Dir} (hr : OnSpan g.nb p d k r) (ht : (T r).Takes e) : r = p ∧ e = d := by
  rcases h.cases hr with ⟨h1, h2⟩ | h2 | ⟨h1, h2⟩ <;> rw [h2] at ht
  · exact ⟨h1, ht.symm⟩
  · cases ht
  · cases ht

theorem emits_q {r : Nat × Nat} {e : Dir} (hr : OnSpan g.nb p d k r) (ht : (T r).Emits e) : r = q ∧ e = d := by
  rcases h.cases hr with ⟨h1, h2⟩ | h2 | ⟨h1, h2⟩ <;> rw [h2] at ht
  · cases ht
  · cases ht
  · exact ⟨h1, ht.symm⟩

theorem not_splitter {r : Nat × Nat} (hr : OnSpan g.nb p d k r) : ¬ (T r).IsSplitter := by
  rintro ⟨e, b, hb⟩
  rcases h.cases hr with ⟨h1, h2⟩ | h2 | ⟨h1, h2⟩ <;> rw [h2] at hb <;> cases hb

omit h in
theorem on {r : Nat × Nat} (hr : OnSpan g.nb p d k r) : fillSpan g.nb T p d k r = .belt d d := if_pos hr
omit h in
theorem off {r : Nat × Nat} (hr : ¬ OnSpan g.nb p d k r) : fillSpan g.nb T p d k r = T r := if_neg hr

theorem takes {r : Nat × Nat} {e : Dir} (ht : (T r).Takes e) : (fillSpan g.nb T p d k r).Takes e := by
  by_cases hr : OnSpan g.nb p d k r
  · rw [on hr]; exact (h.takes_p hr ht).2.symm
  · rw [off hr]; exact ht

theorem emits {r : Nat × Nat} {e : Dir} (ht : (T r).Emits e) : (fillSpan g.nb T p d k r).Emits e := by
  by_cases hr : OnSpan g.nb p d k r
  · rw [on hr]; exact (h.emits_q hr ht).2.symm
  · rw [off hr]; exact ht

theorem splitter {r : Nat × Nat} {e : Dir} {b : Bool} : fillSpan g.nb T p d k r = .splitter e b ↔ T r = .splitter e b := by
  by_cases hr : OnSpan g.nb p d k r
  · rw [on hr]
    exact ⟨fun h => (by cases h), fun h1 => absurd ⟨e, b, h1⟩ (h.not_splitter hr)⟩
  · rw [off hr]

theorem isSplitter {r : Nat × Nat} : (fillSpan g.nb T p d k r).IsSplitter ↔ (T r).IsSplitter :=
  exists_congr fun e => exists_congr fun b => h.splitter

theorem joined : Joined g.In g.nb (fillSpan g.nb T p d k) := by
  constructor
  · intro a b e ha hb he hs
    by_cases hr : OnSpan g.nb p d k a
    · rw [on hr] at he
      obtain rfl : d = e := he
      obtain ⟨i, hi, hw⟩ := hr
      rcases Nat.lt_or_ge i k with h1 | h1
      · have : OnSpan g.nb p d k b := ⟨i + 1, h1, walk_succ_some hw hb⟩
        rw [on this]; rfl
      · obtain rfl : i = k := by omega
        rw [h.span.1.2.1] at hw; cases hw
        exact h.takes (h.rules.joined.out q b d ha hb (by rw [h.span.1.2.2.2.1]; rfl) (h.not_splitter h.q_on))
    · rw [off hr] at he hs
      exact h.takes (h.rules.joined.out a b e ha hb he hs)
  · intro a b e ha hb he hs
    by_cases hr : OnSpan g.nb p d k b
    · rw [on hr] at he
      obtain rfl : d = e := he
      obtain ⟨i, hi, hw⟩ := hr
      rcases Nat.eq_zero_or_pos i with rfl | h0
      · cases hw
        exact h.emits (h.rules.joined.inp a p d ha hb (by rw [h.span.1.2.2.1]; rfl) (h.not_splitter h.p_on))
      · obtain ⟨r, h1, h2⟩ := walk_le hw (show i - 1 ≤ i by omega)
        rw [show i - (i - 1) = 1 by omega] at h2
        have h3 : g.nb r d = some b := by simpa [walk] using h2
        obtain rfl := Grid.nb_inj h.wf ha (walk_in h.wf h.start h1) hb h3
        have : OnSpan g.nb p d k a := ⟨i - 1, by omega, h1⟩
        rw [on this]; rfl
    · rw [off hr] at he hs
      exact h.emits (h.rules.joined.inp a b e ha hb he hs)

theorem pair {a b : Nat × Nat} {e : Dir} : SplitterPair g.nb (fillSpan g.nb T p d k) a b e ↔ SplitterPair g.nb T a b e := by
  unfold SplitterPair; rw [h.splitter, h.splitter]

theorem splitters : PairedSplitters g.In g.nb (fillSpan g.nb T p d k) := by
  constructor
  · intro a e ha ht
    obtain ⟨b, hb, hp⟩ := h.rules.splitters.head a e ha (h.splitter.1 ht)
    exact ⟨b, hb, h.pair.2 hp⟩
  · intro a e ha ht
    obtain ⟨b, hb, hp⟩ := h.rules.splitters.tail a e ha (h.splitter.1 ht)
    exact ⟨b, hb, h.pair.2 hp⟩

theorem ends : SplitterEnds g.In g.nb (fillSpan g.nb T p d k) := by
  constructor
  · intro a e b ha ht
    rcases h.rules.ends.used a e b ha (h.splitter.1 ht) with hu | hu
    · exact .inl fun c hc => h.takes (hu c hc)
    · exact .inr fun c hc => h.emits (hu c hc)
  · intro a b e hd ha ht hb i o hio
    have hs := h.splitter.1 ht
    by_cases hr : OnSpan g.nb p d k b
    · rw [on hr] at hio; cases hio
      exact (h.side a b e hd ha hs hb hr).symm
    · rw [off hr] at hio
      exact h.rules.ends.noLeak a b e hd ha hs hb i o hio

theorem not_along {r : Nat × Nat} {e : Dir} (hr : ¬ (T r).UgAlong e) : ¬ (fillSpan g.nb T p d k r).UgAlong e := by
  by_cases ho : OnSpan g.nb p d k r
  · rw [on ho]; exact id
  · rw [off ho]; exact hr

theorem ug {r : Nat × Nat} {e : Dir} {b : Bool} (ht : fillSpan g.nb T p d k r = .underground e b) :
    ¬ OnSpan g.nb p d k r ∧ T r = .underground e b := by
  by_cases ho : OnSpan g.nb p d k r
  · rw [on ho] at ht; cases ht
  · rw [off ho] at ht; exact ⟨ho, ht⟩

/-- A pair other than the one removed stays. -/
theorem keep {a b : Nat × Nat} {e : Dir} {m : Nat} (ha : g.In a) (hu : UgPair g.nb T a b e m) (hne : ¬ (OnSpan g.nb p d k a)) :
    UgPair g.nb (fillSpan g.nb T p d k) a b e m ∧ ¬ OnSpan g.nb p d k b := by
  have hb : ¬ OnSpan g.nb p d k b := by
    intro hb
    rcases h.cases hb with ⟨h1, h2⟩ | h2 | ⟨h1, h2⟩ <;> have := hu.2.2.2.1 <;> rw [h2] at this <;> cases this
    subst h1
    have := ((h.span.1.back h.wf h.start).unique (hu.back h.wf ha)).2
    exact hne (this ▸ h.p_on)
  refine ⟨⟨hu.1, hu.2.1, ?_, ?_, fun i h1 h2 r hr => h.not_along (hu.2.2.2.2 i h1 h2 r hr)⟩, hb⟩
  · rw [off hne]; exact hu.2.2.1
  · rw [off hb]; exact hu.2.2.2.1

theorem keep' {a b : Nat × Nat} {e : Dir} {m : Nat} (ha : g.In a) (hu : UgPair g.nb T a b e m) (hne : ¬ (OnSpan g.nb p d k b)) :
    ¬ OnSpan g.nb p d k a := by
  intro hb
  rcases h.cases hb with ⟨h1, h2⟩ | h2 | ⟨h1, h2⟩ <;> have := hu.2.2.1 <;> rw [h2] at this <;> cases this
  subst h1
  have := (h.span.1.first.unique hu.first).2
  exact hne (this ▸ h.q_on)

theorem was {a b : Nat × Nat} {e : Dir} {m : Nat} (ha : g.In a) (hu : UgPair g.nb (fillSpan g.nb T p d k) a b e m) :
    UgPair g.nb T a b e m := by
  obtain ⟨h1, h2⟩ := h.ug hu.2.2.1
  obtain ⟨b0, m0, _, h4⟩ := h.rules.undergrounds.entrance a e ha h2
  obtain ⟨h5, _⟩ := h.keep ha h4 h1
  obtain ⟨rfl, rfl⟩ := hu.first.unique h5.first
  exact h4

theorem undergrounds : PairedUndergrounds g.In g.nb (fillSpan g.nb T p d k) L := by
  refine ⟨?_, ?_, ?_⟩
  · intro a e ha ht
    obtain ⟨h1, h2⟩ := h.ug ht
    obtain ⟨b, m, hb, h4⟩ := h.rules.undergrounds.entrance a e ha h2
    exact ⟨b, m, hb, (h.keep ha h4 h1).1⟩
  · intro b e hb ht
    obtain ⟨h1, h2⟩ := h.ug ht
    obtain ⟨a, m, ha, h4⟩ := h.rules.undergrounds.exit b e hb h2
    exact ⟨a, m, ha, (h.keep ha h4 (h.keep' ha h4 h1)).1⟩
  · intro a b e m ha hu
    exact h.rules.undergrounds.len a b e m ha (h.was ha hu)

theorem surface : SurfaceShut g.In (fillSpan g.nb T p d k) shutB := by
  intro a e ha hs
  obtain ⟨s1, s2, s3, s4⟩ := h.rules.surface a e ha hs
  by_cases hr : OnSpan g.nb p d k a
  · rw [on hr]
    refine ⟨?_, ?_, by simp, by simp⟩
    · rintro (rfl : d = e)
      obtain ⟨i, hi, hw⟩ := hr
      rcases Nat.lt_or_ge i k with h1 | h1
      · obtain ⟨s, e1, e2⟩ := walk_le h.span.1.2.1 (show i + 1 ≤ k by omega)
        have : g.nb a d = some s := by simpa [walk, hw] using e1
        exact (h.rules.under.2 p q d k h.start h.span.1 i h1 a s hw e1).1 (h.shut a d s hs this)
      · obtain rfl : i = k := by omega
        rw [h.span.1.2.1] at hw; cases hw
        exact s1 (by rw [h.span.1.2.2.2.1]; rfl)
    · intro (hd : d = e.opp)
      obtain rfl : e = d.opp := by rw [hd, Dir.opp_opp]
      obtain ⟨i, hi, hw⟩ := hr
      rcases Nat.eq_zero_or_pos i with rfl | h0
      · cases hw
        exact s2 (by rw [h.span.1.2.2.1, Dir.opp_opp]; rfl)
      · obtain ⟨r, e1, e2⟩ := walk_le hw (show i - 1 ≤ i by omega)
        rw [show i - (i - 1) = 1 by omega] at e2
        have e3 : g.nb r d = some a := by simpa [walk] using e2
        have := Grid.nb_opp h.wf (walk_in h.wf h.start e1) e3
        have hw' : walk g.nb p d (i - 1 + 1) = some a := by rw [show i - 1 + 1 = i by omega]; exact hw
        exact (h.rules.under.2 p q d k h.start h.span.1 (i - 1) (by omega) r a e1 hw').2 (h.shut a d.opp r hs this)
  · rw [off hr]; exact ⟨s1, s2, s3, s4⟩

theorem basicRules : BasicRules g.In g.nb (fillSpan g.nb T p d k) shutB shutU L where
  basic := by
    intro a ha
    by_cases hr : OnSpan g.nb p d k a
    · rw [on hr]; show d ≠ d.opp; exact (Dir.opp_ne d).symm
    · rw [off hr]; exact h.rules.basic a ha
  splitters := h.splitters
  joined := h.joined
  ends := h.ends
  undergrounds := h.undergrounds
  surface := h.surface
  under := by
    refine ⟨fun a e ha hs => ?_, fun a b e m ha hu => h.rules.under.2 a b e m ha (h.was ha hu)⟩
    obtain ⟨h1, h2⟩ := h.rules.under.1 a e ha hs
    exact ⟨fun ht => h1 (h.ug ht).2, fun ht => h2 (h.ug ht).2⟩

open Classical in
theorem colours {n : Nat} {col : Nat × Nat → Nat} (hc : ColourRules g.In g.nb T n col) :
    ColourRules g.In g.nb (fillSpan g.nb T p d k) n (fun r => if OnSpan g.nb p d k r then col p else col r) ∧
    ∀ r, T r ≠ .empty → (if OnSpan g.nb p d k r then col p else col r) = col r := by
  have hpq : col p = col q := hc.under p q d k h.start h.span.1
  refine ⟨⟨?_, ?_, ?_⟩, ?_⟩
  · intro r hr
    show (if OnSpan g.nb p d k r then col p else col r) < n
    split
    · exact hc.lt p h.start
    · exact hc.lt r hr
  · intro a b e ha hb he hs
    show (if OnSpan g.nb p d k a then col p else col a) = if OnSpan g.nb p d k b then col p else col b
    by_cases hr : OnSpan g.nb p d k a
    · rw [if_pos hr]
      rw [on hr] at he
      obtain rfl : d = e := he
      by_cases hr' : OnSpan g.nb p d k b
      · rw [if_pos hr']
      · rw [if_neg hr']
        obtain ⟨i, hi, hw⟩ := hr
        rcases Nat.lt_or_ge i k with h1 | h1
        · exact absurd ⟨i + 1, h1, walk_succ_some hw hb⟩ hr'
        · obtain rfl : i = k := by omega
          rw [h.span.1.2.1] at hw; cases hw
          rw [hpq]
          exact hc.surface q b d ha hb (by rw [h.span.1.2.2.2.1]; rfl) (h.not_splitter h.q_on)
    · rw [if_neg hr]
      rw [off hr] at he hs
      have := hc.surface a b e ha hb he hs
      by_cases hr' : OnSpan g.nb p d k b
      · rw [if_pos hr', this, (h.takes_p hr' (h.rules.joined.out a b e ha hb he hs)).1]
      · rw [if_neg hr', this]
  · intro a b e m ha hu
    show (if OnSpan g.nb p d k a then col p else col a) = if OnSpan g.nb p d k b then col p else col b
    rw [if_neg (h.ug hu.2.2.1).1, if_neg (h.ug hu.2.2.2.1).1]
    exact hc.under a b e m ha (h.was ha hu)
  · intro r hr
    split
    · rename_i ho
      rcases h.cases ho with ⟨h1, h2⟩ | h2 | ⟨h1, h2⟩
      · rw [h1]
      · exact absurd h2 hr
      · rw [h1, hpq]
    · rfl

theorem sameEnds : SameEnds g.nb T g.In (fillSpan g.nb T p d k) := by
  intro a e ha hn
  by_cases hr : OnSpan g.nb p d k a
  · refine ⟨⟨fun he => ?_, h.emits⟩, ⟨fun he => ?_, h.takes⟩⟩
    · rw [on hr] at he
      obtain rfl : d = e := he
      obtain ⟨i, hi, hw⟩ := hr
      rcases Nat.lt_or_ge i k with h1 | h1
      · obtain ⟨s, e1, e2⟩ := walk_le h.span.1.2.1 (show i + 1 ≤ k by omega)
        have : g.nb a d = some s := by simpa [walk, hw] using e1
        rw [hn] at this; cases this
      · obtain rfl : i = k := by omega
        rw [h.span.1.2.1] at hw; cases hw
        rw [h.span.1.2.2.2.1]; rfl
    · rw [on hr] at he
      have he' : d = e.opp := he
      obtain rfl : e = d.opp := by rw [he', Dir.opp_opp]
      obtain ⟨i, hi, hw⟩ := hr
      rcases Nat.eq_zero_or_pos i with rfl | h0
      · cases hw
        rw [h.span.1.2.2.1, Dir.opp_opp]; rfl
      · obtain ⟨r, e1, e2⟩ := walk_le hw (show i - 1 ≤ i by omega)
        rw [show i - (i - 1) = 1 by omega] at e2
        have e3 : g.nb r d = some a := by simpa [walk] using e2
        rw [Grid.nb_opp h.wf (walk_in h.wf h.start e1) e3] at hn
        cases hn
  · rw [off hr]; exact ⟨Iff.rfl, Iff.rfl⟩

theorem lead (hl : SplittersLead g.nb T g.In) : SplittersLead g.nb (fillSpan g.nb T p d k) g.In := by
  intro s b e hd hs ht hb hc
  refine h.takes (hl s b e hd hs (h.splitter.1 ht) hb ?_)
  by_cases hr : OnSpan g.nb p d k b
  · rw [on hr] at hc
    rcases hc with hc | ⟨x, y, hc⟩ <;> cases hc
  · rw [off hr] at hc; exact hc

end SpanAt

/-- Where splitters lead somewhere, none points at a span from the side. -/
theorem SplittersLead.side {p q : Nat × Nat} {d : Dir} {k : Nat} (hl : SplittersLead g.nb T g.In) (hs : EmptySpan g.nb T p q d k) :
    ∀ s b e h, g.In s → T s = .splitter e h → g.nb s e = some b → OnSpan g.nb p d k b → e = d := by
  intro s b e hd hin ht hb hr
  have hc : (b = p ∧ T b = .underground d true) ∨ T b = .empty ∨ (b = q ∧ T b = .underground d false) := by
    obtain ⟨i, hi, hw⟩ := hr
    rcases Nat.eq_zero_or_pos i with rfl | h0
    · cases hw; exact .inl ⟨rfl, hs.1.2.2.1⟩
    · rcases Nat.lt_or_ge i k with h1 | h1
      · exact .inr (.inl (hs.2 i h0 h1 b hw))
      · obtain rfl : i = k := by omega
        rw [hs.1.2.1] at hw; cases hw
        exact .inr (.inr ⟨rfl, hs.1.2.2.2.1⟩)
  have := hl s b e hd hin ht hb (by
    rcases hc with ⟨_, h⟩ | h | ⟨_, h⟩
    · exact .inr ⟨_, _, h⟩
    · exact .inl h
    · exact .inr ⟨_, _, h⟩)
  rcases hc with ⟨_, h⟩ | h | ⟨_, h⟩ <;> rw [h] at this
  · exact this.symm
  · cases this
  · cases this

/-- What is kept when spans are filled. -/
structure Filled (g : Grid) (T : Nat × Nat → Tile) (col : Nat × Nat → Nat) (T' : Nat × Nat → Tile) (col' : Nat × Nat → Nat) : Prop where
  ends : SameEnds g.nb T g.In T'
  tiles : ∀ r, T' r = T r ∨ ∃ d, T' r = .belt d d ∧ (T r = .empty ∨ ∃ b, T r = .underground d b)
  colours : ∀ r, T r ≠ .empty → col' r = col r

theorem Filled.trans {col col' col'' : Nat × Nat → Nat} {T' T'' : Nat × Nat → Tile} (h : Filled g T col T' col')
    (h' : Filled g T' col' T'' col'') : Filled g T col T'' col'' := by
  refine ⟨fun a e ha hn => ?_, fun r => ?_, fun r hr => ?_⟩
  · exact ⟨(h'.ends a e ha hn).1.trans (h.ends a e ha hn).1, (h'.ends a e ha hn).2.trans (h.ends a e ha hn).2⟩
  · rcases h'.tiles r with h1 | ⟨d, h1, h2⟩
    · rw [h1]; exact h.tiles r
    · rcases h.tiles r with h3 | ⟨e, h3, _⟩
      · rw [h3] at h2; exact .inr ⟨d, h1, h2⟩
      · rw [h3] at h2; rcases h2 with h2 | ⟨b, h2⟩ <;> cases h2
  · have : T' r ≠ .empty := by
      rcases h.tiles r with h1 | ⟨d, h1, _⟩
      · rw [h1]; exact hr
      · rw [h1]; simp
    rw [h'.colours r this, h.colours r hr]

open Classical in
/-- All empty spans can be filled. -/
theorem fill_all (hg : g.WF) (hS : ∀ a e b, shutB a e → g.nb a e = some b → shutU a e) {n : Nat} (m : Nat) :
    ∀ (T : Nat × Nat → Tile) (col : Nat × Nat → Nat), (g.cells.filter fun r => T r = .empty).length = m →
      BasicRules g.In g.nb T shutB shutU L → ColourRules g.In g.nb T n col → SplittersLead g.nb T g.In →
      ∃ T' col', BasicRules g.In g.nb T' shutB shutU L ∧ ColourRules g.In g.nb T' n col' ∧ SplittersLead g.nb T' g.In ∧
        Filled g T col T' col' ∧ ∀ p q d k, g.In p → ¬ EmptySpan g.nb T' p q d k := by
  induction m using Nat.strong_induction_on with
  | _ m ih =>
    intro T col hm hr hc hl
    by_cases hex : ∃ p q d k, g.In p ∧ EmptySpan g.nb T p q d k
    · obtain ⟨p, q, d, k, hp, hs⟩ := hex
      have h : SpanAt g T shutB shutU L p q d k := ⟨hg, hr, hp, hs, hl.side hs, hS⟩
      obtain ⟨r1, e1, _⟩ := walk_le hs.1.2.1 (show 1 ≤ k by have := hs.1.1; omega)
      have hempty : T r1 = .empty := hs.2 1 (by omega) (by have := hs.1.1; omega) r1 e1
      have hlt : (g.cells.filter fun r => fillSpan g.nb T p d k r = .empty).length < m := by
        rw [← hm]
        have hsub : List.Sublist (g.cells.filter fun r => fillSpan g.nb T p d k r = .empty) (g.cells.filter fun r => T r = .empty) := by
          apply List.monotone_filter_right
          intro r hr'
          simp only [decide_eq_true_eq] at hr' ⊢
          by_cases ho : OnSpan g.nb p d k r
          · rw [SpanAt.on ho] at hr'; cases hr'
          · rw [SpanAt.off ho] at hr'; exact hr'
        refine Nat.lt_of_le_of_ne hsub.length_le fun heq => ?_
        have := hsub.eq_of_length heq
        have hin : r1 ∈ g.cells.filter fun r => T r = .empty := by
          rw [List.mem_filter]
          exact ⟨(g.mem_cells r1).2 (walk_in hg hp e1), by simpa using hempty⟩
        rw [← this, List.mem_filter] at hin
        have h2 := hin.2
        rw [SpanAt.on ⟨1, by have := hs.1.1; omega, e1⟩] at h2
        simp at h2
      obtain ⟨hc1, hc2⟩ := h.colours hc
      obtain ⟨T', col', k1, k2, k3, k4, k5⟩ := ih _ hlt (fillSpan g.nb T p d k) _ rfl h.basicRules hc1 (h.lead hl)
      refine ⟨T', col', k1, k2, k3, Filled.trans ⟨h.sameEnds, fun r => ?_, hc2⟩ k4, k5⟩
      by_cases ho : OnSpan g.nb p d k r
      · refine .inr ⟨d, SpanAt.on ho, ?_⟩
        rcases h.cases ho with ⟨_, h2⟩ | h2 | ⟨_, h2⟩
        · exact .inr ⟨_, h2⟩
        · exact .inl h2
        · exact .inr ⟨_, h2⟩
      · exact .inl (SpanAt.off ho)
    · exact ⟨T, col, hr, hc, hl, ⟨fun _ _ _ _ => ⟨Iff.rfl, Iff.rfl⟩, fun _ => .inl rfl, fun _ _ => rfl⟩,
        fun p q d k hp hs => hex ⟨p, q, d, k, hp, hs⟩⟩

end

end FSat
