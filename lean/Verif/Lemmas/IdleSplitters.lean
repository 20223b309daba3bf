import Verif.Spec.NetFree
import Verif.Lemmas.LayoutFlow
/-!
Splitters whose two halves get the same can be replaced by two belts.
-/

namespace FSat

section
variable (In : Nat × Nat → Prop) (nb : Nat × Nat → Dir → Option (Nat × Nat)) (T : Nat × Nat → Tile) (n : Nat) (φ : Nat → Nat × Nat → Nat)

/-- A half of a splitter both halves of which get the same. -/
def IdleHalf (p : Nat × Nat) : Prop :=
  ∃ q d, In p ∧ In q ∧ (SplitterPair nb T p q d ∨ SplitterPair nb T q p d) ∧ ∀ k < n - 1, φ k p = φ k q

/-- A straight belt in place of a splitter half. -/
def Tile.unsplit : Tile → Tile
  | .splitter d _ => .belt d d
  | t => t

open Classical in
/-- The layout with belts in place of the idle splitters. -/
noncomputable def unsplit (p : Nat × Nat) : Tile := if IdleHalf In nb T n φ p then (T p).unsplit else T p

end

section
variable {In : Nat × Nat → Prop} {nb : Nat × Nat → Dir → Option (Nat × Nat)} {T : Nat × Nat → Tile} {n : Nat} {φ : Nat → Nat × Nat → Nat}

theorem unsplit_cases (p : Nat × Nat) : unsplit In nb T n φ p = T p ∨
    IdleHalf In nb T n φ p ∧ ∃ d b, T p = .splitter d b ∧ unsplit In nb T n φ p = .belt d d := by
  unfold unsplit
  split
  · rename_i h
    right
    refine ⟨h, ?_⟩
    obtain ⟨q, d, _, _, h1 | h1, _⟩ := h
    · exact ⟨d, true, h1.1, by rw [h1.1]; rfl⟩
    · exact ⟨d, false, h1.2.2, by rw [h1.2.2]; rfl⟩
  · exact .inl rfl

theorem unsplit_takes (p : Nat × Nat) (d : Dir) : (unsplit In nb T n φ p).Takes d ↔ (T p).Takes d := by
  rcases unsplit_cases (In := In) (nb := nb) (T := T) (n := n) (φ := φ) p with h | ⟨_, e, b, h1, h2⟩
  · rw [h]
  · rw [h1, h2]; exact Iff.rfl

theorem unsplit_emits (p : Nat × Nat) (d : Dir) : (unsplit In nb T n φ p).Emits d ↔ (T p).Emits d := by
  rcases unsplit_cases (In := In) (nb := nb) (T := T) (n := n) (φ := φ) p with h | ⟨_, e, b, h1, h2⟩
  · rw [h]
  · rw [h1, h2]; exact Iff.rfl

theorem unsplit_along (p : Nat × Nat) (d : Dir) : (unsplit In nb T n φ p).UgAlong d ↔ (T p).UgAlong d := by
  rcases unsplit_cases (In := In) (nb := nb) (T := T) (n := n) (φ := φ) p with h | ⟨_, e, b, h1, h2⟩
  · rw [h]
  · rw [h1, h2]; exact Iff.rfl

theorem unsplit_ug (p : Nat × Nat) (d : Dir) (b : Bool) : unsplit In nb T n φ p = .underground d b ↔ T p = .underground d b := by
  rcases unsplit_cases (In := In) (nb := nb) (T := T) (n := n) (φ := φ) p with h | ⟨_, e, b', h1, h2⟩
  · rw [h]
  · rw [h1, h2]; exact ⟨(fun h => by cases h), (fun h => by cases h)⟩

theorem unsplit_splitter {p : Nat × Nat} {d : Dir} {b : Bool} (h : unsplit In nb T n φ p = .splitter d b) :
    T p = .splitter d b ∧ ¬ IdleHalf In nb T n φ p := by
  by_cases hi : IdleHalf In nb T n φ p
  · exfalso
    rcases unsplit_cases (In := In) (nb := nb) (T := T) (n := n) (φ := φ) p with h1 | ⟨_, e, b', h1, h2⟩
    · unfold unsplit at h
      rw [if_pos hi] at h
      cases ht : T p <;> rw [ht] at h <;> simp [Tile.unsplit] at h
    · rw [h2] at h; cases h
  · unfold unsplit at h
    rw [if_neg hi] at h
    exact ⟨h, hi⟩

theorem unsplit_conn (p q : Nat × Nat) (d : Dir) : Connected nb (unsplit In nb T n φ) p q d ↔ Connected nb T p q d := by
  unfold Connected
  rw [unsplit_takes, unsplit_emits]

theorem unsplit_pair (p q : Nat × Nat) (d : Dir) (k : Nat) : UgPair nb (unsplit In nb T n φ) p q d k ↔ UgPair nb T p q d k := by
  unfold UgPair
  simp only [unsplit_ug, unsplit_along]

theorem unsplit_splitterPair {p q : Nat × Nat} {d : Dir} (h : SplitterPair nb (unsplit In nb T n φ) p q d) :
    SplitterPair nb T p q d ∧ ¬ IdleHalf In nb T n φ p := by
  obtain ⟨h1, h2, h3⟩ := h
  exact ⟨⟨(unsplit_splitter h1).1, h2, (unsplit_splitter h3).1⟩, (unsplit_splitter h1).2⟩

/-- The other half of a splitter half is unique. -/
theorem idle_other (hinj : ∀ p q r d, In p → In q → nb p d = some r → nb q d = some r → p = q) {p q : Nat × Nat} {d : Dir} (hp : In p)
    (hpair : SplitterPair nb T p q d) : IdleHalf In nb T n φ p ↔ IdleHalf In nb T n φ q := by
  constructor
  · rintro ⟨r, e, _, hr, h | h, hk⟩
    · have : d = e := by have := hpair.1.symm.trans h.1; simpa using this
      subst this
      have : r = q := by have := h.2.1.symm.trans hpair.2.1; simpa using this
      subst this
      exact ⟨p, d, hr, hp, .inr hpair, fun k hk' => (hk k hk').symm⟩
    · have := hpair.1.symm.trans h.2.2
      simp at this
  · rintro ⟨r, e, hq, hr, h | h, hk⟩
    · have := hpair.2.2.symm.trans h.1
      simp at this
    · have : d = e := by have := hpair.2.2.symm.trans h.2.2; simpa using this
      subst this
      have := hinj r p q d.ccw hr hp h.2.1 hpair.2.1
      subst this
      exact ⟨q, d, hp, hq, .inl hpair, fun k hk' => (hk k hk').symm⟩

variable {shutB shutU : Nat × Nat → Dir → Prop} {L : Option Nat}

theorem unsplit_rules (hinj : ∀ p q r d, In p → In q → nb p d = some r → nb q d = some r → p = q)
    (hopp : ∀ p q d, In p → nb p d = some q → In q ∧ nb q d.opp = some p)
    (hr : BasicRules In nb T shutB shutU L) (hf : FullSplitters In T (Connected nb T)) :
    BasicRules In nb (unsplit In nb T n φ) shutB shutU L := by
  have notIdle : ∀ p, unsplit In nb T n φ p = T p ∨ (T p).IsSplitter := by
    intro p
    rcases unsplit_cases (In := In) (nb := nb) (T := T) (n := n) (φ := φ) p with h | ⟨_, e, b, h1, _⟩
    · exact .inl h
    · exact .inr ⟨e, b, h1⟩
  have front : ∀ p q d b, In p → T p = .splitter d b → nb p d = some q → (T q).Takes d := by
    intro p q d b hp ht hq
    obtain ⟨⟨r, h1, _, h2⟩, _⟩ := hf p d b hp ht
    rw [hq] at h1; cases h1; exact h2
  have back : ∀ p q d b, In p → T p = .splitter d b → nb p d.opp = some q → (T q).Emits d := by
    intro p q d b hp ht hq
    obtain ⟨_, r, hr', h1, h2, _⟩ := hf p d b hp ht
    have := (hopp r p d hr' h1).2
    rw [hq] at this; cases this; exact h2
  refine ⟨fun p hp => ?_, ⟨fun p d hp ht => ?_, fun q d hq ht => ?_⟩, ⟨fun p q d hp hq he hs => ?_, fun p q d hp hq he hs => ?_⟩,
    ⟨fun p d b hp ht => ?_, fun p q d b hp ht hq i o hb => ?_⟩, ⟨fun p d hp ht => ?_, fun q d hq ht => ?_, fun p q d k hp hpair => ?_⟩,
    fun p d hp hs => ?_, fun p d hp hs => ?_, fun p q d k hp hpair => ?_⟩
  · rcases unsplit_cases (In := In) (nb := nb) (T := T) (n := n) (φ := φ) p with h | ⟨_, e, b, h1, h2⟩
    · rw [h]; exact hr.basic p hp
    · rw [h2]; exact (Dir.opp_ne e).symm
  · obtain ⟨h1, h2⟩ := unsplit_splitter ht
    obtain ⟨q, hq, hpair⟩ := hr.splitters.head p d hp h1
    refine ⟨q, hq, ht, hpair.2.1, ?_⟩
    rw [idle_other hinj hp hpair] at h2
    unfold unsplit
    rw [if_neg h2]
    exact hpair.2.2
  · obtain ⟨h1, h2⟩ := unsplit_splitter ht
    obtain ⟨p, hp, hpair⟩ := hr.splitters.tail q d hq h1
    refine ⟨p, hp, ?_, hpair.2.1, ht⟩
    rw [← idle_other hinj hp hpair] at h2
    unfold unsplit
    rw [if_neg h2]
    exact hpair.1
  · rw [unsplit_emits] at he
    rw [unsplit_takes]
    by_cases hsp : (T p).IsSplitter
    · obtain ⟨e, b, ht⟩ := hsp
      have : e = d := by rw [ht] at he; exact he
      subst this
      exact front p q e b hp ht hq
    · exact hr.joined.out p q d hp hq he hsp
  · rw [unsplit_takes] at he
    rw [unsplit_emits]
    by_cases hsp : (T q).IsSplitter
    · obtain ⟨e, b, ht⟩ := hsp
      have : e = d := by rw [ht] at he; exact he
      subst this
      obtain ⟨hq', h2⟩ := hopp p q e hp hq
      exact back q p e b hq' ht h2
    · exact hr.joined.inp p q d hp hq he hsp
  · obtain ⟨h1, _⟩ := unsplit_splitter ht
    left
    intro q hq
    rw [unsplit_takes]
    exact front p q d b hp h1 hq
  · obtain ⟨h1, _⟩ := unsplit_splitter ht
    have := front p q d b hp h1 hq
    rw [← unsplit_takes (In := In) (nb := nb) (T := T) (n := n) (φ := φ), hb] at this
    exact this
  · rw [unsplit_ug] at ht
    obtain ⟨q, k, hq, hpair⟩ := hr.undergrounds.entrance p d hp ht
    exact ⟨q, k, hq, (unsplit_pair p q d k).2 hpair⟩
  · rw [unsplit_ug] at ht
    obtain ⟨p, k, hp, hpair⟩ := hr.undergrounds.exit q d hq ht
    exact ⟨p, k, hp, (unsplit_pair p q d k).2 hpair⟩
  · exact hr.undergrounds.len p q d k hp ((unsplit_pair p q d k).1 hpair)
  · have := hr.surface p d hp hs
    rw [unsplit_emits, unsplit_takes, ne_eq, unsplit_ug, ne_eq, unsplit_ug]
    exact this
  · have := hr.under.1 p d hp hs
    rw [ne_eq, unsplit_ug, ne_eq, unsplit_ug]
    exact this
  · exact hr.under.2 p q d k hp ((unsplit_pair p q d k).1 hpair)

theorem unsplit_full (hf : FullSplitters In T (Connected nb T)) :
    FullSplitters In (unsplit In nb T n φ) (Connected nb (unsplit In nb T n φ)) := by
  intro p d b hp ht
  simp only [unsplit_conn]
  exact hf p d b hp (unsplit_splitter ht).1

theorem unsplit_steady (hf : FullSplitters In T (Connected nb T))
    (hk : ∀ k < n - 1, Steady In nb T (Connected nb T) fun p => (φ k p : Rat)) {k : Nat} (hkn : k < n - 1) :
    Steady In nb (unsplit In nb T n φ) (Connected nb (unsplit In nb T n φ)) fun p => (φ k p : Rat) := by
  have hs := hk k hkn
  have hc : Connected nb (unsplit In nb T n φ) = Connected nb T := by
    funext p q d
    exact propext (unsplit_conn p q d)
  rw [hc]
  refine ⟨fun p q d hp hcn hns => ?_, fun p q d k' hp hpair => hs.under p q d k' hp ((unsplit_pair p q d k').1 hpair),
    fun p q d hp hq hpair r hr => hs.splitter p q d hp hq (unsplit_splitterPair hpair).1 r hr⟩
  by_cases hsp : (T p).IsSplitter
  · have hidle : IdleHalf In nb T n φ p := by
      rcases unsplit_cases (In := In) (nb := nb) (T := T) (n := n) (φ := φ) p with h | ⟨h, _⟩
      · rw [h] at hns; exact absurd hsp hns
      · exact h
    obtain ⟨r, e, _, hr, h | h, hkk⟩ := hidle
    · have hem := hcn.2.1
      rw [h.1] at hem
      have : e = d := hem
      subst this
      have := hs.halves hf hp hr h (.inl hcn)
      rw [this, hkk k hkn]
      ring
    · have hem := hcn.2.1
      rw [h.2.2] at hem
      have : e = d := hem
      subst this
      have := hs.halves hf hr hp h (.inr hcn)
      rw [this, hkk k hkn]
      ring
  · exact hs.surface p q d hp hcn hsp

theorem unsplit_noIdle (hin : ∀ p q d, In p → nb p d = some q → In q) : NoIdleSplitter In nb (unsplit In nb T n φ) n φ := by
  intro p q d hp hpair
  obtain ⟨h1, h2⟩ := unsplit_splitterPair hpair
  by_contra hc
  push Not at hc
  exact h2 ⟨q, d, hp, hin p q _ hp h1.2.1, .inl h1, hc⟩

end

end FSat
