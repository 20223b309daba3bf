import Verif.Lemmas.LayoutFlow
/-!
Checking that numbers are a steady flow of a layout without underground belts.
-/

set_option linter.unusedSimpArgs false

namespace FSat

/-- The cell `p` passes items on in direction `d`. -/
def feedsB (g : Grid) (T : Nat × Nat → Tile) (p : Nat × Nat) (d : Dir) : Bool :=
  match g.nb p d with
  | none => false
  | some q => decide ((T p).Emits d) && decide ((T q).Takes d)

/-- The cell `p` gets items that move in direction `d`. -/
def fedB (g : Grid) (T : Nat × Nat → Tile) (p : Nat × Nat) (d : Dir) : Bool :=
  match g.nb p d.opp with
  | none => false
  | some q => feedsB g T q d

theorem feedsB_iff {g : Grid} {T : Nat × Nat → Tile} {p : Nat × Nat} {d : Dir} :
    feedsB g T p d = true ↔ ∃ q, Connected g.nb T p q d := by
  unfold feedsB Connected
  cases g.nb p d <;> simp

theorem fedB_iff {g : Grid} (hg : g.WF) {T : Nat × Nat → Tile} {p : Nat × Nat} (hp : g.In p) {d : Dir} :
    fedB g T p d = true ↔ ∃ q, g.In q ∧ Connected g.nb T q p d := by
  unfold fedB
  constructor
  · intro h
    split at h
    · cases h
    · rename_i q hq
      obtain ⟨r, hr⟩ := feedsB_iff.1 h
      have hqi := Grid.nb_in hg hq
      have := Grid.nb_opp hg hp hq
      rw [Dir.opp_opp, hr.1] at this
      cases this
      exact ⟨q, hqi, hr⟩
  · rintro ⟨q, hq, hc⟩
    rw [Grid.nb_opp hg hq hc.1]
    exact feedsB_iff.2 ⟨_, hc⟩

/-- One splitter output. -/
def shareB (g : Grid) (T : Nat × Nat → Tile) (F : Nat × Nat → Nat) (p q : Nat × Nat) (d : Dir) (r : Nat × Nat) : Bool :=
  F r * ((if feedsB g T p d then 1 else 0) + (if feedsB g T q d then 1 else 0)) ==
    (if fedB g T p d then F p else 0) + (if fedB g T q d then F q else 0)

/-- All cells. -/
def steadyB (g : Grid) (T : Nat × Nat → Tile) (F : Nat × Nat → Nat) : Bool :=
  g.cells.all fun p =>
    match T p with
    | .underground _ _ => false
    | .splitter d true =>
      match g.nb p d.ccw with
      | none => true
      | some q =>
        (match g.nb p d with | some r => shareB g T F p q d r | none => true) &&
        (match g.nb q d with | some r => shareB g T F p q d r | none => true)
    | .splitter _ false => true
    | t => Dir.all.all fun d => !feedsB g T p d || (match g.nb p d with | some q => F q == F p | none => true)

theorem steadyB_sound {g : Grid} (hg : g.WF) {T : Nat × Nat → Tile} {F : Nat × Nat → Nat} (h : steadyB g T F = true) :
    Steady g.In g.nb T (Connected g.nb T) fun p => (F p : Rat) := by
  unfold steadyB at h
  rw [List.all_eq_true] at h
  have h' := fun p hp => h p ((g.mem_cells p).2 hp)
  refine ⟨fun p q d hp hc hns => ?_, fun p q d k hp hpair => ?_, fun p q d hp hq hpair r hr => ?_⟩
  · have := h' p hp
    have hf : feedsB g T p d = true := feedsB_iff.2 ⟨q, hc⟩
    cases ht : T p with
    | underground e b => rw [ht] at this; simp at this
    | splitter e b => exact (hns ⟨e, b, ht⟩).elim
    | _ =>
      rw [ht] at this
      simp only [List.all_eq_true] at this
      have := this d (by cases d <;> decide)
      rw [hf, hc.1] at this
      simp at this
      rw [this]
  · have := h' p hp
    rw [hpair.2.2.1] at this
    simp at this
  · have := h' p hp
    rw [hpair.1] at this
    simp only [hpair.2.1, Bool.and_eq_true] at this
    have hs : shareB g T F p q d r = true := by
      rcases hr with hr | hr
      · have := this.1; rw [hr.1] at this; exact this
      · have := this.2; rw [hr.1] at this; exact this
    unfold shareB at hs
    rw [beq_iff_eq] at hs
    have eo : ∀ x, outlets (Connected g.nb T) x d = ((if feedsB g T x d then 1 else 0 : Nat) : Rat) := by
      intro x
      unfold outlets
      by_cases hx : feedsB g T x d = true
      · rw [if_pos hx, if_pos (feedsB_iff.1 hx)]; simp
      · rw [if_neg hx, if_neg fun hh => hx (feedsB_iff.2 hh)]; simp
    have ea : ∀ x, g.In x → arrives g.In (Connected g.nb T) (fun p => (F p : Rat)) x d = ((if fedB g T x d then F x else 0 : Nat) : Rat) := by
      intro x hxi
      unfold arrives
      by_cases hx : fedB g T x d = true
      · rw [if_pos hx, if_pos ((fedB_iff hg hxi).1 hx)]
      · rw [if_neg hx, if_neg fun hh => hx ((fedB_iff hg hxi).2 hh)]; simp
    rw [eo, eo, ea p hp, ea q hq]
    exact_mod_cast hs

end FSat
