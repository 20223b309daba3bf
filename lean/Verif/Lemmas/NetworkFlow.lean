import Verif.Spec.NetworkFlow
import Verif.Spec.Balancer
import Verif.Lemmas.Benes
import Verif.Lemmas.Rules
import Mathlib.Algebra.BigOperators.Group.Finset.Basic
import Mathlib.Algebra.BigOperators.Group.Finset.Piecewise
import Mathlib.Algebra.Order.Group.Multiset
import Mathlib.Tactic.Abel
import Mathlib.Data.Fintype.EquivFin
/-!
# From the flow on a layout to the flow through its network
-/

set_option linter.unusedVariables false
set_option linter.unusedSimpArgs false
set_option linter.unusedSectionVars false

namespace FSat

section
variable {P : Type} (cells : List P) (nb : P → Dir → Option P) (T : P → Tile) (Fl : Flow P)

/-- The flags and colours follow the belts of the layout. -/
structure Tracks : Prop where
  nodup : cells.Nodup
  nbIn : ∀ p q d, p ∈ cells → nb p d = some q → q ∈ cells ∧ nb q d.opp = some p
  basic : ∀ p ∈ cells, (T p).Basic
  takes : ∀ p ∈ cells, ∀ d, Fl.inp p d = true → (T p).Takes d
  emits : ∀ p ∈ cells, ∀ d, Fl.out p d = true → (T p).Emits d
  takes' : ∀ p ∈ cells, ¬ (T p).IsSplitter → ∀ d, (T p).Takes d → Fl.inp p d = true
  emits' : ∀ p ∈ cells, ¬ (T p).IsSplitter → ∀ d, (T p).Emits d → Fl.out p d = true
  step : ∀ p q d, p ∈ cells → nb p d = some q → Fl.out p d = Fl.inp q d
  entrance : ∀ p ∈ cells, ∀ d, T p = .underground d true → ∃ q k, q ∈ cells ∧ UgPair nb T p q d k
  exit : ∀ q ∈ cells, ∀ d, T q = .underground d false → ∃ p k, p ∈ cells ∧ UgPair nb T p q d k
  back : ∀ p p' q d d' k k', p ∈ cells → p' ∈ cells → UgPair nb T p q d k → UgPair nb T p' q d' k' → p = p'
  colS : ∀ p q d, p ∈ cells → Fl.out p d = true → nb p d = some q → ¬ (T p).IsSplitter → Fl.col p = Fl.col q
  colU : ∀ p q d k, p ∈ cells → UgPair nb T p q d k → Fl.col p = Fl.col q
  front : ∀ p d, p ∈ cells → (T p).IsSplitter → Fl.out p d = true → ∃ q, nb p d = some q

/-- Items go from the cell `p` to the cell `q`. -/
def Nx (p q : P) : Prop := (∃ d, Fl.out p d = true ∧ nb p d = some q) ∨ ∃ d k, UgPair nb T p q d k

/-- Items come to the cell from a cell. -/
def Dst (q : P) : Prop := ∃ p ∈ cells, Nx nb T Fl p q

/-- Items leave the cell on the surface. -/
def HasOut (p : P) : Prop := ∃ d, Fl.out p d = true

/-- Items arrive at the cell on the surface. -/
def HasInp (p : P) : Prop := ∃ d, Fl.inp p d = true

/-- Items come into the cell from outside. -/
def EntryAt (p : P) : Prop := ∃ d, Fl.inp p d = true ∧ nb p d.opp = none

/-- Items leave to the outside. -/
def ExitAt (p : P) : Prop := ∃ d, Fl.out p d = true ∧ nb p d = none

end

theorem Tile.takes_one {t : Tile} {d e : Dir} (h : t.Takes d) (h' : t.Takes e) : d = e := by
  unfold Tile.Takes at h h'
  split at h <;> simp_all

theorem Tile.emits_one {t : Tile} {d e : Dir} (h : t.Emits d) (h' : t.Emits e) : d = e := by
  unfold Tile.Emits at h h'
  split at h <;> simp_all

section
variable {P : Type} {cells : List P} {nb : P → Dir → Option P} {T : P → Tile} {Fl : Flow P}

namespace Tracks
variable (h : Tracks cells nb T Fl)
include h

theorem inpOne {p : P} (hp : p ∈ cells) {d e : Dir} (h1 : Fl.inp p d = true) (h2 : Fl.inp p e = true) : d = e :=
  Tile.takes_one (h.takes p hp d h1) (h.takes p hp e h2)

theorem outOne {p : P} (hp : p ∈ cells) {d e : Dir} (h1 : Fl.out p d = true) (h2 : Fl.out p e = true) : d = e :=
  Tile.emits_one (h.emits p hp d h1) (h.emits p hp e h2)

theorem walkIn {p q : P} {d : Dir} (hp : p ∈ cells) {k : Nat} (hk : walk nb p d k = some q) : q ∈ cells := by
  induction k generalizing q with
  | zero => simp only [walk, Option.some.injEq] at hk; exact hk ▸ hp
  | succ k ih =>
    simp only [walk] at hk
    cases hr : walk nb p d k with
    | none => rw [hr] at hk; cases hk
    | some r => rw [hr] at hk; exact (h.nbIn r q d (ih hr) hk).1

theorem nxIn {p q : P} (hp : p ∈ cells) (hn : Nx nb T Fl p q) : q ∈ cells := by
  rcases hn with ⟨d, _, h2⟩ | ⟨d, k, h2⟩
  · exact (h.nbIn p q d hp h2).1
  · exact h.walkIn hp h2.2.1

theorem nx_func {p q q' : P} (hp : p ∈ cells) (h1 : Nx nb T Fl p q) (h2 : Nx nb T Fl p q') : q = q' := by
  rcases h1 with ⟨d, a, b⟩ | ⟨d, k, a⟩ <;> rcases h2 with ⟨d', a', b'⟩ | ⟨d', k', a'⟩
  · cases h.outOne hp a a'
    rw [b] at b'; exact Option.some.inj b'
  · have := h.emits p hp d a
    rw [a'.2.2.1] at this; exact this.elim
  · have := h.emits p hp d' a'
    rw [a.2.2.1] at this; exact this.elim
  · exact (UgPair.unique a a').2.2

theorem nx_inj {p p' q : P} (hp : p ∈ cells) (hp' : p' ∈ cells) (h1 : Nx nb T Fl p q) (h2 : Nx nb T Fl p' q) : p = p' := by
  have hq := h.nxIn hp h1
  rcases h1 with ⟨d, a, b⟩ | ⟨d, k, a⟩ <;> rcases h2 with ⟨d', a', b'⟩ | ⟨d', k', a'⟩
  · rw [h.step p q d hp b] at a
    rw [h.step p' q d' hp' b'] at a'
    cases h.inpOne hq a a'
    have e1 := (h.nbIn p q d hp b).2
    have e2 := (h.nbIn p' q d hp' b').2
    rw [e1] at e2; exact Option.some.inj e2
  · rw [h.step p q d hp b] at a
    have := h.takes q hq d a
    rw [a'.2.2.2.1] at this; exact this.elim
  · rw [h.step p' q d' hp' b'] at a'
    have := h.takes q hq d' a'
    rw [a.2.2.2.1] at this; exact this.elim
  · exact h.back p p' q d d' k k' hp hp' a a'

/-- A belt or an underground end passes on its items inside or to the outside. -/
theorem src_or {p : P} (hp : p ∈ cells) (hs : ¬ (T p).IsSplitter) (he : T p ≠ .empty) :
    (∃ q, Nx nb T Fl p q) ∨ ExitAt nb Fl p := by
  have hb := h.basic p hp
  have key : ∀ d, (T p).Emits d → (∃ q, Nx nb T Fl p q) ∨ ExitAt nb Fl p := by
    intro d hd
    have ho := h.emits' p hp hs d hd
    cases hn : nb p d with
    | none => exact .inr ⟨d, ho, hn⟩
    | some q => exact .inl ⟨q, .inl ⟨d, ho, hn⟩⟩
  cases ht : T p with
  | empty => exact absurd ht he
  | belt i o => exact key o (by rw [ht]; rfl)
  | underground d b =>
    cases b with
    | false => exact key d (by rw [ht]; rfl)
    | true =>
      obtain ⟨q, k, _, hu⟩ := h.entrance p hp d ht
      exact .inl ⟨q, .inr ⟨d, k, hu⟩⟩
  | splitter d b => exact absurd ⟨d, b, ht⟩ hs
  | _ => rw [ht] at hb; exact hb.elim

theorem dst_or {q : P} (hq : q ∈ cells) (hs : ¬ (T q).IsSplitter) (he : T q ≠ .empty) :
    (∃ p ∈ cells, Nx nb T Fl p q) ∨ EntryAt nb Fl q := by
  have hb := h.basic q hq
  have key : ∀ d, (T q).Takes d → (∃ p ∈ cells, Nx nb T Fl p q) ∨ EntryAt nb Fl q := by
    intro d hd
    have hi := h.takes' q hq hs d hd
    cases hn : nb q d.opp with
    | none => exact .inr ⟨d, hi, hn⟩
    | some p =>
      obtain ⟨hp, hn'⟩ := h.nbIn q p d.opp hq hn
      rw [Dir.opp_opp] at hn'
      exact .inl ⟨p, hp, .inl ⟨d, by rw [h.step p q d hp hn']; exact hi, hn'⟩⟩
  cases ht : T q with
  | empty => exact absurd ht he
  | belt i o => exact key i (by rw [ht]; rfl)
  | underground d b =>
    cases b with
    | true => exact key d (by rw [ht]; rfl)
    | false =>
      obtain ⟨p, k, hp, hu⟩ := h.exit q hq d ht
      exact .inl ⟨p, hp, .inr ⟨d, k, hu⟩⟩
  | splitter d b => exact absurd ⟨d, b, ht⟩ hs
  | _ => rw [ht] at hb; exact hb.elim

theorem src_not {p q : P} (hp : p ∈ cells) (h1 : Nx nb T Fl p q) (h2 : ExitAt nb Fl p) : False := by
  obtain ⟨e, a', b'⟩ := h2
  rcases h1 with ⟨d, a, b⟩ | ⟨d, k, a⟩
  · cases h.outOne hp a a'
    rw [b] at b'; cases b'
  · have := h.emits p hp e a'
    rw [a.2.2.1] at this; exact this.elim

theorem dst_not {p q : P} (hp : p ∈ cells) (h1 : Nx nb T Fl p q) (h2 : EntryAt nb Fl q) : False := by
  have hq := h.nxIn hp h1
  obtain ⟨e, a', b'⟩ := h2
  rcases h1 with ⟨d, a, b⟩ | ⟨d, k, a⟩
  · rw [h.step p q d hp b] at a
    obtain rfl := h.inpOne hq a a'
    rw [(h.nbIn p q d hp b).2] at b'; cases b'
  · have := h.takes q hq e a'
    rw [a.2.2.2.1] at this; exact this.elim

theorem empty_src {p : P} (hp : p ∈ cells) (he : T p = .empty) : (∀ q, ¬ Nx nb T Fl p q) ∧ ¬ ExitAt nb Fl p := by
  have : ∀ d, Fl.out p d ≠ true := fun d hd => by
    have := h.emits p hp d hd
    rw [he] at this; exact this
  refine ⟨fun q hn => ?_, fun ⟨d, hd, _⟩ => this d hd⟩
  rcases hn with ⟨d, a, _⟩ | ⟨d, k, a⟩
  · exact this d a
  · have := a.2.2.1
    rw [he] at this; cases this

theorem empty_dst {q : P} (hq : q ∈ cells) (he : T q = .empty) : (∀ p ∈ cells, ¬ Nx nb T Fl p q) ∧ ¬ EntryAt nb Fl q := by
  have : ∀ d, Fl.inp q d ≠ true := fun d hd => by
    have := h.takes q hq d hd
    rw [he] at this; exact this
  refine ⟨fun p hp hn => ?_, fun ⟨d, hd, _⟩ => this d hd⟩
  rcases hn with ⟨d, a, b⟩ | ⟨d, k, a⟩
  · rw [h.step p q d hp b] at a; exact this d a
  · have := a.2.2.2.1
    rw [he] at this; cases this

theorem split_src {p : P} (hp : p ∈ cells) (hs : (T p).IsSplitter) :
    (∃ q, Nx nb T Fl p q) ↔ ∃ d, Fl.out p d = true := by
  constructor
  · rintro ⟨q, ⟨d, a, _⟩ | ⟨d, k, a⟩⟩
    · exact ⟨d, a⟩
    · obtain ⟨e, b, hs⟩ := hs
      rw [a.2.2.1] at hs; cases hs
  · rintro ⟨d, hd⟩
    obtain ⟨q, hq⟩ := h.front p d hp hs hd
    exact ⟨q, .inl ⟨d, hd, hq⟩⟩

theorem split_dst {q : P} (hq : q ∈ cells) (hs : (T q).IsSplitter) :
    ((∃ p ∈ cells, Nx nb T Fl p q) ∨ EntryAt nb Fl q) ↔ ∃ d, Fl.inp q d = true := by
  constructor
  · rintro (⟨p, hp, ⟨d, a, b⟩ | ⟨d, k, a⟩⟩ | ⟨d, hd, _⟩)
    · rw [h.step p q d hp b] at a; exact ⟨d, a⟩
    · obtain ⟨e, b, hs⟩ := hs
      rw [a.2.2.2.1] at hs; cases hs
    · exact ⟨d, hd⟩
  · rintro ⟨d, hd⟩
    cases hn : nb q d.opp with
    | none => exact .inr ⟨d, hd, hn⟩
    | some p =>
      obtain ⟨hp, hn'⟩ := h.nbIn q p d.opp hq hn
      rw [Dir.opp_opp] at hn'
      exact .inl ⟨p, hp, .inl ⟨d, by rw [h.step p q d hp hn']; exact hd, hn'⟩⟩

open Classical in
/-- The balance of one colour, as multisets: what splitters put out and what comes from outside is what splitters get and what leaves. -/
theorem balance (front : P → P) (hfront : ∀ p ∈ cells, (T p).IsSplitter → ∀ d q, Fl.out p d = true → nb p d = some q → front p = q)
    (f : P → Multiset ℚ) (hf : ∀ p ∈ cells, ¬ (T p).IsSplitter → ∀ q, Nx nb T Fl p q → f q = f p) :
    (∑ p ∈ cells.toFinset with (T p).IsSplitter ∧ HasOut Fl p, f (front p)) + ∑ p ∈ cells.toFinset with EntryAt nb Fl p, f p =
    (∑ p ∈ cells.toFinset with (T p).IsSplitter ∧ HasInp Fl p, f p) + ∑ p ∈ cells.toFinset with ExitAt nb Fl p, f p := by
  have hS : ∀ p, p ∈ cells.toFinset ↔ p ∈ cells := fun p => List.mem_toFinset
  -- the sum over all connections, from both ends
  have key : (∑ p ∈ cells.toFinset with ∃ q, Nx nb T Fl p q, f (if hq : ∃ q, Nx nb T Fl p q then hq.choose else p)) =
      ∑ q ∈ cells.toFinset with Dst cells nb T Fl q, f q := by
    refine Finset.sum_bij (fun p _ => if hq : ∃ q, Nx nb T Fl p q then hq.choose else p) ?_ ?_ ?_ ?_
    · intro p hp
      obtain ⟨hp, hq⟩ := Finset.mem_filter.1 hp
      rw [hS] at hp
      rw [dif_pos hq, Finset.mem_filter, hS]
      exact ⟨h.nxIn hp hq.choose_spec, p, hp, hq.choose_spec⟩
    · intro p hp p' hp' he
      obtain ⟨hp, hq⟩ := Finset.mem_filter.1 hp
      obtain ⟨hp', hq'⟩ := Finset.mem_filter.1 hp'
      rw [hS] at hp hp'
      rw [dif_pos hq, dif_pos hq'] at he
      have h1 := hq.choose_spec
      rw [he] at h1
      exact h.nx_inj hp hp' h1 hq'.choose_spec
    · intro q hq
      obtain ⟨hq, p, hp, hn⟩ := Finset.mem_filter.1 hq
      have hex : ∃ q, Nx nb T Fl p q := ⟨q, hn⟩
      refine ⟨p, Finset.mem_filter.2 ⟨(hS p).2 hp, hex⟩, ?_⟩
      rw [dif_pos hex]
      exact h.nx_func hp hex.choose_spec hn
    · intro p hp; rfl
  have split : ∀ (A : P → Prop) (u : P → Multiset ℚ), (∑ p ∈ cells.toFinset with A p, u p) =
      (∑ p ∈ cells.toFinset with (T p).IsSplitter ∧ A p, u p) + ∑ p ∈ cells.toFinset with ¬ (T p).IsSplitter ∧ A p, u p := by
    intro A u
    rw [← Finset.sum_filter_add_sum_filter_not (s := cells.toFinset.filter A) (p := fun p => (T p).IsSplitter)]
    rw [Finset.filter_filter, Finset.filter_filter]
    simp only [and_comm]
  rw [split (fun p => ∃ q, Nx nb T Fl p q), split (fun q => Dst cells nb T Fl q)] at key
  have e1 : (∑ p ∈ cells.toFinset with (T p).IsSplitter ∧ ∃ q, Nx nb T Fl p q, f (if hq : ∃ q, Nx nb T Fl p q then hq.choose else p)) =
      ∑ p ∈ cells.toFinset with (T p).IsSplitter ∧ HasOut Fl p, f (front p) := by
    refine Finset.sum_congr (Finset.filter_congr fun p hp => and_congr_right fun hs => h.split_src ((hS p).1 hp) hs) fun p hp => ?_
    obtain ⟨hp, hs, d, hd⟩ := Finset.mem_filter.1 hp
    rw [hS] at hp
    have hex := (h.split_src hp hs).2 ⟨d, hd⟩
    rw [dif_pos hex]
    obtain ⟨q, hq⟩ := h.front p d hp hs hd
    rw [hfront p hp hs d q hd hq, h.nx_func hp hex.choose_spec (.inl ⟨d, hd, hq⟩)]
  have e2 : (∑ p ∈ cells.toFinset with ¬ (T p).IsSplitter ∧ ∃ q, Nx nb T Fl p q, f (if hq : ∃ q, Nx nb T Fl p q then hq.choose else p)) =
      ∑ p ∈ cells.toFinset with ¬ (T p).IsSplitter ∧ ∃ q, Nx nb T Fl p q, f p := by
    refine Finset.sum_congr rfl fun p hp => ?_
    obtain ⟨hp, hs, hex⟩ := Finset.mem_filter.1 hp
    rw [dif_pos hex, hf p ((hS p).1 hp) hs _ hex.choose_spec]
  have two : ∀ (A B C : P → Prop) [DecidablePred A] [DecidablePred B] [DecidablePred C], (∀ p ∈ cells, C p ↔ A p ∨ B p) → (∀ p ∈ cells, A p → B p → False) → ∀ u : P → Multiset ℚ,
      (∑ p ∈ cells.toFinset with C p, u p) = (∑ p ∈ cells.toFinset with A p, u p) + ∑ p ∈ cells.toFinset with B p, u p := by
    intro A B C _ _ _ h1 h2 u
    rw [← Finset.sum_filter_add_sum_filter_not (s := cells.toFinset.filter C) (p := A), Finset.filter_filter, Finset.filter_filter]
    congr 1
    · refine Finset.sum_congr (Finset.filter_congr fun p hp => ?_) fun _ _ => rfl
      have := h1 p ((hS p).1 hp)
      tauto
    · refine Finset.sum_congr (Finset.filter_congr fun p hp => ?_) fun _ _ => rfl
      have := h1 p ((hS p).1 hp)
      have := h2 p ((hS p).1 hp)
      tauto
  have e3 := two (fun p => ¬ (T p).IsSplitter ∧ ∃ q, Nx nb T Fl p q) (fun p => ExitAt nb Fl p) (fun p => ¬ (T p).IsSplitter ∧ T p ≠ .empty)
    (fun p hp => ⟨fun ⟨a, b⟩ => (h.src_or hp a b).imp (fun c => ⟨a, c⟩) id, fun c => by
      rcases c with ⟨a, q, hq⟩ | c
      · exact ⟨a, fun he => (h.empty_src hp he).1 q hq⟩
      · refine ⟨fun hs => ?_, fun he => (h.empty_src hp he).2 c⟩
        obtain ⟨d, hd, hn⟩ := c
        obtain ⟨q, hq⟩ := h.front p d hp hs hd
        rw [hn] at hq; cases hq⟩)
    (fun p hp ⟨_, q, hq⟩ c => h.src_not hp hq c) f
  have e4 := two (fun q => ¬ (T q).IsSplitter ∧ Dst cells nb T Fl q) (fun p => ¬ (T p).IsSplitter ∧ EntryAt nb Fl p)
    (fun p => ¬ (T p).IsSplitter ∧ T p ≠ .empty)
    (fun p hp => ⟨fun ⟨a, b⟩ => (h.dst_or hp a b).imp (fun c => ⟨a, c⟩) fun c => ⟨a, c⟩, fun c => by
      rcases c with ⟨a, q, hq, hn⟩ | ⟨a, c⟩
      · exact ⟨a, fun he => (h.empty_dst hp he).1 q hq hn⟩
      · exact ⟨a, fun he => (h.empty_dst hp he).2 c⟩⟩)
    (fun p hp ⟨_, q, hq, hn⟩ c => h.dst_not hq hn c.2) f
  have e5 := two (fun q => (T q).IsSplitter ∧ Dst cells nb T Fl q) (fun p => (T p).IsSplitter ∧ EntryAt nb Fl p)
    (fun p => (T p).IsSplitter ∧ HasInp Fl p)
    (fun p hp => ⟨fun ⟨a, b⟩ => ((h.split_dst hp a).2 b).imp (fun c => ⟨a, c⟩) fun c => ⟨a, c⟩, fun c => by
      rcases c with ⟨a, b⟩ | ⟨a, b⟩
      · exact ⟨a, (h.split_dst hp a).1 (.inl b)⟩
      · exact ⟨a, (h.split_dst hp a).1 (.inr b)⟩⟩)
    (fun p hp ⟨_, q, hq, hn⟩ c => h.dst_not hq hn c.2) f
  rw [e1, e2] at key
  rw [split (fun p => EntryAt nb Fl p), e5]
  rw [e3] at e4
  generalize (∑ p ∈ cells.toFinset with (T p).IsSplitter ∧ HasOut Fl p, f (front p)) = X at *
  generalize (∑ p ∈ cells.toFinset with ¬ (T p).IsSplitter ∧ ∃ q, Nx nb T Fl p q, f p) = A1 at *
  generalize (∑ q ∈ cells.toFinset with (T q).IsSplitter ∧ Dst cells nb T Fl q, f q) = Y at *
  generalize (∑ q ∈ cells.toFinset with ¬ (T q).IsSplitter ∧ Dst cells nb T Fl q, f q) = A2 at *
  generalize (∑ p ∈ cells.toFinset with ExitAt nb Fl p, f p) = E1 at *
  generalize (∑ p ∈ cells.toFinset with ¬ (T p).IsSplitter ∧ EntryAt nb Fl p, f p) = E2 at *
  generalize (∑ p ∈ cells.toFinset with (T p).IsSplitter ∧ EntryAt nb Fl p, f p) = E3 at *
  -- X + A1 = Y + A2, A1 + E1 = A2 + E2
  refine add_right_cancel (b := A1) ?_
  calc X + (E3 + E2) + A1 = (X + A1) + E2 + E3 := by abel
    _ = Y + (A2 + E2) + E3 := by rw [key]; abel
    _ = Y + E3 + E1 + A1 := by rw [← e4]; abel

end Tracks

/-! ### The flow of the network -/

/-- The cell in front of a splitter half. -/
def frontOf (nb : P → Dir → Option P) (T : P → Tile) (p : P) : P :=
  match T p with
  | .splitter d _ => (nb p d).getD p
  | _ => p

/-- The other half of a splitter, seen from its head. -/
def tailOf (nb : P → Dir → Option P) (T : P → Tile) (p : P) : P :=
  match T p with
  | .splitter d _ => (nb p d.ccw).getD p
  | _ => p

theorem frontOf_eq {p q : P} {d : Dir} {b : Bool} (ht : T p = .splitter d b) (hq : nb p d = some q) : frontOf nb T p = q := by
  unfold frontOf; rw [ht]; simp [hq]

theorem tailOf_eq {p q : P} {d : Dir} {b : Bool} (ht : T p = .splitter d b) (hq : nb p d.ccw = some q) : tailOf nb T p = q := by
  unfold tailOf; rw [ht]; simp [hq]

theorem Shares.swap_in {k : Node} {x : Amounts} (h : Shares k x) : Shares ((k.1.2, k.1.1), k.2) ((x.1.2, x.1.1), x.2) :=
  ⟨h.in2, h.in1, by have := h.out1; rw [add_comm] at this; exact this, by have := h.out2; rw [add_comm] at this; exact this⟩

theorem Shares.swap_out {k : Node} {x : Amounts} (h : Shares k x) : Shares (k.1, (k.2.2, k.2.1)) (x.1, (x.2.2, x.2.1)) := by
  have e : Node.outputs (k.1, (k.2.2, k.2.1)) = k.outputs := by
    show [k.2.2, k.2.1].countP Option.isSome = [k.2.1, k.2.2].countP Option.isSome
    simp only [List.countP_cons, List.countP_nil]; omega
  exact ⟨h.in1, h.in2, by rw [e]; exact h.out2, by rw [e]; exact h.out1⟩

/-- The amount on one of the two belts, as part of the amounts of the colour `c`. -/
def part (k : Colour) (x : ℚ) (c : Int) : Multiset ℚ := if k = some c then {x} else 0

/-- The amounts of a node that is equal to another up to the order of inputs and of outputs. -/
theorem Shares.same {k k' : Node} {x : Amounts} (h : Shares k x) (h1 : SameSide k.1 k'.1) (h2 : SameSide k.2 k'.2) :
    ∃ x' : Amounts, Shares k' x' ∧ (∀ c, part k'.1.1 x'.1.1 c + part k'.1.2 x'.1.2 c = part k.1.1 x.1.1 c + part k.1.2 x.1.2 c) ∧
      ∀ c, part k'.2.1 x'.2.1 c + part k'.2.2 x'.2.2 c = part k.2.1 x.2.1 c + part k.2.2 x.2.2 c := by
  obtain ⟨⟨k1, k2⟩, ⟨k3, k4⟩⟩ := k
  obtain ⟨⟨k1', k2'⟩, ⟨k3', k4'⟩⟩ := k'
  unfold SameSide at h1 h2
  simp only [Prod.mk.injEq] at h1 h2
  rcases h1 with ⟨rfl, rfl⟩ | ⟨rfl, rfl⟩ <;> rcases h2 with ⟨rfl, rfl⟩ | ⟨rfl, rfl⟩
  · exact ⟨x, h, fun _ => rfl, fun _ => rfl⟩
  · exact ⟨_, h.swap_out, fun _ => rfl, fun _ => add_comm _ _⟩
  · exact ⟨_, h.swap_in, fun _ => add_comm _ _, fun _ => rfl⟩
  · exact ⟨_, h.swap_in.swap_out, fun _ => add_comm _ _, fun _ => add_comm _ _⟩

theorem arriving_map_sum {α : Type} (L : List α) (φ : α → Node × Amounts) (c : Int) : arriving (L.map φ) (some c) =
    (L.map fun p => part (φ p).1.1.1 (φ p).2.1.1 c + part (φ p).1.1.2 (φ p).2.1.2 c).sum := by
  induction L with
  | nil => rfl
  | cons p L ih => rw [List.map_cons, arriving_cons, ih, List.map_cons, List.sum_cons]; rfl

theorem leaving_map_sum {α : Type} (L : List α) (φ : α → Node × Amounts) (c : Int) : leaving (L.map φ) (some c) =
    (L.map fun p => part (φ p).1.2.1 (φ p).2.2.1 c + part (φ p).1.2.2 (φ p).2.2.2 c).sum := by
  induction L with
  | nil => rfl
  | cons p L ih => rw [List.map_cons, leaving_cons, ih, List.map_cons, List.sum_cons]; rfl

/-- The amount in a cell, as part of the amounts of the colour `c`. -/
def cellPart (Fl : Flow P) (F : P → ℚ) (c : Int) (p : P) : Multiset ℚ := if (Fl.col p : Int) = c then {F p} else 0

open Classical in
theorem Tracks.heads_sum (h : Tracks cells nb T Fl) (hs : PairedSplitters (· ∈ cells) nb T) (L : List P)
    (hL : L.Nodup) (hLm : ∀ p, p ∈ L ↔ p ∈ cells ∧ ∃ d, T p = .splitter d true) (u : P → Multiset ℚ) :
    (L.map fun p => u p + u (tailOf nb T p)).sum = ∑ p ∈ cells.toFinset with (T p).IsSplitter, u p := by
  rw [← List.sum_toFinset _ hL, Finset.sum_add_distrib,
    ← Finset.sum_filter_add_sum_filter_not (s := cells.toFinset.filter _) (p := fun p => ∃ d, T p = .splitter d true)]
  congr 1
  · refine Finset.sum_congr ?_ fun _ _ => rfl
    ext p
    simp only [List.mem_toFinset, Finset.mem_filter, hLm]
    exact ⟨fun ⟨a, d, e⟩ => ⟨⟨a, d, true, e⟩, d, e⟩, fun ⟨⟨a, _⟩, e⟩ => ⟨a, e⟩⟩
  · have key : ∀ p, p ∈ L → ∃ q d, p ∈ cells ∧ q ∈ cells ∧ SplitterPair nb T p q d ∧ tailOf nb T p = q := by
      intro p hp
      obtain ⟨hpc, d, hd⟩ := (hLm p).1 hp
      obtain ⟨q, hq, hpair⟩ := hs.head p d hpc hd
      exact ⟨q, d, hpc, hq, hpair, tailOf_eq hd hpair.2.1⟩
    refine Finset.sum_bij (fun p _ => tailOf nb T p) ?_ ?_ ?_ fun _ _ => rfl
    · intro p hp
      obtain ⟨q, d, _, hq, hpair, e⟩ := key p (List.mem_toFinset.1 hp)
      rw [e]
      simp only [List.mem_toFinset, Finset.mem_filter]
      refine ⟨⟨hq, d, false, hpair.2.2⟩, fun ⟨d', e'⟩ => ?_⟩
      rw [hpair.2.2] at e'; cases e'
    · intro p hp p' hp' he
      obtain ⟨q, d, hpc, hq, hpair, e⟩ := key p (List.mem_toFinset.1 hp)
      obtain ⟨q', d', hpc', hq', hpair', e'⟩ := key p' (List.mem_toFinset.1 hp')
      rw [e, e'] at he
      subst he
      have e1 := hpair.2.2
      rw [hpair'.2.2] at e1
      simp only [Tile.splitter.injEq, and_true] at e1
      subst e1
      have e2 := (h.nbIn p q _ hpc hpair.2.1).2
      rw [(h.nbIn p' q _ hpc' hpair'.2.1).2] at e2
      exact (Option.some.inj e2).symm
    · intro q hq
      simp only [List.mem_toFinset, Finset.mem_filter] at hq
      obtain ⟨⟨hq, d, b, hb⟩, hn⟩ := hq
      cases b with
      | true => exact absurd ⟨d, hb⟩ hn
      | false =>
        obtain ⟨p, hp, hpair⟩ := hs.tail q d hq hb
        exact ⟨p, List.mem_toFinset.2 ((hLm p).2 ⟨hp, d, hpair.1⟩), tailOf_eq hpair.1 hpair.2.1⟩

/-- The splitter with head `p` has the colours of the node on its connections; an end that is not connected may lack a cell in front. -/
def WiredAt (nb : P → Dir → Option P) (T : P → Tile) (Fl : Flow P) (k : Node) (p : P) (d : Dir) : Prop :=
  ∃ q, SplitterPair nb T p q d ∧ SameSide (colourIf (Fl.inp p d) (Fl.col p), colourIf (Fl.inp q d) (Fl.col q)) k.1 ∧
    SameSide (colourIf (Fl.out p d) (Fl.col (frontOf nb T p)), colourIf (Fl.out q d) (Fl.col (frontOf nb T q))) k.2

theorem Wired.at {Fl : Flow P} {k : Node} {p : P} {d : Dir} (h : Wired nb T Fl k p d) : WiredAt nb T Fl k p d := by
  obtain ⟨q, p', q', hpair, hp', hq', hin, hout⟩ := h
  refine ⟨q, hpair, hin, ?_⟩
  rw [frontOf_eq hpair.1 hp', frontOf_eq hpair.2.2 hq']
  exact hout

open Classical in
/-- One splitter of the layout as a node of the network. -/
theorem Tracks.node (h : Tracks cells nb T Fl) {F : P → ℚ}
    (hF : Carries (· ∈ cells) nb T (fun p q d => nb p d = some q ∧ Fl.out p d = true) (EntryAt nb Fl) F)
    {p : P} {d : Dir} {k : Node} (hp : p ∈ cells) (hd : T p = .splitter d true) (hW : WiredAt nb T Fl k p d) :
    ∃ x : Amounts, Shares k x ∧
      (∀ c, part k.1.1 x.1.1 c + part k.1.2 x.1.2 c = (if HasInp Fl p then cellPart Fl F c p else 0) +
        if HasInp Fl (tailOf nb T p) then cellPart Fl F c (tailOf nb T p) else 0) ∧
      ∀ c, part k.2.1 x.2.1 c + part k.2.2 x.2.2 c = (if HasOut Fl p then cellPart Fl F c (frontOf nb T p) else 0) +
        if HasOut Fl (tailOf nb T p) then cellPart Fl F c (frontOf nb T (tailOf nb T p)) else 0 := by
  obtain ⟨q, hpair, hin, hout⟩ := hW
  have hq : q ∈ cells := (h.nbIn p q _ hp hpair.2.1).1
  have et : tailOf nb T p = q := tailOf_eq hd hpair.2.1
  have hp' : Fl.out p d = true → nb p d = some (frontOf nb T p) := fun ho => by
    obtain ⟨r, hr⟩ := h.front p d hp ⟨d, true, hd⟩ ho
    rw [frontOf_eq hd hr]; exact hr
  have hq' : Fl.out q d = true → nb q d = some (frontOf nb T q) := fun ho => by
    obtain ⟨r, hr⟩ := h.front q d hq ⟨d, false, hpair.2.2⟩ ho
    rw [frontOf_eq hpair.2.2 hr]; exact hr
  rw [et]
  generalize frontOf nb T p = p' at hp' hout ⊢
  generalize frontOf nb T q = q' at hq' hout ⊢
  have inp : ∀ r b, r ∈ cells → T r = .splitter d b → (HasInp Fl r ↔ Fl.inp r d = true) := by
    intro r b hr ht
    refine ⟨fun ⟨e, he⟩ => ?_, fun he => ⟨d, he⟩⟩
    have := h.takes r hr e he
    rw [ht] at this
    exact (show d = e from this) ▸ he
  have out : ∀ r b, r ∈ cells → T r = .splitter d b → (HasOut Fl r ↔ Fl.out r d = true) := by
    intro r b hr ht
    refine ⟨fun ⟨e, he⟩ => ?_, fun he => ⟨d, he⟩⟩
    have := h.emits r hr e he
    rw [ht] at this
    exact (show d = e from this) ▸ he
  have fed : ∀ r b, r ∈ cells → T r = .splitter d b →
      (FedAt (· ∈ cells) nb (fun p q d => nb p d = some q ∧ Fl.out p d = true) (EntryAt nb Fl) r d ↔ Fl.inp r d = true) := by
    intro r b hr ht
    constructor
    · rintro (⟨s, hs, hn, ho⟩ | ⟨hn, e, he, _⟩)
      · rw [← h.step s r d hs hn]; exact ho
      · exact (inp r b hr ht).1 ⟨e, he⟩
    · intro hi
      cases hn : nb r d.opp with
      | none => exact .inr ⟨hn, d, hi, hn⟩
      | some s =>
        obtain ⟨hs, hn'⟩ := h.nbIn r s d.opp hr hn
        rw [Dir.opp_opp] at hn'
        exact .inl ⟨s, hs, hn', by rw [h.step s r d hs hn']; exact hi⟩
  have hsh := hF.splitter p q d hp hq hpair
  unfold gets at hsh
  simp only [fed p true hp hd, fed q false hq hpair.2.2] at hsh
  have o1 : outlets (fun p q d => nb p d = some q ∧ Fl.out p d = true) p d = if Fl.out p d = true then 1 else 0 := by
    unfold outlets
    by_cases ho : Fl.out p d = true
    · rw [if_pos ho, if_pos ⟨p', hp' ho, ho⟩]
    · rw [if_neg ho, if_neg fun ⟨_, _, h⟩ => ho h]
  have o2 : outlets (fun p q d => nb p d = some q ∧ Fl.out p d = true) q d = if Fl.out q d = true then 1 else 0 := by
    unfold outlets
    by_cases ho : Fl.out q d = true
    · rw [if_pos ho, if_pos ⟨q', hq' ho, ho⟩]
    · rw [if_neg ho, if_neg fun ⟨_, _, h⟩ => ho h]
  rw [o1, o2] at hsh
  have base : Shares ((colourIf (Fl.inp p d) (Fl.col p), colourIf (Fl.inp q d) (Fl.col q)),
      (colourIf (Fl.out p d) (Fl.col p'), colourIf (Fl.out q d) (Fl.col q')))
      ((if Fl.inp p d = true then F p else 0, if Fl.inp q d = true then F q else 0),
        (if Fl.out p d = true then F p' else 0, if Fl.out q d = true then F q' else 0)) := by
    have e : (Node.outputs ((colourIf (Fl.inp p d) (Fl.col p), colourIf (Fl.inp q d) (Fl.col q)),
      (colourIf (Fl.out p d) (Fl.col p'), colourIf (Fl.out q d) (Fl.col q'))) : ℚ) =
        (if Fl.out p d = true then 1 else 0) + if Fl.out q d = true then 1 else 0 := by
      unfold Node.outputs colourIf
      cases Fl.out p d <;> cases Fl.out q d <;> norm_num
    refine ⟨fun hn => ?_, fun hn => ?_, ?_, ?_⟩
    · simp only [colourIf] at hn
      split at hn
      · cases hn
      · rename_i hh; exact if_neg hh
    · simp only [colourIf] at hn
      split at hn
      · cases hn
      · rename_i hh; exact if_neg hh
    · rw [e]
      cases ho : Fl.out p d with
      | false => simp [colourIf]
      | true =>
        rw [if_neg (by simp [colourIf])]
        have := hsh p' (.inl ⟨hp' ho, ho⟩)
        rw [ho] at this
        exact this
    · rw [e]
      cases ho : Fl.out q d with
      | false => simp [colourIf]
      | true =>
        rw [if_neg (by simp [colourIf])]
        have := hsh q' (.inr ⟨hq' ho, ho⟩)
        rw [ho] at this
        exact this
  obtain ⟨x, h1, h2, h3⟩ := base.same (k' := k) hin hout
  have one : ∀ (b : Bool) (A : Prop) [Decidable A] (r : P) (c : Int), (A ↔ b = true) →
      part (colourIf b (Fl.col r)) (if b = true then F r else 0) c = if A then cellPart Fl F c r else 0 := by
    intro b A _ r c hA
    cases b with
    | false =>
      have hA' : ¬ A := fun h => by simpa using hA.1 h
      rw [if_neg hA']
      rfl
    | true =>
      rw [if_pos (hA.2 rfl)]
      simp only [part, colourIf, cellPart, if_true, Option.some.injEq]
  refine ⟨x, h1, fun c => ?_, fun c => ?_⟩
  · rw [h2 c]
    exact congrArg₂ _ (one _ _ p c (inp p true hp hd)) (one _ _ q c (inp q false hq hpair.2.2))
  · rw [h3 c]
    exact congrArg₂ _ (one _ _ p' c (out p true hp hd)) (one _ _ q' c (out q false hq hpair.2.2))

open Classical in
/-- As below, when the amounts at each splitter are given. -/
theorem Tracks.networkFlow_of (h : Tracks cells nb T Fl) (hs : PairedSplitters (· ∈ cells) nb T) {n : Network} {lab : P → Option Node}
    (heads : ∀ p ∈ cells, (∃ k, lab p = some k) ↔ ∃ d, T p = .splitter d true)
    (used : ∀ k, cells.countP (fun p => lab p = some k) = n.count k)
    {a b z : Int} (ha : ∀ p ∈ cells, EntryAt nb Fl p → (Fl.col p : Int) = a ∨ (Fl.col p : Int) = z)
    (hb : ∀ p ∈ cells, ExitAt nb Fl p → (Fl.col p : Int) = b ∨ (Fl.col p : Int) = z) (hza : z ≠ a) (hzb : z ≠ b)
    (hzn : some z ∉ insOf n ∧ some z ∉ outsOf n) {F : P → ℚ}
    (hF : Carries (· ∈ cells) nb T (fun p q d => nb p d = some q ∧ Fl.out p d = true) (EntryAt nb Fl) F)
    (φ : P → Node × Amounts) (hφ : ∀ p ∈ cells, ∀ d, T p = .splitter d true →
      lab p = some (φ p).1 ∧ Shares (φ p).1 (φ p).2 ∧
      (∀ c, part (φ p).1.1.1 (φ p).2.1.1 c + part (φ p).1.1.2 (φ p).2.1.2 c = (if HasInp Fl p then cellPart Fl F c p else 0) +
        if HasInp Fl (tailOf nb T p) then cellPart Fl F c (tailOf nb T p) else 0) ∧
      ∀ c, part (φ p).1.2.1 (φ p).2.2.1 c + part (φ p).1.2.2 (φ p).2.2.2 c =
        (if HasOut Fl p then cellPart Fl F c (frontOf nb T p) else 0) +
        if HasOut Fl (tailOf nb T p) then cellPart Fl F c (frontOf nb T (tailOf nb T p)) else 0) :
    NetworkFlow n a b ((cells.filter fun p => (lab p).isSome).map φ)
      ((cells.filter fun p => EntryAt nb Fl p ∧ (Fl.col p : Int) = a).map F : List ℚ)
      ((cells.filter fun p => ExitAt nb Fl p ∧ (Fl.col p : Int) = b).map F : List ℚ) := by
  have hsub : ∀ p, p ∈ cells.filter (fun p => (lab p).isSome) ↔ p ∈ cells ∧ ∃ d, T p = .splitter d true := by
    intro p
    rw [List.mem_filter]
    refine and_congr_right fun hp => ?_
    rw [← heads p hp, Option.isSome_iff_exists]
  have hnodes : (((cells.filter fun p => (lab p).isSome).map φ).map Prod.fst).Perm n := by
    rw [List.perm_iff_count]
    intro k
    rw [← used k, List.map_map, List.count, List.countP_map, List.countP_filter]
    refine List.countP_congr fun p hp => ?_
    simp only [Function.comp, Bool.and_eq_true, beq_iff_eq, decide_eq_true_eq]
    constructor
    · rintro ⟨h1, h2⟩
      obtain ⟨d, hd⟩ := (heads p hp).1 (Option.isSome_iff_exists.1 h2)
      rw [(hφ p hp d hd).1, h1]
    · intro hk
      obtain ⟨d, hd⟩ := (heads p hp).1 ⟨k, hk⟩
      have := (hφ p hp d hd).1
      rw [hk] at this
      exact ⟨(Option.some.inj this).symm, by rw [hk]; rfl⟩
  refine ⟨hnodes, ?_, ?_⟩
  · intro x hx
    obtain ⟨p, hp, rfl⟩ := List.mem_map.1 hx
    obtain ⟨hp, d, hd⟩ := (hsub p).1 hp
    exact (hφ p hp d hd).2.1
  · intro c
    by_cases hz' : c = z
    · subst hz'
      rw [if_neg hza, if_neg hzb, add_zero, add_zero]
      have none_of : ∀ x ∈ (cells.filter fun p => (lab p).isSome).map φ, x.1 ∈ n := fun x hx =>
        hnodes.mem_iff.1 (List.mem_map_of_mem hx)
      have e1 : leaving ((cells.filter fun p => (lab p).isSome).map φ) (some c) = 0 := by
        unfold leaving
        rw [Multiset.coe_eq_zero, List.filterMap_eq_nil_iff]
        intro x hx
        obtain ⟨y, hy, hx⟩ := List.mem_flatMap.1 hx
        rw [if_neg]
        intro he
        refine hzn.2 (List.mem_flatMap.2 ⟨y.1, none_of y hy, ?_⟩)
        simp only [List.mem_cons, List.not_mem_nil, or_false] at hx
        rcases hx with rfl | rfl <;> simp [← he]
      have e2 : arriving ((cells.filter fun p => (lab p).isSome).map φ) (some c) = 0 := by
        unfold arriving
        rw [Multiset.coe_eq_zero, List.filterMap_eq_nil_iff]
        intro x hx
        obtain ⟨y, hy, hx⟩ := List.mem_flatMap.1 hx
        rw [if_neg]
        intro he
        refine hzn.1 (List.mem_flatMap.2 ⟨y.1, none_of y hy, ?_⟩)
        simp only [List.mem_cons, List.not_mem_nil, or_false] at hx
        rcases hx with rfl | rfl <;> simp [← he]
      rw [e1, e2]
    have hL : (cells.filter fun p => (lab p).isSome).Nodup := h.nodup.filter _
    rw [leaving_map_sum, arriving_map_sum]
    have e1 : ((cells.filter fun p => (lab p).isSome).map fun p => part (φ p).1.1.1 (φ p).2.1.1 c + part (φ p).1.1.2 (φ p).2.1.2 c) =
        (cells.filter fun p => (lab p).isSome).map fun p => (fun p => if HasInp Fl p then cellPart Fl F c p else 0) p +
          (fun p => if HasInp Fl p then cellPart Fl F c p else 0) (tailOf nb T p) := by
      refine List.map_congr_left fun p hp => ?_
      obtain ⟨hp, d, hd⟩ := (hsub p).1 hp
      exact (hφ p hp d hd).2.2.1 c
    have e2 : ((cells.filter fun p => (lab p).isSome).map fun p => part (φ p).1.2.1 (φ p).2.2.1 c + part (φ p).1.2.2 (φ p).2.2.2 c) =
        (cells.filter fun p => (lab p).isSome).map fun p => (fun p => if HasOut Fl p then cellPart Fl F c (frontOf nb T p) else 0) p +
          (fun p => if HasOut Fl p then cellPart Fl F c (frontOf nb T p) else 0) (tailOf nb T p) := by
      refine List.map_congr_left fun p hp => ?_
      obtain ⟨hp, d, hd⟩ := (hsub p).1 hp
      exact (hφ p hp d hd).2.2.2 c
    rw [e1, e2, h.heads_sum hs _ hL hsub, h.heads_sum hs _ hL hsub, ← Finset.sum_filter, ← Finset.sum_filter,
      Finset.filter_filter, Finset.filter_filter]
    have hbal := h.balance (frontOf nb T) (fun p hp ⟨e, b, ht⟩ d q hd hq => by
      have := h.emits p hp d hd
      rw [ht] at this
      cases (show e = d from this)
      exact frontOf_eq ht hq) (cellPart Fl F c) (fun p hp hns q hn => by
        unfold cellPart
        rcases hn with ⟨d, ho, hq⟩ | ⟨d, k, hu⟩
        · rw [h.colS p q d hp ho hq hns, hF.surface p q d hp ⟨hq, ho⟩ hns]
        · rw [h.colU p q d k hp hu, hF.under p q d k hp hu])
    have ends : ∀ (A : P → Prop) (e : Int), (∀ p ∈ cells, A p → (Fl.col p : Int) = e ∨ (Fl.col p : Int) = z) → c ≠ z →
        (∑ p ∈ cells.toFinset with A p, cellPart Fl F c p) =
          if c = e then (((cells.filter fun p => A p ∧ (Fl.col p : Int) = e).map F : List ℚ) : Multiset ℚ) else 0 := by
      intro A e hA hcz
      by_cases hc : c = e
      · subst hc
        rw [if_pos rfl]
        have : (∑ p ∈ cells.toFinset with A p, cellPart Fl F c p) =
            ∑ p ∈ (cells.filter fun p => A p ∧ (Fl.col p : Int) = c).toFinset, ({F p} : Multiset ℚ) := by
          have e1 : (cells.filter fun p => A p ∧ (Fl.col p : Int) = c).toFinset =
              (cells.toFinset.filter A).filter fun p => (Fl.col p : Int) = c := by
            ext p; simp [and_assoc]
          rw [e1, Finset.sum_filter (s := cells.toFinset.filter A)]
          rfl
        rw [this, List.sum_toFinset _ (h.nodup.filter _)]
        clear this
        generalize cells.filter (fun p => A p ∧ (Fl.col p : Int) = c) = L
        induction L with
        | nil => rfl
        | cons x L ih => rw [List.map_cons, List.sum_cons, ih]; rfl
      · rw [if_neg hc]
        refine Finset.sum_eq_zero fun p hp => ?_
        obtain ⟨h1, h2⟩ := Finset.mem_filter.1 hp
        refine if_neg fun he => ?_
        rcases hA p (List.mem_toFinset.1 h1) h2 with h3 | h3
        · exact hc (he.symm.trans h3)
        · exact hcz (he.symm.trans h3)
    rw [← ends _ a ha hz', ← ends _ b hb hz']
    exact hbal

open Classical in
/-- The amounts on a layout whose splitters are the nodes of a network are a flow through the network.  Belts that go through the layout
without a splitter have the colour `z`, which the network does not have. -/
theorem Tracks.networkFlow' (h : Tracks cells nb T Fl) (hs : PairedSplitters (· ∈ cells) nb T) {n : Network} {lab : P → Option Node}
    (heads : ∀ p ∈ cells, (∃ k, lab p = some k) ↔ ∃ d, T p = .splitter d true)
    (used : ∀ k, cells.countP (fun p => lab p = some k) = n.count k)
    (wired : ∀ p ∈ cells, ∀ k d, lab p = some k → T p = .splitter d true → WiredAt nb T Fl k p d)
    {a b z : Int} (ha : ∀ p ∈ cells, EntryAt nb Fl p → (Fl.col p : Int) = a ∨ (Fl.col p : Int) = z)
    (hb : ∀ p ∈ cells, ExitAt nb Fl p → (Fl.col p : Int) = b ∨ (Fl.col p : Int) = z) (hza : z ≠ a) (hzb : z ≠ b)
    (hzn : some z ∉ insOf n ∧ some z ∉ outsOf n) {F : P → ℚ}
    (hF : Carries (· ∈ cells) nb T (fun p q d => nb p d = some q ∧ Fl.out p d = true) (EntryAt nb Fl) F) :
    ∃ flow, NetworkFlow n a b flow ((cells.filter fun p => EntryAt nb Fl p ∧ (Fl.col p : Int) = a).map F : List ℚ)
      ((cells.filter fun p => ExitAt nb Fl p ∧ (Fl.col p : Int) = b).map F : List ℚ) := by
  obtain ⟨φ, hφ⟩ : ∃ φ : P → Node × Amounts, ∀ p ∈ cells, ∀ d, T p = .splitter d true →
      lab p = some (φ p).1 ∧ Shares (φ p).1 (φ p).2 ∧
      (∀ c, part (φ p).1.1.1 (φ p).2.1.1 c + part (φ p).1.1.2 (φ p).2.1.2 c = (if HasInp Fl p then cellPart Fl F c p else 0) +
        if HasInp Fl (tailOf nb T p) then cellPart Fl F c (tailOf nb T p) else 0) ∧
      ∀ c, part (φ p).1.2.1 (φ p).2.2.1 c + part (φ p).1.2.2 (φ p).2.2.2 c =
        (if HasOut Fl p then cellPart Fl F c (frontOf nb T p) else 0) +
        if HasOut Fl (tailOf nb T p) then cellPart Fl F c (frontOf nb T (tailOf nb T p)) else 0 := by
    have : ∀ p, ∃ y : Node × Amounts, p ∈ cells → ∀ d, T p = .splitter d true →
      lab p = some y.1 ∧ Shares y.1 y.2 ∧
      (∀ c, part y.1.1.1 y.2.1.1 c + part y.1.1.2 y.2.1.2 c = (if HasInp Fl p then cellPart Fl F c p else 0) +
        if HasInp Fl (tailOf nb T p) then cellPart Fl F c (tailOf nb T p) else 0) ∧
      ∀ c, part y.1.2.1 y.2.2.1 c + part y.1.2.2 y.2.2.2 c =
        (if HasOut Fl p then cellPart Fl F c (frontOf nb T p) else 0) +
        if HasOut Fl (tailOf nb T p) then cellPart Fl F c (frontOf nb T (tailOf nb T p)) else 0 := by
      intro p
      by_cases hp : p ∈ cells ∧ ∃ d, T p = .splitter d true
      · obtain ⟨hp, d, hd⟩ := hp
        obtain ⟨k, hk⟩ := (heads p hp).2 ⟨d, hd⟩
        obtain ⟨x, h1, h2, h3⟩ := h.node hF hp hd (wired p hp k d hk hd)
        exact ⟨(k, x), fun _ _ _ => ⟨hk, h1, h2, h3⟩⟩
      · exact ⟨((((none, none), (none, none)) : Node), ((0, 0), (0, 0))), fun h1 d h2 => absurd ⟨h1, d, h2⟩ hp⟩
    exact ⟨fun p => (this p).choose, fun p hp => (this p).choose_spec hp⟩
  exact ⟨_, h.networkFlow_of hs heads used ha hb hza hzb hzn hF φ hφ⟩

open Classical in
/-- The amounts on a layout that realises a network are a flow through the network. -/
theorem Tracks.networkFlow (h : Tracks cells nb T Fl) (hs : PairedSplitters (· ∈ cells) nb T) {n : Network} {lab : P → Option Node}
    (hR : Realises nb T Fl cells n lab) {a b : Int} (ha : ∀ p ∈ cells, EntryAt nb Fl p → (Fl.col p : Int) = a)
    (hb : ∀ p ∈ cells, ExitAt nb Fl p → (Fl.col p : Int) = b) {F : P → ℚ}
    (hF : Carries (· ∈ cells) nb T (fun p q d => nb p d = some q ∧ Fl.out p d = true) (EntryAt nb Fl) F) :
    ∃ flow, NetworkFlow n a b flow ((cells.filter fun p => EntryAt nb Fl p).map F : List ℚ) ((cells.filter fun p => ExitAt nb Fl p).map F : List ℚ) := by
  obtain ⟨z, hz⟩ : ∃ z : Int, z ∉ a :: b :: (insOf n ++ outsOf n).filterMap id := by
    obtain ⟨z, hz⟩ := Infinite.exists_notMem_finset (a :: b :: (insOf n ++ outsOf n).filterMap id).toFinset
    exact ⟨z, fun h => hz (List.mem_toFinset.2 h)⟩
  simp only [List.mem_cons, List.mem_filterMap, id_eq, exists_eq_right, List.mem_append, not_or] at hz
  have := h.networkFlow' hs hR.heads hR.used (fun p hp k d h1 h2 => (hR.wired p hp k d h1 h2).at) (z := z)
    (fun p hp he => .inl (ha p hp he)) (fun p hp he => .inl (hb p hp he)) hz.1 hz.2.1 hz.2.2 hF
  have e1 : (cells.filter fun p => EntryAt nb Fl p ∧ (Fl.col p : Int) = a) = cells.filter fun p => EntryAt nb Fl p :=
    List.filter_congr fun p hp => by simpa using ha p hp
  have e2 : (cells.filter fun p => ExitAt nb Fl p ∧ (Fl.col p : Int) = b) = cells.filter fun p => ExitAt nb Fl p :=
    List.filter_congr fun p hp => by simpa using hb p hp
  rw [e1, e2] at this
  exact this

end

end FSat
