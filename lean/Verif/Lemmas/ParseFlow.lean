import Verif.Lemmas.ParseSound
import Verif.Lemmas.NetworkFlow
/-!
# The flow on a layout as a flow through the network read from it
-/

set_option linter.unusedVariables false

namespace FSat

variable {a : Arr Tile} {heads : List (Int × Int)} {p q r : Int × Int}

/-- The line of the cell comes from the splitter number `i`. -/
def FromNo (a : Arr Tile) (heads : List (Int × Int)) (p : Int × Int) (i : Nat) : Prop :=
  ∃ h r, heads[i]? = some h ∧ HalfOf a.nb a.board h r ∧ Reaches a.nb a.board r p

/-- The line of the cell leads to a splitter. -/
def LeadsOn (a : Arr Tile) (heads : List (Int × Int)) (p : Int × Int) : Prop :=
  ∃ h r, h ∈ heads ∧ HalfOf a.nb a.board h r ∧ Reaches a.nb a.board p r

/-- It is a splitter, or leads to one. -/
def EndsOn (a : Arr Tile) (heads : List (Int × Int)) (p : Int × Int) : Prop := (a.board p).IsSplitter ∨ LeadsOn a heads p

open Classical in
/-- The connections of a layout, with the colours that the network read from it has for them. -/
noncomputable def lineFlow (a : Arr Tile) (heads : List (Int × Int)) : Flow (Int × Int) where
  inp p d := decide ((a.board p).Takes d ∧ ((a.board p).IsSplitter → ∃ q, a.In q ∧ Connected a.nb a.board q p d))
  out p d := decide ((a.board p).Emits d ∧ ((a.board p).IsSplitter → ∃ q, Connected a.nb a.board p q d))
  col p := if h : ∃ i, FromNo a heads p i then (if EndsOn a heads p then h.choose + 1 else heads.length + 1)
    else if EndsOn a heads p then 0 else heads.length + 2

theorem inp_iff {d : Dir} : (lineFlow a heads).inp p d = true ↔
    (a.board p).Takes d ∧ ((a.board p).IsSplitter → ∃ q, a.In q ∧ Connected a.nb a.board q p d) := by
  simp [lineFlow]

theorem out_iff {d : Dir} : (lineFlow a heads).out p d = true ↔
    (a.board p).Emits d ∧ ((a.board p).IsSplitter → ∃ q, Connected a.nb a.board p q d) := by
  simp [lineFlow]

theorem connected_in {d : Dir} (h : Connected a.nb a.board p q d) : a.In p ∧ a.In q :=
  ⟨inside_of_board (Emits.ne_empty h.2.1), inside_of_board (Takes.ne_empty h.2.2)⟩

theorem nb_back {d : Dir} (hp : a.In p) (h : a.nb p d = some q) : a.nb q d.opp = some p := by
  obtain ⟨rfl, h1⟩ := nb_iff.1 h
  refine nb_iff.2 ⟨?_, hp⟩
  cases d <;> simp [stepTo, Dir.opp, Dir.dx, Dir.dy]

/-- Which splitter a line comes from is unique. -/
theorem reaches_unique {r' : Int × Int} (hr : (a.board r).IsSplitter) (hr' : (a.board r').IsSplitter) (h : Reaches a.nb a.board r p)
    (h' : Reaches a.nb a.board r' p) : r = r' := by
  induction h with
  | step h =>
    cases h' with
    | step h' => exact h.left_unique h'
    | on _ hns h' => exact absurd (h.left_unique h' ▸ hr) hns
  | on _ hns h ih =>
    cases h' with
    | step h' => exact absurd (h'.left_unique h ▸ hr') hns
    | on h'' _ h' =>
      have := h.left_unique h'
      subst this
      exact ih h''

theorem HalfOf.splitter {h : Int × Int} (hh : HalfOf a.nb a.board h r) : (a.board r).IsSplitter := by
  obtain ⟨q, d, hp, rfl | rfl⟩ := hh
  · exact ⟨d, true, hp.1⟩
  · exact ⟨d, false, hp.2.2⟩

/-- A half belongs to one splitter. -/
theorem HalfOf.unique {h h' : Int × Int} (h1 : HalfOf a.nb a.board h r) (h2 : HalfOf a.nb a.board h' r) : h = h' := by
  obtain ⟨q, d, hp, e⟩ := h1
  obtain ⟨q', d', hp', e'⟩ := h2
  rcases e with rfl | rfl
  · rcases e' with rfl | rfl
    · rfl
    · have := hp.1; rw [hp'.2.2] at this; cases this
  · rcases e' with rfl | rfl
    · have := hp'.1; rw [hp.2.2] at this; cases this
    · have e := hp.2.2
      rw [hp'.2.2] at e
      cases e
      have e1 := (nb_iff.1 hp.2.1).1
      have e2 := (nb_iff.1 hp'.2.1).1
      exact stepTo_inj (e1.symm.trans e2)

theorem FromNo.unique (hn : heads.Nodup) {i j : Nat} (h : FromNo a heads p i) (h' : FromNo a heads p j) : i = j := by
  obtain ⟨h1, r1, e1, a1, b1⟩ := h
  obtain ⟨h2, r2, e2, a2, b2⟩ := h'
  have := reaches_unique a1.splitter a2.splitter b1 b2
  subst this
  have := a1.unique a2
  subst this
  have l1 := (List.getElem?_eq_some_iff.1 e1).1
  have l2 := (List.getElem?_eq_some_iff.1 e2).1
  exact (List.getElem?_inj l1 hn).1 (e1.trans e2.symm)

/-- The first step of a way. -/
theorem reaches_front (h : Reaches a.nb a.board p r) : ∃ q, Follows a.nb a.board p q ∧ (q = r ∨ (¬ (a.board q).IsSplitter ∧ Reaches a.nb a.board q r)) := by
  induction h with
  | step h => exact ⟨_, h, .inl rfl⟩
  | on _ hns h ih =>
    obtain ⟨x, h1, h2⟩ := ih
    refine ⟨x, h1, .inr ?_⟩
    rcases h2 with rfl | ⟨h2, h3⟩
    · exact ⟨hns, .step h⟩
    · exact ⟨h2, .on h3 hns h⟩

theorem reaches_prepend (hf : Follows a.nb a.board p q) (hns : ¬ (a.board q).IsSplitter) (h : Reaches a.nb a.board q r) : Reaches a.nb a.board p r := by
  induction h with
  | step h => exact .on (.step hf) hns h
  | on _ h1 h2 ih => exact .on ih h1 h2

section
variable (hs : SoundLayout a.In a.nb a.board) (hn : heads.Nodup) (hm : ∀ p, p ∈ heads ↔ ∃ d, a.board p = .splitter d true)
include hs hn hm

/-- Every half belongs to a splitter of the list. -/
theorem half_of (hp : (a.board p).IsSplitter) : ∃ h, h ∈ heads ∧ HalfOf a.nb a.board h p := by
  obtain ⟨d, b, hd⟩ := hp
  have hi : a.In p := inside_of_board (by rw [hd]; simp)
  cases b with
  | true =>
    obtain ⟨q, _, hq⟩ := hs.splitters.head p d hi hd
    exact ⟨p, (hm p).2 ⟨d, hd⟩, q, d, hq, .inl rfl⟩
  | false =>
    obtain ⟨q, _, hq⟩ := hs.splitters.tail p d hi hd
    exact ⟨q, (hm q).2 ⟨d, hq.1⟩, p, d, hq, .inr rfl⟩

theorem leadsOn_iff : LeadsOn a heads p ↔ ∃ r, (a.board r).IsSplitter ∧ Reaches a.nb a.board p r := by
  constructor
  · rintro ⟨h, r, h1, h2, h3⟩
    exact ⟨r, h2.splitter, h3⟩
  · rintro ⟨r, h1, h2⟩
    obtain ⟨h, h3, h4⟩ := half_of hs hn hm h1
    exact ⟨h, r, h3, h4, h2⟩

theorem endsOn_step (hf : Follows a.nb a.board p q) : LeadsOn a heads p ↔ EndsOn a heads q := by
  unfold EndsOn
  rw [leadsOn_iff hs hn hm, leadsOn_iff hs hn hm]
  constructor
  · rintro ⟨r, h1, h2⟩
    obtain ⟨x, h3, h4⟩ := reaches_front h2
    have := hf.right_unique h3
    subst this
    rcases h4 with rfl | ⟨h4, h5⟩
    · exact .inl h1
    · exact .inr ⟨r, h1, h5⟩
  · rintro (h | ⟨r, h1, h2⟩)
    · exact ⟨q, h, .step hf⟩
    · by_cases hq : (a.board q).IsSplitter
      · exact ⟨q, hq, .step hf⟩
      · exact ⟨r, h1, reaches_prepend hf hq h2⟩

theorem fromNo_step (hf : Follows a.nb a.board p q) (hp : ¬ (a.board p).IsSplitter) (i : Nat) : FromNo a heads p i ↔ FromNo a heads q i := by
  constructor
  · rintro ⟨h, r, h1, h2, h3⟩
    exact ⟨h, r, h1, h2, .on h3 hp hf⟩
  · rintro ⟨h, r, h1, h2, h3⟩
    refine ⟨h, r, h1, h2, ?_⟩
    cases h3 with
    | step h3 => exact absurd (hf.left_unique h3 ▸ h2.splitter) hp
    | on h3 _ h4 =>
      have := hf.left_unique h4
      subst this
      exact h3

/-- The colour of a cell, by where its line comes from and leads to. -/
theorem col_from {i : Nat} (h : FromNo a heads p i) (he : EndsOn a heads p) : (lineFlow a heads).col p = i + 1 := by
  have hx : ∃ i, FromNo a heads p i := ⟨i, h⟩
  simp only [lineFlow, dif_pos hx, if_pos he]
  rw [hx.choose_spec.unique hn h]

theorem col_out {i : Nat} (h : FromNo a heads p i) (he : ¬ EndsOn a heads p) : (lineFlow a heads).col p = heads.length + 1 := by
  have hx : ∃ i, FromNo a heads p i := ⟨i, h⟩
  simp only [lineFlow, dif_pos hx, if_neg he]

theorem col_in (h : ¬ ∃ i, FromNo a heads p i) (he : EndsOn a heads p) : (lineFlow a heads).col p = 0 := by
  simp only [lineFlow, dif_neg h, if_pos he]

theorem col_through (h : ¬ ∃ i, FromNo a heads p i) (he : ¬ EndsOn a heads p) : (lineFlow a heads).col p = heads.length + 2 := by
  simp only [lineFlow, dif_neg h, if_neg he]

theorem col_step (hf : Follows a.nb a.board p q) (hp : ¬ (a.board p).IsSplitter) : (lineFlow a heads).col p = (lineFlow a heads).col q := by
  have e1 : EndsOn a heads p ↔ EndsOn a heads q := by
    rw [← endsOn_step hs hn hm hf]
    exact ⟨fun h => h.resolve_left hp, .inr⟩
  by_cases h : ∃ i, FromNo a heads p i
  · obtain ⟨i, hi⟩ := h
    have hi' := (fromNo_step hs hn hm hf hp i).1 hi
    by_cases he : EndsOn a heads p
    · rw [col_from hs hn hm hi he, col_from hs hn hm hi' (e1.1 he)]
    · rw [col_out hs hn hm hi he, col_out hs hn hm hi' (fun h => he (e1.2 h))]
  · have h' : ¬ ∃ i, FromNo a heads q i := fun ⟨i, hi⟩ => h ⟨i, (fromNo_step hs hn hm hf hp i).2 hi⟩
    by_cases he : EndsOn a heads p
    · rw [col_in hs hn hm h he, col_in hs hn hm h' (e1.1 he)]
    · rw [col_through hs hn hm h he, col_through hs hn hm h' (fun h => he (e1.2 h))]

theorem flow_step {d : Dir} (hp : a.In p) (h : a.nb p d = some q) : (lineFlow a heads).out p d = (lineFlow a heads).inp q d := by
  have hq : a.In q := (nb_iff.1 h).2
  rw [Bool.eq_iff_iff, out_iff, inp_iff]
  constructor
  · rintro ⟨h1, h2⟩
    have ht : (a.board q).Takes d := by
      by_cases hsp : (a.board p).IsSplitter
      · obtain ⟨q', h3⟩ := h2 hsp
        have := h3.1
        rw [h] at this
        cases this
        exact h3.2.2
      · exact hs.joined.out p q d hp h h1 hsp
    exact ⟨ht, fun _ => ⟨p, hp, h, h1, ht⟩⟩
  · rintro ⟨h1, h2⟩
    have he : (a.board p).Emits d := by
      by_cases hsq : (a.board q).IsSplitter
      · obtain ⟨p', _, h3⟩ := h2 hsq
        have : p' = p := stepTo_inj ((nb_iff.1 h3.1).1.symm.trans (nb_iff.1 h).1)
        subst this
        exact h3.2.1
      · exact hs.joined.inp p q d hp h h1 hsq
    exact ⟨he, fun _ => ⟨q, h, he, h1⟩⟩

theorem conn_iff {d : Dir} (hp : a.In p) : (a.nb p d = some q ∧ (lineFlow a heads).out p d = true) ↔ Connected a.nb a.board p q d := by
  constructor
  · rintro ⟨h1, h2⟩
    refine ⟨h1, (out_iff.1 h2).1, ?_⟩
    rw [flow_step hs hn hm hp h1] at h2
    exact (inp_iff.1 h2).1
  · intro h
    exact ⟨h.1, out_iff.2 ⟨h.2.1, fun _ => ⟨q, h⟩⟩⟩

theorem parse_tracks : Tracks a.columns a.nb a.board (lineFlow a heads) := by
  have mem : ∀ p, p ∈ a.columns → a.In p := fun p h => (mem_columns a p).1 h
  refine ⟨columns_nodup a, fun p q d hp hq => ⟨(mem_columns a q).2 (nb_iff.1 hq).2, nb_back (mem p hp) hq⟩, fun p hp => hs.basic p (mem p hp),
    fun p _ d h => (inp_iff.1 h).1, fun p _ d h => (out_iff.1 h).1, fun p _ h1 d h2 => inp_iff.2 ⟨h2, fun h => absurd h h1⟩,
    fun p _ h1 d h2 => out_iff.2 ⟨h2, fun h => absurd h h1⟩, fun p q d hp h => flow_step hs hn hm (mem p hp) h, fun p hp d h => ?_, fun q hq d h => ?_,
    fun p p' q d d' k k' _ _ h1 h2 => Follows.left_unique (.inr ⟨d, k, h1⟩) (.inr ⟨d', k', h2⟩), fun p q d hp h1 h2 h3 => ?_, fun p q d k hp h => ?_,
    fun p d hp h1 h2 => ?_⟩
  · obtain ⟨q, k, h1, h2⟩ := hs.undergrounds.entrance p d (mem p hp) h
    exact ⟨q, k, (mem_columns a q).2 h1, h2⟩
  · obtain ⟨p, k, h1, h2⟩ := hs.undergrounds.exit q d (mem q hq) h
    exact ⟨p, k, (mem_columns a p).2 h1, h2⟩
  · exact col_step hs hn hm (.inl ⟨d, (conn_iff hs hn hm (mem p hp)).1 ⟨h2, h1⟩⟩) h3
  · refine col_step hs hn hm (.inr ⟨d, k, h⟩) ?_
    rintro ⟨e, b, he⟩
    have := h.2.2.1
    rw [he] at this
    cases this
  · obtain ⟨q, hq⟩ := (out_iff.1 h2).2 h1
    exact ⟨q, hq.1⟩

theorem entry_iff : EntryAt a.nb (lineFlow a heads) p ↔ EntersAt a.nb a.board p ∧ ¬ (a.board p).IsSplitter := by
  constructor
  · rintro ⟨d, h1, h2⟩
    obtain ⟨h3, h4⟩ := inp_iff.1 h1
    refine ⟨⟨d, h3, h2⟩, fun h => ?_⟩
    obtain ⟨q, h5, h6⟩ := h4 h
    rw [nb_back h5 h6.1] at h2
    cases h2
  · rintro ⟨⟨d, h1, h2⟩, h3⟩
    exact ⟨d, inp_iff.2 ⟨h1, fun h => absurd h h3⟩, h2⟩

theorem exit_iff : ExitAt a.nb (lineFlow a heads) p ↔ LeavesAt a.nb a.board p ∧ ¬ (a.board p).IsSplitter := by
  constructor
  · rintro ⟨d, h1, h2⟩
    obtain ⟨h3, h4⟩ := out_iff.1 h1
    refine ⟨⟨d, h3, h2⟩, fun h => ?_⟩
    obtain ⟨q, h5⟩ := h4 h
    rw [h5.1] at h2
    cases h2
  · rintro ⟨⟨d, h1, h2⟩, h3⟩
    exact ⟨d, out_iff.2 ⟨h1, fun h => absurd h h3⟩, h2⟩

/-- Nothing comes before a cell that items enter at. -/
theorem enters_first (h : EntersAt a.nb a.board p) : ¬ ∃ q, Follows a.nb a.board q p := by
  obtain ⟨d, h1, h2⟩ := h
  rintro ⟨q, ⟨e, hq⟩ | ⟨e, k, hq⟩⟩
  · have := Takes.unique h1 hq.2.2
    subst this
    rw [nb_back (connected_in hq).1 hq.1] at h2
    cases h2
  · rw [hq.2.2.2.1] at h1
    exact h1

theorem leaves_last (h : LeavesAt a.nb a.board p) : ¬ ∃ q, Follows a.nb a.board p q := by
  obtain ⟨d, h1, h2⟩ := h
  rintro ⟨q, ⟨e, hq⟩ | ⟨e, k, hq⟩⟩
  · have := Emits.unique h1 hq.2.1
    subst this
    rw [hq.1] at h2
    cases h2
  · rw [hq.2.2.1] at h1
    exact h1

theorem entry_col (h : EntersAt a.nb a.board p) (hns : ¬ (a.board p).IsSplitter) :
    (LeadsOn a heads p → (lineFlow a heads).col p = 0) ∧ (¬ LeadsOn a heads p → (lineFlow a heads).col p = heads.length + 2) := by
  have h0 : ¬ ∃ i, FromNo a heads p i := by
    rintro ⟨i, hh, r, _, _, h3⟩
    cases h3 with
    | step h3 => exact enters_first hs hn hm h ⟨_, h3⟩
    | on _ _ h3 => exact enters_first hs hn hm h ⟨_, h3⟩
  exact ⟨fun h1 => col_in hs hn hm h0 (.inr h1), fun h1 => col_through hs hn hm h0 fun h2 => h1 (h2.resolve_left hns)⟩

theorem exit_col (h : LeavesAt a.nb a.board p) (hns : ¬ (a.board p).IsSplitter) :
    ((∃ i, FromNo a heads p i) → (lineFlow a heads).col p = heads.length + 1) ∧
    ((¬ ∃ i, FromNo a heads p i) → (lineFlow a heads).col p = heads.length + 2) := by
  have h0 : ¬ EndsOn a heads p := by
    rintro (h1 | h1)
    · exact hns h1
    · obtain ⟨_, r, _, _, h3⟩ := h1
      obtain ⟨q, h4, _⟩ := reaches_front h3
      exact leaves_last hs hn hm h ⟨q, h4⟩
  exact ⟨fun ⟨i, h1⟩ => col_out hs hn hm h1 h0, fun h1 => col_through hs hn hm h1 h0⟩

/-- The colours of an input in the network are those of the layout. -/
theorem input_colour {d : Dir} {b : Bool} {c : Colour} (hp : a.board p = .splitter d b) (h : InputColour a.In a.nb a.board false heads p d c) :
    c = colourIf ((lineFlow a heads).inp p d) ((lineFlow a heads).col p) := by
  have hsp : (a.board p).IsSplitter := ⟨d, b, hp⟩
  have hfed : (lineFlow a heads).inp p d = true ↔ FedFrom a.In a.nb a.board false p d := by
    rw [inp_iff]
    constructor
    · rintro ⟨_, h2⟩
      exact .inl (h2 hsp)
    · rintro (⟨q, h1, h2⟩ | ⟨h1, _⟩)
      · exact ⟨h2.2.2, fun _ => ⟨q, h1, h2⟩⟩
      · cases h1
  by_cases hf : FedFrom a.In a.nb a.board false p d
  · rw [hfed.2 hf]
    simp only [colourIf, if_true]
    by_cases hx : ∃ i, FromNo a heads p i
    · obtain ⟨i, hi⟩ := hx
      rw [col_from hs hn hm hi (.inl hsp)]
      push_cast
      exact (h.splitter i).2 hi
    · rw [col_in hs hn hm hx (.inl hsp)]
      refine h.outside.2 ⟨hf, fun hh r h1 h2 h3 => hx ?_⟩
      obtain ⟨i, hi⟩ := List.mem_iff_getElem?.1 h1
      exact ⟨i, hh, r, hi, h2, h3⟩
  · have : (lineFlow a heads).inp p d = false := by
      rw [Bool.eq_false_iff]
      exact fun h => hf (hfed.1 h)
    rw [this]
    exact h.none.2 hf

/-- The colours of an output in the network are those of the layout. -/
theorem output_colour {d : Dir} {b : Bool} {c : Colour} {i : Nat} {h : Int × Int} (hp : a.board p = .splitter d b) (hi : heads[i]? = some h)
    (hh : HalfOf a.nb a.board h p) (ho : OutputColour a.nb a.board false heads i p d c) :
    c = colourIf ((lineFlow a heads).out p d) ((lineFlow a heads).col (frontOf a.nb a.board p)) := by
  have hsp : (a.board p).IsSplitter := ⟨d, b, hp⟩
  by_cases hf : ∃ q, Connected a.nb a.board p q d
  · obtain ⟨q, hq⟩ := hf
    have hout : (lineFlow a heads).out p d = true := out_iff.2 ⟨hq.2.1, fun _ => ⟨q, hq⟩⟩
    rw [hout, frontOf_eq hp hq.1]
    simp only [colourIf, if_true]
    have hfol : Follows a.nb a.board p q := .inl ⟨d, hq⟩
    have hfrom : FromNo a heads q i := ⟨h, p, hi, hh, .step hfol⟩
    by_cases he : EndsOn a heads q
    · rw [col_from hs hn hm hfrom he]
      push_cast
      exact ho.inner.2 ((endsOn_step hs hn hm hfol).2 he)
    · rw [col_out hs hn hm hfrom he]
      push_cast
      exact ho.outside.2 ⟨.inl ⟨q, hq⟩, fun h' r h1 h2 h3 => he ((endsOn_step hs hn hm hfol).1 ⟨h', r, h1, h2, h3⟩)⟩
  · have : (lineFlow a heads).out p d = false := by
      rw [Bool.eq_false_iff]
      exact fun h => hf ((out_iff.1 h).2 hsp)
    rw [this]
    refine ho.none.2 ?_
    rintro (h1 | ⟨h1, _⟩)
    · exact hf h1
    · cases h1

/-- A flow on the layout, with the connections of the colours. -/
theorem carries_lines {F : Int × Int → ℚ} (hF : Carries a.In a.nb a.board (Connected a.nb a.board) (fun _ => False) F) :
    Carries (· ∈ a.columns) a.nb a.board (fun p q d => a.nb p d = some q ∧ (lineFlow a heads).out p d = true)
      (EntryAt a.nb (lineFlow a heads)) F := by
  have mem : ∀ p, p ∈ a.columns → a.In p := fun p h => (mem_columns a p).1 h
  refine ⟨fun p q d hp h => hF.surface p q d (mem p hp) ((conn_iff hs hn hm (mem p hp)).1 h), fun p q d k hp h => hF.under p q d k (mem p hp) h,
    fun p q d hp hq hpair r hr => ?_⟩
  have hc : ∀ {x y : Int × Int}, a.In x → ((a.nb x d = some y ∧ (lineFlow a heads).out x d = true) ↔ Connected a.nb a.board x y d) := fun hx =>
    conn_iff hs hn hm hx
  have := hF.splitter p q d (mem p hp) (mem q hq) hpair r (hr.imp (hc (mem p hp)).1 (hc (mem q hq)).1)
  have out : ∀ x, a.In x → outlets (fun p q d => a.nb p d = some q ∧ (lineFlow a heads).out p d = true) x d = outlets (Connected a.nb a.board) x d := by
    intro x hx
    unfold outlets
    congr 1
    exact propext (exists_congr fun r => hc hx)
  have get : ∀ x b, a.board x = .splitter d b → gets (· ∈ a.columns) a.nb (fun p q d => a.nb p d = some q ∧ (lineFlow a heads).out p d = true)
      (EntryAt a.nb (lineFlow a heads)) F x d = gets a.In a.nb (Connected a.nb a.board) (fun _ => False) F x d := by
    intro x b hx
    unfold gets
    congr 1
    refine propext ?_
    unfold FedAt
    refine or_congr (exists_congr fun r => ?_) ?_
    · exact ⟨fun ⟨h1, h2⟩ => ⟨mem r h1, (hc (mem r h1)).1 h2⟩, fun ⟨h1, h2⟩ => ⟨(mem_columns a r).2 h1, (hc h1).2 h2⟩⟩
    · refine ⟨fun ⟨_, h⟩ => ?_, fun ⟨_, h⟩ => h.elim⟩
      exact absurd ⟨d, b, hx⟩ (entry_iff hs hn hm |>.1 h).2
  rw [out p (mem p hp), out q (mem q hq), get p true hpair.1, get q false hpair.2.2]
  exact this

end

end FSat
