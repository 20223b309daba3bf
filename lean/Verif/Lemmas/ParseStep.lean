import Verif.Lemmas.ParseTrace
/-!
# `next_tile` follows belt lines
-/

set_option linter.unusedSimpArgs false

namespace FSat

/-- `n` steps from `p` in direction `d`. -/
def stepN (p : Int × Int) (d : Dir) (n : Int) : Int × Int := (p.1 + n * d.dx, p.2 + n * d.dy)

theorem stepN_zero (p : Int × Int) (d : Dir) : stepN p d 0 = p := by cases d <;> simp [stepN]
theorem stepN_one (p : Int × Int) (d : Dir) : stepN p d 1 = stepTo p d := by cases d <;> simp [stepN, stepTo]
theorem stepTo_stepN (p : Int × Int) (d : Dir) (n : Int) : stepTo (stepN p d n) d = stepN p d (n + 1) := by
  cases d <;> simp [stepN, stepTo, Dir.dx, Dir.dy] <;> omega
theorem stepBack_stepN (p : Int × Int) (d : Dir) (n : Int) : stepBack (stepN p d n) d = stepN p d (n - 1) := by
  cases d <;> simp [stepN, stepBack, Dir.dx, Dir.dy] <;> omega
theorem stepBack_stepTo (p : Int × Int) (d : Dir) : stepBack (stepTo p d) d = p := by cases d <;> simp [stepTo, stepBack]
theorem stepTo_stepBack (p : Int × Int) (d : Dir) : stepTo (stepBack p d) d = p := by cases d <;> simp [stepTo, stepBack]
theorem stepTo_reverse (p : Int × Int) (d : Dir) : stepTo p d.reverse = stepBack p d := by
  have h1 : d.reverse.dx = - d.dx := by cases d <;> rfl
  have h2 : d.reverse.dy = - d.dy := by cases d <;> rfl
  simp only [stepTo, stepBack, h1, h2, Int.sub_eq_add_neg]
theorem stepTo_inj {p q : Int × Int} {d : Dir} (h : stepTo p d = stepTo q d) : p = q := by
  rw [← stepBack_stepTo p d, h, stepBack_stepTo]
theorem stepN_inj {p : Int × Int} {d : Dir} {m n : Int} (h : stepN p d m = stepN p d n) : m = n := by
  cases d <;> simp [stepN, Dir.dx, Dir.dy] at h <;> omega
theorem stepN_stepN (p : Int × Int) (d : Dir) (m n : Int) : stepN (stepN p d m) d n = stepN p d (m + n) := by
  cases d <;> simp [stepN, Dir.dx, Dir.dy] <;> omega

theorem nb_iff {a : Arr Tile} {p q : Int × Int} {d : Dir} : a.nb p d = some q ↔ q = stepTo p d ∧ a.inside q := by
  have hp : planeNb p d = some (stepTo p d) := by cases d <;> simp [planeNb, stepTo, Dir.dx, Dir.dy] <;> rfl
  unfold Arr.nb
  rw [hp, Option.filter_some]
  unfold Arr.inside
  constructor
  · intro h
    split at h
    · rename_i h1
      cases h
      exact ⟨rfl, by simpa using h1⟩
    · cases h
  · rintro ⟨rfl, h⟩
    rw [if_pos (by simpa using h)]

theorem nb_none {a : Arr Tile} {p : Int × Int} {d : Dir} : a.nb p d = none ↔ ¬ a.inside (stepTo p d) := by
  constructor
  · intro h hi
    rw [nb_iff.2 ⟨rfl, hi⟩] at h
    cases h
  · intro h
    cases hc : a.nb p d with
    | none => rfl
    | some q =>
      obtain ⟨rfl, h1⟩ := nb_iff.1 hc
      exact absurd h1 h

theorem walk_iff {a : Arr Tile} {p : Int × Int} {d : Dir} {k : Nat} {q : Int × Int} :
    walk a.nb p d k = some q ↔ q = stepN p d k ∧ ∀ i : Nat, 1 ≤ i → i ≤ k → a.inside (stepN p d i) := by
  induction k generalizing q with
  | zero =>
    simp only [walk, Option.some.injEq, Nat.cast_zero, stepN_zero]
    constructor
    · rintro rfl
      exact ⟨rfl, fun i h1 h2 => by omega⟩
    · rintro ⟨rfl, _⟩
      rfl
  | succ k ih =>
    simp only [walk, Option.bind_eq_some_iff]
    constructor
    · rintro ⟨r, h1, h2⟩
      obtain ⟨rfl, h3⟩ := ih.1 h1
      obtain ⟨rfl, h4⟩ := nb_iff.1 h2
      rw [stepTo_stepN] at h4
      refine ⟨by rw [stepTo_stepN]; simp, fun i hi hk => ?_⟩
      by_cases h : i = k + 1
      · subst h
        simpa using h4
      · exact h3 i hi (by omega)
    · rintro ⟨rfl, h⟩
      refine ⟨stepN p d k, ih.2 ⟨rfl, fun i h1 h2 => h i h1 (by omega)⟩, nb_iff.2 ⟨?_, h _ (by omega) le_rfl⟩⟩
      rw [stepTo_stepN]; simp

variable {a : Arr Tile}

/-- An underground belt between `p` and `q`, in coordinates. -/
structure Under (a : Arr Tile) (p q : Int × Int) (d : Dir) (k : Nat) : Prop where
  two : 2 ≤ k
  at_ : q = stepN p d k
  inside : ∀ i : Nat, 1 ≤ i → i ≤ k → a.inside (stepN p d i)
  first : a.board p = .underground d true
  last : a.board q = .underground d false
  between : ∀ i : Nat, 0 < i → i < k → ¬ (a.board (stepN p d i)).UgAlong d

theorem under_iff {p q : Int × Int} {d : Dir} {k : Nat} : UgPair a.nb a.board p q d k ↔ Under a p q d k := by
  unfold UgPair
  constructor
  · rintro ⟨h1, h2, h3, h4, h5⟩
    obtain ⟨h6, h7⟩ := walk_iff.1 h2
    exact ⟨h1, h6, h7, h3, h4, fun i hi hk => h5 i hi hk _ (walk_iff.2 ⟨rfl, fun j hj hji => h7 j hj (by omega)⟩)⟩
  · rintro ⟨h1, h2, h3, h4, h5, h6⟩
    refine ⟨h1, walk_iff.2 ⟨h2, h3⟩, h4, h5, fun i hi hk r hr => ?_⟩
    obtain ⟨rfl, _⟩ := walk_iff.1 hr
    exact h6 i hi hk

theorem Under.in_last {p q : Int × Int} {d : Dir} {k : Nat} (h : Under a p q d k) : a.inside q := by
  rw [h.at_]
  exact h.inside k (by have := h.two; omega) le_rfl

theorem inside_of_board {p : Int × Int} (h : a.board p ≠ .empty) : a.inside p := by
  unfold Arr.board at h
  split at h
  · assumption
  · exact absurd rfl h

theorem ugAlong_self (d : Dir) (b : Bool) : (Tile.underground d b).UgAlong d := Or.inl rfl

theorem Under.unique {p q q' : Int × Int} {d d' : Dir} {k k' : Nat} (h : Under a p q d k) (h' : Under a p q' d' k') : q = q' ∧ d = d' ∧ k = k' := by
  have hd : d = d' := by
    have := h.first; rw [h'.first] at this; cases this; rfl
  subst hd
  have hk : k = k' := by
    by_contra hne
    rcases Nat.lt_or_gt_of_ne hne with hlt | hlt
    · refine h'.between k (by have := h.two; omega) hlt ?_
      rw [← h.at_, h.last]
      exact ugAlong_self d _
    · refine h.between k' (by have := h'.two; omega) hlt ?_
      rw [← h'.at_, h'.last]
      exact ugAlong_self d _
  subst hk
  exact ⟨by rw [h.at_, h'.at_], rfl, rfl⟩

theorem Under.unique_first {p p' q : Int × Int} {d d' : Dir} {k k' : Nat} (h : Under a p q d k) (h' : Under a p' q d' k') : p = p' := by
  have hd : d = d' := by
    have := h.last; rw [h'.last] at this; cases this; rfl
  subst hd
  have hp : ∀ {p : Int × Int} {k : Nat}, Under a p q d k → p = stepN q d (-(k : Int)) := by
    intro p k h
    rw [h.at_, stepN_stepN]
    simp [stepN_zero]
  have key : ∀ {p p' : Int × Int} {k k' : Nat}, Under a p q d k → Under a p' q d k' → ¬ k < k' := by
    intro p p' k k' h h' hlt
    refine h'.between (k' - k) (by omega) (by have := h.two; omega) ?_
    have : stepN p' d ((k' - k : Nat) : Int) = p := by
      rw [hp h, hp h', stepN_stepN]
      congr 1
      omega
    rw [this, h.first]
    exact ugAlong_self d _
  have hk : k = k' := by
    have h1 := key h h'
    have h2 := key h' h
    omega
  rw [hp h, hp h', hk]

theorem Emits.unique {t : Tile} {d d' : Dir} (h : t.Emits d) (h' : t.Emits d') : d = d' := by
  cases t with
  | belt i o => exact h.symm.trans h'
  | splitter e b => exact h.symm.trans h'
  | underground e b => cases b with
    | false => exact h.symm.trans h'
    | true => exact h.elim
  | _ => exact h.elim

theorem Takes.unique {t : Tile} {d d' : Dir} (h : t.Takes d) (h' : t.Takes d') : d = d' := by
  cases t with
  | belt i o => exact h.symm.trans h'
  | splitter e b => exact h.symm.trans h'
  | underground e b => cases b with
    | true => exact h.symm.trans h'
    | false => exact h.elim
  | _ => exact h.elim

/-- The cell after `p` is unique. -/
theorem Follows.right_unique {p q q' : Int × Int} (h : Follows a.nb a.board p q) (h' : Follows a.nb a.board p q') : q = q' := by
  rcases h with ⟨d, h1, h2, h3⟩ | ⟨d, k, h⟩ <;> rcases h' with ⟨d', h1', h2', h3'⟩ | ⟨d', k', h'⟩
  · have := Emits.unique h2 h2'
    subst this
    rw [h1] at h1'
    exact Option.some.inj h1'
  · have h' := (under_iff.1 h').first
    rw [h'] at h2
    exact h2.elim
  · have h := (under_iff.1 h).first
    rw [h] at h2'
    exact h2'.elim
  · exact ((under_iff.1 h).unique (under_iff.1 h')).1

/-- The cell before `q` is unique. -/
theorem Follows.left_unique {p p' q : Int × Int} (h : Follows a.nb a.board p q) (h' : Follows a.nb a.board p' q) : p = p' := by
  rcases h with ⟨d, h1, h2, h3⟩ | ⟨d, k, h⟩ <;> rcases h' with ⟨d', h1', h2', h3'⟩ | ⟨d', k', h'⟩
  · have := Takes.unique h3 h3'
    subst this
    exact stepTo_inj ((nb_iff.1 h1).1.symm.trans (nb_iff.1 h1').1)
  · have h' := (under_iff.1 h').last
    rw [h'] at h3
    exact h3.elim
  · have h := (under_iff.1 h).last
    rw [h] at h3'
    exact h3'.elim
  · exact (under_iff.1 h).unique_first (under_iff.1 h')

theorem Follows.inside_right {p q : Int × Int} (h : Follows a.nb a.board p q) : a.inside q := by
  rcases h with ⟨d, h1, _⟩ | ⟨d, k, h⟩
  · exact (nb_iff.1 h1).2
  · exact (under_iff.1 h).in_last

theorem Emits.ne_empty {t : Tile} {d : Dir} (h : t.Emits d) : t ≠ .empty := by rintro rfl; exact h
theorem Takes.ne_empty {t : Tile} {d : Dir} (h : t.Takes d) : t ≠ .empty := by rintro rfl; exact h

theorem Follows.inside_left {p q : Int × Int} (h : Follows a.nb a.board p q) : a.inside p := by
  rcases h with ⟨d, _, h2, _⟩ | ⟨d, k, h⟩
  · exact inside_of_board (Emits.ne_empty h2)
  · exact inside_of_board (by rw [(under_iff.1 h).first]; simp)

theorem Emits.line_or {t : Tile} {d : Dir} (h : t.Emits d) : t.IsLine ∨ t.IsSplitter := by
  cases t with
  | belt i o => exact .inl (.inl ⟨_, _, rfl⟩)
  | splitter e b => exact .inr ⟨_, _, rfl⟩
  | underground e b => exact .inl (.inr ⟨_, _, rfl⟩)
  | _ => exact h.elim

theorem Takes.line_or {t : Tile} {d : Dir} (h : t.Takes d) : t.IsLine ∨ t.IsSplitter := by
  cases t with
  | belt i o => exact .inl (.inl ⟨_, _, rfl⟩)
  | splitter e b => exact .inr ⟨_, _, rfl⟩
  | underground e b => exact .inl (.inr ⟨_, _, rfl⟩)
  | _ => exact h.elim

theorem Follows.right_line_or {p q : Int × Int} (h : Follows a.nb a.board p q) : a.OnLine q ∨ (a.board q).IsSplitter := by
  rcases h with ⟨d, h1, _, h3⟩ | ⟨d, k, h⟩
  · exact (Takes.line_or h3).imp (fun h => ⟨(nb_iff.1 h1).2, h⟩) id
  · exact .inl ⟨(under_iff.1 h).in_last, .inr ⟨_, _, (under_iff.1 h).last⟩⟩

theorem Follows.left_line_or {p q : Int × Int} (h : Follows a.nb a.board p q) : a.OnLine p ∨ (a.board p).IsSplitter := by
  have hi := h.inside_left
  rcases h with ⟨d, _, h2, _⟩ | ⟨d, k, h⟩
  · exact (Emits.line_or h2).imp (fun h => ⟨hi, h⟩) id
  · exact .inl ⟨hi, .inr ⟨_, _, (under_iff.1 h).first⟩⟩

/-- The next cell of a belt line. -/
def BeltStep (a : Arr Tile) (p q : Int × Int) : Prop := a.OnLine p ∧ a.OnLine q ∧ Follows a.nb a.board p q

open Classical in
/-- The next cell of a belt line, if there is one. -/
noncomputable def lineNext (a : Arr Tile) (p : Int × Int) : Option (Int × Int) :=
  if h : ∃ q, BeltStep a p q then some h.choose else none

open Classical in
/-- The cell before on a belt line, if there is one. -/
noncomputable def linePrev (a : Arr Tile) (p : Int × Int) : Option (Int × Int) :=
  if h : ∃ q, BeltStep a q p then some h.choose else none

theorem lineNext_iff {p q : Int × Int} : lineNext a p = some q ↔ BeltStep a p q := by
  unfold lineNext
  split
  · rename_i h
    simp only [Option.some.injEq]
    exact ⟨fun he => he ▸ h.choose_spec, fun hq => h.choose_spec.2.2.right_unique hq.2.2⟩
  · rename_i h
    exact ⟨fun h => by simp at h, fun hq => absurd ⟨q, hq⟩ h⟩

theorem linePrev_iff {p q : Int × Int} : linePrev a p = some q ↔ BeltStep a q p := by
  unfold linePrev
  split
  · rename_i h
    simp only [Option.some.injEq]
    exact ⟨fun he => he ▸ h.choose_spec, fun hq => h.choose_spec.2.2.left_unique hq.2.2⟩
  · rename_i h
    exact ⟨fun h => by simp at h, fun hq => absurd ⟨q, hq⟩ h⟩

theorem prev_iff_next {p q : Int × Int} : linePrev a p = some q ↔ lineNext a q = some p := by rw [linePrev_iff, lineNext_iff]

/-! ### The searches -/

theorem searchEnd_forward {p q : Int × Int} {d : Dir} {k : Nat} (h : Under a p q d k) (fuel : Nat) :
    ∀ n : Nat, n < k → k ≤ n + fuel → searchEnd a d false fuel (stepN p d n) = .ok q := by
  induction fuel with
  | zero => intro n h1 h2; omega
  | succ fuel ih =>
    intro n h1 h2
    unfold searchEnd
    simp only [Bool.false_eq_true, if_false, stepTo_stepN, Bool.not_false]
    have hi : a.inside (stepN p d ((n : Int) + 1)) := by have := h.inside (n + 1) (by omega) h1; simpa using this
    rw [if_neg (by simpa using hi)]
    by_cases hk : n + 1 = k
    · have hq : stepN p d ((n : Int) + 1) = q := by rw [h.at_, ← hk]; simp
      rw [hq, h.last]
      simp
    · have hb := h.between (n + 1) (by omega) (by omega)
      have hne : ∀ b, a.board (stepN p d ((n : Int) + 1)) ≠ .underground d b := by
        intro b hc
        apply hb
        simp only [Nat.cast_add, Nat.cast_one]
        rw [hc]
        exact ugAlong_self d b
      rw [if_neg (hne true), if_neg (hne false)]
      have := ih (n + 1) (by omega) (by omega)
      simpa using this

theorem searchEnd_back {p q : Int × Int} {d : Dir} {k : Nat} (h : Under a p q d k) (hin : a.inside p) (fuel : Nat) :
    ∀ n : Nat, 0 < n → n ≤ k → n ≤ fuel →
      searchEnd a d true fuel (stepN p d n) = .ok p ∨ (searchEnd a d true fuel (stepN p d n) = .error .assertion ∧ p.2 = 0) := by
  induction fuel with
  | zero => intro n h1 h2 h3; omega
  | succ fuel ih =>
    intro n h1 h2 h3
    unfold searchEnd
    simp only [if_true, stepBack_stepN, Bool.not_true]
    have hi : a.inside (stepN p d ((n : Int) - 1)) := by
      by_cases hn : n = 1
      · subst hn; simpa [stepN_zero] using hin
      · have := h.inside (n - 1) (by omega) (by omega)
        have hc : ((n - 1 : Nat) : Int) = (n : Int) - 1 := by omega
        rwa [hc] at this
    by_cases hrow : 1 ≤ (stepN p d ((n : Int) - 1)).2
    · rw [if_neg (by simpa using ⟨hi, by simpa using hrow⟩)]
      by_cases hn : n = 1
      · subst hn
        simp only [Nat.cast_one, sub_self, stepN_zero, h.first]
        left
        simp
      · have hc : ((n - 1 : Nat) : Int) = (n : Int) - 1 := by omega
        have hb := h.between (n - 1) (by omega) (by omega)
        rw [hc] at hb
        have hne : ∀ b, a.board (stepN p d ((n : Int) - 1)) ≠ .underground d b := by
          intro b hc
          apply hb
          rw [hc]
          exact ugAlong_self d b
        rw [if_neg (hne false), if_neg (hne true)]
        have := ih (n - 1) (by omega) (by omega) (by omega)
        rwa [hc] at this
    · rw [if_pos (by intro hc; exact hrow (by simpa using hc.2))]
      refine .inr ⟨rfl, ?_⟩
      have h2 := hi.2.2.1
      have hlow : (stepN p d ((n : Int) - 1)).2 = 0 := by omega
      have hlast := h.inside k (by omega) le_rfl
      have hp2 := hin.2.2.1
      have hl2 := hlast.2.2.1
      cases d <;> simp [stepN, Dir.dx, Dir.dy] at hlow hl2 ⊢ <;> omega

theorem length_lt {p q : Int × Int} {d : Dir} {k : Nat} (h : Under a p q d k) : k ≤ a.rows + a.cols := by
  have h1 := h.inside 1 (by omega) (by have := h.two; omega)
  have h2 := h.inside k (by have := h.two; omega) le_rfl
  obtain ⟨a1, a2, a3, a4⟩ := h1
  obtain ⟨b1, b2, b3, b4⟩ := h2
  cases d <;> simp [stepN, Dir.dx, Dir.dy] at a1 a2 a3 a4 b1 b2 b3 b4 <;> omega

/-! ### `next_tile` -/

theorem nextTile_emits {p : Int × Int} {d : Dir} (hl : (a.board p).IsLine) (h : (a.board p).Emits d) : nextTile a p true = .ok (stepTo p d) := by
  unfold nextTile
  rcases hl with ⟨i, o, hl⟩ | ⟨e, b, hl⟩ <;> rw [hl] at h ⊢
  · cases h
    simp
  · cases b with
    | true => exact h.elim
    | false => cases h; simp

theorem nextTile_takes {p : Int × Int} {d : Dir} (hl : (a.board p).IsLine) (h : (a.board p).Takes d) : nextTile a p false = .ok (stepBack p d) := by
  unfold nextTile
  rcases hl with ⟨i, o, hl⟩ | ⟨e, b, hl⟩ <;> rw [hl] at h ⊢
  · cases h
    simp [stepTo_reverse]
  · cases b with
    | false => exact h.elim
    | true => cases h; simp

theorem line_cases_out {t : Tile} (h : t.IsLine) : (∃ d, t.Emits d) ∨ ∃ d, t = .underground d true := by
  rcases h with ⟨i, o, rfl⟩ | ⟨d, b, rfl⟩
  · exact .inl ⟨o, rfl⟩
  · cases b with
    | true => exact .inr ⟨d, rfl⟩
    | false => exact .inl ⟨d, rfl⟩

theorem line_cases_in {t : Tile} (h : t.IsLine) : (∃ d, t.Takes d) ∨ ∃ d, t = .underground d false := by
  rcases h with ⟨i, o, rfl⟩ | ⟨d, b, rfl⟩
  · exact .inl ⟨i, rfl⟩
  · cases b with
    | false => exact .inr ⟨d, rfl⟩
    | true => exact .inl ⟨d, rfl⟩

theorem IsLine.not_splitter {t : Tile} (h : t.IsLine) : ¬ t.IsSplitter := by
  rintro ⟨d, b, rfl⟩
  rcases h with ⟨i, o, h⟩ | ⟨d, b, h⟩ <;> cases h

variable (hs : SoundLayout a.In a.nb a.board)
include hs

theorem forward_ok (p : Int × Int) (hp : a.OnLine p) : ∃ q, nextTile a p true = .ok q ∧
    ((a.OnLine q ∧ lineNext a p = some q) ∨ (a.Stops q ∧ lineNext a p = none)) := by
  rcases line_cases_out hp.2 with ⟨d, hd⟩ | ⟨d, hd⟩
  · refine ⟨_, nextTile_emits hp.2 hd, ?_⟩
    by_cases hi : a.inside (stepTo p d)
    · have hn : a.nb p d = some (stepTo p d) := nb_iff.2 ⟨rfl, hi⟩
      have ht := hs.joined.out p _ d hp.1 hn hd (IsLine.not_splitter hp.2)
      have hf : Follows a.nb a.board p (stepTo p d) := .inl ⟨d, hn, hd, ht⟩
      rcases Takes.line_or ht with hl | hl
      · exact .inl ⟨⟨hi, hl⟩, lineNext_iff.2 ⟨hp, ⟨hi, hl⟩, hf⟩⟩
      · refine .inr ⟨.inr (.inr hl), ?_⟩
        cases hc : lineNext a p with
        | none => rfl
        | some q =>
          obtain ⟨_, h2, h3⟩ := lineNext_iff.1 hc
          rw [h3.right_unique hf] at h2
          exact absurd hl (IsLine.not_splitter h2.2)
    · refine .inr ⟨.inl hi, ?_⟩
      cases hc : lineNext a p with
      | none => rfl
      | some q =>
        obtain ⟨_, h2, h3⟩ := lineNext_iff.1 hc
        rcases h3 with ⟨d', h4, h5, _⟩ | ⟨d', k, h4⟩
        · have := Emits.unique hd h5
          subst this
          obtain ⟨rfl, h6⟩ := nb_iff.1 h4
          exact absurd h6 hi
        · rw [(under_iff.1 h4).first] at hd
          exact hd.elim
  · obtain ⟨q, k, hq, hu⟩ := hs.undergrounds.entrance p d hp.1 hd
    have hu' := under_iff.1 hu
    refine ⟨q, ?_, .inl ?_⟩
    · unfold nextTile
      rw [hd]
      simp only [if_true]
      have := searchEnd_forward hu' (a.rows + a.cols) 0 (by have := hu'.two; omega) (by have := length_lt hu'; omega)
      simpa [stepN_zero] using this
    · have hl : a.OnLine q := ⟨hq, .inr ⟨_, _, hu'.last⟩⟩
      exact ⟨hl, lineNext_iff.2 ⟨hp, hl, .inr ⟨d, k, hu⟩⟩⟩

theorem forward_step (p : Int × Int) (hp : a.OnLine p) : StepOk a true (lineNext a) p := by
  obtain ⟨q, h1, h2⟩ := forward_ok hs p hp
  intro q' hq
  rw [h1] at hq
  cases hq
  exact h2

theorem backward_ok (p : Int × Int) (hp : a.OnLine p) :
    (∃ q, nextTile a p false = .ok q ∧ ((a.OnLine q ∧ linePrev a p = some q) ∨ (a.Stops q ∧ linePrev a p = none))) ∨
      (nextTile a p false = .error .assertion ∧ ∃ q d, a.board q = .underground d true ∧ q.2 = 0) := by
  rcases line_cases_in hp.2 with ⟨d, hd⟩ | ⟨d, hd⟩
  · refine .inl ⟨_, nextTile_takes hp.2 hd, ?_⟩
    have hn : a.nb (stepBack p d) d = some p := nb_iff.2 ⟨(stepTo_stepBack p d).symm, hp.1⟩
    by_cases hi : a.inside (stepBack p d)
    · have ht := hs.joined.inp _ p d hi hn hd (IsLine.not_splitter hp.2)
      have hf : Follows a.nb a.board (stepBack p d) p := .inl ⟨d, hn, ht, hd⟩
      rcases Emits.line_or ht with hl | hl
      · exact .inl ⟨⟨hi, hl⟩, linePrev_iff.2 ⟨⟨hi, hl⟩, hp, hf⟩⟩
      · refine .inr ⟨.inr (.inr hl), ?_⟩
        cases hc : linePrev a p with
        | none => rfl
        | some q =>
          obtain ⟨h2, _, h3⟩ := linePrev_iff.1 hc
          rw [h3.left_unique hf] at h2
          exact absurd hl (IsLine.not_splitter h2.2)
    · refine .inr ⟨.inl hi, ?_⟩
      cases hc : linePrev a p with
      | none => rfl
      | some q =>
        obtain ⟨h2, _, h3⟩ := linePrev_iff.1 hc
        rcases h3 with ⟨d', h4, _, h5⟩ | ⟨d', k, h4⟩
        · have := Takes.unique hd h5
          subst this
          have := (nb_iff.1 h4).1
          rw [this, stepBack_stepTo] at hi
          exact absurd h2.1 hi
        · rw [(under_iff.1 h4).last] at hd
          exact hd.elim
  · obtain ⟨q, k, hq, hu⟩ := hs.undergrounds.exit p d hp.1 hd
    have hu' := under_iff.1 hu
    have hn : nextTile a p false = searchEnd a d true (a.rows + a.cols) p := by
      unfold nextTile
      rw [hd]
      simp
    have := searchEnd_back hu' hq (a.rows + a.cols) k (by have := hu'.two; omega) le_rfl (length_lt hu')
    rw [← hu'.at_, ← hn] at this
    rcases this with h | ⟨h, hrow⟩
    · have hl : a.OnLine q := ⟨hq, .inr ⟨_, _, hu'.first⟩⟩
      exact .inl ⟨q, h, .inl ⟨hl, linePrev_iff.2 ⟨hl, hp, .inr ⟨d, k, hu⟩⟩⟩⟩
    · exact .inr ⟨h, q, d, hu'.first, hrow⟩

theorem backward_step (p : Int × Int) (hp : a.OnLine p) : StepOk a false (linePrev a) p := by
  intro q' hq
  rcases backward_ok hs p hp with ⟨q, h1, h2⟩ | ⟨h, _⟩
  · rw [h1] at hq
    cases hq
    exact h2
  · rw [h] at hq
    cases hq

end FSat
