import Verif.Lemmas.ParseEnds
import Verif.Lemmas.Dict
import Verif.Lemmas.NetworkNorm
/-!
# The colours of a parsed network
-/

set_option linter.unusedSimpArgs false
set_option linter.unusedSectionVars false

namespace FSat

open Relation

variable {a : Arr Tile} {assume : Bool} {M : ColourMap} {cur : Int}

/-! ### Connections between splitters -/

/-- The two cells on the way from the splitter half `p` to the splitter half `q`: the first and the last cell of a belt line, or the two
halves themselves. -/
theorem reaches_cases {p q : Int × Int} (h : Reaches a.nb a.board p q) : Follows a.nb a.board p q ∨
    ∃ x y, Follows a.nb a.board p x ∧ a.OnLine x ∧ LinePath a x y ∧ a.OnLine y ∧ Follows a.nb a.board y q := by
  induction h with
  | step h => exact .inl h
  | @on q r _ hns hf ih =>
    rcases ih with ih | ⟨x, y, h1, h2, h3, h4, h5⟩
    · have hq : a.OnLine q := ih.right_line_or.resolve_right hns
      exact .inr ⟨q, q, ih, hq, .refl, hq, hf⟩
    · have hq : a.OnLine q := h5.right_line_or.resolve_right hns
      exact .inr ⟨x, q, h1, h2, h3.tail ⟨h4, hq, h5⟩, hq, hf⟩

theorem reaches_of {p x y q : Int × Int} (h1 : Follows a.nb a.board p x) (hx : a.OnLine x) (h : LinePath a x y) (h2 : Follows a.nb a.board y q) :
    Reaches a.nb a.board p q := by
  have h3 : Reaches a.nb a.board p y ∧ a.OnLine y := by
    clear h2
    induction h with
    | refl => exact ⟨.step h1, hx⟩
    | tail _ h ih => exact ⟨.on ih.1 (IsLine.not_splitter ih.2.2) h.2.2, h.2.1⟩
  exact .on h3.1 (IsLine.not_splitter h3.2.2) h2

theorem follows_splitter {p q : Int × Int} {d : Dir} {b : Bool} (hp : a.board p = .splitter d b) (h : Follows a.nb a.board p q) :
    Connected a.nb a.board p q d := by
  rcases h with ⟨e, h⟩ | ⟨e, k, h⟩
  · have : d = e := by
      have := h.2.1
      rw [hp] at this
      exact this
    subst this
    exact h
  · have := (under_iff.1 h).first
    rw [hp] at this
    cases this

theorem follows_to_splitter {p q : Int × Int} {d : Dir} {b : Bool} (hq : a.board q = .splitter d b) (h : Follows a.nb a.board p q) :
    Connected a.nb a.board p q d := by
  rcases h with ⟨e, h⟩ | ⟨e, k, h⟩
  · have : d = e := by
      have := h.2.2
      rw [hq] at this
      exact this
    subst this
    exact h
  · have := (under_iff.1 h).last
    rw [hq] at this
    cases this

/-- A splitter half at the start of a line is the only thing before it. -/
theorem path_to_start {p x y : Int × Int} (h : Follows a.nb a.board p y) (hp : (a.board p).IsSplitter) (hxy : LinePath a x y) : x = y := by
  rcases ReflTransGen.cases_tail hxy with h1 | ⟨w, _, h1⟩
  · exact h1.symm
  · have := h.left_unique h1.2.2
    subst this
    exact absurd hp (IsLine.not_splitter h1.1.2)

theorem path_from_end {q x y : Int × Int} (h : Follows a.nb a.board x q) (hq : (a.board q).IsSplitter) (hxy : LinePath a x y) : x = y := by
  rcases ReflTransGen.cases_head hxy with h1 | ⟨w, h1, _⟩
  · exact h1
  · have := h.right_unique h1.2.2
    subst this
    exact absurd hq (IsLine.not_splitter h1.2.1.2)

/-! ### The colours found -/

variable {s s' : ColourMap × Int} {l : List (SEnd × Colour)}

/-- The end is connected. -/
def SEnd.Connects (a : Arr Tile) (assume : Bool) (e : SEnd) : Prop :=
  if e.out then DrainsTo a.nb a.board assume e.base e.dir else FedFrom a.In a.nb a.board assume e.base e.dir

theorem SEnd.pos_out {p : Int × Int} {d : Dir} : (SEnd.mk true p d).pos = stepTo p d := rfl
theorem SEnd.pos_in {p : Int × Int} {d : Dir} : (SEnd.mk false p d).pos = stepBack p d := rfl

theorem opp_nb {p : Int × Int} {d : Dir} : a.nb p d.opp = none ↔ ¬ a.inside (stepBack p d) := by
  rw [nb_none, show stepTo p d.opp = stepBack p d by cases d <;> simp [stepTo, stepBack, Dir.opp, Dir.dx, Dir.dy] <;> omega]

theorem connects_out {p : Int × Int} {d : Dir} {b : Bool} (hp : a.board p = .splitter d b) : (SEnd.mk true p d).Connects a assume ↔
    (a.inside (stepTo p d) ∧ (a.board (stepTo p d)).Takes d) ∨ (assume = true ∧ ¬ a.inside (stepTo p d)) := by
  unfold SEnd.Connects DrainsTo
  simp only [if_true, nb_none]
  refine or_congr_left ⟨?_, ?_⟩
  · rintro ⟨q, h1, _, h3⟩
    obtain ⟨rfl, h4⟩ := nb_iff.1 h1
    exact ⟨h4, h3⟩
  · rintro ⟨h1, h2⟩
    exact ⟨_, nb_iff.2 ⟨rfl, h1⟩, by rw [hp]; rfl, h2⟩

theorem connects_in {p : Int × Int} {d : Dir} {b : Bool} (hp : a.board p = .splitter d b) : (SEnd.mk false p d).Connects a assume ↔
    (a.inside (stepBack p d) ∧ (a.board (stepBack p d)).Emits d) ∨ (assume = true ∧ ¬ a.inside (stepBack p d)) := by
  unfold SEnd.Connects FedFrom
  simp only [Bool.false_eq_true, if_false, opp_nb]
  refine or_congr_left ⟨?_, ?_⟩
  · rintro ⟨q, h0, h1, h2, _⟩
    obtain ⟨h3, h4⟩ := nb_iff.1 h1
    rw [h3, stepBack_stepTo]
    exact ⟨h0, h2⟩
  · rintro ⟨h1, h2⟩
    exact ⟨_, h1, nb_iff.2 ⟨(stepTo_stepBack p d).symm, inside_of_board (by rw [hp]; simp)⟩, h2, by rw [hp]; rfl⟩

theorem connects_iff {e : SEnd} {b : Bool} (hp : a.board e.base = .splitter e.dir b) : e.Connects a assume ↔
    (a.inside e.pos ∧ e.Joins a) ∨ (assume = true ∧ ¬ a.inside e.pos) := by
  obtain ⟨o, p, d⟩ := e
  cases o with
  | true => exact connects_out hp
  | false => exact connects_in hp

section
variable (hM : Coloured a M cur) (hall : ∀ x, a.OnLine x → M x ≠ none)
include hM hall

theorem val_none {lo hi : Int} {m : ColourMap} {e : SEnd} {c : Colour} {b : Bool} (h : EndVal a assume M lo hi m e c)
    (hp : a.board e.base = .splitter e.dir b) : c = none ↔ ¬ e.Connects a assume := by
  rw [connects_iff hp]
  cases h with
  | edge k h1 h2 => simp [h1, h2]
  | open_ h1 h2 => simp [h1, h2]
  | other f b h1 h2 h3 =>
    simp only [h1, true_and, not_true, and_false, or_false, true_iff]
    unfold SEnd.Joins
    rw [h2]
    split
    · exact h3
    · exact h3
  | cell b k h1 h2 h3 =>
    simp only [h1, true_and, not_true, and_false, or_false, false_iff, not_not, reduceCtorEq]
    unfold SEnd.Joins
    rw [h2]
    split <;> rfl
  | line h1 h2 => simp [h1.1, h2, hall _ h1]
  | side h1 h2 => simp [h1.1, h2]

theorem val_pos_line {lo hi : Int} {m : ColourMap} {e : SEnd} {c : Colour} (h : EndVal a assume M lo hi m e c) (hl : a.OnLine e.pos)
    (hj : e.Joins a) : c = M e.pos := by
  have hns := IsLine.not_splitter hl.2
  cases h with
  | edge k h1 => exact absurd hl.1 h1
  | open_ h1 => exact absurd hl.1 h1
  | other f b h1 h2 => exact absurd ⟨_, _, h2⟩ hns
  | cell b k h1 h2 => exact absurd ⟨_, _, h2⟩ hns
  | line h1 h2 => rfl
  | side h1 h2 => exact absurd hj h2

theorem val_pos_cell {lo hi : Int} {m : ColourMap} {e : SEnd} {c : Colour} {b : Bool} (h : EndVal a assume M lo hi m e c)
    (hi : a.inside e.pos) (hl : a.board e.pos = .splitter e.dir b) : c = m e.cell := by
  cases h with
  | edge k h1 => exact absurd hi h1
  | open_ h1 => exact absurd hi h1
  | other f b h1 h2 h3 => rw [hl] at h2; cases h2; exact absurd rfl h3
  | cell b k h1 h2 h3 => exact h3.symm
  | line h1 h2 => exact absurd ⟨_, _, hl⟩ (IsLine.not_splitter h1.2)
  | side h1 h2 => exact absurd ⟨_, _, hl⟩ (IsLine.not_splitter h1.2)

omit hall in
theorem cell_splitter {e : SEnd} {b b' : Bool} (hp : a.board e.base = .splitter e.dir b) (h : a.board e.pos = .splitter e.dir b') :
    (a.board e.cell).IsSplitter := by
  unfold SEnd.cell
  split
  · exact ⟨_, _, h⟩
  · exact ⟨_, _, hp⟩

/-- Ends with the same colour. -/
theorem val_same (h : EndsRun a assume M cur s s' l) {e e' : SEnd} {k : Int} {b b' : Bool} (he : (e, some k) ∈ l) (he' : (e', some k) ∈ l)
    (hp : a.board e.base = .splitter e.dir b) (hp' : a.board e'.base = .splitter e'.dir b') :
    e = e' ∨
    (a.board e.pos = .splitter e.dir true ∨ a.board e.pos = .splitter e.dir false) ∧
      (a.board e'.pos = .splitter e'.dir true ∨ a.board e'.pos = .splitter e'.dir false) ∧ e.cell = e'.cell ∨
    (a.OnLine e.pos ∧ a.OnLine e'.pos ∧ e.Joins a ∧ e'.Joins a ∧ (LinePath a e.pos e'.pos ∨ LinePath a e'.pos e.pos)) := by
  have hv := h.vals _ he
  have hv' := h.vals _ he'
  have hinj := h.inj _ he _ he'
  dsimp only at hv hv' hinj
  have hline : ∀ x, a.OnLine x → s'.1 x = M x := fun x hx => h.inv.rest x (IsLine.not_splitter hx.2)
  have hb2 : ∀ (t : Tile) (d : Dir) (b : Bool), t = .splitter d b → t = .splitter d true ∨ t = .splitter d false := by
    rintro t d b rfl
    cases b
    · exact .inr rfl
    · exact .inl rfl
  have hle := h.inv.le
  have hne : ∀ {e : SEnd} {c : Colour}, EndVal a assume M s.2 s'.2 s'.1 e c → c = some k →
      (¬ a.inside e.pos ∧ ∀ x, s'.1 x ≠ some k) ∨ (∃ b, a.board e.pos = .splitter e.dir b ∧ s'.1 e.cell = some k) ∨
        (a.OnLine e.pos ∧ e.Joins a ∧ M e.pos = some k) := by
    intro e c hv hc
    cases hv with
    | edge k' h1 h2 h3 h4 h5 => cases hc; exact .inl ⟨h1, h5⟩
    | open_ => cases hc
    | other => cases hc
    | cell b k' h1 h2 h3 => cases hc; exact .inr (.inl ⟨b, h2, h3⟩)
    | line h1 h2 => exact .inr (.inr ⟨h1, h2, hc⟩)
    | side => cases hc
  rcases hne hv rfl with ⟨h1, h2⟩ | ⟨b1, h1, h2⟩ | ⟨h1, h2, h3⟩ <;> rcases hne hv' rfl with ⟨h1', h2'⟩ | ⟨b1', h1', h2'⟩ | ⟨h1', h2', h3'⟩
  · exact .inl (hinj h1 h1' rfl (by simp))
  · exact absurd h2' (h2 _)
  · rw [← hline _ h1'] at h3'
    exact absurd h3' (h2 _)
  · exact absurd h2 (h2' _)
  · exact .inr (.inl ⟨hb2 _ _ _ h1, hb2 _ _ _ h1', h.inv.inj _ _ k (cell_splitter hM hp h1) (cell_splitter hM hp' h1') h2 h2'⟩)
  · have h4 := h.inv.range _ k (cell_splitter hM hp h1) h2
    have h5 := hM.range _ k h1' h3'
    omega
  · rw [← hline _ h1] at h3
    exact absurd h3 (h2' _)
  · have h4 := h.inv.range _ k (cell_splitter hM hp' h1') h2'
    have h5 := hM.range _ k h1 h3
    omega
  · exact .inr (.inr ⟨h1, h1', h2, h2', hM.same _ _ k h1 h1' h3 h3'⟩)

theorem joins_follows_out {p : Int × Int} {d : Dir} {b : Bool} (hp : a.board p = .splitter d b) (hi : a.inside (stepTo p d))
    (hj : (SEnd.mk true p d).Joins a) : Follows a.nb a.board p (stepTo p d) :=
  .inl ⟨d, nb_iff.2 ⟨rfl, hi⟩, by rw [hp]; rfl, hj⟩

theorem joins_follows_in {p : Int × Int} {d : Dir} {b : Bool} (hp : a.board p = .splitter d b)
    (hj : (SEnd.mk false p d).Joins a) : Follows a.nb a.board (stepBack p d) p :=
  .inl ⟨d, nb_iff.2 ⟨(stepTo_stepBack p d).symm, inside_of_board (by rw [hp]; simp)⟩, hj, by rw [hp]; rfl⟩

/-- Two outputs with the same colour are the same. -/
theorem out_unique (h : EndsRun a assume M cur s s' l) {p p' : Int × Int} {d d' : Dir} {k : Int} {b b' : Bool}
    (he : (⟨true, p, d⟩, some k) ∈ l) (he' : (⟨true, p', d'⟩, some k) ∈ l)
    (hp : a.board p = .splitter d b) (hp' : a.board p' = .splitter d' b') : p = p' := by
  rcases val_same hM hall h he he' hp hp' with h1 | ⟨h1, h2, h3⟩ | ⟨h1, h2, h3, h4, h5⟩
  · cases h1; rfl
  · have hpos : stepTo p d = stepTo p' d' := h3
    have hd : d = d' := by
      simp only [SEnd.pos_out] at h1 h2
      rw [← hpos] at h2
      rcases h1 with h1 | h1 <;> rcases h2 with h2 | h2 <;> rw [h1] at h2 <;> cases h2 <;> rfl
    subst hd
    exact stepTo_inj hpos
  · simp only [SEnd.pos_out] at h1 h2 h5
    have f := joins_follows_out hM hall hp h1.1 h3
    have f' := joins_follows_out hM hall hp' h2.1 h4
    have : stepTo p d = stepTo p' d' := by
      rcases h5 with h5 | h5
      · exact path_to_start f' ⟨_, _, hp'⟩ h5
      · exact (path_to_start f ⟨_, _, hp⟩ h5).symm
    rw [this] at f
    exact f.left_unique f'

theorem path_colour {x y : Int × Int} (h : LinePath a x y) : M x = M y := by
  induction h with
  | refl => rfl
  | tail _ h ih => rw [ih, hM.line _ _ h]

/-- An output and an input have the same colour if they are connected. -/
theorem out_in (h : EndsRun a assume M cur s s' l) {p p' : Int × Int} {d d' : Dir} {c c' : Colour} {b b' : Bool}
    (he : (⟨true, p, d⟩, c) ∈ l) (he' : (⟨false, p', d'⟩, c') ∈ l)
    (hp : a.board p = .splitter d b) (hp' : a.board p' = .splitter d' b') : Reaches a.nb a.board p p' ↔ c = c' ∧ c ≠ none := by
  constructor
  · intro hr
    have hv := h.vals _ he
    have hv' := h.vals _ he'
    dsimp only at hv hv'
    rcases reaches_cases hr with hf | ⟨x, y, h1, h2, h3, h4, h5⟩
    · have hc := follows_splitter hp hf
      have hc' := follows_to_splitter hp' hf
      have hd : d = d' := Emits.unique hc.2.1 hc'.2.1
      subst hd
      obtain ⟨rfl, hi⟩ := nb_iff.1 hc.1
      have e1 := val_pos_cell hM hall hv hi hp'
      have hin : a.inside p := inside_of_board (by rw [hp]; simp)
      have hpos : (SEnd.mk false (stepTo p d) d).pos = p := by rw [SEnd.pos_in, stepBack_stepTo]
      have e2 := val_pos_cell hM hall (b := b) hv' (by rw [hpos]; exact hin) (by rw [hpos]; exact hp)
      have e3 : (SEnd.mk true p d).cell = (SEnd.mk false (stepTo p d) d).cell := rfl
      refine ⟨by rw [e1, e2, e3], ?_⟩
      have hcon : (SEnd.mk true p d).Connects a assume := (connects_out hp).2 (.inl ⟨hi, hc.2.2⟩)
      intro hcn
      exact (val_none hM hall hv hp).1 hcn hcon
    · have hc := follows_splitter hp h1
      have hc' := follows_to_splitter hp' h5
      obtain ⟨rfl, hi⟩ := nb_iff.1 hc.1
      have hy : y = stepBack p' d' := by rw [(nb_iff.1 hc'.1).1, stepBack_stepTo]
      subst hy
      have e1 := val_pos_line hM hall hv h2 hc.2.2
      have e2 := val_pos_line hM hall hv' h4 hc'.2.1
      have e3 : M (stepTo p d) = M (stepBack p' d') := path_colour hM hall h3
      simp only [SEnd.pos_out] at e1
      simp only [SEnd.pos_in] at e2
      exact ⟨by rw [e1, e2, e3], by rw [e1]; exact hall _ h2⟩
  · rintro ⟨rfl, hne⟩
    obtain ⟨k, rfl⟩ := Option.ne_none_iff_exists'.1 hne
    rcases val_same hM hall h he he' hp hp' with h1 | ⟨h1, h2, h3⟩ | ⟨h1, h2, h3, h4, h5⟩
    · cases h1
    · have hpos : stepTo p d = p' := h3
      subst hpos
      have hi : a.inside (stepTo p d) := inside_of_board (by rw [hp']; simp)
      have hd : d = d' := by
        simp only [SEnd.pos_out] at h1
        rcases h1 with h1 | h1 <;> rw [hp'] at h1 <;> cases h1 <;> rfl
      subst hd
      exact .step (.inl ⟨d, nb_iff.2 ⟨rfl, hi⟩, by rw [hp]; rfl, by rw [hp']; rfl⟩)
    · simp only [SEnd.pos_out, SEnd.pos_in] at h1 h2 h5
      have f := joins_follows_out hM hall hp h1.1 h3
      have f' := joins_follows_in hM hall hp' h4
      rcases h5 with h5 | h5
      · exact reaches_of f h1 h5 f'
      · have := path_from_end f' ⟨_, _, hp'⟩ h5
        rw [this] at f'
        exact reaches_of f h1 .refl f'

end

/-! ### The new colours -/

theorem foldl_set_const (cs : List Colour) (v : Colour) : ∀ (m : PyDict Colour Colour) (c : Colour),
    (cs.foldl (fun m c => m.set c v) m).get c = if c ∈ cs then some v else m.get c := by
  induction cs with
  | nil => intro m c; simp
  | cons x cs ih =>
    intro m c
    rw [List.foldl_cons, ih]
    by_cases hc : c ∈ cs
    · simp [hc]
    · rw [if_neg hc, PyDict.get_set]
      by_cases hx : c = x
      · subst hx; simp
      · have : x ≠ c := fun h => hx h.symm
        simp [hx, hc, this]

theorem fold_nodes (n : Network) : ∀ (m : PyDict Colour Colour) (k : Int),
    let r := n.foldl (fun (s : PyDict Colour Colour × Int) nd => ((s.1.set nd.2.1 (some s.2)).set nd.2.2 (some s.2), s.2 + 1)) (m, k)
    r.2 = k + n.length ∧ (∀ c, c ∉ outsOf n → r.1.get c = m.get c) ∧
      ∀ (c : Colour) (i : Nat) (nd : Node), n[i]? = some nd → (c = nd.2.1 ∨ c = nd.2.2) →
        (∀ (j : Nat) (nd' : Node), n[j]? = some nd' → (c = nd'.2.1 ∨ c = nd'.2.2) → j = i) → r.1.get c = some (some (k + i)) := by
  induction n with
  | nil =>
    intro m k
    refine ⟨by simp, fun c _ => rfl, fun c i nd h => by simp at h⟩
  | cons nd n ih =>
    intro m k
    have hget : ∀ c, ((m.set nd.2.1 (some k)).set nd.2.2 (some k)).get c = if c = nd.2.1 ∨ c = nd.2.2 then some (some k) else m.get c := by
      intro c
      rw [PyDict.get_set, PyDict.get_set]
      by_cases h2 : c = nd.2.2
      · subst h2; simp
      · by_cases h1 : c = nd.2.1
        · subst h1
          simp
        · simp [h1, h2, Ne.symm h1, Ne.symm h2]
    obtain ⟨h1, h2, h3⟩ := ih ((m.set nd.2.1 (some k)).set nd.2.2 (some k)) (k + 1)
    simp only [List.foldl_cons]
    refine ⟨by rw [h1]; simp; omega, fun c hc => ?_, fun c i nd' hi hc huniq => ?_⟩
    · have hc' : c ≠ nd.2.1 ∧ c ≠ nd.2.2 ∧ c ∉ outsOf n := by
        simp only [outsOf, List.flatMap_cons, List.mem_append, not_or] at hc ⊢
        refine ⟨fun h => hc.1 (by simp [h]), fun h => hc.1 (by simp [h]), hc.2⟩
      rw [h2 c hc'.2.2, hget, if_neg (by simp [hc'.1, hc'.2.1])]
    · cases i with
      | zero =>
        simp only [List.getElem?_cons_zero, Option.some.injEq] at hi
        subst hi
        have hout : c ∉ outsOf n := by
          intro hc'
          simp only [outsOf, List.mem_flatMap] at hc'
          obtain ⟨nd', hnd', hc'⟩ := hc'
          obtain ⟨j, hj⟩ := List.mem_iff_getElem?.1 hnd'
          have := huniq (j + 1) nd' (by simpa using hj) (by simpa using hc')
          omega
        rw [h2 c hout, hget, if_pos hc]
        simp
      | succ i =>
        have := h3 c i nd' (by simpa using hi) hc fun j nd'' hj hc' => by
          have := huniq (j + 1) nd'' (by simpa using hj) hc'
          omega
        rw [this]
        simp only [Nat.cast_add, Nat.cast_one, Option.some.injEq]
        omega

variable {n : Network}

/-- The colour `parse_network` gives to a colour it found. -/
def newColour (n : Network) (c : Colour) : Colour := mapColour ((parseMapping n).erase none) c

theorem parseMapping_erase (n : Network) : ((parseMapping n).erase none).get none = none := by
  rw [PyDict.get_erase]
  simp

theorem newColour_none (n : Network) : newColour n none = none := by
  unfold newColour mapColour
  rw [parseMapping_erase]
  rfl

theorem newColour_eq {c : Colour} (hc : c ≠ none) {v : Colour} (h : (parseMapping n).get c = some v) : newColour n c = v := by
  unfold newColour mapColour
  rw [PyDict.get_erase, if_neg (by simpa [eq_comm] using hc), h]
  rfl

theorem newColour_in {c : Colour} (hc : c ≠ none) (hi : c ∈ insOf n) (ho : c ∉ outsOf n) : newColour n c = some 0 := by
  refine newColour_eq hc ?_
  unfold parseMapping
  obtain ⟨h1, h2, _⟩ := fold_nodes n ((getExteriorColours n).1.foldl (fun m c => m.set c (some 0)) []) 1
  dsimp only at h1 h2 ⊢
  rw [foldl_set_const, if_neg, h2 c ho, foldl_set_const, if_pos]
  · exact (mem_exterior n c).1.2 ⟨hc, hi, ho⟩
  · intro h
    exact ho ((mem_exterior n c).2.1 h).2.1

theorem newColour_out {c : Colour} (hc : c ≠ none) (hi : c ∉ insOf n) (ho : c ∈ outsOf n) : newColour n c = some ((n.length : Int) + 1) := by
  refine newColour_eq hc ?_
  unfold parseMapping
  obtain ⟨h1, h2, _⟩ := fold_nodes n ((getExteriorColours n).1.foldl (fun m c => m.set c (some 0)) []) 1
  dsimp only at h1 h2 ⊢
  rw [foldl_set_const, if_pos, h1]
  · congr 2
    omega
  · exact (mem_exterior n c).2.2 ⟨hc, ho, hi⟩

theorem newColour_inner {c : Colour} (hc : c ≠ none) (hi : c ∈ insOf n) {i : Nat} {nd : Node} (hn : n[i]? = some nd)
    (ho : c = nd.2.1 ∨ c = nd.2.2) (huniq : ∀ (j : Nat) (nd' : Node), n[j]? = some nd' → (c = nd'.2.1 ∨ c = nd'.2.2) → j = i) :
    newColour n c = some ((i : Int) + 1) := by
  refine newColour_eq hc ?_
  unfold parseMapping
  obtain ⟨_, _, h3⟩ := fold_nodes n ((getExteriorColours n).1.foldl (fun m c => m.set c (some 0)) []) 1
  dsimp only at h3 ⊢
  rw [foldl_set_const, if_neg, h3 c i nd hn ho huniq]
  · congr 2
    omega
  · intro h
    exact ((mem_exterior n c).2.1 h).2.2 hi

theorem remap_parse (n : Network) : remapColours n ((parseMapping n).erase none) =
    .ok (n.map fun nd => ((newColour n nd.1.1, newColour n nd.1.2), (newColour n nd.2.1, newColour n nd.2.2))) := by
  unfold remapColours
  rw [parseMapping_erase]
  rfl

/-! ### The network -/

theorem next_eq_ccw (d : Dir) : d.next = d.ccw := by cases d <;> rfl

theorem getElem?_of_forall₂ {α β : Type} {R : α → β → Prop} {l : List α} {l' : List β} (h : List.Forall₂ R l l') (i : Nat) :
    (∀ x, l[i]? = some x → ∃ y, l'[i]? = some y ∧ R x y) ∧ ∀ y, l'[i]? = some y → ∃ x, l[i]? = some x ∧ R x y := by
  induction h generalizing i with
  | nil => exact ⟨fun x h => by simp at h, fun x h => by simp at h⟩
  | @cons x y l l' hxy _ ih =>
    cases i with
    | zero => exact ⟨fun x' h => by simp at h; subst h; exact ⟨y, rfl, hxy⟩, fun y' h => by simp at h; subst h; exact ⟨x, rfl, hxy⟩⟩
    | succ i => simpa using ih i

/-- The end of the splitter number `i` at the half `p`. -/
structure EndAt (a : Arr Tile) (heads : List (Int × Int)) (n : Network) (i : Nat) (out : Bool) (p : Int × Int) (d : Dir) (c : Colour) : Prop where
  ex : ∃ h nd, heads[i]? = some h ∧ n[i]? = some nd ∧ a.board h = .splitter d true ∧
    ((p = h ∧ c = (if out then nd.2 else nd.1).1) ∨ (p = stepTo h d.next ∧ c = (if out then nd.2 else nd.1).2))

/-- What is known about the colours found. -/
structure Found (a : Arr Tile) (assume : Bool) (heads : List (Int × Int)) (n : Network) : Prop where
  length : n.length = heads.length
  none : ∀ i out p d c, EndAt a heads n i out p d c → (c = none ↔ ¬ (SEnd.mk out p d).Connects a assume)
  unique : ∀ i j p p' d d' c, EndAt a heads n i true p d c → EndAt a heads n j true p' d' c → c ≠ Option.none → i = j
  reaches : ∀ i j p p' d d' c c', EndAt a heads n i true p d c → EndAt a heads n j false p' d' c' →
    (Reaches a.nb a.board p p' ↔ c = c' ∧ c ≠ Option.none)
  half : ∀ i h r, heads[i]? = some h → HalfOf a.nb a.board h r → ∀ out, ∃ d c, EndAt a heads n i out r d c
  isHalf : ∀ i out p d c, EndAt a heads n i out p d c → ∃ h, heads[i]? = some h ∧ HalfOf a.nb a.board h p

theorem mem_ends (heads : List (Int × Int)) {n : Network} (hlen : n.length = heads.length)
    (hh : ∀ h ∈ heads, ∃ d, a.board h = .splitter d true) (out : Bool) (c : Colour) :
    (∃ nd ∈ n, c = (if out then nd.2 else nd.1).1 ∨ c = (if out then nd.2 else nd.1).2) ↔ ∃ i p d, EndAt a heads n i out p d c := by
  constructor
  · rintro ⟨nd, hnd, hc⟩
    obtain ⟨i, hi⟩ := List.mem_iff_getElem?.1 hnd
    have hlt : i < heads.length := by
      rw [← hlen]
      exact (List.getElem?_eq_some_iff.1 hi).1
    obtain ⟨d, hd⟩ := hh _ (List.getElem_mem hlt)
    rcases hc with hc | hc
    · exact ⟨i, _, d, ⟨_, nd, List.getElem?_eq_getElem hlt, hi, hd, .inl ⟨rfl, hc⟩⟩⟩
    · exact ⟨i, _, d, ⟨_, nd, List.getElem?_eq_getElem hlt, hi, hd, .inr ⟨rfl, hc⟩⟩⟩
  · rintro ⟨i, p, d, h, nd, _, hi, _, hc⟩
    refine ⟨nd, List.mem_iff_getElem?.2 ⟨i, hi⟩, ?_⟩
    rcases hc with ⟨_, hc⟩ | ⟨_, hc⟩
    · exact .inl hc
    · exact .inr hc

theorem mem_insOf {n : Network} {c : Colour} : c ∈ insOf n ↔ ∃ nd ∈ n, c = nd.1.1 ∨ c = nd.1.2 := by
  simp [insOf, List.mem_flatMap]

theorem mem_outsOf {n : Network} {c : Colour} : c ∈ outsOf n ↔ ∃ nd ∈ n, c = nd.2.1 ∨ c = nd.2.2 := by
  simp [outsOf, List.mem_flatMap]

section
variable {heads : List (Int × Int)} (hf : Found a assume heads n) (hh : ∀ h ∈ heads, ∃ d, a.board h = .splitter d true)
include hf hh

theorem mem_ins_iff {c : Colour} : c ∈ insOf n ↔ ∃ i p d, EndAt a heads n i false p d c := by
  rw [mem_insOf, ← mem_ends heads hf.length hh]
  simp

theorem mem_outs_iff {c : Colour} : c ∈ outsOf n ↔ ∃ i p d, EndAt a heads n i true p d c := by
  rw [mem_outsOf, ← mem_ends heads hf.length hh]
  simp

theorem inner_colour {c : Colour} {i : Nat} {p : Int × Int} {d : Dir} (hc : c ≠ none) (he : EndAt a heads n i true p d c) (hi : c ∈ insOf n) :
    newColour n c = some ((i : Int) + 1) := by
  obtain ⟨h, nd, h1, h2, h3, h4⟩ := he.ex
  refine newColour_inner hc hi h2 (by rcases h4 with ⟨_, h4⟩ | ⟨_, h4⟩; exacts [.inl h4, .inr h4]) fun j nd' hj hc' => ?_
  have hlt : j < heads.length := by
    rw [← hf.length]
    exact (List.getElem?_eq_some_iff.1 hj).1
  obtain ⟨d', hd'⟩ := hh _ (List.getElem_mem hlt)
  rcases hc' with hc' | hc'
  · exact hf.unique j i _ _ d' d c ⟨_, nd', List.getElem?_eq_getElem hlt, hj, hd', .inl ⟨rfl, hc'⟩⟩ he hc
  · exact hf.unique j i _ _ d' d c ⟨_, nd', List.getElem?_eq_getElem hlt, hj, hd', .inr ⟨rfl, hc'⟩⟩ he hc

theorem inputColour_of {j : Nat} {p : Int × Int} {d : Dir} {c : Colour} (he : EndAt a heads n j false p d c) :
    InputColour a.In a.nb a.board assume heads p d (newColour n c) := by
  have hnone := hf.none j false p d c he
  have hcon : (SEnd.mk false p d).Connects a assume ↔ FedFrom a.In a.nb a.board assume p d := Iff.rfl
  rw [hcon] at hnone
  have hreach : ∀ i h r, heads[i]? = some h → HalfOf a.nb a.board h r → Reaches a.nb a.board r p → ∃ d, EndAt a heads n i true r d c ∧ c ≠ none := by
    intro i h r hi hr hre
    obtain ⟨d', c', he'⟩ := hf.half i h r hi hr true
    obtain ⟨rfl, hne⟩ := (hf.reaches i j r p d' d c' c he' he).1 hre
    exact ⟨d', he', hne⟩
  by_cases hc : c = none
  · subst hc
    rw [newColour_none]
    have hno := hnone.1 rfl
    exact ⟨⟨fun _ => hno, fun _ => rfl⟩, ⟨fun h => (by cases h), fun h => absurd h.1 hno⟩,
      fun i => ⟨fun h => (by cases h), fun ⟨h, r, h1, h2, h3⟩ => absurd rfl (hreach i h r h1 h2 h3).choose_spec.2⟩⟩
  · have hyes : FedFrom a.In a.nb a.board assume p d := by
      by_contra h
      exact hc (hnone.2 h)
    have hin : c ∈ insOf n := (mem_ins_iff hf hh).2 ⟨j, p, d, he⟩
    by_cases ho : c ∈ outsOf n
    · obtain ⟨i, r, d', he'⟩ := (mem_outs_iff hf hh).1 ho
      obtain ⟨h, hi, hr⟩ := hf.isHalf i true r d' c he'
      rw [inner_colour hf hh hc he' hin]
      have hre : Reaches a.nb a.board r p := (hf.reaches i j r p d' d c c he' he).2 ⟨rfl, hc⟩
      refine ⟨⟨fun h => (by cases h), fun h => absurd hyes h⟩, ⟨fun h => ?_, fun h' => ?_⟩, fun k => ⟨fun h' => ?_, ?_⟩⟩
      · simp only [Option.some.injEq] at h
        omega
      · exact absurd hre (h'.2 h r (List.mem_iff_getElem?.2 ⟨i, hi⟩) hr)
      · have : k = i := by
          simp only [Option.some.injEq] at h'
          omega
        subst this
        exact ⟨h, r, hi, hr, hre⟩
      · rintro ⟨h', r', h1, h2, h3⟩
        obtain ⟨d'', he'', _⟩ := hreach k h' r' h1 h2 h3
        have := hf.unique i k _ _ _ _ c he' he'' hc
        subst this
        rfl
    · rw [newColour_in hc hin ho]
      refine ⟨⟨fun h => (by cases h), fun h => absurd hyes h⟩, ⟨fun _ => ⟨hyes, ?_⟩, fun _ => rfl⟩, fun k => ⟨fun h' => ?_, ?_⟩⟩
      · intro h r hm hr hre
        obtain ⟨i, hi⟩ := List.mem_iff_getElem?.1 hm
        obtain ⟨d', he', _⟩ := hreach i h r hi hr hre
        exact ho ((mem_outs_iff hf hh).2 ⟨i, r, d', he'⟩)
      · simp only [Option.some.injEq] at h'
        omega
      · rintro ⟨h', r', h1, h2, h3⟩
        obtain ⟨d'', he'', _⟩ := hreach k h' r' h1 h2 h3
        exact absurd ((mem_outs_iff hf hh).2 ⟨k, r', d'', he''⟩) ho

theorem outputColour_of {i : Nat} {p : Int × Int} {d : Dir} {c : Colour} (he : EndAt a heads n i true p d c) :
    OutputColour a.nb a.board assume heads i p d (newColour n c) := by
  have hnone := hf.none i true p d c he
  have hcon : (SEnd.mk true p d).Connects a assume ↔ DrainsTo a.nb a.board assume p d := Iff.rfl
  rw [hcon] at hnone
  have hlt : i < heads.length := by
    obtain ⟨h, nd, h1, _⟩ := he.ex
    exact (List.getElem?_eq_some_iff.1 h1).1
  have hreach : ∀ h r, h ∈ heads → HalfOf a.nb a.board h r → Reaches a.nb a.board p r → c ∈ insOf n ∧ c ≠ none := by
    intro h r hm hr hre
    obtain ⟨j, hj⟩ := List.mem_iff_getElem?.1 hm
    obtain ⟨d', c', he'⟩ := hf.half j h r hj hr false
    obtain ⟨rfl, hne⟩ := (hf.reaches i j p r d d' c c' he he').1 hre
    exact ⟨(mem_ins_iff hf hh).2 ⟨j, r, d', he'⟩, hne⟩
  by_cases hc : c = none
  · subst hc
    rw [newColour_none]
    have hno := hnone.1 rfl
    exact ⟨⟨fun _ => hno, fun _ => rfl⟩, ⟨fun h => (by cases h), fun ⟨h, r, h1, h2, h3⟩ => absurd rfl (hreach h r h1 h2 h3).2⟩,
      ⟨fun h => (by cases h), fun h => absurd h.1 hno⟩⟩
  · have hyes : DrainsTo a.nb a.board assume p d := by
      by_contra h
      exact hc (hnone.2 h)
    have hout : c ∈ outsOf n := (mem_outs_iff hf hh).2 ⟨i, p, d, he⟩
    by_cases hi : c ∈ insOf n
    · obtain ⟨j, r, d', he'⟩ := (mem_ins_iff hf hh).1 hi
      obtain ⟨h, hj, hr⟩ := hf.isHalf j false r d' c he'
      have hre : Reaches a.nb a.board p r := (hf.reaches i j p r d d' c c he he').2 ⟨rfl, hc⟩
      have hm : h ∈ heads := List.mem_iff_getElem?.2 ⟨j, hj⟩
      rw [inner_colour hf hh hc he hi]
      refine ⟨⟨fun h => (by cases h), fun h => absurd hyes h⟩, ⟨fun _ => ⟨h, r, hm, hr, hre⟩, fun _ => rfl⟩, ⟨fun h' => ?_, fun h' => ?_⟩⟩
      · simp only [Option.some.injEq] at h'
        omega
      · exact absurd hre (h'.2 h r hm hr)
    · rw [newColour_out hc hi hout, hf.length]
      refine ⟨⟨fun h => (by cases h), fun h => absurd hyes h⟩, ⟨fun h' => ?_, ?_⟩, ⟨fun _ => ⟨hyes, ?_⟩, fun _ => rfl⟩⟩
      · simp only [Option.some.injEq] at h'
        omega
      · rintro ⟨h, r, hm, hr, hre⟩
        exact absurd (hreach h r hm hr hre).1 hi
      · intro h r hm hr hre
        exact hi (hreach h r hm hr hre).1

theorem networkOf_found : NetworkOf a.In a.nb a.board assume heads
    (n.map fun nd => ((newColour n nd.1.1, newColour n nd.1.2), (newColour n nd.2.1, newColour n nd.2.2))) := by
  have key : ∀ (i : Nat) (h : Int × Int) (nd : Node), heads[i]? = some h →
      (n.map fun nd => ((newColour n nd.1.1, newColour n nd.1.2), (newColour n nd.2.1, newColour n nd.2.2)))[i]? = some nd →
      ∀ q d, SplitterPair a.nb a.board h q d → ∃ nd0 : Node, n[i]? = some nd0 ∧
        nd = ((newColour n nd0.1.1, newColour n nd0.1.2), (newColour n nd0.2.1, newColour n nd0.2.2)) ∧ q = stepTo h d.next := by
    intro i h nd h1 h2 q d h3
    rw [List.getElem?_map, Option.map_eq_some_iff] at h2
    obtain ⟨nd0, h4, h5⟩ := h2
    refine ⟨nd0, h4, h5.symm, ?_⟩
    rw [next_eq_ccw]
    exact (nb_iff.1 h3.2.1).1
  refine ⟨by rw [List.length_map, hf.length], fun i h nd h1 h2 q d h3 => ?_, fun i h nd h1 h2 q d h3 => ?_⟩
  · obtain ⟨nd0, h4, rfl, rfl⟩ := key i h nd h1 h2 q d h3
    exact ⟨inputColour_of hf hh ⟨h, nd0, h1, h4, h3.1, .inl ⟨rfl, rfl⟩⟩, inputColour_of hf hh ⟨h, nd0, h1, h4, h3.1, .inr ⟨rfl, rfl⟩⟩⟩
  · obtain ⟨nd0, h4, rfl, rfl⟩ := key i h nd h1 h2 q d h3
    exact ⟨outputColour_of hf hh ⟨h, nd0, h1, h4, h3.1, .inl ⟨rfl, rfl⟩⟩, outputColour_of hf hh ⟨h, nd0, h1, h4, h3.1, .inr ⟨rfl, rfl⟩⟩⟩

end

theorem found_of (hM : Coloured a M cur) (hall : ∀ x, a.OnLine x → M x ≠ none) (h : EndsRun a assume M cur s s' l) {heads : List (Int × Int)}
    (hnd : heads.Nodup) (htail : ∀ h ∈ heads, ∀ d, a.board h = .splitter d true → a.board (stepTo h d.next) = .splitter d false)
    (hn : List.Forall₂ (fun h nd => ∃ d, a.board h = .splitter d true ∧ ∀ x ∈ nodeEnds h d nd, x ∈ l) heads n) : Found a assume heads n := by
  have hend : ∀ {i out p d c}, EndAt a heads n i out p d c → (SEnd.mk out p d, c) ∈ l ∧ ∃ b, a.board p = .splitter d b := by
    rintro i out p d c ⟨h', nd, h1, h2, h3, h4⟩
    obtain ⟨nd', h5, d', h6, h7⟩ := (getElem?_of_forall₂ hn i).1 h' h1
    rw [h2] at h5
    cases h5
    rw [h3] at h6
    cases h6
    have ht := htail h' (List.mem_iff_getElem?.2 ⟨i, h1⟩) d h3
    rcases h4 with ⟨rfl, rfl⟩ | ⟨rfl, rfl⟩
    · refine ⟨h7 _ ?_, _, h3⟩
      unfold nodeEnds
      cases out <;> simp
    · refine ⟨h7 _ ?_, _, ht⟩
      unfold nodeEnds
      cases out <;> simp
  have hhead : ∀ {i j p d d' c c' out out'}, EndAt a heads n i out p d c → EndAt a heads n j out' p d' c' → i = j := by
    rintro i j p d d' c c' out out' ⟨h1, nd1, a1, b1, c1, e1⟩ ⟨h2, nd2, a2, b2, c2, e2⟩
    have t1 := htail h1 (List.mem_iff_getElem?.2 ⟨i, a1⟩) d c1
    have t2 := htail h2 (List.mem_iff_getElem?.2 ⟨j, a2⟩) d' c2
    have : h1 = h2 := by
      rcases e1 with ⟨rfl, _⟩ | ⟨rfl, _⟩ <;> rcases e2 with ⟨e2, _⟩ | ⟨e2, _⟩
      · exact e2
      · rw [← e2, c1] at t2
        cases t2
      · rw [e2, c2] at t1
        cases t1
      · rw [← e2, t1] at t2
        cases t2
        exact stepTo_inj e2
    subst this
    obtain ⟨hi1, hi2⟩ := List.getElem?_eq_some_iff.1 a1
    obtain ⟨hj1, hj2⟩ := List.getElem?_eq_some_iff.1 a2
    exact (hnd.getElem_inj_iff).1 (hi2.trans hj2.symm)
  refine ⟨hn.length_eq.symm, ?_, ?_, ?_, ?_, ?_⟩
  · intro i out p d c he
    obtain ⟨h1, b, h2⟩ := hend he
    exact val_none hM hall (h.vals _ h1) h2
  · intro i j p p' d d' c he he' hc
    obtain ⟨h1, b, h2⟩ := hend he
    obtain ⟨h1', b', h2'⟩ := hend he'
    obtain ⟨k, rfl⟩ := Option.ne_none_iff_exists'.1 hc
    have := out_unique hM hall h h1 h1' h2 h2'
    subst this
    exact hhead he he'
  · intro i j p p' d d' c c' he he'
    obtain ⟨h1, b, h2⟩ := hend he
    obtain ⟨h1', b', h2'⟩ := hend he'
    exact out_in hM hall h h1 h1' h2 h2'
  · rintro i h' r hi ⟨q, d, hsp, hr⟩ out
    obtain ⟨nd, h5, _⟩ := (getElem?_of_forall₂ hn i).1 h' hi
    rcases hr with rfl | rfl
    · exact ⟨d, _, ⟨r, nd, hi, h5, hsp.1, .inl ⟨rfl, rfl⟩⟩⟩
    · refine ⟨d, _, ⟨h', nd, hi, h5, hsp.1, .inr ⟨?_, rfl⟩⟩⟩
      rw [next_eq_ccw]
      exact (nb_iff.1 hsp.2.1).1
  · rintro i out p d c ⟨h', nd, h1, h2, h3, h4⟩
    have ht := htail h' (List.mem_iff_getElem?.2 ⟨i, h1⟩) d h3
    refine ⟨h', h1, stepTo h' d.next, d, ⟨h3, nb_iff.2 ⟨by rw [next_eq_ccw], inside_of_board (by rw [ht]; simp)⟩, ht⟩, ?_⟩
    rcases h4 with ⟨h4, _⟩ | ⟨h4, _⟩
    · exact .inl h4
    · exact .inr h4

/-! ### `parse_network` -/

/-- The heads of the splitters, column by column. -/
def Arr.heads (a : Arr Tile) : List (Int × Int) := a.columns.filter fun p => isHead (a.board p)

theorem isHead_iff {t : Tile} : isHead t = true ↔ ∃ d, t = .splitter d true := by
  constructor
  · intro h
    unfold isHead at h
    split at h
    · exact ⟨_, rfl⟩
    · cases h
  · rintro ⟨d, rfl⟩
    rfl

theorem mem_heads {p : Int × Int} : p ∈ a.heads ↔ ∃ d, a.board p = .splitter d true := by
  unfold Arr.heads
  rw [List.mem_filter, mem_columns, isHead_iff]
  refine ⟨fun h => h.2, fun h => ⟨?_, h⟩⟩
  obtain ⟨d, hd⟩ := h
  exact inside_of_board (by rw [hd]; simp)

theorem heads_nodup (a : Arr Tile) : a.heads.Nodup := (columns_nodup a).filter _

theorem stepFails_row (hs : SoundLayout a.In a.nb a.board) {e : PyErr} (h : StepFails a false e) :
    e = .assertion ∧ ∃ q d, a.board q = .underground d true ∧ q.2 = 0 := by
  obtain ⟨p, hp, he⟩ := h
  rcases backward_ok hs p hp with ⟨q, h1, _⟩ | ⟨h1, h2⟩
  · rw [h1] at he
    cases he
  · rw [h1] at he
    cases he
    exact ⟨rfl, h2⟩

theorem parseNetwork_cases (hs : SoundLayout a.In a.nb a.board) {ord : List (Int × Int) → List (Int × Int)} (ho : (ord a.heads).Perm a.heads) :
    (∃ net, parseNetwork ord a assume = .ok net ∧ NetworkOf a.In a.nb a.board assume (ord a.heads) net ∧
      ∀ h d, a.board h = .splitter d true → ¬ FacesEmpty a h d) ∨
    (parseNetwork ord a assume = .error .assertion ∧ ∃ q d, a.board q = .underground d true ∧ q.2 = 0) ∨
    (parseNetwork ord a assume = .error .attributeError ∧ ∃ h d, a.board h = .splitter d true ∧ FacesEmpty a h d) := by
  unfold parseNetwork
  rcases scan_columns hs with ⟨st, h1, h2⟩ | ⟨e, h1, h2⟩
  swap
  · rw [h1]
    obtain ⟨rfl, h3⟩ := stepFails_row hs h2
    exact .inr (.inl ⟨rfl, h3⟩)
  rw [h1]
  dsimp only
  have hheads : st.heads = a.heads := h2.heads
  rw [hheads]
  have hmem : ∀ h ∈ ord a.heads, ∃ d, a.board h = .splitter d true := fun h hm => mem_heads.1 (ho.mem_iff.1 hm)
  have htail : ∀ h ∈ ord a.heads, ∀ d, a.board h = .splitter d true → a.board (stepTo h d.next) = .splitter d false := by
    intro h _ d hd
    obtain ⟨q, _, hq⟩ := hs.splitters.head h d (inside_of_board (by rw [hd]; simp)) hd
    rw [next_eq_ccw, ← (nb_iff.1 hq.2.1).1]
    exact hq.2.2
  have hinv : EndInv a st.map st.current (st.map, st.current) :=
    ⟨le_rfl, fun _ _ => rfl, fun x k hx hk => (by dsimp only at hk; rw [h2.col.splitter x hx] at hk; cases hk),
      fun x y k hx _ hk _ => (by dsimp only at hk; rw [h2.col.splitter x hx] at hk; cases hk)⟩
  have hall : ∀ x, a.OnLine x → st.map x ≠ none := fun x hx => h2.all x ((mem_columns a x).2 hx.1) hx
  rcases parseNodes_spec (assume := assume) h2.col hs.basic (ord a.heads) (fun h hm => by
    obtain ⟨d, hd⟩ := hmem h hm
    exact ⟨d, hd, htail h hm d hd⟩) _ hinv with ⟨n, l, s', e1, r1, r2⟩ | ⟨e1, h, hm, d, hd, hf⟩
  · rw [e1]
    dsimp only
    rw [remap_parse]
    have hnd : (ord a.heads).Nodup := ho.nodup_iff.2 (heads_nodup a)
    have hfound := found_of h2.col hall r1 hnd htail r2
    refine .inl ⟨_, rfl, networkOf_found hfound hmem, ?_⟩
    rintro h d hd ⟨o, p, hp, hi, hemp⟩
    have hm : h ∈ ord a.heads := ho.mem_iff.2 (mem_heads.2 ⟨d, hd⟩)
    obtain ⟨i, hi'⟩ := List.mem_iff_getElem?.1 hm
    obtain ⟨nd, h5, d', h6, h7⟩ := (getElem?_of_forall₂ r2 i).1 h hi'
    rw [hd] at h6
    cases h6
    have hv : ∃ c, (SEnd.mk o p d, c) ∈ l := by
      rcases hp with rfl | rfl
      · exact ⟨if o then nd.2.1 else nd.1.1, h7 _ (by unfold nodeEnds; cases o <;> simp)⟩
      · exact ⟨if o then nd.2.2 else nd.1.2, h7 _ (by unfold nodeEnds; cases o <;> simp)⟩
    obtain ⟨c, hc⟩ := hv
    have hv := r1.vals _ hc
    dsimp only at hv
    have hnl : ¬ a.OnLine (SEnd.mk o p d).pos := fun h => OnLine.not_stops h (.inr (.inl hemp))
    cases hv with
    | edge k h1 => exact h1 hi
    | open_ h1 => exact h1 hi
    | other f b _ h1 => rw [hemp] at h1; cases h1
    | cell b k _ h1 => rw [hemp] at h1; cases h1
    | line h1 => exact hnl h1
    | side h1 => exact hnl h1
  · rw [e1]
    exact .inr (.inr ⟨rfl, h, d, hd, hf⟩)

end FSat
