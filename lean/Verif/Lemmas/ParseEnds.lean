import Verif.Lemmas.ParseScan
/-!
# The colours of the ends of the splitters
-/

set_option linter.unusedSimpArgs false

namespace FSat

open Relation

/-- The end of a splitter half. -/
structure SEnd where
  out : Bool
  base : Int × Int
  dir : Dir

/-- The cell the end faces. -/
def SEnd.pos (e : SEnd) : Int × Int := if e.out then stepTo e.base e.dir else stepBack e.base e.dir

/-- What is in the cell goes on to the end, or the other way round. -/
def SEnd.Joins (a : Arr Tile) (e : SEnd) : Prop := if e.out then (a.board e.pos).Takes e.dir else (a.board e.pos).Emits e.dir

/-- Where the colour of a connection between two splitters is kept. -/
def SEnd.cell (e : SEnd) : Int × Int := if e.out then e.pos else e.base

variable {a : Arr Tile} {assume : Bool} {M : ColourMap} {cur : Int}

/-- The colour of an end. -/
inductive EndVal (a : Arr Tile) (assume : Bool) (M : ColourMap) (lo hi : Int) (m : ColourMap) (e : SEnd) : Colour → Prop
  | edge (k : Int) : ¬ a.inside e.pos → assume = true → lo ≤ k → k < hi → (∀ x, m x ≠ some k) → EndVal a assume M lo hi m e (some k)
  | open_ : ¬ a.inside e.pos → assume = false → EndVal a assume M lo hi m e none
  | other (f : Dir) (b : Bool) : a.inside e.pos → a.board e.pos = .splitter f b → f ≠ e.dir → EndVal a assume M lo hi m e none
  | cell (b : Bool) (k : Int) : a.inside e.pos → a.board e.pos = .splitter e.dir b → m e.cell = some k →
      EndVal a assume M lo hi m e (some k)
  | line : a.OnLine e.pos → e.Joins a → EndVal a assume M lo hi m e (M e.pos)
  | side : a.OnLine e.pos → ¬ e.Joins a → EndVal a assume M lo hi m e none

/-- The colours of the splitter cells. -/
structure EndInv (a : Arr Tile) (M : ColourMap) (cur : Int) (s : ColourMap × Int) : Prop where
  le : cur ≤ s.2
  rest : ∀ x, ¬ (a.board x).IsSplitter → s.1 x = M x
  range : ∀ x k, (a.board x).IsSplitter → s.1 x = some k → cur ≤ k ∧ k < s.2
  inj : ∀ x y k, (a.board x).IsSplitter → (a.board y).IsSplitter → s.1 x = some k → s.1 y = some k → x = y

/-- From the state `s` the colours `l` of ends have been found, and the state is `s'` now. -/
structure EndsRun (a : Arr Tile) (assume : Bool) (M : ColourMap) (cur : Int) (s s' : ColourMap × Int) (l : List (SEnd × Colour)) : Prop where
  inv : EndInv a M cur s'
  le : s.2 ≤ s'.2
  mono : ∀ x k, s.1 x = some k → s'.1 x = some k
  grow : ∀ x k, s'.1 x = some k → s.1 x = some k ∨ (s.2 ≤ k ∧ k < s'.2)
  vals : ∀ p ∈ l, EndVal a assume M s.2 s'.2 s'.1 p.1 p.2
  inj : ∀ p ∈ l, ∀ q ∈ l, ¬ a.inside p.1.pos → ¬ a.inside q.1.pos → p.2 = q.2 → p.2 ≠ none → p.1 = q.1

theorem EndsRun.nil {s : ColourMap × Int} (h : EndInv a M cur s) : EndsRun a assume M cur s s [] :=
  ⟨h, le_rfl, fun _ _ h => h, fun _ _ h => .inl h, fun _ h => (by cases h), fun _ h => (by cases h)⟩

theorem EndVal.edge_range {lo hi : Int} {m : ColourMap} {e : SEnd} {c : Colour} (h : EndVal a assume M lo hi m e c) (he : ¬ a.inside e.pos)
    (hc : c ≠ none) : ∃ k, c = some k ∧ lo ≤ k ∧ k < hi := by
  cases h with
  | edge k _ _ h1 h2 => exact ⟨k, rfl, h1, h2⟩
  | open_ => exact absurd rfl hc
  | other f b h => exact absurd h he
  | cell b k h => exact absurd h he
  | line h => exact absurd h.1 he
  | side h => exact absurd h.1 he

theorem EndsRun.append {s1 s2 s3 : ColourMap × Int} {l l' : List (SEnd × Colour)} (h : EndsRun a assume M cur s1 s2 l)
    (h' : EndsRun a assume M cur s2 s3 l') : EndsRun a assume M cur s1 s3 (l ++ l') := by
  refine ⟨h'.inv, h.le.trans h'.le, fun x k hx => h'.mono x k (h.mono x k hx), fun x k hx => ?_, fun p hp => ?_, fun p hp q hq hpe hqe he hne => ?_⟩
  · have h1 := h.le
    have h2 := h'.le
    rcases h'.grow x k hx with h3 | h3
    · rcases h.grow x k h3 with h4 | h4
      · exact .inl h4
      · exact .inr ⟨h4.1, by omega⟩
    · exact .inr ⟨by omega, h3.2⟩
  · rcases List.mem_append.1 hp with hp | hp
    · have hv := h.vals p hp
      revert hv
      generalize p.2 = c
      intro hv
      cases hv with
      | edge k h1 h2 h3 h4 h5 =>
        refine .edge k h1 h2 h3 (by have := h'.le; omega) fun x hx => ?_
        rcases h'.grow x k hx with h6 | h6
        · exact h5 x h6
        · omega
      | open_ h1 h2 => exact .open_ h1 h2
      | other f b h1 h2 h3 => exact .other f b h1 h2 h3
      | cell b k h1 h2 h3 => exact .cell b k h1 h2 (h'.mono _ _ h3)
      | line h1 h2 => exact .line h1 h2
      | side h1 h2 => exact .side h1 h2
    · have hv := h'.vals p hp
      revert hv
      generalize p.2 = c
      intro hv
      cases hv with
      | edge k h1 h2 h3 h4 h5 => exact .edge k h1 h2 (by have := h.le; omega) h4 h5
      | open_ h1 h2 => exact .open_ h1 h2
      | other f b h1 h2 h3 => exact .other f b h1 h2 h3
      | cell b k h1 h2 h3 => exact .cell b k h1 h2 h3
      | line h1 h2 => exact .line h1 h2
      | side h1 h2 => exact .side h1 h2
  · rcases List.mem_append.1 hp with hp | hp <;> rcases List.mem_append.1 hq with hq | hq
    · exact h.inj p hp q hq hpe hqe he hne
    · obtain ⟨k, h1, h2, h3⟩ := (h.vals p hp).edge_range hpe hne
      obtain ⟨k', h1', h2', h3'⟩ := (h'.vals q hq).edge_range hqe (he ▸ hne)
      rw [h1, h1'] at he
      cases he
      omega
    · obtain ⟨k, h1, h2, h3⟩ := (h'.vals p hp).edge_range hpe hne
      obtain ⟨k', h1', h2', h3'⟩ := (h.vals q hq).edge_range hqe (he ▸ hne)
      rw [h1, h1'] at he
      cases he
      omega
    · exact h'.inj p hp q hq hpe hqe he hne

theorem EndsRun.single {s s' : ColourMap × Int} {e : SEnd} {c : Colour} (inv : EndInv a M cur s') (le : s.2 ≤ s'.2)
    (mono : ∀ x k, s.1 x = some k → s'.1 x = some k) (grow : ∀ x k, s'.1 x = some k → s.1 x = some k ∨ (s.2 ≤ k ∧ k < s'.2))
    (h : EndVal a assume M s.2 s'.2 s'.1 e c) : EndsRun a assume M cur s s' [(e, c)] := by
  refine ⟨inv, le, mono, grow, fun p hp => ?_, fun p hp q hq _ _ _ _ => ?_⟩
  · rw [List.mem_singleton.1 hp]; exact h
  · rw [List.mem_singleton.1 hp, List.mem_singleton.1 hq]

theorem inputDirection_eq {t : Tile} (h : t.IsLine) (d : Dir) : ∃ o, inputDirection t = .ok o ∧ (some d = o ↔ t.Takes d) := by
  rcases h with ⟨i, o, rfl⟩ | ⟨e, b, rfl⟩
  · exact ⟨_, rfl, by simp [Tile.inputDirection, Tile.Takes, eq_comm]⟩
  · cases b with
    | true => exact ⟨_, rfl, by simp [Tile.inputDirection, Tile.Takes, eq_comm]⟩
    | false => exact ⟨_, rfl, by simp [Tile.inputDirection, Tile.Takes]⟩

theorem outputDirection_eq {t : Tile} (h : t.IsLine) (d : Dir) : ∃ o, outputDirection t = .ok o ∧ (some d = o ↔ t.Emits d) := by
  rcases h with ⟨i, o, rfl⟩ | ⟨e, b, rfl⟩
  · exact ⟨_, rfl, by simp [Tile.outputDirection, Tile.Emits, eq_comm]⟩
  · cases b with
    | false => exact ⟨_, rfl, by simp [Tile.outputDirection, Tile.Emits, eq_comm]⟩
    | true => exact ⟨_, rfl, by simp [Tile.outputDirection, Tile.Emits]⟩

variable (hM : Coloured a M cur) (hb : ∀ p, a.inside p → (a.board p).Basic)
include hM hb

theorem endColour_spec {s : ColourMap × Int} (hs : EndInv a M cur s) (e : SEnd) (he : (a.board e.base).IsSplitter) :
    (∃ c s', endColour a assume e.dir e.out e.base s = .ok (c, s') ∧ EndsRun a assume M cur s s' [(e, c)]) ∨
      (endColour a assume e.dir e.out e.base s = .error .attributeError ∧ a.inside e.pos ∧ a.board e.pos = .empty) := by
  have hpos : (if e.out = true then stepTo e.base e.dir else stepBack e.base e.dir) = e.pos := rfl
  unfold endColour
  simp only [hpos]
  by_cases hi : a.inside e.pos
  · rw [if_neg (by simpa using hi)]
    rcases Basic.cases (hb _ hi) with h | ⟨f, b, h⟩ | h
    · right
      rw [h]
      refine ⟨?_, hi, rfl⟩
      cases e.out <;> rfl
    · left
      rw [h]
      dsimp only
      by_cases hf : f = e.dir
      · subst hf
        rw [if_pos rfl]
        have hcell : (if e.out = true then e.pos else e.base) = e.cell := rfl
        rw [hcell]
        have hsp : (a.board e.cell).IsSplitter := by
          unfold SEnd.cell
          split
          · rw [h]; exact ⟨_, _, rfl⟩
          · exact he
        cases hc : s.1 e.cell with
        | some c => exact ⟨_, _, rfl, .single hs le_rfl (fun _ _ h => h) (fun _ _ h => .inl h) (.cell b c hi h hc)⟩
        | none =>
          have hset : (s.1.set e.cell s.2) e.cell = some s.2 := by simp [ColourMap.set]
          have hne : ∀ x, x ≠ e.cell → (s.1.set e.cell s.2) x = s.1 x := fun x hx => by simp [ColourMap.set, hx]
          refine ⟨_, _, rfl, .single ⟨by have := hs.le; dsimp only; omega, fun x hx => ?_, fun x k hx hk => ?_, fun x y k hx hy hxk hyk => ?_⟩
            (by dsimp only; omega) (fun x k hx => ?_) (fun x k hx => ?_) (.cell b s.2 hi h hset)⟩
          · have : x ≠ e.cell := by rintro rfl; exact hx hsp
            dsimp only
            rw [hne x this]
            exact hs.rest x hx
          · dsimp only at hk ⊢
            by_cases hxe : x = e.cell
            · subst hxe
              rw [hset] at hk
              cases hk
              have := hs.le
              omega
            · rw [hne x hxe] at hk
              have := hs.range x k hx hk
              omega
          · dsimp only at hxk hyk
            by_cases hxe : x = e.cell
            · by_cases hye : y = e.cell
              · rw [hxe, hye]
              · rw [hne y hye] at hyk
                rw [hxe, hset] at hxk
                cases hxk
                have := hs.range y _ hy hyk
                omega
            · rw [hne x hxe] at hxk
              by_cases hye : y = e.cell
              · rw [hye, hset] at hyk
                cases hyk
                have := hs.range x _ hx hxk
                omega
              · rw [hne y hye] at hyk
                exact hs.inj x y k hx hy hxk hyk
          · have : x ≠ e.cell := by rintro rfl; rw [hc] at hx; cases hx
            dsimp only
            rw [hne x this]
            exact hx
          · dsimp only at hx ⊢
            by_cases hxe : x = e.cell
            · subst hxe
              rw [hset] at hx
              cases hx
              exact .inr ⟨le_rfl, by omega⟩
            · rw [hne x hxe] at hx
              exact .inl hx
      · rw [if_neg hf]
        exact ⟨_, _, rfl, .single hs le_rfl (fun _ _ h => h) (fun _ _ h => .inl h) (.other f b hi h hf)⟩
    · left
      have hl : a.OnLine e.pos := ⟨hi, h⟩
      have hM' : s.1 e.pos = M e.pos := hs.rest _ (IsLine.not_splitter h)
      have hdir : ∃ o, (if e.out = true then inputDirection (a.board e.pos) else outputDirection (a.board e.pos)) = .ok o ∧
          (some e.dir = o ↔ e.Joins a) := by
        unfold SEnd.Joins
        cases e.out with
        | true => simpa using inputDirection_eq h e.dir
        | false => simpa using outputDirection_eq h e.dir
      obtain ⟨o, ho, hj⟩ := hdir
      refine ⟨if some e.dir = o then s.1 e.pos else none, s, ?_, .single hs le_rfl (fun _ _ h => h) (fun _ _ h => .inl h) ?_⟩
      · revert ho
        rcases h with ⟨i, o', h⟩ | ⟨d, b, h⟩ <;> rw [h] <;> intro ho <;> dsimp only <;> rw [ho]
      · by_cases hc : some e.dir = o
        · rw [if_pos hc, hM']
          exact .line hl (hj.1 hc)
        · rw [if_neg hc]
          exact .side hl fun h => hc (hj.2 h)
  · rw [if_pos hi]
    left
    by_cases ha : assume = true
    · rw [if_pos ha]
      have hfresh : ∀ x, s.1 x ≠ some s.2 := by
        intro x hx
        by_cases hsp : (a.board x).IsSplitter
        · have := hs.range x _ hsp hx
          omega
        · rw [hs.rest x hsp] at hx
          have h1 := hs.le
          have h2 := hM.nonneg
          by_cases hl : a.OnLine x
          · have := hM.range x _ hl hx
            omega
          · have := hM.rest x _ hl hx
            omega
      refine ⟨_, _, rfl, .single ⟨by have := hs.le; dsimp only; omega, hs.rest, fun x k hx hk => ?_, hs.inj⟩ (by dsimp only; omega)
        (fun x k hx => hx) (fun x k hx => .inl hx) (.edge _ hi ha le_rfl (by dsimp only; omega) hfresh)⟩
      have := hs.range x k hx hk
      dsimp only
      omega
    · rw [if_neg ha]
      refine ⟨_, _, rfl, .single hs le_rfl (fun _ _ h => h) (fun _ _ h => .inl h) (.open_ hi (by simpa using ha))⟩

/-- An end of the splitter faces an empty cell. -/
def FacesEmpty (a : Arr Tile) (h : Int × Int) (d : Dir) : Prop :=
  ∃ o : Bool, ∃ p, (p = h ∨ p = stepTo h d.next) ∧ a.inside (SEnd.mk o p d).pos ∧ a.board (SEnd.mk o p d).pos = .empty

/-- The ends of a splitter with their colours. -/
def nodeEnds (h : Int × Int) (d : Dir) (nd : Node) : List (SEnd × Colour) :=
  [(⟨false, h, d⟩, nd.1.1), (⟨false, stepTo h d.next, d⟩, nd.1.2), (⟨true, h, d⟩, nd.2.1), (⟨true, stepTo h d.next, d⟩, nd.2.2)]

theorem parseNode_spec {s : ColourMap × Int} (hs : EndInv a M cur s) {h : Int × Int} {d : Dir} (hh : a.board h = .splitter d true)
    (ht : a.board (stepTo h d.next) = .splitter d false) :
    (∃ nd s', parseNode a assume h s = .ok (nd, s') ∧ EndsRun a assume M cur s s' (nodeEnds h d nd)) ∨
      (parseNode a assume h s = .error .attributeError ∧ FacesEmpty a h d) := by
  unfold parseNode
  rw [hh]
  dsimp only
  have sh : (a.board h).IsSplitter := ⟨_, _, hh⟩
  have st : (a.board (stepTo h d.next)).IsSplitter := ⟨_, _, ht⟩
  rcases endColour_spec (assume := assume) hM hb hs ⟨false, h, d⟩ sh with ⟨i0, s1, e1, r1⟩ | ⟨e1, f1, f2⟩
  swap
  · right
    exact ⟨by rw [e1]; rfl, _, _, .inl rfl, f1, f2⟩
  rcases endColour_spec (assume := assume) hM hb r1.inv ⟨false, stepTo h d.next, d⟩ st with ⟨i1, s2, e2, r2⟩ | ⟨e2, f1, f2⟩
  swap
  · right
    refine ⟨?_, _, _, .inr rfl, f1, f2⟩
    dsimp only at e1 e2
    simp only [e1, e2, bind, Except.bind]
  rcases endColour_spec (assume := assume) hM hb r2.inv ⟨true, h, d⟩ sh with ⟨o0, s3, e3, r3⟩ | ⟨e3, f1, f2⟩
  swap
  · right
    refine ⟨?_, _, _, .inl rfl, f1, f2⟩
    dsimp only at e1 e2 e3
    simp only [e1, e2, e3, bind, Except.bind]
  rcases endColour_spec (assume := assume) hM hb r3.inv ⟨true, stepTo h d.next, d⟩ st with ⟨o1, s4, e4, r4⟩ | ⟨e4, f1, f2⟩
  swap
  · right
    refine ⟨?_, _, _, .inr rfl, f1, f2⟩
    dsimp only at e1 e2 e3 e4
    simp only [e1, e2, e3, e4, bind, Except.bind]
  · left
    dsimp only at e1 e2 e3 e4
    exact ⟨((i0, i1), (o0, o1)), s4, by simp only [e1, e2, e3, e4, bind, Except.bind], ((r1.append r2).append r3).append r4⟩

theorem parseNodes_spec (hs : List (Int × Int)) (hhs : ∀ h ∈ hs, ∃ d, a.board h = .splitter d true ∧ a.board (stepTo h d.next) = .splitter d false) :
    ∀ s : ColourMap × Int, EndInv a M cur s →
      (∃ n l s', parseNodes a assume hs s = .ok n ∧ EndsRun a assume M cur s s' l ∧
        List.Forall₂ (fun h nd => ∃ d, a.board h = .splitter d true ∧ ∀ x ∈ nodeEnds h d nd, x ∈ l) hs n) ∨
      (parseNodes a assume hs s = .error .attributeError ∧ ∃ h ∈ hs, ∃ d, a.board h = .splitter d true ∧ FacesEmpty a h d) := by
  induction hs with
  | nil => intro s h; exact .inl ⟨[], [], s, rfl, .nil h, .nil⟩
  | cons h hs ih =>
    intro s hinv
    obtain ⟨d, hh, ht⟩ := hhs h List.mem_cons_self
    unfold parseNodes
    rcases parseNode_spec (assume := assume) hM hb hinv hh ht with ⟨nd, s1, e1, r1⟩ | ⟨e1, hf⟩
    · rw [e1]
      dsimp only
      rcases ih (fun x hx => hhs x (List.mem_cons_of_mem _ hx)) s1 r1.inv with ⟨n, l, s2, e2, r2, r3⟩ | ⟨e2, x, hx, hx'⟩
      · rw [e2]
        refine .inl ⟨nd :: n, _, s2, rfl, r1.append r2, .cons ⟨d, hh, fun x hx => List.mem_append_left _ hx⟩ ?_⟩
        refine r3.imp ?_
        rintro h' nd' ⟨d', h1, h2⟩
        exact ⟨d', h1, fun x hx => List.mem_append_right _ (h2 x hx)⟩
      · rw [e2]
        exact .inr ⟨rfl, x, List.mem_cons_of_mem _ hx, hx'⟩
    · rw [e1]
      exact .inr ⟨rfl, h, List.mem_cons_self, d, hh, hf⟩

end FSat
