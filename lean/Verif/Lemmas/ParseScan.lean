import Verif.Lemmas.ParseStep
/-!
# The colours of the belt lines
-/

set_option linter.unusedSimpArgs false

namespace FSat

open Relation

variable {a : Arr Tile}

/-- Items come from `x` to `y` on one belt line. -/
abbrev LinePath (a : Arr Tile) : Int × Int → Int × Int → Prop := ReflTransGen (BeltStep a)

theorem linePath_next {p x : Int × Int} (h : ReflTransGen (fun x y => lineNext a x = some y) p x) : LinePath a p x :=
  ReflTransGen.mono (fun _ _ h => lineNext_iff.1 h) _ _ h

theorem linePath_prev {p x : Int × Int} (h : ReflTransGen (fun x y => linePrev a x = some y) p x) : LinePath a x p := by
  induction h with
  | refl => exact .refl
  | tail _ h ih => exact .head (linePrev_iff.1 h) ih

/-- The cells of one line are in order. -/
theorem linePath_total_right {p x y : Int × Int} (h1 : LinePath a p x) (h2 : LinePath a p y) : LinePath a x y ∨ LinePath a y x := by
  induction h1 with
  | refl => exact .inl h2
  | @tail b c h1 hbc ih =>
    rcases ih with h | h
    · rcases ReflTransGen.cases_head h with rfl | ⟨d, hd, h⟩
      · exact .inr (.single hbc)
      · rw [hbc.2.2.right_unique hd.2.2]
        exact .inl h
    · exact .inr (h.tail hbc)

theorem linePath_total_left {p x y : Int × Int} (h1 : LinePath a x p) (h2 : LinePath a y p) : LinePath a x y ∨ LinePath a y x := by
  induction h1 using ReflTransGen.head_induction_on with
  | refl => exact .inr h2
  | @head b c hbc h1 ih =>
    rcases ih with h | h
    · exact .inl (.head hbc h)
    · rcases ReflTransGen.cases_tail h with rfl | ⟨d, h, hd⟩
      · exact .inl (.single hbc)
      · rw [hbc.2.2.left_unique hd.2.2]
        exact .inr h

/-- The colours given so far, if the next one is `cur`. -/
structure Coloured (a : Arr Tile) (m : ColourMap) (cur : Int) : Prop where
  nonneg : 0 ≤ cur
  line : ∀ x y, BeltStep a x y → m x = m y
  range : ∀ x c, a.OnLine x → m x = some c → 0 ≤ c ∧ c < cur
  same : ∀ x y c, a.OnLine x → a.OnLine y → m x = some c → m y = some c → LinePath a x y ∨ LinePath a y x
  splitter : ∀ x, (a.board x).IsSplitter → m x = none
  rest : ∀ x c, ¬ a.OnLine x → m x = some c → c = -1

variable (hs : SoundLayout a.In a.nb a.board)
include hs

theorem newLine_spec {m : ColourMap} {cur : Int} {p : Int × Int} (hm : Coloured a m cur) (hp : a.OnLine p) (hpm : m p = none) :
    (∃ m', newLine a p m cur = .ok m' ∧ Coloured a m' (cur + 1) ∧ m' p = some cur ∧ ∀ x c, m x = some c → m' x = some c) ∨
      ∃ e, newLine a p m cur = .error e ∧ StepFails a false e := by
  obtain ⟨q, hq, hqc⟩ := forward_ok hs p hp
  unfold newLine
  rw [hq]
  have hconst : ∀ x y, lineNext a x = some y → m x = m y := fun x y h => hm.line x y (lineNext_iff.1 h)
  have hconst' : ∀ x y, linePrev a x = some y → m x = m y := fun x y h => (hm.line y x (linePrev_iff.1 h)).symm
  have hext : ∀ x, (m.set p cur) x = m x ∨ (m x = none ∧ (m.set p cur) x = some cur) := by
    intro x
    by_cases hx : x = p
    · subst hx
      exact .inr ⟨hpm, by simp [ColourMap.set]⟩
    · exact .inl (by simp [ColourMap.set, hx])
  have hfuel : ∀ m : ColourMap, uncoloured a m < a.rows * a.cols + 1 := fun m => by have := uncoloured_le a m; omega
  rcases trace_spec (k := cur) (b := true) (forward_step hs) hconst (a.rows * a.cols + 1) q (m.set p cur) hext (by
    intro hl
    rcases hqc with ⟨_, h⟩ | ⟨h, _⟩
    · rw [← hconst p q h]; exact hpm
    · exact absurd h (OnLine.not_stops hl)) (hqc.imp And.left And.left) (hfuel _) with ⟨m2, h2, t2⟩ | ⟨e, h2, p', hp', he⟩
  swap
  · obtain ⟨q', hq', _⟩ := forward_ok hs p' hp'
    rw [hq'] at he
    cases he
  simp only [h2]
  cases hr : nextTile a p false with
  | error e => exact .inr ⟨e, rfl, p, hp, hr⟩
  | ok r =>
  have hrc := backward_step hs p hp r hr
  dsimp only
  rcases trace_spec (k := cur) (b := false) (backward_step hs) hconst' (a.rows * a.cols + 1) r m2 t2.ext (by
    intro hl
    rcases hrc with ⟨_, h⟩ | ⟨h, _⟩
    · rw [← hconst' p r h]; exact hpm
    · exact absurd h (OnLine.not_stops hl)) (hrc.imp And.left And.left) (hfuel _) with ⟨m3, h3, t3⟩ | h
  swap
  · exact .inr h
  have hp1 : (m.set p cur) p = some cur := by simp [ColourMap.set]
  have hp3 : m3 p = some cur := t3.mono _ _ (t2.mono _ _ hp1)
  have hmono : ∀ x c, m x = some c → m3 x = some c := by
    intro x c hx
    rcases t3.ext x with h | ⟨h, _⟩
    · rw [h, hx]
    · rw [hx] at h; cases h
  -- the cells with the new colour
  have hnew : ∀ x, m x = none → m3 x ≠ none → x = p ∨ m2 x ≠ (m.set p cur) x ∨ m3 x ≠ m2 x := by
    intro x hx hx3
    by_cases hxp : x = p
    · exact .inl hxp
    · by_cases h2 : m2 x = (m.set p cur) x
      · refine .inr (.inr ?_)
        rw [h2]
        simp only [ColourMap.set, hxp, if_false, hx]
        exact hx3
      · exact .inr (.inl h2)
  have hline : ∀ x, m x = none → m3 x ≠ none → a.OnLine x ∧ (LinePath a p x ∨ LinePath a x p) := by
    intro x hx hx3
    rcases hnew x hx hx3 with rfl | h | h
    · exact ⟨hp, .inl .refl⟩
    · refine ⟨t2.line x h, .inl ?_⟩
      rcases hqc with ⟨_, hn⟩ | ⟨hn, _⟩
      · exact .head (lineNext_iff.1 hn) (linePath_next (t2.chain x h))
      · rw [trace_stops hn] at h2
        cases h2
        exact absurd rfl h
    · refine ⟨t3.line x h, .inr ?_⟩
      rcases hrc with ⟨_, hn⟩ | ⟨hn, _⟩
      · exact (linePath_prev (t3.chain x h)).tail (linePrev_iff.1 hn)
      · rw [trace_stops hn] at h3
        cases h3
        exact absurd rfl h
  have hcol : ∀ x, m x = none → m3 x ≠ none → m3 x = some cur := by
    intro x hx hx3
    rcases t3.ext x with h | ⟨_, h⟩
    · rw [h] at hx3; exact absurd hx hx3
    · exact h
  have hfwd : ∀ x y, BeltStep a x y → m x = none → m3 x ≠ none → m3 y = some cur := by
    intro x y hxy hx hx3
    have hxy' := lineNext_iff.2 hxy
    rcases hnew x hx hx3 with rfl | h | h
    · rcases hqc with ⟨hl, hn⟩ | ⟨_, hn⟩
      · rw [hxy'] at hn
        cases hn
        exact t3.mono _ _ (t2.here hl)
      · rw [hxy'] at hn; cases hn
    · exact t3.mono _ _ (t2.next x h y hxy')
    · rcases t3.prev x h with rfl | ⟨w, hw, hwc⟩
      · rcases hrc with ⟨_, hn⟩ | ⟨hn, _⟩
        · rw [prev_iff_next, hxy'] at hn
          cases hn
          exact hp3
        · exact absurd hn (OnLine.not_stops (t3.line _ h))
      · rw [prev_iff_next, hxy'] at hw
        cases hw
        exact hwc
  have hbwd : ∀ x y, BeltStep a x y → m y = none → m3 y ≠ none → m3 x = some cur := by
    intro x y hxy hy hy3
    have hxy' := linePrev_iff.2 hxy
    rcases hnew y hy hy3 with rfl | h | h
    · rcases hrc with ⟨hl, hn⟩ | ⟨_, hn⟩
      · rw [hxy'] at hn
        cases hn
        exact t3.here hl
      · rw [hxy'] at hn; cases hn
    · rcases t2.prev y h with rfl | ⟨w, hw, hwc⟩
      · rcases hqc with ⟨_, hn⟩ | ⟨hn, _⟩
        · rw [← prev_iff_next, hxy'] at hn
          cases hn
          exact hp3
        · exact absurd hn (OnLine.not_stops (t2.line _ h))
      · rw [← prev_iff_next, hxy'] at hw
        cases hw
        exact t3.mono _ _ hwc
    · exact t3.next y h x hxy'
  refine .inl ⟨m3, h3, ⟨by have := hm.nonneg; omega, fun x y hxy => ?_, fun x c hx hc => ?_, fun x y c hx hy hxc hyc => ?_, fun x hx => ?_,
    fun x c hx hc => ?_⟩, hp3, hmono⟩
  · have hxy0 := hm.line x y hxy
    cases hx : m x with
    | some c => rw [hmono x c hx, hmono y c (by rw [← hxy0, hx])]
    | none =>
      have hy : m y = none := by rw [← hxy0, hx]
      by_cases hx3 : m3 x = none
      · by_cases hy3 : m3 y = none
        · rw [hx3, hy3]
        · rw [hbwd x y hxy hy hy3] at hx3
          cases hx3
      · rw [hcol x hx hx3, hfwd x y hxy hx hx3]
  · cases hm0 : m x with
    | some c' =>
      rw [hmono x c' hm0] at hc
      cases hc
      have := hm.range x c hx hm0
      omega
    | none =>
      rw [hcol x hm0 (by rw [hc]; simp)] at hc
      cases hc
      have := hm.nonneg
      omega
  · cases hx0 : m x with
    | some c1 =>
      rw [hmono x c1 hx0] at hxc
      cases hxc
      cases hy0 : m y with
      | some c2 =>
        rw [hmono y c2 hy0] at hyc
        cases hyc
        exact hm.same x y c hx hy hx0 hy0
      | none =>
        rw [hcol y hy0 (by rw [hyc]; simp)] at hyc
        cases hyc
        have := hm.range x _ hx hx0
        omega
    | none =>
      have hx3 : m3 x ≠ none := by rw [hxc]; simp
      rw [hcol x hx0 hx3] at hxc
      cases hxc
      cases hy0 : m y with
      | some c2 =>
        rw [hmono y c2 hy0] at hyc
        cases hyc
        have := hm.range y _ hy hy0
        omega
      | none =>
        have hy3 : m3 y ≠ none := by rw [hyc]; simp
        rcases (hline x hx0 hx3).2 with h1 | h1 <;> rcases (hline y hy0 hy3).2 with h2 | h2
        · exact linePath_total_right h1 h2
        · exact .inr (h2.trans h1)
        · exact .inl (h1.trans h2)
        · exact linePath_total_left h1 h2
  · have h0 := hm.splitter x hx
    by_contra h
    exact IsLine.not_splitter (hline x h0 h).1.2 hx
  · cases hm0 : m x with
    | some c' =>
      rw [hmono x c' hm0] at hc
      cases hc
      exact hm.rest x c hx hm0
    | none => exact absurd (hline x hm0 (by rw [hc]; simp)).1 hx

/-- What the loop over the cells has done after the cells of the list. -/
structure Scanned (a : Arr Tile) (s : ScanState) (done : List (Int × Int)) : Prop where
  col : Coloured a s.map s.current
  heads : s.heads = done.filter fun p => isHead (a.board p)
  all : ∀ x ∈ done, a.OnLine x → s.map x ≠ none

omit hs in
theorem Basic.cases {t : Tile} (h : t.Basic) : t = .empty ∨ t.IsSplitter ∨ t.IsLine := by
  cases t with
  | empty => exact .inl rfl
  | splitter d b => exact .inr (.inl ⟨_, _, rfl⟩)
  | belt i o => exact .inr (.inr (.inl ⟨_, _, rfl⟩))
  | underground d b => exact .inr (.inr (.inr ⟨_, _, rfl⟩))
  | _ => exact h.elim

theorem scanCell_spec {s : ScanState} {done : List (Int × Int)} {p : Int × Int} (h : Scanned a s done) (hp : a.inside p) :
    (∃ s', scanCell a s p = .ok s' ∧ Scanned a s' (done ++ [p])) ∨ ∃ e, scanCell a s p = .error e ∧ StepFails a false e := by
  have hheads : (if isHead (a.board p) then s.heads ++ [p] else s.heads) = (done ++ [p]).filter fun p => isHead (a.board p) := by
    rw [List.filter_append, h.heads]
    by_cases hh : isHead (a.board p) = true
    · simp [hh]
    · simp [hh]
  unfold scanCell
  dsimp only
  generalize (if isHead (a.board p) then s.heads ++ [p] else s.heads) = H at hheads ⊢
  by_cases hsome : (s.map p).isSome
  · rw [if_pos hsome]
    refine .inl ⟨_, rfl, ⟨h.col, hheads, fun x hx hl => ?_⟩⟩
    rcases List.mem_append.1 hx with hx | hx
    · exact h.all x hx hl
    · rw [List.mem_singleton.1 hx]
      exact Option.isSome_iff_ne_none.1 hsome
  · rw [if_neg hsome]
    have hnone : s.map p = none := by simpa using hsome
    rcases Basic.cases (hs.basic p hp) with hb | hb | hb
    · rw [hb]
      have hnl : ¬ a.OnLine p := fun hl => OnLine.not_stops hl (.inr (.inl hb))
      have hset : ∀ x, a.OnLine x → (s.map.set p (-1)) x = s.map x := by
        intro x hx
        have : x ≠ p := by rintro rfl; exact hnl hx
        simp [ColourMap.set, this]
      refine .inl ⟨_, rfl, ⟨⟨h.col.nonneg, fun x y hxy => ?_, fun x c hx hc => ?_, fun x y c hx hy hxc hyc => ?_, fun x hx => ?_,
        fun x c hx hc => ?_⟩, ?_, fun x hx hl => ?_⟩⟩
      · dsimp only
        rw [hset x hxy.1, hset y hxy.2.1]
        exact h.col.line x y hxy
      · exact h.col.range x c hx (by rw [← hset x hx]; exact hc)
      · exact h.col.same x y c hx hy (by rw [← hset x hx]; exact hxc) (by rw [← hset y hy]; exact hyc)
      · have : x ≠ p := by
          rintro rfl
          rw [hb] at hx
          obtain ⟨d, b, hx⟩ := hx
          cases hx
        simpa [ColourMap.set, this] using h.col.splitter x hx
      · by_cases hxp : x = p
        · subst hxp
          simp only [ColourMap.set, if_true] at hc
          cases hc; rfl
        · simp only [ColourMap.set, hxp, if_false] at hc
          exact h.col.rest x c hx hc
      · exact hheads
      · dsimp only
        rw [hset x hl]
        rcases List.mem_append.1 hx with hx | hx
        · exact h.all x hx hl
        · rw [List.mem_singleton.1 hx] at hl
          exact absurd hl hnl
    · have hb' := hb
      obtain ⟨d, b, hb⟩ := hb
      rw [hb]
      refine .inl ⟨_, rfl, ⟨h.col, hheads, fun x hx hl => ?_⟩⟩
      rcases List.mem_append.1 hx with hx | hx
      · exact h.all x hx hl
      · rw [List.mem_singleton.1 hx] at hl
        exact absurd hb' (IsLine.not_splitter hl.2)
    · have hl : a.OnLine p := ⟨hp, hb⟩
      rcases newLine_spec hs h.col hl hnone with ⟨m', h1, h2, h3, h4⟩ | ⟨e, h1, h2⟩
      · refine .inl ⟨⟨m', s.current + 1, H⟩, ?_, ⟨h2, hheads, fun x hx hlx => ?_⟩⟩
        · rcases hb with ⟨i, o, hb⟩ | ⟨d, b, hb⟩ <;> rw [hb] <;> simp only [h1]
        · rcases List.mem_append.1 hx with hx | hx
          · have := h.all x hx hlx
            cases hc : s.map x with
            | none => exact absurd hc this
            | some c => dsimp only; rw [h4 x c hc]; simp
          · rw [List.mem_singleton.1 hx]
            dsimp only
            rw [h3]; simp
      · refine .inr ⟨e, ?_, h2⟩
        rcases hb with ⟨i, o, hb⟩ | ⟨d, b, hb⟩ <;> rw [hb] <;> simp only [h1]

theorem scan_spec (ps : List (Int × Int)) : ∀ (s : ScanState) (done : List (Int × Int)), Scanned a s done → (∀ p ∈ ps, a.inside p) →
    (∃ s', scan a ps s = .ok s' ∧ Scanned a s' (done ++ ps)) ∨ ∃ e, scan a ps s = .error e ∧ StepFails a false e := by
  induction ps with
  | nil =>
    intro s done h _
    exact .inl ⟨s, rfl, by simpa using h⟩
  | cons p ps ih =>
    intro s done h hin
    unfold scan
    rcases scanCell_spec hs h (hin p List.mem_cons_self) with ⟨s', h1, h2⟩ | ⟨e, h1, h2⟩
    · rw [h1]
      have := ih s' _ h2 fun q hq => hin q (List.mem_cons_of_mem _ hq)
      simpa using this
    · rw [h1]
      exact .inr ⟨e, rfl, h2⟩

theorem scan_columns : (∃ s, scan a a.columns ⟨fun _ => none, 0, []⟩ = .ok s ∧ Scanned a s a.columns) ∨
    ∃ e, scan a a.columns ⟨fun _ => none, 0, []⟩ = .error e ∧ StepFails a false e := by
  have := scan_spec hs a.columns ⟨fun _ => none, 0, []⟩ [] ⟨⟨le_rfl, fun _ _ _ => rfl, fun _ _ _ h => (by cases h),
    fun _ _ _ _ _ h => (by cases h), fun _ _ => rfl, fun _ _ _ h => (by cases h)⟩, rfl, fun x hx => (by cases hx)⟩ fun p hp => (mem_columns a p).1 hp
  simpa using this

end FSat
