import Verif.Model.FreePrograms
import Verif.Lemmas.BalancerMain
import Verif.Props.Search
/-!
What the enumeration of the solutions of a grid prints.
-/

namespace FSat

theorem joinE_cons_ok {a : Except PyErr Cnf} {l : List (Except PyErr Cnf)} {cs : Cnf} (h : joinE (a :: l) = .ok cs) :
    ∃ c extra, a = .ok c ∧ cs = c ++ extra := by
  unfold joinE concatE at h
  split at h
  · cases h
  · rename_i c hc
    split at h
    · cases h
    · rename_i c' _
      exact ⟨c, c', hc, (Except.ok.inj h).symm⟩

/-- The clauses of the constructor of the grid come first. -/
def InitFirst (g : Grid) (cs : Cnf) : Prop := ∃ ci extra, initClauses g = .ok ci ∧ cs = ci ++ extra

theorem InitFirst.append {g : Grid} {cs : Cnf} (h : InitFirst g cs) (cs' : Cnf) : InitFirst g (cs ++ cs') := by
  obtain ⟨ci, extra, h1, rfl⟩ := h
  exact ⟨ci, extra ++ cs', h1, by simp⟩

theorem InitFirst.sem {g : Grid} {cs : Cnf} (hg : g.WF) (h : InitFirst g cs) {v : Asg} (hv : Sat v cs) : InitSem g (g.vals v) := by
  obtain ⟨ci, extra, h1, rfl⟩ := h
  exact sem_of_sat hg h1 ((Sat_append _ _ _).1 hv).1

/-- What the enumeration prints: it ends, and then it has printed the layouts that the clauses allow. -/
theorem run_all {g : Grid} {cs : Cnf} (hg : g.WF) (hnw : g.NoWrap) (hi : InitFirst g cs) {P : (Nat × Nat → Tile) → Prop}
    (hex : ∀ T, (∃ v, Sat v cs ∧ Decodes g v T) ↔ P T) {solver : Oracle} (hs : CorrectSolver solver) :
    (∃ fuel, (itersolve solver ((importantLits g true).map Lit.var) fuel cs).2 = true) ∧
    ∀ fuel, (itersolve solver ((importantLits g true).map Lit.var) fuel cs).2 = true →
      (∀ m ∈ (itersolve solver ((importantLits g true).map Lit.var) fuel cs).1, ∃ T, Decodes g (asgOf m) T ∧ P T) ∧
      ∀ T, P T → ∃ m ∈ (itersolve solver ((importantLits g true).map Lit.var) fuel cs).1, Decodes g (asgOf m) T := by
  obtain ⟨ci, extra, hc, rfl⟩ := hi
  obtain ⟨hterm, hcomp⟩ := c26_enumerates hg hnw hc extra hs
  refine ⟨hterm, fun fuel hd => ⟨fun m hm => ?_, fun T hT => ?_⟩⟩
  · have hsat := c25_sound hs _ fuel _ m hm
    obtain ⟨T, hT⟩ := c15_layout hg hc _ ((Sat_append _ _ _).1 hsat).1
    exact ⟨T, hT, (hex T).1 ⟨_, hsat, hT⟩⟩
  · obtain ⟨v, hv, hT⟩ := (hex T).2 hT
    obtain ⟨m, hm, _, hsame⟩ := hcomp fuel hd v hv
    exact ⟨m, hm, fun p hp => by rw [← hsame p hp]; exact hT p hp⟩

/-- No layout is printed twice if it determines the flow flags. -/
theorem run_once {g : Grid} {cs : Cnf} (hg : g.WF) (hi : InitFirst g cs)
    (hflags : ∀ v T, Sat v cs → Decodes g v T → ∀ p d, g.In p → ((T p).Takes d ↔ (g.vals v p).inp d = true) ∧
      ((T p).Emits d ↔ (g.vals v p).out d = true)) {solver : Oracle} (hs : CorrectSolver solver) (fuel : Nat) :
    (itersolve solver ((importantLits g true).map Lit.var) fuel cs).1.Pairwise fun m m' =>
      ¬ ∃ T, Decodes g (asgOf m) T ∧ Decodes g (asgOf m') T := by
  refine (c25_distinct hs _ fuel cs).imp_of_mem fun {m m'} hm hm' hne => ?_
  rintro ⟨T, hT, hT'⟩
  obtain ⟨x, hx, hne⟩ := hne
  obtain ⟨l, hl', rfl⟩ := List.mem_map.1 hx
  obtain ⟨p, hp, hl'⟩ := List.mem_flatMap.1 hl'
  have hsat := c25_sound hs _ fuel cs m hm
  have hsat' := c25_sound hs _ fuel cs m' hm'
  have hin := (Grid.mem_cells g p).1 hp
  have ha := lays_of_decodes (hi.sem hg hsat) hT p hin
  have ha' := lays_of_decodes (hi.sem hg hsat') hT' p hin
  have f := hflags _ T hsat hT p
  have f' := hflags _ T hsat' hT' p
  have key : ev (asgOf m) l = ev (asgOf m') l := by
    simp only [if_true, List.append_nil, TileInst.allDir, dirs, List.mem_append, List.mem_map, List.mem_singleton] at hl'
    rcases hl' with (⟨d, _, rfl⟩ | ⟨d, _, rfl⟩) | rfl
    · exact Bool.eq_iff_iff.2 ((f d hin).1.symm.trans (f' d hin).1)
    · exact Bool.eq_iff_iff.2 ((f d hin).2.symm.trans (f' d hin).2)
    · have h1 : (g.vals (asgOf m) p).isSplitter = (g.vals (asgOf m') p).isSplitter := by
        rw [Bool.eq_iff_iff, ha.isSplitter_iff, ha'.isSplitter_iff]
      exact h1
  apply hne
  revert key
  unfold ev
  cases l.pos <;> simp

/-- A layout is printed twice if there are two solutions with it that differ in a variable that the enumeration looks at. -/
theorem run_twice {g : Grid} {cs : Cnf} (hg : g.WF) (hnw : g.NoWrap) (hi : InitFirst g cs) {v v' : Asg} (hv : Sat v cs) (hv' : Sat v' cs)
    (hsame : ∀ p, g.In p → decodeCell g v p = decodeCell g v' p)
    (hdiff : ∃ x ∈ (importantLits g true).map Lit.var, v x ≠ v' x) {solver : Oracle} (hs : CorrectSolver solver) {fuel : Nat}
    (hd : (itersolve solver ((importantLits g true).map Lit.var) fuel cs).2 = true) :
    ∃ m m' T, [m, m'].Subperm (itersolve solver ((importantLits g true).map Lit.var) fuel cs).1 ∧
      Decodes g (asgOf m) T ∧ Decodes g (asgOf m') T := by
  obtain ⟨ci, extra, hc, rfl⟩ := hi
  have hocc : ∀ x ∈ (importantLits g true).map Lit.var, ∃ c ∈ ci ++ extra, ∃ l ∈ c, l.var = x := by
    intro x hx
    obtain ⟨l, hl, rfl⟩ := List.mem_map.1 hx
    obtain ⟨p, hp, hl⟩ := List.mem_flatMap.1 hl
    simp only [if_true, List.append_nil] at hl
    obtain ⟨c, hc', h⟩ := allDir_occur (g.at' p) l hl
    refine ⟨c, List.mem_append_left _ ?_, h⟩
    unfold initClauses at hc
    split at hc
    · cases hc
    · cases hc
      refine List.mem_append_left _ (List.mem_append_left _ (List.mem_append_left _ ?_))
      exact List.mem_flatMap.2 ⟨p, hp, hc'⟩
  have key : ∀ w : Asg, Sat w (ci ++ extra) → ∃ m ∈ (itersolve solver ((importantLits g true).map Lit.var) fuel (ci ++ extra)).1,
      (∀ x ∈ (importantLits g true).map Lit.var, w x = asgOf m x) ∧ ∀ p, g.In p → decodeCell g w p = decodeCell g (asgOf m) p := by
    intro w hw
    obtain ⟨m, hm, he⟩ := c25_complete hs _ _ hocc fuel hd w hw
    refine ⟨m, hm, he, fun p hp => ?_⟩
    have hsat := c25_sound hs _ fuel _ m hm
    refine c26_important hg hnw hc w (asgOf m) ((Sat_append _ _ _).1 hw).1 ((Sat_append _ _ _).1 hsat).1 true (fun l hl => ?_) p hp
    simp only [ev, he l.var (List.mem_map.2 ⟨l, hl, rfl⟩)]
  obtain ⟨m, hm, e1, d1⟩ := key v hv
  obtain ⟨m', hm', e2, d2⟩ := key v' hv'
  obtain ⟨T, hT⟩ := c15_layout hg hc v ((Sat_append _ _ _).1 hv).1
  refine ⟨m, m', T, List.subperm_of_subset ?_ ?_, fun p hp => by rw [← d1 p hp]; exact hT p hp,
    fun p hp => by rw [← d2 p hp, ← hsame p hp]; exact hT p hp⟩
  · obtain ⟨x, hx, hne⟩ := hdiff
    simp only [List.nodup_cons, List.mem_singleton, List.not_mem_nil, not_false_eq_true, List.nodup_nil, and_true]
    rintro rfl
    exact hne ((e1 x hx).trans (e2 x hx).symm)
  · intro z hz
    simp only [List.mem_cons, List.not_mem_nil, or_false] at hz
    rcases hz with rfl | rfl
    · exact hm
    · exact hm'

/-- A partial layout is there in every solution, and excludes nothing else. -/
theorem withPartial_exact {layout : Option (List (List Tile))} {r : Except PyErr (Grid × Cnf × Nat)} {g : Grid} {cs : Cnf} {s : Nat}
    (h : withPartial layout r = .ok (g, cs, s)) :
    ∃ cs0 cs1, r = .ok (g, cs0, s) ∧ cs = cs0 ++ cs1 ∧ (g.WF → InitFirst g cs0 → ∀ v T, Sat v cs0 → Decodes g v T →
      (Sat v cs1 ↔ ∀ rows, layout = some rows → Contains T rows)) := by
  unfold withPartial at h
  split at h
  · cases h
  · obtain ⟨rfl, rfl, rfl⟩ := Prod.mk.injEq .. ▸ Except.ok.inj h
    exact ⟨_, [], rfl, by simp, fun _ _ v T _ _ => by simp⟩
  · rename_i g' cs0 s0 rows
    split at h
    · cases h
    · rename_i cs1 h1
      simp only [Except.ok.injEq, Prod.mk.injEq] at h
      obtain ⟨rfl, rfl, rfl⟩ := h
      exact ⟨cs0, cs1, rfl, rfl, fun hg hi v T hv hT => by
        rw [setNonempty_sem (lays_of_decodes (hi.sem hg hv) hT) h1]; simp⟩

end FSat
