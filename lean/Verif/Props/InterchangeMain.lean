import Verif.Lemmas.InterchangeRoutes
import Verif.Lemmas.CheckClauses
import Verif.Props.Search
import Verif.Props.BalancerMain
/-!
# C81, C82, C83: what `interchange` prints
-/

namespace FSat

section
variable {lib : CardLib} {width height L : Nat} {o : InterchangeOptions} {g : Grid} {cs : Cnf} {s' : Nat}

/-- C81: the layouts that `interchange` can print are exactly the interchanges that have the given tiles. -/
theorem c81_exact (hl : lib.Correct) (h : interchangeMain lib width height L o = .ok (g, cs, s')) (T : Nat × Nat → Tile) :
    (∃ v, Sat v cs ∧ Decodes g v T) ↔
      (∃ col, IsInterchange g.nb g.In (g.shut (.ofPair false true)) (g.shut (.ofBool true)) width height L o.alternating o.rotSymmetry T col) ∧
      ∀ rows, o.partialLayout = some rows → Contains T rows := by
  obtain ⟨P⟩ := interchangeMain_parts h
  constructor
  · rintro ⟨v, hs, hT⟩
    exact ⟨⟨_, (P.sound hs hT).1⟩, (P.sound hs hT).2⟩
  · rintro ⟨⟨col, hI⟩, hc⟩
    obtain ⟨v, a, b, _⟩ := P.complete hl hI hc
    exact ⟨v, a, b⟩

/-- C81: the grid has the size that was asked for, and does not wrap around. -/
theorem c81_grid (h : interchangeMain lib width height L o = .ok (g, cs, s')) :
    (∀ p, g.In p ↔ p.1 < width ∧ p.2 < height) ∧ ∀ p d q, g.In p →
      (g.nb p d = some q ↔ g.In q ∧ (q.1 : Int) = p.1 + d.dx ∧ (q.2 : Int) = p.2 + d.dy) := by
  obtain ⟨P⟩ := interchangeMain_parts h
  obtain ⟨hg, _, _, hf, hw, hh, _⟩ := P.wf
  refine ⟨fun p => by simp [Grid.In, hw, hh], fun p d q hp => nb_flat hg hf hp d q⟩

/-- C81: every solution that the solver can find shows a layout, so `interchange` prints nothing exactly when there is no interchange
with the given tiles. -/
theorem c81_unsat (hl : lib.Correct) (h : interchangeMain lib width height L o = .ok (g, cs, s')) :
    (¬ ∃ v, Sat v cs) ↔ ¬ ∃ T, (∃ col, IsInterchange g.nb g.In (g.shut (.ofPair false true)) (g.shut (.ofBool true)) width height L
      o.alternating o.rotSymmetry T col) ∧ ∀ rows, o.partialLayout = some rows → Contains T rows := by
  refine not_congr ⟨?_, ?_⟩
  · rintro ⟨v, hs⟩
    obtain ⟨P⟩ := interchangeMain_parts h
    obtain ⟨ci, extra, hc, rfl⟩ := P.hinit
    obtain ⟨T, hT⟩ := c15_layout P.wf.1 hc v ((Sat_append _ _ _).1 hs).1
    exact ⟨T, (c81_exact hl h T).1 ⟨v, hs, hT⟩⟩
  · rintro ⟨T, hT⟩
    obtain ⟨v, hs, _⟩ := (c81_exact hl h T).2 hT
    exact ⟨v, hs⟩

/-- C81: the sizes that `interchange` accepts. -/
theorem c81_sizes (h : interchangeMain lib width height L o = .ok (g, cs, s')) : 0 < width ∧ 0 < height ∧ height % 2 = 0 ∧ 0 < L := by
  obtain ⟨P⟩ := interchangeMain_parts h
  exact ⟨P.w, P.h, P.even, P.l⟩

/-- C82: in every layout that `interchange` can print each belt that comes in on the left goes out on the right in a row of its own,
and the rows are mixed as they should be; there is no other way to follow the belts. -/
theorem c82_routes (h : interchangeMain lib width height L o = .ok (g, cs, s')) (v : Asg) (hs : Sat v cs) (T : Nat × Nat → Tile)
    (hT : Decodes g v T) : ∃ π : Equiv.Perm (Fin height), Routed g.nb T width height o.alternating π ∧
      ∀ π' : Equiv.Perm (Fin height), Routed g.nb T width height o.alternating π' → π' = π := by
  obtain ⟨P⟩ := interchangeMain_parts h
  obtain ⟨hg, _, _, hf, hw, hh, _⟩ := P.wf
  have := (P.sound hs hT).1
  subst hw hh
  obtain ⟨π, h1, h2⟩ := interchange_routes hg hf this
  exact ⟨π, h1, fun π' hr => h2 π' hr.runs⟩

/-- C83: `interchange --all` with a correct solver ends; each solution it prints shows an interchange, each interchange is printed, and
none is printed twice. -/
theorem c83_all (hl : lib.Correct) (h : interchangeMain lib width height L o = .ok (g, cs, s')) {solver : Oracle} (hs : CorrectSolver solver) :
    let run := fun fuel => itersolve solver ((importantLits g true).map Lit.var) fuel cs
    (∃ fuel, (run fuel).2 = true) ∧ ∀ fuel, (run fuel).2 = true →
      (∀ m ∈ (run fuel).1, ∃ T, Decodes g (asgOf m) T ∧ (∃ col, IsInterchange g.nb g.In (g.shut (.ofPair false true)) (g.shut (.ofBool true))
        width height L o.alternating o.rotSymmetry T col) ∧ ∀ rows, o.partialLayout = some rows → Contains T rows) ∧
      (∀ T, (∃ col, IsInterchange g.nb g.In (g.shut (.ofPair false true)) (g.shut (.ofBool true)) width height L o.alternating o.rotSymmetry T
        col) → (∀ rows, o.partialLayout = some rows → Contains T rows) → ∃ m ∈ (run fuel).1, Decodes g (asgOf m) T) ∧
      (run fuel).1.Pairwise fun m m' => ¬ ∃ T, Decodes g (asgOf m) T ∧ Decodes g (asgOf m') T := by
  intro run
  obtain ⟨P⟩ := interchangeMain_parts h
  obtain ⟨hg, _, _, hf, hw, hh, _⟩ := P.wf
  obtain ⟨ci, extra, hc, he⟩ := P.hinit
  have hnw : g.NoWrap := by rw [Grid.NoWrap, hf]; exact ⟨rfl, rfl⟩
  obtain ⟨hterm, hcomp⟩ := c26_enumerates hg hnw hc extra hs
  rw [← he] at hterm hcomp
  refine ⟨hterm, fun fuel hd => ⟨fun m hm => ?_, fun T hI hset => ?_, ?_⟩⟩
  · have hsat := c25_sound hs _ fuel cs m hm
    obtain ⟨T, hT⟩ := c15_layout hg hc _ ((Sat_append _ _ _).1 (he ▸ hsat)).1
    exact ⟨T, hT, (c81_exact hl h T).1 ⟨_, hsat, hT⟩⟩
  · obtain ⟨v, hv, hT⟩ := (c81_exact hl h T).2 ⟨hI, hset⟩
    obtain ⟨m, hm, _, hsame⟩ := hcomp fuel hd v hv
    exact ⟨m, hm, fun p hp => by rw [← hsame p hp]; exact hT p hp⟩
  · refine (c25_distinct hs _ fuel cs).imp_of_mem fun {m m'} hm hm' hne => ?_
    rintro ⟨T, hT, hT'⟩
    obtain ⟨x, hx, hne⟩ := hne
    obtain ⟨l, hl', rfl⟩ := List.mem_map.1 hx
    obtain ⟨p, hp, hl'⟩ := List.mem_flatMap.1 hl'
    have hsat := c25_sound hs _ fuel cs m hm
    have hsat' := c25_sound hs _ fuel cs m' hm'
    have hS := ((P.sat _).1 hsat).1
    have hS' := ((P.sat _).1 hsat').1
    have hin := (Grid.mem_cells g p).1 hp
    have ha := lays_of_decodes hS.init hT p hin
    have ha' := lays_of_decodes hS'.init hT' p hin
    have hns := hS.plain_tiles (lays_of_decodes hS.init hT) hin
    have key : ev (asgOf m) l = ev (asgOf m') l := by
      simp only [if_true, List.append_nil, TileInst.allDir, dirs, List.mem_append, List.mem_map, List.mem_singleton] at hl'
      rcases hl' with (⟨d, _, rfl⟩ | ⟨d, _, rfl⟩) | rfl
      · exact ((ha.flow hns).1 d).trans ((ha'.flow hns).1 d).symm
      · exact ((ha.flow hns).2 d).trans ((ha'.flow hns).2 d).symm
      · exact (hS.plain p hin).trans (hS'.plain p hin).symm
    apply hne
    revert key
    unfold ev
    cases l.pos <;> simp

end

/-! ### Examples -/

/-- The clauses of the program. -/
def interchangeCnf (e : Except PyErr (Grid × Cnf × Nat)) : Except PyErr Cnf := e.map fun r => r.2.1

theorem interchangeCnf_sat {e : Except PyErr (Grid × Cnf × Nat)} {v : Asg} (h : okB v (interchangeCnf e) = true) :
    ∃ g cs s', e = .ok (g, cs, s') ∧ Sat v cs := by
  cases e with
  | error e => cases h
  | ok r => exact ⟨r.1, r.2.1, r.2.2, rfl, satB_iff.1 h⟩

/-- Two rows of belts, with all options. -/
theorem exPair_sat : okB (fun i => Nat.testBit 0x404604808a0801181002282 i)
    (interchangeCnf (interchangeMain naiveLib 2 2 1 { alternating := true, rotSymmetry := true })) = true := by decide +kernel

/-- All hypotheses of the theorems are met, and the program has something to print. -/
example : ∃ g cs s', interchangeMain naiveLib 2 2 1 { alternating := true, rotSymmetry := true } = .ok (g, cs, s') ∧
    ∃ solver, CorrectSolver solver ∧ ∃ fuel, (itersolve solver ((importantLits g true).map Lit.var) fuel cs).1 ≠ [] := by
  obtain ⟨g, cs, s', h1, h2⟩ := interchangeCnf_sat exPair_sat
  obtain ⟨solver, hs⟩ := exists_solver
  obtain ⟨⟨fuel, hd⟩, hall⟩ := c83_all naiveLib_correct h1 hs
  refine ⟨g, cs, s', h1, solver, hs, fuel, fun h => ?_⟩
  obtain ⟨T, hT, hc⟩ : ∃ T, (∃ col, IsInterchange g.nb g.In _ _ 2 2 1 true true T col) ∧ _ :=
    not_not.1 fun hn => (c81_unsat naiveLib_correct h1).2 hn ⟨_, h2⟩
  obtain ⟨m, hm, _⟩ := (hall fuel hd).2.1 T hT hc
  rw [h] at hm
  cases hm

/-- A library that does not constrain anything: it is enough for the soundness of the program. -/
def exFreeLib : CardLib :=
  ⟨fun _ _ s => .ok ([[⟨1, true⟩, ⟨1, false⟩]], s), fun _ _ s => .ok ([[⟨1, true⟩, ⟨1, false⟩]], s), fun _ _ s => .ok ([[⟨1, true⟩, ⟨1, false⟩]], s)⟩

/-- An interchange with four rows. -/
def exFour : List (List Tile) := [
  [.underground .right true, .belt .up .right, .belt .right .right, .belt .right .right, .belt .right .down, .underground .right false],
  [.belt .right .right, .belt .right .up, .belt .up .right, .underground .right true, .belt .down .down, .underground .right false],
  [.underground .right true, .empty, .belt .up .up, .empty, .belt .down .down, .underground .right false],
  [.belt .right .right, .belt .right .right, .belt .right .up, .empty, .belt .down .right, .belt .right .right]]

def exFourAsg : Asg := fun i => Nat.testBit 0x1557b557b55735563556200020000002155555580460700c00e00002e04203c04407808a0f01090c3100384000b89100f10002e00291c042430c400f00108202403008407008a0c0109083020304440608880c11201c00290 i

theorem exFour_sat : okB exFourAsg (interchangeCnf (interchangeMain exFreeLib 6 4 4 {})) = true := by decide +kernel

theorem exFour_decodes : (mkGrid 6 4 ⟨false, false⟩ (some 2) (some 4) .nil 0).cells.all (fun p =>
    decide ((decodeCell (mkGrid 6 4 ⟨false, false⟩ (some 2) (some 4) .nil 0) exFourAsg p).toOption = some ((exFour.getD p.2 []).getD p.1 .empty))) = true := by
  decide +kernel

/-- The four rows are an interchange, so with every correct library the program can print them, and the rows can be followed. -/
example {lib : CardLib} (hl : lib.Correct) {g : Grid} {cs : Cnf} {s' : Nat} (h : interchangeMain lib 6 4 4 {} = .ok (g, cs, s')) :
    (∃ v, Sat v cs ∧ Decodes g v fun p => (exFour.getD p.2 []).getD p.1 .empty) ∧
    ∃ π, Routed g.nb (fun p => (exFour.getD p.2 []).getD p.1 .empty) 6 4 false π := by
  obtain ⟨g1, cs1, s1, h1, h2⟩ := interchangeCnf_sat exFour_sat
  obtain ⟨P⟩ := interchangeMain_parts h
  obtain ⟨P1⟩ := interchangeMain_parts h1
  obtain rfl : g = g1 := P.gd.trans P1.gd.symm
  have hT : Decodes g exFourAsg fun p => (exFour.getD p.2 []).getD p.1 .empty := by
    intro p hp
    rw [P.gd] at hp ⊢
    have := of_decide_eq_true (List.all_eq_true.1 exFour_decodes p ((Grid.mem_cells _ p).2 hp))
    revert this
    cases decodeCell (mkGrid 6 4 ⟨false, false⟩ (some 2) (some 4) .nil 0) exFourAsg p <;> simp [Except.toOption]
  obtain ⟨v, hv, hd⟩ := (c81_exact hl h _).2 ⟨⟨_, (P1.sound h2 hT).1⟩, fun rows hr => by cases hr⟩
  obtain ⟨π, hπ, _⟩ := c82_routes h v hv _ hd
  exact ⟨⟨v, hv, hd⟩, π, hπ⟩

end FSat
