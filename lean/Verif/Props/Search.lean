import Verif.Lemmas.Search
import Verif.Props.Solver
/-!
# C25, C56, C57: enumeration, command line solvers, IPASIR; and the second half of C26
-/

set_option linter.unusedSimpArgs false

namespace FSat

/-! ### C25 -/

/-- C25: everything yielded satisfies the clauses. -/
theorem c25_sound {solver : Oracle} (hs : CorrectSolver solver) (important : List Nat) (fuel : Nat) (cs : Cnf)
    (m : List Lit) (hm : m ∈ (itersolve solver important fuel cs).1) : Sat (asgOf m) cs :=
  (iter_mem hs fuel 0 cs m hm).asg

/-- C25: any two solutions yielded differ on an important variable. -/
theorem c25_distinct {solver : Oracle} (hs : CorrectSolver solver) (important : List Nat) (fuel : Nat) (cs : Cnf) :
    (itersolve solver important fuel cs).1.Pairwise fun m m' => ∃ x ∈ important, asgOf m x ≠ asgOf m' x :=
  iter_distinct hs fuel 0 cs

/-- C25: the loop ends, after at most `2 ^ n` solutions for `n` important variables. -/
theorem c25_terminates {solver : Oracle} (hs : CorrectSolver solver) (important : List Nat) (cs : Cnf) (fuel : Nat)
    (hf : 2 ^ important.length < fuel) : (itersolve solver important fuel cs).2 = true := by
  have h1 := iter_length (imp := important) hs fuel 0 cs
  rcases iter_done (solver := solver) (imp := important) fuel 0 cs with h | h
  · exact h
  · omega

/-- C25: when the loop has ended, every satisfying assignment agrees with a solution yielded on the important variables. -/
theorem c25_complete {solver : Oracle} (hs : CorrectSolver solver) (important : List Nat) (cs : Cnf)
    (hi : ∀ x ∈ important, ∃ c ∈ cs, ∃ l ∈ c, l.var = x) (fuel : Nat) (hd : (itersolve solver important fuel cs).2 = true)
    (v : Asg) (hv : Sat v cs) : ∃ m ∈ (itersolve solver important fuel cs).1, ∀ x ∈ important, v x = asgOf m x :=
  iter_complete hs fuel 0 cs hi hd v hv

/-- C25: with a command solver exactly the solver's one answer is yielded, whatever `important` is; the enumeration is then not
complete. -/
theorem c25_command_single (answer : Except PyErr (Option (List Lit))) (ms : List (List Lit)) :
    itersolveCmd answer = .ok ms ↔ ∃ a, answer = .ok a ∧ ms = a.toList := by
  cases answer with
  | error e => simp [itersolveCmd]
  | ok o => cases o <;> simp [itersolveCmd, eq_comm]

example : ∃ solver : Oracle, CorrectSolver solver ∧
    2 ≤ (itersolve solver [1, 2] 5 [[⟨1, true⟩, ⟨2, true⟩]]).1.length := by
  obtain ⟨solver, hs⟩ := exists_solver
  refine ⟨solver, hs, ?_⟩
  have hd := c25_terminates hs [1, 2] [[⟨1, true⟩, ⟨2, true⟩]] 5 (by decide)
  have hc := c25_complete hs [1, 2] [[⟨1, true⟩, ⟨2, true⟩]] (by decide) 5 hd
  obtain ⟨m1, h1, e1⟩ := hc (fun x => x == 1) (by decide)
  obtain ⟨m2, h2, e2⟩ := hc (fun x => x == 2) (by decide)
  have hne : m1 ≠ m2 := by
    rintro rfl
    have := (e1 1 (by simp)).trans (e2 1 (by simp)).symm
    simp at this
  match hm : (itersolve solver [1, 2] 5 [[⟨1, true⟩, ⟨2, true⟩]]).1 with
  | [] => rw [hm] at h1; simp at h1
  | [m] => rw [hm] at h1 h2; simp at h1 h2; exact absurd (h1.trans h2.symm) hne
  | _ :: _ :: _ => simp

/-! ### C26 with C25 and C58 -/

theorem allDir_occur (t : TileInst) (l : Lit) (hl : l ∈ t.allDir ++ [t.isSplitter]) :
    ∃ c ∈ cellClauses t, ∃ l' ∈ c, l'.var = l.var := by
  simp only [List.mem_append, List.mem_singleton, TileInst.allDir] at hl
  have hi : (-t.isSplitter :: t.allDir) ∈ cellClauses t := by
    simp [cellClauses, implies, TileInst.allDir]
  rcases hl with (hl | hl) | rfl
  · exact ⟨_, hi, l, List.mem_cons_of_mem _ (List.mem_append_left _ hl), rfl⟩
  · exact ⟨_, hi, l, List.mem_cons_of_mem _ (List.mem_append_right _ hl), rfl⟩
  · exact ⟨_, hi, -t.isSplitter, List.mem_cons_self, rfl⟩

/-- C26: on a grid that does not wrap, `Grid.itersolve(ignore_colour=True)` with any correct solver comes to an end, and then every
layout that satisfies the clauses is among the layouts yielded. -/
theorem c26_enumerates {g : Grid} (hg : g.WF) (hw : g.NoWrap) {ci : Cnf} (hc : initClauses g = .ok ci) (extra : Cnf)
    {solver : Oracle} (hs : CorrectSolver solver) :
    let important := (importantLits g true).map Lit.var
    (∃ fuel, (itersolve solver important fuel (ci ++ extra)).2 = true) ∧
    ∀ fuel, (itersolve solver important fuel (ci ++ extra)).2 = true → ∀ v, Sat v (ci ++ extra) →
      ∃ m ∈ (itersolve solver important fuel (ci ++ extra)).1, Sat (asgOf m) (ci ++ extra) ∧
        ∀ p, g.In p → decodeCell g v p = decodeCell g (asgOf m) p := by
  intro important
  refine ⟨⟨2 ^ important.length + 1, c25_terminates hs _ _ _ (by omega)⟩, fun fuel hd v hv => ?_⟩
  have hocc : ∀ x ∈ important, ∃ c ∈ ci ++ extra, ∃ l ∈ c, l.var = x := by
    intro x hx
    obtain ⟨l, hl, rfl⟩ := List.mem_map.1 hx
    obtain ⟨p, hp, hl⟩ := List.mem_flatMap.1 hl
    simp only [if_true, List.append_nil] at hl
    obtain ⟨c, hc', h⟩ := allDir_occur (g.at' p) l hl
    refine ⟨c, List.mem_append_left _ ?_, h⟩
    unfold initClauses at hc
    split at hc
    · cases hc
    · cases hc
      refine List.mem_append_left _ (List.mem_append_left _ (List.mem_append_left _ ?_))
      exact List.mem_flatMap.2 ⟨p, hp, hc'⟩
  obtain ⟨m, hm, he⟩ := c25_complete hs important _ hocc fuel hd v hv
  have hsat := c25_sound hs important fuel _ m hm
  refine ⟨m, hm, hsat, fun p hp => ?_⟩
  refine c26_important hg hw hc v (asgOf m) ((Sat_append _ _ _).1 hv).1 ((Sat_append _ _ _).1 hsat).1 true (fun l hl => ?_) p hp
  simp only [ev, he l.var (List.mem_map.2 ⟨l, hl, rfl⟩)]

/-! ### C56 -/

/-- C56: a satisfiable answer is read exactly, however it is split into lines and whatever comments are in it. -/
theorem c56_model (pre : List (List Char)) (hpre : ∀ l ∈ pre, l.head? ≠ some 's') (status : List Char)
    (hs : "s SATISFIABLE".toList <+: status) (lines : List (List Char)) (ns : List Int) (hz : ∀ n ∈ ns, n ≠ 0)
    (h : ModelLines ns lines) : interpretAnswer (pre ++ status :: lines) = .ok (some ns) := by
  rw [interpret_skip pre hpre]
  obtain ⟨t, rfl⟩ := hs
  have h0 := readModel_spec h hz []
  rw [List.nil_append] at h0
  rw [interpretAnswer, if_pos (by rfl), if_neg (by simp [List.isPrefixOf]), if_pos (by simp [List.isPrefixOf]), h0]

/-- C56: the answer is `None` exactly when the first status line says UNSATISFIABLE. -/
theorem c56_unsat (output : List (List Char)) : interpretAnswer output = .ok none ↔
    ∃ pre status rest, output = pre ++ status :: rest ∧ (∀ l ∈ pre, l.head? ≠ some 's') ∧
      "s UNSATISFIABLE".toList <+: status := by
  constructor
  · intro h
    rcases exists_status output with h1 | ⟨pre, l, rest, rfl, h1, h2⟩
    · rw [interpret_none _ h1] at h; cases h
    · refine ⟨pre, l, rest, rfl, h1, ?_⟩
      rw [interpret_skip pre h1, interpretAnswer, if_pos h2] at h
      split at h
      · rename_i hu; exact List.isPrefixOf_iff_prefix.1 hu
      · split at h
        · split at h <;> cases h
        · cases h
  · rintro ⟨pre, l, rest, rfl, h1, t, rfl⟩
    rw [interpret_skip pre h1, interpretAnswer, if_pos (by rfl), if_pos (by simp [List.isPrefixOf])]

/-- C56: any other status, and an output without a status line, is an error. -/
theorem c56_other_status (output : List (List Char))
    (h : (∀ l ∈ output, l.head? ≠ some 's') ∨ ∃ pre status rest, output = pre ++ status :: rest ∧
      (∀ l ∈ pre, l.head? ≠ some 's') ∧ status.head? = some 's' ∧ ¬ "s UNSATISFIABLE".toList <+: status ∧
      ¬ "s SATISFIABLE".toList <+: status) : interpretAnswer output = .error .runtimeError := by
  rcases h with h | ⟨pre, l, rest, rfl, h1, h2, h3, h4⟩
  · exact interpret_none _ h
  · rw [interpret_skip pre h1, interpretAnswer, if_pos h2, if_neg (by rw [List.isPrefixOf_iff_prefix]; exact h3),
      if_neg (by rw [List.isPrefixOf_iff_prefix]; exact h4)]

/-- Not covered by C56: an output that ends before the final zero (a solver that crashed while printing) is accepted as a complete
model. -/
theorem c56_truncated_accepted (ns : List Int) (hne : ns ≠ []) (hz : ∀ n ∈ ns, n ≠ 0) (line : List Char)
    (hl : ValueLine ns line) : interpretAnswer ["s SATISFIABLE".toList, line] = .ok (some ns) := by
  obtain ⟨h1, h2⟩ := splitWs_valueLine hl
  have : readModel [line] [] = .ok ns := by
    rw [readModel, if_neg (by rw [h2]; decide), h1]
    simp only [ne_eq, not_true_eq_false, if_false, intsOf_show, List.nil_append]
    cases hg : ns.getLast? with
    | none => exact absurd (List.getLast?_eq_none_iff.1 hg) hne
    | some a =>
      have ha := hz a (List.mem_of_getLast? hg)
      split
      · rename_i h; cases h
      · rename_i h; cases h; exact absurd rfl ha
      · rfl
  rw [interpretAnswer, if_pos (by rfl), if_neg (by decide), if_pos (by decide), this]

/-- A value line without numbers at the start of the answer is an `IndexError`. -/
theorem c56_empty_line_refuted (rest : List (List Char)) :
    interpretAnswer ("s SATISFIABLE\n".toList :: "v\n".toList :: rest) = .error .indexError := by
  rw [interpretAnswer, if_pos (by rfl), if_neg (by decide), if_pos (by decide)]
  rfl

example : interpretAnswer ["c hello\n".toList, "s SATISFIABLE\n".toList, "v -1 2\n".toList, "c x\n".toList, "v 30 0\n".toList] =
    .ok (some [-1, 2, 30]) := by rfl

example : ModelLines [-1, 2, 30] ["v -1 2\n".toList, "c x\n".toList, "v 30 0\n".toList] := by
  refine .some [-1, 2] [30] _ _ (by simp) ?_ (.comment _ _ _ rfl (.last _ _ _ ?_))
  · exact ⟨" -1 2\n".toList, .cons " ".toList "-1".toList _ _ (by simp) (by decide) (.cons " ".toList "2".toList _ _ (by simp) (by decide)
      (.nil _ (by decide))), rfl⟩
  · exact ⟨" 30 0\n".toList, .cons " ".toList "30".toList _ _ (by simp) (by decide) (.cons " ".toList "0".toList _ _ (by simp) (by decide)
      (.nil _ (by decide))), rfl⟩

/-! ### C57 -/

/-- C57: adding clauses to an open solver whose stream is complete extends the decoded clauses by exactly the clauses given, and the
variable set by exactly their variables; the set has no duplicates. -/
theorem c57_stream (s : Ipasir) (ho : s.closed = false) (old : List (List Int)) (hd : decodeStream s.sent = (old, []))
    (hn : s.variables.Nodup) (cs : List (List Int)) (hc : ∀ c ∈ cs, ∀ l ∈ c, l ≠ 0) :
    ∃ s', s.addClauses cs = .ok s' ∧ s'.closed = false ∧ decodeStream s'.sent = (old ++ cs, []) ∧ s'.variables.Nodup ∧
      ∀ x, x ∈ s'.variables ↔ x ∈ s.variables ∨ ∃ c ∈ cs, ∃ l ∈ c, l.natAbs = x := by
  obtain ⟨h1, h2, h3, h4⟩ := Ipasir.addClauses_spec s cs
  refine ⟨_, by rw [Ipasir.addClauses, ho]; rfl, h2.trans ho, ?_, h4 hn, h3⟩
  rw [h1, decodeStream_append _ _ (by rw [hd]), hd, decodeStream_clauses cs hc]

/-- C57: `add_clause` is `add_clauses` with one clause. -/
theorem c57_add_clause (s : Ipasir) (c : List Int) : s.addClause c = s.addClauses [c] := by
  simp [Ipasir.addClause, Ipasir.addClauses]

/-- C57: for a fresh solver. -/
theorem c57_fresh (cs : List (List Int)) (hc : ∀ c ∈ cs, ∀ l ∈ c, l ≠ 0) :
    ∃ s', Ipasir.addClauses {} cs = .ok s' ∧ decodeStream s'.sent = (cs, []) ∧ s'.variables.Nodup ∧
      ∀ x, x ∈ s'.variables ↔ ∃ c ∈ cs, ∃ l ∈ c, l.natAbs = x := by
  obtain ⟨s', h1, _, h2, h3, h4⟩ := c57_stream {} rfl [] rfl (by simp) cs hc
  exact ⟨s', h1, by simpa using h2, h3, fun x => by rw [h4]; simp⟩

/-- C57: the model read back has exactly one literal per recorded variable, with the value the solver gives, or true when it gives
none. -/
theorem c57_model (s : Ipasir) (ho : s.closed = false) (val : Nat → Int)
    (hv : ∀ x, val x = 0 ∨ val x = x ∨ val x = -(x : Int)) :
    ∃ m, s.getModel val = .ok m ∧ m.map Int.natAbs = s.variables ∧
      ∀ x ∈ s.variables, (val x ≠ 0 → val x ∈ m) ∧ (val x = 0 → (x : Int) ∈ m) := by
  refine ⟨_, by rw [Ipasir.getModel, ho]; rfl, ?_, fun x hx => ⟨fun h => List.mem_map.2 ⟨x, hx, if_neg h⟩,
    fun h => List.mem_map.2 ⟨x, hx, if_pos h⟩⟩⟩
  rw [List.map_map]
  conv_rhs => rw [← List.map_id s.variables]
  refine List.map_congr_left fun x _ => ?_
  simp only [Function.comp_apply, id_eq]
  rcases hv x with h | h | h
  · rw [if_pos h]; simp
  · split
    · simp
    · rw [h]; simp
  · split
    · simp
    · rw [h]; simp

/-- C57: when every assignment that follows the values of the solver satisfies the clauses, so does the model read back. -/
theorem c57_model_sat (s : Ipasir) (ho : s.closed = false) (val : Nat → Int)
    (hv : ∀ x, val x = 0 ∨ val x = x ∨ val x = -(x : Int)) (cs : Cnf) (hpos : ∀ x ∈ s.variables, 0 < x)
    (hsat : ∀ v : Asg, (∀ x ∈ s.variables, val x ≠ 0 → (v x = true ↔ val x = x)) → Sat v cs) :
    ∃ m, s.getModel val = .ok m ∧ ∀ v : Asg, (∀ l ∈ m, v l.natAbs = decide (0 < l)) → Sat v cs := by
  obtain ⟨m, h1, _, h3⟩ := c57_model s ho val hv
  refine ⟨m, h1, fun v hm => hsat v fun x hx hne => ?_⟩
  have := hm _ ((h3 x hx).1 hne)
  have hp := hpos x hx
  rcases hv x with h | h | h
  · exact absurd h hne
  · rw [h] at this; simp only [Int.natAbs_natCast] at this
    rw [this, h]; simp; omega
  · rw [h] at this; simp only [Int.natAbs_neg, Int.natAbs_natCast] at this
    rw [this, h]; simp; omega

/-- C57: every method of a closed solver raises. -/
theorem c57_closed (s : Ipasir) (hc : s.closed = true) (cs : List (List Int)) (val : Nat → Int) (code : Int) :
    s.addClauses cs = .error .runtimeError ∧ s.getModel val = .error .runtimeError ∧
    s.solveResult code = .error .runtimeError ∧ s.exit = .error .runtimeError := by
  simp [Ipasir.addClauses, Ipasir.getModel, Ipasir.solveResult, Ipasir.exit, hc]

/-- C57: the answer of the library is read as the IPASIR interface says: 10 is satisfiable, 20 is not satisfiable, 0 is undecided,
and any other code raises. -/
theorem c57_answer (s : Ipasir) (ho : s.closed = false) (code : Int) :
    (s.solveResult code = .ok (some true) ↔ code = 10) ∧ (s.solveResult code = .ok (some false) ↔ code = 20) ∧
    (s.solveResult code = .ok none ↔ code = 0) ∧
    (s.solveResult code = .error .runtimeError ↔ code ≠ 10 ∧ code ≠ 20 ∧ code ≠ 0) := by
  unfold Ipasir.solveResult
  rw [if_neg (by simp [ho])]
  by_cases h0 : code = 0
  · subst h0; simp
  by_cases h1 : code = 10
  · subst h1; simp
  by_cases h2 : code = 20
  · subst h2; simp
  simp [h0, h1, h2]

/-- C57: leaving the `with` block closes an open solver, after which every method raises. -/
theorem c57_exit (s : Ipasir) (ho : s.closed = false) :
    ∃ s', s.exit = .ok s' ∧ ∀ cs val code, s'.addClauses cs = .error .runtimeError ∧ s'.getModel val = .error .runtimeError ∧
      s'.solveResult code = .error .runtimeError ∧ s'.exit = .error .runtimeError :=
  ⟨{ s with closed := true }, by simp [Ipasir.exit, ho], fun cs val code => c57_closed _ rfl cs val code⟩

example : ({} : Ipasir).closed = false := rfl

example : decodeStream ((Ipasir.sendClause {} [1, -2]).sendClause [2]).sent = ([[1, -2], [2]], []) ∧
    ((Ipasir.sendClause {} [1, -2]).sendClause [2]).variables = [1, 2] := by decide

end FSat
