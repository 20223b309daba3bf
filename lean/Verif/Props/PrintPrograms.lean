import Verif.Lemmas.PrintPrograms
import Verif.Props.PrintPasted
import Verif.Props.PowerOfTwoCase
/-!
# C105: what the other programs print
-/

namespace FSat

/-! ### `belt_balancer_net_free` -/

theorem nToN_good (n bits : Nat) : GoodExtras none (nToNFields n bits) := by
  refine ⟨by simp [nToNFields, TFields.Proper, Tmpl.Proper], by simp [nToNFields, TFields.Named, Tmpl.Named], ?_⟩
  simp only [gridFields, nToNFields, TFields.names]
  decide

theorem nToM_good (m n bits : Nat) : GoodExtras none (nToMFields m n bits) := by
  refine ⟨by simp [nToMFields, nToMMember, TFields.Proper, Tmpl.Proper],
    by simp [nToMFields, nToMMember, TFields.Named, Tmpl.Named, TFields.names], ?_⟩
  simp only [gridFields, nToMFields, TFields.names]
  decide

/-- The variables for the offsets come after those of the tiles. -/
theorem free_mentions {width height m n : Nat} {ugLen : Option Nat} {aligned : Bool} {g g0 : Grid} {cs0 cs : Cnf} {N s : Nat}
    (h0 : createNToM width height ugLen m n = .ok (g0, cs0, N)) (h : freeBalancer width height ugLen m n aligned = .ok (g, cs, s)) :
    g = g0 ∧ ∀ v, Sat v cs → Mentions N cs := by
  unfold freeBalancer at h
  rw [h0] at h
  simp only at h
  split at h
  · cases h
  · rename_i cs' s' e
    simp only [Except.ok.injEq, Prod.mk.injEq] at h
    obtain ⟨rfl, rfl, _⟩ := h
    refine ⟨rfl, fun v hv => ?_⟩
    obtain ⟨c, s1, c', h1, _, h3⟩ := Gen.all_cons e
    have hc : allocVars N (g0.height + 1 - m) ∈ c := by
      unfold freeBalancerEnds at h1
      obtain ⟨rfl, _⟩ := Prod.mk.injEq .. ▸ Except.ok.inj h1
      simp [offsetClauses, quadraticOne]
    have hmem : allocVars N (g0.height + 1 - m) ∈ cs0 ++ cs' := by
      rw [show cs' = c ++ c' from h3]
      exact List.mem_append_right _ (List.mem_append_left _ hc)
    obtain ⟨l, hl, _⟩ := hv _ hmem
    refine ⟨_, hmem, l, hl, ?_⟩
    obtain ⟨i, _, rfl⟩ := List.mem_map.1 hl
    simp only
    omega

section
variable {width height : Nat} {ugLen : Option Nat} {aligned : Bool} {layout : Option (List (List Tile))} {g : Grid} {cs : Cnf} {s : Nat}
  {solver : Oracle}

theorem freeProgram_grid {m n : Nat} {g0 : Grid} {cs0 : Cnf} {N : Nat} (h0 : createNToM width height ugLen m n = .ok (g0, cs0, N))
    (h : freeProgram width height ugLen m n aligned layout = .ok (g, cs, s)) : g = g0 ∧ ((∃ v, Sat v cs) → Mentions N cs) := by
  obtain ⟨cs1, cs2, e1, rfl, _⟩ := withPartial_exact h
  obtain ⟨cb, cb', e2, rfl⟩ := mainClauses_parts e1
  obtain ⟨h1, h2⟩ := free_mentions h0 e2
  refine ⟨h1, ?_⟩
  rintro ⟨v, hv⟩
  rw [Sat_append, Sat_append] at hv
  exact (h2 v hv.1.1).mono fun c hc => List.mem_append_left _ (List.mem_append_left _ hc)

/-- C105: `belt_balancer_net_free` with equally many inputs and outputs prints the balancers of C92, with `--all` each of them once. -/
theorem c105_free {size : Nat} (hw : 2 ≤ width) (hh : 0 < height) (hn : 0 < size) (hL : ∀ l, ugLen = some l → 1 ≤ l)
    (h : freeProgram width height ugLen size size aligned layout = .ok (g, cs, s)) (hs : CorrectSolver solver) (hf : CompleteSolver solver) :
    let Wanted := fun T => (ShareBalancer g T size (Nat.lcm (2 ^ Nat.clog 2 size) size) aligned ∧
      TidyFree g.In g.nb width height ugLen T (fun p d => (T p).Takes d) (fun p d => (T p).Emits d)) ∧
      ∀ rows, layout = some rows → Contains T rows
    PrintsOnce g Wanted (freeRun width height ugLen size size aligned layout solver true) ∧
    ∀ fuel, PrintsFirst g Wanted (freeRun width height ugLen size size aligned layout solver false fuel) := by
  intro Wanted
  obtain ⟨_, e0, _⟩ := createNToN_eq (ugLen := ugLen) (show 0 < width by omega) hh hn
  obtain ⟨hg, hlast⟩ := freeProgram_grid e0 h
  obtain ⟨_, _, _, k1, k2⟩ := c92_free hw hh hn hL h hs
  obtain ⟨_, h2, h3⟩ := program_prints (s := s) (Wanted := Wanted) hg (by omega) hh (nToN_good _ _) hlast hs hf k1
    fun fuel hd => ⟨(k2 fuel hd).1, (k2 fuel hd).2.1⟩
  have e : freeExtras size size = nToNFields (size - 1) (size * nToNDenominator size).size := if_pos rfl
  unfold freeRun
  rw [h, e]
  exact ⟨h2 fun fuel hd => (k2 fuel hd).2.2, h3⟩

/-- C105: with different numbers of inputs and outputs, each balancer of C92 at least once. -/
theorem c105_mix {m n : Nat} (hw : 2 ≤ width) (hh : 0 < height) (hm : 0 < m) (hn : 0 < n) (hne : m ≠ n) (hL : ∀ l, ugLen = some l → 1 ≤ l)
    (h : freeProgram width height ugLen m n aligned layout = .ok (g, cs, s)) (hs : CorrectSolver solver) (hf : CompleteSolver solver) :
    let Wanted := fun T => (∃ conn, MixBalancer g T conn m n (mixUnit m n) aligned ∧
      TidyFree g.In g.nb width height ugLen T (EntryUsed g.nb T conn) (ExitUsed g.nb T conn)) ∧
      ∀ rows, layout = some rows → Contains T rows
    PrintsAll g Wanted (freeRun width height ugLen m n aligned layout solver true) ∧
    ∀ fuel, PrintsFirst g Wanted (freeRun width height ugLen m n aligned layout solver false fuel) := by
  intro Wanted
  obtain ⟨_, e0, _⟩ := createNToM_eq (ugLen := ugLen) (show 0 < width by omega) hh hm hn hne
  obtain ⟨hg, hlast⟩ := freeProgram_grid e0 h
  obtain ⟨_, _, _, k1, k2⟩ := c92_mix hw hh hm hn hne hL h hs
  obtain ⟨h1, _, h3⟩ := program_prints (s := s) (Wanted := Wanted) hg (by omega) hh (nToM_good _ _ _) hlast hs hf k1 k2
  have e : freeExtras m n = nToMFields m n (maxBeltFlow m n).size := if_neg hne
  unfold freeRun
  rw [h, e]
  exact ⟨h1, h3⟩

/-! ### `belt_balancer_net_free_power_of_2` -/

theorem level_good (k n : Nat) : GoodExtras (some k) (levelFields n) := by
  refine ⟨by simp [levelFields, TFields.Proper, Tmpl.Proper], by simp [levelFields, TFields.Named, Tmpl.Named], ?_⟩
  simp only [gridFields, levelFields, TFields.names]
  decide

theorem power_mentions {lib : CardLib} (h : powerBalancer lib width height ugLen = .ok (g, cs, s)) :
    0 < width ∧ 0 < height ∧
    g = mkGrid width height ⟨false, false⟩ (some (2 ^ (height / 2))) ugLen (levelFields (powerLevels height)) 0 ∧
    Mentions (height * width * (gridFields (some (2 ^ (height / 2))) (levelFields (powerLevels height))).variableCount) cs := by
  obtain ⟨e, cs0, cs1, hw, he, hg, h0, _, rfl⟩ := power_parts h
  have hh : 2 ≤ height := by rw [he, pow_succ]; have := Nat.one_le_two_pow (n := e); omega
  refine ⟨hw, by omega, hg, Mentions.mono ?_ fun c hc => List.mem_append_left _ hc⟩
  unfold powerClauses at h0
  obtain ⟨c, s1, c', h1, _, h3⟩ := Gen.all_cons h0
  obtain ⟨h2, _⟩ := Gen.pure_ok h1
  refine Mentions.mono ?_ fun x hx => (show cs0 = c ++ c' from h3) ▸ List.mem_append_left _ hx
  unfold powerPlain at h2
  rcases Nat.eq_zero_or_pos (powerLevels height) with hz | hz
  · obtain ⟨c1, h4, h5⟩ := concatE_mem h2 (a := preventBadColouring g) (by simp)
    refine Mentions.mono ?_ h5
    rw [hg] at h4
    refine colouring_mentions hw hh ?_ ?_ h4
    · rw [Nat.size_pos]
      have : 2 ^ 1 ≤ 2 ^ (height / 2) := Nat.pow_le_pow_right (by omega) (by omega)
      omega
    · rw [hz]
      rfl
  · obtain ⟨c1, h4, h5⟩ := concatE_mem h2
      (a := concatE (fun p => powerTile (g.at' p) (levelLits width (2 ^ (height / 2)) (powerLevels height) p)) g.cells) (by simp)
    refine Mentions.mono ?_ h5
    obtain ⟨c2, h6, h7⟩ := concatE_mem h4 (a := (width - 1, height - 1)) ((Grid.mem_cells _ _).2 (by
      rw [hg]; exact ⟨Nat.sub_lt hw (by omega), Nat.sub_lt (show 0 < height by omega) (by omega)⟩))
    refine Mentions.mono ?_ h7
    unfold powerTile at h6
    split at h6
    · cases h6
    · cases h6
      have hl := level_last (k := 2 ^ (height / 2)) hw (show 0 < height by omega) hz
      generalize height * width * (gridFields (some (2 ^ (height / 2))) (levelFields (powerLevels height))).variableCount = N at hl ⊢
      have hm : Mentions N (setAllFalse (levelLits width (2 ^ (height / 2)) (powerLevels height) (width - 1, height - 1)).primary) :=
        ⟨[-⟨N, true⟩], List.mem_map.2 ⟨_, hl, rfl⟩, -⟨N, true⟩, List.mem_singleton_self _, le_of_eq rfl⟩
      exact Mentions.mono (implies_mentions hm) fun x hx => List.mem_append_right _ hx

/-- C105: `belt_balancer_net_free_power_of_2` prints the balancers of C92, with `--all` each of them once. -/
theorem c105_power {lib : CardLib} (hl : lib.Correct) (hw : 2 ≤ width) (hL : ∀ l, ugLen = some l → 1 ≤ l)
    (h : powerProgram lib width height ugLen layout = .ok (g, cs, s)) (hs : CorrectSolver solver) (hf : CompleteSolver solver) :
    let Wanted := fun T => (PowerBalancer g T width height ugLen ∧
      TidyPower g.In g.nb width height ugLen T (fun p d => (T p).Takes d) (fun p d => (T p).Emits d)) ∧
      ∀ rows, layout = some rows → Contains T rows
    PrintsOnce g Wanted (powerRun lib width height ugLen layout solver true) ∧
    ∀ fuel, PrintsFirst g Wanted (powerRun lib width height ugLen layout solver false fuel) := by
  intro Wanted
  obtain ⟨_, _, _, k1, k2⟩ := c92_power hl hw hL h hs
  obtain ⟨cs0, cs1, e0, e1, _⟩ := withPartial_exact h
  obtain ⟨hw', hh, hg, hlast⟩ : 0 < width ∧ 0 < height ∧
      g = mkGrid width height ⟨false, false⟩ (some (2 ^ (height / 2))) ugLen (levelFields (powerLevels height)) 0 ∧
      Mentions (height * width * (gridFields (some (2 ^ (height / 2))) (levelFields (powerLevels height))).variableCount) cs := by
    unfold powerBalancerMain at e0
    split at e0
    · cases e0
    · rename_i e2
      split at e0
      · cases e0
      · simp only [Except.ok.injEq, Prod.mk.injEq] at e0
        obtain ⟨rfl, rfl, rfl⟩ := e0
        obtain ⟨a, b, c, d⟩ := power_mentions e2
        exact ⟨a, b, c, d.mono fun x hx => e1 ▸ List.mem_append_left _ (List.mem_append_left _ hx)⟩
  obtain ⟨_, h2, h3⟩ := program_prints (s := s) (Wanted := Wanted) hg hw' hh (level_good _ _) (fun _ => hlast) hs hf k1
    fun fuel hd => ⟨(k2 fuel hd).1, (k2 fuel hd).2.1⟩
  unfold powerRun
  rw [h]
  exact ⟨h2 fun fuel hd => (k2 fuel hd).2.2, h3⟩

end

/-! ### `interchange` -/

theorem nil_good : GoodExtras (some 2) .nil := by
  refine ⟨trivial, trivial, ?_⟩
  simp only [gridFields, TFields.names]
  decide

/-- C105: `interchange` prints the interchanges of C83, with `--all` each of them once. -/
theorem c105_interchange {lib : CardLib} (hl : lib.Correct) {width height L : Nat} {o : InterchangeOptions} {g : Grid} {cs : Cnf} {s : Nat}
    (h : interchangeMain lib width height L o = .ok (g, cs, s)) {solver : Oracle} (hs : CorrectSolver solver) (hf : CompleteSolver solver) :
    let Wanted := fun T => (∃ col, IsInterchange g.nb g.In (g.shut (.ofPair false true)) (g.shut (.ofBool true)) width height L o.alternating
      o.rotSymmetry T col) ∧ ∀ rows, o.partialLayout = some rows → Contains T rows
    PrintsOnce g Wanted (interchangeRun lib width height L o solver true) ∧
    ∀ fuel, PrintsFirst g Wanted (interchangeRun lib width height L o solver false fuel) := by
  intro Wanted
  obtain ⟨P⟩ := interchangeMain_parts h
  obtain ⟨k1, k2⟩ := c83_all hl h hs
  have hlast : Mentions (height * width * (gridFields (some 2) .nil).variableCount) cs := by
    have h' := h
    unfold interchangeMain at h'
    split at h'
    · cases h'
    split at h'
    · cases h'
    split at h'
    · cases h'
    simp only at h'
    split at h'
    · cases h'
    · rename_i c1 s1 e1
      cases h'
      obtain ⟨s2, c, s3, h1, h2⟩ := Gen.all_mem (f := Gen.pure (preventBadColouring (mkGrid width height ⟨false, false⟩ (some 2) (some L) .nil 0)))
        (by simp) e1
      obtain ⟨h3, _⟩ := Gen.pure_ok h1
      refine Mentions.mono ?_ h2
      have := P.h
      have := P.even
      exact colouring_mentions P.w (by omega) (by decide) rfl h3
  obtain ⟨_, h2, h3⟩ := program_prints (s := s) (Wanted := Wanted) P.gd P.w P.h nil_good (fun _ => hlast) hs hf k1
    fun fuel hd => ⟨(k2 fuel hd).1, fun T hT => (k2 fuel hd).2.1 T hT.1 hT.2⟩
  unfold interchangeRun
  rw [h]
  exact ⟨h2 fun fuel hd => (k2 fuel hd).2.2, h3⟩

/-! ### When something cannot be printed -/

/-- C105: with `--all` the lines come in the order of the answers; if an answer cannot be printed, then the lines before it have been
printed and the program ends with the error.  (By `c105_missing` the error is a `KeyError`.) -/
theorem c105_stops {width height : Nat} {colours : Option Nat} {extras : TFields} {s : Nat} (answers : List (List Lit)) :
    let text := solutionText width height colours extras s
    (∃ ls, List.Forall₂ (fun m l => text m = .ok l) answers ls ∧ printLoop text true answers = ⟨textOf ls, .finished⟩) ∨
    ∃ before m after ls e, answers = before ++ m :: after ∧ List.Forall₂ (fun m l => text m = .ok l) before ls ∧ text m = .error e ∧
      printLoop text true answers = ⟨textOf ls, .raised e⟩ := by
  intro text
  induction answers with
  | nil => exact Or.inl ⟨[], .nil, rfl⟩
  | cons m ms ih =>
    cases e : text m with
    | error e' =>
      refine Or.inr ⟨[], m, ms, [], e', rfl, .nil, e, ?_⟩
      simp only [printLoop, e]
      rfl
    | ok l =>
      rcases ih with ⟨ls, h1, h2⟩ | ⟨before, m', after, ls, e', h1, h2, h3, h4⟩
      · refine Or.inl ⟨l :: ls, .cons e h1, ?_⟩
        simp only [printLoop, e, if_true, h2, textOf_cons]
      · refine Or.inr ⟨m :: before, m', after, l :: ls, e', by rw [h1]; rfl, .cons e h2, h3, ?_⟩
        simp only [printLoop, e, if_true, h4, textOf_cons]

/-! ### Cases -/

theorem program_nonempty {width height : Nat} {extras : TFields} {g : Grid} {cs : Cnf} {s : Nat} {solver : Oracle} (hs : CorrectSolver solver)
    {v : Asg} (hv : Sat v cs) {fuel : Nat} {Wanted : (Nat × Nat → Tile) → Prop}
    (h : PrintsFirst g Wanted (programRun width height extras solver false fuel (.ok (g, cs, s)))) :
    ∃ l T, programRun width height extras solver false fuel (.ok (g, cs, s)) = ⟨textOf [l], .finished⟩ ∧
      PrintedLine l (layoutArr g T) ∧ Wanted T := by
  rcases h with ⟨h, _⟩ | ⟨l, T, h1, _, h2, h3⟩
  · exfalso
    unfold programRun at h
    simp only [Bool.false_eq_true, if_false] at h
    unfold itersolve itersolveFrom at h
    cases hq : solver 0 cs with
    | none => exact hs.unsat 0 cs hq ⟨v, hv⟩
    | some m =>
      rw [hq] at h
      simp only [printLoop] at h
      split at h
      · cases h
      · simp at h
  · exact ⟨l, T, h1, h2, h3⟩

/-- All hypotheses are met, and something is printed: `belt_balancer_net_free` for two belts. -/
example : ∃ solver, CorrectSolver solver ∧ CompleteSolver solver ∧
    ∃ l, freeRun 3 2 (some 4) 2 2 true (some pairRows) solver false 0 = ⟨textOf [l], .finished⟩ := by
  obtain ⟨g, cs, s, h, hv⟩ := program_found pairRows_sat
  obtain ⟨solver, hs, hf⟩ := exists_complete
  have := (c105_free (by decide) (by decide) (by decide) (by intro l h; cases h; decide) h hs hf).2 0
  unfold freeRun at this ⊢
  rw [h] at this ⊢
  obtain ⟨l, _, hl, _⟩ := program_nonempty hs hv this
  exact ⟨solver, hs, hf, l, hl⟩

/-- For one input and two outputs. -/
example : ∃ solver, CorrectSolver solver ∧ CompleteSolver solver ∧
    ∃ l, freeRun 3 2 (some 4) 1 2 true (some pairRows) solver false 0 = ⟨textOf [l], .finished⟩ := by
  obtain ⟨g, cs, s, h, hv⟩ := program_found forkRows_sat
  obtain ⟨solver, hs, hf⟩ := exists_complete
  have := (c105_mix (by decide) (by decide) (by decide) (by decide) (by decide) (by intro l h; cases h; decide) h hs hf).2 0
  unfold freeRun at this ⊢
  rw [h] at this ⊢
  obtain ⟨l, _, hl, _⟩ := program_nonempty hs hv this
  exact ⟨solver, hs, hf, l, hl⟩

/-- `interchange` for two belts. -/
example : ∃ solver, CorrectSolver solver ∧ CompleteSolver solver ∧
    ∃ l, interchangeRun naiveLib 2 2 1 { alternating := true, rotSymmetry := true } solver false 0 = ⟨textOf [l], .finished⟩ := by
  obtain ⟨g, cs, s, h, hv⟩ := interchangeCnf_sat exPair_sat
  obtain ⟨solver, hs, hf⟩ := exists_complete
  have := (c105_interchange naiveLib_correct h hs hf).2 0
  unfold interchangeRun at this ⊢
  rw [h] at this ⊢
  obtain ⟨l, _, hl, _⟩ := program_nonempty hs hv this
  exact ⟨solver, hs, hf, l, hl⟩

/-- Two answers, the second without the last variable: one line, then the error. -/
example : ∃ l, printLoop (solutionText 1 1 none .nil 0) true [beltAnswer, beltAnswer.dropLast] = ⟨textOf [l], .raised .keyError⟩ := by
  obtain ⟨l, h1, h2⟩ : ∃ l, solutionText 1 1 none .nil 0 beltAnswer = .ok l ∧
      solutionText 1 1 none .nil 0 beltAnswer.dropLast = .error .keyError := ⟨_, beltAnswer_text⟩
  exact ⟨l, by simp only [printLoop, h1, h2, if_true, textOf_cons]; rfl⟩

/-- The hypotheses of `c105_power` are met for sixteen belts. -/
example : ∃ g cs s solver, powerProgram naiveLib 12 (2 ^ 4) none none = .ok (g, cs, s) ∧ CorrectSolver solver ∧ CompleteSolver solver := by
  obtain ⟨g, cs, s, h⟩ := c31_main_builds (lib := naiveLib) (fun ls n s hn _ => naiveLib_total ls n s hn) (width := 12) (e := 4)
    (ugLen := none) (by decide) (by decide) (by intro l h; cases h)
  obtain ⟨solver, hs, hf⟩ := exists_complete
  refine ⟨g, cs, s, solver, ?_, hs, hf⟩
  unfold powerProgram
  rw [h]
  rfl

end FSat
