import Verif.Props.PrintBalancer
import Verif.Props.Pasted
/-!
# C106: `belt_balancer | blueprint encode`
-/

namespace FSat

/-- There is a correct solver that answers for every variable. -/
theorem exists_complete : ∃ solver : Oracle, CorrectSolver solver ∧ CompleteSolver solver := by
  classical
  have hle : ∀ (cs : Cnf), ∀ c ∈ cs, ∀ l ∈ c, l.var < ((cs.flatten.map Lit.var).foldr max 0) + 1 := by
    intro cs c hc l hl
    have : l ∈ cs.flatten := List.mem_flatten.2 ⟨c, hc, hl⟩
    generalize cs.flatten = ls at this
    induction ls with
    | nil => cases this
    | cons a ls ih =>
      simp only [List.map_cons, List.foldr_cons]
      rcases List.mem_cons.1 this with rfl | h
      · omega
      · have := ih h
        omega
  refine ⟨fun _ cs => if h : ∃ v, Sat v cs then
    some ((List.range ((cs.flatten.map Lit.var).foldr max 0 + 1)).map fun x => ⟨x, h.choose x⟩) else none, ⟨?_, ?_⟩, ?_⟩
  · intro n cs m h
    split at h
    · rename_i hv
      cases h
      refine ⟨?_, fun c hc l hl => ?_, fun v hv' => ?_⟩
      · rw [List.map_map]
        simpa [Function.comp_def] using List.nodup_range
      · exact ⟨⟨l.var, hv.choose l.var⟩, List.mem_map.2 ⟨l.var, List.mem_range.2 (hle cs c hc l hl), rfl⟩, rfl⟩
      · intro c hc
        obtain ⟨l, hl, he⟩ := hv.choose_spec c hc
        refine ⟨l, hl, ?_⟩
        have := hv' ⟨l.var, hv.choose l.var⟩ (List.mem_map.2 ⟨l.var, List.mem_range.2 (hle cs c hc l hl), rfl⟩)
        simp only [ev, beq_iff_eq] at this he ⊢
        rw [this, he]
    · cases h
  · intro n cs h
    split at h
    · cases h
    · assumption
  · intro n cs m h
    dsimp only at h
    split at h
    · rename_i hv
      cases h
      intro c hc l hl x _ hx
      exact ⟨⟨x, hv.choose x⟩, List.mem_map.2 ⟨x, List.mem_range.2 (lt_of_le_of_lt hx (hle cs c hc l hl)), rfl⟩, rfl⟩
    · cases h

theorem elements_ne {net : PyDict Node Nat} (hne : net ≠ []) (hcnt : ∀ e ∈ net, 0 < e.2) : ∃ k, k ∈ elements net := by
  rcases net with _ | ⟨⟨k, n⟩, net⟩
  · exact absurd rfl hne
  · have := hcnt (k, n) (by simp)
    exact ⟨k, List.mem_flatMap.2 ⟨(k, n), by simp, by simp at this ⊢; omega⟩⟩

/-- A printed layout has a splitter. -/
theorem printed_nonempty {lib : CardLib} (hl : lib.Correct) {net : PyDict Node Nat} (hv : net.Valid) (hpos : ∀ c ∈ netColours net, 0 ≤ c)
    (hcnt : ∀ e ∈ net, 0 < e.2) {width height : Nat} {ugLen : Option Nat} {o : BalancerOptions} {g : Grid}
    {node : Nat × Nat → List Lit} {cs : Cnf} {s : Nat} (hc : balancerMain lib net width height ugLen o = .ok (g, node, cs, s)) {v : Asg}
    (hs : Sat v cs) {T : Nat × Nat → Tile} (hT : Decodes g v T) : ∃ p, g.In p ∧ T p ≠ .empty := by
  obtain ⟨P, hP⟩ := balancerMain_parts hc
  obtain ⟨T', lab, hT', hR⟩ := c27_realises_partial hl hv hpos P.hbase v ((hP v).1 hs).1
  obtain ⟨_, _, _, _, _, _, _, _, _, hne, _⟩ := createBalancer_enc hl hpos P.hbase
  obtain ⟨k, hk⟩ := elements_ne hne hcnt
  have h1 : 0 < g.cells.countP fun p => lab p = some k := by
    rw [hR.used k]
    exact List.count_pos_iff.2 hk
  obtain ⟨p, hp, hlab⟩ := List.countP_pos_iff.1 h1
  obtain ⟨d, hd⟩ := (hR.heads p hp).1 ⟨k, by simpa using hlab⟩
  have hin := (Grid.mem_cells g p).1 hp
  refine ⟨p, hin, fun he => ?_⟩
  have := hT p hin
  rw [hT' p hin, he, hd] at this
  cases this

/-- C106, partial: `belt_balancer | blueprint encode` prints nothing if there is no balancer, and otherwise one string.  Pasted, it is a
balancer: whatever is supplied at the inputs, all belts leaving the area carry the same, provided that no splitter stands directly in
front of another.  Without this condition it is false (`c77_adjacent_refuted`). -/
theorem c106_pasted_partial {lib : CardLib} (hl : lib.Correct) {net : PyDict Node Nat} (hv : net.Valid) (hpos : ∀ c ∈ netColours net, 0 ≤ c)
    (hcnt : ∀ e ∈ net, 0 < e.2) {width height : Nat} (hw : 2 ≤ width) (hh : 2 ≤ height) {ugLen : Option Nat} {o : BalancerOptions} {g : Grid}
    {node : Nat × Nat → List Lit} {cs : Cnf} {s : Nat} (hc : balancerMain lib net width height ugLen o = .ok (g, node, cs, s))
    {solver : Oracle} (hs : CorrectSolver solver) (hf : CompleteSolver solver) (fuel : Nat) {a i b j : Int}
    (hE : Ends (elements net) a i b j) (hbal : IsBalancer (elements net) a b) (c : Codec) (label : Option (List Char)) (level : BeltLevel) :
    let printed := balancerRun lib net width height ugLen o solver false fuel
    printed.ending = .finished ∧
    ((printed.out = [] ∧ (¬ ∃ v, Sat v cs) ∧ blueprintEncode c label level printed.out = ⟨[], .endOfInput⟩) ∨
    ∃ v T text B, Sat v cs ∧ Decodes g v T ∧ blueprintEncode c label level printed.out = ⟨textOf [text], .endOfInput⟩ ∧
      PastedAs c text B ∧ ((∀ p q d, g.In p → Connected g.nb T p q d → ¬ ((T p).IsSplitter ∧ (T q).IsSplitter)) → ∀ F : Int × Int → ℚ,
        Carries (layoutArr g T).In (layoutArr g T).nb B (Connected (layoutArr g T).nb B) (g.inputAt v) F →
          ∀ p q, (layoutArr g T).In p → (layoutArr g T).In q → LeavesAt (layoutArr g T).nb B p → LeavesAt (layoutArr g T).nb B q →
            F p = F q)) := by
  intro printed
  have hprinted : printed = balancerRun lib net width height ugLen o solver false fuel := rfl
  unfold balancerRun itersolve itersolveFrom at hprinted
  rw [hc] at hprinted
  simp only [Bool.false_eq_true, if_false] at hprinted
  cases hq : solver 0 cs with
  | none =>
    rw [hq] at hprinted
    simp only [printLoop] at hprinted
    rw [hprinted]
    exact ⟨rfl, Or.inl ⟨rfl, hs.unsat 0 cs hq, rfl⟩⟩
  | some m =>
    obtain ⟨l, T, e1, hT, e3⟩ := balancer_prints hl hpos hc (hs.model 0 cs m hq) (hf 0 cs m hq)
    rw [hq] at hprinted
    simp only [printLoop, e1, Bool.false_eq_true, if_false] at hprinted
    have hprinted : printed = ⟨textOf [l], .finished⟩ := hprinted.trans (by simp [textOf])
    have hsat := (hs.model 0 cs m hq).asg
    rw [hprinted]
    refine ⟨rfl, Or.inr ⟨asgOf m, T, ?_⟩⟩
    obtain ⟨text, B, h1, h2, _, _, h5, h6⟩ := c103_pasted hl hpos hw hh hc _ hsat T hT (printed_nonempty hl hv hpos hcnt hc hsat hT) c label level
      (c96_printed e3)
    refine ⟨text, B, hsat, hT, ?_, h2, fun hapart F hF p q hp hqq hlp hlq => ?_⟩
    · unfold blueprintEncode
      rw [inputLines_of (isInput_textOf (by simpa using e3.line))]
      simp [lineLoop, h1, textOf]
    · obtain ⟨P, hP⟩ := balancerMain_parts hc
      have hH := (hP (asgOf m)).1 hsat
      obtain ⟨p, hp', rfl⟩ := (inArea T p).1 hp
      obtain ⟨q, hq', rfl⟩ := (inArea T q).1 hqq
      exact c77_balances_partial hl hv hpos P.hbase hw hh _ hH.1 hH.2.1 T hT _ _ _ _ hE hbal hapart _ ((h6 F).1 hF) p q hp' hq'
        ((h5 p hp').1 hlp) ((h5 q hq').1 hlq)

/-! ### Cases -/

/-- The hypotheses are met for one splitter on three columns, and there something is printed, with `--all` and without. -/
example : ∃ g node cs s solver, exOne.Valid ∧ (∀ c ∈ netColours exOne, 0 ≤ c) ∧ (∀ e ∈ exOne, 0 < e.2) ∧
    balancerMain naiveLib exOne 3 2 (some 4) {} = .ok (g, node, cs, s) ∧ CorrectSolver solver ∧ CompleteSolver solver ∧
    Ends (elements exOne) 0 2 1 2 ∧ IsBalancer (elements exOne) 0 1 ∧
    (∀ fuel, ∃ l, balancerRun naiveLib exOne 3 2 (some 4) {} solver false fuel = ⟨textOf [l], .finished⟩) ∧
    ∃ fuel ls, ls ≠ [] ∧ balancerRun naiveLib exOne 3 2 (some 4) {} solver true fuel = ⟨textOf ls, .finished⟩ := by
  obtain ⟨_, _, _, h1, h2, _, _, _, h3, h4, h5, h6, h7⟩ := exShare_case
  obtain ⟨g, node, cs, s', h8, h9⟩ := balancerCnf_ok exShareMain_sat
  obtain ⟨solver, hs, hf⟩ := exists_complete
  have hcnt : ∀ e ∈ exOne, 0 < e.2 := by decide
  obtain ⟨T, hT, hL⟩ := c79_sound naiveLib_correct h1 h2 hcnt (by decide) (by decide) h8 _ h9
  refine ⟨g, node, cs, s', solver, h1, h2, hcnt, h8, hs, hf, h4, h5, fun fuel => ?_, ?_⟩
  · rcases c105_balancer_first naiveLib_correct h1 h2 hcnt (by decide) (by decide) h8 rfl hs hf fuel with ⟨_, hn⟩ | ⟨l, _, hl, _⟩
    · exact absurd ⟨T, hL⟩ hn
    · exact ⟨l, hl⟩
  · obtain ⟨fuel, hfuel⟩ := c105_balancer_all naiveLib_correct h1 h2 hcnt (by decide) (by decide) h8 rfl hs hf
    obtain ⟨ls, Ts, k1, _, k3, _, k5⟩ := hfuel fuel (le_refl _)
    refine ⟨fuel, ls, ?_, k1⟩
    rintro rfl
    have h := k5 T hL
    rw [List.forall₂_nil_left_iff.1 k3] at h
    cases h

/-- A grid of one cell without colours, all of whose variables are false but those of a belt to the right. -/
def beltAnswer : List Lit := (List.range 20).map fun x => ⟨x + 1, x = 0 ∨ x = 8 ∨ x = 12⟩

/-- What is printed for it; with the last variable missing there is a `KeyError`. -/
theorem beltAnswer_text : solutionText 1 1 none .nil 0 beltAnswer = .ok ("[[{\"is_belt\": true, \"is_empty\": false, \"is_splitter\": false, " ++
      "\"is_underground_in\": false, \"is_underground_out\": false, \"is_splitter_head\": false, \"is_input\": false, \"is_output\": false, " ++
      "\"input_direction\": 0, \"output_direction\": 0, \"underground\": [false, false, false, false], " ++
      "\"tile\": {\"type\": \"belt\", \"input_direction\": 0, \"output_direction\": 0}}]]").toList ∧
    solutionText 1 1 none .nil 0 beltAnswer.dropLast = .error .keyError := by
  constructor <;> decide +kernel

end FSat
