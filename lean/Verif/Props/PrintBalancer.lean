import Verif.Props.PrintSolution
import Verif.Props.FreePrograms
/-!
# C105: what `belt_balancer` prints
-/

namespace FSat

/-! ### The variables of the tiles occur in the clauses -/

theorem Gen.all_mem {fs : List Gen} {f : Gen} (hf : f ∈ fs) {s : Nat} {r : Cnf × Nat} (h : Gen.all fs s = .ok r) :
    ∃ s1 c s2, f s1 = .ok (c, s2) ∧ ∀ x ∈ c, x ∈ r.1 := by
  induction fs generalizing s r with
  | nil => cases hf
  | cons f' fs ih =>
    obtain ⟨c, s1, c', h1, h2, h3⟩ := Gen.all_cons h
    rcases List.mem_cons.1 hf with rfl | hf
    · exact ⟨_, _, _, h1, fun x hx => by rw [h3]; exact List.mem_append_left _ hx⟩
    · obtain ⟨s2, c2, s3, h4, h5⟩ := ih hf h2
      exact ⟨_, _, _, h4, fun x hx => by rw [h3]; exact List.mem_append_right _ (h5 x hx)⟩

theorem freshLits_last (s n : Nat) (h : 0 < n) : (freshLits s n).getLast? = some ⟨s + n, true⟩ := by
  obtain ⟨n, rfl⟩ : ∃ k, n = k + 1 := ⟨n - 1, by omega⟩
  rw [freshLits_add]
  simp [freshLits, Nat.add_assoc]

theorem node_last {width height k n : Nat} (hw : 0 < width) (hh : 0 < height) (hn : 0 < n) :
    (⟨height * width * (gridFields (some k) (nodeFields n)).variableCount, true⟩ : Lit) ∈ nodeLits width k n (width - 1, height - 1) := by
  obtain ⟨s', h1, h2⟩ : ∃ s', nodeLits width k n (width - 1, height - 1) = (nextMany n s').1 ∧
      ((gridFields (some k) (nodeFields n)).instantiate
        (0 + ((height - 1) * width + (width - 1)) * (gridFields (some k) (nodeFields n)).variableCount)).2 = (nextMany n s').2 :=
    ⟨_, rfl, rfl⟩
  have e : 0 + ((height - 1) * width + (width - 1)) * (gridFields (some k) (nodeFields n)).variableCount +
      (gridFields (some k) (nodeFields n)).variableCount = height * width * (gridFields (some k) (nodeFields n)).variableCount := by
    have e1 : (height - 1) * width + (width - 1) + 1 = height * width := by
      obtain ⟨h, rfl⟩ : ∃ h, height = h + 1 := ⟨height - 1, by omega⟩
      rw [Nat.add_sub_cancel, Nat.succ_mul]
      omega
    rw [Nat.zero_add, ← Nat.succ_mul, Nat.succ_eq_add_one, e1]
  rw [(TFields.instantiate_spec _ _).1, e, nextMany_eq] at h2
  rw [h1, nextMany_eq, h2]
  exact List.mem_of_getLast? (freshLits_last s' n hn)

theorem balancerMain_last {lib : CardLib} {net : PyDict Node Nat} {width height : Nat} {ugLen : Option Nat}
    {o : BalancerOptions} {g : Grid} {node : Nat × Nat → List Lit} {cs : Cnf} {s : Nat}
    (h : balancerMain lib net width height ugLen o = .ok (g, node, cs, s)) :
    ∃ k, g = mkGrid width height ⟨false, false⟩ (some k) ugLen (nodeFields net.length) 0 ∧
      ∃ c ∈ cs, (⟨height * width * (gridFields (some k) (nodeFields net.length)).variableCount, true⟩ : Lit) ∈ c := by
  unfold balancerMain at h
  split at h
  · split at h
    · cases h
    · rename_i g' node' cs0 s0 e0
      split at h
      · cases h
      · simp only [Except.ok.injEq, Prod.mk.injEq] at h
        obtain ⟨rfl, rfl, rfl, _⟩ := h
        unfold createBalancer at e0
        split at e0
        · rename_i hwh
          split at e0
          · cases e0
          · rename_i k hk
            have hn : 0 < net.length := by
              rcases net with _ | ⟨e, net⟩
              · simp [netColours] at hk
              · simp
            split at e0
            · cases e0
            · simp only at e0
              split at e0
              · cases e0
              · rename_i cs1 s1 e1
                simp only [Except.ok.injEq, Prod.mk.injEq] at e0
                obtain ⟨rfl, rfl, rfl, _⟩ := e0
                refine ⟨_, rfl, -(Grid.at' (mkGrid width height ⟨false, false⟩ (some (k + 1).toNat) ugLen (nodeFields net.length) 0)
                  (width - 1, height - 1)).isHead :: nodeLits width (k + 1).toNat net.length (width - 1, height - 1), ?_,
                  List.mem_cons_of_mem _ (node_last hwh.1 hwh.2 hn)⟩
                refine List.mem_append_left _ ?_
                obtain ⟨s2, c, s3, h1, h2⟩ := Gen.all_mem (List.mem_cons_of_mem _ (List.mem_cons_of_mem _ (List.mem_cons_self ..))) e1
                refine h2 _ ?_
                cases e : getInputOutputColours (elements net) with
                | error e' => simp only [balancerClauses, e] at h1; cases h1
                | ok r =>
                  obtain ⟨⟨_, _⟩, _, _⟩ := r
                  simp only [balancerClauses, e] at h1
                  obtain ⟨s4, c4, s5, h3, h4⟩ := Gen.all_mem (List.mem_append_right _ (List.mem_cons_self ..)) h1
                  refine h4 _ ?_
                  obtain ⟨rfl, _⟩ := Prod.mk.injEq .. ▸ Except.ok.inj h3
                  refine List.mem_flatMap.2 ⟨(width - 1, height - 1), (Grid.mem_cells _ _).2 ⟨?_, ?_⟩, ?_⟩
                  · exact Nat.sub_lt hwh.1 (by omega)
                  · exact Nat.sub_lt hwh.2 (by omega)
                  · exact List.mem_append_right _ (List.mem_singleton_self _)
        · cases e0
  · cases h

/-- All variables of the tiles are in an answer that has every variable up to the largest of the clauses. -/
theorem FillsIn.tiles {cs : Cnf} {m : List Lit} (h : FillsIn cs m) {N : Nat} (hN : ∃ c ∈ cs, (⟨N, true⟩ : Lit) ∈ c) (x : Nat) (h0 : 0 < x)
    (hx : x ≤ N) : ∃ l ∈ m, l.var = x := by
  obtain ⟨c, hc, hl⟩ := hN
  exact h c hc _ hl x h0 hx

theorem FillsIn.mono {cs cs' : Cnf} {m : List Lit} (h : FillsIn cs' m) (hs : ∀ c ∈ cs, c ∈ cs') : FillsIn cs m :=
  fun c hc => h c (hs c hc)

theorem iter_fills {solver : Oracle} {imp : List Nat} (hs : CompleteSolver solver) (fuel : Nat) : ∀ (n : Nat) (cs : Cnf) (m : List Lit),
    m ∈ (itersolveFrom solver imp fuel n cs).1 → FillsIn cs m := by
  induction fuel with
  | zero => intro n cs m h; simp [itersolveFrom] at h
  | succ fuel ih =>
    intro n cs m h
    unfold itersolveFrom at h
    cases hq : solver n cs with
    | none => rw [hq] at h; simp at h
    | some m' =>
      rw [hq] at h
      simp only [List.mem_cons] at h
      rcases h with rfl | h
      · exact hs n cs m hq
      · exact (ih _ _ m h).mono fun c hc => List.mem_append_left _ hc

/-! ### The loop -/

theorem printLoop_all {text : List Lit → Except PyErr (List Char)} {ms : List (List Lit)} {ls : List (List Char)}
    (h : List.Forall₂ (fun m l => text m = .ok l) ms ls) : printLoop text true ms = ⟨textOf ls, .finished⟩ := by
  induction h with
  | nil => rfl
  | cons h _ ih =>
    unfold printLoop
    rw [h]
    simp only [if_true]
    rw [ih, textOf_cons]

theorem nodeFields_good (k n : Nat) : GoodExtras (some k) (nodeFields n) := by
  refine ⟨by simp [nodeFields, TFields.Proper, Tmpl.Proper], by simp [nodeFields, TFields.Named, Tmpl.Named], ?_⟩
  simp only [gridFields, nodeFields, TFields.names]
  decide

theorem PrintedLine.line {l : List Char} {a : Arr Tile} (h : PrintedLine l a) : '\n' ∉ l := by
  obtain ⟨_, _, _, rfl, _⟩ := h
  exact Json.dumps_line _

theorem iter_more {solver : Oracle} {imp : List Nat} (fuel : Nat) : ∀ (fuel' n : Nat) (cs : Cnf), fuel ≤ fuel' →
    (itersolveFrom solver imp fuel n cs).2 = true → itersolveFrom solver imp fuel' n cs = itersolveFrom solver imp fuel n cs := by
  induction fuel with
  | zero => intro fuel' n cs _ h; cases h
  | succ fuel ih =>
    intro fuel' n cs hle h
    obtain ⟨fuel', rfl⟩ : ∃ k, fuel' = k + 1 := ⟨fuel' - 1, by omega⟩
    unfold itersolveFrom at h ⊢
    cases hq : solver n cs with
    | none => rfl
    | some m =>
      rw [hq] at h
      simp only at h ⊢
      rw [ih fuel' _ _ (by omega) h]

theorem layoutArr_congr {g : Grid} {v : Asg} {T T' : Nat × Nat → Tile} (h : Decodes g v T) (h' : Decodes g v T') :
    layoutArr g T = layoutArr g T' := by
  unfold layoutArr
  congr 1
  funext y x
  have h1 := h (x.val, y.val) ⟨x.isLt, y.isLt⟩
  rw [h' (x.val, y.val) ⟨x.isLt, y.isLt⟩] at h1
  exact (Except.ok.inj h1).symm

/-- What the loop prints for answers each of which is printed. -/
theorem lines_of {g : Grid} {text : List Lit → Except PyErr (List Char)} {P : (Nat × Nat → Tile) → Prop} {ms : List (List Lit)}
    (h : ∀ m ∈ ms, ∃ l T, text m = .ok l ∧ Decodes g (asgOf m) T ∧ P T ∧ PrintedLine l (layoutArr g T)) :
    ∃ (ls : List (List Char)) (Ts : List (Nat × Nat → Tile)), List.Forall₂ (fun m l => text m = .ok l) ms ls ∧
      List.Forall₂ PrintedLine ls (Ts.map (layoutArr g)) ∧ (∀ T ∈ Ts, P T) ∧
      ∀ m ∈ ms, ∀ T, Decodes g (asgOf m) T → layoutArr g T ∈ Ts.map (layoutArr g) := by
  induction ms with
  | nil => exact ⟨[], [], .nil, .nil, by simp, by simp⟩
  | cons m ms ih =>
    obtain ⟨ls, Ts, h1, h2, h3, h4⟩ := ih fun m hm => h m (by simp [hm])
    obtain ⟨l, T, k1, k2, k3, k4⟩ := h m (by simp)
    refine ⟨l :: ls, T :: Ts, .cons k1 h1, .cons k4 h2, ?_, ?_⟩
    · intro T' hT'
      rcases List.mem_cons.1 hT' with rfl | hT'
      · exact k3
      · exact h3 T' hT'
    · intro m' hm' T' hT'
      rcases List.mem_cons.1 hm' with rfl | hm'
      · rw [layoutArr_congr hT' k2]
        simp
      · simpa using Or.inr (by simpa using h4 m' hm' T' hT')

theorem printed_lines {ls : List (List Char)} {as : List (Arr Tile)} (h : List.Forall₂ PrintedLine ls as) : ∀ l ∈ ls, '\n' ∉ l := by
  induction h with
  | nil => simp
  | cons h _ ih =>
    intro l hl
    rcases List.mem_cons.1 hl with rfl | hl
    · exact h.line
    · exact ih l hl

/-- Each answer of the solver is printed. -/
theorem balancer_prints {lib : CardLib} (hl : lib.Correct) {net : PyDict Node Nat} (hpos : ∀ c ∈ netColours net, 0 ≤ c)
    {width height : Nat} {ugLen : Option Nat} {o : BalancerOptions} {g : Grid} {node : Nat × Nat → List Lit} {cs : Cnf} {s : Nat}
    (hc : balancerMain lib net width height ugLen o = .ok (g, node, cs, s)) {m : List Lit} (hm : IsModel cs m) (hf : FillsIn cs m) :
    ∃ l T, solutionText width height g.colours (nodeFields net.length) 0 m = .ok l ∧ Decodes g (asgOf m) T ∧
      PrintedLine l (layoutArr g T) := by
  obtain ⟨k', hg', hlast⟩ := balancerMain_last hc
  obtain ⟨P, _⟩ := balancerMain_parts hc
  obtain ⟨k, _, _, _, _, hk, hg, hw, hh, _⟩ := createBalancer_enc hl hpos P.hbase
  have hkk : k' = k := by
    have := congrArg Grid.colours (hg'.symm.trans hg)
    exact Option.some.inj this
  subst hkk
  have hwf := mkGrid_wf (width := width) (height := height) (by omega) (by omega) ⟨false, false⟩ (some k') ugLen
    (by rintro n ⟨⟩; exact hk) (nodeFields net.length) 0
  rw [← hg] at hwf
  obtain ⟨ci, extra, hci, rfl⟩ := balancerMain_first hc
  obtain ⟨T, hT⟩ := c15_layout hwf hci (asgOf m) ((Sat_append _ _ _).1 hm.asg).1
  have hv : ∀ l ∈ m, ev (asgOf m) l = true := fun l hl => asgOf_mem hm.nodup hl
  have hgood := nodeFields_good k' net.length
  subst hg
  obtain ⟨l, hl'⟩ := c105_prints hgood.1 ⟨false, false⟩ ugLen hv (s := 0)
    (fun x h0 hx => hf.tiles hlast x h0 (by omega)) hT
  exact ⟨l, T, hl', hT, c105_printed hw hh hgood ⟨false, false⟩ ugLen hv hT hl'⟩

/-- C105: `belt_balancer --all` with a correct solver that answers for all variables prints one line for each answer, and nothing goes
wrong.  Each line is a line that the commands take for a layout of C79 (without `--break-symmetry`), and each of these layouts is
printed. -/
theorem c105_balancer_all {lib : CardLib} (hl : lib.Correct) {net : PyDict Node Nat} (hv : net.Valid) (hpos : ∀ c ∈ netColours net, 0 ≤ c)
    (hcnt : ∀ e ∈ net, 0 < e.2) {width height : Nat} (hw : 2 ≤ width) (hh : 2 ≤ height) {ugLen : Option Nat} {o : BalancerOptions} {g : Grid}
    {node : Nat × Nat → List Lit} {cs : Cnf} {s : Nat} (hc : balancerMain lib net width height ugLen o = .ok (g, node, cs, s))
    (hsym : o.breakSymmetry = false) {solver : Oracle} (hs : CorrectSolver solver) (hf : CompleteSolver solver) :
    let Wanted := BalancerLayout g.nb g.In g.cells (g.shut (.ofBool true)) width height ugLen (elements net) o
    ∃ enough, ∀ fuel, enough ≤ fuel → ∃ (ls : List (List Char)) (Ts : List (Nat × Nat → Tile)), balancerRun lib net width height ugLen o solver true fuel = ⟨textOf ls, .finished⟩ ∧
      IsInput (textOf ls) ls ∧ List.Forall₂ PrintedLine ls (Ts.map (layoutArr g)) ∧ (∀ T ∈ Ts, Wanted T) ∧
      ∀ T, Wanted T → layoutArr g T ∈ Ts.map (layoutArr g) := by
  intro Wanted
  obtain ⟨hgw, hgh, _, ⟨fuel0, hend⟩, hall⟩ := c92_balancer hl hv hpos hcnt hw hh hc hsym hs
  refine ⟨fuel0, fun fuel hle => ?_⟩
  have hend' : (itersolve solver ((importantLits g true).map Lit.var) fuel cs).2 = true := by
    unfold itersolve at hend ⊢
    rw [iter_more _ _ _ _ hle hend]
    exact hend
  obtain ⟨h1, h2⟩ := hall fuel hend'
  obtain ⟨ls, Ts, k1, k2, k3, k4⟩ := lines_of (g := g) (text := solutionText width height g.colours (nodeFields net.length) 0) (P := Wanted)
    (ms := (itersolve solver ((importantLits g true).map Lit.var) fuel cs).1) (by
      intro m hm
      obtain ⟨l, T, e1, e2, e3⟩ := balancer_prints hl hpos hc (iter_mem hs fuel 0 cs m hm) (iter_fills hf fuel 0 cs m hm)
      obtain ⟨T', e4, e5⟩ := h1 m hm
      refine ⟨l, T', e1, e4, e5, ?_⟩
      rw [layoutArr_congr e4 e2]
      exact e3)
  refine ⟨ls, Ts, ?_, isInput_textOf (printed_lines k2), k2, k3, fun T hT => ?_⟩
  · unfold balancerRun
    rw [hc]
    simp only [if_true]
    exact printLoop_all k1
  · obtain ⟨m, hm, hd⟩ := h2 T hT
    exact k4 m hm T hd

/-- C105: `belt_balancer` without `--all` prints nothing when there is no layout of C79, and one line, for such a layout, when there is
one. -/
theorem c105_balancer_first {lib : CardLib} (hl : lib.Correct) {net : PyDict Node Nat} (hv : net.Valid) (hpos : ∀ c ∈ netColours net, 0 ≤ c)
    (hcnt : ∀ e ∈ net, 0 < e.2) {width height : Nat} (hw : 2 ≤ width) (hh : 2 ≤ height) {ugLen : Option Nat} {o : BalancerOptions} {g : Grid}
    {node : Nat × Nat → List Lit} {cs : Cnf} {s : Nat} (hc : balancerMain lib net width height ugLen o = .ok (g, node, cs, s))
    (hsym : o.breakSymmetry = false) {solver : Oracle} (hs : CorrectSolver solver) (hf : CompleteSolver solver) (fuel : Nat) :
    let Wanted := BalancerLayout g.nb g.In g.cells (g.shut (.ofBool true)) width height ugLen (elements net) o
    (balancerRun lib net width height ugLen o solver false fuel = ⟨[], .finished⟩ ∧ ¬ ∃ T, Wanted T) ∨
    ∃ l T, balancerRun lib net width height ugLen o solver false fuel = ⟨textOf [l], .finished⟩ ∧ IsInput (textOf [l]) [l] ∧
      PrintedLine l (layoutArr g T) ∧ Wanted T := by
  intro Wanted
  have hex := c79_exact hl hv hpos hcnt hw hh hc hsym
  unfold balancerRun
  rw [hc]
  simp only [Bool.false_eq_true, if_false]
  unfold itersolve itersolveFrom
  cases hq : solver 0 cs with
  | none =>
    refine Or.inl ⟨rfl, ?_⟩
    rintro ⟨T, hT⟩
    obtain ⟨v, h1, _⟩ := (hex T).2 hT
    exact hs.unsat 0 cs hq ⟨v, h1⟩
  | some m =>
    obtain ⟨l, T, e1, e2, e3⟩ := balancer_prints hl hpos hc (hs.model 0 cs m hq) (hf 0 cs m hq)
    refine Or.inr ⟨l, T, ?_, isInput_textOf (by simpa using e3.line), e3, (hex T).1 ⟨_, (hs.model 0 cs m hq).asg, e2⟩⟩
    simp [printLoop, e1, textOf]

end FSat
