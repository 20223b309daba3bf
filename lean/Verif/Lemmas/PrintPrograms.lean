import Verif.Spec.PrintPrograms
import Verif.Model.PrintPrograms
import Verif.Props.PrintBalancer
import Verif.Props.InterchangeMain
/-!
# Printing in the other programs
-/

namespace FSat

theorem layoutArr_inj {g : Grid} {T T' : Nat × Nat → Tile} (h : layoutArr g T = layoutArr g T') {p : Nat × Nat} (hp : g.In p) :
    T p = T' p := by
  unfold layoutArr at h
  simp only [Arr.mk.injEq, heq_eq_eq, true_and] at h
  exact congrFun (congrFun h ⟨p.2, hp.2⟩) ⟨p.1, hp.1⟩

/-- Answers with different layouts give different layouts. -/
theorem layouts_nodup {g : Grid} {ms : List (List Lit)} {Ts : List (Nat × Nat → Tile)}
    (h : List.Forall₂ (fun m T => Decodes g (asgOf m) T) ms Ts)
    (hd : ms.Pairwise fun m m' => ¬ ∃ T, Decodes g (asgOf m) T ∧ Decodes g (asgOf m') T) : (Ts.map (layoutArr g)).Nodup := by
  induction h with
  | nil => simp
  | @cons m T ms Ts h hr ih =>
    rw [List.pairwise_cons] at hd
    rw [List.map_cons, List.nodup_cons]
    refine ⟨fun hmem => ?_, ih hd.2⟩
    obtain ⟨T', hT', e⟩ := List.mem_map.1 hmem
    have : ∃ m' ∈ ms, Decodes g (asgOf m') T' := by
      clear ih hd hmem
      induction hr with
      | nil => cases hT'
      | cons h' _ ih =>
        rcases List.mem_cons.1 hT' with rfl | hT'
        · exact ⟨_, List.mem_cons_self .., h'⟩
        · obtain ⟨m', h1, h2⟩ := ih hT'
          exact ⟨m', List.mem_cons_of_mem _ h1, h2⟩
    obtain ⟨m', hm', hT''⟩ := this
    refine hd.1 m' hm' ⟨T, h, fun p hp => ?_⟩
    rw [hT'' p hp, layoutArr_inj e hp]

theorem lines_with {g : Grid} {text : List Lit → Except PyErr (List Char)} {P : (Nat × Nat → Tile) → Prop} {ms : List (List Lit)}
    (h : ∀ m ∈ ms, ∃ l T, text m = .ok l ∧ Decodes g (asgOf m) T ∧ P T ∧ PrintedLine l (layoutArr g T)) :
    ∃ (ls : List (List Char)) (Ts : List (Nat × Nat → Tile)), List.Forall₂ (fun m l => text m = .ok l) ms ls ∧
      List.Forall₂ PrintedLine ls (Ts.map (layoutArr g)) ∧ (∀ T ∈ Ts, P T) ∧
      List.Forall₂ (fun m T => Decodes g (asgOf m) T) ms Ts := by
  induction ms with
  | nil => exact ⟨[], [], .nil, .nil, by simp, .nil⟩
  | cons m ms ih =>
    obtain ⟨ls, Ts, h1, h2, h3, h4⟩ := ih fun m hm => h m (by simp [hm])
    obtain ⟨l, T, k1, k2, k3, k4⟩ := h m (by simp)
    refine ⟨l :: ls, T :: Ts, .cons k1 h1, .cons k4 h2, ?_, .cons k2 h4⟩
    intro T' hT'
    rcases List.mem_cons.1 hT' with rfl | hT'
    · exact k3
    · exact h3 T' hT'

theorem decodes_listed {g : Grid} {ms : List (List Lit)} {Ts : List (Nat × Nat → Tile)}
    (h : List.Forall₂ (fun m T => Decodes g (asgOf m) T) ms Ts) {m : List Lit} (hm : m ∈ ms) {T : Nat × Nat → Tile}
    (hT : Decodes g (asgOf m) T) : layoutArr g T ∈ Ts.map (layoutArr g) := by
  induction h with
  | nil => cases hm
  | cons h _ ih =>
    rcases List.mem_cons.1 hm with rfl | hm
    · rw [layoutArr_congr hT h]
      simp
    · exact List.mem_cons_of_mem _ (ih hm)

section
variable {width height : Nat} {colours ugLen : Option Nat} {extras : TFields} {g : Grid} {cs : Cnf} {s : Nat} {solver : Oracle}
  {Wanted : (Nat × Nat → Tile) → Prop}

/-- An answer for all variables is printed. -/
theorem answer_prints (hgd : g = mkGrid width height ⟨false, false⟩ colours ugLen extras 0) (hw : 0 < width) (hh : 0 < height)
    (hx : GoodExtras colours extras)
    (hlast : (∃ v, Sat v cs) → ∃ c ∈ cs, ∃ l ∈ c, height * width * (gridFields colours extras).variableCount ≤ l.var)
    {m : List Lit} (hm : IsModel cs m) (hf : FillsIn cs m) {T : Nat × Nat → Tile} (hT : Decodes g (asgOf m) T) :
    ∃ l, solutionText width height g.colours extras 0 m = .ok l ∧ PrintedLine l (layoutArr g T) := by
  have hv : ∀ l ∈ m, ev (asgOf m) l = true := fun l hl => asgOf_mem hm.nodup hl
  obtain ⟨c, hc, l0, hl0, hle⟩ := hlast ⟨_, hm.asg⟩
  subst hgd
  obtain ⟨l, hl⟩ := c105_prints hx.1 ⟨false, false⟩ ugLen hv (s := 0) (fun x h0 hx => hf c hc l0 hl0 x h0 (by omega)) hT
  exact ⟨l, hl, c105_printed hw hh hx ⟨false, false⟩ ugLen hv hT hl⟩

theorem program_prints (hgd : g = mkGrid width height ⟨false, false⟩ colours ugLen extras 0) (hw : 0 < width) (hh : 0 < height)
    (hx : GoodExtras colours extras)
    (hlast : (∃ v, Sat v cs) → ∃ c ∈ cs, ∃ l ∈ c, height * width * (gridFields colours extras).variableCount ≤ l.var)
    (hs : CorrectSolver solver) (hf : CompleteSolver solver)
    (hterm : ∃ fuel, (itersolve solver ((importantLits g true).map Lit.var) fuel cs).2 = true)
    (hall : ∀ fuel, (itersolve solver ((importantLits g true).map Lit.var) fuel cs).2 = true →
      (∀ m ∈ (itersolve solver ((importantLits g true).map Lit.var) fuel cs).1, ∃ T, Decodes g (asgOf m) T ∧ Wanted T) ∧
      ∀ T, Wanted T → ∃ m ∈ (itersolve solver ((importantLits g true).map Lit.var) fuel cs).1, Decodes g (asgOf m) T) :
    PrintsAll g Wanted (fun fuel => programRun width height extras solver true fuel (.ok (g, cs, s))) ∧
    ((∀ fuel, (itersolve solver ((importantLits g true).map Lit.var) fuel cs).2 = true →
      (itersolve solver ((importantLits g true).map Lit.var) fuel cs).1.Pairwise fun m m' =>
      ¬ ∃ T, Decodes g (asgOf m) T ∧ Decodes g (asgOf m') T) →
      PrintsOnce g Wanted (fun fuel => programRun width height extras solver true fuel (.ok (g, cs, s)))) ∧
    ∀ fuel, PrintsFirst g Wanted (programRun width height extras solver false fuel (.ok (g, cs, s))) := by
  obtain ⟨fuel0, hend⟩ := hterm
  have key : ∀ fuel, fuel0 ≤ fuel → ∃ (ls : List (List Char)) (Ts : List (Nat × Nat → Tile)),
      programRun width height extras solver true fuel (.ok (g, cs, s)) = ⟨textOf ls, .finished⟩ ∧
      IsInput (textOf ls) ls ∧ List.Forall₂ PrintedLine ls (Ts.map (layoutArr g)) ∧ (∀ T ∈ Ts, Wanted T) ∧
      (∀ T, Wanted T → layoutArr g T ∈ Ts.map (layoutArr g)) ∧
      (itersolve solver ((importantLits g true).map Lit.var) fuel cs).2 = true ∧
      List.Forall₂ (fun m T => Decodes g (asgOf m) T) (itersolve solver ((importantLits g true).map Lit.var) fuel cs).1 Ts := by
    intro fuel hle
    have hend' : (itersolve solver ((importantLits g true).map Lit.var) fuel cs).2 = true := by
      unfold itersolve at hend ⊢
      rw [iter_more _ _ _ _ hle hend]
      exact hend
    obtain ⟨h1, h2⟩ := hall fuel hend'
    obtain ⟨ls, Ts, k1, k2, k3, k4⟩ := lines_with (g := g) (text := solutionText width height g.colours extras 0) (P := Wanted)
      (ms := (itersolve solver ((importantLits g true).map Lit.var) fuel cs).1) (by
        intro m hm
        obtain ⟨T, e4, e5⟩ := h1 m hm
        obtain ⟨l, e1, e3⟩ := answer_prints hgd hw hh hx hlast (iter_mem hs fuel 0 cs m hm) (iter_fills hf fuel 0 cs m hm) e4
        exact ⟨l, T, e1, e4, e5, e3⟩)
    refine ⟨ls, Ts, ?_, isInput_textOf (printed_lines k2), k2, k3, fun T hT => ?_, hend', k4⟩
    · exact printLoop_all k1
    · obtain ⟨m, hm, hd⟩ := h2 T hT
      exact decodes_listed k4 hm hd
  refine ⟨⟨fuel0, fun fuel hle => ?_⟩, fun hd => ⟨fuel0, fun fuel hle => ?_⟩, fun fuel => ?_⟩
  · obtain ⟨ls, Ts, k1, k2, k3, k4, k5, _⟩ := key fuel hle
    exact ⟨ls, Ts, k1, k2, k3, k4, k5⟩
  · obtain ⟨ls, Ts, k1, k2, k3, k4, k5, k6, k7⟩ := key fuel hle
    exact ⟨ls, Ts, k1, k2, k3, k4, k5, layouts_nodup k7 (hd fuel k6)⟩
  · obtain ⟨h1, h2⟩ := hall fuel0 hend
    obtain ⟨n, rfl⟩ : ∃ n, fuel0 = n + 1 := by
      cases fuel0 with
      | zero => cases hend
      | succ n => exact ⟨n, rfl⟩
    unfold programRun
    simp only [Bool.false_eq_true, if_false]
    unfold itersolve itersolveFrom at h1 h2 ⊢
    cases hq : solver 0 cs with
    | none =>
      rw [hq] at h2
      refine Or.inl ⟨rfl, ?_⟩
      rintro ⟨T, hT⟩
      obtain ⟨m, hm, _⟩ := h2 T hT
      cases hm
    | some m =>
      rw [hq] at h1
      obtain ⟨T, e4, e5⟩ := h1 m (List.mem_cons_self ..)
      obtain ⟨l, e1, e3⟩ := answer_prints hgd hw hh hx hlast (hs.model 0 cs m hq) (hf 0 cs m hq) e4
      refine Or.inr ⟨l, T, ?_, isInput_textOf (by simpa using e3.line), e3, e5⟩
      simp [printLoop, e1, textOf]

end

/-! ### The last variable of the tiles -/

theorem lastCell {width height n : Nat} (hw : 0 < width) (hh : 0 < height) :
    0 + ((height - 1) * width + (width - 1)) * n + n = height * width * n := by
  have e1 : (height - 1) * width + (width - 1) + 1 = height * width := by
    obtain ⟨h, rfl⟩ : ∃ h, height = h + 1 := ⟨height - 1, by omega⟩
    rw [Nat.add_sub_cancel, Nat.succ_mul]
    omega
  rw [Nat.zero_add, ← Nat.succ_mul, Nat.succ_eq_add_one, e1]

theorem colourUy_last {width height k : Nat} {extras : TFields} (edge : EdgeMode) (ugLen : Option Nat) (hw : 0 < width) (hh : 0 < height)
    (hk : 0 < (k - 1).size) (hx : extras.variableCount = 0) :
    (⟨height * width * (gridFields (some k) extras).variableCount, true⟩ : Lit) ∈
      ((mkGrid width height edge (some k) ugLen extras 0).at' (width - 1, height - 1)).colourUy := by
  obtain ⟨s', h1, h2⟩ : ∃ s', ((mkGrid width height edge (some k) ugLen extras 0).at' (width - 1, height - 1)).colourUy =
        (nextMany (k - 1).size s').1 ∧
      ((gridFields (some k) extras).instantiate
        (0 + ((height - 1) * width + (width - 1)) * (gridFields (some k) extras).variableCount)).2 =
      (extras.instantiate (nextMany (k - 1).size s').2).2 := ⟨_, rfl, rfl⟩
  rw [(TFields.instantiate_spec _ _).1, (TFields.instantiate_spec _ _).1, hx, lastCell hw hh, nextMany_eq, Nat.add_zero] at h2
  rw [h1, nextMany_eq, h2]
  exact List.mem_of_getLast? (freshLits_last s' _ hk)

theorem level_last {width height k n : Nat} (hw : 0 < width) (hh : 0 < height) (hn : 0 < n) :
    (⟨height * width * (gridFields (some k) (levelFields n)).variableCount, true⟩ : Lit) ∈
      (levelLits width k n (width - 1, height - 1)).primary := by
  obtain ⟨s', h1, h2⟩ : ∃ s', (levelLits width k n (width - 1, height - 1)).primary = (nextMany n s').1 ∧
      ((gridFields (some k) (levelFields n)).instantiate
        (0 + ((height - 1) * width + (width - 1)) * (gridFields (some k) (levelFields n)).variableCount)).2 = (nextMany n s').2 :=
    ⟨_, rfl, rfl⟩
  rw [(TFields.instantiate_spec _ _).1, lastCell hw hh, nextMany_eq] at h2
  rw [h1, nextMany_eq, h2]
  exact List.mem_of_getLast? (freshLits_last s' n hn)

/-! ### It occurs in the clauses -/

/-- Some clause mentions a variable from `N` on. -/
def Mentions (N : Nat) (cs : Cnf) : Prop := ∃ c ∈ cs, ∃ l ∈ c, N ≤ l.var

theorem Mentions.mono {N : Nat} {cs cs' : Cnf} (h : Mentions N cs) (hs : ∀ c ∈ cs, c ∈ cs') : Mentions N cs' := by
  obtain ⟨c, hc, h⟩ := h
  exact ⟨c, hs c hc, h⟩

theorem concatE_mem {α : Type} {f : α → Except PyErr Cnf} {as : List α} {cs : Cnf} (h : concatE f as = .ok cs) {a : α} (ha : a ∈ as) :
    ∃ c, f a = .ok c ∧ ∀ x ∈ c, x ∈ cs := by
  induction as generalizing cs with
  | nil => cases ha
  | cons b as ih =>
    unfold concatE at h
    split at h
    · cases h
    · rename_i c hc
      split at h
      · cases h
      · rename_i c' hc'
        cases h
        rcases List.mem_cons.1 ha with rfl | ha
        · exact ⟨c, hc, fun x hx => List.mem_append_left _ hx⟩
        · obtain ⟨c2, h1, h2⟩ := ih hc' ha
          exact ⟨c2, h1, fun x hx => List.mem_append_right _ (h2 x hx)⟩

theorem equal_mentions {a b : List Lit} {cs : Cnf} (h : setNumbersEqual a b = .ok cs) {l : Lit} (hl : l ∈ a) : Mentions l.var cs := by
  unfold setNumbersEqual at h
  simp only [Bool.false_eq_true, if_false] at h
  split at h
  · rename_i hlen
    cases h
    obtain ⟨i, hi, rfl⟩ := List.mem_iff_getElem.1 hl
    refine ⟨[-a[i], b[i]], List.mem_flatMap.2 ⟨(a[i], b[i]), ?_, by simp [literalsSame]⟩, -a[i], by simp, le_of_eq rfl⟩
    refine List.mem_iff_getElem.2 ⟨i, by simp; omega, by simp⟩
  · cases h

theorem implies_mentions {cond : List Lit} {cs : Cnf} {N : Nat} (h : Mentions N cs) : Mentions N (implies cond cs) := by
  obtain ⟨c, hc, l, hl, hN⟩ := h
  exact ⟨_, List.mem_map.2 ⟨c, hc, rfl⟩, l, List.mem_append_right _ hl, hN⟩

theorem colouring_mentions {width height k : Nat} {extras : TFields} {ugLen : Option Nat} (hw : 0 < width) (hh : 2 ≤ height)
    (hk : 0 < (k - 1).size) (hx : extras.variableCount = 0) {cs : Cnf}
    (h : preventBadColouring (mkGrid width height ⟨false, false⟩ (some k) ugLen extras 0) = .ok cs) :
    Mentions (height * width * (gridFields (some k) extras).variableCount) cs := by
  generalize hg : mkGrid width height ⟨false, false⟩ (some k) ugLen extras 0 = g at h
  have hl := colourUy_last ⟨false, false⟩ ugLen hw (show 0 < height by omega) hk hx
  rw [hg] at hl
  have hwf := mkGrid_wf (width := width) (height := height) hw (by omega) ⟨false, false⟩ (some k) ugLen (by
    rintro n ⟨⟩
    rcases Nat.eq_zero_or_pos k with rfl | h
    · simp at hk
    · exact h) extras 0
  rw [hg] at hwf
  have hflat : Flat g := by rw [← hg]; rfl
  have hgw : g.width = width := by rw [← hg]; rfl
  have hgh : g.height = height := by rw [← hg]; rfl
  have hc : g.colours = some k := by rw [← hg]; rfl
  unfold preventBadColouring at h
  rw [if_neg (by
    rw [hc]
    rintro (h | h)
    · cases h; simp at hk
    · cases h)] at h
  obtain ⟨c1, h1, h2⟩ := concatE_mem h (a := Dir.up) (by decide)
  obtain ⟨c2, h3, h4⟩ := concatE_mem h1 (a := (width - 1, height - 1)) ((Grid.mem_cells _ _).2 ⟨by omega, by omega⟩)
  refine Mentions.mono (Mentions.mono ?_ h4) h2
  unfold transportCell at h3
  have hnb : ∃ q, g.nb (width - 1, height - 1) .up = some q :=
    ⟨(width - 1, height - 2), (nb_flat hwf hflat ⟨by omega, by omega⟩ .up _).2 ⟨⟨by simp; omega, by simp; omega⟩, by simp [Dir.dx], by
      simp only [Dir.dy]; omega⟩⟩
  obtain ⟨q, hq⟩ := hnb
  rw [hq] at h3
  simp only at h3
  obtain ⟨c3, h5, h6⟩ := concatE_mem h3 (List.mem_cons_of_mem _ (List.mem_cons_self ..))
  refine Mentions.mono ?_ h6
  simp only [show Dir.axis .up ≠ Axis.horizontal by decide, if_false] at h5
  split at h5
  · cases h5
  · rename_i c4 h7
    cases h5
    exact implies_mentions (equal_mentions h7 hl)

end FSat
