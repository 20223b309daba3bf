import Verif.Lemmas.LibSolver
/-!
# C94: solving with a shared library
-/

namespace FSat

/-! ### A library that does what it should exists -/

/-- The calls before the last `ipasir_solve`, if there were only questions for values since. -/
def beforeSolve (h : List NativeOp) : List NativeOp := (h.reverse.dropWhile fun op => match op with
  | .val _ => true
  | _ => false).reverse.dropLast

theorem beforeSolve_eq (h : List NativeOp) (asked : List Nat) : beforeSolve (h ++ NativeOp.solve :: asked.map NativeOp.val) = h := by
  unfold beforeSolve
  rw [List.reverse_append, List.reverse_cons, List.append_assoc, List.dropWhile_append_of_pos]
  · simp
  · intro op hop
    obtain ⟨x, _, rfl⟩ := List.mem_map.1 (List.mem_reverse.1 hop)
    rfl

/-- What was added and assumed can be made true. -/
def Possible (h : List NativeOp) : Prop := ∃ v, AllHold v (decodeStream (sentTo h)).1 ∧ ∀ l ∈ assumedIn h, TrueIn v l

theorem decodeStream_ne_zero : ∀ l : List Int, ∀ c ∈ (decodeStream l).1, (0 : Int) ∉ c
  | [] => by simp [decodeStream]
  | l :: ls => by
    have ih := decodeStream_ne_zero ls
    unfold decodeStream
    simp only
    split
    · intro c hc
      rcases List.mem_cons.1 hc with rfl | hc
      · simp
      · exact ih c hc
    · rename_i h0
      split
      · simp
      · rename_i d ds e
        rw [e] at ih
        intro c hc
        rcases List.mem_cons.1 hc with rfl | hc
        · have := ih d List.mem_cons_self
          simp only [List.mem_cons, not_or]
          exact ⟨fun k => h0 k.symm, this⟩
        · exact ih c (List.mem_cons_of_mem _ hc)

theorem exists_native : ∃ lib : NativeLib, lib.Correct := by
  classical
  have hex : ∀ h, ∃ v : Asg, Possible h → AllHold v (decodeStream (sentTo h)).1 ∧ ∀ l ∈ assumedIn h, TrueIn v l := fun h => by
    by_cases k : Possible h
    · obtain ⟨v, hv⟩ := k
      exact ⟨v, fun _ => hv⟩
    · exact ⟨fun _ => false, fun h => absurd h k⟩
  choose w hw using hex
  let solve : List NativeOp → Int := fun h => if Possible h then if 0 ∈ assumedIn h then 0 else 10 else 20
  let val : List NativeOp → Nat → Int := fun h x => if w (beforeSolve h) x then (x : Int) else -(x : Int)
  refine ⟨⟨solve, val, fun _ _ => 0⟩, ?_, ?_, ?_, ?_, ?_⟩
  · intro h _ _ _ h0
    show solve h = 10 ∨ solve h = 20
    simp only [solve, h0, if_false]
    split
    · exact .inl rfl
    · exact .inr rfl
  · intro h _ _ e hp
    change solve h = 20 at e
    change Possible h at hp
    simp only [solve] at e
    rw [if_pos hp] at e
    split at e <;> cases e
  · intro h asked x
    show val _ x = val _ x
    simp only [val, beforeSolve_eq]
    rw [show h ++ [NativeOp.solve] = h ++ NativeOp.solve :: [].map NativeOp.val from rfl, beforeSolve_eq]
  · intro h x
    show val h x = 0 ∨ val h x = x ∨ val h x = -(x : Int)
    simp only [val]
    split
    · exact .inr (.inl rfl)
    · exact .inr (.inr rfl)
  · intro h _ _ e v hv
    change solve h = 10 at e
    have hp : Possible h ∧ 0 ∉ assumedIn h := by
      simp only [solve] at e
      split at e
      · split at e
        · cases e
        · exact ⟨by assumption, by assumption⟩
      · cases e
    have hx : ∀ x, 0 < x → v x = w h x := by
      intro x hx
      have this := hv x hx
      change val (h ++ [.solve]) x ≠ 0 → TrueIn v (val (h ++ [.solve]) x) at this
      have e1 : val (h ++ [.solve]) x = if w h x then (x : Int) else -(x : Int) := by
        simp only [val]
        rw [show h ++ [NativeOp.solve] = h ++ NativeOp.solve :: [].map NativeOp.val from rfl, beforeSolve_eq]
      rw [e1] at this
      unfold TrueIn at this
      cases hb : w h x
      · rw [hb] at this
        rw [show v x = decide (0 < -(x : Int)) by simpa using this (by simp; omega)]
        exact decide_eq_false (by omega)
      · rw [hb] at this
        simpa [hx] using this (by simp; omega)
    have hspec := hw h hp.1
    have ht : ∀ l : Int, l ≠ 0 → TrueIn (w h) l → TrueIn v l := fun l hl k => by
      unfold TrueIn at k ⊢
      rw [hx _ (by omega), k]
    refine ⟨fun c hc => ?_, fun l hl => ht l (fun e => hp.2 (e ▸ hl)) (hspec.2 l hl)⟩
    obtain ⟨l, hl, k⟩ := hspec.1 c hc
    exact ⟨l, hl, ht l (fun e => decodeStream_ne_zero _ c hc (e ▸ hl)) k⟩

/-! ### The life of the object -/

/-- C94.  Whatever methods are called on a solver object, in whatever order and with whatever exceptions: once nothing refers to the object
any more, its solver has been released exactly once; every call of the library before that was with the solver's pointer, and after it
there were only calls of `set_learn` and `set_terminate`. -/
theorem c94_released_once (lib : NativeLib) (calls : List LibCall) : ∃ before after,
    (LibSolver.create.run lib calls).del.calls = ⟨true, .init⟩ :: before ++ ⟨true, .release⟩ :: after ∧
      (∀ c ∈ before, c.live = true ∧ c.op ≠ .release ∧ c.op ≠ .init) ∧
      ∀ c ∈ after, c.live = false ∧ (c.op = .setTerminate ∨ ∃ n, c.op = .setLearn n) := by
  obtain ⟨before, h1, ⟨h2, h3⟩ | ⟨h2, after, h3, h4⟩⟩ := lived_create.run (lib := lib) calls
  · refine ⟨before, [], ?_, h1, by simp⟩
    unfold LibSolver.del LibSolver.native
    rw [if_pos h2]
    show _ ++ [_] = _
    rw [h3, h2]
  · refine ⟨before, after, ?_, h1, h4⟩
    unfold LibSolver.del
    rw [if_neg (by rw [h2]; simp)]
    exact h3

/-- C94.  A closed object raises an exception and does nothing.  Missing: `set_learn` and `set_terminate`, for which it is false
(`c94_null_refuted`). -/
theorem c94_closed_partial (lib : NativeLib) (calls : List LibCall) (c : LibCall) (hc : c ≠ .setTerminate ∧ ∀ n, c ≠ .setLearn n)
    (he : LibCall.exit ∈ calls) :
    (LibSolver.create.run lib calls).call lib c = (some .runtimeError, LibSolver.create.run lib calls) := by
  have hstay : ∀ (cs : List LibCall) (s : LibSolver), s.ptr = false → (s.run lib cs).ptr = false := by
    intro cs
    induction cs with
    | nil => exact fun _ h => h
    | cons c cs ih =>
      intro s hs
      refine ih _ ?_
      have hk : ∀ {α : Type} (f : Except PyErr α × LibSolver), s.checked f = (.error .runtimeError, s) := fun f => by
        unfold LibSolver.checked; rw [hs]; rfl
      cases c with
      | setLearn n => exact hs
      | setTerminate => exact hs
      | addClause c => show (s.addClause c).2.ptr = false; unfold LibSolver.addClause; rw [hk]; exact hs
      | addClauses c => show (s.addClauses c).2.ptr = false; unfold LibSolver.addClauses; rw [hk]; exact hs
      | assume l => show (s.assume l).2.ptr = false; unfold LibSolver.assume; rw [hk]; exact hs
      | solve => show (s.solve lib).2.ptr = false; unfold LibSolver.solve; rw [hk]; exact hs
      | getModel => show (s.getModel lib).2.ptr = false; unfold LibSolver.getModel; rw [hk]; exact hs
      | unsatUsedAssumption l =>
        show (s.unsatUsedAssumption lib l).2.ptr = false; unfold LibSolver.unsatUsedAssumption; rw [hk]; exact hs
      | enter => show s.enter.2.ptr = false; unfold LibSolver.enter; rw [hk]; exact hs
      | exit => show s.exit.2.ptr = false; unfold LibSolver.exit; rw [hk]; exact hs
  have hclosed : (LibSolver.create.run lib calls).ptr = false := by
    obtain ⟨a, b, rfl⟩ := List.append_of_mem he
    unfold LibSolver.run
    rw [List.foldl_append, List.foldl_cons]
    refine hstay b _ ?_
    generalize List.foldl _ _ a = s
    show s.exit.2.ptr = false
    unfold LibSolver.exit LibSolver.checked
    split
    · rfl
    · rename_i k
      exact Bool.eq_false_iff.2 k
  have hk : ∀ {α : Type} (f : Except PyErr α × LibSolver),
      (LibSolver.create.run lib calls).checked f = (.error .runtimeError, LibSolver.create.run lib calls) := fun f => by
    unfold LibSolver.checked; rw [hclosed]; rfl
  cases c with
  | setLearn n => exact absurd rfl (hc.2 n)
  | setTerminate => exact absurd rfl hc.1
  | addClause c => exact congrArg LibSolver.call.drop (hk _)
  | addClauses c => exact congrArg LibSolver.call.drop (hk _)
  | assume l => exact congrArg LibSolver.call.drop (hk _)
  | solve => exact congrArg LibSolver.call.drop (hk _)
  | getModel => exact congrArg LibSolver.call.drop (hk _)
  | unsatUsedAssumption l => exact congrArg LibSolver.call.drop (hk _)
  | enter => exact congrArg LibSolver.call.drop (hk _)
  | exit => exact congrArg LibSolver.call.drop (hk _)

/-- C94.  Not every use is noticed: with a closed object `set_learn` and `set_terminate` raise nothing and call the library with a null
pointer. -/
theorem c94_null_refuted (lib : NativeLib) (calls : List LibCall) (he : LibCall.exit ∈ calls) (c : LibCall)
    (hc : c = .setTerminate ∨ ∃ n, c = .setLearn n) :
    ((LibSolver.create.run lib calls).call lib c).1 = none ∧
      ∃ op, ((LibSolver.create.run lib calls).call lib c).2.calls = (LibSolver.create.run lib calls).calls ++ [⟨false, op⟩] := by
  have h := c94_closed_partial lib calls .enter ⟨nofun, nofun⟩ he
  have hp : (LibSolver.create.run lib calls).ptr = false := by
    cases k : (LibSolver.create.run lib calls).ptr with
    | false => rfl
    | true =>
      exfalso
      unfold LibSolver.call LibSolver.enter LibSolver.checked at h
      rw [k] at h
      simp [LibSolver.call.drop] at h
  rcases hc with rfl | ⟨n, rfl⟩
  · exact ⟨rfl, .setTerminate, by rw [← hp]; rfl⟩
  · exact ⟨rfl, .setLearn n, by rw [← hp]; rfl⟩

/-- Used with a `with` statement, left by a later call, and dropped. -/
example (lib : NativeLib) : ((LibSolver.create.run lib [.addClause [1, -2], .enter, .solve, .exit, .solve, .setLearn 5]).del).calls =
    [⟨true, .init⟩, ⟨true, .add 1⟩, ⟨true, .add (-2)⟩, ⟨true, .add 0⟩, ⟨true, .solve⟩, ⟨true, .release⟩, ⟨false, .setLearn 5⟩] := rfl

/-- C94.  The callback for learnt clauses is given the clause before the first zero in memory. -/
theorem c94_learnt (p : Nat → Int) (c : List Int) (i : Nat) (hz : ∀ l ∈ c, l ≠ 0) (hc : ∀ j (hj : j < c.length), p (i + j) = c[j])
    (h0 : p (i + c.length) = 0) (fuel : Nat) (hf : c.length < fuel) : LibSolver.learnt p fuel i = some c := by
  induction c generalizing i fuel with
  | nil =>
    obtain ⟨k, rfl⟩ : ∃ k, fuel = k + 1 := ⟨fuel - 1, by simp at hf; omega⟩
    unfold LibSolver.learnt
    rw [if_pos (by simpa using h0)]
  | cons l c ih =>
    obtain ⟨k, rfl⟩ : ∃ k, fuel = k + 1 := ⟨fuel - 1, by simp at hf; omega⟩
    unfold LibSolver.learnt
    have hl : p i = l := hc 0 (by simp)
    rw [if_neg (by rw [hl]; exact hz l List.mem_cons_self), hl, ih (i + 1) (fun x hx => hz x (List.mem_cons_of_mem _ hx)) ?_ ?_ k (by simp at hf; omega)]
    · rfl
    · intro j hj
      have := hc (j + 1) (by simp; omega)
      rw [show i + 1 + j = i + (j + 1) by omega, this]
      rfl
    · rw [show i + 1 + c.length = i + (l :: c).length by simp; omega]
      exact h0

example : LibSolver.learnt (fun i => [3, -4, 7, 0, 9].getD i 1) 10 0 = some [3, -4, 7] := by decide

/-! ### What it answers -/

/-- C94.  After any calls of an open object, `solve` says true if the clauses given and the literals assumed since the last `solve` can all
hold, and false if not; and the model read after true has each variable of the clauses once, and makes the clauses true, and the
assumed literals whose variables are in the clauses. -/
theorem c94_answers {lib : NativeLib} (hl : lib.Correct) (calls : List LibCall) (hc : ∀ c ∈ calls, c.Ordinary) :
    let s := LibSolver.create.run lib calls
    ((s.solve lib).1 = .ok (some true) ∧ (∃ v, AllHold v (givenBy calls) ∧ ∀ l ∈ assumedBy calls, TrueIn v l) ∧
      ∃ m, ((s.solve lib).2.getModel lib).1 = .ok m ∧ (m.map Int.natAbs).Nodup ∧
        (∀ x, x ∈ m.map Int.natAbs ↔ ∃ c ∈ givenBy calls, ∃ l ∈ c, l.natAbs = x) ∧
        ∀ v, (∀ l ∈ m, TrueIn v l) → AllHold v (givenBy calls) ∧
          ∀ l ∈ assumedBy calls, (∃ c ∈ givenBy calls, ∃ k ∈ c, k.natAbs = l.natAbs) → TrueIn v l) ∨
    ((s.solve lib).1 = .ok (some false) ∧ ¬ ∃ v, AllHold v (givenBy calls) ∧ ∀ l ∈ assumedBy calls, TrueIn v l) := by
  have h := told_run hl calls hc
  intro s
  rcases h.answer hl with ⟨k1, k2, k3⟩ | ⟨k1, k2⟩
  · refine .inl ⟨by rw [k1], k3, ?_⟩
    obtain ⟨m, e1, _, e2, e3⟩ := h.model hl k2
    refine ⟨m, ?_, e2 ▸ h.nodup, fun x => ?_, e3⟩
    · rw [k1]
      show (LibSolver.getModel lib (LibSolver.native _ _)).1 = _
      rw [e1]
    · rw [e2]
      exact h.vars x
  · exact .inr ⟨by rw [k1], k2⟩

/-- Two uses of one object with different assumptions. -/
example : ∃ lib : NativeLib, lib.Correct ∧
    ((LibSolver.create.run lib [.addClauses [[1, 2], [-1, 3]], .assume 1]).solve lib).1 = .ok (some true) ∧
    ((LibSolver.create.run lib [.addClauses [[1, 2], [-1, 3]], .assume 1, .solve, .getModel, .assume (-2), .assume (-3)]).solve lib).1 =
      .ok (some false) := by
  obtain ⟨lib, hl⟩ := exists_native
  refine ⟨lib, hl, ?_, ?_⟩
  · rcases c94_answers hl [.addClauses [[1, 2], [-1, 3]], .assume 1] (by simp [LibCall.Ordinary]) with h | h
    · exact h.1
    · exact absurd ⟨fun _ => true, by simp [AllHold, givenBy, TrueIn], by simp [assumedBy, TrueIn]⟩ h.2
  · rcases c94_answers hl [.addClauses [[1, 2], [-1, 3]], .assume 1, .solve, .getModel, .assume (-2), .assume (-3)]
      (by simp [LibCall.Ordinary]) with h | h
    · obtain ⟨v, h1, h2⟩ := h.2.1
      simp only [AllHold, givenBy, List.flatMap_cons, List.flatMap_nil, assumedBy, List.foldl_cons, List.foldl_nil, TrueIn, List.nil_append,
        List.cons_append, List.append_nil, List.mem_cons, List.not_mem_nil, or_false, forall_eq_or_imp, forall_eq, exists_eq_or_imp,
        exists_eq_left] at h1 h2
      simp_all
    · exact h.1

/-! ### `solve`, `check` and `itersolve` -/

/-- C94.  With a library that does what it should, enumerating is enumerating with a correct solver: what is yielded are its solutions, and
the generator ends if and only if that ends.  (`parse` turns a model into a solution and does not fail if the model has all variables of
the clauses; C25 and C26 say what enumerating with a correct solver gives.) -/
theorem c94_enumerates {α : Type} {lib : NativeLib} (hl : lib.Correct) {cs : Cnf} (hp : ∀ c ∈ cs, ∀ l ∈ c, 0 < l.var)
    (important : List Nat) {parse : List Int → Except PyErr α} {result : List Int → α}
    (hparse : ∀ m, (∀ c ∈ cs, ∀ l ∈ c, ∃ k ∈ m, k.natAbs = l.var) → parse m = .ok (result m)) :
    ∃ solver, CorrectSolver solver ∧ ∀ take,
      (libItersolve lib parse important take (cs.map fun c => c.map Lit.toInt)).yielded =
        ((itersolve solver important (take + 1) cs).1.map fun m => result (m.map Lit.toInt)) ∧
      (libItersolve lib parse important take (cs.map fun c => c.map Lit.toInt)).outcome =
        if (itersolve solver important (take + 1) cs).2 then .exhausted else .stopped := by
  have h1 := told_create.sends (asInts cs) (asInts_ne_zero hp)
  have hr : LibReady ((asInts cs).foldl LibSolver.send .create) cs := ⟨by simpa using h1.2, hp⟩
  refine ⟨_, oracleOf_correct hr hl (important := important), fun take => ?_⟩
  have hopen := (open_addClauses (asInts cs)).2
  have hw := withSolver_eq (body := libLoop lib parse important (take + 1)) hopen (hopen.loop _)
  have := libLoop_eq hr hl hparse take 0 _ _ (rfl : stateAt lib important _ cs 0 = _)
  unfold libItersolve
  change (match LibSolver.create.addClauses (asInts cs) with
    | (.error e, s) => (⟨[], .raised e, s.del⟩ : LibRun α)
    | (.ok _, s) =>
      let r := withSolver s (libLoop lib parse important (take + 1))
      ⟨r.yielded, r.outcome, r.solver.del⟩).yielded = _ ∧ (match LibSolver.create.addClauses (asInts cs) with
    | (.error e, s) => (⟨[], .raised e, s.del⟩ : LibRun α)
    | (.ok _, s) =>
      let r := withSolver s (libLoop lib parse important (take + 1))
      ⟨r.yielded, r.outcome, r.solver.del⟩).outcome = _
  rw [h1.1]
  exact ⟨hw.1.trans this.1, hw.2.1.trans this.2⟩

/-- C94.  However many solutions are asked for, whatever the library answers and however parsing a solution ends, the solver is released
exactly once, and nothing is done with it afterwards. -/
theorem c94_itersolve_releases {α : Type} (lib : NativeLib) (parse : List Int → Except PyErr α) (important : List Nat) (take : Nat)
    (cs : List (List Int)) : UsedProperly (libItersolve lib parse important take cs).solver.calls := by
  have hopen := (open_addClauses cs).2
  unfold libItersolve
  rw [(open_addClauses cs).1]
  exact (withSolver_eq hopen (hopen.loop _)).2.2

theorem libSolve_open {α : Type} (lib : NativeLib) (parse : List Int → Except PyErr α) {s : LibSolver} (h : Open s) :
    Open (libOnce lib parse s).solver := by
  have h1 := h.solve (lib := lib)
  unfold libOnce
  rcases e : s.solve lib with ⟨(e1 | (_ | _ | _)), t⟩ <;> rw [e] at h1
  · exact h1
  · exact h1
  · exact h1
  · have h2 := Open.getModel (lib := lib) h1
    simp only
    change Open t at h1
    rcases e2 : t.getModel lib with ⟨(e1 | m), u⟩ <;> simp only [e2] at h2 ⊢
    · exact h2
    · rcases parse m with e3 | x <;> exact h2

/-- C94.  The same for `solve`. -/
theorem c94_solve_releases {α : Type} (lib : NativeLib) (parse : List Int → Except PyErr α) (cs : List (List Int)) :
    UsedProperly (libSolve lib parse cs).2.calls := by
  have hopen := (open_addClauses cs).2
  unfold libSolve
  rw [(open_addClauses cs).1]
  exact (withSolver_eq hopen (libSolve_open lib parse hopen)).2.2

/-- C94.  `solve` returns a solution made from a model of the clauses if there is one, and `None` if not. -/
theorem c94_solve {α : Type} {lib : NativeLib} (hl : lib.Correct) {cs : Cnf} (hp : ∀ c ∈ cs, ∀ l ∈ c, 0 < l.var)
    (parse : List Int → Except PyErr α) :
    ((¬ ∃ v, Sat v cs) ∧ (libSolve lib parse (cs.map fun c => c.map Lit.toInt)).1 = .ok none) ∨
    ((∃ v, Sat v cs) ∧ ∃ m, IsModel cs m ∧ (libSolve lib parse (cs.map fun c => c.map Lit.toInt)).1 = (parse (m.map Lit.toInt)).map some) := by
  have h1 := told_create.sends (asInts cs) (asInts_ne_zero hp)
  have hr : LibReady ((asInts cs).foldl LibSolver.send .create) cs := ⟨by simpa using h1.2, hp⟩
  have hopen := (open_addClauses (asInts cs)).2
  have hw := withSolver_eq hopen (libSolve_open lib parse hopen)
  change _ ∧ (libSolve lib parse (asInts cs)).1 = _ ∨ _ ∧ ∃ m, _ ∧ (libSolve lib parse (asInts cs)).1 = _
  unfold libSolve
  rw [h1.1]
  simp only
  rw [hw.1, hw.2.1]
  unfold libOnce
  rcases hr.round hl [] with ⟨_, k1, k2⟩ | ⟨m, t, k1, k2, _, _, k5, k6, _⟩
  · refine .inl ⟨k2, ?_⟩
    rw [k1]
    rfl
  · right
    have hm : (m.map litOf).map Lit.toInt = m := by
      rw [List.map_map]
      conv_rhs => rw [← List.map_id m]
      exact List.map_congr_left fun l hlm => toInt_litOf (k5 l hlm)
    refine ⟨⟨asgOf (m.map litOf), k6.sat _ ?_⟩, m.map litOf, k6, ?_⟩
    · exact fun l hl => asgOf_mem k6.nodup hl
    · rw [hm, k1]
      simp only
      rw [k2]
      simp only
      rcases parse m with e | x <;> rfl

/-- C94.  `check` says whether the clauses can be satisfied. -/
theorem c94_check {α : Type} {lib : NativeLib} (hl : lib.Correct) {cs : Cnf} (hp : ∀ c ∈ cs, ∀ l ∈ c, 0 < l.var)
    {parse : List Int → Except PyErr α} {result : List Int → α}
    (hparse : ∀ m, (∀ c ∈ cs, ∀ l ∈ c, ∃ k ∈ m, k.natAbs = l.var) → parse m = .ok (result m)) :
    ∃ b, libCheck lib parse (cs.map fun c => c.map Lit.toInt) = .ok b ∧ (b = true ↔ ∃ v, Sat v cs) := by
  unfold libCheck
  rcases c94_solve hl hp parse with ⟨k1, k2⟩ | ⟨k1, m, k2, k3⟩
  · rw [k2]
    exact ⟨false, rfl, by simpa using k1⟩
  · rw [k3, hparse (m.map Lit.toInt) fun c hc l hlc => ?_]
    · exact ⟨true, rfl, by simpa using k1⟩
    · obtain ⟨k, hk, e⟩ := k2.covers c hc l hlc
      exact ⟨k.toInt, List.mem_map_of_mem hk, by rw [toInt_natAbs, e]⟩

/-- Enumerating the solutions of one clause; every one of them is asked for. -/
example : ∃ lib : NativeLib, lib.Correct ∧ (libCheck lib (fun m => .ok m) [[1, -2]] = .ok true) ∧
    (libCheck lib (fun m => .ok m) [[1], [-1]] = .ok false) ∧ ∃ solver, CorrectSolver solver ∧
      (libItersolve lib (fun m => .ok m) [1, 2] 9 [[1, -2]]).yielded =
        (itersolve solver [1, 2] 10 [[⟨1, true⟩, ⟨2, false⟩]]).1.map fun m => m.map Lit.toInt := by
  obtain ⟨lib, hl⟩ := exists_native
  refine ⟨lib, hl, ?_, ?_, ?_⟩
  · obtain ⟨b, h1, h2⟩ := c94_check hl (cs := [[⟨1, true⟩, ⟨2, false⟩]]) (by simp) (fun m _ => rfl)
    have hb : b = true := h2.2 ⟨fun _ => true, by simp [Sat, SatC, ev]⟩
    rw [← hb]
    exact h1
  · obtain ⟨b, h1, h2⟩ := c94_check hl (cs := [[⟨1, true⟩], [⟨1, false⟩]]) (by simp) (fun m _ => rfl)
    have hb : b = false := Bool.eq_false_iff.2 fun e => by
      obtain ⟨v, hv⟩ := h2.1 e
      simp [Sat, SatC, ev] at hv
    rw [← hb]
    exact h1
  · obtain ⟨solver, h1, h2⟩ := c94_enumerates hl (cs := [[⟨1, true⟩, ⟨2, false⟩]]) (by simp) [1, 2] (fun m _ => rfl)
    exact ⟨solver, h1, (h2 9).1⟩

end FSat
