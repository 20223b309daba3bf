import Verif.Model.Search
/-!
# Model of the solver objects of `factorio_sat/ipasir.py` and of `factorio_sat/template.py` 395-435 with a solver `lib:...`

The shared library is a parameter: what its functions answer depends on all calls made before.  A pointer is modelled by whether it is
one that `ipasir_init` returned (`init` is taken not to return a null pointer).  Literals are taken to fit into 32 bits.  Iterating over
the set `variables` is modelled in the order of insertion.
-/

namespace FSat

/-- The functions of the library, ipasir.py:8-44. -/
inductive NativeOp where
  | init
  | add (lit : Int)
  | assume (lit : Int)
  | solve
  | val (x : Nat)
  | failed (lit : Int)
  | setLearn (size : Int)
  | setTerminate
  | release
deriving DecidableEq, Repr

/-- A call of one of them: with the pointer of the solver (`live`) or with `None`, which is a null pointer. -/
structure NativeCall where
  live : Bool
  op : NativeOp
deriving DecidableEq, Repr

/-- What the library returns, given the calls made before. -/
structure NativeLib where
  solve : List NativeOp → Int
  val : List NativeOp → Nat → Int
  failed : List NativeOp → Int → Int

/-- ipasir.py:53-60: whether `solver_p` is not `None`, the set `variables`, and the calls made so far. -/
structure LibSolver where
  ptr : Bool
  variables : List Nat
  calls : List NativeCall
deriving DecidableEq, Repr

namespace LibSolver

/-- ipasir.py:49-59: `create_solver`. -/
def create : LibSolver := ⟨true, [], [⟨true, .init⟩]⟩

/-- A call of the library. -/
def native (s : LibSolver) (op : NativeOp) : LibSolver := { s with calls := s.calls ++ [⟨s.ptr, op⟩] }

/-- The calls made so far. -/
def history (s : LibSolver) : List NativeOp := s.calls.map NativeCall.op

/-- `self.variables.add(abs(lit))`, ipasir.py:69. -/
def note (s : LibSolver) (x : Nat) : LibSolver := { s with variables := if s.variables.contains x then s.variables else s.variables ++ [x] }

/-- ipasir.py:68-71, 111-114: one clause. -/
def send (s : LibSolver) (c : List Int) : LibSolver := (c.foldl (fun s l => (s.note l.natAbs).native (.add l)) s).native (.add 0)

/-- ipasir.py:61-63: a method that begins with `check_closed`. -/
def checked {α : Type} (s : LibSolver) (f : Except PyErr α × LibSolver) : Except PyErr α × LibSolver :=
  if s.ptr then f else (.error .runtimeError, s)

/-- ipasir.py:65-71. -/
def addClause (s : LibSolver) (c : List Int) : Except PyErr Unit × LibSolver := s.checked (.ok (), s.send c)

/-- ipasir.py:105-114. -/
def addClauses (s : LibSolver) (cs : List (List Int)) : Except PyErr Unit × LibSolver := s.checked (.ok (), cs.foldl send s)

/-- ipasir.py:73-91: the closed object is not noticed. -/
def setLearn (s : LibSolver) (size : Int) : Except PyErr Unit × LibSolver := (.ok (), s.native (.setLearn size))

/-- ipasir.py:78-87: the clause the callback is given; `p` is the memory at the pointer, up to `fuel` cells of it (the loop ends at the
first zero). -/
def learnt (p : Nat → Int) : Nat → Nat → Option (List Int)
  | 0, _ => none
  | fuel + 1, i => if p i = 0 then some [] else (learnt p fuel (i + 1)).map (p i :: ·)

/-- ipasir.py:93-103: the closed object is not noticed. -/
def setTerminate (s : LibSolver) : Except PyErr Unit × LibSolver := (.ok (), s.native .setTerminate)

/-- ipasir.py:116-119. -/
def assume (s : LibSolver) (l : Int) : Except PyErr Unit × LibSolver := s.checked (.ok (), s.native (.assume l))

/-- ipasir.py:121-131. -/
def solve (lib : NativeLib) (s : LibSolver) : Except PyErr (Option Bool) × LibSolver :=
  let res := lib.solve s.history
  s.checked (if res = 0 then .ok none else if res = 10 then .ok (some true) else if res = 20 then .ok (some false) else .error .runtimeError,
    s.native .solve)

/-- ipasir.py:136-142: the loop. -/
def readVars (lib : NativeLib) : List Nat → LibSolver → List Int × LibSolver
  | [], s => ([], s)
  | x :: xs, s =>
    let value := lib.val s.history x
    let r := readVars lib xs (s.native (.val x))
    ((if value = 0 then (x : Int) else value) :: r.1, r.2)

/-- ipasir.py:133-142. -/
def getModel (lib : NativeLib) (s : LibSolver) : Except PyErr (List Int) × LibSolver :=
  let r := readVars lib s.variables s
  s.checked (.ok r.1, r.2)

/-- ipasir.py:144-147. -/
def unsatUsedAssumption (lib : NativeLib) (s : LibSolver) (l : Int) : Except PyErr Bool × LibSolver :=
  s.checked (.ok (lib.failed s.history l != 0), s.native (.failed l))

/-- ipasir.py:149-151. -/
def enter (s : LibSolver) : Except PyErr Unit × LibSolver := s.checked (.ok (), s)

/-- ipasir.py:153-157. -/
def exit (s : LibSolver) : Except PyErr Unit × LibSolver := s.checked (.ok (), { s.native .release with ptr := false })

/-- ipasir.py:159-161: called once, when nothing refers to the object any more. -/
def del (s : LibSolver) : LibSolver := if s.ptr then s.native .release else s

end LibSolver

/-- The methods. -/
inductive LibCall where
  | addClause (c : List Int)
  | addClauses (cs : List (List Int))
  | setLearn (size : Int)
  | setTerminate
  | assume (l : Int)
  | solve
  | getModel
  | unsatUsedAssumption (l : Int)
  | enter
  | exit
deriving DecidableEq, Repr

/-- A call of a method: the exception, if any. -/
def LibSolver.call (lib : NativeLib) (s : LibSolver) : LibCall → Option PyErr × LibSolver
  | .addClause c => drop (s.addClause c)
  | .addClauses cs => drop (s.addClauses cs)
  | .setLearn size => drop (s.setLearn size)
  | .setTerminate => drop s.setTerminate
  | .assume l => drop (s.assume l)
  | .solve => drop (s.solve lib)
  | .getModel => drop (s.getModel lib)
  | .unsatUsedAssumption l => drop (s.unsatUsedAssumption lib l)
  | .enter => drop s.enter
  | .exit => drop s.exit
where
  /-- Without the result. -/
  drop {α : Type} (r : Except PyErr α × LibSolver) : Option PyErr × LibSolver :=
    (match r.1 with
      | .error e => some e
      | .ok _ => none, r.2)

/-- Any calls, one after the other, whatever they raise. -/
def LibSolver.run (lib : NativeLib) (s : LibSolver) (cs : List LibCall) : LibSolver := cs.foldl (fun s c => (s.call lib c).2) s

/-! ### `BaseGrid.solve` and `BaseGrid.itersolve` -/

/-- How a generator ends: there are no more solutions, whoever asked for solutions stops asking (`close`, or the generator is dropped),
or an exception. -/
inductive RunEnd where
  | exhausted
  | stopped
  | raised (e : PyErr)
deriving DecidableEq, Repr

/-- What a run yields, how it ends and the solver object it leaves. -/
structure LibRun (α : Type) where
  yielded : List α
  outcome : RunEnd
  solver : LibSolver

/-- template.py:430-435: the loop, for someone who asks for `take` solutions. -/
def libLoop {α : Type} (lib : NativeLib) (parse : List Int → Except PyErr α) (important : List Nat) : Nat → LibSolver → LibRun α
  | 0, s => ⟨[], .stopped, s⟩
  | take + 1, s =>
    match s.solve lib with
    | (.error e, s) => ⟨[], .raised e, s⟩
    | (.ok (some true), s) =>
      match s.getModel lib with
      | (.error e, s) => ⟨[], .raised e, s⟩
      | (.ok m, s) =>
        match parse m with
        | .error e => ⟨[], .raised e, s⟩
        | .ok x =>
          if take = 0 then ⟨[x], .stopped, s⟩
          else
            match s.addClause ((m.filter fun l => important.contains l.natAbs).map fun l => -l) with
            | (.error e, s) => ⟨[x], .raised e, s⟩
            | (.ok _, s) =>
              let r := libLoop lib parse important take s
              ⟨x :: r.yielded, r.outcome, r.solver⟩
    | (.ok _, s) => ⟨[], .exhausted, s⟩

/-- The `with` statement around a run (template.py:410, 429): the object is closed however the run ends. -/
def withSolver {α : Type} (s : LibSolver) (body : LibSolver → LibRun α) : LibRun α :=
  match s.enter with
  | (.error e, s) => ⟨[], .raised e, s⟩
  | (.ok _, s) =>
    let r := body s
    match r.solver.exit with
    | (.error e, s) => ⟨r.yielded, .raised e, s⟩
    | (.ok _, s) => ⟨r.yielded, r.outcome, s⟩

/-- template.py:417-435 with a solver `lib:...`, for someone who asks for `take + 1` solutions (a generator that is never asked does
nothing).  At the end the object is dropped. -/
def libItersolve {α : Type} (lib : NativeLib) (parse : List Int → Except PyErr α) (important : List Nat) (take : Nat)
    (cs : List (List Int)) : LibRun α :=
  match LibSolver.create.addClauses cs with
  | (.error e, s) => ⟨[], .raised e, s.del⟩
  | (.ok _, s) =>
    let r := withSolver s (libLoop lib parse important (take + 1))
    ⟨r.yielded, r.outcome, r.solver.del⟩

/-- template.py:411-415: inside the `with` statement of `solve`. -/
def libOnce {α : Type} (lib : NativeLib) (parse : List Int → Except PyErr α) (s : LibSolver) : LibRun α :=
  match s.solve lib with
  | (.error e, s) => ⟨[], .raised e, s⟩
  | (.ok (some true), s) =>
    match s.getModel lib with
    | (.error e, s) => ⟨[], .raised e, s⟩
    | (.ok m, s) =>
      match parse m with
      | .error e => ⟨[], .raised e, s⟩
      | .ok x => ⟨[x], .stopped, s⟩
  | (.ok _, s) => ⟨[], .exhausted, s⟩

/-- template.py:398-415 with a solver `lib:...`: what is returned, and the object. -/
def libSolve {α : Type} (lib : NativeLib) (parse : List Int → Except PyErr α) (cs : List (List Int)) : Except PyErr (Option α) × LibSolver :=
  match LibSolver.create.addClauses cs with
  | (.error e, s) => (.error e, s.del)
  | (.ok _, s) =>
    let r := withSolver s (libOnce lib parse)
    (match r.outcome with
      | .raised e => .error e
      | _ => .ok r.yielded.head?, r.solver.del)

/-- template.py:395-396 `check`. -/
def libCheck {α : Type} (lib : NativeLib) (parse : List Int → Except PyErr α) (cs : List (List Int)) : Except PyErr Bool :=
  match (libSolve lib parse cs).1 with
  | .error e => .error e
  | .ok x => .ok x.isSome

end FSat
