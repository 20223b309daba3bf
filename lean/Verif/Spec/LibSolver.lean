import Verif.Spec.Search
import Verif.Model.LibSolver
/-!
# What an IPASIR library has to do, and how its solver objects are to be used
-/

namespace FSat

/-- The numbers sent with `ipasir_add`. -/
def sentTo (h : List NativeOp) : List Int := h.filterMap fun op => match op with
  | .add l => some l
  | _ => none

/-- The literals assumed since the last `ipasir_solve`. -/
def assumedIn (h : List NativeOp) : List Int := h.foldl (fun a op => match op with
  | .solve => []
  | .assume l => a ++ [l]
  | _ => a) []

/-- The literal is true. -/
def TrueIn (v : Asg) (l : Int) : Prop := v l.natAbs = decide (0 < l)

/-- All clauses hold. -/
def AllHold (v : Asg) (cs : List (List Int)) : Prop := ∀ c ∈ cs, ∃ l ∈ c, TrueIn v l

/-- The library does what the IPASIR interface says, for a solver that was not released, has no termination callback and was given complete
clauses and no 0 to assume: `ipasir_solve` answers 10 or 20; 20 only if the clauses added and the literals assumed cannot all hold; and after 10 the values
given by `ipasir_val`, which do not change by asking, are such that every assignment that follows them makes them all hold. -/
structure NativeLib.Correct (lib : NativeLib) : Prop where
  answers : ∀ h, .release ∉ h → .setTerminate ∉ h → (decodeStream (sentTo h)).2 = [] → 0 ∉ assumedIn h → lib.solve h = 10 ∨ lib.solve h = 20
  unsat : ∀ h, .release ∉ h → (decodeStream (sentTo h)).2 = [] → lib.solve h = 20 →
    ¬ ∃ v, AllHold v (decodeStream (sentTo h)).1 ∧ ∀ l ∈ assumedIn h, TrueIn v l
  asking : ∀ h (asked : List Nat) x, lib.val (h ++ NativeOp.solve :: asked.map NativeOp.val) x = lib.val (h ++ [.solve]) x
  values : ∀ h x, lib.val h x = 0 ∨ lib.val h x = x ∨ lib.val h x = -(x : Int)
  model : ∀ h, .release ∉ h → (decodeStream (sentTo h)).2 = [] → lib.solve h = 10 → ∀ v : Asg,
    (∀ x, 0 < x → lib.val (h ++ [.solve]) x ≠ 0 → TrueIn v (lib.val (h ++ [.solve]) x)) →
    AllHold v (decodeStream (sentTo h)).1 ∧ ∀ l ∈ assumedIn h, TrueIn v l

/-- A literal as the number that stands for it. -/
def litOf (l : Int) : Lit := ⟨l.natAbs, decide (0 < l)⟩

/-- The calls are those of one solver: it is released exactly once, all calls before have its pointer, and there are none afterwards. -/
def UsedProperly (calls : List NativeCall) : Prop :=
  ∃ before, calls = ⟨true, .init⟩ :: before ++ [⟨true, .release⟩] ∧ ∀ c ∈ before, c.live = true ∧ c.op ≠ .release ∧ c.op ≠ .init

/-- A call of an open object that is to stay open, with no 0 as a literal and no termination callback. -/
def LibCall.Ordinary : LibCall → Prop
  | .addClause c => ∀ l ∈ c, l ≠ 0
  | .addClauses cs => ∀ c ∈ cs, ∀ l ∈ c, l ≠ 0
  | .assume l => l ≠ 0
  | .setTerminate => False
  | .exit => False
  | _ => True

/-- The clauses given to the solver object by the calls. -/
def givenBy (calls : List LibCall) : List (List Int) := calls.flatMap fun c => match c with
  | .addClause c => [c]
  | .addClauses cs => cs
  | _ => []

/-- The literals assumed by the calls since the last `solve`. -/
def assumedBy (calls : List LibCall) : List Int := calls.foldl (fun a c => match c with
  | .solve => []
  | .assume l => a ++ [l]
  | _ => a) []

end FSat
