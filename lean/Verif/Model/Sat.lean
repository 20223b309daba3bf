/-!
# Literals, clauses and satisfaction

`factorio_sat/util.py:7-10` declares `LiteralType = int`, `ClauseType = List[int]`,
`ClauseList = List[List[int]]` and allocators.  A literal is a non-zero Python int `k`; here it is the pair
`(|k|, k > 0)`.  Unary minus on ints is `Neg Lit`.  0 is never a literal.
-/

namespace FSat

/-- Model of `LiteralType` (util.py:7): the non-zero int `k` is `⟨|k|, k > 0⟩`. -/
structure Lit where
  var : Nat
  pos : Bool
deriving DecidableEq, Repr, Inhabited

/-- Unary minus on literals. -/
instance : Neg Lit := ⟨fun l => ⟨l.var, !l.pos⟩⟩

/-- Model of `ClauseType` (util.py:8). -/
abbrev Clause := List Lit
/-- Model of `ClauseList` (util.py:9). -/
abbrev Cnf := List Clause

/-- A truth assignment. -/
abbrev Asg := Nat → Bool

/-- Truth value of a literal. -/
def ev (v : Asg) (l : Lit) : Bool := v l.var == l.pos

/-- A clause is satisfied when one of its literals is true. -/
def SatC (v : Asg) (c : Clause) : Prop := ∃ l ∈ c, ev v l = true

/-- A clause list is satisfied when all its clauses are. -/
def Sat (v : Asg) (cs : Cnf) : Prop := ∀ c ∈ cs, SatC v c

/-- `SatUpTo s v cs`: `v` restricted to the variables `≤ s` (those already allocated)
can be extended to a satisfying assignment of `cs`. -/
def SatUpTo (s : Nat) (v : Asg) (cs : Cnf) : Prop :=
  ∃ v' : Asg, (∀ x, x ≤ s → v' x = v x) ∧ Sat v' cs

/-- The ways the modelled Python code can fail. -/
inductive PyErr where
  | assertion | typeError | indexError | valueError | keyError | stopIteration | runtimeError | attributeError
  | jsonDecode
deriving DecidableEq, Repr

/-- Model of `AllocatorType` (util.py:10): a stateful source of literals. -/
abbrev Alloc (σ : Type) := σ → Except PyErr (Lit × σ)

/-- util.py:347-354 `make_allocator`, and `BaseGrid.allocate_variable` (template.py): the next int. -/
def poolAlloc : Alloc Nat := fun s => .ok (⟨s + 1, true⟩, s + 1)

/-- util.py:357-359 `make_fixed_allocator`: `next` on an iterator over a fixed list. -/
def fixedAlloc : Alloc (List Lit)
  | [] => .error .stopIteration
  | l :: ls => .ok (l, ls)

/-- `[allocator() for _ in range(n)]`. -/
def allocMany {σ : Type} (al : Alloc σ) : Nat → σ → Except PyErr (List Lit × σ)
  | 0, s => .ok ([], s)
  | n + 1, s =>
    match al s with
    | .error e => .error e
    | .ok (l, s1) =>
      match allocMany al n s1 with
      | .error e => .error e
      | .ok (ls, s2) => .ok (l :: ls, s2)

/-- Every variable in the list of literals is `≤ s`. -/
def LBound (s : Nat) (ls : List Lit) : Prop := ∀ l ∈ ls, l.var ≤ s

/-- Every variable in the clauses is `≤ s`. -/
def CBound (s : Nat) (cs : Cnf) : Prop := ∀ c ∈ cs, LBound s c

end FSat
