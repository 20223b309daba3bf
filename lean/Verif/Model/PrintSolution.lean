import Verif.Model.Solver
import Verif.Model.Commands
import Verif.Model.Search
import Verif.Model.BalancerMain
/-!
# What the programs print for an answer of the solver

`BaseGrid.parse_solution` (template.py:388-393), `FactorioGrid.parse_cell` (452-455), `Grid.read_tile` (solver.py:247-272) and the loops
`for solution in grid.itersolve(...): print(json.dumps(solution.tolist()))` (belt_balancer.py:382-385, interchange.py:247-250,
belt_balancer_net_free.py:402-405, belt_balancer_net_free_power_of_2.py:125-128).
-/

namespace FSat

/-- A nested list as JSON. -/
def nestedJson {α : Type} (f : α → Json) : (shape : List Nat) → Nested α shape → Json
  | [], a => f a
  | _ :: shape, as => .arr (List.map (nestedJson f shape) as)

mutual
/-- The Python value that `parse` returns (template.py:141-142, 160-170, 190-192, 197-202, 209-211, 240-247), as `json.dumps` writes
it. -/
def Tmpl.json : (t : Tmpl) → t.Val → Json
  | .bool, b => .bool b
  | .array c shape, v => nestedJson c.json shape v
  | .manyHot _, v => .arr (List.map (fun j : Nat => .int j) v)
  | .oneHot _, v =>
    match (v : Option Nat) with
    | none => .null
    | some j => .int (j : Nat)
  | .number _ _, v => .int v
  | .composite fs, v => .obj (fs.members v)
/-- The dictionary of template.py:240-247.  The aliases are not in it. -/
def TFields.members : (fs : TFields) → fs.Val → Fields
  | .nil, _ => []
  | .cons name t rest, v => (name.toList, t.json v.1) :: rest.members v.2
end

/-- `cell[name]`. -/
def cellGet (cell : Fields) (name : String) : Except PyErr Json :=
  match PyDict.get cell name.toList with
  | none => .error .keyError
  | some v => .ok v

/-- The truth of a value; only truth values occur. -/
def truthOf : Json → Bool
  | .bool b => b
  | _ => false

/-- solver.py:248-253: `None` stays, a number becomes a `Direction`. -/
def directionOf : Json → Except PyErr (Option Dir)
  | .null => .ok none
  | .int n =>
    match Dir.ofInt n with
    | .error e => .error e
    | .ok d => .ok (some d)
  | _ => .error .valueError

/-- `Splitter(direction, head)` where the direction must not be `None`, and so on: solver.py:259, 265, 268. -/
def assertSome : Option Dir → Except PyErr Dir
  | none => .error .assertion
  | some d => .ok d

/-- solver.py:247-272 `read_tile`.  `Belt(None, _)` raises `AttributeError` in `__post_init__` (tile.py:84-86); `Belt(i, None)` does not
raise in Python but is an error here; neither occurs when the clauses of the grid hold. -/
def readParsed (cell : Fields) : Except PyErr Tile := do
  let input ← directionOf (← cellGet cell "input_direction")
  let output ← directionOf (← cellGet cell "output_direction")
  if truthOf (← cellGet cell "is_splitter") then
    let d ← assertSome (if input = none then output else input)
    .ok (.splitter d (truthOf (← cellGet cell "is_splitter_head")))
  else if truthOf (← cellGet cell "is_empty") then .ok .empty
  else if truthOf (← cellGet cell "is_underground_in") then
    .ok (.underground (← assertSome input) true)
  else if truthOf (← cellGet cell "is_underground_out") then
    .ok (.underground (← assertSome output) false)
  else if truthOf (← cellGet cell "is_belt") then
    match input, output with
    | some i, some o => Tile.mkBelt i o
    | _, _ => .error .attributeError
  else .error .assertion

/-- template.py:452-455 `parse_cell`. -/
def parseCell (colours : Option Nat) (extras : TFields) (m : Mapping) (i : (gridFields colours extras).Inst) : Except PyErr Fields :=
  match (gridFields colours extras).parse m i with
  | .error e => .error e
  | .ok x =>
    match readParsed ((gridFields colours extras).members x) with
    | .error e => .error e
    | .ok t => .ok (PyDict.set ((gridFields colours extras).members x) Word.tile (tileJson t))

instance : Inhabited Fields := ⟨[]⟩

/-- template.py:391-393 `parse_solution`, on a grid that was made with pool counter `s`. -/
def parseSolution (width height : Nat) (colours : Option Nat) (extras : TFields) (s : Nat) (solution : List Lit) :
    Except PyErr (Arr Fields) :=
  eachCell (parseCell colours extras (mappingOf solution))
    ⟨height, width, fun y x => cellInstance width colours extras s x.val y.val⟩

/-- `json.dumps(solution.tolist())` of a parsed answer (belt_balancer.py:383, interchange.py:248, belt_balancer_net_free.py:403,
belt_balancer_net_free_power_of_2.py:126). -/
def solutionText (width height : Nat) (colours : Option Nat) (extras : TFields) (s : Nat) (solution : List Lit) :
    Except PyErr (List Char) :=
  match parseSolution width height colours extras s solution with
  | .error e => .error e
  | .ok a => .ok (listOf (a.map .obj)).dumps

/-- belt_balancer.py:382-385 and its likes: the loop over the answers, with `--all` or without. -/
def printLoop (text : List Lit → Except PyErr (List Char)) (all : Bool) : List (List Lit) → Run
  | [] => ⟨[], .finished⟩
  | m :: ms =>
    match text m with
    | .error e => ⟨[], .raised e⟩
    | .ok s =>
      if all then ⟨s ++ '\n' :: (printLoop text all ms).out, (printLoop text all ms).ending⟩ else ⟨s ++ ['\n'], .finished⟩

/-- belt_balancer.py:328-385, what `main` prints: the first solution, or with `--all` those of `fuel` rounds of `itersolve`.  Only the
colours are not looked at by the enumeration (`ignore_colour=True`). -/
def balancerRun (lib : CardLib) (net : PyDict Node Nat) (width height : Nat) (ugLen : Option Nat) (o : BalancerOptions) (solver : Oracle)
    (all : Bool) (fuel : Nat) : Run :=
  match balancerMain lib net width height ugLen o with
  | .error e => ⟨[], .raised e⟩
  | .ok (g, _, cs, _) => printLoop (solutionText width height g.colours (nodeFields net.length) 0) all
      (itersolve solver ((importantLits g true).map Lit.var) (if all then fuel else 1) cs).1

end FSat
