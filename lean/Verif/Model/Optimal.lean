import Verif.Model.Json
import Verif.Model.Network
import Mathlib.Data.Nat.Sqrt
/-!
# calculate_optimal.py: the store of results, objectives and the compute loop

The SAT solver runs (`solve_balancer`, lines 34-51) are external here: their results are inputs of the model.
-/

namespace FSat

/-- Maximum underground length, width, height (calculate_optimal.py:35). -/
abbrev Size := Int × Int × Int

/-- `all(d1 >= d2 for d1, d2 in zip(size, other_size))`, calculate_optimal.py:73. -/
def sizeGe (a b : Size) : Bool := a.1 ≥ b.1 && a.2.1 ≥ b.2.1 && a.2.2 ≥ b.2.2

/-- `all(d1 <= d2 for d1, d2 in zip(size, other_size))`, calculate_optimal.py:76. -/
def sizeLe (a b : Size) : Bool := a.1 ≤ b.1 && a.2.1 ≤ b.2.1 && a.2.2 ≤ b.2.2

/-- calculate_optimal.py:54-60 `NetworkSolutionStore`. -/
structure Store where
  network : Network
  name : List Char
  exist : PyDict Size Bool := []
  solutions : PyDict Size Json := []

/-- calculate_optimal.py:70-78 `does_balancer_exist`: the first record that decides. -/
def doesExist : PyDict Size Bool → Size → Option Bool
  | [], _ => none
  | (other, true) :: rest, size => if sizeGe size other then some true else doesExist rest size
  | (other, false) :: rest, size => if sizeLe size other then some false else doesExist rest size

/-- One turn of the loop calculate_optimal.py:81-87. -/
def cleanStep (d : PyDict Size Bool) (e : Size × Bool) : PyDict Size Bool :=
  if e.2 = true then d
  else
    let d := d.erase e.1
    if doesExist d e.1 ≠ some false then d.set e.1 e.2 else d

/-- calculate_optimal.py:80-87 `clean`: the loop runs over a copy of the records. -/
def cleanExist (d : PyDict Size Bool) : PyDict Size Bool := d.foldl cleanStep d

/-- calculate_optimal.py:80-87 `clean`. -/
def Store.clean (s : Store) : Store := { s with exist := cleanExist s.exist }

/-- calculate_optimal.py:106-109 `add_solution`. -/
def Store.add (s : Store) (size : Size) (solution : Option Json) : Store :=
  { s with
    exist := s.exist.set size solution.isSome
    solutions := match solution with
      | none => s.solutions
      | some v => s.solutions.set size v }

/-! ### The database file -/

/-- `','.join(map(str, key))`, calculate_optimal.py:102-103. -/
def keyText (k : Size) : List Char := showInt k.1 ++ ',' :: showInt k.2.1 ++ ',' :: showInt k.2.2

/-- `key.split(',')`, calculate_optimal.py:92, 97. -/
def splitComma : List Char → List (List Char)
  | [] => [[]]
  | c :: cs =>
    if c = ',' then [] :: splitComma cs
    else
      match splitComma cs with
      | [] => [[c]]
      | w :: ws => (c :: w) :: ws

/-- `underground_length, width, height = map(int, key.split(','))`, calculate_optimal.py:92, 97. (`int` also allows spaces around a number, which are never
written.) -/
def readKey (k : List Char) : Except PyErr Size :=
  match intsOf (splitComma k) with
  | .error e => .error e
  | .ok [a, b, c] => .ok (a, b, c)
  | .ok _ => .error .valueError

/-- `'exist'`, calculate_optimal.py:91, 102. -/
def existKey : List Char := ['e', 'x', 'i', 's', 't']

/-- `'solutions'`, calculate_optimal.py:96, 103. -/
def solutionsKey : List Char := ['s', 'o', 'l', 'u', 't', 'i', 'o', 'n', 's']

/-- calculate_optimal.py:100-104 `to_json`. -/
def Store.toJson (s : Store) : Json :=
  .obj [(existKey, .obj (PyDict.ofPairs (s.exist.map fun e => (keyText e.1, Json.bool e.2)))),
    (solutionsKey, .obj (PyDict.ofPairs (s.solutions.map fun e => (keyText e.1, e.2))))]

/-- `data.get(key, {}).items()`, calculate_optimal.py:91, 96. -/
def itemsOf (data : Json) (key : List Char) : Except PyErr (List (List Char × Json)) :=
  match data with
  | .obj o =>
    match PyDict.get o key with
    | none => .ok []
    | some (.obj items) => .ok items
    | some _ => .error .attributeError
  | _ => .error .attributeError

/-- The loop calculate_optimal.py:91-93. A value that is not a boolean, which is never written, is an error here. -/
def readExist : List (List Char × Json) → PyDict Size Bool → Except PyErr (PyDict Size Bool)
  | [], d => .ok d
  | (k, v) :: rest, d =>
    match readKey k, v with
    | .error e, _ => .error e
    | .ok k, .bool b => readExist rest (d.set k b)
    | .ok _, _ => .error .typeError

/-- The loop calculate_optimal.py:96-98. -/
def readSolutions : List (List Char × Json) → PyDict Size Json → Except PyErr (PyDict Size Json)
  | [], d => .ok d
  | (k, v) :: rest, d =>
    match readKey k with
    | .error e => .error e
    | .ok k => readSolutions rest (d.set k v)

/-- calculate_optimal.py:89-98 `from_json`. -/
def Store.fromJson (s : Store) (data : Json) : Except PyErr Store :=
  match itemsOf data existKey with
  | .error e => .error e
  | .ok items =>
    match readExist items [] with
    | .error e => .error e
    | .ok exist =>
      match itemsOf data solutionsKey with
      | .error e => .error e
      | .ok items =>
        match readSolutions items [] with
        | .error e => .error e
        | .ok solutions => .ok { s with exist := exist, solutions := solutions }

/-- The value written by `save_progress`, calculate_optimal.py:283-285. -/
def databaseOf (stores : List Store) : Json := .obj (PyDict.ofPairs (stores.map fun s => (s.name, s.toJson)))

/-- The loop calculate_optimal.py:274-278. -/
def readStores (data : Json) : List Store → Except PyErr (List Store)
  | [] => .ok []
  | s :: rest =>
    match data with
    | .obj o =>
      match PyDict.get o s.name with
      | none => (readStores data rest).map (s :: ·)
      | some .null => (readStores data rest).map (s :: ·)
      | some item =>
        match s.fromJson item with
        | .error e => .error e
        | .ok s => (readStores data rest).map (s :: ·)
    | _ => .error .attributeError

/-- calculate_optimal.py:271-280: what a program start reads. `none` means that there is no file. -/
def startUp (file : Option (List Char)) (stores : List Store) : Except PyErr (List Store) :=
  match file with
  | none => .ok stores
  | some text =>
    match Json.loads text with
    | .error e => .error e
    | .ok data => readStores data stores

/-- calculate_optimal.py:282-287 `save_progress`: `open(result_file, 'w')` empties the file, then the text is written piece by piece.
The states of the file in which a crash may leave it. -/
def saveStates (old : Option (List Char)) (stores : List Store) : List (Option (List Char)) :=
  old :: (List.range ((databaseOf stores).dumps.length + 1)).map fun k => some ((databaseOf stores).dumps.take k)

/-! ### Objectives -/

/-- calculate_optimal.py:24-31 `factors`. `math.floor(math.sqrt(value))` is taken to be exact, as it is below 2^52. -/
def factors (value : Nat) : List (Nat × Nat) :=
  ((List.range' 1 (Nat.sqrt value)).reverse).flatMap fun test =>
    if value % test = 0 then
      let a := test
      let b := value / test
      if a ≠ b then [(a, b), (b, a)] else [(a, b)]
    else []

/-- Beyond this width no size is recorded as impossible, and the interior is large enough for all splitters. Only used to show that the
loops below end: see `c51_total`. -/
def Store.widthBound (s : Store) : Nat := 2 * s.network.length + 3 + (s.exist.map fun e => e.1.2.1.natAbs).sum

/-- The loop calculate_optimal.py:130-139, for a number of turns; `none` when it has not ended by then. -/
def lengthLoop (s : Store) (ul height : Int) : Nat → Int → Option (Option Size)
  | 0, _ => none
  | fuel + 1, width =>
    match doesExist s.exist (ul, width, height) with
    | some true => some none
    | existence =>
      if (width - 2) * height ≥ 2 * (s.network.length : Int) ∧ existence = none then some (some (ul, width, height))
      else lengthLoop s ul height fuel (width + 1)

/-- The inner loop calculate_optimal.py:151-164 over the factors; `none` when the loop runs to its end. -/
def areaPick (s : Store) (ul minHeight : Int) : List (Nat × Nat) → Option (Option Size)
  | [] => none
  | (width, height) :: rest =>
    if (height : Int) < minHeight ∨ (height : Int) > 2 * minHeight then areaPick s ul minHeight rest
    else if (width : Int) * height < 2 * (s.network.length : Int) then areaPick s ul minHeight rest
    else
      match doesExist s.exist (ul, (width : Int) + 2, (height : Int)) with
      | some true => some none
      | none => some (some (ul, (width : Int) + 2, (height : Int)))
      | some false => areaPick s ul minHeight rest

/-- The loop calculate_optimal.py:150-165, for a number of turns. -/
def areaLoop (s : Store) (ul minHeight : Int) : Nat → Nat → Option (Option Size)
  | 0, _ => none
  | fuel + 1, area =>
    match areaPick s ul minHeight (factors area) with
    | some r => some r
    | none => areaLoop s ul minHeight fuel (area + 1)

/-- `'length'` and `'area'`, calculate_optimal.py:246. -/
inductive Objective where
  | length | area
deriving DecidableEq

/-- calculate_optimal.py:125-139 and 146-165 `next_size`, with fuel for the endless loop. -/
def nextSizeFuel (obj : Objective) (s : Store) (ul : Int) (fuel : Nat) : Except PyErr (Option (Option Size)) :=
  match getInputOutputColours s.network with
  | .error e => .error e
  | .ok ((_, inputs), (_, outputs)) =>
    let height := max inputs outputs
    match obj with
    | .length => .ok (lengthLoop s ul height fuel 3)
    | .area => .ok (areaLoop s ul height fuel height.toNat)

/-- `next_size` (calculate_optimal.py:125-139, 146-165): enough fuel for the loop to end (`c51_total`). -/
def nextSize (obj : Objective) (s : Store) (ul : Int) : Except PyErr (Option Size) :=
  match getInputOutputColours s.network with
  | .error e => .error e
  | .ok ((_, inputs), (_, outputs)) =>
    match nextSizeFuel obj s ul (s.widthBound * (max inputs outputs).toNat + s.widthBound + 1) with
    | .error e => .error e
    | .ok none => .error .runtimeError
    | .ok (some r) => .ok r

/-- `objective.loss(size[1:])`, calculate_optimal.py:141-142 and 167-168; a pair compared lexicographically (the second component is
not used for the area). -/
def loss (obj : Objective) (size : Size) : Int × Int :=
  match obj with
  | .length => (size.2.2, size.2.1)
  | .area => ((size.2.1 - 2) * size.2.2, 0)

/-- The comparison of Python tuples, in `min` of calculate_optimal.py:113. -/
def pairLt (a b : Int × Int) : Bool := a.1 < b.1 || (a.1 = b.1 && a.2 < b.2)

/-- `min(items, key=...)` of calculate_optimal.py:113: the first item with the least key. -/
def minItem (key : Size → Int × Int) : List (Size × Json) → Option (Size × Json)
  | [] => none
  | x :: xs => some (xs.foldl (fun best y => if pairLt (key y.1) (key best.1) then y else best) x)

/-- calculate_optimal.py:111-113 `best_current_solution` (no loss is infinite). -/
def Store.best (obj : Objective) (s : Store) (ul : Int) : Option Json :=
  (minItem (loss obj) (s.solutions.filter fun e => e.1.1 ≤ ul)).map Prod.snd

/-! ### The compute loop -/

/-- Where a coroutine `optimise` (calculate_optimal.py:312-325) stands. -/
inductive TaskState where
  | waiting (size : Size)
  | done
  | failed (e : PyErr)

/-- A store and the coroutine that works on it, calculate_optimal.py:312-325. -/
structure Task where
  store : Store
  state : TaskState

/-- calculate_optimal.py:314-318: up to the next solver run. -/
def Task.go (obj : Objective) (ul : Int) (s : Store) : Task :=
  match nextSize obj s ul with
  | .error e => ⟨s, .failed e⟩
  | .ok none => ⟨s, .done⟩
  | .ok (some size) => ⟨s, .waiting size⟩

/-- calculate_optimal.py:318-325: the solver run of a waiting task has ended with `solution`. -/
def Task.resume (obj : Objective) (ul : Int) (t : Task) (solution : Option Json) : Task :=
  match t.state with
  | .waiting size => Task.go obj ul ((t.store.add size solution).clean)
  | _ => t

/-- All tasks, and the file: calculate_optimal.py:327-330. -/
structure Sys where
  tasks : List Task
  file : Option (List Char)

/-- calculate_optimal.py:327-330: all coroutines are started. (A coroutine that fails ends the program; here the others go on.) -/
def Sys.start (obj : Objective) (ul : Int) (stores : List Store) (file : Option (List Char)) : Sys :=
  ⟨stores.map (Task.go obj ul), file⟩

/-- One solver run ends: between two awaits the event loop runs a single coroutine, including `save_progress`
(calculate_optimal.py:320-323). The file is written before the next size is looked for. -/
def Sys.event (obj : Objective) (ul : Int) (y : Sys) (ev : Nat × Option Json) : Sys :=
  match y.tasks[ev.1]? with
  | none => y
  | some t =>
    match t.state with
    | .waiting _ =>
      let tasks := y.tasks.set ev.1 (t.resume obj ul ev.2)
      ⟨tasks, some (databaseOf (tasks.map Task.store)).dumps⟩
    | _ => y

/-- A history of `asyncio.gather`, calculate_optimal.py:330: solver runs end in any order. -/
def Sys.run (obj : Objective) (ul : Int) (y : Sys) (evs : List (Nat × Option Json)) : Sys := evs.foldl (Sys.event obj ul) y

end FSat
