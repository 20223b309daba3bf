import Verif.Model.Commands
import Verif.Model.Crosstable
/-!
# calculate_optimal.py: the mode `query`

Lines 255-310 for `query`: the stores are filled from the database, sorted, and one line is printed for each network with a result.
-/

namespace FSat

/-- `NetworkSolutionStore(path)`, calculate_optimal.py:55-60, of a network that could be read: nothing is recorded. -/
def freshStore (e : List Char × Network) : Store := ⟨e.2, e.1, [], []⟩

/-- `' to '.join(name.split('x'))`, calculate_optimal.py:292: every `x` becomes ` to `. -/
def exportLabel (name : List Char) : List Char := name.flatMap fun c => if c = 'x' then [' ', 't', 'o', ' '] else [c]

/-- calculate_optimal.py:291-297 `encode_solution` with `--export-blueprints`: the level is a string (`get_belt_level`, line 171). -/
def exportSolution (c : Codec) (name : List Char) (solution : Json) : Except PyErr (List Char) :=
  match gridOf solution with
  | .error e => .error e
  | .ok g =>
    match vectorize cellTile g with
    | .error e => .error e
    | .ok a =>
      match makeBlueprint .text (some (exportLabel name)) a with
      | .error e => .error e
      | .ok data => .ok (encodeBlueprint c data)

/-- calculate_optimal.py:290-300 `encode_solution`; `export` is the codec when `--export-blueprints` is given. -/
def encodeSolution (export? : Option Codec) (name : List Char) (solution : Json) : Except PyErr (List Char) :=
  match export? with
  | some c => exportSolution c name solution
  | none => .ok solution.dumps

/-- calculate_optimal.py:303-304: is the store passed over? -/
def passedOver (obj : Objective) (ul : Int) (imperfect : Bool) (s : Store) : Except PyErr Bool :=
  if imperfect then .ok false
  else
    match nextSize obj s ul with
    | .error e => .error e
    | .ok r => .ok r.isSome

/-- One turn of the loop calculate_optimal.py:302-310: the line that is printed, if any. -/
def queryStore (export? : Option Codec) (obj : Objective) (ul : Int) (imperfect : Bool) (s : Store) : Except PyErr (Option (List Char)) :=
  match passedOver obj ul imperfect s with
  | .error e => .error e
  | .ok true => .ok none
  | .ok false =>
    match s.best obj ul with
    | none => .ok none
    | some .null => .ok none
    | some solution =>
      match encodeSolution export? s.name solution with
      | .error e => .error e
      | .ok line => .ok (some line)

/-- The loop calculate_optimal.py:302-310. -/
def queryLoop (export? : Option Codec) (obj : Objective) (ul : Int) (imperfect : Bool) : List Store → Run
  | [] => ⟨[], .finished⟩
  | s :: rest =>
    match queryStore export? obj ul imperfect s with
    | .error e => ⟨[], .raised e⟩
    | .ok none => queryLoop export? obj ul imperfect rest
    | .ok (some line) =>
      let more := queryLoop export? obj ul imperfect rest
      ⟨line ++ '\n' :: more.out, more.ending⟩

/-- calculate_optimal.py:266-310, mode `query`: `listing` is what `os.listdir` returns, with the networks of the files, and `file` the
contents of the database. -/
def queryMain (export? : Option Codec) (obj : Objective) (ul : Int) (imperfect : Bool) (file : Option (List Char))
    (listing : List (List Char × Network)) : Run :=
  match startUp file (listing.map freshStore) with
  | .error e => ⟨[], .raised e⟩
  | .ok stores => queryLoop export? obj ul imperfect (sortStores stores)

end FSat
