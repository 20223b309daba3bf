import Verif.Model.Network
/-!
# Model of `factorio_sat/network.py`: `plot`

`network render` draws the network with graphviz.  A picture is the list of the nodes and the list of the arrows handed to graphviz, which
knows nodes by their names; how they are placed on the page is not modelled.
-/

namespace FSat

/-- `g.node(name, label=..., style='invis')`: the label is `none` if not given, when the name is shown. -/
structure PlotNode where
  name : List Char
  label : Option (List Char)
  hidden : Bool
deriving DecidableEq, Repr

/-- `g.edge(tail, head, label=..., arrowhead='none')`. -/
structure PlotArrow where
  tail : List Char
  head : List Char
  label : Option (List Char)
  headless : Bool
deriving DecidableEq, Repr

/-- What is handed to graphviz. -/
structure NetPicture where
  nodes : List PlotNode
  arrows : List PlotArrow
deriving DecidableEq, Repr

/-- network.py:76, 80. -/
def startName : List Char := ['s', 't', 'a', 'r', 't']
/-- network.py:77, 81. -/
def endName : List Char := ['e', 'n', 'd']
/-- network.py:99 `str(i)`. -/
def splitterName (i : Nat) : List Char := showInt i
/-- network.py:80, 81, 108 `'c{}'.format(colour)`. -/
def colourName (c : Int) : List Char := 'c' :: showInt c

/-- network.py:91, 95 `colour_occurences[colour].add((side, i))` on a `defaultdict(set)`, nothing for `None`.  The side is `false` for
`INPUT_SIDE`, a colour that splitter `i` gives, and `true` for `OUTPUT_SIDE`, a colour that it takes. -/
def addOccurrence (d : PyDict Int (List (Bool × Nat))) (c : Colour) (x : Bool × Nat) : PyDict Int (List (Bool × Nat)) :=
  match c with
  | none => d
  | some c => if x ∈ (d.get c).getD [] then d.set c ((d.get c).getD []) else d.set c ((d.get c).getD [] ++ [x])

/-- network.py:87-95: the body of the loop. -/
def addNode (d : PyDict Int (List (Bool × Nat))) (e : Node × Nat) : PyDict Int (List (Bool × Nat)) :=
  addOccurrence (addOccurrence (addOccurrence (addOccurrence d e.1.1.1 (true, e.2)) e.1.1.2 (true, e.2)) e.1.2.1 (false, e.2)) e.1.2.2 (false, e.2)

/-- network.py:86-95 `colour_occurences`. -/
def colourOccurrences (n : Network) : PyDict Int (List (Bool × Nat)) := n.zipIdx.foldl addNode []

/-- The order of `(side, node)` pairs in `sorted`, network.py:104. -/
def sideLe (x y : Bool × Nat) : Bool := (!x.1 && y.1) || (x.1 == y.1 && decide (x.2 ≤ y.2))

/-- network.py:100-118: the body of the loop.  `ord` is the order in which Python goes through a set.  The unpacking of two values fails
if there are not two. -/
def drawColour (ord : List (Bool × Nat) → List (Bool × Nat)) (c : Int) (occ : List (Bool × Nat)) : Except PyErr NetPicture :=
  let outputCount := occ.countP fun x => x.1
  let inputCount := occ.countP fun x => !x.1
  if inputCount = 1 ∧ outputCount = 1 then
    match (occ.insertionSort fun x y => sideLe x y = true).map Prod.snd with
    | [a, b] => .ok ⟨[], [⟨splitterName a, splitterName b, some (showInt c), false⟩]⟩
    | _ => .error .valueError
  else
    .ok ⟨[⟨colourName c, some (showInt c), false⟩], (ord occ).map fun x =>
      if x.1 then ⟨colourName c, splitterName x.2, none, false⟩
      else if outputCount ≠ 0 then ⟨splitterName x.2, colourName c, none, true⟩
      else ⟨splitterName x.2, colourName c, none, false⟩⟩

/-- network.py:73-118 `plot`, up to the call of graphviz. -/
def plot (ord : List (Bool × Nat) → List (Bool × Nat)) (n : Network) : Except PyErr NetPicture :=
  match getInputOutputColours n with
  | .error e => .error e
  | .ok ((a, _), (b, _)) =>
    match (colourOccurrences n).mapM fun e => drawColour ord e.1 e.2 with
    | .error e => .error e
    | .ok parts =>
      .ok ⟨⟨startName, none, true⟩ :: ⟨endName, none, true⟩ ::
          ((List.range n.length).map fun i => ⟨splitterName i, some [], false⟩) ++ parts.flatMap NetPicture.nodes,
        ⟨startName, colourName a, none, false⟩ :: ⟨colourName b, endName, none, false⟩ :: parts.flatMap NetPicture.arrows⟩

end FSat
