import Verif.Model.Network
/-!
# Model of `simplify` in `factorio_sat/network.py`

No program calls `simplify`; it is for use from Python.  Nodes are tuples of tuples; the order in which a set is iterated is the parameter
`ord`, as in `Model/Network`.
-/

namespace FSat

/-- network.py:174-178 and 187-191: `colour_map` with `None` for every colour of the pair. -/
def noneMap (s : Colour × Colour) : PyDict Colour Colour :=
  ([s.1, s.2].filter (· ≠ none)).foldl (fun d c => d.set c none) []

/-- network.py:200-203 and 205-208: the first colour, or else the second, which must be there. -/
def soleColour (s : Colour × Colour) : Except PyErr Colour :=
  if s.1 = none then if s.2 = none then .error .assertion else .ok s.2 else .ok s.1

/-- network.py:167-212, the body of the first loop: `none` if it goes on with the next node. -/
def simplifyNode (n : Network) (nd : Node) : Option (Except PyErr Network) :=
  if nd.1.1 = none ∧ nd.1.2 = none then some (remapColours (n.erase nd) (noneMap nd.2))
  else if nd.2.1 = none ∧ nd.2.2 = none then some (remapColours (n.erase nd) (noneMap nd.1))
  else if (nd.1.1 = none ∨ nd.1.2 = none) ∧ (nd.2.1 = none ∨ nd.2.2 = none) then
    some (match soleColour nd.1 with
      | .error e => .error e
      | .ok c =>
        match soleColour nd.2 with
        | .error e => .error e
        | .ok d => remapColours (n.erase nd) [(c, d)])
  else none

/-- network.py:227: `set(item) - set([None])`. -/
def sideSet (s : Colour × Colour) : List Colour := colourSet [s.1, s.2]

/-- Equality of sets. -/
def sameSet {α : Type} [DecidableEq α] (a b : List α) : Prop := (∀ x ∈ a, x ∈ b) ∧ ∀ x ∈ b, x ∈ a

instance {α : Type} [DecidableEq α] (a b : List α) : Decidable (sameSet a b) := by unfold sameSet; infer_instance

/-- network.py:214-220 `colour_sources` and `colour_drains`, for one side of the nodes. -/
def lastNode (side : Node → Colour × Colour) (n : Network) : PyDict Colour Int :=
  n.zipIdx.foldl (fun d e => (d.set (side e.1).1 (e.2 : Int)).set (side e.1).2 (e.2 : Int)) []

/-- network.py:239 and 250: the nodes at the other end of the colours, -1 if there is none. -/
def otherEnds (d : PyDict Colour Int) (cs : List Colour) : List Int := cs.map fun c => (d.get c).getD (-1)

/-- `network.remove(node_a)` and `network[network.index(node_b)] = new`. -/
def mergeNodes (n : Network) (a b new : Node) : Network := (n.erase a).replace b new

/-- The two elements of a set, in the order of iteration. -/
def asPair (ord : List Colour → List Colour) (l : List Colour) : Colour × Colour :=
  match ord l with
  | x :: y :: _ => (x, y)
  | [x] => (x, none)
  | [] => (none, none)

/-- network.py:224-258, the body of the second pair of loops: `none` if they go on with the next pair. -/
def simplifyPair (ord : List Colour → List Colour) (allowBottleneck : Bool) (n : Network) (a b : Node) : Option (Except PyErr Network) :=
  if a = b then none
  else
    let inA := sideSet a.1
    let outA := sideSet a.2
    let inB := sideSet b.1
    let outB := sideSet b.2
    if sameSet outA inB then
      some (if outA.length ≠ 1 ∧ inB.length ≠ 1 then .ok (mergeNodes n a b (a.1, b.2)) else .error .assertion)
    else if allowBottleneck = true ∧ (outA.length = 1 ∧ outB.length = 1 ∧ inA.length = 2 ∧ inB.length = 2) ∧
        (-1 : Int) ∉ otherEnds (lastNode Prod.snd n) inA ∧
        sameSet (otherEnds (lastNode Prod.snd n) inA) (otherEnds (lastNode Prod.snd n) inB) then
      some (remapColours (mergeNodes n a b (asPair ord inA, ((asPair ord outA).1, (asPair ord outB).1)))
        ((ord inB).map fun c => (c, none)))
    else if allowBottleneck = true ∧ (inA.length = 1 ∧ inB.length = 1 ∧ outA.length = 2 ∧ outB.length = 2) ∧
        (-1 : Int) ∉ otherEnds (lastNode Prod.fst n) outA ∧
        sameSet (otherEnds (lastNode Prod.fst n) outA) (otherEnds (lastNode Prod.fst n) outB) then
      some (remapColours (mergeNodes n a b (((asPair ord inA).1, (asPair ord inB).1), asPair ord outA))
        ((ord outB).map fun c => (c, none)))
    else none

/-- One round of the outer loop network.py:166-262: `none` if nothing is left to do. -/
def simplifyStep (ord : List Colour → List Colour) (allowBottleneck : Bool) (n : Network) : Option (Except PyErr Network) :=
  match n.findSome? (simplifyNode n) with
  | some r => some r
  | none => n.findSome? fun a => n.findSome? fun b => simplifyPair ord allowBottleneck n a b

/-- network.py:165-264 `simplify` with at most `fuel` rounds; `none` if they were not enough. -/
def simplifyLoop (ord : List Colour → List Colour) (allowBottleneck : Bool) : Nat → Network → Option (Except PyErr Network)
  | 0, _ => none
  | fuel + 1, n =>
    match simplifyStep ord allowBottleneck n with
    | none => some (.ok n)
    | some (.error e) => some (.error e)
    | some (.ok n') => simplifyLoop ord allowBottleneck fuel n'

end FSat
