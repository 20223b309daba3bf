import Verif.Model.Dict
import Verif.Spec.Search
import Mathlib.Data.List.Sort
import Mathlib.Data.List.Dedup
/-!
# Model of `factorio_sat/network.py`: splitter networks

A network is a list of nodes `((in_a, in_b), (out_a, out_b))`; a colour is an int or `None`.  Sets are lists without duplicates; the
order in which a set is iterated is not specified by Python, so it is a parameter `ord` of every function that depends on it.
-/

namespace FSat

/-- A colour: an int or `None`. -/
abbrev Colour := Option Int
/-- A splitter: the colours of its two inputs and of its two outputs. -/
abbrev Node := (Colour × Colour) × (Colour × Colour)
/-- A network. -/
abbrev Network := List Node

/-- All input colours, in order (the loop network.py:137-139, before they are put in a set). -/
def insOf (n : Network) : List Colour := n.flatMap fun nd => [nd.1.1, nd.1.2]

/-- All output colours, in order. -/
def outsOf (n : Network) : List Colour := n.flatMap fun nd => [nd.2.1, nd.2.2]

/-- The set of the colours in a list, without `None` (`|= set(...)` and `discard(None)`, network.py:137-142). -/
def colourSet (l : List Colour) : List Colour := (l.filter (· ≠ none)).dedup

/-- Iterating over a set visits each element once, in some order. -/
def SetOrder (ord : List Colour → List Colour) : Prop := ∀ l, (ord l).Perm l

/-! ### `get_input_output_colours` -/

/-- `occurences[colour] += k` on a `defaultdict(lambda: 0)`, network.py:278-283. -/
def bump (d : PyDict Colour Int) (c : Colour) (k : Int) : PyDict Colour Int := d.set c ((d.get c).getD 0 + k)

/-- network.py:279-283. -/
def occurrences (n : Network) : PyDict Colour Int :=
  n.foldl (fun d nd => bump (bump (bump (bump d nd.1.1 1) nd.1.2 1) nd.2.1 (-1)) nd.2.2 (-1)) []

/-- network.py:287-296: the loop over the counts with the two assertions. -/
def pickEnds : List (Int × Int) → Option (Int × Int) → Option (Int × Int) → Except PyErr (Option (Int × Int) × Option (Int × Int))
  | [], inp, out => .ok (inp, out)
  | (c, k) :: rest, inp, out =>
    if k > 0 then
      if inp.isSome then .error .assertion else pickEnds rest (some (c, k)) out
    else if k < 0 then
      if out.isSome then .error .assertion else pickEnds rest inp (some (c, -k))
    else pickEnds rest inp out

/-- network.py:277-301 `get_input_output_colours`: `((input colour, count), (output colour, count))`. -/
def getInputOutputColours (n : Network) : Except PyErr ((Int × Int) × (Int × Int)) :=
  match pickEnds ((occurrences n).filterMap fun e => e.1.map fun c => (c, e.2)) none none with
  | .error e => .error e
  | .ok (some i, some o) => .ok (i, o)
  | .ok _ => .error .assertion

/-- network.py:304-315 `get_exterior_colours`. -/
def getExteriorColours (n : Network) : List Colour × List Colour :=
  let i := colourSet (insOf n)
  let o := colourSet (outsOf n)
  (i.filter (· ∉ o), o.filter (· ∉ i))

/-- network.py:318-329 `calculate_network_size`. -/
def calculateNetworkSize (n : Network) : Nat × Nat :=
  ((getExteriorColours n).1.length, (getExteriorColours n).2.length)

/-- network.py:267-274 `calculate_total_colours`. -/
def calculateTotalColours (n : Network) : Nat := (colourSet (insOf n ++ outsOf n)).length

/-! ### Renaming -/

/-- `colour_map.get(colour, colour)`. -/
def mapColour (m : PyDict Colour Colour) (c : Colour) : Colour := (m.get c).getD c

/-- network.py:124-130 `remap_colours`. -/
def remapColours (n : Network) (m : PyDict Colour Colour) : Except PyErr Network :=
  if (m.get none).isSome then .error .assertion
  else .ok (n.map fun nd => ((mapColour m nd.1.1, mapColour m nd.1.2), (mapColour m nd.2.1, mapColour m nd.2.2)))

/-- network.py:133-162 `fix_colours`. -/
def fixColours (ord : List Colour → List Colour) (n : Network) : Except PyErr Network :=
  let inC := colourSet (insOf n)
  let outC := colourSet (outsOf n)
  let all := (inC ++ outC).dedup
  let remaining := inC.filter (· ∈ outC)
  let inOnly := inC.filter (· ∉ outC)
  let outOnly := outC.filter (· ∉ inC)
  let m1 := ((ord inOnly).zip (List.range all.length)).foldl (fun (d : PyDict Colour Colour) p => d.set p.1 (some (p.2 : Int))) []
  let first := inOnly.length + remaining.length
  let m2 := ((ord outOnly).zip (List.range' first (all.length - first))).foldl
    (fun (d : PyDict Colour Colour) p => d.set p.1 (some (p.2 : Int))) m1
  let m3 := ((ord remaining).zip (List.range' inOnly.length remaining.length)).foldl
    (fun (d : PyDict Colour Colour) p => d.set p.1 (some (p.2 : Int))) m2
  if m3.length = all.length then remapColours n m3 else .error .assertion

/-! ### Files -/

/-- `file.readlines()`: the lines of a text with their terminators. -/
def readLines : List Char → List (List Char)
  | [] => []
  | c :: cs =>
    if c = '\n' then [c] :: readLines cs
    else
      match readLines cs with
      | [] => [[c]]
      | l :: ls => (c :: l) :: ls

/-- `line.strip()` on ASCII white space. -/
def stripWs (l : List Char) : List Char := ((l.dropWhile Char.isWhitespace).reverse.dropWhile Char.isWhitespace).reverse

/-- network.py:352-354: `-1` stands for `None`. -/
def colourOfInt (k : Int) : Colour := if k = -1 then none else some k

/-- The loop network.py:341-358. -/
def openLines : List (List Char) → Except PyErr Network
  | [] => .ok []
  | line :: rest =>
    let line := stripWs line
    if line.length = 0 then openLines rest
    else if line.head? = some '#' then openLines rest
    else
      match intsOf (splitWs line) with
      | .error e => .error e
      | .ok [a, b, c, d] =>
        match openLines rest with
        | .error e => .error e
        | .ok n => .ok (((colourOfInt a, colourOfInt b), (colourOfInt c, colourOfInt d)) :: n)
      | .ok _ => .error .valueError

/-- network.py:332-360 `open_network`, given the text of the file. -/
def openNetwork (text : List Char) : Except PyErr Network := openLines (readLines text)

/-- network.py:369-371: `None` is written as `-1`. -/
def intOfColour (c : Colour) : Int := c.getD (-1)

/-- network.py:367-373: one line. -/
def saveLine (nd : Node) : List Char :=
  showInt (intOfColour nd.1.1) ++ ' ' :: showInt (intOfColour nd.1.2) ++ ' ' :: showInt (intOfColour nd.2.1) ++
    ' ' :: showInt (intOfColour nd.2.2) ++ ['\n']

/-- network.py:363-373 `save_network`: the text written. -/
def saveNetwork (n : Network) : List Char := n.flatMap saveLine

/-! ### `flip_network`, `deduplicate_network`, `tidy_network` -/

/-- network.py:376-377. -/
def flipNetwork (n : Network) : Network := n.map fun nd => (nd.2, nd.1)

/-- network.py:669-670: the comparison of the keys, `None` being minus infinity. -/
def colourLt : Colour → Colour → Bool
  | none, some _ => true
  | some a, some b => a < b
  | _, none => false

/-- `tuple(sorted(side, key=key))` of two elements; `sorted` is stable. -/
def sortSide (s : Colour × Colour) : Colour × Colour := if colourLt s.2 s.1 then (s.2, s.1) else s

/-- network.py:671. -/
def sortNode (nd : Node) : Node := (sortSide nd.1, sortSide nd.2)

/-- `collections.Counter(nodes)`. -/
def counter (ns : List Node) : PyDict Node Nat := ns.foldl (fun d x => d.set x ((d.get x).getD 0 + 1)) []

/-- network.py:668-672 `deduplicate_network`. -/
def deduplicateNetwork (n : Network) : PyDict Node Nat := counter (n.map sortNode)

/-- `Counter.elements()`. -/
def elements (d : PyDict Node Nat) : Network := d.flatMap fun e => List.replicate e.2 e.1

/-- network.py:680-681. -/
def noneKey (c : Colour) : Int := c.getD (-1)

/-- `tuple(sorted(side, key=none_key))`. -/
def tidySide (s : Colour × Colour) : Colour × Colour := if noneKey s.2 < noneKey s.1 then (s.2, s.1) else s

/-- `network.sort(key=key)`, stable. -/
def sortBy (key : Node → Int) (n : Network) : Network := n.insertionSort fun a b => key a ≤ key b

/-- The second key, network.py:687. -/
def edgeKey (inC outC : List Colour) (nd : Node) : Int :=
  (([nd.2.1, nd.2.2].countP (· ∈ outC) : Nat) : Int) - (([nd.1.1, nd.1.2].countP (· ∈ inC) : Nat) : Int)

/-- network.py:675-689 `tidy_network`. -/
def tidyNetwork (ord : List Colour → List Colour) (n : Network) : Except PyErr Network :=
  match fixColours ord n with
  | .error e => .error e
  | .ok n =>
    let ext := getExteriorColours n
    let n := n.map fun nd => (tidySide nd.1, tidySide nd.2)
    .ok (sortBy (edgeKey ext.1 ext.2) (sortBy (fun nd => noneKey nd.1.1) n))

/-! ### `create_benes_network` -/

/-- network.py:31-41: one input of the first splitter that takes the input colour is replaced by the output colour. -/
def replaceFirst (a b : Int) : Network → Network
  | [] => []
  | nd :: rest =>
    if nd.1.1 = some a then ((some b, nd.1.2), nd.2) :: rest
    else if nd.1.2 = some a then ((some b, nd.1.1), nd.2) :: rest
    else nd :: replaceFirst a b rest

/-- network.py:58-64: the two colour maps of the inner networks. `rest` is the iteration order of the inner colours. -/
def innerMaps (a b : Int) (rest : List Colour) : PyDict Colour Colour × PyDict Colour Colour :=
  let r := rest.foldl (fun (s : PyDict Colour Colour × PyDict Colour Colour × Int) c =>
    (s.1.set c (some (s.2.2 + 0)), s.2.1.set c (some (s.2.2 + 1)), s.2.2 + 2)) ([(some a, some 1)], [(some a, some 2)], 3)
  (r.1.set (some b) (some r.2.2), r.2.1.set (some b) (some r.2.2))

/-- network.py:44-70: the even case, given the inner network. -/
def benesEven (ord : List Colour → List Colour) (innerSize : Nat) (inner : Network) : Except PyErr Network :=
  let all := (insOf inner ++ outsOf inner).dedup
  match getInputOutputColours inner with
  | .error e => .error e
  | .ok ((a, _), (b, _)) =>
    let m := innerMaps a b (ord (all.filter fun c => c ≠ some a ∧ c ≠ some b))
    match remapColours inner m.1 with
    | .error e => .error e
    | .ok ia =>
      match remapColours inner m.2 with
      | .error e => .error e
      | .ok ib => .ok (List.replicate innerSize ((some 0, some 0), (some 1, some 2)) ++ ia ++ ib)

/-- network.py:26-41: the odd case, given the network for the next size. -/
def benesOdd (inner : Network) : Except PyErr Network :=
  match getInputOutputColours inner with
  | .error e => .error e
  | .ok ((a, _), (b, _)) => .ok (replaceFirst a b inner)

/-- network.py:22-70 `create_benes_network`.  `ord` may depend on the size, as each call iterates over a set of its own. -/
def createBenes (ord : Nat → List Colour → List Colour) (size : Nat) : Except PyErr Network :=
  if size < 2 then .error .assertion
  else if size = 2 then .ok [((some 0, some 0), (some 1, some 1))]
  else if size % 2 = 1 then
    match createBenes ord (size + 1) with
    | .error e => .error e
    | .ok inner => benesOdd inner
  else
    match createBenes ord (size / 2) with
    | .error e => .error e
    | .ok inner => benesEven (ord size) (size / 2) inner
termination_by size + (if size % 2 = 1 then 2 else 0)
decreasing_by
  all_goals simp_wf
  all_goals split <;> omega

end FSat
