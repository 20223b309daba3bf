import Verif.Model.Commands
import Verif.Spec.Json
import Verif.Spec.Layout
/-!
# What the converting commands read and write

Lines of text, and the lines that stand for layouts.
-/

namespace FSat

/-- The lines, each with its end. -/
def textOf (ls : List (List Char)) : List Char := ls.flatMap fun l => l ++ ['\n']

/-- The text consists of the lines `ls`; the end of the last one may be missing. -/
def IsInput (text : List Char) (ls : List (List Char)) : Prop :=
  (∀ l ∈ ls, '\n' ∉ l) ∧ (text = textOf ls ∨ ∃ ls' l, l ≠ [] ∧ ls = ls' ++ [l] ∧ text = textOf ls' ++ l)

/-- Directions as they are written. -/
def Dir.number : Dir → Int
  | .right => 0
  | .up => 1
  | .left => 2
  | .down => 3

/-- A member of an object. -/
def member (name : String) (v : Json) : List Char × Json := (name.toList, v)

/-- The members of the object that stands for a tile. -/
def Tile.members : Tile → Fields
  | .empty => [member "type" (.str "empty".toList)]
  | .filler => [member "type" (.str "filler".toList)]
  | .belt i o => [member "type" (.str "belt".toList), member "input_direction" (.int i.number), member "output_direction" (.int o.number)]
  | .underground d i => [member "type" (.str "underground_belt".toList), member "direction" (.int d.number), member "is_input" (.bool i)]
  | .splitter d h => [member "type" (.str "splitter".toList), member "direction" (.int d.number), member "is_head" (.bool h)]
  | .inserter d k => [member "type" (.str "inserter".toList), member "direction" (.int d.number), member "insert_type" (.int k)]
  | .assembler x y => [member "type" (.str "assembling_machine".toList), member "x" (.int x), member "y" (.int y)]

/-- The cell has a member `tile` that stands for the tile `t`; it may have other members. -/
def CellIs (cell : Fields) (t : Tile) : Prop := ∃ o, member "tile" (.obj o) ∈ cell ∧ ∀ m ∈ t.members, m ∈ o

/-- The line is the JSON text of a list of rows, each a list of the cells of `g`. -/
def CellsOf (line : List Char) (g : Arr Fields) : Prop :=
  0 < g.rows ∧ 0 < g.cols ∧
    Json.loads line = .ok (.arr (List.ofFn fun y => .arr (List.ofFn fun x => .obj (g.get y x))))

/-- The line stands for the layout `a`. -/
def SolutionLine (line : List Char) (a : Arr Tile) : Prop :=
  ∃ cells : Fin a.rows → Fin a.cols → Fields, CellsOf line ⟨a.rows, a.cols, cells⟩ ∧ ∀ y x, CellIs (cells y x) (a.get y x)

/-- The line is as the solver and the commands print it: the members of a tile are in their order, without others. -/
def PrintedLine (line : List Char) (a : Arr Tile) : Prop :=
  ∃ cells : Fin a.rows → Fin a.cols → Fields, 0 < a.rows ∧ 0 < a.cols ∧
    line = (Json.arr (List.ofFn fun y => .arr (List.ofFn fun x => .obj (cells y x)))).dumps ∧
    ∀ y x, ((cells y x).map Prod.fst).Nodup ∧ (∀ e ∈ cells y x, e.2.Ok) ∧ member "tile" (.obj (a.get y x).members) ∈ cells y x

/-- What `base64.b64encode` returns has no line ends. -/
def Codec.OneLine (c : Codec) : Prop := ∀ t, '\n' ∉ c.pack t

/-- The operation that takes an operation back. -/
def Operation.back : Operation → Operation
  | .rot90 => .rot270
  | .rot270 => .rot90
  | op => op

end FSat
