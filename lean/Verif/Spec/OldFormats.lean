import Verif.Model.OldFormats
/-!
# Cells in the formats of older versions

A direction is written as its number, and `null` stands for none.
-/

namespace FSat

/-- The number of a direction, or nothing. -/
def dirJson : Option Dir → Json
  | none => .null
  | some d => .int d.value

/-- The members that a cell has, in any order and among others. -/
def Has (cell : Fields) (ms : List (String × Json)) : Prop := ∀ m ∈ ms, PyDict.get cell m.1.toList = some m.2

/-- A cell of the oldest format, for the four kinds of tile that it has. -/
inductive Oldest (cell : Fields) : Tile → Prop
  | empty : Has cell [("input_direction", .null), ("output_direction", .null), ("is_splitter", .bool false)] → Oldest cell .empty
  | belt (i o : Dir) : i.opp ≠ o → Has cell [("input_direction", dirJson (some i)), ("output_direction", dirJson (some o)), ("is_splitter", .bool false)] →
      Oldest cell (.belt i o)
  | entrance (d : Dir) : Has cell [("input_direction", dirJson (some d)), ("output_direction", .null), ("is_splitter", .bool false)] →
      Oldest cell (.underground d true)
  | exit (d : Dir) : Has cell [("input_direction", .null), ("output_direction", dirJson (some d)), ("is_splitter", .bool false)] →
      Oldest cell (.underground d false)
  | splitter (i o : Option Dir) (d : Dir) (head : Bool) : (i = some d ∧ (o = some d ∨ o = none)) ∨ (i = none ∧ o = some d) →
      Has cell [("input_direction", dirJson i), ("output_direction", dirJson o), ("is_splitter", .bool true), ("is_splitter_head", .bool head)] →
      Oldest cell (.splitter d head)

/-- The flags of a cell of the later format. -/
def flagsOf (empty belt ugIn ugOut : Bool) : List (String × Json) :=
  [("is_empty", .bool empty), ("is_belt", .bool belt), ("is_underground_in", .bool ugIn), ("is_underground_out", .bool ugOut)]

/-- A cell of the later format. -/
inductive Older (cell : Fields) : Tile → Prop
  | empty (i o : Option Dir) : Has cell ([("input_direction", dirJson i), ("output_direction", dirJson o)] ++ flagsOf true false false false) → Older cell .empty
  | belt (i o : Dir) : i.opp ≠ o → Has cell ([("input_direction", dirJson (some i)), ("output_direction", dirJson (some o))] ++ flagsOf false true false false) →
      Older cell (.belt i o)
  | entrance (d : Dir) (o : Option Dir) : Has cell ([("input_direction", dirJson (some d)), ("output_direction", dirJson o)] ++ flagsOf false false true false) →
      Older cell (.underground d true)
  | exit (i : Option Dir) (d : Dir) : Has cell ([("input_direction", dirJson i), ("output_direction", dirJson (some d))] ++ flagsOf false false false true) →
      Older cell (.underground d false)
  | splitter (i o : Option Dir) (d : Dir) (side : Int) : Has cell ([("input_direction", dirJson i), ("output_direction", dirJson o),
      ("is_splitter", .int side), ("colour_direction", dirJson (some d))] ++ flagsOf false false false false) → Older cell (.splitter d (side ≠ 0))
  | splitterSide (i o : Option Dir) (d : Dir) (side : Int) : PyDict.get cell "colour_direction".toList = none →
      Has cell ([("input_direction", dirJson i), ("output_direction", dirJson o), ("is_splitter", .bool true), ("splitter_direction", dirJson (some d)),
      ("splitter_side", .int side)] ++ flagsOf false false false false) → Older cell (.splitter d (side ≠ 0))
  | inserter (i o : Option Dir) (s : Json) (d : Dir) (kind : Int) : s = .null ∨ s = .bool false →
      Has cell ([("input_direction", dirJson i), ("output_direction", dirJson o), ("is_splitter", s), ("is_inserter", .int kind),
      ("inserter_direction", dirJson (some d))] ++ flagsOf false false false false) → Older cell (.inserter d kind)
  | machine (i o : Option Dir) (s : Json) (x y : Int) : s = .null ∨ s = .bool false →
      Has cell ([("input_direction", dirJson i), ("output_direction", dirJson o), ("is_splitter", s), ("is_inserter", .null),
      ("is_assembling_machine", .bool true), ("assembling_x", .int x), ("assembling_y", .int y)] ++ flagsOf false false false false) →
      Older cell (.assembler x y)

end FSat
