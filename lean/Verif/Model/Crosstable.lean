import Verif.Model.Optimal
/-!
# calculate_optimal.py: belt levels and the exported table
-/

namespace FSat

/-- The names `'normal'`, `'fast'`, `'express'`, calculate_optimal.py:17-21. -/
inductive LevelName where
  | normal | fast | express
deriving DecidableEq

/-- calculate_optimal.py:17-21 `MAXIMUM_UNDERGROUND_LENGTHS`, already in the order of line 172. -/
def maximumUndergroundLengths : List (LevelName × Int) := [(.normal, 4), (.fast, 6), (.express, 8)]

/-- The loop calculate_optimal.py:172-175; `last` is what the loop variable holds when the loop ends. -/
def beltLevelLoop (ul : Int) : List (LevelName × Int) → LevelName → LevelName
  | [], last => last
  | (level, length) :: rest, _ => if ul ≤ length then level else beltLevelLoop ul rest level

/-- calculate_optimal.py:171-175 `get_belt_level`. -/
def getBeltLevel (ul : Int) : LevelName := beltLevelLoop ul maximumUndergroundLengths .normal

/-- calculate_optimal.py:179-183 `belt_levels`: yellow, red and blue square. -/
def tableLevels : List (Int × Char) := [(4, Char.ofNat 0x1f7e8), (6, Char.ofNat 0x1f7e5), (8, Char.ofNat 0x1f7e6)]

/-- calculate_optimal.py:184. -/
def impossibleMark : Char := Char.ofNat 0x274c
/-- calculate_optimal.py:186. -/
def unknownMark : Char := Char.ofNat 0x2754

/-- The loop calculate_optimal.py:218-226. -/
def cellLoop (d : PyDict Size Bool) (width height : Int) : List (Int × Char) → Bool → Char
  | [], known => if known then impossibleMark else unknownMark
  | (ul, character) :: rest, known =>
    match doesExist d (ul, width + 2, height) with
    | some true => character
    | some false => cellLoop d width height rest true
    | none => cellLoop d width height rest known

/-- One cell, calculate_optimal.py:218-226. -/
def tableCell (d : PyDict Size Bool) (width height : Int) : Char := cellLoop d width height tableLevels false

/-- `{text:<3}`, calculate_optimal.py:212, 216, 228. -/
def padThree (text : List Char) : List Char := text ++ List.replicate (3 - text.length) ' '

/-- `range(lo, hi + 1)`. -/
def intsFrom (lo hi : Int) : List Int := (List.range (hi + 1 - lo).toNat).map fun k => lo + (k : Nat)

/-- `max(values)` of a non-empty list, calculate_optimal.py:207-208. -/
def maxOf : List Int → Int
  | [] => 0
  | x :: xs => xs.foldl max x

/-- `'# Balancers'`. -/
def balancersMark : List Char := ['#', ' ', 'B', 'a', 'l', 'a', 'n', 'c', 'e', 'r', 's']

/-- One row of the table, calculate_optimal.py:216-229. -/
def tableRow (d : PyDict Size Bool) (maxWidth height : Int) : List Char :=
  ['|', ' '] ++ padThree (showInt height) ++ [' ', '|'] ++
    ((intsFrom 1 maxWidth).flatMap fun width => ' ' :: padThree [tableCell d width height] ++ [' ', '|']) ++ ['\n']

/-- The table of one store, calculate_optimal.py:204-230. -/
def storeTable (s : Store) : Except PyErr (List Char) :=
  if s.exist = [] then .ok []
  else
    let maxWidth := maxOf (s.exist.map fun e => e.1.2.1) - 2
    let maxHeight := maxOf (s.exist.map fun e => e.1.2.2)
    match getInputOutputColours s.network with
    | .error e => .error e
    | .ok ((_, inputs), (_, outputs)) =>
      let minHeight := max inputs outputs
      .ok (['#', '#', ' '] ++ s.name ++ ['\n'] ++
        (['|', ' ', ' ', ' ', ' ', ' ', '|'] ++
          ((intsFrom 1 maxWidth).flatMap fun i => ' ' :: padThree (showInt i) ++ [' ', '|']) ++ ['\n']) ++
        ('|' :: (intsFrom 0 maxWidth).flatMap (fun _ => ['-', '-', '-', '-', '-', '|']) ++ ['\n']) ++
        ((intsFrom minHeight maxHeight).flatMap fun height => tableRow s.exist maxWidth height) ++ ['\n'])

/-- The loop calculate_optimal.py:203-230. -/
def storeTables : List Store → Except PyErr (List Char)
  | [] => .ok []
  | s :: rest =>
    match storeTable s with
    | .error e => .error e
    | .ok text =>
      match storeTables rest with
      | .error e => .error e
      | .ok more => .ok (text ++ more)

/-- The lines that `readline` returns, calculate_optimal.py:192, each with its newline. -/
def fileLines : List Char → List (List Char)
  | [] => []
  | c :: cs =>
    if c = '\n' then ['\n'] :: fileLines cs
    else
      match fileLines cs with
      | [] => [[c]]
      | l :: ls => (c :: l) :: ls

/-- `line.startswith('# Balancers')`, calculate_optimal.py:193. -/
def isMark (line : List Char) : Bool := balancersMark.isPrefixOf line

/-- calculate_optimal.py:188-197: what the file has before its first line that begins with the mark. -/
def preamble (file : Option (List Char)) : List Char :=
  match file with
  | none => []
  | some text => ((fileLines text).takeWhile fun l => !isMark l).flatten

/-- The decimal digits at the start of a text, and the rest. (Python's `\d` also matches other digits.) -/
def spanDigits (cs : List Char) : List Char × List Char := (cs.takeWhile Json.isDig, cs.dropWhile Json.isDig)

/-- calculate_optimal.py:62-68 `ordering_key`; `none` stands for infinity. -/
def orderingKey (name : List Char) : Option Nat × Option Nat × List Char :=
  match spanDigits name with
  | (a, c :: rest) =>
    if a ≠ [] ∧ (c = 'x' ∨ c = '-') then
      match spanDigits rest with
      | (b, rest) =>
        if b ≠ [] then
          (some (a.foldl (fun n d => 10 * n + (d.toNat - 48)) 0), some (b.foldl (fun n d => 10 * n + (d.toNat - 48)) 0),
            rest.takeWhile (· ≠ '\n'))
        else (none, none, name)
    else (none, none, name)
  | (_, []) => (none, none, name)

/-- Numbers below infinity. -/
def ltInf : Option Nat → Option Nat → Bool
  | some a, some b => a < b
  | some _, none => true
  | none, _ => false

/-- Comparison of texts by code points: `a <= b`. -/
def textLe : List Char → List Char → Bool
  | [], _ => true
  | _ :: _, [] => false
  | a :: as, b :: bs => if a = b then textLe as bs else a.toNat < b.toNat

/-- Comparison of the keys in `sorted`, calculate_optimal.py:203. -/
def keyLe (a b : Option Nat × Option Nat × List Char) : Bool :=
  if a.1 = b.1 then (if a.2.1 = b.2.1 then textLe a.2.2 b.2.2 else ltInf a.2.1 b.2.1) else ltInf a.1 b.1

/-- `sorted(stores, key=lambda store: store.ordering_key)`, calculate_optimal.py:203, 302. -/
def sortStores (stores : List Store) : List Store := stores.mergeSort fun a b => keyLe (orderingKey a.name) (orderingKey b.name)

/-- calculate_optimal.py:178-230 `export_crosstable`: the new contents of the file. (The file is opened for writing before the tables are
computed: when a network has no single input and output the file is left incomplete, which is not modelled.) -/
def exportCrosstable (stores : List Store) (file : Option (List Char)) : Except PyErr (List Char) :=
  match storeTables (sortStores stores) with
  | .error e => .error e
  | .ok tables => .ok (preamble file ++ balancersMark ++ ['\n'] ++ tables)

end FSat
