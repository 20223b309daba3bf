import Verif.Model.Util
/-!
# Model of the templates and of `BaseGrid` in `factorio_sat/template.py`
-/

namespace FSat

/-- A nested Python list of the given shape. -/
def Nested (α : Type) : List Nat → Type
  | [] => α
  | _ :: s => List (Nested α s)

mutual
/-- The template classes of template.py:132-268.  `array` is `ArrayTemplate` (145-170), the sized templates are
`ManyHotTemplate`, `OneHotTemplate`, `NumberTemplate` (176-211), `composite` is `CompositeTemplate` (225-268) restricted to its
atomic members: aliases are functions of the members that allocate nothing (255-259) and are written out where they are used. -/
inductive Tmpl where
  | bool
  | array (component : Tmpl) (shape : List Nat)
  | manyHot (size : Nat)
  | oneHot (size : Nat)
  | number (size : Nat) (signed : Bool)
  | composite (fields : TFields)
/-- The atomic members of a composite template, in dictionary order. -/
inductive TFields where
  | nil
  | cons (name : String) (t : Tmpl) (rest : TFields)
end

mutual
/-- The instance type of a template: a literal, a (nested) list, a named tuple. -/
def Tmpl.Inst : Tmpl → Type
  | .bool => Lit
  | .array c shape => Nested c.Inst shape
  | .manyHot _ => List Lit
  | .oneHot _ => List Lit
  | .number _ _ => List Lit
  | .composite fs => fs.Inst
/-- Named tuples of instances. -/
def TFields.Inst : TFields → Type
  | .nil => Unit
  | .cons _ t rest => t.Inst × rest.Inst
end

mutual
/-- The type of parsed values of a template. -/
def Tmpl.Val : Tmpl → Type
  | .bool => Bool
  | .array c shape => Nested c.Val shape
  | .manyHot _ => List Nat
  | .oneHot _ => Option Nat
  | .number _ _ => Int
  | .composite fs => fs.Val
/-- Dictionaries of parsed values. -/
def TFields.Val : TFields → Type
  | .nil => Unit
  | .cons _ t rest => t.Val × rest.Val
end

mutual
/-- `variable_count` (template.py:134-136, 150-152, 180-182, 236). -/
def Tmpl.variableCount : Tmpl → Nat
  | .bool => 1
  | .array c shape => shape.prod * c.variableCount
  | .manyHot n => n
  | .oneHot n => n
  | .number n _ => n
  | .composite fs => fs.variableCount
/-- template.py:236. -/
def TFields.variableCount : TFields → Nat
  | .nil => 0
  | .cons _ t rest => t.variableCount + rest.variableCount
end

/-- `n` instantiations in a row. -/
def repeatInst {α : Type} (f : Nat → α × Nat) : Nat → Nat → List α × Nat
  | 0, s => ([], s)
  | n + 1, s =>
    let (a, s1) := f s
    let (as, s2) := repeatInst f n s1
    (a :: as, s2)

/-- template.py:154-158: `prod(shape)` components are instantiated in order and reshaped row-major; the last index varies
fastest, so the nested lists are filled outermost index first. -/
def nestedInst {α : Type} (f : Nat → α × Nat) : (shape : List Nat) → Nat → Nested α shape × Nat
  | [], s => f s
  | n :: shape, s => repeatInst (nestedInst f shape) n s

/-- `[pool._next() for _ in range(size)]` (template.py:184-185). -/
def nextMany : Nat → Nat → List Lit × Nat
  | 0, s => ([], s)
  | n + 1, s =>
    let (ls, s1) := nextMany n (s + 1)
    (⟨s + 1, true⟩ :: ls, s1)

mutual
/-- `instantiate` (template.py:138-139, 154-158, 184-185, 249-260); the pool is its counter. -/
def Tmpl.instantiate : (t : Tmpl) → Nat → t.Inst × Nat
  | .bool, s => ((⟨s + 1, true⟩ : Lit), s + 1)
  | .array c shape, s => nestedInst c.instantiate shape s
  | .manyHot n, s => nextMany n s
  | .oneHot n, s => nextMany n s
  | .number n _, s => nextMany n s
  | .composite fs, s => fs.instantiate s
/-- template.py:249-253. -/
def TFields.instantiate : (fs : TFields) → Nat → fs.Inst × Nat
  | .nil, s => ((), s)
  | .cons _ t rest, s =>
    let (a, s1) := t.instantiate s
    let (as, s2) := rest.instantiate s1
    ((a, as), s2)
end

/-- A solver answer as a dictionary `{abs(lit): lit > 0}` (template.py:392). -/
abbrev Mapping := Nat → Option Bool

/-- `mapping[instance]`; instances are positive ints. -/
def Mapping.get (m : Mapping) (l : Lit) : Except PyErr Bool :=
  match m l.var with
  | none => .error .keyError
  | some b => .ok b

/-- Evaluate a list of lookups in order. -/
def Mapping.getAll (m : Mapping) : List Lit → Except PyErr (List Bool)
  | [] => .ok []
  | l :: ls =>
    match m.get l with
    | .error e => .error e
    | .ok b =>
      match m.getAll ls with
      | .error e => .error e
      | .ok bs => .ok (b :: bs)

/-- template.py:190-192, the list comprehension with index `j`. -/
def parseManyHot (m : Mapping) : Nat → List Lit → Except PyErr (List Nat)
  | _, [] => .ok []
  | j, l :: ls =>
    match m.get l with
    | .error e => .error e
    | .ok b =>
      match parseManyHot m (j + 1) ls with
      | .error e => .error e
      | .ok js => .ok (if b then j :: js else js)

/-- template.py:197-202: returns at the first true literal. -/
def parseOneHot (m : Mapping) : Nat → List Lit → Except PyErr (Option Nat)
  | _, [] => .ok none
  | i, l :: ls =>
    match m.get l with
    | .error e => .error e
    | .ok true => .ok (some i)
    | .ok false => parseOneHot m (i + 1) ls

/-- template.py:163-168 `recurse` at one level: all `size` entries. -/
def parseAll {α β : Type} (f : α → Except PyErr β) : List α → Except PyErr (List β)
  | [] => .ok []
  | a :: as =>
    match f a with
    | .error e => .error e
    | .ok b =>
      match parseAll f as with
      | .error e => .error e
      | .ok bs => .ok (b :: bs)

/-- template.py:163-168. -/
def parseNested {α β : Type} (f : α → Except PyErr β) : (shape : List Nat) → Nested α shape → Except PyErr (Nested β shape)
  | [], a => f a
  | _ :: shape, as => parseAll (parseNested f shape) as

mutual
/-- `parse` (template.py:141-142, 160-170, 190-192, 197-202, 209-211, 240-247). -/
def Tmpl.parse (m : Mapping) : (t : Tmpl) → t.Inst → Except PyErr t.Val
  | .bool, i => m.get i
  | .array c shape, i => parseNested (c.parse m) shape i
  | .manyHot _, i => parseManyHot m 0 i
  | .oneHot _, i => parseOneHot m 0 i
  | .number _ signed, i =>
    match m.getAll i with
    | .error e => .error e
    | .ok bs => readNumber bs signed
  | .composite fs, i => fs.parse m i
/-- template.py:244-247. -/
def TFields.parse (m : Mapping) : (fs : TFields) → fs.Inst → Except PyErr fs.Val
  | .nil, _ => .ok ()
  | .cons _ t rest, i =>
    match t.parse m i.1 with
    | .error e => .error e
    | .ok a =>
      match rest.parse m i.2 with
      | .error e => .error e
      | .ok as => .ok (a, as)
end

/-- `flatten` on a nested list (template.py:104-114). -/
def flattenNested {α : Type} (f : α → List Lit) : (shape : List Nat) → Nested α shape → List Lit
  | [], a => f a
  | _ :: shape, as => List.flatMap (flattenNested f shape) as

mutual
/-- `flatten` (template.py:104-114) without the alias members, which repeat literals of the atomic ones. -/
def Tmpl.flatten : (t : Tmpl) → t.Inst → List Lit
  | .bool, i => [i]
  | .array c shape, i => flattenNested c.flatten shape i
  | .manyHot _, i => i
  | .oneHot _, i => i
  | .number _ _, i => i
  | .composite fs, i => fs.flatten i
/-- template.py:108-113. -/
def TFields.flatten : (fs : TFields) → fs.Inst → List Lit
  | .nil, _ => []
  | .cons _ t rest, i => t.flatten i.1 ++ rest.flatten i.2
end

/-! ### BaseGrid -/

/-- template.py:292: the tiles, instantiated row by row (`tiles[y, x]` is entry `y * width + x`). -/
def gridInstances (t : Tmpl) (width height s : Nat) : List t.Inst × Nat := repeatInst t.instantiate (height * width) s

/-- template.py:22-34: the edge mode of each axis, `true` for `WRAP`. -/
structure EdgeMode where
  wrapX : Bool
  wrapY : Bool
deriving DecidableEq, Repr

/-- template.py:377-384 for one axis: the wrapped position, or `none` for `return None`. -/
def wrapPos (wrap : Bool) (size : Nat) (p : Int) : Option Int :=
  if p < 0 ∨ p ≥ size then
    if wrap then some (p % size) else none
  else some p

/-- template.py:369-371 `get_tile_instance` as a position: `AssertionError` outside the grid. -/
def getPos (width height : Nat) (x y : Int) : Except PyErr (Nat × Nat) :=
  if x ≥ 0 ∧ y ≥ 0 ∧ x < width ∧ y < height then .ok (x.toNat, y.toNat) else .error .assertion

/-- template.py:373-386 `get_tile_instance_offset` as a position. -/
def offsetPos (width height : Nat) (edge : EdgeMode) (x y dx dy : Int) : Except PyErr (Option (Nat × Nat)) :=
  match wrapPos edge.wrapX width (x + dx) with
  | none => .ok none
  | some x' =>
    match wrapPos edge.wrapY height (y + dy) with
    | none => .ok none
    | some y' =>
      match getPos width height x' y' with
      | .error e => .error e
      | .ok p => .ok (some p)

/-- template.py:392: `{abs(lit): lit > 0 for lit in solution}`; a later entry for the same variable wins. -/
def mappingOf (solution : List Lit) : Mapping := fun x => ((solution.reverse.find? fun l => l.var == x)).map (·.pos)

/-- template.py:357-364 `iterate_tile_lines`: for every start cell the list of `length` offset positions. -/
def iterateTileLines (width height : Nat) (edge : EdgeMode) (dx dy : Int) (length : Nat) :
    Except PyErr (List (List (Except PyErr (Option (Nat × Nat))))) :=
  if dx.natAbs + dy.natAbs ≠ 1 then .error .assertion
  else if length = 0 then .error .assertion
  else .ok <| (List.range width).flatMap fun (x : Nat) => (List.range height).map fun (y : Nat) =>
    (List.range length).map fun (i : Nat) => offsetPos width height edge x y (dx * i) (dy * i)

/-- The bound tests of template.py:334-353 for the cell `(x, y)`; `true` means the cell is not skipped. -/
def blockAllowed (maxXOff maxYOff : Int) (minX minY maxX maxY : Option Int) (x y : Int) : Bool :=
  (match minX with | none => true | some m => !(x < m) && !(x + maxXOff < m)) &&
  (match minY with | none => true | some m => !(y < m) && !(x + maxYOff < m)) &&
  (match maxX with | none => true | some m => !(x > m) && !(x + maxXOff > m)) &&
  (match maxY with | none => true | some m => !(y > m) && !(x + maxYOff > m))

/-- template.py:309-355 `iterate_tile_blocks`: the anchors visited, each with its `row_count` by `column_count` block of offset
positions. -/
def iterateTileBlocks (width height : Nat) (edge : EdgeMode) (c : Int × Int) (columnCount : Nat) (r : Int × Int)
    (rowCount : Nat) (minX minY maxX maxY : Option Int) :
    Except PyErr (List ((Nat × Nat) × List (List (Except PyErr (Option (Nat × Nat)))))) :=
  if c.1.natAbs + c.2.natAbs ≠ 1 then .error .assertion
  else if r.1.natAbs + r.2.natAbs ≠ 1 then .error .assertion
  else if columnCount = 0 then .error .assertion
  else if rowCount = 0 then .error .assertion
  else
    let maxXOff := r.1 * ((rowCount : Int) - 1) + c.1 * ((columnCount : Int) - 1)
    let maxYOff := r.2 * ((rowCount : Int) - 1) + c.2 * ((columnCount : Int) - 1)
    .ok <| (List.range width).flatMap fun (x : Nat) => (List.range height).flatMap fun (y : Nat) =>
      if blockAllowed maxXOff maxYOff minX minY maxX maxY x y then
        [((x, y), (List.range rowCount).map fun (row : Nat) => (List.range columnCount).map fun (col : Nat) =>
          offsetPos width height edge x y (r.1 * row + c.1 * col) (r.2 * row + c.2 * col))]
      else []

end FSat
