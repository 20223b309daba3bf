import Verif.Spec.Commands
import Verif.Spec.Blueprint
import Verif.Lemmas.JsonText
import Verif.Lemmas.NetworkText
import Verif.Props.Transform
import Verif.Props.Stringifier
import Verif.Props.Blueprint
/-!
# Lines, grids and cells
-/

namespace FSat

/-! ### Lines -/

theorem textOf_cons (l : List Char) (ls : List (List Char)) : textOf (l :: ls) = l ++ '\n' :: textOf ls := by
  simp [textOf]

theorem readLines_last {l : List Char} (h : '\n' ∉ l) (hl : l ≠ []) : readLines l = [l] := by
  induction l with
  | nil => exact absurd rfl hl
  | cons c l ih =>
    simp only [List.mem_cons, not_or] at h
    rw [readLines, if_neg fun e => h.1 e.symm]
    cases l with
    | nil => rfl
    | cons d l => rw [ih h.2 (by simp)]

theorem readLines_textOf (ls : List (List Char)) (h : ∀ l ∈ ls, '\n' ∉ l) (rest : List Char) :
    readLines (textOf ls ++ rest) = ls.map (fun l => l ++ ['\n']) ++ readLines rest := by
  induction ls with
  | nil => rfl
  | cons l ls ih =>
    rw [textOf_cons, List.append_assoc, List.cons_append, readLines_line _ _ (h l (.head _)), ih fun l hl => h l (.tail _ hl)]
    rfl

theorem chomp_line (l : List Char) : (if (l ++ ['\n']).getLast? = some '\n' then (l ++ ['\n']).dropLast else l ++ ['\n']) = l := by
  simp

theorem inputLines_of {text : List Char} {ls : List (List Char)} (h : IsInput text ls) : inputLines text = ls := by
  obtain ⟨hn, rfl | ⟨ls', l, hl, rfl, rfl⟩⟩ := h
  · have := readLines_textOf ls hn []
    rw [List.append_nil] at this
    unfold inputLines
    rw [this]
    simp [readLines, Function.comp_def]
  · have hn' : '\n' ∉ l := hn l (by simp)
    unfold inputLines
    rw [readLines_textOf ls' (fun l hl => hn l (by simp [hl])), readLines_last hn' hl]
    have : l.getLast? ≠ some '\n' := fun e => hn' (List.mem_of_getLast? e)
    simp [Function.comp_def, this]

theorem isInput_textOf {ls : List (List Char)} (h : ∀ l ∈ ls, '\n' ∉ l) : IsInput (textOf ls) ls := ⟨h, Or.inl rfl⟩

theorem lineLoop_append {f : List Char → Except PyErr (List Char)} {ls os : List (List Char)}
    (h : List.Forall₂ (fun l o => f l = .ok o) ls os) (rest : List (List Char)) :
    lineLoop f (ls ++ rest) = ⟨textOf os ++ (lineLoop f rest).out, (lineLoop f rest).ending⟩ := by
  induction h with
  | nil => rfl
  | cons h _ ih => rw [List.cons_append, lineLoop, h]; simp only; rw [ih, textOf_cons]; simp

theorem lineLoop_all {f : List Char → Except PyErr (List Char)} {ls os : List (List Char)}
    (h : List.Forall₂ (fun l o => f l = .ok o) ls os) : lineLoop f ls = ⟨textOf os, .endOfInput⟩ := by
  have := lineLoop_append h []
  rw [List.append_nil] at this
  rw [this]; simp [lineLoop]

/-! ### Grids -/

theorem Arr.ext_val {α : Type} {a b : Arr α} (h1 : a.rows = b.rows) (h2 : a.cols = b.cols)
    (h : ∀ y x (y1 : y < a.rows) (x1 : x < a.cols) (y2 : y < b.rows) (x2 : x < b.cols), a.get ⟨y, y1⟩ ⟨x, x1⟩ = b.get ⟨y, y2⟩ ⟨x, x2⟩) : a = b := by
  obtain ⟨r, c, f⟩ := a
  obtain ⟨r', c', f'⟩ := b
  cases h1
  cases h2
  congr 1
  funext y x
  exact h y.1 x.1 y.2 x.2 y.2 x.2

/-- The JSON value of a grid of cells. -/
def cellsJson (g : Arr Fields) : Json := .arr (List.ofFn fun y => .arr (List.ofFn fun x => .obj (g.get y x)))

theorem listOf_eq (a : Arr Json) : listOf a = .arr (List.ofFn fun y => .arr (List.ofFn fun x => a.get y x)) := by
  unfold listOf
  simp only [List.ofFn_eq_map]

theorem rowCells_map (os : List Fields) : rowCells (os.map .obj) = some os := by
  induction os with
  | nil => rfl
  | cons o os ih => simp [rowCells, ih]

theorem gridRows_map (rs : List (List Fields)) : gridRows (rs.map fun r => .arr (r.map .obj)) = some rs := by
  induction rs with
  | nil => rfl
  | cons r rs ih => simp [gridRows, rowCells_map, ih]

theorem gridOf_cells (g : Arr Fields) (h : 0 < g.rows) : gridOf (cellsJson g) = .ok g := by
  have e : cellsJson g = .arr ((List.ofFn fun y => List.ofFn fun x => g.get y x).map fun r => .arr (r.map .obj)) := by
    simp [cellsJson, List.map_ofFn, Function.comp_def]
  obtain ⟨rs, hrs⟩ : ∃ rs, rs = List.ofFn fun y => List.ofFn fun x => g.get y x := ⟨_, rfl⟩
  rw [e, ← hrs, gridOf]
  simp only [gridRows_map]
  have hlen : rs.length = g.rows := by rw [hrs]; simp
  have hrow : ∀ r ∈ rs, r.length = g.cols := by
    intro r hr
    rw [hrs, List.mem_ofFn] at hr
    obtain ⟨y, rfl⟩ := hr
    simp
  have hget : ∀ y x (h1 : y < g.rows) (h2 : x < g.cols), (rs.getD y []).getD x [] = g.get ⟨y, h1⟩ ⟨x, h2⟩ := by
    intro y x h1 h2
    rw [hrs]
    simp [List.getD_eq_getElem?_getD, h1, h2]
  cases rs with
  | nil => simp at hlen; omega
  | cons first rest =>
    have hc := hrow first (.head _)
    simp only
    rw [if_pos (by
      rw [List.all_eq_true]
      intro r hr
      simp [hc, hrow r (.tail _ hr)])]
    congr 1
    exact Arr.ext_val hlen hc fun y x _ _ y2 x2 => hget y x y2 x2

theorem eachCell_ok {α β : Type} [Inhabited β] {f : α → Except PyErr β} {a : Arr α} {b : Fin a.rows → Fin a.cols → β}
    (h : ∀ y x, f (a.get y x) = .ok (b y x)) : eachCell f a = .ok ⟨a.rows, a.cols, b⟩ := by
  unfold eachCell
  have : (a.cells.findSome? fun p => errorOf (f (a.get p.1 p.2))) = none := by
    rw [List.findSome?_eq_none_iff]
    intro p _
    rw [h]
    rfl
  rw [this]
  simp only [Arr.map, h, valueOf]

theorem vectorize_ok {α β : Type} [Inhabited β] {f : α → Except PyErr β} {a : Arr α} {b : Fin a.rows → Fin a.cols → β}
    (hr : 0 < a.rows) (hc : 0 < a.cols) (h : ∀ y x, f (a.get y x) = .ok (b y x)) : vectorize f a = .ok ⟨a.rows, a.cols, b⟩ := by
  unfold vectorize
  rw [if_neg (by omega), eachCell_ok h]

/-! ### Cells -/

theorem Dir.number_eq (d : Dir) : d.number = d.value := by cases d <;> rfl

theorem json_members (t : Tile) : t.write.map (fun e => (e.1.toList, e.2.json)) = t.members := by
  cases t <;> simp [Tile.write, Tile.members, JScalar.json, member, Dir.number_eq]

theorem tileJson_eq (t : Tile) : tileJson t = .obj t.members := by unfold tileJson; rw [json_members]

theorem word_tile : "tile".toList = Word.tile := rfl

theorem scalarOf_json (v : JScalar) : scalarOf v.json = v := by cases v <;> simp [JScalar.json, scalarOf]

theorem lookup_scalars {o : Fields} (hn : (o.map Prod.fst).Nodup) {k : String} {v : JScalar} (h : (k.toList, v.json) ∈ o) :
    (o.map fun e => (String.ofList e.1, scalarOf e.2)).lookup k = some v := by
  induction o with
  | nil => cases h
  | cons e o ih =>
    simp only [List.map_cons, List.nodup_cons] at hn
    rcases List.mem_cons.1 h with rfl | h'
    · simp [scalarOf_json]
    · have hne : k ≠ String.ofList e.1 := by
        rintro rfl
        apply hn.1
        have := List.mem_map_of_mem (f := Prod.fst) h'
        simpa using this
      simp only [List.map_cons, List.lookup]
      rw [beq_false_of_ne hne]
      exact ih hn.2 h'

theorem read_of_lookup {d : JObj} {t : Tile} (hv : t.Valid) (h : ∀ kv ∈ t.write, d.lookup kv.1 = some kv.2) : Tile.read d = .ok t := by
  rw [← c42_read_write t hv]
  cases t with
  | empty =>
    simp only [Tile.write, List.mem_singleton, forall_eq] at h
    simp [Tile.read, Tile.write, JObj.get, List.lookup, h, bind, Except.bind]
  | filler =>
    simp only [Tile.write, List.mem_singleton, forall_eq] at h
    simp [Tile.read, Tile.write, JObj.get, List.lookup, h, bind, Except.bind]
  | _ =>
    simp only [Tile.write, List.mem_cons, List.not_mem_nil, or_false, forall_eq_or_imp, forall_eq] at h
    obtain ⟨h1, h2, h3⟩ := h
    simp [Tile.read, Tile.write, JObj.get, JObj.getDir, JObj.getInt, JObj.getBool, List.lookup, h1, h2, h3, bind, Except.bind]

theorem tileOf_members {o : Fields} (hn : (o.map Prod.fst).Nodup) {t : Tile} (hv : t.Valid) (h : ∀ m ∈ t.members, m ∈ o) :
    tileOfJson (.obj o) = .ok t := by
  refine read_of_lookup hv fun kv hkv => lookup_scalars hn (h _ ?_)
  rw [← json_members]
  exact List.mem_map_of_mem (f := fun e : String × JScalar => (e.1.toList, e.2.json)) hkv

theorem members_ok (t : Tile) : (Json.obj t.members).Ok := by
  rw [Json.ok_obj]
  cases t <;> simp [Tile.members, member, Json.Ok]

theorem get_tile {cell : Fields} (hn : (cell.map Prod.fst).Nodup) {v : Json} (h : member "tile" v ∈ cell) :
    PyDict.get cell Word.tile = some v := PyDict.get_of_mem hn h

theorem cellTile_of {cell : Fields} (hok : (Json.obj cell).Ok) {t : Tile} (hv : t.Valid) (h : CellIs cell t) : cellTile cell = .ok t := by
  obtain ⟨o, h1, h2⟩ := h
  rw [Json.ok_obj] at hok
  unfold cellTile
  rw [get_tile hok.1 h1]
  have := hok.2 _ h1
  exact tileOf_members ((Json.ok_obj o).1 this).1 hv h2

theorem cells_ok {line : List Char} {g : Arr Fields} (h : CellsOf line g) (y : Fin g.rows) (x : Fin g.cols) : (Json.obj (g.get y x)).Ok := by
  have := Json.loads_ok h.2.2
  rw [Json.ok_arr] at this
  have := this _ (List.mem_ofFn.2 ⟨y, rfl⟩)
  rw [Json.ok_arr] at this
  exact this _ (List.mem_ofFn.2 ⟨x, rfl⟩)

theorem layoutOf_line {line : List Char} {a : Arr Tile} (hv : a.AllValid) (h : SolutionLine line a) : layoutOf line = .ok a := by
  obtain ⟨cells, hc, ht⟩ := h
  unfold layoutOf
  rw [hc.2.2]
  simp only
  rw [show Json.arr _ = cellsJson ⟨a.rows, a.cols, cells⟩ from rfl, gridOf_cells _ hc.1]
  simp only
  exact vectorize_ok hc.1 hc.2.1 fun y x => cellTile_of (cells_ok hc y x) (hv y x) (ht y x)

/-- What is printed for a grid of cells is read as that grid. -/
theorem cellsOf_dumps {g : Arr Fields} (hr : 0 < g.rows) (hc : 0 < g.cols) (hok : ∀ y x, (Json.obj (g.get y x)).Ok) :
    CellsOf (cellsJson g).dumps g := by
  refine ⟨hr, hc, Json.loads_dumps _ ?_⟩
  unfold cellsJson
  rw [Json.ok_arr]
  intro v hv
  obtain ⟨y, rfl⟩ := List.mem_ofFn.1 hv
  rw [Json.ok_arr]
  intro v hv
  obtain ⟨x, rfl⟩ := List.mem_ofFn.1 hv
  exact hok y x

/-- The cells with only a tile. -/
def tileCells (a : Arr Tile) : Arr Fields := a.map fun t => [member "tile" (.obj t.members)]

theorem listOf_write (a : Arr Tile) : listOf ⟨a.rows, a.cols, fun y x => writeTile (a.get y x)⟩ = cellsJson (tileCells a) := by
  rw [listOf_eq]
  simp only [writeTile, tileJson_eq]
  rfl

theorem solutionLine_write {a : Arr Tile} (hr : 0 < a.rows) (hc : 0 < a.cols) : SolutionLine (cellsJson (tileCells a)).dumps a := by
  refine ⟨(tileCells a).get, cellsOf_dumps hr hc fun y x => ?_, fun y x => ⟨_, .head _, fun m hm => hm⟩⟩
  rw [Json.ok_obj]
  refine ⟨by simp [tileCells, Arr.map], fun e he => ?_⟩
  simp only [tileCells, Arr.map, List.mem_singleton] at he
  subst he
  exact members_ok _

/-! ### Turning a cell -/

/-- The cell with the tile turned. -/
def newCell (op : Operation) (cell : Fields) (t : Tile) : Fields :=
  if t.transformable then PyDict.set cell Word.tile (.obj (op.tileMap t).members) else cell

theorem tileMap_fixed (op : Operation) {t : Tile} (h : ¬ t.transformable = true) : op.tileMap t = t := by
  cases t <;> simp [Tile.transformable] at h <;> rfl

theorem rotateCell_ok {op : Operation} {cell : Fields} (hok : (Json.obj cell).Ok) {t : Tile} (hv : t.Valid) (h : CellIs cell t) :
    rotateCell op cell = .ok (.obj (newCell op cell t)) := by
  obtain ⟨o, h1, h2⟩ := h
  rw [Json.ok_obj] at hok
  have ho := ((Json.ok_obj o).1 (hok.2 _ h1)).1
  have hc := op.cell_eq t hv
  unfold rotateCell
  rw [get_tile hok.1 h1]
  simp only
  rw [tileOf_members ho hv h2]
  simp only [newCell]
  unfold Operation.cell at hc
  by_cases ht : t.transformable = true
  · rw [if_pos ht] at hc ⊢
    rw [hc, if_pos ht]
    simp only [tileJson_eq]
  · rw [if_neg ht, if_neg ht]

theorem map_fst_set {d : Fields} {k : List Char} {v : Json} (h : k ∈ d.map Prod.fst) : (PyDict.set d k v).map Prod.fst = d.map Prod.fst := by
  induction d with
  | nil => cases h
  | cons e d ih =>
    obtain ⟨k', v'⟩ := e
    simp only [PyDict.set]
    split
    · rename_i e; subst e; rfl
    · rename_i e
      simp only [List.map_cons]
      rw [ih (by
        rcases List.mem_cons.1 h with h | h
        · exact absurd h.symm e
        · exact h)]

theorem set_set (d : Fields) (k : List Char) (v w : Json) : PyDict.set (PyDict.set d k v) k w = PyDict.set d k w := by
  induction d with
  | nil => simp [PyDict.set]
  | cons e d ih =>
    obtain ⟨k', v'⟩ := e
    simp only [PyDict.set]
    split
    · simp [PyDict.set]
    · rename_i h
      simp only [PyDict.set]
      rw [if_neg h, ih]

theorem set_same {d : Fields} (hn : (d.map Prod.fst).Nodup) {k : List Char} {v : Json} (h : (k, v) ∈ d) : PyDict.set d k v = d := by
  induction d with
  | nil => cases h
  | cons e d ih =>
    obtain ⟨k', v'⟩ := e
    simp only [List.map_cons, List.nodup_cons] at hn
    simp only [PyDict.set]
    rcases List.mem_cons.1 h with h | h
    · cases h; simp
    · rw [if_neg (by
        rintro rfl
        exact hn.1 (List.mem_map_of_mem (f := Prod.fst) h)), ih hn.2 h]

theorem mem_newCell {op : Operation} {cell : Fields} (hok : (Json.obj cell).Ok) {t : Tile} (h : CellIs cell t) :
    (newCell op cell t).map Prod.fst = cell.map Prod.fst ∧ (Json.obj (newCell op cell t)).Ok ∧ CellIs (newCell op cell t) (op.tileMap t) ∧
      ∀ k v, k ≠ "tile".toList → ((k, v) ∈ newCell op cell t ↔ (k, v) ∈ cell) := by
  unfold newCell
  by_cases ht : t.transformable = true
  · rw [if_pos ht]
    obtain ⟨o, h1, h2⟩ := h
    rw [Json.ok_obj] at hok
    have hk := map_fst_set (d := cell) (k := Word.tile) (v := .obj (op.tileMap t).members) (List.mem_map_of_mem (f := Prod.fst) h1)
    have hn : (PyDict.set cell Word.tile (.obj (op.tileMap t).members)).Valid := by
      unfold PyDict.Valid; rw [hk]; exact hok.1
    refine ⟨hk, ?_, ⟨(op.tileMap t).members, ?_, fun m hm => hm⟩, ?_⟩
    · rw [Json.ok_obj]
      refine ⟨hn, fun e he => ?_⟩
      rcases Json.mem_set he with he | rfl
      · exact hok.2 e he
      · exact members_ok _
    · rw [show member "tile" (Json.obj (op.tileMap t).members) = (Word.tile, Json.obj (op.tileMap t).members) from rfl, PyDict.mem_iff hn,
        PyDict.get_set, if_pos rfl]
    · intro k v hk'
      rw [PyDict.mem_iff hn, PyDict.get_set, if_neg (fun e => hk' e.symm), ← PyDict.mem_iff hok.1]
  · rw [if_neg ht]
    exact ⟨rfl, hok, by rw [tileMap_fixed op ht]; exact h, fun k v _ => Iff.rfl⟩

theorem Operation.grid_map {α β : Type} (op : Operation) (f : α → β) (z : Arr α) : op.grid (z.map f) = (op.grid z).map f := by
  cases op <;> rfl

/-- The cells of a layout with their tiles. -/
def zipCells (a : Arr Tile) (cells : Fin a.rows → Fin a.cols → Fields) : Arr (Fields × Tile) :=
  ⟨a.rows, a.cols, fun y x => (cells y x, a.get y x)⟩

/-- The cells after the operation. -/
def turned (op : Operation) (z : Arr (Fields × Tile)) : Arr Fields := (op.grid z).map fun p => newCell op p.1 p.2

theorem grid_all {α : Type} {P : α → Prop} (op : Operation) {z : Arr α} (h : ∀ y x, P (z.get y x)) (y : Fin (op.grid z).rows)
    (x : Fin (op.grid z).cols) : P ((op.grid z).get y x) := by
  cases op <;> exact h _ _

theorem grid_pos (op : Operation) {α : Type} (z : Arr α) (hr : 0 < z.rows) (hc : 0 < z.cols) : 0 < (op.grid z).rows ∧ 0 < (op.grid z).cols := by
  cases op <;> first | exact ⟨hr, hc⟩ | exact ⟨hc, hr⟩

theorem grid_at (op : Operation) {α : Type} (z : Arr α) (y : Fin z.rows) (x : Fin z.cols) (y' : Fin (op.grid z).rows)
    (x' : Fin (op.grid z).cols) (h : ((x' : Int), (y' : Int)) = op.pos z.cols z.rows ((x : Int), (y : Int))) :
    (op.grid z).get y' x' = z.get y x := by
  obtain ⟨r, c, f⟩ := z
  obtain ⟨y, hy⟩ := y
  obtain ⟨x, hx⟩ := x
  obtain ⟨y', hy'⟩ := y'
  obtain ⟨x', hx'⟩ := x'
  simp only at hy hx
  cases op <;> simp only [Operation.pos, Prod.mk.injEq, Operation.grid, Arr.rot90, Arr.rot180, Arr.rot270, Arr.flipX, Arr.flipY] at h hy' hx' ⊢ <;>
    congr 1 <;> apply Fin.ext <;> (try simp only [Fin.rev]) <;> omega

theorem rotateLine_zip {op : Operation} {line : List Char} {z : Arr (Fields × Tile)} (hc : CellsOf line (z.map Prod.fst))
    (hv : ∀ y x, (z.get y x).2.Valid) (ht : ∀ y x, CellIs (z.get y x).1 (z.get y x).2) :
    rotateLine op line = .ok (cellsJson (turned op z)).dumps ∧ CellsOf (cellsJson (turned op z)).dumps (turned op z) := by
  have hz : ∀ y x, (Json.obj (z.get y x).1).Ok ∧ (z.get y x).2.Valid ∧ CellIs (z.get y x).1 (z.get y x).2 :=
    fun y x => ⟨cells_ok hc y x, hv y x, ht y x⟩
  have hg := grid_all (P := fun p : Fields × Tile => (Json.obj p.1).Ok ∧ p.2.Valid ∧ CellIs p.1 p.2) op hz
  constructor
  · unfold rotateLine
    rw [hc.2.2]
    simp only
    rw [show Json.arr _ = cellsJson (z.map Prod.fst) from rfl, gridOf_cells _ hc.1]
    simp only
    rw [Operation.grid_map]
    have := eachCell_ok (f := rotateCell op) (a := (op.grid z).map Prod.fst)
      (b := fun y x => .obj (newCell op ((op.grid z).get y x).1 ((op.grid z).get y x).2))
      (fun y x => rotateCell_ok (hg y x).1 (hg y x).2.1 (hg y x).2.2)
    rw [this]
    simp only
    rw [listOf_eq]
    rfl
  · have hp := grid_pos op z hc.1 hc.2.1
    exact cellsOf_dumps hp.1 hp.2 fun y x => (mem_newCell (hg y x).1 (hg y x).2.2).2.1

/-- The cells and tiles after the operation. -/
def turnedZip (op : Operation) (z : Arr (Fields × Tile)) : Arr (Fields × Tile) :=
  (op.grid z).map fun p => (newCell op p.1 p.2, op.tileMap p.2)

theorem turned_eq (op : Operation) (z : Arr (Fields × Tile)) : turned op z = (turnedZip op z).map Prod.fst := rfl

theorem tileMap_back (op : Operation) (t : Tile) : op.back.tileMap (op.tileMap t) = t := by
  have hd : ∀ d, op.back.dir (op.dir d) = d := by
    intro d; cases op <;> cases d <;> rfl
  have hm : op.back.mirrors = op.mirrors := by cases op <;> rfl
  cases t <;> simp [Operation.tileMap, hd, hm]

theorem grid_back {α : Type} (op : Operation) (z : Arr α) : op.back.grid (op.grid z) = z := by
  obtain ⟨r, c, f⟩ := z
  cases op <;> simp [Operation.back, Operation.grid, Arr.rot90, Arr.rot180, Arr.rot270, Arr.flipX, Arr.flipY]

theorem transformable_map (op : Operation) (t : Tile) : (op.tileMap t).transformable = t.transformable := by
  cases t <;> rfl

theorem newCell_back {op : Operation} {cell : Fields} (hn : (cell.map Prod.fst).Nodup) {t : Tile}
    (h : member "tile" (.obj t.members) ∈ cell) : newCell op.back (newCell op cell t) (op.tileMap t) = cell := by
  unfold newCell
  rw [transformable_map]
  by_cases ht : t.transformable = true
  · simp only [if_pos ht]
    rw [set_set, tileMap_back]
    exact set_same hn h
  · simp only [if_neg ht]

theorem turned_back {op : Operation} {z : Arr (Fields × Tile)}
    (h : ∀ y x, ((z.get y x).1.map Prod.fst).Nodup ∧ member "tile" (.obj (z.get y x).2.members) ∈ (z.get y x).1) :
    turned op.back (turnedZip op z) = z.map Prod.fst := by
  unfold turned turnedZip
  rw [Operation.grid_map, grid_back]
  unfold Arr.map
  congr 1
  funext y x
  exact newCell_back (h y x).1 (h y x).2

/-! ### Drawings -/

theorem stripWs_newline (l : List Char) : stripWs (l ++ ['\n']) = stripWs l := by
  unfold stripWs
  rw [List.dropWhile_append]
  split
  · rename_i h
    have : l.dropWhile Char.isWhitespace = [] := by simpa using h
    rw [this]
    rfl
  · rw [List.reverse_append, List.reverse_singleton, List.singleton_append, List.dropWhile_cons_of_pos (by decide)]

theorem nextGrid_newline (ls : List (List Char)) :
    nextGrid (ls.map (· ++ ['\n'])) = (nextGrid ls).map fun p => (p.1, p.2.map (· ++ ['\n'])) := by
  induction ls with
  | nil => rfl
  | cons l ls ih =>
    simp only [List.map_cons, nextGrid, stripWs_newline]
    split
    · rfl
    · rw [ih]
      cases nextGrid ls <;> rfl

theorem nextGrid_plain (a : Arr Tile) (hc : 0 < a.cols) (rest : List (List Char)) :
    nextGrid (gridLines a ++ rest) = some (gridLines a, rest) := by
  have h1 := nextGrid_grid a hc (rest.map (· ++ ['\n']))
  rw [← List.map_append, nextGrid_newline] at h1
  rw [Option.map_eq_some_iff] at h1
  obtain ⟨⟨g, r⟩, h2, h3⟩ := h1
  rw [h2]
  simp only [Prod.mk.injEq] at h3
  have hr : r = rest := List.map_injective_iff.2 (fun x y h => by simpa using h) h3.2
  rw [h3.1, hr]

theorem textOf_intercalate (ls : List (List Char)) (h : ls ≠ []) : List.intercalate ['\n'] ls ++ ['\n'] = textOf ls := by
  induction ls with
  | nil => exact absurd rfl h
  | cons l ls ih =>
    cases ls with
    | nil => simp [textOf, List.intercalate]
    | cons m ls =>
      rw [intercalate_cons2, List.append_assoc, ih (by simp), textOf_cons l]
      simp

theorem undrawn_grid (a : Arr Tile) (hr : 0 < a.rows) (hc : 0 < a.cols) (h : ∀ y x, (a.get y x).Drawable) :
    undrawn (gridLines a) = .ok (cellsJson (tileCells a)).dumps := by
  unfold undrawn
  rw [decodeGrid_gridLines a hc h]
  simp only
  have := vectorize_ok (f := writeDrawn) (a := a.map some) (b := fun y x => writeTile (a.get y x)) hr hc (fun y x => rfl)
  rw [this]
  simp only
  exact congrArg (fun j => Except.ok (Json.dumps j)) (listOf_write a)

theorem undrawLoop_grids {as : List (Arr Tile)} (h : ∀ a ∈ as, 0 < a.rows ∧ 0 < a.cols ∧ ∀ y x, (a.get y x).Drawable) {n : Nat}
    (hn : as.length < n) :
    undrawLoop n (as.flatMap gridLines) = ⟨textOf (as.map fun a => (cellsJson (tileCells a)).dumps), .endOfInput⟩ := by
  induction as generalizing n with
  | nil => cases n with
    | zero => cases hn
    | succ n => rfl
  | cons a as ih =>
    obtain ⟨h1, h2, h3⟩ := h a (.head _)
    cases n with
    | zero => cases hn
    | succ n =>
      rw [List.flatMap_cons, undrawLoop, nextGrid_plain a h2]
      simp only
      rw [undrawn_grid a h1 h2 h3]
      simp only
      rw [ih (fun b hb => h b (.tail _ hb)) (by simpa using hn), List.map_cons, textOf_cons]

end FSat
