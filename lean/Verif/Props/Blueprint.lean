import Verif.Lemmas.Blueprint
import Verif.Lemmas.JsonPrefix
import Verif.Props.Solver
/-!
# Properties of blueprints and blueprint books (C44 - C47, C55, C70 - C72)
-/

set_option linter.unusedSimpArgs false

namespace FSat

/-! ### C44 -/

theorem makeBlueprint_entities {l : LevelArg} {label : Option (List Char)} {a : Arr Tile} {es : List Json}
    (h : entityLoop l a a.cells 1 = .ok es) : ∃ bp inner, makeBlueprint l label a = .ok bp ∧
      bp.item Word.blueprint = .ok inner ∧ inner.item Word.entities = .ok (.arr es) := by
  refine ⟨_, _, (by simp only [makeBlueprint, h]; rfl), rfl, ?_⟩
  cases label <;> rfl

theorem Encodable.simple {a : Arr Tile} (h : Encodable a.board) (y : Fin a.rows) (x : Fin a.cols) : (a.get y x).Simple := by
  rw [← a.board_get]
  cases ht : a.board ((x.val : Int), (y.val : Int)) with
  | assembler u v => exact absurd ht (h.noAssembler _ u v)
  | inserter d k => exact h.inserters _ d k ht
  | _ => trivial

/-- C44: exporting a layout and importing the result gives the layout, cut to the smallest rectangle around everything but empty cells
and chests, with chests dropped and the inputs of belts recomputed. -/
theorem c44_roundtrip (level : BeltLevel) (label : Option (List Char)) (a : Arr Tile) (h : Encodable a.board)
    (hk : ∃ p, (a.board p).Kept) :
    ∃ (data : Json) (b : Arr Tile) (x0 y0 : Int), makeBlueprint (.level level) label a = .ok data ∧ importBlueprint data = .ok b ∧
      BoundingBox (fun p => (a.board p).Kept) x0 y0 b.cols b.rows ∧
      ∀ p, Restored a.board p (b.board (p.1 - x0, p.2 - y0)) := by
  obtain ⟨es, h1, h2, h3⟩ := entityLoop_spec level a h.simple a.cells 1 []
  obtain ⟨bp, inner, g1, g2, g3⟩ := makeBlueprint_entities (label := label) h1
  have hget := assignments_get a h.splitters
  have hvalid := valid_foldl_set (assignments a a.cells) [] PyDict.valid_nil
  generalize (assignments a a.cells).foldl (fun d p => PyDict.set d p.1 p.2) [] = D at h2 hget hvalid
  have hne : D ≠ [] := by
    rintro rfl
    obtain ⟨p, hp⟩ := hk
    have := hget p
    rw [if_pos hp] at this
    cases this
  obtain ⟨x0, y0, a', e1, e2, e3⟩ := array_of_dict D hvalid hne (fun p => (a.board p).Kept) (fun p => plain (a.board p)) hget
  have e3' : ∀ p, a'.board p = plain (a.board (p.1 + x0, p.2 + y0)) := by
    intro p
    rw [e3]
    split
    · rfl
    · rename_i hn
      revert hn
      cases a.board (p.1 + x0, p.2 + y0) <;> simp [Tile.Kept, plain]
  have hfed : ∀ p d, Fed a'.board p d ↔ Fed a.board (p.1 + x0, p.2 + y0) d := by
    intro p d
    rw [fed_iff, fed_iff, e3', plain_output]
    simp only [show p.1 - d.dx + x0 = p.1 + x0 - d.dx by omega, show p.2 - d.dy + y0 = p.2 + y0 - d.dy by omega]
  have honly : ∀ p d, OnlyFeeder a'.board p d ↔ OnlyFeeder a.board (p.1 + x0, p.2 + y0) d := by
    intro p d
    unfold OnlyFeeder
    simp only [hfed]
  obtain ⟨b, f1, f2, f3, f4⟩ := resolveInputs_ok a' (by
    intro p i o hb
    rw [honly]
    rw [e3'] at hb
    cases ht : a.board (p.1 + x0, p.2 + y0) with
    | belt i' o' =>
      rw [ht] at hb
      simp only [plain, Tile.belt.injEq] at hb
      obtain ⟨rfl, rfl⟩ := hb
      exact h.noHeadOn _ _ _ ht
    | _ => rw [ht] at hb; simp [plain] at hb)
  refine ⟨bp, b, x0, y0, g1, ?_, ?_, ?_⟩
  · have hes : es ≠ [] := by
      rintro rfl
      simp only [collectTiles, Except.ok.injEq] at h2
      exact hne h2.symm
    unfold importBlueprint
    rw [g2]
    simp only [bind, Except.bind, g3]
    cases es with
    | nil => exact absurd rfl hes
    | cons e es =>
      simp only [h2]
      simp only at e1
      rw [e1, f1]
  · rw [f2, f3]; exact e2
  · intro p
    rw [f4]
    have hp : (p.1 - x0 + x0, p.2 - y0 + y0) = p := by ext <;> simp
    unfold resolved Restored
    rw [e3']
    simp only [hp]
    cases ht : a.board p with
    | belt i o =>
      simp only [plain]
      refine ⟨_, rfl, ?_⟩
      have ho := honly (p.1 - x0, p.2 - y0)
      simp only [hp] at ho
      simp only [← ho]
      cases hf : feedOf a'.board (p.1 - x0, p.2 - y0) with
      | some d => exact Or.inl ((feedOf_iff _ _ d).1 hf)
      | none =>
        refine Or.inr ⟨?_, rfl⟩
        rintro ⟨d, hd⟩
        rw [(feedOf_iff _ _ d).2 hd] at hf
        cases hf
    | _ => rfl

/-- C44: a layout of empty cells and chests gives the array without cells. -/
theorem c44_empty (level : BeltLevel) (label : Option (List Char)) (a : Arr Tile) (hk : ∀ p, ¬ (a.board p).Kept) :
    ∃ (data : Json) (b : Arr Tile), makeBlueprint (.level level) label a = .ok data ∧ importBlueprint data = .ok b ∧
      b.rows = 0 ∧ b.cols = 0 := by
  have hn : ∀ y x, (a.get y x) = .empty ∨ (a.get y x) = .filler := by
    intro y x
    have := hk ((x.val : Int), (y.val : Int))
    rw [a.board_get] at this
    revert this
    cases a.get y x <;> simp [Tile.Kept]
  obtain ⟨es, h1, -, h3⟩ := entityLoop_spec level a (fun y x => by rcases hn y x with h | h <;> rw [h] <;> trivial) a.cells 1 []
  obtain ⟨bp, inner, g1, g2, g3⟩ := makeBlueprint_entities (label := label) h1
  have he : es = [] := by
    rw [h3]
    unfold assignments
    rw [List.flatMap_eq_nil_iff]
    intro p _
    rcases hn p.1 p.2 with h | h <;> rw [h] <;> rfl
  subst he
  refine ⟨bp, ⟨0, 0, fun i => i.elim0⟩, g1, ?_, rfl, rfl⟩
  unfold importBlueprint
  rw [g2]
  simp only [bind, Except.bind, g3]


/-- A layout with a splitter, an inserter, an underground belt, a chest and a turning belt. -/
def exTile (y x : Nat) : Tile :=
  ([[.empty, .empty, .empty, .empty],
    [.filler, .splitter .right false, .belt .right .down, .inserter .up 1],
    [.empty, .splitter .right true, .underground .down true, .empty],
    [.empty, .empty, .empty, .empty]].getD y []).getD x .empty
def exTiles : Arr Tile := ⟨4, 4, fun y x => exTile y.val x.val⟩

theorem arr_all {a : Arr Tile} {P : (Int × Int) → Tile → Prop} (h0 : ∀ p, P p .empty)
    (h : ∀ y : Fin a.rows, ∀ x : Fin a.cols, P ((x.val : Int), (y.val : Int)) (a.get y x)) (p : Int × Int) : P p (a.board p) := by
  by_cases hp : 0 ≤ p.1 ∧ p.1 < a.cols ∧ 0 ≤ p.2 ∧ p.2 < a.rows
  · have e : p = (((⟨p.1.toNat, by omega⟩ : Fin a.cols).val : Int), ((⟨p.2.toNat, by omega⟩ : Fin a.rows).val : Int)) := by
      ext <;> simp <;> omega
    rw [e, a.board_get]
    exact h _ _
  · rw [a.board_outside p hp]
    exact h0 p

instance (T : Int × Int → Tile) (p : Int × Int) (d : Dir) : Decidable (OnlyFeeder T p d) :=
  decidable_of_iff _ (feedOf_iff T p d)

theorem exTiles_cells (p : Int × Int) : exTiles.board p = .empty ∨ (p, exTiles.board p) ∈
    [(((0 : Int), (1 : Int)), Tile.filler), ((1, 1), .splitter .right false), ((2, 1), .belt .right .down), ((3, 1), .inserter .up 1),
      ((1, 2), .splitter .right true), ((2, 2), .underground .down true)] :=
  arr_all (a := exTiles) (P := fun p t => t = .empty ∨ (p, t) ∈ [(((0 : Int), (1 : Int)), Tile.filler), ((1, 1), .splitter .right false),
    ((2, 1), .belt .right .down), ((3, 1), .inserter .up 1), ((1, 2), .splitter .right true), ((2, 2), .underground .down true)])
    (fun _ => Or.inl rfl) (show ∀ y x : Fin 4, exTile y.val x.val = .empty ∨ (((x.val : Int), (y.val : Int)), exTile y.val x.val) ∈
      [(((0 : Int), (1 : Int)), Tile.filler), ((1, 1), .splitter .right false), ((2, 1), .belt .right .down), ((3, 1), .inserter .up 1),
        ((1, 2), .splitter .right true), ((2, 2), .underground .down true)] by decide) p

example : Encodable exTiles.board ∧ ∃ p, (exTiles.board p).Kept := by
  refine ⟨⟨?_, ?_, ⟨?_, ?_⟩, ?_⟩, (1, 1), by decide⟩
  · intro p x y h
    have := exTiles_cells p
    rw [h] at this
    simp at this
  · intro p d k h
    have := exTiles_cells p
    rw [h] at this
    simp at this
    exact Or.inr this.2.2
  · intro p d _ h
    have := exTiles_cells p
    rw [h] at this
    simp at this
    obtain ⟨rfl, rfl⟩ := this
    exact ⟨(1, 1), trivial, by decide, by decide, by decide⟩
  · intro p d _ h
    have := exTiles_cells p
    rw [h] at this
    simp at this
    obtain ⟨rfl, rfl⟩ := this
    exact ⟨(1, 2), trivial, by decide, by decide, by decide⟩
  · intro p i o h
    have := exTiles_cells p
    rw [h] at this
    simp at this
    obtain ⟨rfl, rfl, rfl⟩ := this
    decide

/-! ### C45 -/

/-- The array of tiles of a solution. -/
def layoutArr (g : Grid) (T : Nat × Nat → Tile) : Arr Tile := ⟨g.height, g.width, fun y x => T (x.val, y.val)⟩

/-- A cell of the grid, as a position of the plane. -/
def toPlane (p : Nat × Nat) : Int × Int := ((p.1 : Int), (p.2 : Int))

theorem layout_board {g : Grid} (T : Nat × Nat → Tile) {p : Nat × Nat} (hp : g.In p) : (layoutArr g T).board (toPlane p) = T p :=
  (layoutArr g T).board_get ⟨p.2, hp.2⟩ ⟨p.1, hp.1⟩

theorem layout_in {g : Grid} {T : Nat × Nat → Tile} {q : Int × Int} (h : (layoutArr g T).board q ≠ .empty) :
    ∃ p, g.In p ∧ q = toPlane p := by
  obtain ⟨h1, h2, h3, h4⟩ := (layoutArr g T).board_inside q h
  simp only [layoutArr] at h2 h4
  exact ⟨(q.1.toNat, q.2.toNat), ⟨by simp; omega, by simp; omega⟩, by ext <;> simp [toPlane] <;> omega⟩

theorem nb_plane {g : Grid} (hg : g.WF) (hw : g.NoWrap) {p q : Nat × Nat} (hp : g.In p) (hq : g.In q) (d : Dir) :
    g.nb p d = some q ↔ planeNb (toPlane p) d = some (toPlane q) := by
  unfold Grid.nb
  rw [Grid.offset_iff hg, hw.1, hw.2, planeNb_iff]
  obtain ⟨p1, p2⟩ := p
  obtain ⟨q1, q2⟩ := q
  obtain ⟨hq1, hq2⟩ := hq
  simp only [AxisAt, Bool.false_eq_true, if_false, toPlane, Prod.mk.injEq] at *
  constructor
  · rintro ⟨⟨-, h1⟩, -, h2⟩; omega
  · rintro ⟨h1, h2⟩
    exact ⟨⟨hq1, by omega⟩, hq2, by omega⟩

theorem fed_layout {g : Grid} (hg : g.WF) (hw : g.NoWrap) {T : Nat × Nat → Tile} (hj : Joined g.In g.nb T)
    (he : SplitterEnds g.In g.nb T) {p : Nat × Nat} (hp : g.In p) {i o : Dir} (hb : T p = .belt i o) (d : Dir) :
    Fed (layoutArr g T).board (toPlane p) d ↔ d = i ∧ (g.nb p i.opp).isSome = true := by
  constructor
  · rintro ⟨q, h1, h2⟩
    obtain ⟨q, hq, rfl⟩ := layout_in (g := g) (T := T) (q := q) (by intro e; rw [e] at h2; exact h2)
    rw [layout_board T hq] at h2
    have hn := (nb_plane hg hw hq hp d).2 h1
    have hd : d = i := by
      by_cases hs : (T q).IsSplitter
      · obtain ⟨e, b, hs⟩ := hs
        rw [hs] at h2
        have h2' : e = d := h2
        subst h2'
        exact (he.noLeak q p e b hq hs hn i o hb).symm
      · have := hj.out q p d hq hn h2 hs
        rw [hb] at this
        exact this.symm
    subst hd
    exact ⟨rfl, by rw [Grid.nb_opp hg hq hn]; rfl⟩
  · rintro ⟨rfl, h⟩
    obtain ⟨q, hq⟩ := Option.isSome_iff_exists.1 h
    have hqi := Grid.nb_in hg hq
    have hn := Grid.nb_opp hg hp hq
    rw [Dir.opp_opp] at hn
    refine ⟨toPlane q, (nb_plane hg hw hqi hp d).1 hn, ?_⟩
    rw [layout_board T hqi]
    exact hj.inp q p d hqi hn (by rw [hb]; rfl) (by rw [hb]; rintro ⟨_, _, h⟩; cases h)

/-- C45: for the layout of every solution, each belt that is fed from inside the grid gets back the input direction the solver
chose; a belt that is fed from outside runs straight; everything else is left alone. -/
theorem c45_inputs {g : Grid} (hg : g.WF) (hw : g.NoWrap) {cs : Cnf} (hc : initClauses g = .ok cs) (v : Asg) (hv : Sat v cs)
    (hx : Sat v (preventIntersection g)) (T : Nat × Nat → Tile) (hT : Decodes g v T) :
    ∃ b, resolveInputs (layoutArr g T) = .ok b ∧ b.rows = g.height ∧ b.cols = g.width ∧ ∀ p, g.In p →
      (∀ i o, T p = .belt i o → b.board (toPlane p) = .belt (if (g.nb p i.opp).isSome then i else o) o) ∧
      ((∀ i o, T p ≠ .belt i o) → b.board (toPlane p) = T p) := by
  have hl := lays_of_decodes (sem_of_sat hg hc hv) hT
  have hj := c18_joined hg hc v hv hx T hT
  have he := ends_of_sem hg hl ((Sat_intersection g v).1 hx)
  have only : ∀ p, g.In p → ∀ i o, T p = .belt i o → ∀ d, OnlyFeeder (layoutArr g T).board (toPlane p) d ↔
      d = i ∧ (g.nb p i.opp).isSome = true := by
    intro p hp i o hb d
    have hf := fed_layout hg hw hj he hp hb
    constructor
    · intro h
      exact (hf d).1 ((h d).2 rfl)
    · rintro ⟨rfl, h⟩ e
      rw [hf]
      exact ⟨fun h => h.1, fun h' => ⟨h', h⟩⟩
  obtain ⟨b, h1, h2, h3, h4⟩ := resolveInputs_ok (layoutArr g T) (by
    intro q i o hb ho
    obtain ⟨p, hp, rfl⟩ := layout_in (g := g) (T := T) (q := q) (by rw [hb]; simp)
    rw [layout_board T hp] at hb
    have := ((only p hp i o hb _).1 ho).1
    have hbas := (hl p hp).basic
    rw [hb] at hbas
    exact hbas (by rw [← this]; cases o <;> rfl))
  refine ⟨b, h1, h2, h3, fun p hp => ⟨fun i o hb => ?_, fun hb => ?_⟩⟩
  · rw [h4]
    unfold resolved
    rw [layout_board T hp, hb]
    simp only
    cases hs : (g.nb p i.opp).isSome with
    | true => rw [(feedOf_iff _ _ i).2 ((only p hp i o hb i).2 ⟨rfl, hs⟩)]; rfl
    | false =>
      cases hf : feedOf (layoutArr g T).board (toPlane p) with
      | none => rfl
      | some d =>
        have := ((only p hp i o hb d).1 ((feedOf_iff _ _ d).1 hf)).2
        rw [hs] at this; cases this
  · rw [h4]
    unfold resolved
    rw [layout_board T hp]
    split
    · rename_i i o h; exact absurd h (hb i o)
    · rfl

/-- C45: so the layout of every solution can be exported and read back. -/
theorem c45_encodable {g : Grid} (hg : g.WF) (hw : g.NoWrap) {cs : Cnf} (hc : initClauses g = .ok cs) (v : Asg) (hv : Sat v cs)
    (hx : Sat v (preventIntersection g)) (T : Nat × Nat → Tile) (hT : Decodes g v T) : Encodable (layoutArr g T).board := by
  have hl := lays_of_decodes (sem_of_sat hg hc hv) hT
  have hj := c18_joined hg hc v hv hx T hT
  have he := ends_of_sem hg hl ((Sat_intersection g v).1 hx)
  have hs := (c17_paired hg hc v hv T hT).1
  have basic : ∀ q, ((layoutArr g T).board q).Basic := by
    intro q
    by_cases h0 : (layoutArr g T).board q = .empty
    · rw [h0]; trivial
    · obtain ⟨p, hp, rfl⟩ := layout_in h0
      rw [layout_board T hp]
      exact (hl p hp).basic
  refine ⟨fun p x y h => ?_, fun p d k h => ?_, ⟨fun q d _ h => ?_, fun q d _ h => ?_⟩, fun q i o hb ho => ?_⟩
  · have := basic p; rw [h] at this; exact this
  · have := basic p; rw [h] at this; exact this.elim
  · obtain ⟨p, hp, rfl⟩ := layout_in (g := g) (T := T) (q := q) (by rw [h]; simp)
    rw [layout_board T hp] at h
    obtain ⟨r, hr, h1, h2, h3⟩ := hs.head p d hp h
    exact ⟨toPlane r, trivial, by rw [layout_board T hp]; exact h1, (nb_plane hg hw hp hr _).1 h2, by rw [layout_board T hr]; exact h3⟩
  · obtain ⟨p, hp, rfl⟩ := layout_in (g := g) (T := T) (q := q) (by rw [h]; simp)
    rw [layout_board T hp] at h
    obtain ⟨r, hr, h1, h2, h3⟩ := hs.tail p d hp h
    exact ⟨toPlane r, trivial, by rw [layout_board T hr]; exact h1, (nb_plane hg hw hr hp _).1 h2, by rw [layout_board T hp]; exact h3⟩
  · obtain ⟨p, hp, rfl⟩ := layout_in (g := g) (T := T) (q := q) (by rw [hb]; simp)
    rw [layout_board T hp] at hb
    have := ((fed_layout hg hw hj he hp hb _).1 ((ho _).2 rfl)).1
    have hbas := (hl p hp).basic
    rw [hb] at hbas
    exact hbas (by rw [← this]; cases o <;> rfl)

example : exGrid.NoWrap ∧ Sat exAsg (preventIntersection exGrid) ∧ exLayout (1, 0) = .belt .right .down ∧
    (exGrid.nb (1, 0) Dir.right.opp).isSome = true := ⟨⟨rfl, rfl⟩, exAsg_intersection, rfl, by decide⟩

/-! ### C46 -/

theorem indexLoop_spec (bs : List Json) (i : Nat) (h : ∀ b ∈ bs, ∃ o, b = .obj o) :
    indexLoop bs i = .ok (bs.mapIdx fun j b => match b with
      | .obj o => .obj (PyDict.set o Word.index (.int ((i + j : Nat) : Int)))
      | b => b) := by
  induction bs generalizing i with
  | nil => rfl
  | cons b bs ih =>
    obtain ⟨o, rfl⟩ := h b (by simp)
    rw [indexLoop, ih (i + 1) fun b hb => h b (List.mem_cons_of_mem _ hb), List.mapIdx_cons]
    simp only [Nat.add_zero, Except.ok.injEq, List.cons.injEq, true_and]
    congr 1
    funext j b
    cases b <;> simp only
    rw [show i + 1 + j = i + (j + 1) by omega]

/-- C46: unpacking a packed book gives the blueprints in order, each with the member `index` set to its position and every other
member as before. -/
theorem c46_book (bs : List (PyDict (List Char) Json)) (label : Option (List Char)) :
    ∃ (book : Json) (bs' : List Json), packBook (bs.map .obj) label = .ok book ∧ unpackBook book = .ok bs' ∧ bs'.length = bs.length ∧
      ∀ (i : Nat) o, bs[i]? = some o → ∃ o', bs'[i]? = some (.obj o') ∧ PyDict.get o' Word.index = some (.int i) ∧
        ∀ k, k ≠ Word.index → PyDict.get o' k = PyDict.get o k := by
  have h := indexLoop_spec (bs.map .obj) 0 (by
    intro b hb
    obtain ⟨o, -, rfl⟩ := List.mem_map.1 hb
    exact ⟨o, rfl⟩)
  refine ⟨_, _, (by simp only [packBook, h]; rfl), (by cases label <;> rfl), by simp, ?_⟩
  intro i o ho
  refine ⟨PyDict.set o Word.index (.int i), ?_, ?_, ?_⟩
  · rw [List.getElem?_mapIdx, List.getElem?_map, ho]
    simp
  · rw [PyDict.get_set, if_pos rfl]
  · intro k hk
    rw [PyDict.get_set, if_neg (Ne.symm hk)]

/-- C46: the book carries exactly the label it was given, beside its blueprints. -/
theorem c46_label (bs : List Json) (label : Option (List Char)) (book : Json) (h : packBook bs label = .ok book) :
    ∃ inner : PyDict (List Char) Json, book = .obj [(Word.book, .obj inner)] ∧
      PyDict.get inner Word.label = label.map .str ∧ ∃ bs', PyDict.get inner Word.blueprints = some (.arr bs') := by
  unfold packBook at h
  cases e : indexLoop bs 0 with
  | error e' => rw [e] at h; cases h
  | ok bs' =>
    rw [e] at h
    cases h
    refine ⟨_, rfl, ?_, bs', ?_⟩ <;> cases label <;> rfl

/-- C46: a book of things that are not objects is rejected. -/
theorem c46_error (bs : List Json) (label : Option (List Char)) (h : ∃ b ∈ bs, ∀ o, b ≠ .obj o) :
    packBook bs label = .error .typeError := by
  have key : ∀ i, indexLoop bs i = .error .typeError := by
    obtain ⟨b, hb, hn⟩ := h
    induction bs with
    | nil => simp at hb
    | cons c bs ih =>
      intro i
      by_cases hc : ∃ o, c = .obj o
      · obtain ⟨o, rfl⟩ := hc
        rcases List.mem_cons.1 hb with rfl | hb
        · exact absurd rfl (hn o)
        · rw [indexLoop, ih hb]
      · cases c with
        | obj o => exact absurd ⟨o, rfl⟩ hc
        | _ => rfl
  rw [packBook, key]

example : ∃ book, packBook [.obj [(Word.label, .str Word.x)], .obj [(Word.index, .int 7), (Word.label, .str Word.y)]] none = .ok book ∧
    unpackBook book = .ok [.obj [(Word.label, .str Word.x), (Word.index, .int 0)], .obj [(Word.index, .int 1), (Word.label, .str Word.y)]] :=
  ⟨_, rfl, rfl⟩

/-! ### C47 -/

/-- C47: a version survives encoding and decoding, and the encoded value is the number with the four 16-bit fields as its digits. -/
theorem c47_version (a b c d : Int) (ha : 0 ≤ a ∧ a < 2 ^ 16) (hb : 0 ≤ b ∧ b < 2 ^ 16) (hc : 0 ≤ c ∧ c < 2 ^ 16) (hd : 0 ≤ d ∧ d < 2 ^ 16) :
    ∃ n, encodeVersion a b c d = .ok n ∧ 0 ≤ n ∧ n < 2 ^ 64 ∧ n = a + b * 2 ^ 16 + c * 2 ^ 32 + d * 2 ^ 48 ∧
      decodeVersion n = .ok (a, b, c, d) := by
  refine ⟨a + b * 65536 + c * 4294967296 + d * 281474976710656, ?_, by omega, by omega, by omega, ?_⟩
  · rw [encodeVersion, if_pos]
    simp
    omega
  · rw [decodeVersion, if_pos (by omega)]
    have h1 : (a + b * 65536 + c * 4294967296 + d * 281474976710656) % 65536 = a := by omega
    have h2 : (a + b * 65536 + c * 4294967296 + d * 281474976710656) / 65536 % 65536 = b := by omega
    have h3 : (a + b * 65536 + c * 4294967296 + d * 281474976710656) / 4294967296 % 65536 = c := by omega
    have h4 : (a + b * 65536 + c * 4294967296 + d * 281474976710656) / 281474976710656 % 65536 = d := by omega
    rw [h1, h2, h3, h4]

/-- C47: conversely every 64-bit value survives decoding and encoding, into four 16-bit fields. -/
theorem c47_value (n : Int) (h0 : 0 ≤ n) (h1 : n < 2 ^ 64) :
    ∃ a b c d, decodeVersion n = .ok (a, b, c, d) ∧ (0 ≤ a ∧ a < 2 ^ 16) ∧ (0 ≤ b ∧ b < 2 ^ 16) ∧ (0 ≤ c ∧ c < 2 ^ 16) ∧
      (0 ≤ d ∧ d < 2 ^ 16) ∧ encodeVersion a b c d = .ok n := by
  refine ⟨n % 65536, n / 65536 % 65536, n / 4294967296 % 65536, n / 281474976710656 % 65536, ?_, by omega, by omega, by omega, by omega, ?_⟩
  · rw [decodeVersion, if_pos (by omega)]
  · rw [encodeVersion, if_pos (by simp; omega)]
    congr 1
    omega

/-- C47: everything else is rejected. -/
theorem c47_range (a b c d n : Int) :
    ((∃ f ∈ [a, b, c, d], f < 0 ∨ 2 ^ 16 ≤ f) → encodeVersion a b c d = .error .valueError) ∧
    ((n < 0 ∨ 2 ^ 64 ≤ n) → decodeVersion n = .error .valueError) := by
  refine ⟨fun h => ?_, fun h => ?_⟩
  · rw [encodeVersion, if_neg]
    simp at h ⊢
    omega
  · rw [decodeVersion, if_neg (by omega)]

example : encodeVersion 0 0 0 1 = .ok 281474976710656 ∧ decodeVersion 281479273381889 = .ok (1, 26, 1, 1) := by
  constructor <;> rfl

/-! ### C55 -/

/-- The tiles that are belts, undergrounds or the head of a splitter. -/
def Tile.BeltLike : Tile → Prop
  | .belt _ _ | .underground _ _ | .splitter _ true => True
  | _ => False

/-- C55 is false: exporting passes the name of a belt level where a level is needed, so every solution that has a belt, an underground
belt or a splitter makes the program stop with an exception. -/
theorem c55_export_refuted (label : Option (List Char)) (a : Arr Tile) (h : ∃ y x, (a.get y x).BeltLike) :
    ∃ e, makeBlueprint .text label a = .error e := by
  have key : ∀ cs : List (Fin a.rows × Fin a.cols), (∃ p ∈ cs, (a.get p.1 p.2).BeltLike) → ∀ n, ∃ e, entityLoop .text a cs n = .error e := by
    intro cs hcs
    induction cs with
    | nil => obtain ⟨p, hp, -⟩ := hcs; simp at hp
    | cons c cs ih =>
      intro n
      obtain ⟨y, x⟩ := c
      obtain ⟨p, hp, hb⟩ := hcs
      rw [entityLoop]
      rcases List.mem_cons.1 hp with rfl | hp
      · have : cellEntity .text n x y (a.get y x) = .error .attributeError := by
          revert hb
          simp only
          cases a.get y x with
          | splitter d b => cases b <;> simp [Tile.BeltLike, cellEntity, LevelArg.get]
          | _ => simp [Tile.BeltLike, cellEntity, LevelArg.get]
        rw [this]
        exact ⟨_, rfl⟩
      · cases cellEntity .text n x y (a.get y x) with
        | error e => exact ⟨e, rfl⟩
        | ok r =>
          cases r with
          | none => exact ih ⟨p, hp, hb⟩ n
          | some e =>
            obtain ⟨e', he⟩ := ih ⟨p, hp, hb⟩ (n + 1)
            simp only [he]
            exact ⟨_, rfl⟩
  obtain ⟨y, x, hb⟩ := h
  obtain ⟨e, he⟩ := key a.cells ⟨(y, x), a.mem_cells _, hb⟩ 1
  exact ⟨e, by simp only [makeBlueprint, he]⟩

/-- C55, partial: with a proper level every layout of the solver is exported. Missing: the program does not pass a proper level. -/
theorem c55_export_partial (level : BeltLevel) (label : Option (List Char)) (a : Arr Tile) (h : ∀ y x, (a.get y x).Basic) :
    ∃ data, makeBlueprint (.level level) label a = .ok data := by
  obtain ⟨es, h1, -⟩ := entityLoop_spec level a (fun y x => by
    have := h y x
    revert this
    cases a.get y x <;> simp [Tile.Basic, Tile.Simple]) a.cells 1 []
  obtain ⟨bp, -, g, -⟩ := makeBlueprint_entities (label := label) h1
  exact ⟨bp, g⟩

example : (exTiles.get ⟨1, by decide⟩ ⟨2, by decide⟩).BeltLike := trivial

/-! ### C70 -/

/-- C70: if all entities can be read, importing succeeds exactly when no belt is fed from its front only; otherwise it stops with a
`RuntimeError`. The tiles are those the entities are read as, before the inputs of belts are recomputed. -/
theorem c70_import_partial (data inner : Json) (es : List Json) (D : PyDict (Int × Int) Tile) (h1 : data.item Word.blueprint = .ok inner)
    (h2 : inner.item Word.entities = .ok (.arr es)) (h3 : collectTiles es [] = .ok D) (hne : D ≠ []) :
    ((∃ b, importBlueprint data = .ok b) ↔
      ∀ p i o, PyDict.get D p = some (.belt i o) → ¬ OnlyFeeder (fun q => (PyDict.get D q).getD .empty) p o.opp) ∧
    ((¬ ∃ b, importBlueprint data = .ok b) → importBlueprint data = .error .runtimeError) := by
  have hv : D.Valid := by
    have : ∀ (es : List Json) (d D : PyDict (Int × Int) Tile), d.Valid → collectTiles es d = .ok D → D.Valid := by
      intro es
      induction es with
      | nil => intro d D hd h; simp only [collectTiles, Except.ok.injEq] at h; exact h ▸ hd
      | cons e es ih =>
        intro d D hd h
        rw [collectTiles] at h
        split at h
        · cases h
        · exact ih _ _ (valid_foldl_set _ _ hd) h
    exact this es [] D PyDict.valid_nil h3
  obtain ⟨x0, y0, a', e1, -, e3⟩ := array_of_dict D hv hne (fun p => (PyDict.get D p).isSome = true)
    (fun p => (PyDict.get D p).getD .empty) (fun k => by cases PyDict.get D k <;> simp)
  have e3' : ∀ p, a'.board p = (PyDict.get D (p.1 + x0, p.2 + y0)).getD .empty := by
    intro p
    rw [e3]
    cases PyDict.get D (p.1 + x0, p.2 + y0) <;> simp
  have himp : importBlueprint data = resolveInputs a' := by
    unfold importBlueprint
    rw [h1]
    simp only [bind, Except.bind, h2]
    cases es with
    | nil =>
      simp only [collectTiles, Except.ok.injEq] at h3
      exact absurd h3.symm hne
    | cons e es =>
      simp only [h3]
      simp only at e1
      rw [e1]
  have honly : ∀ p d, OnlyFeeder a'.board p d ↔ OnlyFeeder (fun q => (PyDict.get D q).getD .empty) (p.1 + x0, p.2 + y0) d := by
    intro p d
    unfold OnlyFeeder
    simp only [fed_iff, e3']
    simp only [show ∀ e : Dir, p.1 - e.dx + x0 = p.1 + x0 - e.dx by intro e; omega, show ∀ e : Dir, p.2 - e.dy + y0 = p.2 + y0 - e.dy by intro e; omega]
  have hcond : (∀ p i o, PyDict.get D p = some (.belt i o) → ¬ OnlyFeeder (fun q => (PyDict.get D q).getD .empty) p o.opp) ↔
      ∀ p i o, a'.board p = .belt i o → ¬ OnlyFeeder a'.board p o.opp := by
    constructor
    · intro h p i o hb
      rw [honly]
      refine h _ i o ?_
      rw [e3'] at hb
      cases hg : PyDict.get D (p.1 + x0, p.2 + y0) with
      | none => rw [hg] at hb; cases hb
      | some t => rw [hg] at hb; exact congrArg some hb
    · intro h p i o hb
      have := h (p.1 - x0, p.2 - y0) i o (by
        rw [e3']
        simp [hb])
      rw [honly] at this
      simpa using this
  rw [hcond, himp]
  by_cases hh : ∀ p i o, a'.board p = .belt i o → ¬ OnlyFeeder a'.board p o.opp
  · obtain ⟨b, hb, -⟩ := resolveInputs_ok a' hh
    exact ⟨⟨fun _ => hh, fun _ => ⟨b, hb⟩⟩, fun hn => absurd ⟨b, hb⟩ hn⟩
  · have herr := resolveInputs_error a' (by
      push Not at hh
      exact hh)
    refine ⟨⟨fun ⟨b, hb⟩ => ?_, fun h => absurd h hh⟩, fun _ => herr⟩
    rw [herr] at hb
    cases hb

/-- C70 is false: a blueprint of two belts that face each other, which the game accepts, cannot be imported. -/
theorem c70_import_refuted : ∃ (data : Json) (a : Arr Tile), (∀ y x, ∃ d, a.get y x = .belt d d) ∧
    makeBlueprint (.level .normal) none a = .ok data ∧ importBlueprint data = .error .runtimeError := by
  refine ⟨_, ⟨1, 2, fun _ x => if x.val = 0 then .belt .right .right else .belt .left .left⟩, ?_, rfl, rfl⟩
  intro y x
  dsimp only
  split
  · exact ⟨_, rfl⟩
  · exact ⟨_, rfl⟩

/-! ### C71 -/

/-- Whether a tile becomes an entity of its own. -/
def Tile.entityCount : Tile → Nat
  | .empty | .filler | .splitter _ false => 0
  | _ => 1

theorem entityLoop_numbers (l : BeltLevel) (a : Arr Tile) (ht : ∀ y x, (a.get y x).Simple) (cs : List (Fin a.rows × Fin a.cols)) (n : Nat)
    (es : List Json) (h : entityLoop (.level l) a cs n = .ok es) :
    es.length = (cs.map fun p => (a.get p.1 p.2).entityCount).sum ∧
    ∀ (i : Nat) (e : Json), es[i]? = some e → e.item Word.entityNumber = .ok (.int ((n + i : Nat) : Int)) := by
  induction cs generalizing n es with
  | nil =>
    simp only [entityLoop, Except.ok.injEq] at h
    subst h
    exact ⟨rfl, by simp⟩
  | cons c cs ih =>
    obtain ⟨y, x⟩ := c
    rw [entityLoop] at h
    have hcase : (cellEntity (.level l) n x y (a.get y x) = .ok none ∧ (a.get y x).entityCount = 0) ∨
        ∃ o, cellEntity (.level l) n x y (a.get y x) = .ok (some (.obj ((Word.entityNumber, .int n) :: o))) ∧
          (a.get y x).entityCount = 1 := by
      have := ht y x
      revert this
      cases a.get y x with
      | empty => exact fun _ => Or.inl ⟨rfl, rfl⟩
      | filler => exact fun _ => Or.inl ⟨rfl, rfl⟩
      | splitter d b =>
        cases b
        · exact fun _ => Or.inl ⟨rfl, rfl⟩
        · exact fun _ => Or.inr ⟨_, rfl, rfl⟩
      | assembler u v => exact fun h => h.elim
      | _ => exact fun _ => Or.inr ⟨_, rfl, rfl⟩
    rcases hcase with ⟨h1, h2⟩ | ⟨o, h1, h2⟩
    · rw [h1] at h
      obtain ⟨g1, g2⟩ := ih n es h
      refine ⟨by simp [g1, h2], g2⟩
    · rw [h1] at h
      simp only at h
      split at h
      · cases h
      · rename_i es' he
        simp only [Except.ok.injEq] at h
        subst h
        obtain ⟨g1, g2⟩ := ih (n + 1) es' he
        refine ⟨by simp [g1, h2]; omega, ?_⟩
        intro i e hi
        cases i with
        | zero =>
          simp only [List.getElem?_cons_zero, Option.some.injEq] at hi
          subst hi
          simp [Json.item, PyDict.get]
        | succ i =>
          rw [List.getElem?_cons_succ] at hi
          rw [g2 i e hi, show n + 1 + i = n + (i + 1) by omega]

/-- C71: a blueprint has one entity for each belt, underground end, splitter and inserter, numbered 1, 2, 3, ... -/
theorem c71_entities (level : BeltLevel) (label : Option (List Char)) (a : Arr Tile) (h : Encodable a.board) :
    ∃ (data inner : Json) (es : List Json), makeBlueprint (.level level) label a = .ok data ∧ data.item Word.blueprint = .ok inner ∧
      inner.item Word.entities = .ok (.arr es) ∧ es.length = (a.cells.map fun p => (a.get p.1 p.2).entityCount).sum ∧
      (∀ (i : Nat) (e : Json), es[i]? = some e → e.item Word.entityNumber = .ok (.int ((i + 1 : Nat) : Int))) ∧
      (∀ l, label = some l → inner.item Word.label = .ok (.str l)) := by
  obtain ⟨es, h1, -⟩ := entityLoop_spec level a h.simple a.cells 1 []
  obtain ⟨g1, g2⟩ := entityLoop_numbers level a h.simple a.cells 1 es h1
  refine ⟨_, _, es, (by simp only [makeBlueprint, h1]; rfl), rfl, (by cases label <;> rfl), g1, fun i e he => ?_, ?_⟩
  · rw [g2 i e he, Nat.add_comm]
  · rintro l rfl
    rfl

/-! ### C72 -/

theorem okElems_of {l : List Json} (h : ∀ x ∈ l, Json.Ok x) : Json.OkElems l := by
  induction l with
  | nil => trivial
  | cons x l ih => exact ⟨h x (by simp), ih fun y hy => h y (List.mem_cons_of_mem _ hy)⟩

theorem cellEntity_ok {level : LevelArg} {n x y : Nat} {t : Tile} {e : Json} (h : cellEntity level n x y t = .ok (some e)) : Json.Ok e := by
  cases t with
  | empty => cases h
  | filler => cases h
  | belt i o =>
    cases level with
    | text => cases h
    | level l =>
      cases h
      cases o <;> exact ⟨of_decide_eq_true rfl, trivial, ⟨of_decide_eq_true rfl, trivial, trivial, trivial⟩, trivial, by trivial⟩
  | underground d b =>
    cases level with
    | text => cases h
    | level l =>
      cases h
      cases d
      all_goals exact ⟨of_decide_eq_true rfl, trivial, ⟨of_decide_eq_true rfl, trivial, trivial, trivial⟩, trivial, by trivial⟩
  | splitter d b =>
    cases b with
    | false => cases h
    | true =>
      cases level with
      | text => cases h
      | level l =>
        cases h
        cases d <;> exact ⟨of_decide_eq_true rfl, trivial, ⟨of_decide_eq_true rfl, trivial, trivial, trivial⟩, trivial, by trivial⟩
  | inserter d k =>
    cases h
    by_cases h0 : k = 0
    · rw [if_pos h0]
      cases d <;> exact ⟨of_decide_eq_true rfl, trivial, ⟨of_decide_eq_true rfl, trivial, trivial, trivial⟩, trivial, by trivial⟩
    · rw [if_neg h0]
      by_cases h1 : k = 1
      · rw [if_pos h1]
        cases d <;> exact ⟨of_decide_eq_true rfl, trivial, ⟨of_decide_eq_true rfl, trivial, trivial, trivial⟩, trivial, by trivial⟩
      · rw [if_neg h1]
        cases d <;> exact ⟨of_decide_eq_true rfl, trivial, ⟨of_decide_eq_true rfl, trivial, trivial, trivial⟩, by trivial⟩
  | assembler u v => cases h

theorem entityLoop_ok {level : LevelArg} {a : Arr Tile} (cs : List (Fin a.rows × Fin a.cols)) (n : Nat) (es : List Json)
    (h : entityLoop level a cs n = .ok es) : ∀ e ∈ es, Json.Ok e := by
  induction cs generalizing n es with
  | nil =>
    simp only [entityLoop, Except.ok.injEq] at h
    subst h
    simp
  | cons c cs ih =>
    obtain ⟨y, x⟩ := c
    rw [entityLoop] at h
    cases hc : cellEntity level n x y (a.get y x) with
    | error e => rw [hc] at h; cases h
    | ok r =>
      rw [hc] at h
      cases r with
      | none => exact ih n es h
      | some e =>
        simp only at h
        split at h
        · cases h
        · rename_i es' he
          simp only [Except.ok.injEq] at h
          subst h
          intro e' he'
          rcases List.mem_cons.1 he' with rfl | he'
          · exact cellEntity_ok hc
          · exact ih _ _ he _ he'

theorem makeBlueprint_ok {level : LevelArg} {label : Option (List Char)} {a : Arr Tile} {data : Json}
    (h : makeBlueprint level label a = .ok data) : Json.Ok data := by
  unfold makeBlueprint at h
  split at h
  · cases h
  · rename_i es he
    cases h
    have hes := okElems_of (entityLoop_ok a.cells 1 es he)
    have htmpl : Json.Ok (.arr [.obj [(Word.signal, .obj [(Word.type, .str Word.item), (Word.name, .str Word.splitter)]), (Word.index, .int 1)]]) :=
      ⟨⟨by decide, ⟨by decide, trivial, trivial, trivial⟩, trivial, trivial⟩, trivial⟩
    refine ⟨by simp, ?_, trivial⟩
    cases label with
    | none => exact ⟨by simp [blueprintTemplate]; decide, htmpl, trivial, trivial, hes, trivial⟩
    | some l => exact ⟨by simp [blueprintTemplate]; decide, htmpl, trivial, trivial, trivial, hes, trivial⟩

/-- C72: the text of a blueprint or book reads back as the same data, given that `zlib` and `base64` can be undone. -/
theorem c72_string (c : Codec) (data : Json) (h : Json.Ok data) : decodeBlueprint c (encodeBlueprint c data) = .ok data := by
  simp only [encodeBlueprint, decodeBlueprint, ne_eq, not_true_eq_false, if_false, c.unpack_pack, Json.loads_dumps data h]

/-- C72: so what is exported as a string reads back as it was made. -/
theorem c72_export (c : Codec) (level : LevelArg) (label : Option (List Char)) (a : Arr Tile) (data : Json)
    (h : makeBlueprint level label a = .ok data) : decodeBlueprint c (encodeBlueprint c data) = .ok data :=
  c72_string c data (makeBlueprint_ok h)

/-- C72: strings of another format version are rejected, and so is the empty string. -/
theorem c72_version (c : Codec) (s : List Char) (h : s.head? ≠ some '0') : ∃ e, decodeBlueprint c s = .error e := by
  cases s with
  | nil => exact ⟨_, rfl⟩
  | cons x s =>
    refine ⟨.runtimeError, ?_⟩
    rw [decodeBlueprint, if_pos]
    simpa using h

example : ∃ data, makeBlueprint (.level .fast) (some Word.x) exTiles = .ok data := ⟨_, rfl⟩

end FSat
