import Verif.Lemmas.Commands
import Verif.Props.Network
import Verif.Props.ParseNetwork
/-!
# C96: the converting commands, from text to text
-/

namespace FSat

/-- C96: the commands that read until the input ends work line by line: what they print is what they make of each line, in that order, and
the first line they cannot convert ends them after all earlier lines have been converted. -/
theorem c96_line_by_line (c : Codec) (label : Option (List Char)) (level : BeltLevel) (op : Operation)
    (main : List Char → Run) (f : List Char → Except PyErr (List Char))
    (hm : (main, f) ∈ [(blueprintEncode c label level, encodeLine c label level), (blueprintDecode c, decodeLine c),
      (rotateMain op, rotateLine op), (stringifierEncode, drawLine)])
    {text : List Char} {good outs rest : List (List Char)} (hg : List.Forall₂ (fun l o => f l = .ok o) good outs)
    (hi : IsInput text (good ++ rest)) :
    (rest = [] → main text = ⟨textOf outs, .endOfInput⟩) ∧
    (∀ bad more e, rest = bad :: more → f bad = .error e → main text = ⟨textOf outs, .raised e⟩) := by
  have key : main text = lineLoop f (inputLines text) := by
    simp only [List.mem_cons, Prod.mk.injEq, List.not_mem_nil, or_false] at hm
    rcases hm with ⟨rfl, rfl⟩ | ⟨rfl, rfl⟩ | ⟨rfl, rfl⟩ | ⟨rfl, rfl⟩ <;> rfl
  rw [key, inputLines_of hi, lineLoop_append hg]
  constructor
  · rintro rfl
    simp [lineLoop]
  · rintro bad more e rfl he
    simp [lineLoop, he]

/-- A line of solver output is read as the layout it stands for. -/
theorem encodeLine_roundtrip {c : Codec} {label : Option (List Char)} {level : BeltLevel} {line : List Char} {a : Arr Tile}
    (hs : SolutionLine line a) (hv : a.AllValid) (he : Encodable a.board) (hk : ∃ p, (a.board p).Kept) :
    ∃ (data : Json) (b : Arr Tile) (out : List Char), encodeLine c label level line = .ok (encodeBlueprint c data) ∧
      decodeLine c (encodeBlueprint c data) = .ok out ∧ '\n' ∉ out ∧ SolutionLine out b ∧
      ∃ x0 y0, BoundingBox (fun p => (a.board p).Kept) x0 y0 b.cols b.rows ∧ ∀ p, Restored a.board p (b.board (p.1 - x0, p.2 - y0)) := by
  obtain ⟨data, b, x0, y0, h1, h2, h3, h4⟩ := c44_roundtrip level label a he hk
  have hr : 0 < b.rows := by
    obtain ⟨p, hp, e⟩ := h3.top
    have := h3.inside p hp
    omega
  have hc : 0 < b.cols := by
    obtain ⟨p, hp, e⟩ := h3.left
    have := h3.inside p hp
    omega
  refine ⟨data, b, (cellsJson (tileCells b)).dumps, ?_, ?_, Json.dumps_line _, solutionLine_write hr hc, x0, y0, h3, h4⟩
  · unfold encodeLine
    rw [layoutOf_line hv hs]
    simp only
    rw [h1]
  · unfold decodeLine
    rw [c72_export c _ label a data h1]
    simp only
    rw [h2]
    simp only
    rw [vectorize_ok (f := fun t => .ok (writeTile t)) (b := fun y x => writeTile (b.get y x)) hr hc (fun y x => rfl)]
    simp only
    rw [listOf_write b]

theorem forall₂_choose {α β γ : Type} {R : α → β → Prop} {S : α → β → γ → Prop} {l : List α} {m : List β} (h : List.Forall₂ R l m)
    (hs : ∀ a ∈ l, ∀ b ∈ m, R a b → ∃ c, S a b c) :
    ∃ cs : List γ, List.Forall₂ (fun a p => S a p.1 p.2) l (m.zip cs) ∧ cs.length = m.length := by
  induction h with
  | nil => exact ⟨[], .nil, rfl⟩
  | @cons a b l m h _ ih =>
    obtain ⟨c, hc⟩ := hs a (.head _) b (.head _) h
    obtain ⟨cs, h1, h2⟩ := ih fun a ha b hb => hs a (.tail _ ha) b (.tail _ hb)
    exact ⟨c :: cs, .cons hc h1, by simp [h2]⟩

/-- C96: `blueprint encode | blueprint decode`: for any number of lines that stand for layouts that can be exported, the layouts come back,
cut to what they contain. -/
theorem c96_blueprint {c : Codec} (h1 : c.OneLine) (label : Option (List Char)) (level : BeltLevel) {text : List Char}
    {ls : List (List Char)} {as : List (Arr Tile)} (hi : IsInput text ls) (hs : List.Forall₂ SolutionLine ls as)
    (ha : ∀ a ∈ as, a.AllValid ∧ Encodable a.board ∧ ∃ p, (a.board p).Kept) :
    ∃ (mid : List Char) (outs : List (List Char)) (bs : List (Arr Tile)), blueprintEncode c label level text = ⟨mid, .endOfInput⟩ ∧
      blueprintDecode c mid = ⟨textOf outs, .endOfInput⟩ ∧ List.Forall₂ SolutionLine outs bs ∧
      List.Forall₂ (fun a b => ∃ x0 y0, BoundingBox (fun p => (a.board p).Kept) x0 y0 b.cols b.rows ∧
        ∀ p, Restored a.board p (b.board (p.1 - x0, p.2 - y0))) as bs := by
  have key : ∃ (mids outs : List (List Char)) (bs : List (Arr Tile)), List.Forall₂ (fun l m => encodeLine c label level l = .ok m) ls mids ∧
      (∀ m ∈ mids, '\n' ∉ m) ∧ List.Forall₂ (fun m o => decodeLine c m = .ok o) mids outs ∧ List.Forall₂ SolutionLine outs bs ∧
      List.Forall₂ (fun a b => ∃ x0 y0, BoundingBox (fun p => (a.board p).Kept) x0 y0 b.cols b.rows ∧
        ∀ p, Restored a.board p (b.board (p.1 - x0, p.2 - y0))) as bs := by
    clear hi
    induction hs with
    | nil => exact ⟨[], [], [], .nil, by simp, .nil, .nil, .nil⟩
    | @cons l a ls as h _ ih =>
      obtain ⟨mids, outs, bs, g1, g2, g3, g4, g5⟩ := ih fun a h => ha a (.tail _ h)
      obtain ⟨ha1, ha2, ha3⟩ := ha a (.head _)
      obtain ⟨data, b, out, e1, e2, _, e4, e5⟩ := encodeLine_roundtrip (c := c) (label := label) (level := level) h ha1 ha2 ha3
      refine ⟨encodeBlueprint c data :: mids, out :: outs, b :: bs, .cons e1 g1, fun m hm => ?_, .cons e2 g3, .cons e4 g4, .cons e5 g5⟩
      rcases List.mem_cons.1 hm with rfl | hm
      · unfold encodeBlueprint
        intro hn
        rcases List.mem_cons.1 hn with hn | hn
        · cases hn
        · exact h1 _ hn
      · exact g2 m hm
  obtain ⟨mids, outs, bs, g1, g2, g3, g4, g5⟩ := key
  refine ⟨textOf mids, outs, bs, ?_, ?_, g4, g5⟩
  · unfold blueprintEncode
    rw [inputLines_of hi, lineLoop_all g1]
  · unfold blueprintDecode
    rw [inputLines_of (isInput_textOf g2), lineLoop_all g3]

/-- C96: `blueprint encode` ends with an exception at the first layout that has nothing to import again when it is decoded: a layout of
empty cells becomes a blueprint that `blueprint decode` does not accept. -/
theorem c96_blueprint_empty {c : Codec} (label : Option (List Char)) (level : BeltLevel) {line : List Char} {a : Arr Tile}
    (hs : SolutionLine line a) (hv : a.AllValid) (hk : ∀ p, ¬ (a.board p).Kept) :
    ∃ mid, encodeLine c label level line = .ok mid ∧ decodeLine c mid = .error .valueError := by
  obtain ⟨data, b, h1, h2, h3, h4⟩ := c44_empty level label a hk
  refine ⟨encodeBlueprint c data, ?_, ?_⟩
  · unfold encodeLine
    rw [layoutOf_line hv hs]
    simp only
    rw [h1]
  · unfold decodeLine
    rw [c72_export c _ label a data h1]
    simp only
    rw [h2]
    simp only
    unfold vectorize
    rw [if_pos (Or.inl h3)]

/-- C96: `stringifier encode | stringifier decode`: all layouts that can be drawn come back, in their order. -/
theorem c96_drawing {text : List Char} {ls : List (List Char)} {as : List (Arr Tile)} (hi : IsInput text ls)
    (hs : List.Forall₂ SolutionLine ls as) (ha : ∀ a ∈ as, a.AllValid ∧ ∀ y x, (a.get y x).Drawable) :
    ∃ (mid : List Char) (outs : List (List Char)), stringifierEncode text = ⟨mid, .endOfInput⟩ ∧
      stringifierDecode mid = ⟨textOf outs, .endOfInput⟩ ∧ List.Forall₂ SolutionLine outs as := by
  have hpos : ∀ a ∈ as, 0 < a.rows ∧ 0 < a.cols := by
    clear hi ha
    induction hs with
    | nil => intro a h; cases h
    | cons h _ ih =>
      intro b hb
      rcases List.mem_cons.1 hb with rfl | hb
      · obtain ⟨cells, hc, -⟩ := h
        exact ⟨hc.1, hc.2.1⟩
      · exact ih b hb
  have henc : List.Forall₂ (fun l m => drawLine l = .ok m) ls (as.map fun a => List.intercalate ['\n'] (gridLines a)) := by
    clear hi
    induction hs with
    | nil => exact .nil
    | @cons l a ls as h _ ih =>
      refine .cons ?_ (ih (fun a h => ha a (.tail _ h)) fun a h => hpos a (.tail _ h))
      unfold drawLine
      rw [layoutOf_line (ha a (.head _)).1 h]
      simp only
      unfold encodeGrid
      have := hpos a (.head _)
      rw [if_neg (by omega)]
  have htext : textOf (as.map fun a => List.intercalate ['\n'] (gridLines a)) = textOf (as.flatMap gridLines) := by
    clear hi hs ha hpos henc
    induction as with
    | nil => rfl
    | cons a as ih =>
      rw [List.map_cons, textOf_cons, ih, List.flatMap_cons]
      have := textOf_intercalate _ (gridLines_linesOf a).nonempty
      calc _ = (List.intercalate ['\n'] (gridLines a) ++ ['\n']) ++ textOf (as.flatMap gridLines) := by simp
        _ = _ := by rw [this]; simp [textOf]
  refine ⟨textOf (as.flatMap gridLines), as.map fun a => (cellsJson (tileCells a)).dumps, ?_, ?_, ?_⟩
  · unfold stringifierEncode
    rw [inputLines_of hi, lineLoop_all henc, htext]
  · unfold stringifierDecode
    have hn : ∀ l ∈ as.flatMap gridLines, '\n' ∉ l := by
      intro l hl
      obtain ⟨a, -, hl⟩ := List.mem_flatMap.1 hl
      exact gridLines_newline a l hl
    rw [inputLines_of (isInput_textOf hn)]
    refine undrawLoop_grids (fun a h => ⟨(hpos a h).1, (hpos a h).2, (ha a h).2⟩) ?_
    rw [List.length_flatMap]
    have : ∀ bs : List (Arr Tile), bs.length ≤ (bs.map fun a => (gridLines a).length).sum := by
      intro bs
      induction bs with
      | nil => simp
      | cons a bs ih =>
        have := gridLines_length a
        simp only [List.map_cons, List.sum_cons, List.length_cons]
        omega
    have := this as
    omega
  · rw [List.forall₂_map_left_iff]
    exact List.forall₂_same.2 fun a h => solutionLine_write (hpos a h).1 (hpos a h).2

/-- C96: `rotate`: every line becomes a line that stands for the turned layout. -/
theorem c96_rotate (op : Operation) {text : List Char} {ls : List (List Char)} {as : List (Arr Tile)} (hi : IsInput text ls)
    (hs : List.Forall₂ SolutionLine ls as) (ha : ∀ a ∈ as, a.AllValid) :
    ∃ (outs : List (List Char)) (bs : List (Arr Tile)), rotateMain op text = ⟨textOf outs, .endOfInput⟩ ∧
      List.Forall₂ SolutionLine outs bs ∧ List.Forall₂ op.Produces as bs := by
  have key : ∃ (outs : List (List Char)) (bs : List (Arr Tile)), List.Forall₂ (fun l o => rotateLine op l = .ok o) ls outs ∧
      List.Forall₂ SolutionLine outs bs ∧ List.Forall₂ op.Produces as bs := by
    clear hi
    induction hs with
    | nil => exact ⟨[], [], .nil, .nil, .nil⟩
    | @cons l a ls as h _ ih =>
      obtain ⟨outs, bs, g1, g2, g3⟩ := ih fun a h => ha a (.tail _ h)
      obtain ⟨cells, hc, ht⟩ := h
      have hv := ha a (.head _)
      obtain ⟨e1, e2⟩ := rotateLine_zip (op := op) (z := zipCells a cells) hc hv ht
      refine ⟨_ :: outs, ((op.grid a).map op.tileMap) :: bs, .cons e1 g1, .cons ?_ g2, .cons (op.produces_map a hv) g3⟩
      have hg := grid_all (P := fun p : Fields × Tile => (Json.obj p.1).Ok ∧ CellIs p.1 p.2) op (z := zipCells a cells)
        (fun y x => ⟨cells_ok hc y x, ht y x⟩)
      have e : (op.grid a).map op.tileMap = (turnedZip op (zipCells a cells)).map Prod.snd := by
        cases op <;> rfl
      rw [e]
      exact ⟨(turned op (zipCells a cells)).get, e2, fun y x => (mem_newCell (hg y x).1 (hg y x).2).2.2.1⟩
  obtain ⟨outs, bs, g1, g2, g3⟩ := key
  refine ⟨outs, bs, ?_, g2, g3⟩
  unfold rotateMain
  rw [inputLines_of hi, lineLoop_all g1]

/-- C96: `rotate` carries the other members of each cell along: the cell moves as the operation moves positions, its members keep their
names and their order, and only the tile is changed. -/
theorem c96_rotate_members (op : Operation) {line : List Char} (hl : '\n' ∉ line) {g : Arr Fields} {a : Arr Tile} (hc : CellsOf line g)
    (hr : a.rows = g.rows) (hk : a.cols = g.cols) (hv : a.AllValid)
    (ht : ∀ y x (h1 : y < g.rows) (h2 : x < g.cols), CellIs (g.get ⟨y, h1⟩ ⟨x, h2⟩) (a.get ⟨y, by omega⟩ ⟨x, by omega⟩)) :
    ∃ (out : List Char) (g' : Arr Fields), rotateMain op (line ++ ['\n']) = ⟨out ++ ['\n'], .endOfInput⟩ ∧ CellsOf out g' ∧
      ∀ (y : Fin g.rows) (x : Fin g.cols), ∃ (y' : Fin g'.rows) (x' : Fin g'.cols),
        ((x' : Int), (y' : Int)) = op.pos g.cols g.rows ((x : Int), (y : Int)) ∧
        (g'.get y' x').map Prod.fst = (g.get y x).map Prod.fst ∧
        ∀ k v, k ≠ "tile".toList → ((k, v) ∈ g'.get y' x' ↔ (k, v) ∈ g.get y x) := by
  obtain ⟨r, k, f⟩ := a
  simp only at hr hk
  subst hr hk
  obtain ⟨z, hz⟩ : ∃ z : Arr (Fields × Tile), z = ⟨g.rows, g.cols, fun y x => (g.get y x, f y x)⟩ := ⟨_, rfl⟩
  have hc' : CellsOf line (z.map Prod.fst) := by rw [hz]; exact hc
  obtain ⟨e1, e2⟩ := rotateLine_zip (op := op) (z := z) hc' (by rw [hz]; exact hv) (by
    rw [hz]
    intro y x
    exact ht y.1 x.1 y.2 x.2)
  refine ⟨_, _, ?_, e2, ?_⟩
  · unfold rotateMain
    rw [inputLines_of (ls := [line]) ⟨by simpa using hl, Or.inl (by simp [textOf])⟩, lineLoop_all (.cons e1 .nil)]
    simp [textOf]
  · rw [hz]
    intro y x
    have hpos : ∃ (y' : Fin (op.grid z).rows) (x' : Fin (op.grid z).cols),
        ((x' : Int), (y' : Int)) = op.pos z.cols z.rows ((x : Int), (y : Int)) := by
      rw [hz]
      have hy := y.2
      have hx := x.2
      cases op
      · exact ⟨y, x, rfl⟩
      · exact ⟨x.rev, y, by simp [Operation.pos]; omega⟩
      · exact ⟨y.rev, x.rev, by simp [Operation.pos]; omega⟩
      · exact ⟨x, y.rev, by simp [Operation.pos]; omega⟩
      · exact ⟨y, x.rev, by simp [Operation.pos]; omega⟩
      · exact ⟨y.rev, x, by simp [Operation.pos]; omega⟩
    obtain ⟨y', x', hp⟩ := hpos
    subst hz
    have hget := grid_at op ⟨g.rows, g.cols, fun y x => (g.get y x, f y x)⟩ y x y' x' hp
    refine ⟨y', x', hp, ?_⟩
    have hm := mem_newCell (op := op) (cells_ok hc y x) (ht y.1 x.1 y.2 x.2)
    have e : (turned op ⟨g.rows, g.cols, fun y x => (g.get y x, f y x)⟩).get y' x' = newCell op (g.get y x) (f y x) := by
      show newCell op _ _ = _
      rw [hget]
    rw [e]
    exact ⟨hm.1, hm.2.2.2⟩

/-- C96: turning printed lines there and back prints the same text again, to the character. -/
theorem c96_rotate_back (op : Operation) {ls : List (List Char)} {as : List (Arr Tile)} (hs : List.Forall₂ PrintedLine ls as)
    (ha : ∀ a ∈ as, a.AllValid) :
    ∃ mid, rotateMain op (textOf ls) = ⟨mid, .endOfInput⟩ ∧ rotateMain op.back mid = ⟨textOf ls, .endOfInput⟩ := by
  have key : ∃ mids : List (List Char), List.Forall₂ (fun l o => rotateLine op l = .ok o) ls mids ∧
      List.Forall₂ (fun m l => rotateLine op.back m = .ok l) mids ls ∧ (∀ l ∈ ls, '\n' ∉ l) ∧ ∀ m ∈ mids, '\n' ∉ m := by
    induction hs with
    | nil => exact ⟨[], .nil, .nil, by simp, by simp⟩
    | @cons l a ls as h _ ih =>
      obtain ⟨mids, g1, g2, g3, g4⟩ := ih fun a h => ha a (.tail _ h)
      obtain ⟨cells, h1, h2, h3, h4⟩ := h
      have hv := ha a (.head _)
      have el : l = (cellsJson ((zipCells a cells).map Prod.fst)).dumps := h3
      have hok : ∀ y x, (Json.obj (((zipCells a cells).map Prod.fst).get y x)).Ok :=
        fun y x => (Json.ok_obj _).2 ⟨(h4 y x).1, (h4 y x).2.1⟩
      have hc : CellsOf l ((zipCells a cells).map Prod.fst) := by
        rw [el]; exact cellsOf_dumps h1 h2 hok
      have ht : ∀ y x, CellIs ((zipCells a cells).get y x).1 ((zipCells a cells).get y x).2 :=
        fun y x => ⟨_, (h4 y x).2.2, fun m hm => hm⟩
      obtain ⟨e1, e2⟩ := rotateLine_zip (op := op) (z := zipCells a cells) hc hv ht
      have hg := grid_all (P := fun p : Fields × Tile => (Json.obj p.1).Ok ∧ CellIs p.1 p.2 ∧ p.2.Valid) op (z := zipCells a cells)
        (fun y x => ⟨hok y x, ht y x, hv y x⟩)
      obtain ⟨e3, -⟩ := rotateLine_zip (op := op.back) (z := turnedZip op (zipCells a cells)) (by rw [← turned_eq]; exact e2)
        (fun y x => op.tileMap_valid _ (hg y x).2.2) (fun y x => (mem_newCell (hg y x).1 (hg y x).2.1).2.2.1)
      rw [turned_back fun y x => ⟨(h4 y x).1, (h4 y x).2.2⟩, ← el] at e3
      refine ⟨_ :: mids, .cons e1 g1, .cons e3 g2, fun m hm => ?_, fun m hm => ?_⟩
      · rcases List.mem_cons.1 hm with rfl | hm
        · rw [el]; exact Json.dumps_line _
        · exact g3 m hm
      · rcases List.mem_cons.1 hm with rfl | hm
        · exact Json.dumps_line _
        · exact g4 m hm
  obtain ⟨mids, g1, g2, g3, g4⟩ := key
  refine ⟨textOf mids, ?_, ?_⟩
  · unfold rotateMain
    rw [inputLines_of (isInput_textOf g3), lineLoop_all g1]
  · unfold rotateMain
    rw [inputLines_of (isInput_textOf g4), lineLoop_all g2]

theorem decodeBlueprint_ok {c : Codec} {l : List Char} {d : Json} (h : decodeBlueprint c l = .ok d) : d.Ok := by
  cases l with
  | nil => cases h
  | cons v r =>
    simp only [decodeBlueprint] at h
    split at h
    · cases h
    · cases hu : c.unpack r with
      | error e => rw [hu] at h; cases h
      | ok t =>
        rw [hu] at h
        exact Json.loads_ok h

theorem indexLoop_ok {bs out : List Json} {i : Nat} (h : indexLoop bs i = .ok out) (hb : ∀ b ∈ bs, b.Ok) : ∀ b ∈ out, b.Ok := by
  induction bs generalizing i out with
  | nil => cases h; simp
  | cons b bs ih =>
    cases b with
    | obj o =>
      unfold indexLoop at h
      cases hm : indexLoop bs (i + 1) with
      | error e => rw [hm] at h; cases h
      | ok more =>
        rw [hm] at h
        cases h
        intro b hb'
        rcases List.mem_cons.1 hb' with rfl | hb'
        · obtain ⟨g1, g2⟩ := (Json.ok_obj _).1 (hb _ (.head _))
          refine (Json.ok_obj _).2 ⟨PyDict.Valid.set g1 _ _, fun e he => ?_⟩
          rcases Json.mem_set he with he | he
          · exact g2 e he
          · rw [he]; trivial
        · exact ih hm (fun b h => hb b (.tail _ h)) b hb'
    | _ => cases h

theorem packBook_ok {bs bs' : List Json} {label : Option (List Char)} {book : Json} (h : packBook bs label = .ok book)
    (hu : unpackBook book = .ok bs') (hb : ∀ b ∈ bs, b.Ok) : (∀ b ∈ bs', b.Ok) ∧ book.Ok := by
  unfold packBook at h
  cases e : indexLoop bs 0 with
  | error e' => rw [e] at h; cases h
  | ok out =>
    rw [e] at h
    cases h
    have h1 := indexLoop_ok e hb
    have : out = bs' := by
      cases label <;> exact Except.ok.inj hu
    subst this
    refine ⟨h1, (Json.ok_obj _).2 ⟨by simp, ?_⟩⟩
    intro p hp
    rw [List.mem_singleton.1 hp]
    cases label with
    | none =>
      refine (Json.ok_obj _).2 ⟨by simp only [Option.elim, List.map, List.cons_append, List.nil_append]; decide, ?_⟩
      intro p hp
      simp only [Option.elim, List.append_nil, List.cons_append, List.nil_append, List.mem_cons, List.not_mem_nil, or_false] at hp
      rcases hp with rfl | rfl | rfl | rfl
      · trivial
      · trivial
      · trivial
      · exact (Json.ok_arr _).2 h1
    | some l =>
      refine (Json.ok_obj _).2 ⟨by simp only [Option.elim, List.map, List.cons_append, List.nil_append]; decide, ?_⟩
      intro p hp
      simp only [Option.elim, List.cons_append, List.nil_append, List.mem_cons, List.not_mem_nil, or_false] at hp
      rcases hp with rfl | rfl | rfl | rfl | rfl
      · trivial
      · trivial
      · trivial
      · trivial
      · exact (Json.ok_arr _).2 h1

theorem decodeAll_ok {c : Codec} {ls : List (List Char)} {os : List Fields}
    (h : List.Forall₂ (fun l o => decodeBlueprint c l = .ok (.obj o)) ls os) : decodeAll c ls = .ok (os.map .obj) := by
  induction h with
  | nil => rfl
  | cons h _ ih =>
    unfold decodeAll
    rw [h]
    simp only
    rw [ih]
    rfl

theorem decodeAll_error {c : Codec} {ls : List (List Char)} {l : List Char} {e : PyErr} (hl : l ∈ ls)
    (h : decodeBlueprint c l = .error e) : ∃ e, decodeAll c ls = .error e := by
  induction ls with
  | nil => cases hl
  | cons m ls ih =>
    unfold decodeAll
    cases hm : decodeBlueprint c m with
    | error e => exact ⟨e, rfl⟩
    | ok d =>
      simp only
      rcases List.mem_cons.1 hl with rfl | hl
      · rw [h] at hm; cases hm
      · obtain ⟨e, he⟩ := ih hl
        exact ⟨e, by rw [he]⟩

theorem decodeLine_congr {c : Codec} {l m : List Char} {o o' : Fields} (h1 : decodeBlueprint c l = .ok (.obj o))
    (h2 : decodeBlueprint c m = .ok (.obj o')) (h : PyDict.get o' Word.blueprint = PyDict.get o Word.blueprint) :
    decodeLine c m = decodeLine c l := by
  have e : importBlueprint (.obj o') = importBlueprint (.obj o) := by
    have : Json.item (.obj o') Word.blueprint = Json.item (.obj o) Word.blueprint := by
      unfold Json.item
      simp only
      rw [h]
    unfold importBlueprint
    rw [this]
  unfold decodeLine
  rw [h1, h2]
  simp only
  rw [e]

theorem lineLoop_congr {f : List Char → Except PyErr (List Char)} {ls ms : List (List Char)}
    (h : List.Forall₂ (fun l m => f m = f l) ls ms) : lineLoop f ms = lineLoop f ls := by
  induction h with
  | nil => rfl
  | cons h _ ih =>
    unfold lineLoop
    rw [h, ih]

/-- C96: `blueprint_book pack | blueprint_book unpack`: blueprint strings that decode to objects come back in their order, each with its
position as the member `index` and with its other members; they are converted to the same layouts as before. -/
theorem c96_book {c : Codec} (h1 : c.OneLine) (label : Option (List Char)) {text : List Char} {ls : List (List Char)} {os : List Fields}
    (hi : IsInput text ls) (hd : List.Forall₂ (fun l o => decodeBlueprint c l = .ok (.obj o)) ls os) :
    ∃ (book : List Char) (outs : List (List Char)), bookPack c label text = ⟨book ++ ['\n'], .finished⟩ ∧
      bookUnpack c (book ++ ['\n']) = ⟨textOf outs, .finished⟩ ∧ outs.length = ls.length ∧
      (∀ (i : Nat) (o : Fields), os[i]? = some o → ∃ out o', outs[i]? = some out ∧ decodeBlueprint c out = .ok (.obj o') ∧
        PyDict.get o' "index".toList = some (.int i) ∧ ∀ k, k ≠ "index".toList → PyDict.get o' k = PyDict.get o k) ∧
      blueprintDecode c (textOf outs) = blueprintDecode c text := by
  obtain ⟨book, bs, e1, e2, e3, e4⟩ := c46_book os label
  have hok : ∀ o ∈ os, (Json.obj o).Ok := by
    clear hi e1 e2 e3 e4
    induction hd with
    | nil => intro o h; cases h
    | @cons l o ls os h _ ih =>
      intro o' ho
      rcases List.mem_cons.1 ho with rfl | ho
      · exact decodeBlueprint_ok h
      · exact ih o' ho
  obtain ⟨hbs, hbook⟩ := packBook_ok e1 e2 fun b hb => by
    obtain ⟨o, ho, rfl⟩ := List.mem_map.1 hb
    exact hok o ho
  have hline : ∀ d : Json, '\n' ∉ encodeBlueprint c d := by
    intro d hn
    rcases List.mem_cons.1 hn with hn | hn
    · cases hn
    · exact h1 _ hn
  have hlen : os.length = ls.length := hd.length_eq.symm
  have hmem : ∀ (i : Nat) (o : Fields), os[i]? = some o → ∃ out o', (bs.map (encodeBlueprint c))[i]? = some out ∧
      decodeBlueprint c out = .ok (.obj o') ∧ PyDict.get o' Word.index = some (.int i) ∧
      ∀ k, k ≠ Word.index → PyDict.get o' k = PyDict.get o k := by
    intro i o ho
    obtain ⟨o', h1, h2, h3⟩ := e4 i o ho
    refine ⟨encodeBlueprint c (.obj o'), o', by rw [List.getElem?_map, h1]; rfl, c72_string c _ (hbs _ (List.mem_of_getElem? h1)), h2, h3⟩
  refine ⟨encodeBlueprint c book, bs.map (encodeBlueprint c), ?_, ?_, by simp [e3, hlen], hmem, ?_⟩
  · unfold bookPack
    rw [inputLines_of hi, decodeAll_ok hd]
    simp only
    rw [e1]
  · unfold bookUnpack
    rw [inputLines_of (ls := [encodeBlueprint c book]) ⟨by simpa using hline book, Or.inl (by simp [textOf])⟩]
    simp only
    rw [c72_string c _ hbook]
    simp only
    rw [e2]
    simp [textOf, List.flatMap_map]
  · unfold blueprintDecode
    rw [inputLines_of hi, inputLines_of (isInput_textOf (by
      intro l hl
      obtain ⟨b, -, rfl⟩ := List.mem_map.1 hl
      exact hline b))]
    refine lineLoop_congr (List.forall₂_iff_get.2 ⟨by simp [e3, hlen], fun i h h' => ?_⟩)
    have hio : i < os.length := by omega
    obtain ⟨out, o', g1, g2, -, g3⟩ := hmem i os[i] (List.getElem?_eq_getElem hio)
    have hl := (List.forall₂_iff_get.1 hd).2 i h hio
    rw [List.getElem?_eq_getElem h'] at g1
    have g1 := Option.some.inj g1
    refine decodeLine_congr hl ?_ (g3 Word.blueprint (by decide))
    rw [← g2, ← g1]
    rfl

/-- C96: `blueprint_book pack` prints nothing when a line is not a blueprint string. -/
theorem c96_book_error {c : Codec} (label : Option (List Char)) {text : List Char} {ls : List (List Char)} (hi : IsInput text ls)
    {l : List Char} {e : PyErr} (hl : l ∈ ls) (h : decodeBlueprint c l = .error e) : ∃ e, bookPack c label text = ⟨[], .raised e⟩ := by
  obtain ⟨e, he⟩ := decodeAll_error hl h
  refine ⟨e, ?_⟩
  unfold bookPack
  rw [inputLines_of hi, he]

/-- C96: `network parse`: when it succeeds on a line of solver output that stands for a layout without faults, the file it writes can be
opened, and holds the network of that layout (C62) up to the numbers of its colours, the order of its splitters and the order of the two
inputs and outputs of each. -/
theorem c96_parse {ordP : List (Int × Int) → List (Int × Int)} (hP : ∀ l, (ordP l).Perm l) {ordT : List Colour → List Colour}
    (hT : SetOrder ordT) {assume : Bool} {text line : List Char} {rest : List (List Char)} {a : Arr Tile} (hi : IsInput text (line :: rest))
    (hs : SolutionLine line a) (hv : a.AllValid) (hl : SoundLayout a.In a.nb a.board) :
    (∀ file, networkParse ordP ordT assume text = some (.ok file) →
      ∃ (heads : List (Int × Int)) (n m m' : Network) (f : Int → Int), heads.Nodup ∧ (∀ p, p ∈ heads ↔ ∃ d, a.board p = .splitter d true) ∧
        NetworkOf a.In a.nb a.board assume heads n ∧ openNetwork file = .ok m ∧
        (∀ c d, some c ∈ insOf n ++ outsOf n → some d ∈ insOf n ++ outsOf n → f c = f d → c = d) ∧
        m'.Perm (rename f n) ∧ List.Forall₂ SameNode m m') ∧
    ((∃ file, networkParse ordP ordT assume text = some (.ok file)) ↔ ∃ n, parseNetwork ordP a assume = .ok n) := by
  have key : networkParse ordP ordT assume text = some (match parseNetwork ordP a assume with
      | .error e => .error e
      | .ok n =>
        match tidyNetwork ordT n with
        | .error e => .error e
        | .ok n => .ok (saveNetwork n)) := by
    obtain ⟨cells, hc, ht⟩ := hs
    unfold networkParse
    rw [inputLines_of hi]
    simp only
    rw [hc.2.2]
    simp only
    rw [show Json.arr _ = cellsJson ⟨a.rows, a.cols, cells⟩ from rfl, gridOf_cells _ hc.1]
    simp only
    rw [eachCell_ok (f := cellTile) (a := ⟨a.rows, a.cols, cells⟩) (b := a.get) fun y x => cellTile_of (cells_ok hc y x) (hv y x) (ht y x)]
    rfl
  rw [key]
  cases hn : parseNetwork ordP a assume with
  | error e =>
    refine ⟨fun file h => ?_, ?_⟩
    · cases h
    · constructor
      · rintro ⟨file, h⟩; cases h
      · rintro ⟨n, h⟩; cases h
  | ok n =>
    simp only
    obtain ⟨f, m, m', e, hinj, hp, hs', -⟩ := c64_tidy ordT hT n
    obtain ⟨m2, total, e2, hc2⟩ := c64_colours ordT hT n
    rw [e] at e2
    cases e2
    rw [e]
    refine ⟨fun file h => ?_, fun _ => ⟨n, rfl⟩, fun _ => ⟨_, rfl⟩⟩
    cases h
    obtain ⟨heads, h1, h2, h3⟩ := c62_network hl hP hn
    refine ⟨heads, n, m, m', f, h1, h2, h3, c36_round_trip m fun h => ?_, hinj, hp, hs'⟩
    have := (hc2 (-1)).1 h
    omega

/-- C96: what is printed is read as the layout it was printed for. -/
theorem c96_printed {line : List Char} {a : Arr Tile} (h : PrintedLine line a) : SolutionLine line a := by
  obtain ⟨cells, h1, h2, h3, h4⟩ := h
  refine ⟨cells, ?_, fun y x => ⟨_, (h4 y x).2.2, fun m hm => hm⟩⟩
  rw [h3]
  exact cellsOf_dumps (g := ⟨a.rows, a.cols, cells⟩) h1 h2 fun y x => (Json.ok_obj _).2 ⟨(h4 y x).1, (h4 y x).2.1⟩

/-! ### A case: two splitters in a row -/

/-- The cells of `twoSplitters`, with a colour beside each tile. -/
def colouredCells (y : Fin twoSplitters.rows) (x : Fin twoSplitters.cols) : Fields :=
  [member "colour" (.int (x.val : Int)), member "tile" (.obj (twoSplitters.get y x).members)]

/-- The text they are printed as. -/
def colouredText : List Char := (Json.arr (List.ofFn fun y => .arr (List.ofFn fun x => .obj (colouredCells y x)))).dumps

theorem colouredText_printed : PrintedLine colouredText twoSplitters := by
  refine ⟨colouredCells, by decide, by decide, rfl, fun y x => ⟨by simp [colouredCells, member], ?_, by simp [colouredCells]⟩⟩
  intro e he
  simp only [colouredCells, List.mem_cons, List.not_mem_nil, or_false] at he
  rcases he with rfl | rfl
  · trivial
  · exact members_ok _

example : IsInput (textOf [colouredText, colouredText]) [colouredText, colouredText] :=
  isInput_textOf fun l hl => by
    have : l = colouredText := by simpa using hl
    rw [this]
    exact Json.dumps_line _

example : twoSplitters.AllValid ∧ ∀ y x, (twoSplitters.get y x).Drawable := by
  constructor <;> intro y x <;> simp only [twoSplitters] <;> split <;> simp [Tile.Valid, Tile.Drawable] <;> decide

/-- The characters of pairs. -/
def unpair : List Char → List Char
  | a :: c :: r => (if a = 'a' then '\n' else c) :: unpair r
  | _ => []

/-- Two characters for each one. -/
def pairCodec : Codec where
  pack t := t.flatMap fun c => if c = '\n' then ['a', 'a'] else ['b', c]
  unpack := fun t => .ok (unpair t)
  unpack_pack t := by
    congr 1
    induction t with
    | nil => rfl
    | cons c t ih =>
      rw [List.flatMap_cons]
      by_cases h : c = '\n'
      · rw [if_pos h, List.cons_append, List.cons_append, unpair, List.nil_append, ih, if_pos rfl, h]
      · rw [if_neg h, List.cons_append, List.cons_append, unpair, List.nil_append, ih, if_neg (by decide)]

example : pairCodec.OneLine := by
  intro t h
  obtain ⟨c, -, hc⟩ := List.mem_flatMap.1 h
  split at hc
  · simp at hc
  · rename_i hn
    simp only [List.mem_cons, List.not_mem_nil, or_false] at hc
    rcases hc with hc | hc
    · cases hc
    · exact hn hc.symm

example : SolutionLine (cellsJson (tileCells exTiles)).dumps exTiles := solutionLine_write (by decide) (by decide)

end FSat
