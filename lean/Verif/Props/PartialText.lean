import Verif.Model.PartialText
import Verif.Props.Commands
import Verif.Props.BalancerMain
/-!
# C102: the file given with `--partial`
-/

namespace FSat

/-- Line ends after the text do not matter to `base64.b64decode`, which ignores characters that are not in its alphabet. -/
def Codec.SkipsNewline (c : Codec) : Prop := ∀ t, c.unpack (c.pack t ++ ['\n']) = .ok t

/-- The file holds one line, with or without its end. -/
def OneLineFile (text line : List Char) : Prop := text = line ∨ text = line ++ ['\n']

theorem Json.loads_append (v : Json) (h : v.Ok) (rest : List Char) (hr : Json.Stop rest) :
    Json.loads (v.dumps ++ rest) = if Json.skipWs rest = [] then .ok v else .error .jsonDecode := by
  unfold Json.loads
  rw [Json.skipWs_dumps, Json.readValue_dumps v h _ rest (by simp; omega) hr]

theorem printed_ok {a : Arr Tile} {line : List Char} (h : PrintedLine line a) :
    ∃ cells : Fin a.rows → Fin a.cols → Fields, 0 < a.rows ∧ 0 < a.cols ∧
      line = (cellsJson ⟨a.rows, a.cols, cells⟩).dumps ∧ (cellsJson ⟨a.rows, a.cols, cells⟩).Ok ∧
      ∀ y x, (Json.obj (cells y x)).Ok ∧ CellIs (cells y x) (a.get y x) := by
  obtain ⟨cells, h1, h2, h3, h4⟩ := h
  refine ⟨cells, h1, h2, h3, ?_, fun y x => ⟨(Json.ok_obj _).2 ⟨(h4 y x).1, (h4 y x).2.1⟩, (a.get y x).members, (h4 y x).2.2, fun _ h => h⟩⟩
  unfold cellsJson
  rw [Json.ok_arr]
  intro r hr
  obtain ⟨y, rfl⟩ := (List.mem_ofFn' _ _).1 hr
  rw [Json.ok_arr]
  intro e he
  obtain ⟨x, rfl⟩ := (List.mem_ofFn' _ _).1 he
  exact (Json.ok_obj _).2 ⟨(h4 y x).1, (h4 y x).2.1⟩

theorem decode_bracket (c : Codec) (l : List Json) (rest : List Char) : ∃ e, decodeBlueprint c ((Json.arr l).dumps ++ rest) = .error e := by
  obtain ⟨t, ht⟩ : ∃ t, (Json.arr l).dumps = '[' :: t := by
    cases l <;> exact ⟨_, rfl⟩
  rw [ht, List.cons_append]
  refine ⟨.runtimeError, ?_⟩
  unfold decodeBlueprint
  simp

theorem newline_stop (rest : List Char) : Json.Stop ('\n' :: rest) := by
  intro c hc
  simp only [List.head?_cons, Option.some.injEq] at hc
  subst hc
  exact .inl rfl

/-- C102: a file with a layout as the programs print it is read as that layout. -/
theorem c102_json (c : Codec) {text line : List Char} {a : Arr Tile} (hf : OneLineFile text line) (hp : PrintedLine line a) (hv : a.AllValid) :
    convertToTiles c text = .ok a := by
  obtain ⟨cells, h1, h2, h3, h4, h5⟩ := printed_ok hp
  obtain ⟨rest, hr, hs, hw⟩ : ∃ rest, text = line ++ rest ∧ Json.Stop rest ∧ Json.skipWs rest = [] := by
    rcases hf with rfl | rfl
    · exact ⟨[], by simp, Json.Stop.nil, rfl⟩
    · exact ⟨['\n'], rfl, newline_stop [], rfl⟩
  obtain ⟨e, he⟩ := decode_bracket c (List.ofFn fun y => .arr (List.ofFn fun x => .obj (cells y x))) rest
  unfold convertToTiles
  subst hr h3
  rw [show decodeBlueprint c ((cellsJson ⟨a.rows, a.cols, cells⟩).dumps ++ rest) = .error e from he]
  dsimp only
  rw [Json.loads_append _ h4 _ hs, if_pos hw]
  dsimp only
  rw [gridOf_cells _ h1]
  dsimp only
  exact vectorize_ok (a := ⟨a.rows, a.cols, cells⟩) (b := a.get) h1 h2 fun y x => cellTile_of (h5 y x).1 (hv y x) (h5 y x).2

/-- C102: a file with the blueprint of a layout, made by `blueprint encode`, is read as the layout, moved to the corner, with chests dropped
and the inputs of belts recomputed (as in C44). -/
theorem c102_blueprint_partial (c : Codec) (hn : c.SkipsNewline) (label : Option (List Char)) (level : BeltLevel) {text line out : List Char} {a : Arr Tile}
    (hs : SolutionLine line a) (hv : a.AllValid) (he : Encodable a.board) (hk : ∃ p, (a.board p).Kept)
    (ho : encodeLine c label level line = .ok out) (hf : OneLineFile text out) :
    ∃ b x0 y0, convertToTiles c text = .ok b ∧ BoundingBox (fun p => (a.board p).Kept) x0 y0 b.cols b.rows ∧
      ∀ p, Restored a.board p (b.board (p.1 - x0, p.2 - y0)) := by
  obtain ⟨data, b, x0, y0, h1, h2, h3, h4⟩ := c44_roundtrip level label a he hk
  have hout : out = encodeBlueprint c data := by
    unfold encodeLine at ho
    rw [layoutOf_line hv hs] at ho
    simp only [h1] at ho
    exact (Except.ok.inj ho).symm
  have hd := c72_export c _ label a data h1
  have hdec : decodeBlueprint c text = .ok data := by
    rcases hf with rfl | rfl
    · rw [hout]
      exact hd
    · rw [hout]
      unfold encodeBlueprint at hd ⊢
      rw [List.cons_append]
      unfold decodeBlueprint at hd ⊢
      dsimp only at hd ⊢
      rw [if_neg (by decide), c.unpack_pack] at hd
      rw [if_neg (by decide), hn]
      exact hd
  refine ⟨b, x0, y0, ?_, h3, h4⟩
  unfold convertToTiles
  rw [hdec]
  exact h2

/-- C102: a file with more than one layout is refused. -/
theorem c102_two_lines (c : Codec) {line line' more : List Char} {a a' : Arr Tile} (hp : PrintedLine line a) (hp' : PrintedLine line' a') :
    convertToTiles c (line ++ '\n' :: (line' ++ more)) = .error .runtimeError := by
  obtain ⟨cells, h1, h2, h3, h4, h5⟩ := printed_ok hp
  obtain ⟨cells', _, _, h3', _, _⟩ := printed_ok hp'
  obtain ⟨e, he⟩ := decode_bracket c (List.ofFn fun y => .arr (List.ofFn fun x => .obj (cells y x))) ('\n' :: (line' ++ more))
  unfold convertToTiles
  subst h3
  rw [show decodeBlueprint c ((cellsJson ⟨a.rows, a.cols, cells⟩).dumps ++ '\n' :: (line' ++ more)) = .error e from he]
  dsimp only
  rw [Json.loads_append _ h4 _ (newline_stop _), if_neg]
  show ¬ Json.skipWs (line' ++ more) = []
  rw [h3', Json.skipWs_dumps]
  obtain ⟨ch, t, e, _⟩ := Json.dumps_head (cellsJson ⟨a'.rows, a'.cols, cells'⟩)
  rw [e]
  simp

theorem rowsOf_get {α : Type} (a : Arr α) (y : Fin a.rows) (x : Fin a.cols) :
    ∃ row, (rowsOf a)[y.val]? = some row ∧ row[x.val]? = some (a.get y x) := by
  refine ⟨List.ofFn fun x => a.get y x, ?_, ?_⟩
  · simp [rowsOf]
  · simp

theorem contains_rowsOf (T : Nat × Nat → Tile) (a : Arr Tile) :
    Contains T (rowsOf a) ↔ ∀ (y : Fin a.rows) (x : Fin a.cols), a.get y x ≠ .empty → T (x.val, y.val) = (a.get y x).required := by
  constructor
  · intro h y x hne
    obtain ⟨row, h1, h2⟩ := rowsOf_get a y x
    exact h _ _ row _ h1 h2 hne
  · intro h x y row t h1 h2 hne
    obtain ⟨hy, e⟩ := List.getElem?_eq_some_iff.1 h1
    have hy' : y < a.rows := by simpa [rowsOf] using hy
    have e' : row = List.ofFn fun x => a.get ⟨y, hy'⟩ x := by
      rw [← e]
      simp [rowsOf]
    rw [e'] at h2
    obtain ⟨hx, e2⟩ := List.getElem?_eq_some_iff.1 h2
    have hx' : x < a.cols := by simpa using hx
    have e3 : t = a.get ⟨y, hy'⟩ ⟨x, hx'⟩ := by
      rw [← e2]
      simp
    rw [e3] at hne ⊢
    exact h ⟨y, hy'⟩ ⟨x, hx'⟩ hne

section
variable {c : Codec} {lib : CardLib} {net : PyDict Node Nat} {width height : Nat} {ugLen : Option Nat} {o : BalancerOptions} {g : Grid}
  {node : Nat × Nat → List Lit} {cs : Cnf} {s' : Nat} {text : List Char}

/-- C102: without `--break-symmetry`, the layouts that `belt_balancer --partial` can print are exactly those that it can print without this
option and that have the tiles that the file was read as, in their places.  (A chest stands for an empty cell.) -/
theorem c102_exact (hl : lib.Correct) (hv : net.Valid) (hpos : ∀ c ∈ netColours net, 0 ≤ c) (hcnt : ∀ e ∈ net, 0 < e.2)
    (hw : 2 ≤ width) (hh : 2 ≤ height) (hc : balancerPartial c lib net width height ugLen o text = .ok (g, node, cs, s'))
    (hsym : o.breakSymmetry = false) :
    ∃ a, convertToTiles c text = .ok a ∧ ∀ T, (∃ v, Sat v cs ∧ Decodes g v T) ↔
      BalancerLayout g.nb g.In g.cells (g.shut (.ofBool true)) width height ugLen (elements net) { o with partialLayout := none } T ∧
      ∀ (y : Fin a.rows) (x : Fin a.cols), a.get y x ≠ .empty → T (x.val, y.val) = (a.get y x).required := by
  unfold balancerPartial at hc
  cases ha : convertToTiles c text with
  | error e => rw [ha] at hc; cases hc
  | ok a =>
    rw [ha] at hc
    refine ⟨a, rfl, fun T => (c79_exact hl hv hpos hcnt hw hh hc hsym T).trans ⟨?_, ?_⟩⟩
    · rintro ⟨hB, F, lab, hI, hM⟩
      refine ⟨⟨hB, F, lab, hI, { hM with layout := nofun }⟩, (contains_rowsOf T a).1 (hM.layout _ rfl)⟩
    · rintro ⟨⟨hB, F, lab, hI, hM⟩, hk⟩
      refine ⟨hB, F, lab, hI, { hM with layout := fun rows hr => ?_ }⟩
      cases hr
      exact (contains_rowsOf T a).2 hk

/-- C102: with all options, the layouts printed have these tiles. -/
theorem c102_kept (hl : lib.Correct) (hv : net.Valid) (hpos : ∀ c ∈ netColours net, 0 ≤ c) (hcnt : ∀ e ∈ net, 0 < e.2)
    (hw : 2 ≤ width) (hh : 2 ≤ height) (hc : balancerPartial c lib net width height ugLen o text = .ok (g, node, cs, s')) (v : Asg)
    (hs : Sat v cs) :
    ∃ a T, convertToTiles c text = .ok a ∧ Decodes g v T ∧ ∀ (y : Fin a.rows) (x : Fin a.cols), a.get y x ≠ .empty →
      T (x.val, y.val) = (a.get y x).required := by
  unfold balancerPartial at hc
  cases ha : convertToTiles c text with
  | error e => rw [ha] at hc; cases hc
  | ok a =>
    rw [ha] at hc
    obtain ⟨T, hT, _, F, lab, _, hM⟩ := c79_sound hl hv hpos hcnt hw hh hc v hs
    exact ⟨a, T, rfl, hT, (contains_rowsOf T a).1 (hM.layout _ rfl)⟩

end

/-- C102: with a layout that leaves its first column free, the blueprint does not ask for the same as the printed layout: it is moved to the
left. -/
theorem c102_place_refuted (c : Codec) (label : Option (List Char)) (level : BeltLevel) {line out : List Char} {a : Arr Tile}
    (hp : PrintedLine line a) (hv : a.AllValid) (he : Encodable a.board) (hk : ∃ p, (a.board p).Kept)
    (ho : encodeLine c label level line = .ok out) (hfree : ∀ y, ¬ (a.board (0, y)).Kept) : convertToTiles c out ≠ convertToTiles c line := by
  rw [c102_json c (.inl rfl) hp hv]
  obtain ⟨data, b, x0, y0, h1, h2, h3, h4⟩ := c44_roundtrip level label a he hk
  have hs := c96_printed hp
  have hout : out = encodeBlueprint c data := by
    unfold encodeLine at ho
    rw [layoutOf_line hv hs] at ho
    simp only [h1] at ho
    exact (Except.ok.inj ho).symm
  have hb : convertToTiles c out = .ok b := by
    unfold convertToTiles
    rw [hout, c72_export c _ label a data h1]
    exact h2
  rw [hb]
  intro e
  have e := Except.ok.inj e
  subst e
  obtain ⟨p, hp1, hp2⟩ := h3.left
  have hr := h4 p
  have := hfree (p.2 - y0)
  rw [hp2, Int.sub_self] at hr
  apply this
  unfold Restored at hr
  revert hr hp1
  cases b.board p <;> simp only [Tile.Kept, false_implies, true_implies] <;> rintro hr <;>
    first
      | (obtain ⟨i, hi, -⟩ := hr; rw [hi]; trivial)
      | (rw [hr]; trivial)

/-! ### A case: a belt in the third column -/

/-- A belt behind two empty cells. -/
def exFree : Arr Tile := ⟨1, 3, fun _ x => if x.val = 2 then .belt .right .right else .empty⟩

/-- The text it is printed as. -/
def exFreeText : List Char := (cellsJson (tileCells exFree)).dumps

theorem exFreeText_printed : PrintedLine exFreeText exFree := by
  refine ⟨fun y x => [member "tile" (.obj (exFree.get y x).members)], by decide, by decide, rfl, fun y x => ⟨by simp, ?_, by simp⟩⟩
  intro e he
  simp only [List.mem_cons, List.not_mem_nil, or_false] at he
  subst he
  exact members_ok _

theorem exFree_valid : exFree.AllValid := by
  intro y x
  simp only [exFree]
  split <;> simp [Tile.Valid]

theorem exFree_board (p : Int × Int) : exFree.board p = if p = (2, 0) then .belt .right .right else .empty := by
  refine arr_all (a := exFree) (P := fun p t => p ≠ (2, 0) → t = .empty) (fun _ _ => rfl) ?_ p |> fun h => ?_
  rotate_left
  · intro y x hne
    simp only [exFree]
    rw [if_neg]
    intro hx
    apply hne
    have : y.val = 0 := by have := y.isLt; simp only [exFree] at this; omega
    rw [hx, this]
    rfl
  · by_cases hp : p = (2, 0)
    · rw [if_pos hp, hp]
      decide
    · rw [if_neg hp, h hp]

theorem exFree_encodable : Encodable exFree.board := by
  have hb := exFree_board
  refine ⟨?_, ?_, ⟨?_, ?_⟩, ?_⟩
  · intro p x y h
    rw [hb] at h
    split at h <;> cases h
  · intro p d k h
    rw [hb] at h
    split at h <;> cases h
  · intro p d _ h
    rw [hb] at h
    split at h <;> cases h
  · intro p d _ h
    rw [hb] at h
    split at h <;> cases h
  · intro p i o h
    rw [hb] at h
    split at h
    · rename_i hp
      cases h
      subst hp
      decide
    · cases h

theorem pairCodec_skips : pairCodec.SkipsNewline := by
  intro t
  show Except.ok (unpair _) = _
  congr 1
  induction t with
  | nil => rfl
  | cons c t ih =>
    have e : pairCodec.pack (c :: t) = (if c = '\n' then ['a', 'a'] else ['b', c]) ++ pairCodec.pack t := by
      simp [pairCodec]
    rw [e]
    by_cases h : c = '\n'
    · rw [if_pos h, List.append_assoc, List.cons_append, List.cons_append, unpair, List.nil_append, ih, if_pos rfl, h]
    · rw [if_neg h, List.append_assoc, List.cons_append, List.cons_append, unpair, List.nil_append, ih, if_neg (by decide)]

/-- The hypotheses of `c102_blueprint_partial` and `c102_place_refuted` are met. -/
example : PrintedLine exFreeText exFree ∧ exFree.AllValid ∧ Encodable exFree.board ∧ (∃ p, (exFree.board p).Kept) ∧
    (∀ y, ¬ (exFree.board (0, y)).Kept) ∧ pairCodec.SkipsNewline ∧ ∃ out, encodeLine pairCodec none .normal exFreeText = .ok out := by
  have hk : ∃ p, (exFree.board p).Kept := ⟨(2, 0), by rw [exFree_board]; trivial⟩
  refine ⟨exFreeText_printed, exFree_valid, exFree_encodable, hk, fun y => ?_, pairCodec_skips, ?_⟩
  · rw [exFree_board, if_neg (by simp)]
    exact id
  · obtain ⟨data, b, out, h, _⟩ := encodeLine_roundtrip (c := pairCodec) (label := none) (level := .normal) (c96_printed exFreeText_printed)
      exFree_valid exFree_encodable hk
    exact ⟨_, h⟩

theorem exFree_sat : okSat exWideAsg (balancerCnf (balancerMain naiveLib exOne 4 2 (some 4) { partialLayout := some (rowsOf exFree) })) = true := by
  decide +kernel

/-- The hypotheses of `c102_exact` are met, and there is a solution. -/
example : ∃ g node cs s', balancerPartial pairCodec naiveLib exOne 4 2 (some 4) {} exFreeText = .ok (g, node, cs, s') ∧ ∃ v, Sat v cs := by
  unfold balancerPartial
  rw [c102_json pairCodec (.inl rfl) exFreeText_printed exFree_valid]
  obtain ⟨g, node, cs, s', h1, h2⟩ := balancerCnf_ok exFree_sat
  exact ⟨g, node, cs, s', h1, _, h2⟩

end FSat
