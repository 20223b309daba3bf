import Verif.Spec.OldFormats
/-!
# C101: layouts written by older versions
-/

namespace FSat

theorem Has.itemAt {cell : Fields} {ms : List (String × Json)} (h : Has cell ms) {k : String} {v : Json} (hm : (k, v) ∈ ms) : itemAt cell k = .ok v := by
  unfold FSat.itemAt
  rw [h (k, v) hm]

theorem dirJson_null (d : Dir) : (dirJson (some d)).isNull = false := rfl

theorem readItem_oldest {cell : Fields} (ht : PyDict.get cell Word.tile = none) (he : PyDict.get cell "is_empty".toList = none) {i o : Json}
    (hi : itemAt cell "input_direction" = .ok i) (ho : itemAt cell "output_direction" = .ok o) : readItem cell = readOld1 cell i o := by
  unfold readItem
  rw [ht]
  simp only [hi, ho, he]
  rfl

theorem readItem_older {cell : Fields} (ht : PyDict.get cell Word.tile = none) {e : Json} (he : PyDict.get cell "is_empty".toList = some e) {i o : Json}
    (hi : itemAt cell "input_direction" = .ok i) (ho : itemAt cell "output_direction" = .ok o) : readItem cell = readOld2 cell i o := by
  unfold readItem
  rw [ht]
  simp only [hi, ho, he]
  rfl

/-- C101, partial: cells with the member `tile` are read as C42 and C96 say; in cells of older formats an empty tile is read as such, and ends
of underground belts, splitters, inserters and parts of machines become objects of the right kind, though with a number in place of a
direction; parts that a machine does not have are refused.  Belts are not read: `c101_belt_refuted`. -/
theorem c101_others_partial (cell : Fields) :
    (∀ v, PyDict.get cell Word.tile = some v → readItem cell = (tileOfJson v).map .tile) ∧
    (PyDict.get cell Word.tile = none → ∀ t, (PyDict.get cell "is_empty".toList = none ∧ Oldest cell t) ∨ Older cell t →
      match t with
      | .empty => readItem cell = .ok (.tile .empty)
      | .underground d b => readItem cell = .ok (.underground (.int d.value) b)
      | .splitter d b => ∃ h, readItem cell = .ok (.splitter (.int d.value) h) ∧ h.truthy = b
      | .inserter d k => readItem cell = .ok (.inserter (.int d.value) (.int k))
      | .assembler x y => ((0 ≤ x ∧ x < 3 ∧ 0 ≤ y ∧ y < 3) → readItem cell = .ok (.machine (.int x) (.int y))) ∧
          (¬ (0 ≤ x ∧ x < 3 ∧ 0 ≤ y ∧ y < 3) → readItem cell = .error .assertion)
      | _ => True) := by
  refine ⟨fun v hv => ?_, fun ht t h => ?_⟩
  · unfold readItem
    rw [hv]
    dsimp only
    cases tileOfJson v <;> rfl
  · rcases h with ⟨he, h⟩ | h
    · cases h with
      | empty h =>
        rw [readItem_oldest ht he (h.itemAt (v := .null) (by simp)) (h.itemAt (v := .null) (by simp))]
        unfold readOld1
        rw [h.itemAt (k := "is_splitter") (v := .bool false) (by simp)]
        rfl
      | belt i o _ h => trivial
      | entrance d h =>
        dsimp only
        rw [readItem_oldest ht he (h.itemAt (v := dirJson (some d)) (by simp)) (h.itemAt (v := .null) (by simp))]
        unfold readOld1
        rw [h.itemAt (k := "is_splitter") (v := .bool false) (by simp)]
        rfl
      | exit d h =>
        dsimp only
        rw [readItem_oldest ht he (h.itemAt (v := .null) (by simp)) (h.itemAt (v := dirJson (some d)) (by simp))]
        unfold readOld1
        rw [h.itemAt (k := "is_splitter") (v := .bool false) (by simp)]
        rfl
      | splitter i o d head hd h =>
        dsimp only
        refine ⟨.bool head, ?_, rfl⟩
        rw [readItem_oldest ht he (h.itemAt (v := dirJson i) (by simp)) (h.itemAt (v := dirJson o) (by simp))]
        unfold readOld1
        rw [h.itemAt (k := "is_splitter") (v := .bool true) (by simp), h.itemAt (k := "is_splitter_head") (v := .bool head) (by simp)]
        rcases hd with ⟨rfl, _⟩ | ⟨rfl, rfl⟩ <;> rfl
    · cases h with
      | empty i o h =>
        dsimp only
        rw [readItem_older ht (h ("is_empty", .bool true) (by simp [flagsOf])) (h.itemAt (v := dirJson i) (by simp)) (h.itemAt (v := dirJson o) (by simp))]
        unfold readOld2
        rw [h.itemAt (k := "is_empty") (v := .bool true) (by simp [flagsOf])]
        rfl
      | belt i o _ h => trivial
      | entrance d o h =>
        dsimp only
        rw [readItem_older ht (h ("is_empty", .bool false) (by simp [flagsOf])) (h.itemAt (v := dirJson (some d)) (by simp)) (h.itemAt (v := dirJson o) (by simp))]
        unfold readOld2
        rw [h.itemAt (k := "is_empty") (v := .bool false) (by simp [flagsOf]), h.itemAt (k := "is_belt") (v := .bool false) (by simp [flagsOf]),
          h.itemAt (k := "is_underground_in") (v := .bool true) (by simp [flagsOf])]
        rfl
      | exit i d h =>
        dsimp only
        rw [readItem_older ht (h ("is_empty", .bool false) (by simp [flagsOf])) (h.itemAt (v := dirJson i) (by simp)) (h.itemAt (v := dirJson (some d)) (by simp))]
        unfold readOld2
        rw [h.itemAt (k := "is_empty") (v := .bool false) (by simp [flagsOf]), h.itemAt (k := "is_belt") (v := .bool false) (by simp [flagsOf]),
          h.itemAt (k := "is_underground_in") (v := .bool false) (by simp [flagsOf]),
          h.itemAt (k := "is_underground_out") (v := .bool true) (by simp [flagsOf])]
        rfl
      | splitter i o d side h =>
        dsimp only
        refine ⟨.int side, ?_, rfl⟩
        rw [readItem_older ht (h ("is_empty", .bool false) (by simp [flagsOf])) (h.itemAt (v := dirJson i) (by simp)) (h.itemAt (v := dirJson o) (by simp))]
        unfold readOld2
        rw [h.itemAt (k := "is_empty") (v := .bool false) (by simp [flagsOf]), h.itemAt (k := "is_belt") (v := .bool false) (by simp [flagsOf]),
          h.itemAt (k := "is_underground_in") (v := .bool false) (by simp [flagsOf]),
          h.itemAt (k := "is_underground_out") (v := .bool false) (by simp [flagsOf]),
          h.itemAt (k := "is_splitter") (v := .int side) (by simp), h.itemAt (k := "colour_direction") (v := dirJson (some d)) (by simp)]
        rfl
      | splitterSide i o d side hc h =>
        dsimp only
        refine ⟨.int side, ?_, rfl⟩
        rw [readItem_older ht (h ("is_empty", .bool false) (by simp [flagsOf])) (h.itemAt (v := dirJson i) (by simp)) (h.itemAt (v := dirJson o) (by simp))]
        unfold readOld2
        rw [h.itemAt (k := "is_empty") (v := .bool false) (by simp [flagsOf]), h.itemAt (k := "is_belt") (v := .bool false) (by simp [flagsOf]),
          h.itemAt (k := "is_underground_in") (v := .bool false) (by simp [flagsOf]),
          h.itemAt (k := "is_underground_out") (v := .bool false) (by simp [flagsOf]),
          h.itemAt (k := "is_splitter") (v := .bool true) (by simp), h.itemAt (k := "splitter_direction") (v := dirJson (some d)) (by simp),
          h.itemAt (k := "splitter_side") (v := .int side) (by simp)]
        have : itemAt cell "colour_direction" = .error .keyError := by
          unfold itemAt
          rw [hc]
        rw [this]
        rfl
      | inserter i o s d kind hs h =>
        dsimp only
        rw [readItem_older ht (h ("is_empty", .bool false) (by simp [flagsOf])) (h.itemAt (v := dirJson i) (by simp)) (h.itemAt (v := dirJson o) (by simp))]
        unfold readOld2
        rw [h.itemAt (k := "is_empty") (v := .bool false) (by simp [flagsOf]), h.itemAt (k := "is_belt") (v := .bool false) (by simp [flagsOf]),
          h.itemAt (k := "is_underground_in") (v := .bool false) (by simp [flagsOf]),
          h.itemAt (k := "is_underground_out") (v := .bool false) (by simp [flagsOf]),
          h.itemAt (k := "is_splitter") (v := s) (by simp), h.itemAt (k := "is_inserter") (v := .int kind) (by simp),
          h.itemAt (k := "inserter_direction") (v := dirJson (some d)) (by simp)]
        rcases hs with rfl | rfl <;> rfl
      | machine i o s x y hs h =>
        dsimp only
        have key : readItem cell = oldMachine (.int x) (.int y) := by
          rw [readItem_older ht (h ("is_empty", .bool false) (by simp [flagsOf])) (h.itemAt (v := dirJson i) (by simp)) (h.itemAt (v := dirJson o) (by simp))]
          unfold readOld2
          rw [h.itemAt (k := "is_empty") (v := .bool false) (by simp [flagsOf]), h.itemAt (k := "is_belt") (v := .bool false) (by simp [flagsOf]),
          h.itemAt (k := "is_underground_in") (v := .bool false) (by simp [flagsOf]),
          h.itemAt (k := "is_underground_out") (v := .bool false) (by simp [flagsOf]),
            h.itemAt (k := "is_splitter") (v := s) (by simp), h.itemAt (k := "is_inserter") (v := .null) (by simp),
            h.itemAt (k := "is_assembling_machine") (v := .bool true) (by simp), h.itemAt (k := "assembling_x") (v := .int x) (by simp),
            h.itemAt (k := "assembling_y") (v := .int y) (by simp)]
          rcases hs with rfl | rfl <;> rfl
        rw [key]
        have side : ∀ z : Int, checkSide (.int z) = if 0 ≤ z ∧ z < 3 then .ok () else .error .assertion := by
          intro z
          unfold checkSide Json.twice
          dsimp only
          congr 1
          exact propext (by omega)
        unfold oldMachine
        rw [side, side]
        constructor
        · rintro ⟨h1, h2, h3, h4⟩
          rw [if_pos ⟨h1, h2⟩, if_pos ⟨h3, h4⟩]
          rfl
        · intro hn
          by_cases hx : 0 ≤ x ∧ x < 3
          · rw [if_pos hx, if_neg fun hy => hn ⟨hx.1, hx.2, hy⟩]
            rfl
          · rw [if_neg hx]
            rfl

/-- C101: no belt of an older format can be read. -/
theorem c101_belt_refuted (cell : Fields) (ht : PyDict.get cell Word.tile = none) (i o : Dir)
    (h : (PyDict.get cell "is_empty".toList = none ∧ Oldest cell (.belt i o)) ∨ Older cell (.belt i o)) : readItem cell = .error .attributeError := by
  rcases h with ⟨he, h⟩ | h
  · cases h with
    | belt _ _ _ h =>
      rw [readItem_oldest ht he (h.itemAt (v := dirJson (some i)) (by simp)) (h.itemAt (v := dirJson (some o)) (by simp))]
      unfold readOld1
      rw [h.itemAt (k := "is_splitter") (v := .bool false) (by simp)]
      rfl
  · cases h with
    | belt _ _ _ h =>
      rw [readItem_older ht (h ("is_empty", .bool false) (by simp [flagsOf])) (h.itemAt (v := dirJson (some i)) (by simp)) (h.itemAt (v := dirJson (some o)) (by simp))]
      unfold readOld2
      rw [h.itemAt (k := "is_empty") (v := .bool false) (by simp [flagsOf]), h.itemAt (k := "is_belt") (v := .bool true) (by simp [flagsOf])]
      rfl

instance : Inhabited ReadTile := ⟨.tile .empty⟩

/-- C101: a layout of an older format with a belt anywhere cannot be read, so that no command accepts it. -/
theorem c101_layout_refuted (a : Arr Fields) (y : Fin a.rows) (x : Fin a.cols) (ht : PyDict.get (a.get y x) Word.tile = none) (i o : Dir)
    (h : (PyDict.get (a.get y x) "is_empty".toList = none ∧ Oldest (a.get y x) (.belt i o)) ∨ Older (a.get y x) (.belt i o)) :
    ∃ e, eachCell readItem a = .error e ∧ vectorize readItem a = .error e := by
  have hb := c101_belt_refuted _ ht i o h
  have hc : ∃ e, eachCell readItem a = .error e := by
    unfold eachCell
    cases hf : a.cells.findSome? fun p => errorOf (readItem (a.get p.1 p.2)) with
    | some e => exact ⟨e, rfl⟩
    | none =>
      rw [List.findSome?_eq_none_iff] at hf
      have := hf (y, x) (by unfold Arr.cells; simp)
      dsimp only at this
      rw [hb] at this
      cases this
  obtain ⟨e, he⟩ := hc
  refine ⟨e, he, ?_⟩
  unfold vectorize
  have h1 := y.isLt
  have h2 := x.isLt
  rw [if_neg (by omega), he]

/-- The hypotheses can be met: a belt to the right in both formats. -/
example : (∃ cell : Fields, PyDict.get cell Word.tile = none ∧ PyDict.get cell "is_empty".toList = none ∧ Oldest cell (.belt .right .right)) ∧
    ∃ cell : Fields, PyDict.get cell Word.tile = none ∧ Older cell (.belt .right .right) := by
  refine ⟨⟨[("input_direction".toList, .int 0), ("output_direction".toList, .int 0), ("is_splitter".toList, .bool false)], rfl, rfl,
    .belt _ _ (by decide) fun m hm => ?_⟩,
    ⟨[("input_direction".toList, .int 0), ("output_direction".toList, .int 0), ("is_empty".toList, .bool false), ("is_belt".toList, .bool true),
      ("is_underground_in".toList, .bool false), ("is_underground_out".toList, .bool false)], rfl, .belt _ _ (by decide) fun m hm => ?_⟩⟩
  · simp only [List.mem_cons, List.not_mem_nil, or_false] at hm
    rcases hm with rfl | rfl | rfl <;> rfl
  · simp only [flagsOf, List.mem_cons, List.mem_append, List.not_mem_nil, or_false] at hm
    rcases hm with (rfl | rfl) | rfl | rfl | rfl | rfl <;> rfl

/-- The same for the middle of a machine and for a splitter without the member `colour_direction`. -/
example : (∃ cell : Fields, PyDict.get cell Word.tile = none ∧ Older cell (.assembler 1 1)) ∧
    ∃ cell : Fields, PyDict.get cell Word.tile = none ∧ Older cell (.splitter .right true) := by
  refine ⟨⟨[("input_direction".toList, .null), ("output_direction".toList, .null), ("is_splitter".toList, .null), ("is_inserter".toList, .null),
    ("is_assembling_machine".toList, .bool true), ("assembling_x".toList, .int 1), ("assembling_y".toList, .int 1), ("is_empty".toList, .bool false),
    ("is_belt".toList, .bool false), ("is_underground_in".toList, .bool false), ("is_underground_out".toList, .bool false)], rfl,
    .machine none none .null 1 1 (.inl rfl) fun m hm => ?_⟩,
    ⟨[("input_direction".toList, .null), ("output_direction".toList, .null), ("is_splitter".toList, .bool true), ("splitter_direction".toList, .int 0),
    ("splitter_side".toList, .int 1), ("is_empty".toList, .bool false), ("is_belt".toList, .bool false), ("is_underground_in".toList, .bool false),
    ("is_underground_out".toList, .bool false)], rfl, .splitterSide none none .right 1 rfl fun m hm => ?_⟩⟩
  · simp only [flagsOf, List.mem_cons, List.mem_append, List.not_mem_nil, or_false] at hm
    rcases hm with (rfl | rfl | rfl | rfl | rfl | rfl | rfl) | rfl | rfl | rfl | rfl <;> rfl
  · simp only [flagsOf, List.mem_cons, List.mem_append, List.not_mem_nil, or_false] at hm
    rcases hm with (rfl | rfl | rfl | rfl | rfl) | rfl | rfl | rfl | rfl <;> rfl

end FSat
