import Verif.Lemmas.PrintSolution
import Verif.Props.Template
import Verif.Props.Blueprint
import Verif.Props.Commands
/-!
# C105: what the programs print for an answer of the solver
-/

namespace FSat

theorem gridFields_proper {colours : Option Nat} {extras : TFields} (h : extras.Proper) : (gridFields colours extras).Proper := by
  cases colours <;> simp [gridFields, TFields.Proper, Tmpl.Proper, h]

theorem gridFields_named {colours : Option Nat} {extras : TFields} (h : extras.Named) : (gridFields colours extras).Named := by
  cases colours <;> simp [gridFields, TFields.Named, Tmpl.Named, h]

theorem mapping_agrees {solution : List Lit} {v : Asg} (h : ∀ l ∈ solution, ev v l = true) (x : Nat) (b : Bool)
    (hb : mappingOf solution x = some b) : v x = b := by
  rw [c13_mapping solution v h x] at hb
  split at hb
  · exact Option.some.inj hb
  · cases hb

theorem set_append {o : Fields} {k : List Char} (h : k ∉ o.map Prod.fst) (v : Json) : PyDict.set o k v = o ++ [(k, v)] := by
  induction o with
  | nil => rfl
  | cons e o ih =>
    obtain ⟨k', v'⟩ := e
    simp only [List.map_cons, List.mem_cons, not_or] at h
    rw [PyDict.set, if_neg fun e => h.1 e.symm, ih h.2, List.cons_append]

theorem tile_new {colours : Option Nat} {extras : TFields} (hx : GoodExtras colours extras) (x : (gridFields colours extras).Val) :
    Word.tile ∉ ((gridFields colours extras).members x).map Prod.fst := by
  rw [TFields.members_names, ← word_tile]
  intro h
  obtain ⟨n, hn, he⟩ := List.mem_map.1 h
  rw [toList_injective he] at hn
  exact (List.nodup_cons.1 hx.2.2).1 hn

theorem members_ok_tile (t : Tile) : (Json.obj t.members).Ok := by
  cases t <;> simp [Tile.members, member, Json.Ok, Json.OkPairs, Json.OkPair]

theorem parseCell_sound {colours : Option Nat} {extras : TFields} (hx : GoodExtras colours extras) {m : Mapping} {v : Asg}
    (hm : ∀ x b, m x = some b → v x = b) {s : Nat} {cell : Fields}
    (h : parseCell colours extras m ((gridFields colours extras).instantiate s).1 = .ok cell) :
    ∃ t, readTile (evalTile v (toTileInst colours extras ((gridFields colours extras).instantiate s).1)) = .ok t ∧
      CellShows v colours extras ((gridFields colours extras).instantiate s).1 t cell := by
  unfold parseCell at h
  split at h
  · cases h
  · rename_i x e
    have hM := TFields.parse_means hm (gridFields_proper hx.1) e
    rw [readParsed_members hM] at h
    split at h
    · cases h
    · rename_i t ht
      refine ⟨t, ht, (gridFields colours extras).members x, ?_, TFields.members_shows _ _ _ hM, ?_, ?_⟩ <;>
        rw [← Except.ok.inj h, set_append (tile_new hx x), tileJson_eq]
      · rfl
      · rw [List.map_append, List.nodup_append]
        refine ⟨?_, by simp, ?_⟩
        · rw [TFields.members_names]
          exact (List.nodup_cons.1 hx.2.2).2.map toList_injective
        · intro a ha b hb
          simp only [List.map_cons, List.map_nil, List.mem_singleton] at hb
          rintro rfl
          exact tile_new hx x (hb ▸ ha)
      · intro e he
        rcases List.mem_append.1 he with he | he
        · exact TFields.members_ok _ (gridFields_named hx.2.1) x e he
        · rw [List.mem_singleton.1 he]
          exact members_ok_tile t

theorem parseCell_total {colours : Option Nat} {extras : TFields} (hx : extras.Proper) {m : Mapping} {v : Asg} {s : Nat}
    (hc : Covers m v s (s + (gridFields colours extras).variableCount)) {t : Tile}
    (ht : readTile (evalTile v (toTileInst colours extras ((gridFields colours extras).instantiate s).1)) = .ok t) :
    ∃ cell, parseCell colours extras m ((gridFields colours extras).instantiate s).1 = .ok cell := by
  obtain ⟨x, h1, h2, _⟩ := TFields.parse_ok m v _ (gridFields_proper (colours := colours) hx) s hc
  refine ⟨PyDict.set ((gridFields colours extras).members x) Word.tile (tileJson t), ?_⟩
  unfold parseCell
  rw [h1]
  simp only
  rw [readParsed_members h2, ht]

theorem eachCell_sound {α β : Type} [Inhabited β] {f : α → Except PyErr β} {a : Arr α} {b : Arr β} (h : eachCell f a = .ok b) :
    ∃ c : Fin a.rows → Fin a.cols → β, b = ⟨a.rows, a.cols, c⟩ ∧ ∀ y x, f (a.get y x) = .ok (c y x) := by
  unfold eachCell at h
  split at h
  · cases h
  · rename_i e
    refine ⟨fun y x => valueOf (f (a.get y x)), (Except.ok.inj h).symm, fun y x => ?_⟩
    rw [List.findSome?_eq_none_iff] at e
    have := e (y, x) (by simp [Arr.cells])
    cases e2 : f (a.get y x) with
    | error e3 => rw [e2] at this; cases this
    | ok b => simp only [e2, valueOf]

/-- C105: whatever the solver answered, if a line is printed, then it shows the layout that the answer describes: its cells have the
members of the template with the values of their variables, and then the tile. -/
theorem c105_line {width height : Nat} {colours : Option Nat} {extras : TFields} (hx : GoodExtras colours extras) (edge : EdgeMode)
    (ugLen : Option Nat) {s : Nat} {solution : List Lit} {v : Asg} (hv : ∀ l ∈ solution, ev v l = true) {line : List Char}
    (h : solutionText width height colours extras s solution = .ok line) :
    ∃ T, Decodes (mkGrid width height edge colours ugLen extras s) v T ∧
      ∃ cells : Fin height → Fin width → Fields,
        line = (Json.arr (List.ofFn fun y => .arr (List.ofFn fun x => .obj (cells y x)))).dumps ∧
        ∀ y x, CellShows v colours extras (cellInstance width colours extras s x.val y.val) (T (x.val, y.val)) (cells y x) := by
  unfold solutionText at h
  split at h
  · cases h
  · rename_i a e
    obtain ⟨c, rfl, hc⟩ := eachCell_sound e
    have hc : ∀ (y : Fin height) (x : Fin width), ∃ t, _ ∧ _ := fun y x => parseCell_sound hx (mapping_agrees hv) (hc y x)
    refine ⟨fun p => if hp : p.1 < width ∧ p.2 < height then (hc ⟨p.2, hp.2⟩ ⟨p.1, hp.1⟩).choose else .empty, fun p hp => ?_, c, ?_, fun y x => ?_⟩
    · have hp' : p.1 < width ∧ p.2 < height := hp
      simp only
      rw [dif_pos hp']
      exact (hc ⟨p.2, hp'.2⟩ ⟨p.1, hp'.1⟩).choose_spec.1
    · rw [← Except.ok.inj h]
      simp only [listOf, Arr.map, List.ofFn_eq_map]
    · simp only [x.isLt, y.isLt, and_self, dite_true]
      exact (hc y x).choose_spec.2

/-- C105: the printed line is a line that the commands take for that layout. -/
theorem c105_printed {width height : Nat} (hw : 0 < width) (hh : 0 < height) {colours : Option Nat} {extras : TFields}
    (hx : GoodExtras colours extras) (edge : EdgeMode) (ugLen : Option Nat) {s : Nat} {solution : List Lit} {v : Asg}
    (hv : ∀ l ∈ solution, ev v l = true) {T : Nat × Nat → Tile} (hT : Decodes (mkGrid width height edge colours ugLen extras s) v T)
    {line : List Char} (h : solutionText width height colours extras s solution = .ok line) :
    PrintedLine line (layoutArr (mkGrid width height edge colours ugLen extras s) T) := by
  obtain ⟨T', hT', cells, h1, h2⟩ := c105_line hx edge ugLen hv h
  refine ⟨cells, hh, hw, h1, fun y x => ?_⟩
  have e : T' (x.val, y.val) = T (x.val, y.val) := by
    have hp : (mkGrid width height edge colours ugLen extras s).In (x.val, y.val) := ⟨x.isLt, y.isLt⟩
    have := hT' _ hp
    rw [hT _ hp] at this
    exact (Except.ok.inj this).symm
  obtain ⟨o, ho, _, h3, h4⟩ := h2 y x
  refine ⟨h3, h4, ?_⟩
  rw [ho, e]
  exact List.mem_append_right _ (List.mem_singleton_self _)

/-- C105: a line is printed for every answer that has all variables of the tiles and describes a layout. -/
theorem c105_prints {width height : Nat} {colours : Option Nat} {extras : TFields} (hx : extras.Proper) (edge : EdgeMode)
    (ugLen : Option Nat) {s : Nat} {solution : List Lit} {v : Asg} (hv : ∀ l ∈ solution, ev v l = true)
    (hc : ∀ x, s < x → x ≤ s + height * width * (gridFields colours extras).variableCount → ∃ l ∈ solution, l.var = x)
    {T : Nat × Nat → Tile} (hT : Decodes (mkGrid width height edge colours ugLen extras s) v T) :
    ∃ line, solutionText width height colours extras s solution = .ok line := by
  have key : ∀ (y : Fin height) (x : Fin width), ∃ cell, parseCell colours extras (mappingOf solution)
      (cellInstance width colours extras s x.val y.val) = .ok cell := by
    intro y x
    refine parseCell_total hx (v := v) (fun z h1 h2 => ?_) (hT (x.val, y.val) ⟨x.isLt, y.isLt⟩)
    rw [c13_mapping solution v hv z, if_pos]
    refine hc z (by omega) (h2.trans ?_)
    rw [Nat.add_assoc, ← Nat.succ_mul]
    refine Nat.add_le_add_left (Nat.mul_le_mul_right _ ?_) _
    have h3 : (y.val + 1) * width ≤ height * width := Nat.mul_le_mul_right _ y.isLt
    have h4 := x.isLt
    rw [Nat.succ_mul] at h3
    omega
  unfold solutionText parseSolution
  rw [eachCell_ok (b := fun y x => (key y x).choose) fun y x => (key y x).choose_spec]
  exact ⟨_, rfl⟩

/-- C105: when an answer that describes a layout is not printed, the exception is a `KeyError`, and a variable of the tiles is missing in
the answer. -/
theorem c105_missing {width height : Nat} {colours : Option Nat} {extras : TFields} (hx : extras.Proper) (edge : EdgeMode)
    (ugLen : Option Nat) {s : Nat} {solution : List Lit} {v : Asg} (hv : ∀ l ∈ solution, ev v l = true)
    {T : Nat × Nat → Tile} (hT : Decodes (mkGrid width height edge colours ugLen extras s) v T) {e : PyErr}
    (h : solutionText width height colours extras s solution = .error e) :
    e = .keyError ∧ ∃ x, s < x ∧ x ≤ s + height * width * (gridFields colours extras).variableCount ∧ ∀ l ∈ solution, l.var ≠ x := by
  constructor
  · unfold solutionText at h
    split at h
    · rename_i e' he
      obtain rfl := Except.error.inj h
      unfold parseSolution eachCell at he
      split at he
      · rename_i e'' hf
        obtain rfl := Except.error.inj he
        obtain ⟨⟨y, x⟩, _, hy⟩ := List.exists_of_findSome?_eq_some hf
        simp only at hy
        cases hp : parseCell colours extras (mappingOf solution) (cellInstance width colours extras s x.val y.val) with
        | ok c => rw [hp] at hy; cases hy
        | error e3 =>
          rw [hp] at hy
          obtain rfl := Option.some.inj hy
          unfold parseCell at hp
          split at hp
          · rename_i e4 h4
            obtain rfl := Except.error.inj hp
            exact TFields.parse_error _ _ (gridFields_proper hx) _ _ h4
          · rename_i x' h4
            have ht := hT (x.val, y.val) ⟨x.isLt, y.isLt⟩
            have hr := readParsed_members (TFields.parse_means (mapping_agrees hv) (gridFields_proper hx) h4)
            unfold decodeCell Grid.at' mkGrid cellInstance at ht
            rw [hr, ht] at hp
            cases hp
      · cases he
    · cases h
  · by_contra hn
    push Not at hn
    obtain ⟨line, hl⟩ := c105_prints hx edge ugLen hv (s := s) (fun x h1 h2 => hn x h1 h2) hT
    rw [h] at hl
    cases hl

end FSat
