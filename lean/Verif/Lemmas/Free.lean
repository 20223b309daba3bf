import Verif.Lemmas.Complete

set_option linter.unusedSimpArgs false

namespace FSat

theorem freshLits_map_ev (v : Asg) (s n : Nat) : (freshLits s n).map (ev v) = (List.range n).map fun j => v (s + j + 1) := by
  induction n generalizing s with
  | zero => rfl
  | succ n ih =>
    rw [List.range_succ_eq_map]
    simp only [freshLits, List.map_cons, ih, List.map_map]
    congr 1
    · simp [ev]
    · apply List.map_congr_left
      intro j _
      simp only [Function.comp]
      congr 1; omega

/-- An assignment with prescribed values on the variables of all cells, equal to `v0` elsewhere. -/
theorem exists_cells (v0 : Asg) (width height n s : Nat) (F : Nat × Nat → List Bool)
    (hF : ∀ p, (F p).length = n) : ∃ v : Asg, (∀ x, x ≤ s ∨ s + height * width * n < x → v x = v0 x) ∧
      ∀ x y, x < width → y < height → (freshLits (s + (y * width + x) * n) n).map (ev v) = F (x, y) := by
  refine ⟨fun z => if z ≤ s ∨ s + height * width * n < z then v0 z
    else (F (((z - 1 - s) / n) % width, ((z - 1 - s) / n) / width)).getD ((z - 1 - s) % n) false, ?_, ?_⟩
  · intro z hz; simp only [if_pos hz]
  · intro x y hx hy
    rw [freshLits_map_ev]
    apply List.ext_getElem
    · simp [hF]
    · intro j h1 h2
      have hj : j < n := by simpa using h1
      simp only [List.getElem_map, List.getElem_range]
      have hle : (y * width + x) * n + n ≤ height * width * n := by
        rw [← Nat.succ_mul]
        apply Nat.mul_le_mul_right
        calc y * width + x + 1 ≤ y * width + width := by omega
          _ = (y + 1) * width := by rw [Nat.succ_mul]
          _ ≤ height * width := Nat.mul_le_mul_right _ hy
      have hc : ¬ (s + (y * width + x) * n + j + 1 ≤ s ∨ s + height * width * n < s + (y * width + x) * n + j + 1) := by
        omega
      rw [if_neg hc]
      have e : s + (y * width + x) * n + j + 1 - 1 - s = n * (y * width + x) + j := by
        rw [Nat.mul_comm n]; omega
      have hn : 0 < n := by omega
      have hw : 0 < width := by omega
      rw [e, Nat.mul_add_div hn, Nat.div_eq_of_lt hj, Nat.add_zero, Nat.mul_add_mod, Nat.mod_eq_of_lt hj]
      have e2 : (y * width + x) % width = x := by
        rw [Nat.mul_comm, Nat.mul_add_mod, Nat.mod_eq_of_lt hx]
      have e3 : (y * width + x) / width = y := by
        rw [Nat.mul_comm, Nat.mul_add_div hw, Nat.div_eq_of_lt hx, Nat.add_zero]
      rw [e2, e3, List.getD_eq_getElem?_getD, List.getElem?_eq_getElem (by rw [hF]; exact hj)]
      rfl

/-- The four values in index order. -/
def bools (f : Dir → Bool) : List Bool := [f .right, f .up, f .left, f .down]

/-- The values of a cell in the order of its variables. -/
def CellVal.flat (c : CellVal) : List Bool :=
  [c.isBelt, c.isEmpty, c.isSplitter, c.isUgIn, c.isUgOut, c.isHead, c.isInput, c.isOutput]
    ++ (bools c.inp ++ (bools c.out ++ (bools c.ug ++ (c.colour ++ (c.colourUx ++ c.colourUy)))))

theorem byDir_ev {v : Asg} {ls : List Lit} {f : Dir → Bool} (h : ls.map (ev v) = bools f) (d : Dir) :
    ev v (byDir ls d) = f d := by
  have hl : ls.length = 4 := by simpa [bools] using congrArg List.length h
  match ls, hl with
  | [a, b, c, e], _ =>
    simp only [List.map_cons, List.map_nil, bools, List.cons.injEq, and_true] at h
    obtain ⟨h1, h2, h3, h4⟩ := h
    cases d <;> simp [byDir, Dir.value, h1, h2, h3, h4]

theorem evalTile_flat (v : Asg) (colours : Option Nat) (extras : TFields) (s : Nat) (c : CellVal) (e : List Bool)
    (hc : c.colour.length = ((colours.getD 1) - 1).size) (hx : c.colourUx.length = ((colours.getD 1) - 1).size)
    (hy : c.colourUy.length = ((colours.getD 1) - 1).size)
    (h : (freshLits s (gridFields colours extras).variableCount).map (ev v) = c.flat ++ e) :
    evalTile v (toTileInst colours extras ((gridFields colours extras).instantiate s).1) = c ∧
    (extras.flatten (toExtras colours extras ((gridFields colours extras).instantiate s).1)).map (ev v) = e := by
  rw [← ((gridFields colours extras).instantiate_spec s).2] at h
  obtain ⟨c1, c2, c3, c4, c5, c6, c7, c8, ci, co, cu, cc, cx, cy⟩ := c
  cases colours with
  | none =>
    simp only [Option.getD_none, Nat.sub_self, Nat.size_zero, List.length_eq_zero_iff] at hc hx hy
    subst hc hx hy
    simp only [gridFields, TFields.flatten, TFields.instantiate, Tmpl.flatten, Tmpl.instantiate, CellVal.flat,
      List.map_append, List.map_cons, List.map_nil, List.cons_append, List.nil_append,
      List.cons.injEq, List.append_assoc, List.append_nil] at h
    obtain ⟨h1, h2, h3, h4, h5, h6, h7, h8, h⟩ := h
    obtain ⟨hi, h⟩ := List.append_inj h (by simp [nextMany_eq, bools])
    obtain ⟨ho, h⟩ := List.append_inj h (by simp [nextMany_eq, bools])
    obtain ⟨hu, h⟩ := List.append_inj h rfl
    have hu' : List.map (ev v) (nestedInst (fun x => ((⟨x + 1, true⟩ : Lit), x + 1)) [4] _).1 = bools cu := hu
    refine ⟨?_, ?_⟩
    · simp only [toTileInst, evalTile, gridFields, TFields.instantiate, Tmpl.instantiate, h1, h2, h3, h4, h5, h6, h7, h8,
        byDir_ev hi, byDir_ev ho, List.map_nil]
      congr 1; funext d; exact byDir_ev hu' d
    · exact h
  | some n =>
    simp only [Option.getD_some] at hc hx hy
    simp only [gridFields, TFields.flatten, TFields.instantiate, Tmpl.flatten, Tmpl.instantiate, CellVal.flat,
      List.map_append, List.map_cons, List.map_nil, List.cons_append, List.nil_append,
      List.cons.injEq, List.append_assoc, List.append_nil] at h
    obtain ⟨h1, h2, h3, h4, h5, h6, h7, h8, h⟩ := h
    obtain ⟨hi, h⟩ := List.append_inj h (by simp [nextMany_eq, bools])
    obtain ⟨ho, h⟩ := List.append_inj h (by simp [nextMany_eq, bools])
    obtain ⟨hu, h⟩ := List.append_inj h rfl
    have hu' : List.map (ev v) (nestedInst (fun x => ((⟨x + 1, true⟩ : Lit), x + 1)) [4] _).1 = bools cu := hu
    obtain ⟨hk, h⟩ := List.append_inj h (by simp [nextMany_eq, hc])
    obtain ⟨hkx, h⟩ := List.append_inj h (by simp [nextMany_eq, hx])
    obtain ⟨hky, h⟩ := List.append_inj h (by simp [nextMany_eq, hy])
    refine ⟨?_, ?_⟩
    · simp only [toTileInst, evalTile, gridFields, TFields.instantiate, Tmpl.instantiate, h1, h2, h3, h4, h5, h6, h7, h8,
        byDir_ev hi, byDir_ev ho, hk, hkx, hky]
      congr 1; funext d; exact byDir_ev hu' d
    · exact h

theorem gridFields_count (colours : Option Nat) (extras : TFields) :
    (gridFields colours extras).variableCount = 20 + 3 * ((colours.getD 1) - 1).size + extras.variableCount := by
  cases colours with
  | none => simp [gridFields, TFields.variableCount, Tmpl.variableCount]; omega
  | some n => simp [gridFields, TFields.variableCount, Tmpl.variableCount]; omega

/-- Every grid of cell values (and extra members) is realised by an assignment; variables outside the grid are free. -/
theorem mkGrid_free (width height : Nat) (edge : EdgeMode) (colours ugLen : Option Nat) (extras : TFields) (s : Nat)
    (v0 : Asg) (C : Nat × Nat → CellVal) (E : Nat × Nat → List Bool)
    (hc : ∀ p, (C p).colour.length = ((colours.getD 1) - 1).size)
    (hx : ∀ p, (C p).colourUx.length = ((colours.getD 1) - 1).size)
    (hy : ∀ p, (C p).colourUy.length = ((colours.getD 1) - 1).size) (hE : ∀ p, (E p).length = extras.variableCount) :
    ∃ v : Asg, (∀ x, x ≤ s ∨ s + height * width * (gridFields colours extras).variableCount < x → v x = v0 x) ∧
      ∀ p, (mkGrid width height edge colours ugLen extras s).In p →
        (mkGrid width height edge colours ugLen extras s).vals v p = C p ∧
        (extras.flatten (toExtras colours extras (cellInstance width colours extras s p.1 p.2))).map (ev v) = E p := by
  obtain ⟨v, h1, h2⟩ := exists_cells v0 width height (gridFields colours extras).variableCount s
    (fun p => (C p).flat ++ E p) (by
      intro p
      simp only [CellVal.flat, bools, List.length_append, List.length_cons, List.length_nil, hc, hx, hy, hE, gridFields_count]
      omega)
  refine ⟨v, h1, fun p hp => ?_⟩
  exact evalTile_flat v colours extras _ (C p) (E p) (hc p) (hx p) (hy p) (h2 p.1 p.2 hp.1 hp.2)

theorem mkGrid_wf {width height : Nat} (hw : 0 < width) (hh : 0 < height) (edge : EdgeMode) (colours ugLen : Option Nat)
    (hn : ∀ n, colours = some n → 1 ≤ n) (extras : TFields) (s : Nat) :
    (mkGrid width height edge colours ugLen extras s).WF := by
  have key : ∀ p, ((mkGrid width height edge colours ugLen extras s).at' p).colour.length = ((colours.getD 1) - 1).size ∧
      ((mkGrid width height edge colours ugLen extras s).at' p).colourUx.length = ((colours.getD 1) - 1).size ∧
      ((mkGrid width height edge colours ugLen extras s).at' p).colourUy.length = ((colours.getD 1) - 1).size := by
    intro p
    cases colours with
    | none => exact ⟨rfl, rfl, rfl⟩
    | some n =>
      simp only [Grid.at', mkGrid, cellInstance, toTileInst, gridFields, TFields.instantiate, Tmpl.instantiate, nextMany_eq,
        Option.getD_some]
      simp
  exact ⟨hw, hh, hn, fun p => (key p).1, fun p => (key p).2.1, fun p => (key p).2.2⟩

end FSat

namespace FSat

/-! ### The meaning of the clauses depends on the cells of the grid only -/

section
variable {g : Grid} {C C' : Nat × Nat → CellVal}

theorem SplitterSem.congr (hg : g.WF) (h : ∀ p, g.In p → C' p = C p) (hs : SplitterSem g C) : SplitterSem g C' := by
  intro d p hp
  have := hs d p hp
  cases hn : g.nb p d.ccw with
  | none => rw [hn] at this; simp only [h p hp]; exact this
  | some q => rw [hn] at this; simp only [h p hp, h q (Grid.nb_in hg hn)]; exact this

theorem InitSem.congr (hg : g.WF) (h : ∀ p, g.In p → C' p = C p) (hs : InitSem g C) : InitSem g C' := by
  refine ⟨fun p hp => ?_, fun p hp => ?_, fun p hp => ?_, fun p hp => ?_, hs.splitter.congr hg h, fun p hp => ?_⟩ <;> rw [h p hp]
  · exact hs.cell p hp
  · exact hs.axisX p hp
  · exact hs.axisY p hp
  · exact hs.range p hp
  · exact hs.io p hp

theorem IntersectionSem.congr (hg : g.WF) (h : ∀ p, g.In p → C' p = C p) (hs : IntersectionSem g C) :
    IntersectionSem g C' := by
  intro d p q hp hq
  rw [h p hp, h q (Grid.nb_in hg hq)]
  exact hs d p q hp hq

theorem UndergroundSem.congr (hg : g.WF) (h : ∀ p, g.In p → C' p = C p) (hs : UndergroundSem g C) :
    UndergroundSem g C' := by
  refine ⟨fun d p hp => ?_, fun d p hp => ?_, fun d p q hp hq => ?_, fun d p q hp hq => ?_, fun d p q hp hq => ?_,
    fun d p q hp hq => ?_⟩
  · rw [h p hp]; exact hs.notIn d p hp
  · rw [h p hp]; exact hs.notOut d p hp
  · rw [h p hp, h q (Grid.nb_in hg hq)]; exact hs.afterIn d p q hp hq
  · rw [h p hp, h q (Grid.nb_in hg hq)]; exact hs.beforeOut d p q hp hq
  · rw [h p hp, h q (Grid.nb_in hg hq)]; exact hs.next d p q hp hq
  · rw [h p hp, h q (Grid.nb_in hg hq)]; exact hs.prev d p q hp hq

theorem LengthSem.congr (hg : g.WF) (h : ∀ p, g.In p → C' p = C p) {L : Nat} (hs : LengthSem g C L) : LengthSem g C' L := by
  intro d p hp hw
  obtain ⟨i, hi, q, hq, hf⟩ := hs d p hp hw
  exact ⟨i, hi, q, hq, by rw [h q (walk_in hg hp hq)]; exact hf⟩

theorem BlockUgSem.congr (h : ∀ p, g.In p → C' p = C p) {e : Edges} (hs : BlockUgSem g e C) : BlockUgSem g e C' := by
  intro p d hp; rw [h p hp]; exact hs p d hp

theorem BlockBeltSem.congr (h : ∀ p, g.In p → C' p = C p) {e : Edges} (hs : BlockBeltSem g e C) : BlockBeltSem g e C' := by
  intro p d hp; rw [h p hp]; exact hs p d hp

theorem ColourSem.congr (hg : g.WF) (h : ∀ p, g.In p → C' p = C p) (hs : ColourSem g C) : ColourSem g C' := by
  refine ⟨fun d p q hp hq => ?_, fun d p q hp hq => ?_, fun d p q hp hq => ?_, fun d p q hp hq => ?_⟩ <;>
    rw [h p hp, h q (Grid.nb_in hg hq)]
  · exact hs.surface d p q hp hq
  · exact hs.under d p q hp hq
  · exact hs.entrance d p q hp hq
  · exact hs.exit d p q hp hq

end

end FSat
