import Verif.Lemmas.Template
import Mathlib.Data.List.Nodup
/-!
# C13, C14, C61: templates, offset lookup and block iteration
-/

set_option linter.unusedSimpArgs false

namespace FSat

/-- C13: instantiating draws exactly `variable_count` new variables: the literals of the instance are positive, pairwise
distinct, and are exactly the variables `s+1 .. s+variable_count`; the pool ends after them. -/
theorem c13_instantiate_fresh (t : Tmpl) (s : Nat) :
    (t.instantiate s).2 = s + t.variableCount ∧
    (t.flatten (t.instantiate s).1).length = t.variableCount ∧
    (t.flatten (t.instantiate s).1).Nodup ∧
    (∀ l, l ∈ t.flatten (t.instantiate s).1 ↔ l.pos = true ∧ s < l.var ∧ l.var ≤ s + t.variableCount) := by
  obtain ⟨h1, h2⟩ := t.instantiate_spec s
  rw [h2]
  exact ⟨h1, by simp, freshLits_nodup _ _, fun l => mem_freshLits⟩

/-- C13: the cells of a grid are pairwise disjoint: no two cells share a variable, and each has `variable_count` of them. -/
theorem c13_grid_disjoint (t : Tmpl) (width height s i j : Nat) (a b : t.Inst)
    (ha : (gridInstances t width height s).1[i]? = some a) (hb : (gridInstances t width height s).1[j]? = some b)
    (hij : i ≠ j) : ∀ l ∈ t.flatten a, ∀ l' ∈ t.flatten b, l.var ≠ l'.var := by
  have hs := fun s => (t.instantiate_spec s).1
  have hlen := (repeatInst_spec t.instantiate t.flatten t.variableCount t.instantiate_spec (height * width) s).2.2
  have hi : i < height * width := by rw [← hlen]; exact (List.getElem?_eq_some_iff.1 ha).1
  have hj : j < height * width := by rw [← hlen]; exact (List.getElem?_eq_some_iff.1 hb).1
  unfold gridInstances at ha hb
  rw [repeatInst_getElem? _ _ hs _ _ _ hi] at ha
  rw [repeatInst_getElem? _ _ hs _ _ _ hj] at hb
  cases ha; cases hb
  intro l hl l' hl'
  rw [(t.instantiate_spec _).2, mem_freshLits] at hl hl'
  intro e
  have key : ∀ p q : Nat, p < q → p * t.variableCount + t.variableCount ≤ q * t.variableCount := by
    intro p q h; rw [← Nat.succ_mul]; exact Nat.mul_le_mul_right _ h
  rcases Nat.lt_or_gt_of_ne hij with h | h
  · have := key i j h; omega
  · have := key j i h; omega

/-- C13: the grid has one instance per cell. -/
theorem c13_grid_size (t : Tmpl) (width height s : Nat) :
    (gridInstances t width height s).1.length = height * width ∧
    (gridInstances t width height s).2 = s + height * width * t.variableCount := by
  have := repeatInst_spec t.instantiate t.flatten t.variableCount t.instantiate_spec (height * width) s
  exact ⟨this.2.2, this.1⟩

/-- C13: parsing an instance under a mapping that gives every variable of the instance its value in `v` succeeds and returns
the value the instance describes under `v`, and that value is unique. -/
theorem c13_parse (t : Tmpl) (ht : t.Proper) (s : Nat) (m : Mapping) (v : Asg)
    (h : ∀ l ∈ t.flatten (t.instantiate s).1, m l.var = some (v l.var)) :
    ∃ x, t.parse m (t.instantiate s).1 = .ok x ∧ t.Means v (t.instantiate s).1 x ∧
      ∀ y, t.Means v (t.instantiate s).1 y → y = x := by
  apply t.parse_ok m v ht s
  intro x h1 h2
  refine h ⟨x, true⟩ ?_
  rw [(t.instantiate_spec s).2, mem_freshLits]
  exact ⟨rfl, h1, h2⟩

/-- C13: the dictionary built from a solver answer gives each listed variable the sign it is listed with. -/
theorem c13_mapping (solution : List Lit) (v : Asg) (h : ∀ l ∈ solution, ev v l = true) (x : Nat) :
    mappingOf solution x = if ∃ l ∈ solution, l.var = x then some (v x) else none := by
  unfold mappingOf
  split
  · rename_i hx
    obtain ⟨l, hl, he⟩ := hx
    have : (solution.reverse.find? fun l => l.var == x).isSome := by
      rw [List.find?_isSome]; exact ⟨l, by simpa using hl, by simpa using he⟩
    obtain ⟨l', hl'⟩ := Option.isSome_iff_exists.1 this
    rw [hl']
    have hm := List.mem_of_find?_eq_some hl'
    have hp := List.find?_some hl'
    simp only [List.mem_reverse] at hm
    simp only [beq_iff_eq] at hp
    have := h l' hm
    simp only [ev, beq_iff_eq, hp] at this
    simp [this]
  · rename_i hx
    simp only [Option.map_eq_none_iff, List.find?_eq_none, List.mem_reverse, beq_iff_eq]
    intro l hl he; exact hx ⟨l, hl, he⟩

/-- A template with every kind of member, as in the grid of the power-of-two balancer and friends. -/
def exampleTemplate : Tmpl :=
  .composite (.cons "is_belt" .bool (.cons "underground" (.array .bool [4]) (.cons "direction" (.oneHot 4)
    (.cons "colour" (.number 3 false) (.cons "flow" (.array (.number 2 true) [2, 3]) (.cons "set" (.manyHot 2) .nil))))))

example : exampleTemplate.Proper := by simp [exampleTemplate, Tmpl.Proper, TFields.Proper]
example : exampleTemplate.variableCount = 1 + 4 + 4 + 3 + 12 + 2 := by
  simp [exampleTemplate, Tmpl.variableCount, TFields.variableCount]
example : (gridInstances exampleTemplate 3 2 7).1.length = 6 := (c13_grid_size _ _ _ _).1

/-! ### C14 -/

/-- What a coordinate `p` (any integer) denotes on one axis of the given size: itself when inside; on a wrapping axis the
representative modulo the size; nothing otherwise. -/
def AxisAt (wrap : Bool) (size : Nat) (p : Int) (a : Nat) : Prop :=
  a < size ∧ (if wrap then ∃ k : Int, p = a + k * size else p = a)

theorem wrapPos_iff (wrap : Bool) (size : Nat) (hs : 0 < size) (p : Int) :
    (∀ q, wrapPos wrap size p = some q → 0 ≤ q ∧ q < size ∧ AxisAt wrap size p q.toNat) ∧
    (wrapPos wrap size p = none → ∀ a, ¬ AxisAt wrap size p a) := by
  unfold wrapPos AxisAt
  have hs' : (0 : Int) < size := by omega
  have hm0 := Int.emod_nonneg p (by omega : (size : Int) ≠ 0)
  have hm1 := Int.emod_lt_of_pos p hs'
  constructor
  · intro q hq
    split_ifs at hq with h1 h2
    · cases hq
      refine ⟨hm0, hm1, by omega, ?_⟩
      rw [if_pos h2]
      refine ⟨p / size, ?_⟩
      have := Int.emod_add_mul_ediv p size
      rw [Int.toNat_of_nonneg hm0, Int.mul_comm]; omega
    · cases hq
      refine ⟨by omega, by omega, by omega, ?_⟩
      split
      · exact ⟨0, by omega⟩
      · omega
  · intro hn a ha
    split_ifs at hn with h1 h2
    rw [if_neg h2] at ha
    omega

theorem AxisAt_unique {wrap : Bool} {size : Nat} {p : Int} {a b : Nat} (ha : AxisAt wrap size p a) (hb : AxisAt wrap size p b) :
    a = b := by
  obtain ⟨ha1, ha2⟩ := ha
  obtain ⟨hb1, hb2⟩ := hb
  cases wrap with
  | false => simp at ha2 hb2; omega
  | true =>
    simp at ha2 hb2
    obtain ⟨k, hk⟩ := ha2
    obtain ⟨l, hl⟩ := hb2
    have h1 : (a : Int) % size = p % size := by rw [hk, Int.add_mul_emod_self_right]
    have h2 : (b : Int) % size = p % size := by rw [hl, Int.add_mul_emod_self_right]
    rw [Int.emod_eq_of_lt (by omega) (by omega)] at h1 h2
    omega

/-- C14: the lookup never fails and returns exactly the cell that the offset position denotes on both axes, `None` when it
denotes none. -/
theorem c14_offset (width height : Nat) (hw : 0 < width) (hh : 0 < height) (edge : EdgeMode) (x y dx dy : Int) :
    ∃ r, offsetPos width height edge x y dx dy = .ok r ∧
      ∀ a b, r = some (a, b) ↔ AxisAt edge.wrapX width (x + dx) a ∧ AxisAt edge.wrapY height (y + dy) b := by
  unfold offsetPos
  have hX := wrapPos_iff edge.wrapX width hw (x + dx)
  have hY := wrapPos_iff edge.wrapY height hh (y + dy)
  cases hx : wrapPos edge.wrapX width (x + dx) with
  | none =>
    refine ⟨none, rfl, fun a b => ?_⟩
    simp only [reduceCtorEq, false_iff, not_and]
    intro h; exact absurd h (hX.2 hx a)
  | some x' =>
    cases hy : wrapPos edge.wrapY height (y + dy) with
    | none =>
      refine ⟨none, rfl, fun a b => ?_⟩
      simp only [reduceCtorEq, false_iff, not_and]
      intro _ h; exact absurd h (hY.2 hy b)
    | some y' =>
      obtain ⟨h1, h2, h3⟩ := hX.1 x' hx
      obtain ⟨h4, h5, h6⟩ := hY.1 y' hy
      refine ⟨some (x'.toNat, y'.toNat), ?_, fun a b => ?_⟩
      · simp only [getPos]; rw [if_pos ⟨h1, h4, h2, h5⟩]
      · simp only [Option.some.injEq, Prod.mk.injEq]
        constructor
        · rintro ⟨rfl, rfl⟩; exact ⟨h3, h6⟩
        · rintro ⟨ha, hb⟩; exact ⟨AxisAt_unique h3 ha, AxisAt_unique h6 hb⟩

example : offsetPos 5 3 ⟨true, false⟩ 1 2 (-4) (-1) = .ok (some (2, 1)) := by decide
example : offsetPos 5 3 ⟨true, false⟩ 1 2 0 1 = .ok none := by decide

/-! ### C61 -/

/-- The anchor `(x, y)` and the far corner `(x + ox, y + oy)` lie within the bounds. -/
def WithinBounds (minX minY maxX maxY : Option Int) (ox oy x y : Int) : Prop :=
  (∀ m, minX = some m → m ≤ x ∧ m ≤ x + ox) ∧ (∀ m, minY = some m → m ≤ y ∧ m ≤ y + oy) ∧
  (∀ m, maxX = some m → x ≤ m ∧ x + ox ≤ m) ∧ (∀ m, maxY = some m → y ≤ m ∧ y + oy ≤ m)

/-- C61 is false of the code: with a bound on `y` a block sticking out of the bounds is visited, because the far corner's row is
computed from `x`. -/
theorem c61_blocks_refuted : ∃ blocks,
    iterateTileBlocks 2 3 ⟨false, false⟩ (1, 0) 1 (0, 1) 2 none none none (some 1) = .ok blocks ∧
    (∃ b ∈ blocks, b.1 = (0, 1)) ∧ ¬ WithinBounds none none none (some 1) 0 1 0 1 := by
  refine ⟨_, rfl, ⟨_, List.mem_of_getElem? (i := 1) rfl, rfl⟩, ?_⟩
  rintro ⟨_, _, _, h⟩
  have := h 1 rfl
  omega

/-- C61 also fails in the other direction: with a lower bound on `y` a block inside the bounds is not visited. -/
theorem c61_blocks_missed_refuted :
    iterateTileBlocks 1 4 ⟨false, false⟩ (1, 0) 1 (0, 1) 2 none (some 2) none none = .ok [] ∧
    WithinBounds none (some 2) none none 0 1 0 2 := by
  exact ⟨rfl, by simp, by simp, by simp, by simp⟩

/-- C61 without bounds on `y` (the part that holds): the anchors visited are exactly the cells of the grid whose block lies
within the bounds, each once, and the block lists the tiles at the offsets of its rows and columns.
Missing: bounds on `y`, for which the claim is false. -/
theorem c61_blocks_partial (width height : Nat) (edge : EdgeMode) (c r : Int × Int) (cc rc : Nat)
    (hc : c.1.natAbs + c.2.natAbs = 1) (hr : r.1.natAbs + r.2.natAbs = 1) (hcc : 0 < cc) (hrc : 0 < rc)
    (minX maxX : Option Int) :
    ∃ blocks, iterateTileBlocks width height edge c cc r rc minX none maxX none = .ok blocks ∧
      (blocks.map (·.1)).Nodup ∧
      (∀ x y, (x, y) ∈ blocks.map (·.1) ↔ x < width ∧ y < height ∧
        WithinBounds minX none maxX none (r.1 * ((rc : Int) - 1) + c.1 * ((cc : Int) - 1))
          (r.2 * ((rc : Int) - 1) + c.2 * ((cc : Int) - 1)) x y) ∧
      (∀ b ∈ blocks, ∀ row col, row < rc → col < cc → ((b.2.getD row []).getD col (.error .indexError)) =
        offsetPos width height edge b.1.1 b.1.2 (r.1 * row + c.1 * col) (r.2 * row + c.2 * col)) := by
  unfold iterateTileBlocks
  rw [if_neg (by omega), if_neg (by omega), if_neg (by omega), if_neg (by omega)]
  refine ⟨_, rfl, ?_, ?_, ?_⟩
  · rw [List.map_flatMap]
    simp only [List.map_flatMap]
    rw [List.nodup_flatMap]
    refine ⟨fun x _ => ?_, ?_⟩
    · rw [List.nodup_flatMap]
      refine ⟨fun y _ => by split <;> simp, ?_⟩
      refine (List.nodup_range).imp ?_
      intro y y' hy
      simp only [Function.onFun]
      split <;> split <;> simp [List.disjoint_left, Ne.symm hy]
    · refine (List.nodup_range).imp ?_
      intro x x' hx
      simp only [Function.onFun, List.disjoint_left, List.mem_flatMap]
      rintro p ⟨y, _, hp⟩ ⟨y', _, hp'⟩
      split at hp <;> split at hp' <;> simp at hp hp'
      subst hp; simp at hp'; exact hx hp'.1
  · intro x y
    simp only [List.mem_map, List.mem_flatMap, List.mem_range]
    have hb : blockAllowed (r.1 * ((rc : Int) - 1) + c.1 * ((cc : Int) - 1)) (r.2 * ((rc : Int) - 1) + c.2 * ((cc : Int) - 1))
        minX none maxX none x y = true ↔
        WithinBounds minX none maxX none (r.1 * ((rc : Int) - 1) + c.1 * ((cc : Int) - 1))
          (r.2 * ((rc : Int) - 1) + c.2 * ((cc : Int) - 1)) x y := by
      unfold blockAllowed WithinBounds
      cases minX <;> cases maxX <;> simp
    constructor
    · rintro ⟨b, ⟨x', hx', y', hy', hm⟩, e⟩
      split at hm
      · simp at hm; subst hm; simp at e; obtain ⟨rfl, rfl⟩ := e
        rename_i h
        exact ⟨hx', hy', hb.1 h⟩
      · simp at hm
    · rintro ⟨hx, hy, hw⟩
      refine Exists.intro ((x, y), (List.range rc).map fun (row : Nat) => (List.range cc).map fun (col : Nat) =>
        offsetPos width height edge x y (r.1 * row + c.1 * col) (r.2 * row + c.2 * col)) ⟨⟨x, hx, y, hy, ?_⟩, rfl⟩
      rw [if_pos (hb.2 hw)]
      exact List.mem_singleton.2 rfl
  · intro b hb row col hrow hcol
    simp only [List.mem_flatMap, List.mem_range] at hb
    obtain ⟨x, _, y, _, hm⟩ := hb
    split at hm
    · simp at hm; subst hm
      simp [List.getD_eq_getElem?_getD, hrow, hcol]
    · simp at hm

example : (1 : Int).natAbs + (0 : Int).natAbs = 1 ∧ (0 : Int).natAbs + (-1 : Int).natAbs = 1 := by decide

/-- C61: the lines begin once at every cell of the grid, and their tiles lie one after another in the direction; a place outside the grid
has no tile where the grid does not wrap around. -/
theorem c61_lines (width height : Nat) (hw : 0 < width) (hh : 0 < height) (edge : EdgeMode) (dx dy : Int) (h : dx.natAbs + dy.natAbs = 1)
    (length : Nat) (hl : 0 < length) :
    ∃ lines, iterateTileLines width height edge dx dy length = .ok lines ∧ lines.length = width * height ∧
      ∀ x y, x < width → y < height → ∃ line, lines[x * height + y]? = some line ∧ line.length = length ∧
        ∀ i, i < length → ∃ r, line[i]? = some (.ok r) ∧
          ∀ a b, r = some (a, b) ↔ AxisAt edge.wrapX width (x + dx * i) a ∧ AxisAt edge.wrapY height (y + dy * i) b := by
  unfold iterateTileLines
  rw [if_neg (by omega), if_neg (by omega)]
  have hlen : ∀ (g : Nat → Nat → List (Except PyErr (Option (Nat × Nat)))) (n : Nat),
      ((List.range n).flatMap fun x => (List.range height).map fun y => g x y).length = n * height := by
    intro g n
    simp [List.length_flatMap]
  have hget : ∀ (g : Nat → Nat → List (Except PyErr (Option (Nat × Nat)))) (n x y : Nat), x < n → y < height →
      ((List.range n).flatMap fun x => (List.range height).map fun y => g x y)[x * height + y]? = some (g x y) := by
    intro g n
    induction n with
    | zero => intro x y h; omega
    | succ n ih =>
      intro x y hx hy
      rw [List.range_succ, List.flatMap_append]
      by_cases hn : x < n
      · rw [List.getElem?_append_left, ih x y hn hy]
        rw [hlen]
        calc x * height + y < x * height + height := by omega
          _ = (x + 1) * height := by ring
          _ ≤ n * height := Nat.mul_le_mul_right _ hn
      · have : x = n := by omega
        subst this
        rw [List.getElem?_append_right (by rw [hlen]; omega), hlen]
        simp [hy]
  refine ⟨_, rfl, hlen _ _, fun x y hx hy => ⟨_, hget _ _ x y hx hy, by simp, fun i hi => ?_⟩⟩
  obtain ⟨r, h1, h2⟩ := c14_offset width height hw hh edge x y (dx * i) (dy * i)
  exact ⟨r, by simp [hi, h1], h2⟩

/-- C61: a direction that is not one step along an axis, and the length 0, are rejected. -/
theorem c61_lines_error (width height : Nat) (edge : EdgeMode) (dx dy : Int) (length : Nat) (h : dx.natAbs + dy.natAbs ≠ 1 ∨ length = 0) :
    iterateTileLines width height edge dx dy length = .error .assertion := by
  unfold iterateTileLines
  by_cases h1 : dx.natAbs + dy.natAbs ≠ 1
  · rw [if_pos h1]
  · rw [if_neg h1, if_pos (h.resolve_left h1)]

example : iterateTileLines 2 1 ⟨true, false⟩ 1 0 2 = .ok [[.ok (some (0, 0)), .ok (some (1, 0))], [.ok (some (1, 0)), .ok (some (0, 0))]] := rfl

end FSat
