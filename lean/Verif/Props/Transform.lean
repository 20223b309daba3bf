import Verif.Lemmas.Tile
/-!
# C40, C41, C42: rotations, flips and the JSON form of tiles
-/

set_option linter.unusedSimpArgs false

namespace FSat

/-- All tiles of the array were built by their constructors. -/
def Arr.AllValid (a : Arr Tile) : Prop := ∀ i j, (a.get i j).Valid

/-- `op.apply a` raised for no cell and produced `b`. -/
def Operation.Produces (op : Operation) (a b : Arr Tile) : Prop := op.apply a = b.map .ok

/-- A layout used by the examples: splitter halves, a belt turn, an underground exit and an inserter. -/
def exampleLayout : Arr Tile :=
  ⟨2, 3, fun i j => ([[Tile.splitter .up true, .belt .up .right, .belt .right .right],
    [.splitter .up false, .underground .up false, .inserter .down 1]].getD i []).getD j .empty⟩

theorem Operation.produces_map (op : Operation) (a : Arr Tile) (h : a.AllValid) :
    op.Produces a ((op.grid a).map op.tileMap) := by
  unfold Operation.Produces Operation.apply
  cases op <;> simp only [Arr.map, Operation.grid, Arr.rot90, Arr.rot180, Arr.rot270, Arr.flipX, Arr.flipY]
  all_goals
    congr 1
    funext i j
    exact Operation.cell_eq _ _ (h _ _)

theorem Arr.map_ok_inj {a b : Arr Tile} (h : a.map (Except.ok (ε := PyErr)) = b.map .ok) : a = b := by
  obtain ⟨r, c, f⟩ := a; obtain ⟨r', c', f'⟩ := b
  simp only [Arr.map, Arr.mk.injEq] at h
  obtain ⟨rfl, rfl, h⟩ := h
  congr 1; funext i j
  have := congrFun (congrFun (eq_of_heq h) i) j
  simpa using this

theorem Operation.produces_iff (op : Operation) (a b : Arr Tile) (h : a.AllValid) :
    op.Produces a b ↔ b = (op.grid a).map op.tileMap := by
  constructor
  · intro hb
    exact Arr.map_ok_inj (hb.symm.trans (op.produces_map a h))
  · rintro rfl; exact op.produces_map a h

theorem Operation.valid_map (op : Operation) (a : Arr Tile) (h : a.AllValid) : ((op.grid a).map op.tileMap).AllValid := by
  intro i j
  cases op <;> exact Operation.tileMap_valid _ _ (h _ _)

/-- C40: transforming a layout never raises, and all resulting tiles are valid again. -/
theorem c40_never_raises (op : Operation) (a : Arr Tile) (h : a.AllValid) : ∃ b, op.Produces a b ∧ b.AllValid :=
  ⟨_, op.produces_map a h, op.valid_map a h⟩

example : exampleLayout.AllValid := by
  intro i j
  have : ∀ i : Fin 2, ∀ j : Fin 3, Tile.Valid (exampleLayout.get i j) := by
    unfold exampleLayout; decide
  exact this i j

/-- C40: geometry of the operations: running one after the other is the third. -/
theorem c40_compose (a b c : Arr Tile) (h : a.AllValid) :
    (Operation.Produces .rot90 a b → Operation.Produces .rot90 b c → Operation.Produces .rot180 a c) ∧
    (Operation.Produces .rot180 a b → Operation.Produces .rot90 b c → Operation.Produces .rot270 a c) ∧
    (Operation.Produces .rot270 a b → Operation.Produces .rot90 b c → c = a) ∧
    (Operation.Produces .rot180 a b → Operation.Produces .rot180 b c → c = a) ∧
    (Operation.Produces .flipX a b → Operation.Produces .flipX b c → c = a) ∧
    (Operation.Produces .flipY a b → Operation.Produces .flipY b c → c = a) ∧
    (Operation.Produces .flipX a b → Operation.Produces .flipY b c → Operation.Produces .rot180 a c) ∧
    (Operation.Produces .noOp a b → b = a) := by
  have tm : ∀ (o1 o2 o3 : Operation), (∀ d, o2.dir (o1.dir d) = o3.dir d) →
      ((o1.mirrors != o2.mirrors) = o3.mirrors) → ∀ t, o2.tileMap (o1.tileMap t) = o3.tileMap t := by
    intro o1 o2 o3 hd hm t
    cases t <;> simp [Operation.tileMap, hd, ← hm]
  have idm : ∀ t, Operation.noOp.tileMap t = t := by
    intro t; cases t <;> simp [Operation.tileMap, Operation.dir, Operation.mirrors]
  refine ⟨?_, ?_, ?_, ?_, ?_, ?_, ?_, ?_⟩
  · intro hb hc
    rw [Operation.produces_iff _ _ _ h] at hb ⊢; subst hb
    rw [Operation.produces_iff _ _ _ (Operation.valid_map _ _ h)] at hc; subst hc
    simp only [Arr.map, Operation.grid, Arr.rot90, Arr.rot180]
    congr 1; funext i j
    rw [tm .rot90 .rot90 .rot180 (by intro d; cases d <;> rfl) rfl]
  · intro hb hc
    rw [Operation.produces_iff _ _ _ h] at hb ⊢; subst hb
    rw [Operation.produces_iff _ _ _ (Operation.valid_map _ _ h)] at hc; subst hc
    simp only [Arr.map, Operation.grid, Arr.rot90, Arr.rot180, Arr.rot270]
    congr 1; funext i j
    rw [tm .rot180 .rot90 .rot270 (by intro d; cases d <;> rfl) rfl]
    simp
  · intro hb hc
    rw [Operation.produces_iff _ _ _ h] at hb; subst hb
    rw [Operation.produces_iff _ _ _ (Operation.valid_map _ _ h)] at hc; subst hc
    simp only [Arr.map, Operation.grid, Arr.rot90, Arr.rot180, Arr.rot270]
    congr 1; funext i j
    rw [tm .rot270 .rot90 .noOp (by intro d; cases d <;> rfl) rfl, idm]; simp
  · intro hb hc
    rw [Operation.produces_iff _ _ _ h] at hb; subst hb
    rw [Operation.produces_iff _ _ _ (Operation.valid_map _ _ h)] at hc; subst hc
    simp only [Arr.map, Operation.grid, Arr.rot90, Arr.rot180, Arr.rot270]
    congr 1; funext i j
    rw [tm .rot180 .rot180 .noOp (by intro d; cases d <;> rfl) rfl, idm]; simp
  · intro hb hc
    rw [Operation.produces_iff _ _ _ h] at hb; subst hb
    rw [Operation.produces_iff _ _ _ (Operation.valid_map _ _ h)] at hc; subst hc
    simp only [Arr.map, Operation.grid, Arr.flipX]
    congr 1; funext i j
    rw [tm .flipX .flipX .noOp (by intro d; cases d <;> rfl) rfl, idm]; simp
  · intro hb hc
    rw [Operation.produces_iff _ _ _ h] at hb; subst hb
    rw [Operation.produces_iff _ _ _ (Operation.valid_map _ _ h)] at hc; subst hc
    simp only [Arr.map, Operation.grid, Arr.flipY]
    congr 1; funext i j
    rw [tm .flipY .flipY .noOp (by intro d; cases d <;> rfl) rfl, idm]; simp
  · intro hb hc
    rw [Operation.produces_iff _ _ _ h] at hb ⊢; subst hb
    rw [Operation.produces_iff _ _ _ (Operation.valid_map _ _ h)] at hc; subst hc
    simp only [Arr.map, Operation.grid, Arr.flipX, Arr.flipY, Arr.rot180]
    congr 1; funext i j
    rw [tm .flipX .flipY .rot180 (by intro d; cases d <;> rfl) rfl]
  · intro hb
    rw [Operation.produces_iff _ _ _ h] at hb; subst hb
    obtain ⟨r, c, f⟩ := a
    simp only [Arr.map, Operation.grid]
    congr 1; funext i j; exact idm _

/-- C40: `flip_y` is a quarter turn, `flip_x`, and the inverse turn. -/
theorem c40_flip_y_conjugate (a b c d : Arr Tile) (h : a.AllValid) (hb : Operation.Produces .rot90 a b)
    (hc : Operation.Produces .flipX b c) (hd : Operation.Produces .rot270 c d) : Operation.Produces .flipY a d := by
  rw [Operation.produces_iff _ _ _ h] at hb ⊢; subst hb
  rw [Operation.produces_iff _ _ _ (Operation.valid_map _ _ h)] at hc; subst hc
  rw [Operation.produces_iff _ _ _ (Operation.valid_map _ _ (Operation.valid_map _ _ h))] at hd; subst hd
  simp only [Arr.map, Operation.grid, Arr.rot90, Arr.flipX, Arr.rot270, Arr.flipY]
  congr 1; funext i j
  have hd : ∀ d : Dir, Operation.rot270.dir (Operation.flipX.dir (Operation.rot90.dir d)) = Operation.flipY.dir d := by
    intro d; cases d <;> rfl
  have ht : ∀ t, Operation.rot270.tileMap (Operation.flipX.tileMap (Operation.rot90.tileMap t)) = Operation.flipY.tileMap t := by
    intro t; cases t <;> simp [Operation.tileMap, Operation.mirrors, hd]
  rw [ht, Fin.rev_rev]

/-- C40: surface connections are carried along by every operation. -/
theorem c40_connections (op : Operation) (a b : Arr Tile) (h : a.AllValid) (hb : op.Produces a b) (p q : Int × Int) (d : Dir) :
    Connected planeNb b.board (op.pos a.cols a.rows p) (op.pos a.cols a.rows q) (op.dir d) ↔
      Connected planeNb a.board p q d := by
  rw [op.produces_iff _ _ h] at hb; subst hb
  simp only [Connected, op.board, op.emits, op.takes, op.pos_nb]
  rw [Option.map_eq_some_inj (fun e => op.pos_inj _ _ e)]

/-- C40: underground pairs are carried along by every operation, with the same length. -/
theorem c40_underground_pairs (op : Operation) (a b : Arr Tile) (h : a.AllValid) (hb : op.Produces a b)
    (p q : Int × Int) (d : Dir) (k : Nat) :
    UgPair planeNb b.board (op.pos a.cols a.rows p) (op.pos a.cols a.rows q) (op.dir d) k ↔
      UgPair planeNb a.board p q d k := by
  rw [op.produces_iff _ _ h] at hb; subst hb
  simp only [UgPair, op.board, op.pos_walk, op.tileMap_ug]
  rw [Option.map_eq_some_inj (fun e => op.pos_inj _ _ e)]
  simp only [Option.map_eq_some_iff, forall_exists_index, and_imp]
  constructor
  · rintro ⟨h1, h2, h3, h4, h5⟩
    refine ⟨h1, h2, h3, h4, fun i hi hk r hr hu => h5 i hi hk _ r hr rfl ?_⟩
    rw [op.board, op.ugAlong]; exact hu
  · rintro ⟨h1, h2, h3, h4, h5⟩
    refine ⟨h1, h2, h3, h4, fun i hi hk r r' hr e hu => h5 i hi hk r' hr ?_⟩
    subst e; rw [op.board, op.ugAlong] at hu; exact hu

/-- C40: splitter halves stay paired; mirror operations exchange head and tail. -/
theorem c40_splitter_pairs (op : Operation) (a b : Arr Tile) (h : a.AllValid) (hb : op.Produces a b)
    (p q : Int × Int) (d : Dir) :
    SplitterPair planeNb a.board p q d ↔
      (if op.mirrors then SplitterPair planeNb b.board (op.pos a.cols a.rows q) (op.pos a.cols a.rows p) (op.dir d)
      else SplitterPair planeNb b.board (op.pos a.cols a.rows p) (op.pos a.cols a.rows q) (op.dir d)) := by
  have rev : ∀ (p q : Int × Int) (d : Dir), planeNb p d = some q ↔ planeNb q d.opp = some p := by
    intro p q d
    obtain ⟨x, y⟩ := p; obtain ⟨x', y'⟩ := q
    cases d <;> simp [planeNb, Dir.opp] <;> omega
  rw [op.produces_iff _ _ h] at hb; subst hb
  simp only [SplitterPair, op.board, op.tileMap_splitter, op.dir_ccw]
  cases hm : op.mirrors
  · simp only [op.pos_nb, Bool.false_eq_true, if_false, Bool.bne_false]
    rw [Option.map_eq_some_inj (fun e => op.pos_inj _ _ e)]
  · simp only [op.pos_nb, if_true]
    rw [Option.map_eq_some_inj (fun e => op.pos_inj _ _ e), rev p q]
    simp only [Bool.bne_true, Bool.not_true, Bool.not_false]
    tauto

example : SplitterPair planeNb (⟨1, 2, fun _ j => .splitter .down (j = 0)⟩ : Arr Tile).board (0, 0) (1, 0) .down := by
  refine ⟨?_, rfl, ?_⟩ <;> decide
example : Connected planeNb exampleLayout.board (1, 1) (1, 0) .up := by
  refine ⟨rfl, ?_, ?_⟩ <;> decide
example : UgPair planeNb (⟨1, 3, fun _ j => if j = 0 then .underground .right true else if j = 1 then .empty
    else .underground .right false⟩ : Arr Tile).board (0, 0) (2, 0) .right 2 := by
  refine ⟨by decide, by decide, by decide, by decide, ?_⟩
  intro i h1 h2 r hr
  obtain rfl : i = 1 := by omega
  obtain rfl : r = (1, 0) := by simpa [walk, planeNb] using hr.symm
  decide

/-! ### C41 -/

/-- Every assembling machine cell is surrounded by the other cells of its machine, at the offsets it stores. -/
def MachinesIntact (B : Int × Int → Tile) : Prop :=
  ∀ x y i j : Int, B (x, y) = .assembler i j → ∀ i' j' : Int, 0 ≤ i' → i' < 3 → 0 ≤ j' → j' < 3 →
    B (x - i + i', y - j + j') = .assembler i' j'

/-- C41 is false of the code: every operation except `no_op` breaks every layout that contains a machine. -/
theorem c41_machines_refuted (op : Operation) (hop : op ≠ .noOp) (a b : Arr Tile) (h : a.AllValid) (hb : op.Produces a b)
    (hi : MachinesIntact a.board) (hm : ∃ p i j, a.board p = .assembler i j) : ¬ MachinesIntact b.board := by
  rw [op.produces_iff _ _ h] at hb; subst hb
  intro hi'
  obtain ⟨⟨x, y⟩, i, j, hp⟩ := hm
  have key : ∀ s t : Int, 0 ≤ s → s < 3 → 0 ≤ t → t < 3 →
      ((op.grid a).map op.tileMap).board (op.pos a.cols a.rows (x - i + s, y - j + t)) = .assembler s t := by
    intro s t h1 h2 h3 h4
    rw [op.board, hi x y i j hp s t h1 h2 h3 h4]; rfl
  have k00 := key 0 0 (by omega) (by omega) (by omega) (by omega)
  have k10 := key 1 0 (by omega) (by omega) (by omega) (by omega)
  have k01 := key 0 1 (by omega) (by omega) (by omega) (by omega)
  have fin : ∀ (s t s' t' : Int), 0 ≤ s' → s' < 3 → 0 ≤ t' → t' < 3 → ¬ (s' = 0 ∧ t' = 0) →
      ((op.grid a).map op.tileMap).board (op.pos a.cols a.rows (x - i + s, y - j + t)) = .assembler s t →
      (op.pos a.cols a.rows (x - i + s, y - j + t)).1 - s + s' = (op.pos a.cols a.rows (x - i + 0, y - j + 0)).1 →
      (op.pos a.cols a.rows (x - i + s, y - j + t)).2 - t + t' = (op.pos a.cols a.rows (x - i + 0, y - j + 0)).2 → False := by
    intro s t s' t' h1 h2 h3 h4 hne hk e1 e2
    have := hi' (op.pos a.cols a.rows (x - i + s, y - j + t)).1 (op.pos a.cols a.rows (x - i + s, y - j + t)).2
      s t hk s' t' h1 h2 h3 h4
    rw [e1, e2] at this
    have := k00.symm.trans this
    simp only [Tile.assembler.injEq] at this
    omega
  cases op
  · exact hop rfl
  · exact fin 1 0 1 1 (by omega) (by omega) (by omega) (by omega) (by omega) k10 (by simp [Operation.pos]) (by simp [Operation.pos]; omega)
  · exact fin 1 0 2 0 (by omega) (by omega) (by omega) (by omega) (by omega) k10 (by simp [Operation.pos]; omega) (by simp [Operation.pos])
  · exact fin 0 1 1 1 (by omega) (by omega) (by omega) (by omega) (by omega) k01 (by simp [Operation.pos]; omega) (by simp [Operation.pos])
  · exact fin 1 0 2 0 (by omega) (by omega) (by omega) (by omega) (by omega) k10 (by simp [Operation.pos]; omega) (by simp [Operation.pos])
  · exact fin 0 1 0 2 (by omega) (by omega) (by omega) (by omega) (by omega) k01 (by simp [Operation.pos]) (by simp [Operation.pos]; omega)

/-- C41, the part that holds: `no_op`, and any operation on a layout without machines.
Missing: every other operation on a layout with a machine, for which the claim is false. -/
theorem c41_machines_partial (op : Operation) (a b : Arr Tile) (h : a.AllValid) (hb : op.Produces a b)
    (hi : MachinesIntact a.board) (hop : op = .noOp ∨ ∀ p i j, a.board p ≠ .assembler i j) : MachinesIntact b.board := by
  rcases hop with rfl | hn
  · have := (c40_compose a b b h).2.2.2.2.2.2.2 hb
    rw [this]; exact hi
  · rw [op.produces_iff _ _ h] at hb; subst hb
    intro x y i j hxy
    exfalso
    have hs : ∃ p, op.pos a.cols a.rows p = (x, y) := by
      cases op
      · exact ⟨(x, y), rfl⟩
      · exact ⟨(a.cols - 1 - y, x), by simp [Operation.pos]⟩
      · exact ⟨(a.cols - 1 - x, a.rows - 1 - y), by simp [Operation.pos]⟩
      · exact ⟨(y, a.rows - 1 - x), by simp [Operation.pos]⟩
      · exact ⟨(a.cols - 1 - x, y), by simp [Operation.pos]⟩
      · exact ⟨(x, a.rows - 1 - y), by simp [Operation.pos]⟩
    obtain ⟨p, hp⟩ := hs
    rw [← hp, op.board] at hxy
    cases ht : a.board p <;> rw [ht] at hxy <;> simp [Operation.tileMap] at hxy
    exact hn p _ _ ht

/-- A single machine on its own. -/
def machineLayout : Arr Tile := ⟨3, 3, fun i j => .assembler j i⟩

example : machineLayout.AllValid := by
  intro i j; show Tile.Valid (.assembler j i); simp only [Tile.Valid]
  have := i.2; have := j.2; simp only [machineLayout] at *; omega
example : MachinesIntact machineLayout.board := by
  intro x y i j h i' j' h1 h2 h3 h4
  unfold Arr.board at h
  split at h
  · rename_i hb
    simp only [machineLayout] at hb
    simp only [machineLayout, Tile.assembler.injEq] at h
    obtain ⟨e1, e2⟩ := h
    have hx : i = x := by omega
    have hy : j = y := by omega
    subst hx; subst hy
    unfold Arr.board
    rw [dif_pos (by simp [machineLayout]; omega)]
    simp only [machineLayout, Tile.assembler.injEq]; omega
  · simp at h
example : ∃ p i j, machineLayout.board p = .assembler i j := ⟨(0, 0), 0, 0, by decide⟩

/-! ### C42 -/

/-- C42: reading back the JSON form of a tile yields the tile. -/
theorem c42_read_write (t : Tile) (h : t.Valid) : Tile.read t.write = .ok t := by
  cases t with
  | belt i o =>
    simp only [Tile.Valid] at h
    simp [Tile.read, Tile.write, JObj.get, JObj.getDir, JObj.getInt, List.lookup, Dir.ofInt_value, Tile.mkBelt, bind,
      Except.bind, h]
    intro h'; simp at h; exact absurd h' h
  | assembler x y =>
    simp only [Tile.Valid] at h
    simp [Tile.read, Tile.write, JObj.get, JObj.getInt, List.lookup, Tile.mkAssembler, bind, Except.bind]
    rw [if_neg (by omega), if_neg (by omega)]
  | _ => simp [Tile.read, Tile.write, JObj.get, JObj.getDir, JObj.getInt, JObj.getBool, List.lookup, Dir.ofInt_value, bind, Except.bind]

/-- C42: whatever `read` accepts is a tile that `write` can produce: a valid tile, whose `write` agrees with the input on
every key that `write` emits. -/
theorem c42_read_sound (d : JObj) (t : Tile) (h : Tile.read d = .ok t) :
    t.Valid ∧ ∀ kv ∈ t.write, d.lookup kv.1 = some kv.2 := by
  have hget : ∀ k x, JObj.get d k = .ok x → d.lookup k = some x := by
    intro k x hx; unfold JObj.get at hx; split at hx <;> simp_all
  have hint : ∀ k x, JObj.getInt d k = .ok x → d.lookup k = some (.int x) := by
    intro k x hx; unfold JObj.getInt at hx; split at hx <;> simp_all
  have hbool : ∀ k x, JObj.getBool d k = .ok x → d.lookup k = some (.bool x) := by
    intro k x hx; unfold JObj.getBool at hx; split at hx <;> simp_all
  have hdir : ∀ k x, JObj.getDir d k = .ok x → d.lookup k = some (.int x.value) := by
    intro k x hx; unfold JObj.getDir at hx
    split at hx
    · simp at hx
    · rename_i n hn; rw [hint _ _ hn, Dir.ofInt_ok hx]
  unfold Tile.read at h
  simp only [bind, Except.bind] at h
  cases hk : JObj.get d "type" with
  | error e => rw [hk] at h; simp at h
  | ok ty =>
    rw [hk] at h
    have hty := hget _ _ hk
    simp only at h
    split at h
    · cases h; exact ⟨trivial, by simp [Tile.write, hty]⟩
    · cases h; exact ⟨trivial, by simp [Tile.write, hty]⟩
    · cases h1 : JObj.getDir d "input_direction" <;> rw [h1] at h <;> simp only at h <;> try cases h
      cases h2 : JObj.getDir d "output_direction" <;> rw [h2] at h <;> simp only at h <;> try cases h
      unfold Tile.mkBelt at h
      split at h <;> cases h
      rename_i hne
      exact ⟨hne, by simp [Tile.write, hty, hdir _ _ h1, hdir _ _ h2]⟩
    · cases h1 : JObj.getDir d "direction" <;> rw [h1] at h <;> simp only at h <;> try cases h
      cases h2 : JObj.getBool d "is_input" <;> rw [h2] at h <;> simp only at h <;> try cases h
      exact ⟨trivial, by simp [Tile.write, hty, hdir _ _ h1, hbool _ _ h2]⟩
    · cases h1 : JObj.getDir d "direction" <;> rw [h1] at h <;> simp only at h <;> try cases h
      cases h2 : JObj.getBool d "is_head" <;> rw [h2] at h <;> simp only at h <;> try cases h
      exact ⟨trivial, by simp [Tile.write, hty, hdir _ _ h1, hbool _ _ h2]⟩
    · cases h1 : JObj.getDir d "direction" <;> rw [h1] at h <;> simp only at h <;> try cases h
      cases h2 : JObj.getInt d "insert_type" <;> rw [h2] at h <;> simp only at h <;> try cases h
      exact ⟨trivial, by simp [Tile.write, hty, hdir _ _ h1, hint _ _ h2]⟩
    · cases h1 : JObj.getInt d "x" <;> rw [h1] at h <;> simp only at h <;> try cases h
      cases h2 : JObj.getInt d "y" <;> rw [h2] at h <;> simp only at h <;> try cases h
      unfold Tile.mkAssembler at h
      split_ifs at h <;> cases h
      rename_i c1 c2
      exact ⟨⟨by simpa using c1, by simpa using c2⟩, by simp [Tile.write, hty, hint _ _ h1, hint _ _ h2]⟩
    · cases h

/-- C42: a belt that outputs to the side it is fed from, and an unknown type, are rejected. -/
theorem c42_read_rejects (i o : Dir) (s : String) (d : JObj) :
    (i.opp = o → Tile.read (Tile.belt i o).write = .error .runtimeError) ∧
    (d.lookup "type" = some (.str s) →
      s ∉ ["empty", "filler", "belt", "underground_belt", "splitter", "inserter", "assembling_machine"] →
      Tile.read d = .error .keyError) := by
  constructor
  · rintro rfl
    simp [Tile.read, Tile.write, JObj.get, JObj.getDir, JObj.getInt, List.lookup, Dir.ofInt_value, Tile.mkBelt, bind,
      Except.bind]
  · intro h hs
    simp only [List.mem_cons, List.not_mem_nil, or_false, not_or] at hs
    obtain ⟨h1, h2, h3, h4, h5, h6, h7⟩ := hs
    have hk : JObj.get d "type" = .ok (.str s) := by unfold JObj.get; rw [h]
    unfold Tile.read
    simp only [hk, bind, Except.bind]
    split <;> simp_all

example : (Tile.belt .right .up).Valid ∧ ¬ (Tile.belt .right .left).Valid := by decide

end FSat
