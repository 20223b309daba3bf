import Verif.Lemmas.MakeBlockMain
import Verif.Lemmas.CheckClauses
/-!
# C33, C34, C73-C75: blocks of random belts

`makeBlock o` is what the program does with the command line `o` before it starts the solver: the grid and its clauses.  The solver then
reports the layouts of satisfying assignments (C15, C12).  What a block has to obey is in `Verif/Spec/Loop.lean`.
-/

set_option linter.unusedSimpArgs false

namespace FSat

variable {o : BlockOptions}

/-! ### C33 -/

/-- C33: with `--single-loop`, whatever else is on the command line, in every solution following belts and undergrounds from the top left
cell visits every cell exactly once before it returns. -/
theorem c33_single_loop {g : Grid} {cs : Cnf} (h : makeBlock o = .ok (g, cs)) (hs : o.singleLoop = true) {v : Asg} (hv : Sat v cs)
    {T : Nat × Nat → Tile} (hT : Decodes g v T) : SingleLoop g.In (Follows g.nb T) (0, 0) (o.width * o.height) := by
  obtain ⟨o', hu, h', rfl⟩ := makeBlock_usable h
  obtain ⟨cs', h1, h2⟩ := block_exact hu
  rw [h1] at h'
  cases h'
  exact (((h2 T).1 ⟨v, hv, hT⟩).2 hs).1

/-- C33: such solutions always have a layout. -/
theorem c33_layout {g : Grid} {cs : Cnf} (h : makeBlock o = .ok (g, cs)) {v : Asg} (hv : Sat v cs) : ∃ T, Decodes g v T := by
  obtain ⟨rfl, hb, hw, hh, _⟩ := makeBlock_ok h
  obtain ⟨hg, _⟩ := block_grid hw hh
  obtain ⟨ci, hi1, hi2⟩ := init_iff hg
  unfold blockClauses at hb
  obtain ⟨c, hc1, hc2⟩ := concatE_sat hb hv (initClauses o.grid) (by simp)
  exact c15_layout hg hc1 v hc2

/-! ### C73: all blocks, without `--single-loop` -/

/-- C73: without `--single-loop` and `--no-parallel` the solver can find exactly the layouts that obey the rules, with undergrounds of at
most four cells, or none if the length is zero. -/
theorem c73_exact (hw : 0 < o.width) (hh : 0 < o.height) (hL : 0 ≤ o.ugLen) (hs : o.singleLoop = false) (hp : o.noParallel = false) :
    ∃ g cs, makeBlock o = .ok (g, cs) ∧ ∀ T, (∃ v, Sat v cs ∧ Decodes g v T) ↔
      BlockRules o.width o.height g.In g.nb T (g.shut (.ofBool !o.tile)) o.allowEmpty (if o.ugLen = 0 then 0 else 4) := by
  have hu : o.Usable := ⟨hw, hh, hL, by rw [hs]; simp, hp, by rw [hs]; simp⟩
  obtain ⟨cs, h1, h2⟩ := block_exact hu
  refine ⟨_, cs, h1, fun T => ?_⟩
  have : o.limit = if o.ugLen = 0 then 0 else 4 := by
    unfold BlockOptions.limit
    rw [hs]
    rfl
  rw [h2 T, this, hs]
  simp

/-! ### C74: all blocks, with `--single-loop` -/

/-- C74: without `--tile` the solver can find exactly the layouts that obey the rules and are one loop. -/
theorem c74_exact_partial (hw : 0 < o.width) (hh : 0 < o.height) (hL : 0 ≤ o.ugLen) (hs : o.singleLoop = true)
    (he : o.allowEmpty = false) (hp : o.noParallel = false) (ht : o.tile = false) : ∃ g cs, makeBlock o = .ok (g, cs) ∧
      ∀ T, (∃ v, Sat v cs ∧ Decodes g v T) ↔
        BlockRules o.width o.height g.In g.nb T (g.shut (.ofBool true)) false o.ugLen.toNat ∧
        SingleLoop g.In (Follows g.nb T) (0, 0) (o.width * o.height) := by
  have hu : o.Usable := ⟨hw, hh, hL, by rw [he]; simp, hp, by rw [ht]; simp⟩
  obtain ⟨cs, h1, h2⟩ := block_exact hu
  refine ⟨_, cs, h1, fun T => ?_⟩
  have : o.limit = o.ugLen.toNat := by
    unfold BlockOptions.limit
    rw [hs]
    rfl
  have he' : (Edges.ofBool true) = .ofBool !o.tile := by rw [ht]; rfl
  rw [h2 T, this, hs, he, he']
  exact ⟨fun ⟨a, b⟩ => ⟨a, (b rfl).1⟩, fun ⟨a, b⟩ => ⟨a, fun _ => ⟨b, flat_entry hu ht a b⟩⟩⟩

/-- C74: with `--tile` it finds exactly those whose loop comes to the first cell from its right or lower neighbour within the block, or whose
number of cells is a power of two. -/
theorem c74_tile_partial (hw : 0 < o.width) (hh : 0 < o.height) (hL : 0 ≤ o.ugLen) (hs : o.singleLoop = true)
    (he : o.allowEmpty = false) (hp : o.noParallel = false) (ht : o.tile = true) (h2 : 2 ≤ o.width * o.height) :
    ∃ g cs, makeBlock o = .ok (g, cs) ∧
      ∀ T, (∃ v, Sat v cs ∧ Decodes g v T) ↔
        BlockRules o.width o.height g.In g.nb T (g.shut (.ofBool false)) false o.ugLen.toNat ∧
        SingleLoop g.In (Follows g.nb T) (0, 0) (o.width * o.height) ∧
        ((∃ k, o.width * o.height = 2 ^ k) ∨ (2 ≤ o.width ∧ Connected g.nb T (1, 0) (0, 0) .left) ∨
          (2 ≤ o.height ∧ Connected g.nb T (0, 1) (0, 0) .up)) := by
  have hu : o.Usable := ⟨hw, hh, hL, by rw [he]; simp, hp, fun _ _ => h2⟩
  obtain ⟨cs, h1, h3⟩ := block_exact hu
  refine ⟨_, cs, h1, fun T => ?_⟩
  have hl : o.limit = o.ugLen.toNat := by
    unfold BlockOptions.limit
    rw [hs]
    rfl
  have he' : (Edges.ofBool false) = .ofBool !o.tile := by rw [ht]; rfl
  obtain ⟨hg, hw', hh', _⟩ := block_grid hw hh
  have hent : LoopEntry o.grid T ↔ ((∃ k, o.width * o.height = 2 ^ k) ∨ (2 ≤ o.width ∧ Connected o.grid.nb T (1, 0) (0, 0) .left) ∨
      (2 ≤ o.height ∧ Connected o.grid.nb T (0, 1) (0, 0) .up)) := by
    unfold LoopEntry
    rw [hw', hh']
    refine or_congr Iff.rfl ⟨?_, ?_⟩
    · rintro ⟨⟨x, y⟩, d, hin, hcon, h1, h2⟩
      have a := hin.1
      have b := hin.2
      rw [hw'] at a
      rw [hh'] at b
      simp only at h1 h2 a b
      cases d <;> simp only [Dir.dx, Dir.dy] at h1 h2
      · omega
      · obtain rfl : x = 0 := by omega
        obtain rfl : y = 1 := by omega
        exact .inr ⟨by omega, hcon⟩
      · obtain rfl : x = 1 := by omega
        obtain rfl : y = 0 := by omega
        exact .inl ⟨by omega, hcon⟩
      · omega
    · rintro (⟨hw2, hcon⟩ | ⟨hh2, hcon⟩)
      · exact ⟨_, _, ⟨by rw [hw']; exact hw2, hg.h⟩, hcon, by constructor <;> decide⟩
      · exact ⟨_, _, ⟨hg.w, by rw [hh']; exact hh2⟩, hcon, by constructor <;> decide⟩
  rw [h3 T, hl, hs, he, he', hent]
  exact ⟨fun ⟨a, b⟩ => ⟨a, b rfl⟩, fun ⟨a, b⟩ => ⟨a, fun _ => b⟩⟩

/-- Three belts in a row that go right. -/
def rowRight : Nat × Nat → Tile := fun _ => .belt .right .right

theorem rowRight_nb (p : Nat × Nat) (hp : p.1 < 3 ∧ p.2 < 1) (d : Dir) :
    (BlockOptions.grid ⟨3, 1, true, false, 0, false, true⟩).nb p d = some (match d with
      | .right => ((p.1 + 1) % 3, 0) | .left => ((p.1 + 2) % 3, 0) | _ => p) := by
  obtain ⟨x, y⟩ := p
  obtain ⟨hx, hy⟩ := hp
  obtain rfl : y = 0 := by simp only at hy; omega
  have : x = 0 ∨ x = 1 ∨ x = 2 := by simp only at hx; omega
  rcases this with rfl | rfl | rfl <;> cases d <;> decide

/-- C74 fails with `--tile`: three belts in a row that go right and around obey the rules and are one loop, but are never found. -/
theorem c74_refuted : ∃ (o : BlockOptions) (g : Grid) (cs : Cnf) (T : Nat × Nat → Tile), makeBlock o = .ok (g, cs) ∧ o.singleLoop = true ∧
    o.tile = true ∧ o.allowEmpty = false ∧ o.noParallel = false ∧
    BlockRules o.width o.height g.In g.nb T (g.shut (.ofBool false)) false o.ugLen.toNat ∧
    SingleLoop g.In (Follows g.nb T) (0, 0) (o.width * o.height) ∧ ¬ ∃ v, Sat v cs ∧ Decodes g v T := by
  obtain ⟨g, cs, h1, h2⟩ := c74_tile_partial (o := ⟨3, 1, true, false, 0, false, true⟩) (by decide) (by decide) (by decide) rfl rfl rfl rfl
    (by decide)
  obtain ⟨rfl, _⟩ := makeBlock_ok h1
  refine ⟨_, _, cs, rowRight, h1, rfl, rfl, rfl, rfl, ⟨⟨fun _ _ => (by show Dir.right ≠ Dir.right.opp; decide), ⟨fun _ _ _ h => (by cases h),
    fun _ _ _ h => (by cases h)⟩, ⟨fun _ _ _ _ _ h _ => h, fun _ _ _ _ _ h _ => h⟩, ⟨fun _ _ _ _ h => (by cases h), fun _ _ _ _ _ h => (by cases h)⟩,
    ⟨fun _ _ _ h => (by cases h), fun _ _ _ h => (by cases h), fun _ _ _ _ _ h => (by cases h.2.2.1)⟩,
    fun _ _ _ h => absurd h (shut_false _ _ _), ⟨fun _ _ _ h => absurd h (shut_false _ _ _), fun _ _ _ _ _ h => (by cases h.2.2.1)⟩⟩,
    fun _ _ h => (by obtain ⟨d, b, h⟩ := h; cases h), fun _ _ _ h => (by cases h), fun x y _ hy => (by simp at hy),
    fun _ _ _ _ _ h => (by cases h.1.2.2.1)⟩, ?_, ?_⟩
  · have hstep : ∀ p q, p.1 < 3 ∧ p.2 < 1 → (Follows (BlockOptions.grid ⟨3, 1, true, false, 0, false, true⟩).nb rowRight p q ↔
        q = ((p.1 + 1) % 3, 0)) := by
      intro p q hp
      constructor
      · rintro (⟨d, hn, hd, _⟩ | ⟨d, k, h⟩)
        · have hd : Dir.right = d := hd
          subst hd
          rw [rowRight_nb p hp .right] at hn
          cases hn
          rfl
        · cases h.2.2.1
      · rintro rfl
        exact .inl ⟨.right, rowRight_nb p hp .right, rfl, rfl⟩
    refine ⟨fun p hp => ⟨_, ⟨Nat.mod_lt _ (by decide), Nat.one_pos⟩, (hstep p _ hp).2 rfl, fun q' hq' => (hstep p q' hp).1 hq'⟩,
      fun i => (i % 3, 0), rfl, rfl, fun i => ?_, fun i => ⟨Nat.mod_lt _ (by decide), Nat.one_pos⟩, fun p hp => ⟨p.1, hp.1, ?_, ?_⟩⟩
    · exact (hstep _ _ ⟨Nat.mod_lt _ (by decide), Nat.one_pos⟩).2 (Prod.ext (by simp only; omega) rfl)
    · have := hp.1
      have := hp.2
      have h1 : p.1 < 3 := hp.1
      have h2 : p.2 < 1 := hp.2
      exact Prod.ext (Nat.mod_eq_of_lt h1) (by simp only; omega)
    · intro j hj h
      have hj : j < 3 := hj
      rw [← h]
      exact (Nat.mod_eq_of_lt hj).symm
  · rw [h2 rowRight]
    rintro ⟨_, _, h⟩
    rcases h with ⟨k, hk⟩ | ⟨_, _, h, _⟩ | ⟨hh, _⟩
    · have hk : 3 = 2 ^ k := hk
      match k, hk with
      | 0, hk => cases hk
      | 1, hk => cases hk
      | k + 2, hk =>
        have : 2 ^ (k + 2) = 4 * 2 ^ k := by rw [Nat.pow_add]; omega
        omega
    · cases h
    · exact absurd hh (by decide)

/-! ### C34: the length of undergrounds -/

/-- C34 holds with `--single-loop`, for length zero and for lengths of at least four. -/
theorem c34_length_partial {g : Grid} {cs : Cnf} (h : makeBlock o = .ok (g, cs)) {v : Asg} (hv : Sat v cs) {T : Nat × Nat → Tile}
    (hT : Decodes g v T) (hlen : o.singleLoop = true ∨ o.ugLen = 0 ∨ 4 ≤ o.ugLen) {p q : Nat × Nat} {d : Dir} {k : Nat} (hp : g.In p)
    (hpair : UgPair g.nb T p q d k) : (k : Int) - 1 ≤ o.ugLen := by
  obtain ⟨o', hu, h', rfl⟩ := makeBlock_usable h
  obtain ⟨cs', h1, h2⟩ := block_exact hu
  rw [h1] at h'
  cases h'
  have hr := ((h2 T).1 ⟨v, hv, hT⟩).1.basic.undergrounds.len p q d k hp hpair _ rfl
  have hk := hpair.1
  have h0 : 0 ≤ o.ugLen := hu.len
  unfold BlockOptions.limit at hr
  simp only at hr
  split at hr
  · omega
  split at hr
  · omega
  · rename_i h3 h4
    rcases hlen with h | h | h
    · exact absurd h h3
    · exact absurd h h4
    · omega

/-- Without `--single-loop` there are never more than four cells between the ends of an underground. -/
theorem c34_four_partial {g : Grid} {cs : Cnf} (h : makeBlock o = .ok (g, cs)) {v : Asg} (hv : Sat v cs) {T : Nat × Nat → Tile}
    (hT : Decodes g v T) (hs : o.singleLoop = false) {p q : Nat × Nat} {d : Dir} {k : Nat} (hp : g.In p) (hpair : UgPair g.nb T p q d k) :
    k - 1 ≤ 4 := by
  obtain ⟨o', hu, h', rfl⟩ := makeBlock_usable h
  obtain ⟨cs', h1, h2⟩ := block_exact hu
  rw [h1] at h'
  cases h'
  have hr := ((h2 T).1 ⟨v, hv, hT⟩).1.basic.undergrounds.len p q d k hp hpair _ rfl
  unfold BlockOptions.limit at hr
  simp only [hs] at hr
  split at hr
  · rename_i h; cases h
  split at hr <;> omega

/-- An underground with four cells between its ends, in a row that can be tiled. -/
def longRow : Nat × Nat → Tile
  | (0, _) => .underground .right true
  | (5, _) => .underground .right false
  | _ => .belt .down .down

/-- The solution with the layout `longRow`. -/
def longAsg : Asg := fun x => Nat.testBit 0x21203108231082310823108200290 x

/-- Its grid. -/
def longGrid : Grid := mkGrid 6 1 ⟨true, true⟩ (some 1) (some 4) .nil 0

theorem longAsg_decodes : Decodes longGrid longAsg longRow := by
  rintro ⟨x, y⟩ hp
  obtain rfl : y = 0 := by have : y < 1 := hp.2; omega
  have : x < 6 := hp.1
  have : x = 0 ∨ x = 1 ∨ x = 2 ∨ x = 3 ∨ x = 4 ∨ x = 5 := by omega
  rcases this with rfl | rfl | rfl | rfl | rfl | rfl <;> rfl

theorem longRow_pair : UgPair longGrid.nb longRow (0, 0) (5, 0) .right 5 := by
  refine ⟨by decide, by decide, rfl, rfl, fun i h0 h5 r hr => ?_⟩
  have : i = 1 ∨ i = 2 ∨ i = 3 ∨ i = 4 := by omega
  rcases this with rfl | rfl | rfl | rfl
  · obtain rfl : r = (1, 0) := (Option.some.inj (hr.symm.trans (by decide)))
    exact id
  · obtain rfl : r = (2, 0) := (Option.some.inj (hr.symm.trans (by decide)))
    exact id
  · obtain rfl : r = (3, 0) := (Option.some.inj (hr.symm.trans (by decide)))
    exact id
  · obtain rfl : r = (4, 0) := (Option.some.inj (hr.symm.trans (by decide)))
    exact id

/-- C34 fails for lengths of one to three without `--single-loop`: the grid always allows four cells. -/
theorem c34_refuted (L : Int) (h1 : 1 ≤ L) (h3 : L ≤ 3) : ∃ (o : BlockOptions) (g : Grid) (cs : Cnf) (v : Asg) (T : Nat × Nat → Tile)
    (p q : Nat × Nat) (d : Dir) (k : Nat), o.ugLen = L ∧ makeBlock o = .ok (g, cs) ∧ Sat v cs ∧ Decodes g v T ∧ g.In p ∧
      UgPair g.nb T p q d k ∧ L < (k : Int) - 1 := by
  have hwit : ∀ L : Int, L = 1 ∨ L = 2 ∨ L = 3 → okSat longAsg (blockClauses ⟨6, 1, true, false, L, false, false⟩ longGrid) = true := by
    rintro L (rfl | rfl | rfl) <;> decide +kernel
  obtain ⟨cs, hc1, hc2⟩ := okSat_iff.1 (hwit L (by omega))
  refine ⟨⟨6, 1, true, false, L, false, false⟩, longGrid, cs, longAsg, longRow, (0, 0), (5, 0), .right, 5, rfl, ?_, hc2, longAsg_decodes,
    by decide, longRow_pair, by omega⟩
  show makeBlock _ = _
  unfold makeBlock
  rw [if_neg (by simp), if_neg (by simp only; omega), if_pos ⟨Nat.succ_pos 5, Nat.one_pos⟩, show BlockOptions.grid _ = longGrid from rfl, hc1]

/-- The solution that refutes C34 also shows that the hypotheses of `c34_four_partial` can be met. -/
example : ∃ (o : BlockOptions) (g : Grid) (cs : Cnf) (v : Asg) (T : Nat × Nat → Tile) (p q : Nat × Nat) (d : Dir),
    makeBlock o = .ok (g, cs) ∧ Sat v cs ∧ Decodes g v T ∧ o.singleLoop = false ∧ o.ugLen = 4 ∧ g.In p ∧ UgPair g.nb T p q d 5 := by
  obtain ⟨cs, hc1, hc2⟩ := okSat_iff.1 (show okSat longAsg (blockClauses ⟨6, 1, true, false, 4, false, false⟩ longGrid) = true by decide +kernel)
  refine ⟨⟨6, 1, true, false, 4, false, false⟩, longGrid, cs, longAsg, longRow, (0, 0), (5, 0), .right, ?_, hc2, longAsg_decodes, rfl, rfl,
    by decide, longRow_pair⟩
  unfold makeBlock
  rw [if_neg (by simp), if_neg (by simp), if_pos ⟨Nat.succ_pos 5, Nat.one_pos⟩, show BlockOptions.grid _ = longGrid from rfl, hc1]

/-! ### Examples -/

/-- The belts around the border of a block of two columns and three rows. -/
def ring : Nat × Nat → Tile
  | (0, 0) => .belt .up .right
  | (0, 1) => .belt .up .up
  | (0, 2) => .belt .left .up
  | (1, 0) => .belt .right .down
  | (1, 1) => .belt .down .down
  | (1, 2) => .belt .down .left
  | _ => .empty

/-- Its command line. -/
def ringOptions : BlockOptions := ⟨2, 3, false, false, 0, false, true⟩

/-- Its solution. -/
def ringAsg : Asg := fun x => Nat.testBit 0x36c12005b804802da088016e81100b6420405b002402 x

theorem ring_found : ∃ g cs, makeBlock ringOptions = .ok (g, cs) ∧ Sat ringAsg cs ∧ Decodes g ringAsg ring := by
  obtain ⟨cs, hc1, hc2⟩ := okSat_iff.1 (show okSat ringAsg (blockClauses ringOptions ringOptions.grid) = true by decide +kernel)
  refine ⟨ringOptions.grid, cs, ?_, hc2, ?_⟩
  · unfold makeBlock
    rw [if_neg (by decide), if_neg (by decide), if_pos (by decide), hc1]
  · rintro ⟨x, y⟩ hp
    have : x < 2 := hp.1
    have : y < 3 := hp.2
    have hx : x = 0 ∨ x = 1 := by omega
    have hy : y = 0 ∨ y = 1 ∨ y = 2 := by omega
    rcases hx with rfl | rfl <;> rcases hy with rfl | rfl | rfl <;> rfl

/-- The ring is found, so it obeys the rules and is one loop: the hypotheses of C33, C74 and C34 can be met. -/
example : ∃ g : Grid, BlockRules 2 3 g.In g.nb ring (g.shut (.ofBool true)) false 0 ∧ SingleLoop g.In (Follows g.nb ring) (0, 0) (2 * 3) := by
  obtain ⟨g, cs, h1, h2, h3⟩ := ring_found
  obtain ⟨g', cs', h1', h4⟩ := c74_exact_partial (o := ringOptions) (by decide) (by decide) (by decide) rfl rfl rfl rfl
  rw [h1] at h1'
  cases h1'
  exact ⟨g, (h4 ring).1 ⟨_, h2, h3⟩⟩

/-- A loop of fifteen cells that can be tiled; it goes around the left border below the ground, with two cells between the ends. -/
def tileLoop : Nat × Nat → Tile
  | (0, 0) => .underground .left true
  | (0, 1) => .belt .left .left
  | (0, 2) => .belt .right .right
  | (1, 0) => .belt .down .left
  | (1, 1) => .belt .left .left
  | (1, 2) => .belt .right .down
  | (2, 0) => .belt .left .up
  | (2, 1) => .belt .left .left
  | (2, 2) => .belt .up .right
  | (3, 0) => .underground .left false
  | (3, 1) => .belt .up .left
  | (3, 2) => .belt .right .up
  | (4, 0) => .belt .up .up
  | (4, 1) => .belt .left .up
  | (4, 2) => .belt .up .right
  | _ => .empty

/-- Its command line. -/
def tileOptions : BlockOptions := ⟨5, 3, true, false, 2, false, true⟩

/-- Its solution. -/
def tileAsg : Asg := fun x =>
  Nat.testBit 0x1d9602583da804203dc602483cfa103025b80228317204883c8a08403dac08803bae0880259008903c3484503c4208021dc40490383c0908332000810 x

theorem tileLoop_init : okB tileAsg (initClauses tileOptions.grid) = true := by decide +kernel
theorem tileLoop_inter : satB tileAsg (preventIntersection tileOptions.grid) = true := by decide +kernel
theorem tileLoop_under : satB tileAsg (preventBadUndergrounding tileOptions.grid) = true := by decide +kernel
theorem tileLoop_loops : satB tileAsg (preventSmallLoops tileOptions.grid) = true := by decide +kernel
theorem tileLoop_length : okB tileAsg (joinE [enforceMaximumUndergroundLength tileOptions.grid,
    .ok (preventEmptyAlongUnderground tileOptions.grid)]) = true := by decide +kernel
theorem tileLoop_numbers : okB tileAsg (ensureLoopLength tileOptions.grid) = true := by
  refine okB_concat ?_
  decide +kernel
theorem tileLoop_tiles : satB tileAsg (tileOptions.grid.cells.flatMap fun p => blockTile tileOptions (tileOptions.grid.at' p)) = true := by
  decide +kernel

theorem tileLoop_sat : okB tileAsg (blockClauses tileOptions tileOptions.grid) = true := by
  refine okB_join fun e he => ?_
  simp only [List.mem_cons, List.not_mem_nil, or_false] at he
  rcases he with rfl | rfl | rfl | rfl | rfl | rfl | rfl | rfl | rfl
  · exact tileLoop_init
  · exact tileLoop_inter
  · exact tileLoop_under
  · rfl
  · exact tileLoop_loops
  · exact tileLoop_length
  · rfl
  · exact tileLoop_numbers
  · exact tileLoop_tiles

/-- It is found: C33 and C34 speak about it. -/
example : ∃ g cs, makeBlock tileOptions = .ok (g, cs) ∧ Sat tileAsg cs ∧ Decodes g tileAsg tileLoop ∧
    SingleLoop g.In (Follows g.nb tileLoop) (0, 0) (5 * 3) ∧ ∀ p q d k, g.In p → UgPair g.nb tileLoop p q d k → (k : Int) - 1 ≤ 2 := by
  obtain ⟨cs, hc1, hc2⟩ := okB_iff.1 tileLoop_sat
  have h : makeBlock tileOptions = .ok (tileOptions.grid, cs) := by
    unfold makeBlock
    rw [if_neg (by decide), if_neg (by decide), if_pos (by decide), hc1]
  have hT : Decodes tileOptions.grid tileAsg tileLoop := by
    rintro ⟨x, y⟩ hp
    have : x < 5 := hp.1
    have : y < 3 := hp.2
    have hx : x = 0 ∨ x = 1 ∨ x = 2 ∨ x = 3 ∨ x = 4 := by omega
    have hy : y = 0 ∨ y = 1 ∨ y = 2 := by omega
    rcases hx with rfl | rfl | rfl | rfl | rfl <;> rcases hy with rfl | rfl | rfl <;> rfl
  exact ⟨_, cs, h, hc2, hT, c33_single_loop h rfl hc2 hT, fun p q d k hp hpair => c34_length_partial h hc2 hT (.inl rfl) hp hpair⟩

/-! ### C75: `--no-parallel` -/

/-- The clauses that are created before `--no-parallel` is looked at are created without an error. -/
theorem before_parallel (hw : 0 < o.width) (hh : 0 < o.height) : ∀ y ∈ [initClauses o.grid, .ok (preventIntersection o.grid),
    .ok (preventBadUndergrounding o.grid), .ok (if o.tile then [] else blockBelts o.grid (.ofBool true) ++ blockUnderground o.grid (.ofBool true)),
    .ok (preventSmallLoops o.grid),
    if o.grid.ugLen.getD 0 > 0 then joinE [enforceMaximumUndergroundLength o.grid, .ok (preventEmptyAlongUnderground o.grid)] else .ok []],
    ∃ c, y = .ok c := by
  obtain ⟨hg, hw', hh', he, hl, hc⟩ := block_grid hw hh
  intro y hy
  simp only [List.mem_cons, List.not_mem_nil, or_false] at hy
  rcases hy with rfl | rfl | rfl | rfl | rfl | rfl
  · obtain ⟨c, h, _⟩ := init_iff hg; exact ⟨c, h⟩
  · exact ⟨_, rfl⟩
  · exact ⟨_, rfl⟩
  · exact ⟨_, rfl⟩
  · exact ⟨_, rfl⟩
  · split
    · rename_i hpos
      rw [hl, Option.getD_some] at hpos
      obtain ⟨c, h, _⟩ := length_iff hg _ hl hpos
      rw [h]
      exact ⟨_, rfl⟩
    · exact ⟨_, rfl⟩

/-- C75 fails: with `--no-parallel` the program ends with a TypeError before it starts the solver, for every block that has a cell with a
neighbour, whatever the other options are. -/
theorem c75_refuted (hw : 0 < o.width) (hh : 0 < o.height) (hL : 0 ≤ o.ugLen) (hne : ¬ (o.allowEmpty = true ∧ o.singleLoop = true))
    (hp : o.noParallel = true) (hn : 2 ≤ o.width ∨ 2 ≤ o.height ∨ o.tile = true) : makeBlock o = .error .typeError := by
  obtain ⟨hg, hw', hh', he, hl, hc⟩ := block_grid hw hh
  have hpar : preventParallel o.grid = .error .typeError := by
    refine (preventParallel_cases hg).1.2 ?_
    rw [hw', hh', he]
    rcases hn with h | h | h
    · exact .inl (.inl h)
    · exact .inr (.inl h)
    · exact .inl (.inr h)
  unfold makeBlock
  rw [if_neg hne, if_neg (by omega), if_pos ⟨hw, hh⟩]
  have : blockClauses o o.grid = .error .typeError := by
    unfold blockClauses
    exact joinE_error (a := [initClauses o.grid, .ok (preventIntersection o.grid),
      .ok (preventBadUndergrounding o.grid), .ok (if o.tile then [] else blockBelts o.grid (.ofBool true) ++ blockUnderground o.grid (.ofBool true)),
      .ok (preventSmallLoops o.grid),
      if o.grid.ugLen.getD 0 > 0 then joinE [enforceMaximumUndergroundLength o.grid, .ok (preventEmptyAlongUnderground o.grid)] else .ok []])
      (x := if o.noParallel then preventParallel o.grid else .ok []) rfl (before_parallel hw hh) (by rw [hp, if_pos rfl, hpar])
  rw [this]

/-- What holds of C75: when the program does start the solver with `--no-parallel`, no two undergrounds along one axis lie side by side, because
the block has only one cell and nothing beside it. -/
theorem c75_parallel_partial {g : Grid} {cs : Cnf} (h : makeBlock o = .ok (g, cs)) (hp : o.noParallel = true) :
    (o.width = 1 ∧ o.height = 1 ∧ o.tile = false) ∧ ∀ p d, g.In p → g.nb p d = none := by
  obtain ⟨rfl, hb, hw, hh, hL, hne⟩ := makeBlock_ok h
  have hsmall : ¬ (2 ≤ o.width ∨ 2 ≤ o.height ∨ o.tile = true) := by
    intro hn
    rw [c75_refuted hw hh hL hne hp hn] at h
    cases h
  push Not at hsmall
  obtain ⟨h1, h2, h3⟩ := hsmall
  have h3 : o.tile = false := by simpa using h3
  have e1 : o.width = 1 := by omega
  have e2 : o.height = 1 := by omega
  exact ⟨⟨e1, e2, h3⟩, fun p d hp => block_flat hw hh (by rw [e1, e2]; decide) h3 p d hp⟩

/-- A single cell left empty. -/
example : ∃ g cs, makeBlock ⟨1, 1, false, true, 4, true, false⟩ = .ok (g, cs) ∧ ∃ v, Sat v cs := by
  obtain ⟨cs, hc1, hc2⟩ := okSat_iff.1 (show okSat (fun x => Nat.testBit 0x4 x) (blockClauses ⟨1, 1, false, true, 4, true, false⟩
    (BlockOptions.grid ⟨1, 1, false, true, 4, true, false⟩)) = true by decide +kernel)
  refine ⟨BlockOptions.grid ⟨1, 1, false, true, 4, true, false⟩, cs, ?_, _, hc2⟩
  unfold makeBlock
  rw [if_neg (by decide), if_neg (by decide), if_pos (by decide), hc1]

example : makeBlock ⟨2, 3, false, true, 4, true, false⟩ = .error .typeError :=
  c75_refuted (by decide) (by decide) (by decide) (by decide) rfl (by decide)

end FSat
