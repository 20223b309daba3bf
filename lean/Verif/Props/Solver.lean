import Verif.Lemmas.Free
import Mathlib.Logic.Relation
/-!
# C15-C24, C26, C58: what the clauses of `Grid` mean for the decoded layout

`Decodes g v T`: the layout `T` is what `parse_solution` and `read_tile` return for the assignment `v`.
The rules (`PairedSplitters`, `Joined`, ...) are in `Verif.Spec.Rules`, over the neighbour function `g.nb`, which is
`get_tile_instance_offset` (C14).
-/

set_option linter.unusedSimpArgs false

namespace FSat

/-- Every cell of the grid decodes, to the tile given by `T`. -/
def Decodes (g : Grid) (v : Asg) (T : Nat × Nat → Tile) : Prop := ∀ p, g.In p → decodeCell g v p = .ok (T p)

theorem lays_of_decodes {g : Grid} {v : Asg} {T : Nat × Nat → Tile} (hi : InitSem g (g.vals v)) (hT : Decodes g v T) :
    Lays g (g.vals v) T := by
  intro p hp
  obtain ⟨t, ht⟩ := hi.cell p hp
  have h := hT p hp
  rw [decodeCell, ht.read] at h
  cases h; exact ht

theorem decodes_of_lays {g : Grid} {v : Asg} {T : Nat × Nat → Tile} (hT : Lays g (g.vals v) T) : Decodes g v T :=
  fun p hp => (hT p hp).read

theorem sem_of_sat {g : Grid} (hg : g.WF) {cs : Cnf} (hc : initClauses g = .ok cs) {v : Asg} (hv : Sat v cs) :
    InitSem g (g.vals v) := by
  obtain ⟨cs', h1, h2⟩ := init_iff hg
  rw [hc] at h1; cases h1
  exact (h2 v).1 hv

/-! ### A concrete grid for the examples

    tail  belt(right, down)
    head  underground(down, in)
    -     -
    -     underground(down, out)
-/

instance (v : Asg) (c : Clause) : Decidable (SatC v c) := by unfold SatC; infer_instance
instance (v : Asg) (cs : Cnf) : Decidable (Sat v cs) := by unfold Sat; infer_instance

/-- `Grid(2, 4, 3, 4)`. -/
def exGrid : Grid := mkGrid 2 4 ⟨false, false⟩ (some 3) (some 4) .nil 0
def exAsg : Asg := fun x => [3, 7, 9, 13, 21, 23, 25, 27, 35, 42, 47, 49, 51, 55, 58, 59, 61, 74, 76, 78, 82, 90, 99, 101, 103, 106, 132,
  150, 155, 158, 187, 190, 198, 203, 205, 207].contains x
def exLayout : Nat × Nat → Tile
  | (0, 0) => .splitter .right false
  | (0, 1) => .splitter .right true
  | (1, 0) => .belt .right .down
  | (1, 1) => .underground .down true
  | (1, 3) => .underground .down false
  | _ => .empty

/-- The method returned clauses and the assignment satisfies them. -/
def okSat (v : Asg) : Except PyErr Cnf → Bool
  | .ok cs => decide (Sat v cs)
  | .error _ => false

theorem okSat_iff {v : Asg} {e : Except PyErr Cnf} : okSat v e = true ↔ ∃ cs, e = .ok cs ∧ Sat v cs := by
  cases e <;> simp [okSat]

theorem exGrid_wf : exGrid.WF := mkGrid_wf (by decide) (by decide) _ _ _ (by intro n h; cases h; decide) _ _
theorem exAsg_init : okSat exAsg (initClauses exGrid) = true := by decide +kernel
theorem exAsg_decodes : Decodes exGrid exAsg exLayout := by
  have : ∀ p ∈ exGrid.cells, decodeCell exGrid exAsg p = .ok (exLayout p) := by
    intro p hp
    have : p ∈ [((0 : Nat), (0 : Nat)), (0, 1), (0, 2), (0, 3), (1, 0), (1, 1), (1, 2), (1, 3)] := by
      revert hp; rw [show exGrid.cells = [((0 : Nat), (0 : Nat)), (0, 1), (0, 2), (0, 3), (1, 0), (1, 1), (1, 2), (1, 3)] from rfl]
      exact id
    simp only [List.mem_cons, List.not_mem_nil, or_false] at this
    rcases this with rfl | rfl | rfl | rfl | rfl | rfl | rfl | rfl <;> rfl
  exact fun p hp => this p ((exGrid.mem_cells p).2 hp)

/-! ### C15 -/

/-- C15: creating the grid never fails. -/
theorem c15_init_total {g : Grid} (hg : g.WF) : ∃ cs, initClauses g = .ok cs := by
  obtain ⟨cs, h, _⟩ := init_iff hg; exact ⟨cs, h⟩

/-- C15: every satisfying assignment decodes in every cell, to a proper tile whose kind and directions are the flags set in
the assignment. -/
theorem c15_decode {g : Grid} (hg : g.WF) {cs : Cnf} (hc : initClauses g = .ok cs) (v : Asg) (hv : Sat v cs)
    (p : Nat × Nat) (hp : g.In p) :
    ∃ t, decodeCell g v p = .ok t ∧ t.Basic ∧ Agrees (evalTile v (g.at' p)) t := by
  obtain ⟨t, ht⟩ := (sem_of_sat hg hc hv).cell p hp
  exact ⟨t, ht.read, ht.basic, ht⟩

/-- C15: so a whole layout is decoded. -/
theorem c15_layout {g : Grid} (hg : g.WF) {cs : Cnf} (hc : initClauses g = .ok cs) (v : Asg) (hv : Sat v cs) :
    ∃ T, Decodes g v T := by
  classical
  refine ⟨fun p => if h : g.In p then (c15_decode hg hc v hv p h).choose else .empty, fun p hp => ?_⟩
  simp only [dif_pos hp]
  exact (c15_decode hg hc v hv p hp).choose_spec.1

/-- C15: the grids the constructor makes are well formed. -/
theorem c15_grid_wf {width height : Nat} (hw : 0 < width) (hh : 0 < height) (edge : EdgeMode) (colours ugLen : Option Nat)
    (hn : ∀ n, colours = some n → 1 ≤ n) (extras : TFields) (s : Nat) :
    (mkGrid width height edge colours ugLen extras s).WF := mkGrid_wf hw hh edge colours ugLen hn extras s

example : ∃ cs, initClauses exGrid = .ok cs ∧ Sat exAsg cs := okSat_iff.1 exAsg_init

/-! ### C16 -/

/-- C16: `set_tile` adds clauses that select exactly the assignments that decode to the tile. -/
theorem c16_set_tile {g : Grid} (hg : g.WF) {cs : Cnf} (hc : initClauses g = .ok cs) (x y : Nat) (hp : g.In (x, y)) (t : Tile)
    (ht : t = .filler ∨ t.Basic) : ∃ ts, setTile g x y t = .ok ts ∧ ∀ v, Sat v cs →
      (Sat v ts ↔ decodeCell g v (x, y) = .ok (if t = .filler then .empty else t)) := by
  have hget : g.getTile x y = .ok (g.tile x y) := by simp only [Grid.getTile]; exact if_pos hp
  have key : ∀ v, Sat v cs → ∃ T, Agrees (evalTile v (g.tile x y)) T ∧ ∀ T', (decodeCell g v (x, y) = .ok T' ↔ T = T') := by
    intro v hv
    obtain ⟨T, h1, _, h2⟩ := c15_decode hg hc v hv (x, y) hp
    refine ⟨T, h2, fun T' => ?_⟩
    rw [h1]; simp
  cases t with
  | empty =>
    refine ⟨_, (by simp only [setTile, hget]; rfl), fun v hv => ?_⟩
    obtain ⟨T, ha, hd⟩ := key v hv
    simp only [Sat_cons, Sat_nil, SatC_cons, SatC_nil, or_false, and_true, reduceCtorEq, if_false, hd]
    exact ha.isEmpty_iff
  | filler =>
    refine ⟨_, (by simp only [setTile, hget]; rfl), fun v hv => ?_⟩
    obtain ⟨T, ha, hd⟩ := key v hv
    simp only [Sat_cons, Sat_nil, SatC_cons, SatC_nil, or_false, and_true, if_true, hd]
    exact ha.isEmpty_iff
  | belt i o =>
    refine ⟨_, (by simp only [setTile, hget]; rfl), fun v hv => ?_⟩
    obtain ⟨T, ha, hd⟩ := key v hv
    simp only [Sat_cons, Sat_nil, SatC_cons, SatC_nil, or_false, and_true, reduceCtorEq, if_false, hd]
    constructor
    · rintro ⟨h1, h2, h3⟩
      obtain ⟨i', o', rfl⟩ := ha.isBelt_iff.1 h1
      rw [(ha.2.2.1 i).1 h2, (ha.2.2.2.1 o).1 h3]
    · rintro rfl
      exact ⟨ha.isBelt_iff.2 ⟨i, o, rfl⟩, (ha.2.2.1 i).2 rfl, (ha.2.2.2.1 o).2 rfl⟩
  | underground d b =>
    cases b
    · refine ⟨_, (by simp only [setTile, hget]; rfl), fun v hv => ?_⟩
      obtain ⟨T, ha, hd⟩ := key v hv
      simp only [Sat_cons, Sat_nil, SatC_cons, SatC_nil, or_false, and_true, reduceCtorEq, if_false, hd]
      exact ha.ugOut_iff d
    · refine ⟨_, (by simp only [setTile, hget]; rfl), fun v hv => ?_⟩
      obtain ⟨T, ha, hd⟩ := key v hv
      simp only [Sat_cons, Sat_nil, SatC_cons, SatC_nil, or_false, and_true, reduceCtorEq, if_false, hd]
      exact ha.ugIn_iff d
  | splitter d b =>
    refine ⟨_, (by simp only [setTile, hget]; rfl), fun v hv => ?_⟩
    obtain ⟨T, ha, hd⟩ := key v hv
    simp only [Sat_cons, Sat_nil, SatC_cons, SatC_nil, or_false, and_true, reduceCtorEq, if_false, hd]
    have hb : ev v (setLiteral (g.tile x y).isHead b) = true ↔ (evalTile v (g.tile x y)).isHead = b := by
      cases b <;> simp [setLiteral, evalTile]
    constructor
    · rintro ⟨h1, h2, h3⟩
      rw [ha.splitter_dir h1 h3, hb.1 h2]
    · rintro rfl
      obtain ⟨h1, h2, h3⟩ := ha.splitter_flags
      exact ⟨h1, hb.2 h2, h3⟩
  | _ => rcases ht with ht | ht <;> cases ht

/-- C16: the other tiles, and cells outside the grid, are rejected with an exception. -/
theorem c16_set_tile_error (g : Grid) (x y : Nat) (t : Tile)
    (h : ¬ g.In (x, y) ∨ (∃ d k, t = .inserter d k) ∨ ∃ a b, t = .assembler a b) : ∃ e, setTile g x y t = .error e := by
  rcases h with h | ⟨d, k, rfl⟩ | ⟨a, b, rfl⟩
  · refine ⟨.assertion, ?_⟩
    have : g.getTile x y = .error .assertion := by simp only [Grid.getTile]; exact if_neg h
    simp only [setTile, this]
  · simp only [setTile]; cases g.getTile x y <;> exact ⟨_, rfl⟩
  · simp only [setTile]; cases g.getTile x y <;> exact ⟨_, rfl⟩

example : okSat exAsg (setTile exGrid 1 1 (.underground .down true)) = true ∧
    okSat exAsg (setTile exGrid 1 1 (.underground .up true)) = false := by decide +kernel

/-! ### C17 -/

/-- C17: splitter halves come in pairs, in both directions, so no splitter sticks out of the grid; halves are in bijection. -/
theorem c17_paired {g : Grid} (hg : g.WF) {cs : Cnf} (hc : initClauses g = .ok cs) (v : Asg) (hv : Sat v cs)
    (T : Nat × Nat → Tile) (hT : Decodes g v T) :
    PairedSplitters g.In g.nb T ∧
    (∀ p d, g.In p → T p = .splitter d true → ∃! q, g.In q ∧ SplitterPair g.nb T p q d) ∧
    (∀ q d, g.In q → T q = .splitter d false → ∃! p, g.In p ∧ SplitterPair g.nb T p q d) := by
  have hs := sem_of_sat hg hc hv
  have hp := (splitterSem_iff hg (lays_of_decodes hs hT)).1 hs.splitter
  refine ⟨hp, fun p d h1 h2 => ?_, fun q d h1 h2 => ?_⟩
  · obtain ⟨q, hq, h⟩ := hp.head p d h1 h2
    refine ⟨q, ⟨hq, h⟩, fun q' ⟨_, h'⟩ => ?_⟩
    have := h'.2.1.symm.trans h.2.1
    simpa using this
  · obtain ⟨p, hp', h⟩ := hp.tail q d h1 h2
    exact ⟨p, ⟨hp', h⟩, fun p' ⟨hp'', h'⟩ => Grid.nb_inj hg hp'' hp' h'.2.1 h.2.1⟩

example : exLayout (0, 1) = .splitter .right true ∧ SplitterPair exGrid.nb exLayout (0, 1) (0, 0) .right := by
  refine ⟨rfl, rfl, ?_, rfl⟩; decide

/-! ### C18 -/

/-- C18: belts and underground ends connect on the surface. -/
theorem c18_joined {g : Grid} (hg : g.WF) {cs : Cnf} (hc : initClauses g = .ok cs) (v : Asg) (hv : Sat v cs)
    (hx : Sat v (preventIntersection g)) (T : Nat × Nat → Tile) (hT : Decodes g v T) : Joined g.In g.nb T :=
  joined_of_sem hg (lays_of_decodes (sem_of_sat hg hc hv) hT) ((Sat_intersection g v).1 hx)

/-- C18: no two belts or underground exits feed the same belt or underground entrance. -/
theorem c18_single_feeder {g : Grid} (hg : g.WF) {cs : Cnf} (hc : initClauses g = .ok cs) (v : Asg) (hv : Sat v cs)
    (hx : Sat v (preventIntersection g)) (T : Nat × Nat → Tile) (hT : Decodes g v T) (p p' q : Nat × Nat) (d d' : Dir)
    (hp : g.In p) (hp' : g.In p') (hq : g.nb p d = some q) (hq' : g.nb p' d' = some q) (he : (T p).Emits d)
    (he' : (T p').Emits d') (hs : ¬ (T p).IsSplitter) (hs' : ¬ (T p').IsSplitter) (hsq : ¬ (T q).IsSplitter) :
    p = p' ∧ d = d' := by
  have hj := c18_joined hg hc v hv hx T hT
  have h1 := hj.out p q d hp hq he hs
  have h2 := hj.out p' q d' hp' hq' he' hs'
  have hd : d = d' := by
    cases hTq : T q with
    | belt i o => rw [hTq] at h1 h2; exact h1.symm.trans h2
    | underground e b =>
      rw [hTq] at h1 h2
      cases b
      · exact h1.elim
      · exact h1.symm.trans h2
    | splitter e b => exact absurd ⟨e, b, hTq⟩ hsq
    | _ => rw [hTq] at h1; exact h1.elim
  subst hd
  exact ⟨Grid.nb_inj hg hp hp' hq hq', rfl⟩

theorem exAsg_intersection : Sat exAsg (preventIntersection exGrid) := by decide +kernel

example : (exLayout (1, 0)).Emits .down ∧ exGrid.nb (1, 0) .down = some (1, 1) ∧ (exLayout (1, 1)).Takes .down := by decide

/-! ### C19 -/

/-- What the game does with a splitter half facing `d` in front of a tile: the tile accepts items from it.  A belt accepts from
everywhere but its front; an underground entrance from behind and from its sides, an exit from its sides; a splitter from
behind. -/
def GameAccepts : Tile → Dir → Prop
  | .belt _ o, d => o ≠ d.opp
  | .underground e true, d => e ≠ d.opp
  | .underground e false, d => e ≠ d.opp ∧ e ≠ d
  | .splitter e _, d => e = d
  | _, _ => False

instance (t : Tile) (d : Dir) : Decidable (GameAccepts t d) := by
  cases t <;> simp only [GameAccepts] <;> try infer_instance
  rename_i b; cases b <;> simp only [GameAccepts] <;> infer_instance

/-- C19 is false: a splitter half whose output is unconnected may face the side of an underground end. -/
theorem c19_no_leak_refuted : ∃ (g : Grid) (cs : Cnf) (v : Asg) (T : Nat × Nat → Tile) (p q : Nat × Nat) (d : Dir),
    g.WF ∧ initClauses g = .ok cs ∧ Sat v cs ∧ Sat v (preventIntersection g) ∧ Decodes g v T ∧ g.In p ∧
    T p = .splitter d true ∧ ev v ((g.at' p).out d) = false ∧ g.nb p d = some q ∧ GameAccepts (T q) d := by
  obtain ⟨cs, h1, h2⟩ := okSat_iff.1 exAsg_init
  exact ⟨exGrid, cs, exAsg, exLayout, (0, 1), (1, 1), .right, exGrid_wf, h1, h2, exAsg_intersection, exAsg_decodes,
    by decide, rfl, by decide, by decide, by decide⟩

/-- C19, partial: a splitter half whose output is unconnected never faces a belt of any direction, nor an underground entrance or a
connected splitter half of its own direction.  (What is missing: underground ends seen from the side.) -/
theorem c19_no_leak_partial {g : Grid} (hg : g.WF) {cs : Cnf} (hc : initClauses g = .ok cs) (v : Asg) (hv : Sat v cs)
    (hx : Sat v (preventIntersection g)) (T : Nat × Nat → Tile) (hT : Decodes g v T) (p q : Nat × Nat) (d : Dir) (b : Bool)
    (hp : g.In p) (hs : T p = .splitter d b) (ho : ev v ((g.at' p).out d) = false) (hq : g.nb p d = some q) :
    (∀ i o, T q ≠ .belt i o) ∧ T q ≠ .underground d true ∧
    (T q = .splitter d true ∨ T q = .splitter d false → ev v ((g.at' q).inp d) = false) := by
  have hl := lays_of_decodes (sem_of_sat hg hc hv) hT
  have hsem := (Sat_intersection g v).1 hx
  have hends := ends_of_sem hg hl hsem
  have hq' := Grid.nb_in hg hq
  have hin : ev v ((g.at' q).inp d) = false := by
    have : ev v ((g.at' p).out d) = ev v ((g.at' q).inp d) := (hsem d p q hp hq).1
    rw [← this]; exact ho
  refine ⟨fun i o hb => ?_, fun hu => ?_, fun _ => hin⟩
  · have hi := hends.noLeak p q d b hp hs hq i o hb
    have := ((hb ▸ hl q hq').2.2.1 d).2 hi.symm
    rw [show (g.vals v q).inp d = ev v ((g.at' q).inp d) from rfl, hin] at this
    cases this
  · have := ((hu ▸ hl q hq').2.2.1 d).2 rfl
    rw [show (g.vals v q).inp d = ev v ((g.at' q).inp d) from rfl, hin] at this
    cases this

/-! ### C20 -/

/-- C20: on a grid whose non-wrapping sides are shut for undergrounds, every entrance has exactly one exit and conversely. -/
theorem c20_paired {g : Grid} (hg : g.WF) {cs : Cnf} (hc : initClauses g = .ok cs) (v : Asg) (hv : Sat v cs)
    (hu : Sat v (preventBadUndergrounding g)) (e : Edges) (he : ∀ d, g.wraps d = false → e.sel d = true)
    (hb : Sat v (blockUnderground g e)) (T : Nat × Nat → Tile) (hT : Decodes g v T) :
    (∀ p d, g.In p → T p = .underground d true → ∃! q, ∃ k, g.In q ∧ UgPair g.nb T p q d k) ∧
    (∀ q d, g.In q → T q = .underground d false → ∃! p, ∃ k, g.In p ∧ UgPair g.nb T p q d k) := by
  have hl := lays_of_decodes (sem_of_sat hg hc hv) hT
  have h1 := (Sat_underground g v).1 hu
  have h2 := (Sat_blockUg hg e v).1 hb
  refine ⟨fun p d hp ht => ?_, fun q d hq ht => ?_⟩
  · obtain ⟨q, k, hq, h, _⟩ := entrance_run hg hl h1 h2 he hp ht
    exact ⟨q, ⟨k, hq, h⟩, fun q' ⟨k', _, h'⟩ => (h'.unique h).2.2⟩
  · obtain ⟨p, k, hp, h⟩ := exit_run hg hl h1 h2 he hq ht
    refine ⟨p, ⟨k, hp, h⟩, fun p' ⟨k', hp', h'⟩ => ?_⟩
    have key : ∀ {p k p' k'}, g.In p → g.In p' → UgPair g.nb T p q d k → UgPair g.nb T p' q d k' → ¬ k < k' := by
      intro p k p' k' hp hp' h h' hlt
      have h1 := walk_opp hg hp h.2.1
      obtain ⟨r, hr1, hr2⟩ := walk_le h'.2.1 (show k' - k ≤ k' by omega)
      rw [show k' - (k' - k) = k by omega] at hr2
      have := walk_opp hg (walk_in hg hp' hr1) hr2
      rw [h1] at this; cases this
      exact h'.2.2.2.2 (k' - k) (by omega) (by have := h.1; omega) p hr1 h.along_left
    have hk : k = k' := by have := key hp hp' h h'; have := key hp' hp h' h; omega
    subst hk
    have := (walk_opp hg hp' h'.2.1).symm.trans (walk_opp hg hp h.2.1)
    simpa using this

theorem exAsg_underground : Sat exAsg (preventBadUndergrounding exGrid) := by decide +kernel
theorem exAsg_blockUg : Sat exAsg (blockUnderground exGrid (.ofBool true)) := by decide +kernel

example : (∀ d, exGrid.wraps d = false → (Edges.ofBool true).sel d = true) ∧ exLayout (1, 1) = .underground .down true ∧
    walk exGrid.nb (1, 1) .down 2 = some (1, 3) ∧ exLayout (1, 3) = .underground .down false :=
  ⟨fun d _ => by cases d <;> rfl, rfl, by decide, rfl⟩

/-! ### C21 -/

/-- C21: with a limit `L`, at most `L` cells lie between an entrance and its exit. -/
theorem c21_limit {g : Grid} (hg : g.WF) {cs : Cnf} (hc : initClauses g = .ok cs) (v : Asg) (hv : Sat v cs)
    (hu : Sat v (preventBadUndergrounding g)) (L : Nat) (hL : g.ugLen = some L) {ls : Cnf}
    (hls : enforceMaximumUndergroundLength g = .ok ls) (hv' : Sat v ls) (T : Nat × Nat → Tile) (hT : Decodes g v T)
    (p q : Nat × Nat) (d : Dir) (k : Nat) (hp : g.In p) (h : UgPair g.nb T p q d k) : k - 1 ≤ L := by
  have h1 : 1 ≤ L := by
    by_contra hn
    rw [enforceMaximumUndergroundLength, hL] at hls
    simp only at hls
    rw [if_neg (by omega)] at hls
    cases hls
  obtain ⟨ls', h2, h3⟩ := length_iff hg L hL h1
  rw [hls] at h2; cases h2
  exact pairs_len hg (lays_of_decodes (sem_of_sat hg hc hv) hT) ((Sat_underground g v).1 hu) ((h3 v).1 hv') hp h

/-- C21: no limit, no clause; a limit of zero is rejected. -/
theorem c21_no_limit (g : Grid) : (g.ugLen = none → enforceMaximumUndergroundLength g = .ok []) ∧
    (g.ugLen = some 0 → enforceMaximumUndergroundLength g = .error .assertion) := by
  constructor <;> intro h <;> simp [enforceMaximumUndergroundLength, h]

/-- C21: nothing else is excluded: an assignment violates the clauses exactly when `L + 1` consecutive cells all carry an
underground belt of one direction. -/
theorem c21_excludes_only {g : Grid} (hg : g.WF) (L : Nat) (hL : g.ugLen = some L) (h1 : 1 ≤ L) :
    ∃ ls, enforceMaximumUndergroundLength g = .ok ls ∧ ∀ v, ¬ Sat v ls ↔
      ∃ p d, g.In p ∧ ∀ i, i ≤ L → ∃ q, walk g.nb p d i = some q ∧ ev v ((g.at' q).ug d) = true := by
  obtain ⟨ls, h2, h3⟩ := length_iff hg L hL h1
  refine ⟨ls, h2, fun v => ?_⟩
  rw [h3]
  constructor
  · intro h
    by_contra hn
    apply h
    intro d p hp hall
    by_contra hc
    apply hn
    refine ⟨p, d, hp, fun i hi => ?_⟩
    obtain ⟨q, hq⟩ := hall i hi
    refine ⟨q, hq, ?_⟩
    rw [← Bool.not_eq_false]
    exact fun hf => hc ⟨i, hi, q, hq, hf⟩
  · rintro ⟨p, d, hp, h⟩ hl
    obtain ⟨i, hi, q, hq, hf⟩ := hl d p hp fun i hi => (h i hi).imp fun _ h => h.1
    obtain ⟨q', hq', ht⟩ := h i hi
    rw [hq] at hq'; cases hq'
    rw [show (g.vals v q).ug d = ev v ((g.at' q).ug d) from rfl, ht] at hf
    cases hf

theorem exAsg_length : okSat exAsg (enforceMaximumUndergroundLength exGrid) = true := by decide +kernel

/-! ### C22 -/

/-- One step along a belt line that leaves a tile other than a splitter. -/
def LineStep (g : Grid) (T : Nat × Nat → Tile) (p q : Nat × Nat) : Prop :=
  g.In p ∧ ((∃ d, g.nb p d = some q ∧ (T p).Emits d ∧ ¬ (T p).IsSplitter) ∨ ∃ d k, UgPair g.nb T p q d k)

/-- C22: the decoded colours obey the colour rules, hence the colour is constant along every belt line up to and including the
first splitter half. -/
theorem c22_colour {g : Grid} (hg : g.WF) {cs : Cnf} (hc : initClauses g = .ok cs) (v : Asg) (hv : Sat v cs)
    (hu : Sat v (preventBadUndergrounding g)) {ks : Cnf} (hks : preventBadColouring g = .ok ks) (hv' : Sat v ks)
    (T : Nat × Nat → Tile) (hT : Decodes g v T) :
    ColourRules g.In g.nb T (g.colours.getD 1) (fun p => value v (g.at' p).colour) ∧
    ∀ p q, Relation.ReflTransGen (LineStep g T) p q → value v (g.at' p).colour = value v (g.at' q).colour := by
  have hi := sem_of_sat hg hc hv
  obtain ⟨ks', h2, h3⟩ := colouring_iff hg
  rw [hks] at h2; cases h2
  have hr := colourRules_of_sem hg (lays_of_decodes hi hT) ((Sat_underground g v).1 hu) ((h3 v).1 hv')
    fun p hp => (hi.range p hp).1
  refine ⟨hr, fun p q h => ?_⟩
  induction h with
  | refl => rfl
  | tail _ hs ih =>
    rw [ih]
    obtain ⟨hin, ⟨d, h1, h2, h3⟩ | ⟨d, k, h1⟩⟩ := hs
    · exact hr.surface _ _ d hin h1 h2 h3
    · exact hr.under _ _ d k hin h1

/-- C22: the constraint never fails to be created. -/
theorem c22_total {g : Grid} (hg : g.WF) : ∃ ks, preventBadColouring g = .ok ks := by
  obtain ⟨ks, h, _⟩ := colouring_iff hg; exact ⟨ks, h⟩

theorem exAsg_colour : okSat exAsg (preventBadColouring exGrid) = true := by decide +kernel
example : value exAsg (exGrid.at' (1, 0)).colour = 1 ∧ value exAsg (exGrid.at' (1, 3)).colour = 1 := by decide +kernel

/-! ### C23 -/

/-- C23: `block_belts_through_edges` selects exactly the layouts without a surface crossing of a selected side. -/
theorem c23_belts {g : Grid} (hg : g.WF) {cs : Cnf} (hc : initClauses g = .ok cs) (v : Asg) (hv : Sat v cs) (e : Edges)
    (T : Nat × Nat → Tile) (hT : Decodes g v T) :
    Sat v (blockBelts g e) ↔ ∀ p d, g.In p → e.sel d = true → g.OnEdge p d →
      ¬ (T p).Emits d ∧ ¬ (T p).Takes d.opp ∧ T p ≠ .underground d true ∧ T p ≠ .underground d.opp false := by
  rw [Sat_blockBelt hg e v, blockBelt_iff (lays_of_decodes (sem_of_sat hg hc hv) hT) e]
  exact forall_congr' fun p => forall_congr' fun d => imp_congr_right fun _ => and_imp

/-- C23: after `block_underground_through_edges` no underground end faces a selected side from inside and no underground
connection crosses it (on a wrapping axis: the seam). -/
theorem c23_undergrounds {g : Grid} (hg : g.WF) {cs : Cnf} (hc : initClauses g = .ok cs) (v : Asg) (hv : Sat v cs) (e : Edges)
    (hu : Sat v (preventBadUndergrounding g)) (hb : Sat v (blockUnderground g e)) (T : Nat × Nat → Tile)
    (hT : Decodes g v T) :
    (∀ p d, g.In p → e.sel d = true → g.OnEdge p d → T p ≠ .underground d true ∧ T p ≠ .underground d.opp false) ∧
    ∀ p q d k, g.In p → UgPair g.nb T p q d k → ∀ i, i < k → ∀ r s, walk g.nb p d i = some r →
      walk g.nb p d (i + 1) = some s → ¬ (e.sel d = true ∧ g.OnEdge r d) ∧ ¬ (e.sel d.opp = true ∧ g.OnEdge s d.opp) := by
  have h := underShut_of_sem hg (lays_of_decodes (sem_of_sat hg hc hv) hT) ((Sat_underground g v).1 hu)
    ((Sat_blockUg hg e v).1 hb)
  exact ⟨fun p d hp h1 h2 => h.1 p d hp ⟨h1, h2⟩, h.2⟩

/-- C23: the clauses say nothing about unselected sides: with no side selected there are none, and each clause mentions only
cells on a selected side. -/
theorem c23_local {g : Grid} (hg : g.WF) (e : Edges) (v v' : Asg)
    (h : ∀ p d, g.In p → e.sel d = true → g.OnEdge p d → evalTile v (g.at' p) = evalTile v' (g.at' p)) :
    (Sat v (blockBelts g e) ↔ Sat v' (blockBelts g e)) ∧ (Sat v (blockUnderground g e) ↔ Sat v' (blockUnderground g e)) := by
  rw [Sat_blockBelt hg, Sat_blockBelt hg, Sat_blockUg hg, Sat_blockUg hg]
  constructor <;>
  · refine forall_congr' fun p => forall_congr' fun d => imp_congr_right fun hp => imp_congr_right fun hs => ?_
    simp only [Grid.vals, h p d hp hs.1 hs.2]

example : Sat exAsg (blockBelts exGrid ⟨false, true, true, false⟩) ∧ ¬ Sat exAsg (blockBelts exGrid ⟨false, false, false, true⟩) := by
  decide +kernel

/-! ### C24 -/

/-- The cell next to `p` against the direction `d`, seen from outside: the plane position is not in the grid. -/
def FromOutside (g : Grid) (p : Nat × Nat) (d : Dir) : Prop :=
  ¬ (0 ≤ (p.1 : Int) - d.dx ∧ (p.1 : Int) - d.dx < g.width ∧ 0 ≤ (p.2 : Int) - d.dy ∧ (p.2 : Int) - d.dy < g.height)

/-- The cell next to `p` in direction `d` is not in the grid. -/
def ToOutside (g : Grid) (p : Nat × Nat) (d : Dir) : Prop :=
  ¬ (0 ≤ (p.1 : Int) + d.dx ∧ (p.1 : Int) + d.dx < g.width ∧ 0 ≤ (p.2 : Int) + d.dy ∧ (p.2 : Int) + d.dy < g.height)

theorem mem_ioDirs {g : Grid} {p : Nat × Nat} (hp : g.In p) (hw : 2 ≤ g.width) (hh : 2 ≤ g.height) (d : Dir) :
    (d ∈ ioDirs g p ↔ FromOutside g p d) ∧ (d ∈ ioDirs g p ↔ ToOutside g p d.opp) := by
  obtain ⟨h1, h2⟩ := hp
  unfold ioDirs FromOutside ToOutside
  split_ifs <;> cases d <;> simp [Dir.dx, Dir.dy, Dir.opp] <;> omega

/-- C24 for grids at least two cells wide and high: a cell is marked as input (output) exactly when it has an input from (output
to) a position outside the grid. -/
theorem c24_markers_partial {g : Grid} (hg : g.WF) (hw : 2 ≤ g.width) (hh : 2 ≤ g.height) {cs : Cnf}
    (hc : initClauses g = .ok cs) (v : Asg) (hv : Sat v cs) (p : Nat × Nat) (hp : g.In p) :
    (ev v (g.at' p).isInput = true ↔ ∃ d, ev v ((g.at' p).inp d) = true ∧ FromOutside g p d) ∧
    (ev v (g.at' p).isOutput = true ↔ ∃ d, ev v ((g.at' p).out d) = true ∧ ToOutside g p d) := by
  obtain ⟨h1, h2⟩ := (sem_of_sat hg hc hv).io p hp
  constructor
  · refine h1.trans ⟨fun ⟨d, a, b⟩ => ⟨d, b, (mem_ioDirs hp hw hh d).1.1 a⟩, fun ⟨d, a, b⟩ => ⟨d, (mem_ioDirs hp hw hh d).1.2 b, a⟩⟩
  · refine h2.trans ⟨fun ⟨d, a, b⟩ => ⟨d.opp, b, (mem_ioDirs hp hw hh d).2.1 a⟩, fun ⟨d, a, b⟩ => ?_⟩
    refine ⟨d.opp, (mem_ioDirs hp hw hh d.opp).2.2 ?_, ?_⟩
    · rw [Dir.opp_opp]; exact b
    · rw [Dir.opp_opp]; exact a

/-- C24 in terms of the decoded tile, for tiles other than splitters. -/
theorem c24_tile_partial {g : Grid} (hg : g.WF) (hw : 2 ≤ g.width) (hh : 2 ≤ g.height) {cs : Cnf}
    (hc : initClauses g = .ok cs) (v : Asg) (hv : Sat v cs) (p : Nat × Nat) (hp : g.In p) (t : Tile)
    (ht : decodeCell g v p = .ok t) (hs : ¬ t.IsSplitter) :
    (ev v (g.at' p).isInput = true ↔ ∃ d, t.Takes d ∧ FromOutside g p d) ∧
    (ev v (g.at' p).isOutput = true ↔ ∃ d, t.Emits d ∧ ToOutside g p d) := by
  obtain ⟨t', h1, _, ha⟩ := c15_decode hg hc v hv p hp
  rw [ht] at h1; cases h1
  obtain ⟨a, b⟩ := c24_markers_partial hg hw hh hc v hv p hp
  have hf := ha.isSplitter_false hs
  refine ⟨a.trans (exists_congr fun d => and_congr_left fun _ => ?_), b.trans (exists_congr fun d => and_congr_left fun _ => ?_)⟩
  · exact ha.takes_iff hf d
  · exact ha.emits_iff hf d

/-- C24 fails on a grid one cell wide: a cell fed from outside on its right is not marked. -/
theorem c24_markers_refuted : ∃ (g : Grid) (cs : Cnf) (v : Asg) (d : Dir), g.WF ∧ initClauses g = .ok cs ∧ Sat v cs ∧
    ev v ((g.at' (0, 0)).inp d) = true ∧ FromOutside g (0, 0) d ∧ ev v (g.at' (0, 0)).isInput = false := by
  obtain ⟨cs, h1, h2⟩ := (okSat_iff (v := fun x => [1, 8, 11, 15].contains x)
    (e := initClauses (mkGrid 1 1 ⟨false, false⟩ none none .nil 0))).1 (by decide +kernel)
  exact ⟨_, cs, _, .left, mkGrid_wf (by decide) (by decide) _ _ _ (by intro n h; cases h) _ _, h1, h2, rfl,
    by simp [FromOutside, mkGrid, Dir.dx, Dir.dy], rfl⟩

example : ev exAsg (exGrid.at' (1, 3)).isOutput = true ∧ ToOutside exGrid (1, 3) .down := by
  refine ⟨rfl, ?_⟩; simp [ToOutside, exGrid, mkGrid, Dir.dx, Dir.dy]

/-! ### C26 -/

theorem tile_ext {t t' : Tile} (b1 : t.Basic) (b2 : t'.Basic) (n1 : ¬ t.IsSplitter) (n2 : ¬ t'.IsSplitter)
    (ht : ∀ d, t.Takes d ↔ t'.Takes d) (he : ∀ d, t.Emits d ↔ t'.Emits d) : t = t' := by
  have key : ∀ t : Tile, t.Basic → ¬ t.IsSplitter → ∃ a b : Option Dir, (∀ d, t.Takes d ↔ a = some d) ∧
      (∀ d, t.Emits d ↔ b = some d) ∧ t = (match a, b with
        | none, none => .empty | some i, some o => .belt i o | some d, none => .underground d true
        | none, some d => .underground d false) := by
    intro t hb hn
    cases t with
    | empty => exact ⟨none, none, by simp [Tile.Takes], by simp [Tile.Emits], rfl⟩
    | belt i o => exact ⟨some i, some o, by simp [Tile.Takes], by simp [Tile.Emits], rfl⟩
    | underground d b =>
      cases b
      · exact ⟨none, some d, by simp [Tile.Takes], by simp [Tile.Emits], rfl⟩
      · exact ⟨some d, none, by simp [Tile.Takes], by simp [Tile.Emits], rfl⟩
    | splitter d b => exact absurd ⟨d, b, rfl⟩ hn
    | _ => cases hb
  obtain ⟨a, b, h1, h2, rfl⟩ := key t b1 n1
  obtain ⟨a', b', h1', h2', rfl⟩ := key t' b2 n2
  have e1 : a = a' := Option.ext fun d => by rw [← h1, ← h1', ht]
  have e2 : b = b' := Option.ext fun d => by rw [← h2, ← h2', he]
  rw [e1, e2]

theorem agrees_same {c c' : CellVal} {t t' : Tile} (h : Agrees c t) (h' : Agrees c' t') (hi : ∀ d, c.inp d = c'.inp d)
    (ho : ∀ d, c.out d = c'.out d) (hs : c.isSplitter = c'.isSplitter) :
    t = t' ∨ ∃ d b b', t = .splitter d b ∧ t' = .splitter d b' := by
  by_cases hsp : c.isSplitter = true
  · obtain ⟨d, b, rfl⟩ := h.isSplitter_iff.1 hsp
    obtain ⟨_, _, h3⟩ := h.splitter_flags
    rw [hi, ho] at h3
    exact .inr ⟨d, b, _, rfl, h'.splitter_dir (hs ▸ hsp) h3⟩
  · left
    have h0 : c.isSplitter = false := by simpa using hsp
    have h0' : c'.isSplitter = false := by rw [← hs]; exact h0
    have ht : ∀ d, t.Takes d ↔ t'.Takes d := fun d => by rw [← h.takes_iff h0, ← h'.takes_iff h0', hi]
    have he : ∀ d, t.Emits d ↔ t'.Emits d := fun d => by rw [← h.emits_iff h0, ← h'.emits_iff h0', ho]
    have b1 := h.basic
    have b2 := h'.basic
    have n1 : ¬ t.IsSplitter := fun ⟨d, b, e⟩ => hsp (h.isSplitter_iff.2 ⟨d, b, e⟩)
    have n2 : ¬ t'.IsSplitter := fun ⟨d, b, e⟩ => hsp (hs ▸ h'.isSplitter_iff.2 ⟨d, b, e⟩)
    exact tile_ext b1 b2 n1 n2 ht he

/-- A grid none of whose sides wraps. -/
def Grid.NoWrap (g : Grid) : Prop := g.edge.wrapX = false ∧ g.edge.wrapY = false

/-- Distance from the side `d`. -/
def Grid.room (g : Grid) (p : Nat × Nat) : Dir → Nat
  | .right => g.width - 1 - p.1
  | .left => p.1
  | .up => p.2
  | .down => g.height - 1 - p.2

theorem room_lt {g : Grid} (hg : g.WF) (hw : g.NoWrap) {p q : Nat × Nat} {d : Dir} (hp : g.In p) (h : g.nb p d = some q) :
    g.room q d < g.room p d := by
  have := (Grid.offset_iff hg p d.dx d.dy q).1 h
  rw [hw.1, hw.2] at this
  obtain ⟨⟨a1, a2⟩, b1, b2⟩ := this
  obtain ⟨hp1, hp2⟩ := hp
  simp only [Bool.false_eq_true, if_false] at a2 b2
  cases d <;> simp only [Grid.room, Dir.dx, Dir.dy] at * <;> omega

theorem important_mem {g : Grid} {v v' : Asg} {ic : Bool} (h : ∀ l ∈ importantLits g ic, ev v l = ev v' l) {p : Nat × Nat}
    (hp : g.In p) : (∀ d, ev v ((g.at' p).inp d) = ev v' ((g.at' p).inp d)) ∧
    (∀ d, ev v ((g.at' p).out d) = ev v' ((g.at' p).out d)) ∧ ev v (g.at' p).isSplitter = ev v' (g.at' p).isSplitter := by
  have hm := (g.mem_cells p).2 hp
  have key : ∀ l, l ∈ (g.at' p).allDir ++ [(g.at' p).isSplitter] → ev v l = ev v' l := fun l hl =>
    h l (List.mem_flatMap.2 ⟨p, hm, List.mem_append_left _ hl⟩)
  refine ⟨fun d => key _ ?_, fun d => key _ ?_, key _ ?_⟩
  · cases d <;> simp [TileInst.allDir, dirs, Dir.all]
  · cases d <;> simp [TileInst.allDir, dirs, Dir.all]
  · simp

theorem head_same {g : Grid} (hg : g.WF) (hw : g.NoWrap) {cs : Cnf} (hc : initClauses g = .ok cs) (ic : Bool) (n : Nat) :
    ∀ (v v' : Asg) (T T' : Nat × Nat → Tile) (_ : Sat v cs) (_ : Sat v' cs) (_ : Decodes g v T) (_ : Decodes g v' T')
      (_ : ∀ l ∈ importantLits g ic, ev v l = ev v' l) (p : Nat × Nat) (d : Dir) (_ : g.In p) (_ : g.room p d.ccw ≤ n),
      T p = .splitter d true → T' p = .splitter d true := by
  induction n with
  | zero =>
    intro v v' T T' hv hv' hT hT' h p d hp hr ht
    obtain ⟨q, _, h2⟩ := (c17_paired hg hc v hv T hT).1.head p d hp ht
    have := room_lt hg hw hp h2.2.1
    omega
  | succ n ih =>
    intro v v' T T' hv hv' hT hT' h p d hp hr ht
    obtain ⟨q, hq, h2⟩ := (c17_paired hg hc v hv T hT).1.head p d hp ht
    have hlt := room_lt hg hw hp h2.2.1
    obtain ⟨e1, e2, e3⟩ := important_mem h hq
    have hq' : T' q = .splitter d false := by
      rcases agrees_same (lays_of_decodes (sem_of_sat hg hc hv) hT q hq) (lays_of_decodes (sem_of_sat hg hc hv') hT' q hq)
        e1 e2 e3 with e | ⟨d', b, b', e, e'⟩
      · rw [← e, h2.2.2]
      · rw [h2.2.2] at e; cases e
        cases b' with
        | false => exact e'
        | true =>
          have := ih v' v T' T hv' hv hT' hT (fun l hl => (h l hl).symm) q d hq (by omega) e'
          rw [h2.2.2] at this; cases this
    obtain ⟨p', hp', h3⟩ := (c17_paired hg hc v' hv' T' hT').1.tail q d hq hq'
    rw [Grid.nb_inj hg hp hp' h2.2.1 h3.2.1]
    exact h3.1

/-- C26: on a grid that does not wrap, two satisfying assignments that agree on the variables `itersolve` blocks decode to the same
layout, so no layout is lost. -/
theorem c26_important {g : Grid} (hg : g.WF) (hw : g.NoWrap) {cs : Cnf} (hc : initClauses g = .ok cs) (v v' : Asg)
    (hv : Sat v cs) (hv' : Sat v' cs) (ignoreColour : Bool)
    (h : ∀ l ∈ importantLits g ignoreColour, ev v l = ev v' l) (p : Nat × Nat) (hp : g.In p) :
    decodeCell g v p = decodeCell g v' p := by
  obtain ⟨T, hT⟩ := c15_layout hg hc v hv
  obtain ⟨T', hT'⟩ := c15_layout hg hc v' hv'
  rw [hT p hp, hT' p hp]
  obtain ⟨e1, e2, e3⟩ := important_mem h hp
  rcases agrees_same (lays_of_decodes (sem_of_sat hg hc hv) hT p hp) (lays_of_decodes (sem_of_sat hg hc hv') hT' p hp)
    e1 e2 e3 with e | ⟨d, b, b', e, e'⟩
  · rw [e]
  · rw [e, e']
    cases b <;> cases b'
    · rfl
    · have := head_same hg hw hc ignoreColour _ v' v T' T hv' hv hT' hT (fun l hl => (h l hl).symm) p d hp le_rfl e'
      rw [this] at e; cases e
    · have := head_same hg hw hc ignoreColour _ v v' T T' hv hv' hT hT' h p d hp le_rfl e
      rw [this] at e'; cases e'
    · rfl

/-- With wrapping the splitter heads are not determined: on a column of two cells that wraps, the two halves may be swapped. -/
theorem c26_wrap_refuted : ∃ (g : Grid) (cs : Cnf) (v v' : Asg) (p : Nat × Nat), g.WF ∧ initClauses g = .ok cs ∧ Sat v cs ∧
    Sat v' cs ∧ Sat v (preventIntersection g) ∧ Sat v' (preventIntersection g) ∧
    (∀ l ∈ importantLits g true, ev v l = ev v' l) ∧ g.In p ∧ decodeCell g v p ≠ decodeCell g v' p := by
  obtain ⟨cs, h1, h2⟩ := (okSat_iff (v := fun x => [3, 6, 7, 9, 13, 23, 27, 29, 33].contains x)
    (e := initClauses (mkGrid 1 2 ⟨false, true⟩ none none .nil 0))).1 (by decide +kernel)
  obtain ⟨cs', h1', h2'⟩ := (okSat_iff (v := fun x => [3, 7, 9, 13, 23, 26, 27, 29, 33].contains x)
    (e := initClauses (mkGrid 1 2 ⟨false, true⟩ none none .nil 0))).1 (by decide +kernel)
  rw [h1] at h1'; cases h1'
  exact ⟨_, cs, _, _, (0, 0), mkGrid_wf (by decide) (by decide) _ _ _ (by intro n h; cases h) _ _, h1, h2, h2',
    by decide +kernel, by decide +kernel, by decide +kernel, by decide, by intro h; cases h⟩

/-- "Exactly once" fails: a splitter half on the border may or may not use its outer end, so one layout is enumerated more than
once. -/
theorem c26_once_refuted : ∃ (g : Grid) (cs : Cnf) (v v' : Asg), g.WF ∧ g.NoWrap ∧ initClauses g = .ok cs ∧ Sat v cs ∧
    Sat v' cs ∧ Sat v (preventIntersection g) ∧ Sat v' (preventIntersection g) ∧
    (∃ l ∈ importantLits g true, ev v l ≠ ev v' l) ∧ ∀ p, g.In p → decodeCell g v p = decodeCell g v' p := by
  obtain ⟨cs, h1, h2⟩ := (okSat_iff (v := fun x => [3, 7, 9, 13, 23, 26, 27, 29, 33].contains x)
    (e := initClauses (mkGrid 1 2 ⟨false, false⟩ none none .nil 0))).1 (by decide +kernel)
  obtain ⟨cs', h1', h2'⟩ := (okSat_iff (v := fun x => [3, 13, 23, 26, 27, 29, 33].contains x)
    (e := initClauses (mkGrid 1 2 ⟨false, false⟩ none none .nil 0))).1 (by decide +kernel)
  rw [h1] at h1'; cases h1'
  refine ⟨_, cs, _, _, mkGrid_wf (by decide) (by decide) _ _ _ (by intro n h; cases h) _ _, ⟨rfl, rfl⟩, h1, h2, h2',
    by decide +kernel, by decide +kernel, ⟨⟨9, true⟩, by decide +kernel, by decide⟩, fun p hp => ?_⟩
  have hm := (Grid.mem_cells _ p).2 hp
  change p ∈ [((0 : Nat), (0 : Nat)), (0, 1)] at hm
  simp only [List.mem_cons, List.not_mem_nil, or_false] at hm
  rcases hm with rfl | rfl <;> rfl

/-! ### C58 -/

/-- The clauses of the constructor and of the basic constraints, as the applications add them: `eB` the sides shut for belts, `eU`
those shut for undergrounds. -/
def basicClauses (g : Grid) (eB eU : Edges) : Except PyErr Cnf :=
  match initClauses g, enforceMaximumUndergroundLength g, preventBadColouring g with
  | .ok a, .ok b, .ok c =>
    .ok (a ++ preventIntersection g ++ preventBadUndergrounding g ++ blockBelts g eB ++ blockUnderground g eU ++ b ++ c)
  | _, _, _ => .error .assertion

/-- C58: for every grid and every layout, the clauses have a solution that decodes to the layout, with the given colours, exactly
when the layout obeys the basic rules and the colours follow its belts.  In particular an UNSAT answer means that no layout exists.
(Every side that does not wrap is shut for undergrounds, as in all the applications.) -/
theorem c58_exact {width height : Nat} (hw : 0 < width) (hh : 0 < height) (edge : EdgeMode) (colours ugLen : Option Nat)
    (hn : ∀ n, colours = some n → 1 ≤ n) (hL : ∀ l, ugLen = some l → 1 ≤ l) (extras : TFields) (s : Nat) (eB eU : Edges)
    (hE : ∀ d, (mkGrid width height edge colours ugLen extras s).wraps d = false → eU.sel d = true) :
    ∃ cs, basicClauses (mkGrid width height edge colours ugLen extras s) eB eU = .ok cs ∧
    ∀ (T : Nat × Nat → Tile) (col : Nat × Nat → Nat),
      let g := mkGrid width height edge colours ugLen extras s
      (∃ v, Sat v cs ∧ Decodes g v T ∧ ∀ p, g.In p → value v (g.at' p).colour = col p) ↔
      (BasicRules g.In g.nb T (g.shut eB) (g.shut eU) ugLen ∧ ColourRules g.In g.nb T (colours.getD 1) col) := by
  have hg : (mkGrid width height edge colours ugLen extras s).WF := mkGrid_wf hw hh edge colours ugLen hn extras s
  generalize hgd : mkGrid width height edge colours ugLen extras s = g at hg hE
  have hcol : g.colours = colours := by rw [← hgd]; rfl
  have hug : g.ugLen = ugLen := by rw [← hgd]; rfl
  obtain ⟨ci, hi1, hi2⟩ := init_iff hg
  obtain ⟨cc, hc1, hc2⟩ := colouring_iff hg
  have hlen : ∃ cl, enforceMaximumUndergroundLength g = .ok cl ∧
      ∀ v, Sat v cl ↔ ∀ l, ugLen = some l → LengthSem g (g.vals v) l := by
    cases hul : ugLen with
    | none => exact ⟨[], by rw [(c21_no_limit g).1 (hug.trans hul)], fun v => by simp⟩
    | some l =>
      obtain ⟨cl, h1, h2⟩ := length_iff hg l (hug.trans hul) (hL l hul)
      exact ⟨cl, h1, fun v => by rw [h2]; simp⟩
  obtain ⟨cl, hl1, hl2⟩ := hlen
  refine ⟨_, by rw [basicClauses, hi1, hl1, hc1], fun T col => ?_⟩
  have hsat : ∀ v, Sat v (ci ++ preventIntersection g ++ preventBadUndergrounding g ++ blockBelts g eB ++ blockUnderground g eU
      ++ cl ++ cc) ↔ InitSem g (g.vals v) ∧ IntersectionSem g (g.vals v) ∧ UndergroundSem g (g.vals v) ∧
        BlockBeltSem g eB (g.vals v) ∧ BlockUgSem g eU (g.vals v) ∧ (∀ l, ugLen = some l → LengthSem g (g.vals v) l) ∧
        ColourSem g (g.vals v) := by
    intro v
    simp only [Sat_append, hi2, hc2, hl2, Sat_intersection, Sat_underground, Sat_blockBelt hg, Sat_blockUg hg, and_assoc]
  show (∃ v, Sat v _ ∧ _) ↔ _
  constructor
  · rintro ⟨v, hv, hT, hcv⟩
    obtain ⟨h1, h2, h3, h4, h5, h6, h7⟩ := (hsat v).1 hv
    have hl := lays_of_decodes h1 hT
    have hr := colourRules_of_sem hg hl h3 h7 fun p hp => (h1.range p hp).1
    refine ⟨⟨fun p hp => (hl p hp).basic, (splitterSem_iff hg hl).1 h1.splitter, joined_of_sem hg hl h2, ends_of_sem hg hl h2,
      ⟨fun p d hp ht => ?_, fun q d hq ht => ?_, fun p q d k hp hpair l hul => pairs_len hg hl h3 (h6 l hul) hp hpair⟩,
      (blockBelt_iff hl eB).1 h4, underShut_of_sem hg hl h3 h5⟩, ?_⟩
    · obtain ⟨q, k, a, b, _⟩ := entrance_run hg hl h3 h5 hE hp ht
      exact ⟨q, k, a, b⟩
    · obtain ⟨p, k, a, b⟩ := exit_run hg hl h3 h5 hE hq ht
      exact ⟨p, k, a, b⟩
    · have e : ∀ p, g.In p → binVal (g.vals v p).colour = col p := hcv
      rw [← hcol]
      refine ⟨fun p hp => ?_, fun p q d hp hq h1 h2 => ?_, fun p q d k hp hpair => ?_⟩
      · rw [← e p hp]; exact hr.lt p hp
      · rw [← e p hp, ← e q (Grid.nb_in hg hq)]; exact hr.surface p q d hp hq h1 h2
      · rw [← e p hp, ← e q (walk_in hg hp hpair.2.1)]; exact hr.under p q d k hp hpair
  · rintro ⟨hb, hr⟩
    rw [← hcol] at hr
    have hl := realise_lays (col := col) hg hb.basic hb.joined hb.ends
    obtain ⟨v, _, hv⟩ := mkGrid_free width height edge colours ugLen extras s (fun _ => false) (realise g T col)
      (fun _ => List.replicate extras.variableCount false) (fun p => by simp [realise, drawCell, hcol, Grid.bits])
      (fun p => by simp [realise, drawCell, hcol, Grid.bits])
      (fun p => by simp [realise, drawCell, hcol, Grid.bits]) (fun p => by simp)
    rw [hgd] at hv
    have hvals : ∀ p, g.In p → g.vals v p = realise g T col p := fun p hp => (hv p hp).1
    refine ⟨v, (hsat v).2 ⟨(realise_init hg hl hb.splitters hr.lt).congr hg hvals,
      (realise_intersection hg hb.basic hb.joined hb.ends).congr hg hvals,
      (realise_underground hg hl hb.undergrounds).congr hg hvals, ((blockBelt_iff hl eB).2 hb.surface).congr hvals,
      (realise_blockUg hg hl hb.under).congr hvals, fun l hul => (realise_length hg (hul ▸ hb.undergrounds)).congr hg hvals,
      (realise_colour hg hl hb.undergrounds hr).congr hg hvals⟩, decodes_of_lays fun p hp => ?_, fun p hp => ?_⟩
    · rw [hvals p hp]; exact hl p hp
    · show binVal (g.vals v p).colour = _
      rw [hvals p hp]
      exact binVal_getBits_of_range _ _ (bits_lt hg (hr.lt p hp))

/-- C58: UNSAT means that no layout obeys the basic rules. -/
theorem c58_unsat {width height : Nat} (hw : 0 < width) (hh : 0 < height) (edge : EdgeMode) (ugLen : Option Nat)
    (hL : ∀ l, ugLen = some l → 1 ≤ l) (extras : TFields) (s : Nat) (eB eU : Edges)
    (hE : ∀ d, (mkGrid width height edge none ugLen extras s).wraps d = false → eU.sel d = true) :
    ∃ cs, basicClauses (mkGrid width height edge none ugLen extras s) eB eU = .ok cs ∧
    ((¬ ∃ v, Sat v cs) ↔ ¬ ∃ T, let g := mkGrid width height edge none ugLen extras s
      BasicRules g.In g.nb T (g.shut eB) (g.shut eU) ugLen) := by
  obtain ⟨cs, h1, h2⟩ := c58_exact hw hh edge none ugLen (by intro n h; cases h) hL extras s eB eU hE
  refine ⟨cs, h1, not_congr ⟨?_, ?_⟩⟩
  · rintro ⟨v, hv⟩
    have hg := mkGrid_wf hw hh edge none ugLen (by intro n h; cases h) extras s
    obtain ⟨ci, hi1, _⟩ := init_iff hg
    have hvi : Sat v ci := by
      rw [basicClauses, hi1] at h1
      split at h1
      · rename_i a b c e1 e2 e3
        cases e1; cases h1
        simp only [Sat_append] at hv
        exact hv.1.1.1.1.1.1
      · cases h1
    obtain ⟨T, hT⟩ := c15_layout hg hi1 v hvi
    exact ⟨T, ((h2 T fun p => value v ((mkGrid width height edge none ugLen extras s).at' p).colour).1 ⟨v, hv, hT, fun _ _ => rfl⟩).1⟩
  · rintro ⟨T, hT⟩
    obtain ⟨v, hv, _⟩ := (h2 T fun _ => 0).2 ⟨hT, fun p _ => by simp, fun _ _ _ _ _ _ _ => rfl, fun _ _ _ _ _ _ => rfl⟩
    exact ⟨v, hv⟩

/-- The example layout obeys the rules. -/
example : ∃ cs v, basicClauses exGrid ⟨false, true, true, false⟩ (.ofBool true) = .ok cs ∧ Sat v cs ∧ Decodes exGrid v exLayout ∧
    BasicRules exGrid.In exGrid.nb exLayout (exGrid.shut ⟨false, true, true, false⟩) (exGrid.shut (.ofBool true)) (some 4) := by
  obtain ⟨cs, h1, h2⟩ := c58_exact (width := 2) (height := 4) (by decide) (by decide) ⟨false, false⟩ (some 3) (some 4)
    (by intro n h; cases h; decide) (by intro n h; cases h; decide) .nil 0 ⟨false, true, true, false⟩ (.ofBool true)
    (by intro d _; cases d <;> rfl)
  obtain ⟨cs', h3, h4⟩ := (okSat_iff (v := exAsg) (e := basicClauses exGrid ⟨false, true, true, false⟩ (.ofBool true))).1
    (by decide +kernel)
  have : cs' = cs := by have := h3.symm.trans h1; cases this; rfl
  subst this
  exact ⟨cs', exAsg, h3, h4, exAsg_decodes, ((h2 exLayout _).1 ⟨exAsg, h4, exAsg_decodes, fun _ _ => rfl⟩).1⟩

end FSat
