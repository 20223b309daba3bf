import Verif.Lemmas.Mirror
import Verif.Lemmas.Library
import Verif.Lemmas.Invert
import Verif.Props.Balancer
/-!
# Symmetry breaking, and the mirror image of a balancer
-/

set_option linter.unusedSimpArgs false

namespace FSat

/-! ### break_vertical_symmetry -/

/-- The flags of a cell in the order in which `break_vertical_symmetry` compares them. -/
def CellVal.code (c : CellVal) : List Bool :=
  [c.inp .right, c.inp .left, c.out .right, c.out .left] ++ c.kinds ++ [c.inp .up, c.out .up, c.inp .down, c.out .down]

theorem mirrorLits_fst (v : Asg) (t : TileInst) : (mirrorLits t).1.map (ev v) = (evalTile v t).code := rfl
theorem mirrorLits_snd (v : Asg) (t : TileInst) : (mirrorLits t).2.map (ev v) = (evalTile v t).mirrorY.code := rfl

theorem mirrorLits_bound {s : Nat} {t : TileInst} (h : LBound s t.lits) : LBound s (mirrorLits t).1 ∧ LBound s (mirrorLits t).2 := by
  have e : ∀ l, l ∈ (mirrorLits t).1 ∨ l ∈ (mirrorLits t).2 → l ∈ t.lits := by
    intro l hl
    have hm := fun d => mem_dirs t.inp d
    have hm' := fun d => mem_dirs t.out d
    simp only [mirrorLits, TileInst.types, List.mem_append, List.mem_cons, List.not_mem_nil, or_false] at hl
    simp only [TileInst.lits, List.mem_append, List.mem_cons, List.not_mem_nil, or_false]
    have hm1 := hm .right; have hm2 := hm .up; have hm3 := hm .left; have hm4 := hm .down
    have ho1 := hm' .right; have ho2 := hm' .up; have ho3 := hm' .left; have ho4 := hm' .down
    rcases hl with (((rfl | rfl | rfl | rfl) | (rfl | rfl | rfl | rfl | rfl)) | (rfl | rfl | rfl | rfl)) |
      (((rfl | rfl | rfl | rfl) | (rfl | rfl | rfl | rfl | rfl)) | (rfl | rfl | rfl | rfl)) <;> simp [*]
  exact ⟨fun l hl => h l (e l (.inl hl)), fun l hl => h l (e l (.inr hl))⟩

/-- The rows `a` to `a + n - 1`, as literals. -/
def topRows (g : Grid) (a n : Nat) : List Lit := (List.range' a n).flatMap fun dy => (mirrorRow g dy).1
/-- The rows opposite to the rows `a` to `a + n - 1`, as literals. -/
def botRows (g : Grid) (a n : Nat) : List Lit := (List.range' a n).flatMap fun dy => (mirrorRow g dy).2

theorem topRows_succ (g : Grid) (a n : Nat) : topRows g a (n + 1) = (mirrorRow g a).1 ++ topRows g (a + 1) n := by
  simp [topRows, List.range'_succ]
theorem botRows_succ (g : Grid) (a n : Nat) : botRows g a (n + 1) = (mirrorRow g a).2 ++ botRows g (a + 1) n := by
  simp [botRows, List.range'_succ]

theorem breakVerticalFrom_eq (g : Grid) (n dy : Nat) (top bot : List Lit) (h : dy + n ≤ g.height) :
    breakVerticalFrom g dy n top bot =
      Gen.all ((List.range n).map fun k => breakSymmetry poolAlloc (top ++ topRows g dy (k + 1)) (bot ++ botRows g dy (k + 1))) := by
  induction n generalizing dy top bot with
  | zero => rfl
  | succ n ih =>
    funext s
    rw [List.range_succ_eq_map, List.map_cons, List.map_map]
    simp only [breakVerticalFrom, if_pos (show dy < g.height by omega)]
    rw [ih (dy + 1) _ _ (by omega)]
    conv => rhs; unfold Gen.all
    rw [topRows_succ, botRows_succ]
    simp only [topRows, botRows, List.range'_zero, List.flatMap_nil, List.append_nil]
    have e : ((fun k => breakSymmetry poolAlloc (top ++ (List.range' dy (k + 1)).flatMap fun dy => (mirrorRow g dy).1)
        (bot ++ (List.range' dy (k + 1)).flatMap fun dy => (mirrorRow g dy).2)) ∘ Nat.succ) =
        fun k => breakSymmetry poolAlloc (top ++ (mirrorRow g dy).1 ++ (List.range' (dy + 1) (k + 1)).flatMap fun dy => (mirrorRow g dy).1)
        (bot ++ (mirrorRow g dy).2 ++ (List.range' (dy + 1) (k + 1)).flatMap fun dy => (mirrorRow g dy).2) := by
      funext k
      simp [List.range'_succ, List.append_assoc]
    rw [e]
    cases h1 : breakSymmetry poolAlloc (top ++ (mirrorRow g dy).1) (bot ++ (mirrorRow g dy).2) s with
    | error e => rfl
    | ok r =>
      obtain ⟨cs, s1⟩ := r
      simp only
      split <;> simp_all

theorem mirrorRow_length (g : Grid) (dy : Nat) : (mirrorRow g dy).1.length = (mirrorRow g dy).2.length := by
  simp only [mirrorRow, List.length_flatMap]
  congr 1

theorem rows_length (g : Grid) (a n : Nat) : (topRows g a n).length = (botRows g a n).length := by
  simp only [topRows, botRows, List.length_flatMap, mirrorRow_length]

theorem rows_bound {g : Grid} {s : Nat} (hb : g.LitsLe s) (a n : Nat) (h : a + n ≤ g.height) :
    LBound s (topRows g a n) ∧ LBound s (botRows g a n) := by
  constructor
  · intro l hl
    simp only [topRows, mirrorRow, List.mem_flatMap, List.mem_range'_1, List.mem_range] at hl
    obtain ⟨dy, ⟨h1, h2⟩, x, hx, hl⟩ := hl
    exact (mirrorLits_bound (hb (x, dy) ⟨hx, by show dy < g.height; omega⟩)).1 l hl
  · intro l hl
    simp only [botRows, mirrorRow, List.mem_flatMap, List.mem_range'_1, List.mem_range] at hl
    obtain ⟨dy, ⟨h1, h2⟩, x, hx, hl⟩ := hl
    exact (mirrorLits_bound (hb (x, g.height - 1 - dy) ⟨hx, by show g.height - 1 - dy < g.height; omega⟩)).2 l hl

theorem breakSymmetry_enc {s0 : Nat} {left right : List Lit} (h : left.length = right.length) (hl : LBound s0 left) (hr : LBound s0 right) :
    GenEnc s0 (breakSymmetry poolAlloc left right) fun v => LexLe (left.map (ev v)) (right.map (ev v)) := by
  refine ⟨fun v w ha => ?_, fun s hs cs s' hf => ?_⟩
  · rw [map_ev_agree ha hl, map_ev_agree ha hr]
  · obtain ⟨cls, e, h1, h2, h3, h4⟩ := breakSymmetry_pool left right s h (hl.mono hs) (hr.mono hs)
    rw [e] at hf
    cases hf
    exact ⟨h1, fun v w ha hv => (Sat_agree ha h2).2 hv, h3, h4⟩

theorem Gen.all_total_from {s0 : Nat} {fs : List Gen} (h : ∀ f ∈ fs, ∀ s, s0 ≤ s → ∃ r, f s = .ok r ∧ s ≤ r.2) (s : Nat) (hs : s0 ≤ s) :
    ∃ r, Gen.all fs s = .ok r := by
  induction fs generalizing s with
  | nil => exact ⟨_, rfl⟩
  | cons f fs ih =>
    obtain ⟨r, hr, hle⟩ := h f (by simp) s hs
    obtain ⟨r', hr'⟩ := ih (fun x hx => h x (by simp [hx])) r.2 (by omega)
    unfold Gen.all
    rw [hr]
    simp only [hr']
    exact ⟨_, rfl⟩

theorem LexLe_prefix {a b c d : List Bool} (hl : a.length = b.length) (h : LexLe (a ++ c) (b ++ d)) : LexLe a b := by
  induction a generalizing b with
  | nil => cases b <;> simp_all [LexLe]
  | cons x a ih =>
    cases b with
    | nil => simp at hl
    | cons y b =>
      simp only [List.cons_append, LexLe] at h ⊢
      exact h.imp id fun h => ⟨h.1, ih (by simpa using hl) h.2⟩

theorem breakVertical_enc {g : Grid} (hh : 2 ≤ g.height) {s : Nat} (hb : g.LitsLe s) :
    GenEnc s (breakVerticalSymmetry g) fun v => ∀ k ∈ List.range (max 2 (g.height / 2)),
      LexLe (([] ++ topRows g 0 (k + 1)).map (ev v)) (([] ++ botRows g 0 (k + 1)).map (ev v)) := by
  have heq := breakVerticalFrom_eq g (max 2 (g.height / 2)) 0 [] [] (by omega)
  have hlen : ∀ k, ([] ++ topRows g 0 (k + 1)).length = ([] ++ botRows g 0 (k + 1)).length := fun k => by
    simpa using rows_length g 0 (k + 1)
  have := GenEnc.map (s0 := s) (List.range (max 2 (g.height / 2)))
    (f := fun k => breakSymmetry poolAlloc ([] ++ topRows g 0 (k + 1)) ([] ++ botRows g 0 (k + 1)))
    (P := fun k v => LexLe (([] ++ topRows g 0 (k + 1)).map (ev v)) (([] ++ botRows g 0 (k + 1)).map (ev v))) (by
    intro k hk
    rw [List.mem_range] at hk
    obtain ⟨h1, h2⟩ := rows_bound hb 0 (k + 1) (by omega)
    exact breakSymmetry_enc (hlen k) (by simpa using h1) (by simpa using h2))
  rw [← heq] at this
  exact this

/-- What the clauses say about the rows. -/
theorem breakVertical_rows {g : Grid} (hh : 2 ≤ g.height) {s : Nat} (hb : g.LitsLe s) :
    ∃ cs s', breakVerticalSymmetry g s = .ok (cs, s') ∧
      ∀ v, SatUpTo s v cs ↔ LexLe ((topRows g 0 (max 2 (g.height / 2))).map (ev v)) ((botRows g 0 (max 2 (g.height / 2))).map (ev v)) := by
  have heq := breakVerticalFrom_eq g (max 2 (g.height / 2)) 0 [] [] (by omega)
  have hlen : ∀ k, ([] ++ topRows g 0 (k + 1)).length = ([] ++ botRows g 0 (k + 1)).length := fun k => by
    simpa using rows_length g 0 (k + 1)
  have hgen := breakVertical_enc hh hb
  have htot : ∃ r, breakVerticalSymmetry g s = .ok r := by
    unfold breakVerticalSymmetry
    rw [heq]
    refine Gen.all_total_from (s0 := s) ?_ s le_rfl
    intro f hf s1 hs1
    obtain ⟨k, hk, rfl⟩ := List.mem_map.1 hf
    rw [List.mem_range] at hk
    obtain ⟨h1, h2⟩ := rows_bound hb 0 (k + 1) (by omega)
    obtain ⟨cls, e, h3, _⟩ := breakSymmetry_pool ([] ++ topRows g 0 (k + 1)) ([] ++ botRows g 0 (k + 1)) s1 (hlen k)
      (by simpa using h1.mono hs1) (by simpa using h2.mono hs1)
    exact ⟨_, e, h3⟩
  obtain ⟨⟨cs, s'⟩, hr⟩ := htot
  have henc := hgen.2 s le_rfl cs s' hr
  refine ⟨cs, s', hr, fun v => ?_⟩
  constructor
  · rintro ⟨w, hw, hs⟩
    have hP := henc.sound w hs (max 2 (g.height / 2) - 1) (List.mem_range.2 (by omega))
    rw [show max 2 (g.height / 2) - 1 + 1 = max 2 (g.height / 2) by omega, List.nil_append, List.nil_append] at hP
    obtain ⟨h1, h2⟩ := rows_bound hb 0 (max 2 (g.height / 2)) (by omega)
    rw [map_ev_agree hw h1, map_ev_agree hw h2] at hP
    exact hP
  · intro h
    refine henc.complete v fun k hk => ?_
    rw [List.mem_range] at hk
    have hsplit : ∀ f : Nat → List Lit, (List.range' 0 (max 2 (g.height / 2))).flatMap f =
        (List.range' 0 (k + 1)).flatMap f ++ (List.range' (k + 1) (max 2 (g.height / 2) - (k + 1))).flatMap f := by
      intro f
      rw [← List.flatMap_append]
      congr 1
      have := (List.range'_append (s := 0) (m := k + 1) (n := max 2 (g.height / 2) - (k + 1)) (step := 1)).symm
      rw [show k + 1 + (max 2 (g.height / 2) - (k + 1)) = max 2 (g.height / 2) by omega, show 0 + 1 * (k + 1) = k + 1 by omega] at this
      exact this
    rw [topRows, botRows, hsplit, hsplit, List.map_append, List.map_append] at h
    exact LexLe_prefix (by simpa [topRows, botRows] using hlen k) h

/-- The rows compared by `break_vertical_symmetry`, in the order of the comparison. -/
def Grid.upper (g : Grid) (v : Asg) : List Bool :=
  (List.range (max 2 (g.height / 2))).flatMap fun y => (List.range g.width).flatMap fun x => (evalTile v (g.tile x y)).code

theorem upper_top (g : Grid) (v : Asg) : (topRows g 0 (max 2 (g.height / 2))).map (ev v) = g.upper v := by
  simp only [topRows, mirrorRow, Grid.upper, List.map_flatMap, mirrorLits_fst, ← List.range_eq_range']

theorem upper_bot {g : Grid} (hh : 2 ≤ g.height) {v v' : Asg} (hm : g.Mirrored v v') :
    (botRows g 0 (max 2 (g.height / 2))).map (ev v) = g.upper v' := by
  simp only [botRows, mirrorRow, Grid.upper, List.map_flatMap, mirrorLits_snd, ← List.range_eq_range']
  refine List.flatMap_congr fun y hy => List.flatMap_congr fun x hx => ?_
  rw [List.mem_range] at hx hy
  rw [hm x hx y (by omega)]

theorem Grid.Mirrored.symm {g : Grid} {v v' : Asg} (h : g.Mirrored v v') (hc : ∀ p, g.In p → ∃ t, Agrees (g.vals v p) t) :
    g.Mirrored v' v := by
  intro x hx y hy
  have := h x hx (g.height - 1 - y) (by omega)
  rw [show g.height - 1 - (g.height - 1 - y) = y by omega] at this
  rw [this]
  obtain ⟨t, ht⟩ := hc (x, y) ⟨hx, hy⟩
  have hk := fun hh => head_splitter ht hh
  show g.vals v (x, y) = (g.vals v (x, y)).mirrorY.mirrorY
  generalize g.vals v (x, y) = c at *
  obtain ⟨isBelt, isEmpty, isSplitter, isUgIn, isUgOut, isHead, _, _, _, _, _, _, _, _⟩ := c
  simp only [CellVal.mirrorY, Dir.mirrorY_mirrorY]
  simp only at hk
  cases isHead <;> cases isSplitter <;> simp_all

/-- The mirror image exists: the variables of the cells are free. -/
theorem mirror_exists (width height : Nat) (edge : EdgeMode) (colours ugLen : Option Nat) (extras : TFields) (s : Nat) (hw : 0 < width)
    (hh : 0 < height) (hn : ∀ n, colours = some n → 1 ≤ n) (v : Asg) :
    ∃ v', (mkGrid width height edge colours ugLen extras s).Mirrored v v' := by
  have hg := mkGrid_wf hw hh edge colours ugLen hn extras s
  generalize hgd : mkGrid width height edge colours ugLen extras s = g at hg
  have e : g.bits = ((colours.getD 1) - 1).size := by rw [← hgd]; rfl
  obtain ⟨w, _, h⟩ := mkGrid_free width height edge colours ugLen extras s v (g.mirrorVals (g.vals v))
    (fun _ => List.replicate extras.variableCount false)
    (fun p => by rw [← e]; simpa [Grid.mirrorVals, CellVal.mirrorY, Grid.vals, evalTile] using hg.c _)
    (fun p => by rw [← e]; simpa [Grid.mirrorVals, CellVal.mirrorY, Grid.vals, evalTile] using hg.cx _)
    (fun p => by rw [← e]; simpa [Grid.mirrorVals, CellVal.mirrorY, Grid.vals, evalTile] using hg.cy _) (fun p => by simp)
  rw [hgd] at h
  exact ⟨w, (Grid.mirrored_iff v w).2 fun p hp => (h p hp).1⟩

/-- The mirror image decodes to the mirror image. -/
theorem Grid.Mirrored.decodes {g : Grid} {v v' : Asg} (h : g.Mirrored v v') (hi : InitSem g (g.vals v)) {T : Nat × Nat → Tile}
    (hT : Decodes g v T) : Decodes g v' fun p => (T (g.mirrorPos p)).mirrorY := by
  refine decodes_of_lays fun p hp => ?_
  rw [(Grid.mirrored_iff v v').1 h p hp]
  exact (lays_of_decodes hi hT _ (Grid.mirrorPos_in hp)).mirrorY

/-! ### The mirror image of a balancer -/

theorem SameSide.swap {a b : Colour} {s : Colour × Colour} (h : SameSide (a, b) s) : SameSide (b, a) s := by
  rcases h with h | h
  · exact .inr (by rw [← h])
  · exact .inl (by obtain ⟨s1, s2⟩ := s; simp only [Prod.mk.injEq] at h ⊢; exact ⟨h.2, h.1⟩)

/-- The other half of a splitter. -/
def Grid.partner (g : Grid) (T : Nat × Nat → Tile) (q : Nat × Nat) : Nat × Nat :=
  match T q with
  | .splitter d true => (g.nb q d.ccw).getD q
  | .splitter d false => (g.nb q d.ccw.opp).getD q
  | _ => q

section
variable {g : Grid} {T : Nat × Nat → Tile}

theorem partner_head {p q : Nat × Nat} {d : Dir} (h : SplitterPair g.nb T p q d) : g.partner T p = q := by
  simp [Grid.partner, h.1, h.2.1]

theorem partner_tail (hg : g.WF) {p q : Nat × Nat} (hp : g.In p) {d : Dir} (h : SplitterPair g.nb T p q d) : g.partner T q = p := by
  simp [Grid.partner, h.2.2, Grid.nb_opp hg hp h.2.1]

theorem partner_spec (hg : g.WF) (hs : PairedSplitters g.In g.nb T) {q : Nat × Nat} (hq : g.In q) :
    g.In (g.partner T q) ∧ g.partner T (g.partner T q) = q := by
  cases h : T q with
  | splitter d b =>
    cases b with
    | true =>
      obtain ⟨r, hr, hp⟩ := hs.head q d hq h
      rw [partner_head hp]
      exact ⟨hr, partner_tail hg hq hp⟩
    | false =>
      obtain ⟨r, hr, hp⟩ := hs.tail q d hq h
      rw [partner_tail hg hr hp]
      exact ⟨hr, partner_head hp⟩
  | _ => simp [Grid.partner, h, hq]

theorem mirror_splitterPair (hg : g.WF) {p q : Nat × Nat} (hp : g.In p) {d : Dir} (h : SplitterPair g.nb T p q d) :
    SplitterPair g.nb (fun p => (T (g.mirrorPos p)).mirrorY) (g.mirrorPos q) (g.mirrorPos p) d.mirrorY := by
  obtain ⟨h1, h2, h3⟩ := h
  have hq := Grid.nb_in hg h2
  refine ⟨?_, ?_, ?_⟩
  · simp only [Grid.mirrorPos_mirrorPos hq, h3]; rfl
  · have := Grid.nb_mirror hg hq (Grid.nb_opp hg hp h2)
    rw [← this]
    congr 1
    cases d <;> rfl
  · simp only [Grid.mirrorPos_mirrorPos hp, h1]; rfl

theorem Realises.mirror (hg : g.WF) (hs : PairedSplitters g.In g.nb T) {F F' : Flow (Nat × Nat)} {n : Network}
    {lab : Nat × Nat → Option Node} (hR : Realises g.nb T F g.cells n lab)
    (hF : ∀ p, g.In p → (∀ d, F'.inp p d = F.inp (g.mirrorPos p) d.mirrorY) ∧ (∀ d, F'.out p d = F.out (g.mirrorPos p) d.mirrorY) ∧
      F'.col p = F.col (g.mirrorPos p)) :
    Realises g.nb (fun p => (T (g.mirrorPos p)).mirrorY) F' g.cells n fun p => lab (g.partner T (g.mirrorPos p)) := by
  have hin : ∀ p ∈ g.cells, g.In (g.partner T (g.mirrorPos p)) := fun p hp =>
    (partner_spec hg hs (Grid.mirrorPos_in ((g.mem_cells p).1 hp))).1
  have key : ∀ p ∈ g.cells, ∀ d, (T (g.mirrorPos p)).mirrorY = .splitter d true →
      SplitterPair g.nb T (g.partner T (g.mirrorPos p)) (g.mirrorPos p) d.mirrorY := by
    intro p hp d hd
    have hp' := Grid.mirrorPos_in ((g.mem_cells p).1 hp)
    have ht : T (g.mirrorPos p) = .splitter d.mirrorY false := by
      generalize T (g.mirrorPos p) = t at hd
      cases t <;> simp only [Tile.mirrorY, reduceCtorEq, Tile.splitter.injEq, Bool.not_eq_true'] at hd ⊢
      exact ⟨Dir.mirrorY_eq.1 hd.1, hd.2⟩
    obtain ⟨r, hr, hpair⟩ := hs.tail _ _ hp' ht
    rw [partner_tail hg hr hpair]; exact hpair
  refine ⟨fun p hp => ?_, fun k => ?_, fun p hp k d hk hd => ?_⟩
  · rw [hR.heads _ ((g.mem_cells _).2 (hin p hp))]
    constructor
    · rintro ⟨d, hd⟩
      obtain ⟨r, hr, hpair⟩ := hs.head _ _ (hin p hp) hd
      have := partner_head hpair
      rw [(partner_spec hg hs (Grid.mirrorPos_in ((g.mem_cells p).1 hp))).2] at this
      refine ⟨d.mirrorY, ?_⟩
      rw [this, hpair.2.2]; rfl
    · rintro ⟨d, hd⟩
      exact ⟨_, (key p hp d hd).1⟩
  · rw [← hR.used k]
    have hperm : (g.cells.map fun p => g.partner T (g.mirrorPos p)).Perm g.cells := by
      refine (List.perm_ext_iff_of_nodup ?_ g.cells_nodup).2 fun q => ?_
      · refine List.Nodup.map_on (fun p hp q hq h => ?_) g.cells_nodup
        have hp' := (g.mem_cells p).1 hp
        have hq' := (g.mem_cells q).1 hq
        have := congrArg (g.partner T) h
        rw [(partner_spec hg hs (Grid.mirrorPos_in hp')).2, (partner_spec hg hs (Grid.mirrorPos_in hq')).2] at this
        rw [← Grid.mirrorPos_mirrorPos hp', this, Grid.mirrorPos_mirrorPos hq']
      · rw [List.mem_map]
        constructor
        · rintro ⟨p, hp, rfl⟩
          exact (g.mem_cells _).2 (hin p hp)
        · intro hq
          have hq' := (g.mem_cells q).1 hq
          obtain ⟨h1, h2⟩ := partner_spec hg hs hq'
          exact ⟨g.mirrorPos (g.partner T q), (g.mem_cells _).2 (Grid.mirrorPos_in h1), by rw [Grid.mirrorPos_mirrorPos h1, h2]⟩
    have := hperm.countP_eq fun p => decide (lab p = some k)
    rw [List.countP_map] at this
    exact this
  · have hpair := key p hp d hd
    have hp' := (g.mem_cells p).1 hp
    generalize hr : g.partner T (g.mirrorPos p) = r at hpair hk
    have hrin : g.In r := hr ▸ hin p hp
    obtain ⟨q, p', q', h1, h2, h3, h4, h5⟩ := hR.wired r ((g.mem_cells r).2 hrin) k d.mirrorY hk hpair.1
    have hq : q = g.mirrorPos p := Option.some.inj (h1.2.1.symm.trans hpair.2.1)
    subst hq
    have hm := mirror_splitterPair hg hrin hpair
    rw [Grid.mirrorPos_mirrorPos hp', Dir.mirrorY_mirrorY] at hm
    have hn1 := Grid.nb_mirror' hg (Grid.mirrorPos_in hp') h3
    rw [Grid.mirrorPos_mirrorPos hp'] at hn1
    have hn2 := Grid.nb_mirror' hg hrin h2
    refine ⟨g.mirrorPos r, g.mirrorPos q', g.mirrorPos p', hm, hn1, hn2, ?_, ?_⟩
    · rw [(hF p hp').1, (hF p hp').2.2, (hF _ (Grid.mirrorPos_in hrin)).1, (hF _ (Grid.mirrorPos_in hrin)).2.2,
        Grid.mirrorPos_mirrorPos hrin]
      exact h4.swap
    · have hq'in := Grid.nb_in hg h3
      have hp'in := Grid.nb_in hg h2
      rw [(hF p hp').2.1, (hF _ (Grid.mirrorPos_in hq'in)).2.2, (hF _ (Grid.mirrorPos_in hrin)).2.1,
        (hF _ (Grid.mirrorPos_in hp'in)).2.2, Grid.mirrorPos_mirrorPos hrin, Grid.mirrorPos_mirrorPos hq'in,
        Grid.mirrorPos_mirrorPos hp'in]
      exact h5.swap

theorem countP_mirror (f : Nat × Nat → Bool) : g.cells.countP (fun p => f (g.mirrorPos p)) = g.cells.countP f := by
  have hperm : (g.cells.map g.mirrorPos).Perm g.cells := by
    refine (List.perm_ext_iff_of_nodup ?_ g.cells_nodup).2 fun q => ?_
    · refine List.Nodup.map_on (fun p hp q hq h => ?_) g.cells_nodup
      rw [← Grid.mirrorPos_mirrorPos ((g.mem_cells p).1 hp), h, Grid.mirrorPos_mirrorPos ((g.mem_cells q).1 hq)]
    · rw [List.mem_map]
      constructor
      · rintro ⟨p, hp, rfl⟩
        exact (g.mem_cells _).2 (Grid.mirrorPos_in ((g.mem_cells p).1 hp))
      · intro hq
        have hq' := (g.mem_cells q).1 hq
        exact ⟨g.mirrorPos q, (g.mem_cells _).2 (Grid.mirrorPos_in hq'), Grid.mirrorPos_mirrorPos hq'⟩
  have := hperm.countP_eq f
  rw [List.countP_map] at this
  exact this

end

end FSat
