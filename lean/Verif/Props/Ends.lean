import Verif.Lemmas.Ends
import Verif.Props.Balancer
/-!
# C28: where the inputs and outputs of a balancer may be

`line y` is the position of tile number `y` of a line of `len` tiles.
-/

set_option linter.unusedSimpArgs false

namespace FSat

/-- `m` neighbouring tiles of a line take items in direction `d`, from tile `a` on. -/
def InBlock (g : Grid) (v : Asg) (T : Nat × Nat → Tile) (line : Nat → Nat × Nat) (len : Nat) (d : Dir) (m : Nat) (useEnds : Bool)
    (a : Nat) : Prop :=
  if m = len then a = 0 ∧ ∀ y < len, (g.flow v).inp (line y) d = true
  else a + m < len ∧ BlockAt len a m (fun y => ∃ o, T (line y) = .belt d o)
    (fun y => if useEnds then ∃ i o, T (line y) = .belt i o ∧ i ≠ d else T (line y) = .empty)

/-- `n` neighbouring tiles of a line put out items in direction `d`, from tile `b` on. -/
def OutBlock (g : Grid) (v : Asg) (T : Nat × Nat → Tile) (line : Nat → Nat × Nat) (len : Nat) (d : Dir) (n : Nat) (useEnds : Bool)
    (b : Nat) : Prop :=
  if n = len then b = 0 ∧ ∀ y < len, ∃ i, T (line y) = .belt i d
  else b + n < len ∧ BlockAt len b n (fun y => ∃ i, T (line y) = .belt i d)
    (fun y => if useEnds then (g.flow v).out (line y) d = false else T (line y) = .empty)

theorem Agrees.beltIn {c : CellVal} {t : Tile} (h : Agrees c t) (d : Dir) : c.inp d = true ∧ c.isBelt = true ↔ ∃ o, t = .belt d o := by
  rw [h.isBelt_iff]
  constructor
  · rintro ⟨h1, i, o, rfl⟩
    exact ⟨o, by rw [(h.2.2.1 d).1 h1]⟩
  · rintro ⟨o, rfl⟩
    exact ⟨(h.2.2.1 d).2 rfl, _, _, rfl⟩

theorem Agrees.beltOut {c : CellVal} {t : Tile} (h : Agrees c t) (d : Dir) : c.out d = true ∧ c.isBelt = true ↔ ∃ i, t = .belt i d := by
  rw [h.isBelt_iff]
  constructor
  · rintro ⟨h1, i, o, rfl⟩
    exact ⟨i, by rw [(h.2.2.2.1 d).1 h1]⟩
  · rintro ⟨o, rfl⟩
    exact ⟨(h.2.2.2.1 d).2 rfl, _, _, rfl⟩

theorem Agrees.beltNotIn {c : CellVal} {t : Tile} (h : Agrees c t) (d : Dir) :
    c.inp d = false ∧ c.isBelt = true ↔ ∃ i o, t = .belt i o ∧ i ≠ d := by
  rw [h.isBelt_iff]
  constructor
  · rintro ⟨h1, i, o, rfl⟩
    exact ⟨i, o, rfl, fun e => by rw [(h.2.2.1 d).2 e.symm] at h1; cases h1⟩
  · rintro ⟨i, o, rfl, hne⟩
    refine ⟨?_, _, _, rfl⟩
    cases hc : c.inp d with
    | false => rfl
    | true => exact (hne ((h.2.2.1 d).1 hc).symm).elim

theorem Agrees.noFlags {c : CellVal} {t : Tile} (h : Agrees c t) :
    ((∀ d, c.inp d = false) ∧ ∀ d, c.out d = false) ↔ t = .empty := by
  constructor
  · rintro ⟨h1, h2⟩
    cases t with
    | empty => rfl
    | belt i o => have := (h.2.2.1 i).2 rfl; rw [h1] at this; cases this
    | underground e b =>
      cases b with
      | true => have := (h.2.2.1 e).2 rfl; rw [h1] at this; cases this
      | false => have := (h.2.2.2 e).2 rfl; rw [h2] at this; cases this
    | splitter e b =>
      rcases h.2.2.2.2 with h' | h'
      · rw [h1] at h'; cases h'
      · rw [h2] at h'; cases h'
    | _ => exact h.elim
  · rintro rfl
    exact ⟨h.2.2.1, h.2.2.2⟩

theorem Sat_allDirFalse (v : Asg) (t : TileInst) : Sat v (setAllFalse t.allDir) ↔
    (∀ d, ev v (t.inp d) = false) ∧ ∀ d, ev v (t.out d) = false := by
  rw [Sat_setAllFalse]
  simp only [TileInst.allDir, List.mem_append, dirs, List.mem_map]
  constructor
  · intro h
    exact ⟨fun d => h _ (.inl ⟨d, by cases d <;> simp [Dir.all], rfl⟩), fun d => h _ (.inr ⟨d, by cases d <;> simp [Dir.all], rfl⟩)⟩
  · rintro ⟨h1, h2⟩ l (⟨d, _, rfl⟩ | ⟨d, _, rfl⟩)
    · exact h1 d
    · exact h2 d

section
variable {g : Grid} {v : Asg} {T : Nat × Nat → Tile} {line : Nat → Nat × Nat} {len m : Nat}

theorem inLine_iff (hl : ∀ y < len, g.In (line y)) (hT : Lays g (g.vals v) T) (hm : m ≤ len) (d : Dir) (useEnds : Bool) (a : Nat) :
    Shown (inputInside d) (inputRest d (!useEnds)) (((List.range len).map fun y => g.at' (line y)).flatMap fun t => [[t.inp d]])
      ((List.range len).map fun y => g.at' (line y)) m (len - m) v a ↔ InBlock g v T line len d m useEnds a := by
  unfold Shown InBlock
  by_cases h : m = len
  · subst h
    rw [if_pos (Nat.sub_self _), if_pos rfl, Sat_flatMap]
    simp only [List.mem_map, List.mem_range, forall_exists_index, and_imp, forall_apply_eq_imp_iff₂, Sat_cons, SatC_cons, SatC_nil,
      or_false, Sat_nil, and_true]
    exact Iff.rfl
  · rw [if_neg (by omega), if_neg h]
    rw [block_line v _ _ len (fun y => g.at' (line y)) m a (I := fun y => ∃ o, T (line y) = .belt d o)
      (R := fun y => if useEnds then ∃ i o, T (line y) = .belt i o ∧ i ≠ d else T (line y) = .empty)]
    · constructor
      · rintro ⟨h1, h2⟩; exact ⟨by omega, by omega, h2⟩
      · rintro ⟨h1, _, h2⟩; exact ⟨by omega, h2⟩
    · intro y hy
      rw [← (hT _ (hl y hy)).beltIn d]
      simp only [inputInside, Sat_cons, SatC_cons, SatC_nil, or_false, Sat_nil, and_true]
      exact Iff.rfl
    · intro y hy
      unfold inputRest
      cases useEnds with
      | false =>
        rw [if_pos (by rfl), if_neg Bool.false_ne_true, Sat_allDirFalse, ← (hT _ (hl y hy)).noFlags]
        exact Iff.rfl
      | true =>
        rw [if_neg (by simp), if_pos rfl, ← (hT _ (hl y hy)).beltNotIn d]
        simp only [Sat_cons, SatC_cons, SatC_nil, or_false, Sat_nil, and_true, ev_neg, Bool.not_eq_true']
        exact Iff.rfl

theorem outLine_iff (hl : ∀ y < len, g.In (line y)) (hT : Lays g (g.vals v) T) (hm : m ≤ len) (d : Dir) (useEnds : Bool) (a : Nat) :
    Shown (outputInside d) (outputRest d (!useEnds)) (((List.range len).map fun y => g.at' (line y)).flatMap (outputInside d))
      ((List.range len).map fun y => g.at' (line y)) m (len - m) v a ↔ OutBlock g v T line len d m useEnds a := by
  have hin : ∀ y < len, Sat v (outputInside d (g.at' (line y))) ↔ ∃ i, T (line y) = .belt i d := by
    intro y hy
    rw [← (hT _ (hl y hy)).beltOut d]
    simp only [outputInside, Sat_cons, SatC_cons, SatC_nil, or_false, Sat_nil, and_true]
    exact Iff.rfl
  unfold Shown OutBlock
  by_cases h : m = len
  · subst h
    rw [if_pos (Nat.sub_self _), if_pos rfl, Sat_flatMap]
    simp only [List.mem_map, List.mem_range, forall_exists_index, and_imp, forall_apply_eq_imp_iff₂]
    exact and_congr Iff.rfl (forall₂_congr hin)
  · rw [if_neg (by omega), if_neg h]
    rw [block_line v _ _ len (fun y => g.at' (line y)) m a (I := fun y => ∃ i, T (line y) = .belt i d)
      (R := fun y => if useEnds then (g.flow v).out (line y) d = false else T (line y) = .empty) hin]
    · constructor
      · rintro ⟨h1, h2⟩; exact ⟨by omega, by omega, h2⟩
      · rintro ⟨h1, _, h2⟩; exact ⟨by omega, h2⟩
    · intro y hy
      unfold outputRest
      cases useEnds with
      | false =>
        rw [if_pos (by rfl), if_neg Bool.false_ne_true, Sat_allDirFalse, ← (hT _ (hl y hy)).noFlags]
        exact Iff.rfl
      | true =>
        rw [if_neg (by simp), if_pos rfl]
        simp only [Sat_cons, SatC_cons, SatC_nil, or_false, Sat_nil, and_true, ev_neg, Bool.not_eq_true']
        exact Iff.rfl

end

/-- What the clauses of a line say depends on the literals of its tiles only. -/
theorem Shown.agree {g : Grid} {s : Nat} (hg : g.LitsLe s) {line : Nat → Nat × Nat} {len : Nat} (hl : ∀ y < len, g.In (line y))
    {inside rest : TileInst → Cnf} {full : Cnf} (hb : ∀ t, LBound s t.lits → CBound s (inside t) ∧ CBound s (rest t)) (hf : CBound s full)
    {m n : Nat} (v w : Asg) (a : Nat) (h : Agree s v w) :
    Shown inside rest full ((List.range len).map fun y => g.at' (line y)) m n w a ↔
      Shown inside rest full ((List.range len).map fun y => g.at' (line y)) m n v a := by
  unfold Shown
  have hI : ∀ y < len, Sat w (inside (g.at' (line y))) ↔ Sat v (inside (g.at' (line y))) :=
    fun y hy => Sat_agree h (hb _ (hg _ (hl y hy))).1
  have hR : ∀ y < len, Sat w (rest (g.at' (line y))) ↔ Sat v (rest (g.at' (line y))) :=
    fun y hy => Sat_agree h (hb _ (hg _ (hl y hy))).2
  split
  · exact and_congr Iff.rfl (Sat_agree h hf)
  · rw [block_line w _ _ len (fun y => g.at' (line y)) m a hI hR,
      block_line v _ _ len (fun y => g.at' (line y)) m a (fun _ _ => Iff.rfl) (fun _ _ => Iff.rfl)]

theorem allDir_lits {t : TileInst} {l : Lit} (h : l ∈ t.allDir) : l ∈ t.lits := by
  simp only [TileInst.allDir, List.mem_append] at h
  simp only [TileInst.lits, List.mem_append]
  tauto

theorem inp_lits (t : TileInst) (d : Dir) : t.inp d ∈ t.lits := allDir_lits (by simp [TileInst.allDir, mem_dirs])
theorem out_lits (t : TileInst) (d : Dir) : t.out d ∈ t.lits := allDir_lits (by simp [TileInst.allDir, mem_dirs])

theorem CBound_allFalse {s : Nat} {t : TileInst} (h : LBound s t.lits) : CBound s (setAllFalse t.allDir) := by
  intro c hc l hl
  obtain ⟨k, hk, rfl⟩ := List.mem_map.1 hc
  simp only [List.mem_singleton] at hl
  subst hl
  exact h k (allDir_lits hk)

theorem CBound_one {s : Nat} {a : Lit} (ha : a.var ≤ s) : CBound s [[a]] := by
  intro c hc l hl
  simp only [List.mem_singleton] at hc
  subst hc
  simp only [List.mem_singleton] at hl
  exact hl ▸ ha

theorem CBound_two {s : Nat} {a b : Lit} (ha : a.var ≤ s) (hb : b.var ≤ s) : CBound s [[a], [b]] := by
  intro c hc l hl
  simp only [List.mem_cons, List.not_mem_nil, or_false] at hc
  rcases hc with rfl | rfl <;> simp only [List.mem_singleton] at hl <;> exact hl ▸ ‹_›

theorem belt_lits (t : TileInst) : t.isBelt ∈ t.lits := by simp [TileInst.lits]

theorem input_bound {s : Nat} {t : TileInst} (h : LBound s t.lits) (d : Dir) (e : Bool) :
    CBound s (inputInside d t) ∧ CBound s (inputRest d e t) := by
  refine ⟨CBound_two (h _ (inp_lits t d)) (h _ (belt_lits t)), ?_⟩
  unfold inputRest
  split
  · exact CBound_allFalse h
  · exact CBound_two (a := -t.inp d) (h (t.inp d) (inp_lits t d)) (h _ (belt_lits t))

theorem output_bound {s : Nat} {t : TileInst} (h : LBound s t.lits) (d : Dir) (e : Bool) :
    CBound s (outputInside d t) ∧ CBound s (outputRest d e t) := by
  refine ⟨CBound_two (h _ (out_lits t d)) (h _ (belt_lits t)), ?_⟩
  unfold outputRest
  split
  · exact CBound_allFalse h
  · exact CBound_one (a := -t.out d) (h (t.out d) (out_lits t d))

theorem CBound_flatMap {α : Type} {s : Nat} {l : List α} {f : α → Cnf} (h : ∀ a ∈ l, CBound s (f a)) : CBound s (l.flatMap f) := by
  intro c hc
  obtain ⟨a, ha, hc⟩ := List.mem_flatMap.1 hc
  exact h a ha c hc

/-- The two lines of a balancer. -/
theorem endsClauses_iff {g : Grid} {s : Nat} (hb : g.LitsLe s) {line1 line2 : Nat → Nat × Nat} {len1 len2 : Nat}
    (hl1 : ∀ y < len1, g.In (line1 y)) (hl2 : ∀ y < len2, g.In (line2 y)) (d1 d2 : Dir) {m n : Nat} (hm : m ≤ len1) (hn : n ≤ len2)
    (useEnds aligned : Bool) (hal : aligned = true → len1 = len2) :
    ∃ cs s', endsClauses ((List.range len1).map fun y => g.at' (line1 y)) ((List.range len2).map fun y => g.at' (line2 y)) d1 d2 m n
        (!useEnds) aligned s = .ok (cs, s') ∧
      ∀ v T, Lays g (g.vals v) T → (SatUpTo s v cs ↔ ∃ a b, InBlock g v T line1 len1 d1 m useEnds a ∧
        OutBlock g v T line2 len2 d2 n useEnds b ∧ (aligned = true → RowsNested a m b n)) := by
  have e1 : setupBalancerInput ((List.range len1).map fun y => g.at' (line1 y)) d1 m (!useEnds) s =
      .ok (allocVars s (len1 - m), lineClauses (inputInside d1) (inputRest d1 (!useEnds))
        (((List.range len1).map fun y => g.at' (line1 y)).flatMap fun t => [[t.inp d1]])
        ((List.range len1).map fun y => g.at' (line1 y)) m s (len1 - m), s + (len1 - m)) := by
    unfold setupBalancerInput lineClauses
    simp only [List.length_map, List.length_range, if_pos hm]
    split
    · rename_i h; rw [h]; rfl
    · rfl
  have e2 : setupBalancerOutput ((List.range len2).map fun y => g.at' (line2 y)) d2 n (!useEnds) (s + (len1 - m)) =
      .ok (allocVars (s + (len1 - m)) (len2 - n), lineClauses (outputInside d2) (outputRest d2 (!useEnds))
        (((List.range len2).map fun y => g.at' (line2 y)).flatMap (outputInside d2))
        ((List.range len2).map fun y => g.at' (line2 y)) n (s + (len1 - m)) (len2 - n), s + (len1 - m) + (len2 - n)) := by
    unfold setupBalancerOutput lineClauses
    simp only [List.length_map, List.length_range, if_pos hn]
    split
    · rename_i h; rw [h]; rfl
    · rfl
  refine ⟨_, _, by unfold endsClauses; rw [e1]; simp only; rw [e2], fun v T hT => ?_⟩
  have h1 : ∀ v w a, Agree s v w → _ := fun v w a h => Shown.agree hb hl1 (inside := inputInside d1) (rest := inputRest d1 (!useEnds))
    (full := ((List.range len1).map fun y => g.at' (line1 y)).flatMap fun t => [[t.inp d1]]) (fun t ht => input_bound ht d1 _)
    (CBound_flatMap (by
      intro t ht
      obtain ⟨y, hy, rfl⟩ := List.mem_map.1 ht
      exact CBound_one (hb _ (hl1 y (List.mem_range.1 hy)) _ (inp_lits _ d1)))) (m := m) (n := len1 - m) v w a h
  have h2 : ∀ v w a, Agree s v w → _ := fun v w a h => Shown.agree hb hl2 (inside := outputInside d2) (rest := outputRest d2 (!useEnds))
    (full := ((List.range len2).map fun y => g.at' (line2 y)).flatMap (outputInside d2)) (fun t ht => output_bound ht d2 _)
    (CBound_flatMap (by
      intro t ht
      obtain ⟨y, hy, rfl⟩ := List.mem_map.1 ht
      exact (output_bound (hb _ (hl2 y (List.mem_range.1 hy))) d2 (!useEnds)).1)) (m := n) (n := len2 - n) v w a h
  rw [ends_iff _ _ _ _ _ _ _ _ aligned (fun ha => by have := hal ha; omega) (fun ha => by have := hal ha; omega) h1 h2]
  refine exists_congr fun a => exists_congr fun b => ?_
  rw [inLine_iff hl1 hT hm, outLine_iff hl2 hT hn]
  refine and_congr_right fun hA => and_congr_right fun hB => imp_congr_right fun ha => ?_
  have hlen := hal ha
  subst hlen
  unfold RowsNested
  unfold InBlock at hA
  unfold OutBlock at hB
  by_cases hmn : n ≤ m
  · rw [if_pos hmn, if_pos hmn]
    refine ⟨fun h => ?_, fun h _ => h⟩
    by_cases h0 : m = len1
    · rw [if_pos h0] at hA
      split at hB
      · omega
      · have := hB.1; omega
    · exact h (by omega)
  · rw [if_neg hmn, if_neg hmn]
    refine ⟨fun h => ?_, fun h _ => h⟩
    by_cases h0 : n = len1
    · rw [if_pos h0] at hB
      split at hA
      · omega
      · have := hA.1; omega
    · exact h (by omega)

/-! ### `belt_balancer.py` -/

section
variable {g : Grid} {s : Nat} {net : PyDict Node Nat} {a b : Int} {m n : Nat} {ci : Cnf}

/-- C28, `belt_balancer.setup_balancer_ends`: what exactly the clauses allow.  They ask for a block of inputs in the first column and
a block of outputs in the last one, and with `aligned` for one to be within the rows of the other; but a block that does not fill its
column never reaches the last row. -/
theorem c28_ends_partial (hg : g.WF) (hb : g.LitsLe s) (hE : Ends (elements net) a m b n) (hm : m ≤ g.height) (hn : n ≤ g.height)
    (hci : initClauses g = .ok ci) (aligned useEnds : Bool) :
    ∃ cs s', setupBalancerEnds g net aligned useEnds s = .ok (cs, s') ∧
      ∀ v T, Sat v ci → Decodes g v T → (SatUpTo s v cs ↔ ∃ i j, InBlock g v T (fun y => (0, y)) g.height .right m useEnds i ∧
        OutBlock g v T (fun y => (g.width - 1, y)) g.height .right n useEnds j ∧ (aligned = true → RowsNested i m j n)) := by
  obtain ⟨cs, s', h1, h2⟩ := endsClauses_iff (g := g) hb (line1 := fun y => (0, y)) (line2 := fun y => (g.width - 1, y))
    (len1 := g.height) (len2 := g.height) (fun y hy => ⟨hg.w, hy⟩) (fun y hy => ⟨Nat.sub_lt hg.w Nat.one_pos, hy⟩)
    .right .right hm hn useEnds aligned (fun _ => rfl)
  refine ⟨cs, s', ?_, fun v T hv hT => h2 v T (lays_of_decodes (sem_of_sat hg hci hv) hT)⟩
  unfold setupBalancerEnds
  rw [(gio_iff _ _ _ _ _).2 hE]
  exact h1

/-- C28, `setup_balancer_ends_90`: inputs in the first column, outputs downwards in the last row. -/
theorem c28_ends_90_partial (hg : g.WF) (hb : g.LitsLe s) (hE : Ends (elements net) a m b n) (hm : m ≤ g.height) (hn : n ≤ g.width)
    (hci : initClauses g = .ok ci) (useEnds : Bool) :
    ∃ cs s', setupBalancerEnds90 g net useEnds s = .ok (cs, s') ∧
      ∀ v T, Sat v ci → Decodes g v T → (SatUpTo s v cs ↔ ∃ i j, InBlock g v T (fun y => (0, y)) g.height .right m useEnds i ∧
        OutBlock g v T (fun x => (x, g.height - 1)) g.width .down n useEnds j) := by
  obtain ⟨cs, s', h1, h2⟩ := endsClauses_iff (g := g) hb (line1 := fun y => (0, y)) (line2 := fun x => (x, g.height - 1))
    (len1 := g.height) (len2 := g.width) (fun y hy => ⟨hg.w, hy⟩) (fun y hy => ⟨hy, Nat.sub_lt hg.h Nat.one_pos⟩)
    .right .down hm hn useEnds false (fun h => by cases h)
  refine ⟨cs, s', ?_, fun v T hv hT => ?_⟩
  · unfold setupBalancerEnds90
    rw [(gio_iff _ _ _ _ _).2 hE]
    exact h1
  · rw [h2 v T (lays_of_decodes (sem_of_sat hg hci hv) hT)]
    simp only [Bool.false_eq_true, false_imp_iff, and_true]

/-- C28, `setup_balancer_ends_180`: inputs and outputs in the first column. -/
theorem c28_ends_180_partial (hg : g.WF) (hb : g.LitsLe s) (hE : Ends (elements net) a m b n) (hm : m ≤ g.height) (hn : n ≤ g.height)
    (hci : initClauses g = .ok ci) :
    ∃ cs s', setupBalancerEnds180 g net s = .ok (cs, s') ∧
      ∀ v T, Sat v ci → Decodes g v T → (SatUpTo s v cs ↔ ∃ i j, InBlock g v T (fun y => (0, y)) g.height .right m true i ∧
        OutBlock g v T (fun y => (0, y)) g.height .left n true j) := by
  obtain ⟨cs, s', h1, h2⟩ := endsClauses_iff (g := g) hb (line1 := fun y => (0, y)) (line2 := fun y => (0, y))
    (len1 := g.height) (len2 := g.height) (fun y hy => ⟨hg.w, hy⟩) (fun y hy => ⟨hg.w, hy⟩)
    .right .left hm hn true false (fun h => by cases h)
  refine ⟨cs, s', ?_, fun v T hv hT => ?_⟩
  · unfold setupBalancerEnds180
    rw [(gio_iff _ _ _ _ _).2 hE]
    exact h1
  · rw [h2 v T (lays_of_decodes (sem_of_sat hg hci hv) hT)]
    simp only [Bool.false_eq_true, false_imp_iff, and_true]

/-- C28 is false of `belt_balancer.setup_balancer_ends`, always: when there is room for more rows than inputs (outputs), the last row
of the first (last) column stays empty in every solution. -/
theorem c28_last_row_refuted (hg : g.WF) (hb : g.LitsLe s) (hE : Ends (elements net) a m b n) (hm : m ≤ g.height) (hn : n ≤ g.height)
    (hci : initClauses g = .ok ci) (aligned : Bool) {cs : Cnf} {s' : Nat} (hc : setupBalancerEnds g net aligned false s = .ok (cs, s'))
    (v : Asg) (T : Nat × Nat → Tile) (hv : Sat v ci) (hs : Sat v cs) (hT : Decodes g v T) :
    (m < g.height → T (0, g.height - 1) = .empty) ∧ (n < g.height → T (g.width - 1, g.height - 1) = .empty) := by
  obtain ⟨cs', s'', h1, h2⟩ := c28_ends_partial hg hb hE hm hn hci aligned false
  rw [hc] at h1
  simp only [Except.ok.injEq, Prod.mk.injEq] at h1
  obtain ⟨rfl, rfl⟩ := h1
  obtain ⟨i, j, hi, hj, _⟩ := (h2 v T hv hT).1 ⟨v, fun _ _ => rfl, hs⟩
  have hpos := hg.h
  constructor
  · intro h
    unfold InBlock at hi
    rw [if_neg (by omega)] at hi
    have := hi.2.2 (g.height - 1) (by omega)
    rw [if_neg (by omega)] at this
    simpa using this
  · intro h
    unfold OutBlock at hj
    rw [if_neg (by omega)] at hj
    have := hj.2.2 (g.height - 1) (by omega)
    rw [if_neg (by omega)] at this
    simpa using this

/-- Too many inputs or outputs for the grid are refused. -/
theorem c28_too_many (hE : Ends (elements net) a m b n) (h : g.height < m ∨ g.height < n) (aligned useEnds : Bool) :
    setupBalancerEnds g net aligned useEnds s = .error .assertion := by
  unfold setupBalancerEnds
  rw [(gio_iff _ _ _ _ _).2 hE]
  show endsClauses _ _ _ _ m n _ _ s = _
  unfold endsClauses setupBalancerInput setupBalancerOutput
  simp only [Grid.column, List.length_map, List.length_range]
  by_cases hm : m ≤ g.height
  · have hn : ¬ n ≤ g.height := by omega
    rw [if_pos hm]
    split
    · rename_i e he; split at he <;> cases he
    · rw [if_neg hn]
  · rw [if_neg hm]

end

/-! ### `belt_balancer_net_free.py` -/

theorem free_bound {s : Nat} {t : TileInst} (h : LBound s t.lits) : CBound s (freeInside t) ∧ CBound s (freeRest t) :=
  ⟨CBound_two (h _ (inp_lits t _)) (h _ (out_lits t _)), CBound_allFalse h⟩

theorem Agrees.straight {c : CellVal} {t : Tile} (h : Agrees c t) (hs : ¬ t.IsSplitter) (d : Dir) :
    c.inp d = true ∧ c.out d = true ↔ t = .belt d d := by
  have hc : c.isSplitter = false := by
    cases e : c.isSplitter with
    | false => rfl
    | true => exact (hs (h.isSplitter_iff.1 e)).elim
  rw [h.takes_iff hc, h.emits_iff hc]
  cases t with
  | belt i o => simp [Tile.Takes, Tile.Emits]
  | underground e b => cases b <;> simp [Tile.Takes, Tile.Emits]
  | splitter e b => exact (hs ⟨e, b, rfl⟩).elim
  | _ => simp [Tile.Takes, Tile.Emits]

/-- C28, `belt_balancer_net_free.setup_balancer_ends`: the inputs are `m` neighbouring belts running right in the first column, the
outputs `n` such belts in the last column, everything else there is empty, and every position of either block is allowed; with
`aligned` the rows of the smaller block must be among those of the other.  (The program forbids splitters in these columns.) -/
theorem c28_free {g : Grid} {s : Nat} {m n : Nat} {ci : Cnf} (hg : g.WF) (hb : g.LitsLe s) (hci : initClauses g = .ok ci)
    (aligned : Bool) :
    ∃ cs s', freeBalancerEnds g m n aligned s = .ok (cs, s') ∧
      ∀ v T, Sat v ci → Decodes g v T → (∀ y, ¬ (T (0, y)).IsSplitter ∧ ¬ (T (g.width - 1, y)).IsSplitter) →
        (SatUpTo s v cs ↔ ∃ i j,
          BlockAt g.height i m (fun y => T (0, y) = .belt .right .right) (fun y => T (0, y) = .empty) ∧
          BlockAt g.height j n (fun y => T (g.width - 1, y) = .belt .right .right) (fun y => T (g.width - 1, y) = .empty) ∧
          (aligned = true → RowsNested i m j n)) := by
  have hlin : ∀ (x k s : Nat), offsetClauses freeInside freeRest (g.column x) k (allocVars s (g.height + 1 - k)) =
      lineClauses freeInside freeRest [[]] ((List.range g.height).map fun y => g.at' (x, y)) k s (g.height + 1 - k) := by
    intro x k s
    unfold lineClauses
    split
    · rename_i h; rw [h]; rfl
    · rfl
  refine ⟨_, _, rfl, fun v T hv hT hns => ?_⟩
  rw [hlin, hlin]
  have hl1 : ∀ y < g.height, g.In (0, y) := fun y hy => ⟨hg.w, hy⟩
  have hl2 : ∀ y < g.height, g.In (g.width - 1, y) := fun y hy => ⟨Nat.sub_lt hg.w Nat.one_pos, hy⟩
  have hfull : CBound s [[]] := by
    intro c hc l hl
    simp only [List.mem_singleton] at hc
    subst hc; cases hl
  rw [ends_iff _ _ _ _ _ _ _ _ aligned (fun _ => by omega) (fun _ => by omega)
    (fun v w a h => Shown.agree hb hl1 (fun t ht => free_bound ht) hfull v w a h)
    (fun v w a h => Shown.agree hb hl2 (fun t ht => free_bound ht) hfull v w a h)]
  have hT' := lays_of_decodes (sem_of_sat hg hci hv) hT
  have hsh : ∀ (x k i : Nat), (∀ y < g.height, g.In (x, y)) → (∀ y, ¬ (T (x, y)).IsSplitter) →
      (Shown freeInside freeRest [[]] ((List.range g.height).map fun y => g.at' (x, y)) k (g.height + 1 - k) v i ↔
        BlockAt g.height i k (fun y => T (x, y) = .belt .right .right) (fun y => T (x, y) = .empty)) := by
    intro x k i hx hnx
    unfold Shown BlockAt
    split
    · simp only [Sat_cons, SatC_nil, false_and, and_false, false_iff]
      omega
    · rw [block_line v _ _ g.height (fun y => g.at' (x, y)) k i (I := fun y => T (x, y) = .belt .right .right)
        (R := fun y => T (x, y) = .empty)]
      · exact and_congr (by omega) Iff.rfl
      · intro y hy
        rw [← (hT' _ (hx y hy)).straight (hnx y)]
        simp only [freeInside, Sat_cons, SatC_cons, SatC_nil, or_false, Sat_nil, and_true]
        exact Iff.rfl
      · intro y hy
        rw [freeRest, Sat_allDirFalse, ← (hT' _ (hx y hy)).noFlags]
        exact Iff.rfl
  refine exists_congr fun i => exists_congr fun j => ?_
  rw [hsh 0 m i hl1 fun y => (hns y).1, hsh (g.width - 1) n j hl2 fun y => (hns y).2]
  refine and_congr_right fun hA => and_congr_right fun hB => imp_congr_right fun _ => ?_
  unfold RowsNested
  have := hA.1
  have := hB.1
  by_cases hmn : n ≤ m
  · rw [if_pos hmn, if_pos hmn]
    exact ⟨fun h => h (by omega), fun h _ => h⟩
  · rw [if_neg hmn, if_neg hmn]
    exact ⟨fun h => h (by omega), fun h _ => h⟩

/-! ### Examples -/

/-- A grid of one column and two rows, a belt in the lower row. -/
def exEndsGrid : Grid := mkGrid 1 2 ⟨false, false⟩ none none .nil 0
def exEndsAsg : Asg := fun x => [2, 21, 27, 29, 33].contains x
def exEndsLayout (p : Nat × Nat) : Tile := if p.2 = 1 then .belt .right .right else .empty
def exEndsNet : PyDict Node Nat := [(((some 0, some 2), (some 2, some 1)), 1)]

theorem exEnds_wf : exEndsGrid.WF := mkGrid_wf (by decide) (by decide) _ _ _ (by intro n h; cases h) _ _
theorem exEnds_lits : exEndsGrid.LitsLe 40 := (mkGrid_lits 1 2 ⟨false, false⟩ none none .nil 0).1
theorem exEnds_ends : Ends (elements exEndsNet) 0 (1 : Nat) 1 (1 : Nat) := (gio_iff _ _ _ _ _).1 (by decide)
theorem exEnds_init : okSat exEndsAsg (initClauses exEndsGrid) = true := by decide +kernel
theorem exEnds_decodes : Decodes exEndsGrid exEndsAsg exEndsLayout := by
  have key : ∀ x < 1, ∀ y < 2, (decodeCell exEndsGrid exEndsAsg (x, y)).toOption = some (exEndsLayout (x, y)) := by decide +kernel
  intro p hp
  have := key p.1 hp.1 p.2 hp.2
  cases h : decodeCell exEndsGrid exEndsAsg p with
  | error e => rw [show (p.1, p.2) = p from rfl, h] at this; cases this
  | ok t => rw [show (p.1, p.2) = p from rfl, h] at this; exact congrArg _ (Option.some.inj this)

/-- C28: a layout with its input and its output in the last row that obeys all clauses of the grid and is rejected by
`belt_balancer.setup_balancer_ends`, while `belt_balancer_net_free.setup_balancer_ends` accepts it. -/
theorem c28_position_refuted : ∃ (g : Grid) (s : Nat) (net : PyDict Node Nat) (a b : Int) (ci cs : Cnf) (s' : Nat) (v : Asg)
    (T : Nat × Nat → Tile), g.WF ∧ g.LitsLe s ∧ Ends (elements net) a (1 : Nat) b (1 : Nat) ∧ initClauses g = .ok ci ∧ Sat v ci ∧
    Decodes g v T ∧ setupBalancerEnds g net false false s = .ok (cs, s') ∧
    BlockAt g.height 1 1 (fun y => T (0, y) = .belt .right .right) (fun y => T (0, y) = .empty) ∧
    BlockAt g.height 1 1 (fun y => T (g.width - 1, y) = .belt .right .right) (fun y => T (g.width - 1, y) = .empty) ∧
    ¬ SatUpTo s v cs ∧ ∃ cf sf, freeBalancerEnds g 1 1 true s = .ok (cf, sf) ∧ SatUpTo s v cf := by
  obtain ⟨ci, h1, h2⟩ := okSat_iff.1 exEnds_init
  obtain ⟨cs, s', h3, h4⟩ := c28_ends_partial exEnds_wf exEnds_lits exEnds_ends (by decide) (by decide) h1 false false
  obtain ⟨cf, sf, h5, h6⟩ := c28_free (m := 1) (n := 1) exEnds_wf exEnds_lits h1 true
  have hblk : BlockAt 2 1 1 (fun y => exEndsLayout (0, y) = .belt .right .right) (fun y => exEndsLayout (0, y) = .empty) := by
    refine ⟨by decide, ?_⟩
    decide
  refine ⟨exEndsGrid, 40, exEndsNet, 0, 1, ci, cs, s', exEndsAsg, exEndsLayout, exEnds_wf, exEnds_lits, exEnds_ends, h1, h2,
    exEnds_decodes, h3, hblk, hblk, ?_, cf, sf, h5, ?_⟩
  · intro hs
    obtain ⟨i, j, hi, _⟩ := (h4 _ _ h2 exEnds_decodes).1 hs
    unfold InBlock at hi
    rw [if_neg (by decide)] at hi
    have h0 : i + 1 < 2 := hi.1
    have := hi.2.2 1 (by decide)
    rw [if_neg (by omega)] at this
    cases this
  · refine (h6 _ _ h2 exEnds_decodes ?_).2 ⟨1, 1, hblk, hblk, fun _ => by simp [RowsNested]⟩
    intro y
    have : ¬ (exEndsLayout (0, y)).IsSplitter := by
      rintro ⟨d, h, e⟩
      unfold exEndsLayout at e
      split at e <;> cases e
    exact ⟨this, this⟩

/-- The hypotheses of the theorems about `belt_balancer.py` hold for the grid above; the first row is an accepted position. -/
example : ∃ cs s', setupBalancerEnds exEndsGrid exEndsNet true false 40 = .ok (cs, s') ∧
    SatUpTo 40 (fun x => [1, 7, 9, 13, 22].contains x) cs := by
  obtain ⟨ci, h1, _⟩ := okSat_iff.1 exEnds_init
  obtain ⟨cs, s', h3, h4⟩ := c28_ends_partial exEnds_wf exEnds_lits exEnds_ends (by decide) (by decide) h1 true false
  refine ⟨cs, s', h3, ?_⟩
  obtain ⟨ci', h1', h2⟩ := (okSat_iff (v := fun x => [1, 7, 9, 13, 22].contains x) (e := initClauses exEndsGrid)).1 (by decide +kernel)
  rw [h1] at h1'
  cases h1'
  refine (h4 _ (fun p => if p.2 = 0 then .belt .right .right else .empty) h2 ?_).2 ⟨0, 0, ?_, ?_, fun _ => by simp [RowsNested]⟩
  · have key : ∀ x < 1, ∀ y < 2, (decodeCell exEndsGrid (fun x => [1, 7, 9, 13, 22].contains x) (x, y)).toOption =
        some (if y = 0 then .belt .right .right else .empty) := by decide +kernel
    intro p hp
    have := key p.1 hp.1 p.2 hp.2
    cases h : decodeCell exEndsGrid (fun x => [1, 7, 9, 13, 22].contains x) p with
    | error e => rw [show (p.1, p.2) = p from rfl, h] at this; cases this
    | ok t => rw [show (p.1, p.2) = p from rfl, h] at this; exact congrArg _ (Option.some.inj this)
  · unfold InBlock
    rw [if_neg (by decide)]
    refine ⟨by decide, by decide, fun y hy => ?_⟩
    have : y = 0 ∨ y = 1 := by have : y < 2 := hy; omega
    rcases this with rfl | rfl <;> simp
  · unfold OutBlock
    rw [if_neg (by decide)]
    refine ⟨by decide, by decide, fun y hy => ?_⟩
    have : y = 0 ∨ y = 1 := by have : y < 2 := hy; omega
    rcases this with rfl | rfl <;> simp

end FSat
