import Verif.Lemmas.Transport
import Verif.Lemmas.BalancerMainParts
import Verif.Spec.Interchange
/-!
# The clauses of the program `interchange`, part by part
-/

set_option linter.unusedSimpArgs false
set_option linter.unusedVariables false

namespace FSat

section
variable {g : Grid} {v : Asg} {T : Nat × Nat → Tile}

/-! ### Blocks of nine cells -/

theorem block3_iff (hg : g.WF) {c r : Dir} (hcr : c.Across r) (f : (p00 p10 p11 p12 p20 p21 p22 : Nat × Nat) → Cnf) :
    ∃ bs, g.blocks c 3 r 3 none = .ok bs ∧ ∀ v, Sat v (bs.flatMap fun b =>
      match b with
      | [[some p00, some _, some _], [some p10, some p11, some p12], [some p20, some p21, some p22]] => f p00 p10 p11 p12 p20 p21 p22
      | _ => []) ↔ ∀ p00 p10 p11 p12 p20 p21 p22, g.In p00 → g.nb p00 r = some p10 → g.nb p10 r = some p20 →
        g.nb p10 c = some p11 → g.nb p11 c = some p12 → g.nb p20 c = some p21 → g.nb p21 c = some p22 →
        Sat v (f p00 p10 p11 p12 p20 p21 p22) := by
  have hc : c.dx.natAbs + c.dy.natAbs = 1 := by cases c <;> rfl
  have hr : r.dx.natAbs + r.dy.natAbs = 1 := by cases r <;> rfl
  unfold Grid.blocks iterateTileBlocks
  simp only [hc, hr, ne_eq, not_true_eq_false, if_false, show (3 : Nat) ≠ 0 by decide]
  refine ⟨_, rfl, fun v => ?_⟩
  simp only [Sat_flatMap, List.mem_map, List.mem_flatMap, List.mem_range]
  have hrange : List.range 3 = [0, 1, 2] := rfl
  have geo : ∀ p, g.In p → ∀ i j : Nat, g.offset p (r.dx * (i : Nat) + c.dx * (j : Nat)) (r.dy * (i : Nat) + c.dy * (j : Nat)) =
      (walk g.nb p r i).bind fun q => walk g.nb q c j := by
    intro p hp i j
    rw [Grid.offset_corner hg hp hcr.symm, Grid.offset_walk hg hp r i]
    cases hw : walk g.nb p r i with
    | none => rfl
    | some q => exact Grid.offset_walk hg (walk_in hg hp hw) c j
  have hall : ∀ (x y : Nat) (a b : Int), blockAllowed a b none none none none x y = true := by
    intro x y a b
    unfold blockAllowed
    simp
  have w0 : ∀ p d, walk g.nb p d 0 = some p := fun _ _ => rfl
  have w1 : ∀ p d, walk g.nb p d 1 = g.nb p d := fun _ _ => rfl
  have w2 : ∀ p d, walk g.nb p d 2 = (g.nb p d).bind fun q => g.nb q d := fun _ _ => rfl
  constructor
  · intro hh p00 p10 p11 p12 p20 p21 p22 hp e10 e20 e11 e12 e21 e22
    obtain ⟨p01, e01, e01'⟩ := Grid.square hg hp hcr.symm e10 e11
    obtain ⟨p02, e02, e02'⟩ := Grid.square hg (Grid.nb_in hg e01) hcr.symm e01' e12
    have := hh [[some p00, some p01, some p02], [some p10, some p11, some p12], [some p20, some p21, some p22]]
      ⟨(p00, (List.range 3).map fun (row : Nat) => (List.range 3).map fun (col : Nat) =>
          offsetPos g.width g.height g.edge p00.1 p00.2 (r.dx * row + c.dx * col) (r.dy * row + c.dy * col)),
      ⟨p00.1, hp.1, p00.2, hp.2, by rw [if_pos (hall _ _ _ _)]; simp⟩, ?_⟩
    · exact this
    · have k : ∀ (i j : Nat) q, ((walk g.nb p00 r i).bind fun q => walk g.nb q c j) = some q →
          g.offset p00 (r.dx * (i : Nat) + c.dx * (j : Nat)) (r.dy * (i : Nat) + c.dy * (j : Nat)) = some q := by
        intro i j q h
        rw [geo p00 hp i j]
        exact h
      have fin : ∀ x1 x2 x3 x4 x5 x6 x7 x8 x9 : Option (Nat × Nat), x1 = some p00 → x2 = some p01 → x3 = some p02 → x4 = some p10 →
          x5 = some p11 → x6 = some p12 → x7 = some p20 → x8 = some p21 → x9 = some p22 → [[x1, x2, x3], [x4, x5, x6], [x7, x8, x9]] =
          [[some p00, some p01, some p02], [some p10, some p11, some p12], [some p20, some p21, some p22]] := by
        rintro _ _ _ _ _ _ _ _ _ rfl rfl rfl rfl rfl rfl rfl rfl rfl
        rfl
      simp only [hrange, List.map_cons, List.map_nil]
      have k00 := k 0 0 p00 (by simp [w0])
      have k01 := k 0 1 p01 (by simp [w0, w1, e01])
      have k02 := k 0 2 p02 (by simp [w0, w2, e01, e02])
      have k10 := k 1 0 p10 (by simp [w0, w1, e10])
      have k11 := k 1 1 p11 (by simp [w0, w1, e10, e11])
      have k12 := k 1 2 p12 (by simp [w0, w1, w2, e10, e11, e12])
      have k20 := k 2 0 p20 (by simp [w0, w2, e10, e20])
      have k21 := k 2 1 p21 (by simp [w0, w1, w2, e10, e20, e21])
      have k22 := k 2 2 p22 (by simp [w0, w1, w2, e10, e20, e21, e22])
      exact fin _ _ _ _ _ _ _ _ _ k00 k01 k02 k10 k11 k12 k20 k21 k22
  · rintro hh bl ⟨a, ⟨x, hx, y, hy, hm⟩, rfl⟩
    have hp : g.In (x, y) := ⟨hx, hy⟩
    rw [if_pos (hall _ _ _ _), List.mem_singleton] at hm
    subst hm
    simp only [hrange, List.map_cons, List.map_nil]
    split
    · rename_i p00 p01 p02 p10 p11 p12 p20 p21 p22 heq
      simp only [List.cons.injEq, and_true] at heq
      obtain ⟨⟨e00, e01, e02⟩, ⟨e10, e11, e12⟩, e20, e21, e22⟩ := heq
      have k : ∀ (i j : Nat) q, g.offset (x, y) (r.dx * (i : Nat) + c.dx * (j : Nat)) (r.dy * (i : Nat) + c.dy * (j : Nat)) = some q → ((walk g.nb (x, y) r i).bind fun q => walk g.nb q c j) = some q := by
        intro i j q h
        rw [← geo (x, y) hp i j]
        exact h
      replace e00 := k 0 0 _ e00
      replace e10 := k 1 0 _ e10
      replace e11 := k 1 1 _ e11
      replace e12 := k 1 2 _ e12
      replace e20 := k 2 0 _ e20
      replace e21 := k 2 1 _ e21
      replace e22 := k 2 2 _ e22
      simp only [w0, w1, w2, Option.bind_some, Option.some.injEq] at e00 e10 e11 e12 e20 e21 e22
      have b0 : ∀ o : Option (Nat × Nat), (o.bind fun q => some q) = o := fun o => by cases o <;> rfl
      simp only [b0] at e10 e20
      rw [e10] at e11 e12 e20 e21 e22
      simp only [Option.bind_some] at e11 e12 e20 e21 e22
      rw [e11] at e12
      rw [e20] at e21 e22
      simp only [Option.bind_some] at e12 e21 e22
      rw [e21] at e22
      simp only [Option.bind_some] at e22
      subst e00
      exact hh _ _ _ _ _ _ _ hp e10 e20 e11 e12 e21 e22
    · simp

theorem straight_iff {c : CellVal} {t : Tile} (h : Agrees c t) (hs : ¬ t.IsSplitter) (d : Dir) :
    c.inp d = true ∧ c.out d = true ↔ t = .belt d d := by
  rw [h.takes_iff (h.isSplitter_false hs), h.emits_iff (h.isSplitter_false hs)]
  cases t with
  | belt i o => simp [Tile.Takes, Tile.Emits, eq_comm]
  | underground e b => cases b <;> simp [Tile.Takes, Tile.Emits]
  | splitter e b => exact absurd ⟨e, b, rfl⟩ hs
  | _ => simp [Tile.Takes, Tile.Emits]

theorem binVal_one {ls : List Lit} (h : ls.length = 1) (v : Asg) : value v ls = if ev v (ls.getD 0 default) then 1 else 0 := by
  match ls, h with
  | [l], _ => simp [value, binVal]

theorem passing_iff (hg : g.WF) (hbits : g.bits = 1) : ∃ cs, preventPassing g = .ok cs ∧ ∀ v T, Lays g (g.vals v) T →
    (∀ p, g.In p → ¬ (T p).IsSplitter) →
    (Sat v cs ↔ ∀ p d, g.In p → ¬ Passing g.nb T (fun q => value v (g.at' q).colour) p d) := by
  unfold preventPassing
  rw [if_pos (by rw [hg.c, hbits])]
  have hcl : ∀ (d : Dir) (p a b e : Nat × Nat) v, Sat v ([false, true].map fun sign => invertComponents [
        setLiteral ((g.at' p).colour.getD 0 default) sign, setLiteral ((g.at' a).colour.getD 0 default) sign,
        setLiteral ((g.at' b).colour.getD 0 default) sign, setLiteral ((g.at' e).colour.getD 0 default) sign,
        (g.at' p).inp d, (g.at' p).out d, (g.at' a).inp d, (g.at' a).out d,
        (g.at' b).inp d.reverse, (g.at' b).out d.reverse, (g.at' e).inp d.reverse, (g.at' e).out d.reverse]) ↔
      ¬ ((value v (g.at' a).colour = value v (g.at' p).colour ∧ value v (g.at' b).colour = value v (g.at' p).colour ∧
        value v (g.at' e).colour = value v (g.at' p).colour) ∧
        ((g.vals v p).inp d = true ∧ (g.vals v p).out d = true) ∧ ((g.vals v a).inp d = true ∧ (g.vals v a).out d = true) ∧
        ((g.vals v b).inp d.opp = true ∧ (g.vals v b).out d.opp = true) ∧ ((g.vals v e).inp d.opp = true ∧ (g.vals v e).out d.opp = true)) := by
    intro d p a b e v
    have hset : ∀ (x : Lit) (b : Bool), ev v (setLiteral x b) = true ↔ ev v x = b := by
      intro x b; cases b <;> simp [setLiteral]
    simp only [List.map_cons, List.map_nil, Sat_cons, Sat_nil, and_true, SatC_invertComponents, List.mem_cons, List.not_mem_nil, or_false,
      forall_eq_or_imp, forall_eq, hset, Dir.reverse_eq]
    rw [binVal_one (by rw [hg.c, hbits]), binVal_one (by rw [hg.c, hbits]), binVal_one (by rw [hg.c, hbits]), binVal_one (by rw [hg.c, hbits])]
    have f1 : ∀ q x, (g.vals v q).inp x = ev v ((g.at' q).inp x) := fun _ _ => rfl
    have f2 : ∀ q x, (g.vals v q).out x = ev v ((g.at' q).out x) := fun _ _ => rfl
    simp only [f1, f2]
    generalize ev v ((g.at' p).colour.getD 0 default) = c0
    generalize ev v ((g.at' a).colour.getD 0 default) = c1
    generalize ev v ((g.at' b).colour.getD 0 default) = c2
    generalize ev v ((g.at' e).colour.getD 0 default) = c3
    cases c0 <;> cases c1 <;> cases c2 <;> cases c3 <;> simp
  obtain ⟨cs, h1, h2⟩ := concatE_iff (fun d : Dir => overBlocks g d d.next none fun p00 p01 p10 p11 =>
      [false, true].map fun sign => invertComponents [
        setLiteral ((g.at' p00).colour.getD 0 default) sign, setLiteral ((g.at' p01).colour.getD 0 default) sign,
        setLiteral ((g.at' p10).colour.getD 0 default) sign, setLiteral ((g.at' p11).colour.getD 0 default) sign,
        (g.at' p00).inp d, (g.at' p00).out d, (g.at' p01).inp d, (g.at' p01).out d,
        (g.at' p10).inp d.reverse, (g.at' p10).out d.reverse, (g.at' p11).inp d.reverse, (g.at' p11).out d.reverse])
    (fun v d => ∀ p a b e, g.In p → g.nb p d = some a → g.nb p d.ccw = some b → g.nb b d = some e →
      ¬ ((value v (g.at' a).colour = value v (g.at' p).colour ∧ value v (g.at' b).colour = value v (g.at' p).colour ∧
        value v (g.at' e).colour = value v (g.at' p).colour) ∧
        ((g.vals v p).inp d = true ∧ (g.vals v p).out d = true) ∧ ((g.vals v a).inp d = true ∧ (g.vals v a).out d = true) ∧
        ((g.vals v b).inp d.opp = true ∧ (g.vals v b).out d.opp = true) ∧ ((g.vals v e).inp d.opp = true ∧ (g.vals v e).out d.opp = true)))
    Dir.all (by
      intro d _
      obtain ⟨cs, h1, h2⟩ := overBlocks_iff hg (show d.Across d.next by rw [Dir.next_eq]; exact .inl rfl) none fun p00 p01 p10 p11 =>
        [false, true].map fun sign => invertComponents [
        setLiteral ((g.at' p00).colour.getD 0 default) sign, setLiteral ((g.at' p01).colour.getD 0 default) sign,
        setLiteral ((g.at' p10).colour.getD 0 default) sign, setLiteral ((g.at' p11).colour.getD 0 default) sign,
        (g.at' p00).inp d, (g.at' p00).out d, (g.at' p01).inp d, (g.at' p01).out d,
        (g.at' p10).inp d.reverse, (g.at' p10).out d.reverse, (g.at' p11).inp d.reverse, (g.at' p11).out d.reverse]
      refine ⟨cs, h1, fun v => ?_⟩
      rw [h2]
      simp only [hcl, Dir.next_eq]
      simp)
  refine ⟨cs, h1, fun v T hl hs => ?_⟩
  rw [h2]
  simp only [Dir.forall_mem_all]
  have st : ∀ q d, g.In q → ((g.vals v q).inp d = true ∧ (g.vals v q).out d = true ↔ T q = .belt d d) := fun q d hq =>
    straight_iff (hl q hq) (hs q hq) d
  constructor
  · rintro hh p d hp ⟨a, b, e, e1, e2, e3, t1, t2, t3, t4, c1, c2, c3⟩
    have ha := Grid.nb_in hg e1
    have hb := Grid.nb_in hg e2
    have he := Grid.nb_in hg e3
    exact hh d p a b e hp e1 e2 e3 ⟨⟨c1, c2, c3⟩, (st p d hp).2 t1, (st a d ha).2 t2, (st b _ hb).2 t3, (st e _ he).2 t4⟩
  · rintro hh d p a b e hp e1 e2 e3 ⟨⟨c1, c2, c3⟩, t1, t2, t3, t4⟩
    have ha := Grid.nb_in hg e1
    have hb := Grid.nb_in hg e2
    have he := Grid.nb_in hg e3
    exact hh p d hp ⟨a, b, e, e1, e2, e3, (st p d hp).1 t1, (st a d ha).1 t2, (st b _ hb).1 t3, (st e _ he).1 t4, c1, c2, c3⟩

theorem awkward_iff (hg : g.WF) : ∃ cs, preventAwkwardEntry g = .ok cs ∧ ∀ v T, Lays g (g.vals v) T → UndergroundSem g (g.vals v) →
    (∀ p, g.In p → ¬ (T p).IsSplitter) → (Sat v cs ↔ ∀ p d, g.In p → ¬ AwkwardExit g.nb T p d) := by
  unfold preventAwkwardEntry
  obtain ⟨cs, h1, h2⟩ := concatE_iff (fun d : Dir => (match g.blocks d.next 3 d 3 none with
    | .error e => .error e
    | .ok bs => .ok (bs.flatMap fun b =>
      match b with
      | [[some p00, some _, some _], [some p10, some p11, some p12], [some p20, some p21, some p22]] =>
        [invertComponents [(g.at' p00).isEmpty, (g.at' p00).ug d, -(g.at' p10).ug d, (g.at' p11).isEmpty, (g.at' p20).out d.next,
          (g.at' p21).out d.next, (g.at' p22).out d.reverse, (g.at' p12).out d.reverse]]
      | _ => []) : Except PyErr Cnf)) (fun v d => ∀ p00 p10 p11 p12 p20 p21 p22, g.In p00 → g.nb p00 d = some p10 → g.nb p10 d = some p20 →
        g.nb p10 d.ccw = some p11 → g.nb p11 d.ccw = some p12 → g.nb p20 d.ccw = some p21 → g.nb p21 d.ccw = some p22 →
        ¬ ((g.vals v p00).isEmpty = true ∧ (g.vals v p00).ug d = true ∧ (g.vals v p10).ug d = false ∧ (g.vals v p11).isEmpty = true ∧
          (g.vals v p20).out d.ccw = true ∧ (g.vals v p21).out d.ccw = true ∧ (g.vals v p22).out d.opp = true ∧
          (g.vals v p12).out d.opp = true)) Dir.all (by
      intro d _
      obtain ⟨bs, h1, h2⟩ := block3_iff hg (show d.next.Across d by rw [Dir.next_eq]; cases d <;> decide)
        fun p00 p10 p11 p12 p20 p21 p22 => [invertComponents [(g.at' p00).isEmpty, (g.at' p00).ug d, -(g.at' p10).ug d, (g.at' p11).isEmpty,
          (g.at' p20).out d.next, (g.at' p21).out d.next, (g.at' p22).out d.reverse, (g.at' p12).out d.reverse]]
      refine ⟨_, by rw [h1], fun v => ?_⟩
      rw [h2]
      simp only [Dir.next_eq, Dir.reverse_eq, Sat_cons, Sat_nil, and_true, SatC_invertComponents, List.mem_cons, List.not_mem_nil, or_false,
        forall_eq_or_imp, forall_eq, ev_neg, Bool.not_eq_true']
      exact Iff.rfl)
  refine ⟨cs, h1, fun v T hl hu hs => ?_⟩
  rw [h2]
  simp only [Dir.forall_mem_all]
  have em : ∀ q d, g.In q → ((g.vals v q).out d = true ↔ (T q).Emits d) := fun q d hq =>
    (hl q hq).emits_iff ((hl q hq).isSplitter_false (hs q hq)) d
  have ie : ∀ q, g.In q → ((g.vals v q).isEmpty = true ↔ T q = .empty) := fun q hq => (hl q hq).isEmpty_iff
  constructor
  · rintro hh p d hp ⟨p10, p20, p11, p12, p21, p22, e1, e2, e3, e4, e5, e6, t1, t2, t3, t4, t5, t6, t7⟩
    have i10 := Grid.nb_in hg e1
    have hx := ((hl p10 i10).ugOut_iff d).2 t2
    refine hh d p p10 p11 p12 p20 p21 p22 hp e1 e2 e3 e4 e5 e6 ⟨(ie p hp).2 t1,
      hu.beforeOut d p10 p i10 (Grid.nb_opp hg hp e1) hx, (hu.notOut d p10 i10 hx).1, (ie _ (Grid.nb_in hg e3)).2 t3,
      (em _ _ (Grid.nb_in hg e2)).2 t4, (em _ _ (Grid.nb_in hg e5)).2 t5, (em _ _ (Grid.nb_in hg e6)).2 t6, (em _ _ (Grid.nb_in hg e4)).2 t7⟩
  · rintro hh d p p10 p11 p12 p20 p21 p22 hp e1 e2 e3 e4 e5 e6 ⟨t1, u1, u2, t3, t4, t5, t6, t7⟩
    have i10 := Grid.nb_in hg e1
    exact hh p d hp ⟨p10, p20, p11, p12, p21, p22, e1, e2, e3, e4, e5, e6, (ie p hp).1 t1,
      ((hl p10 i10).ugOut_iff d).1 (hu.next d p p10 hp e1 u1 u2), (ie _ (Grid.nb_in hg e3)).1 t3,
      (em _ _ (Grid.nb_in hg e2)).1 t4, (em _ _ (Grid.nb_in hg e5)).1 t5, (em _ _ (Grid.nb_in hg e6)).1 t6, (em _ _ (Grid.nb_in hg e4)).1 t7⟩

/-! ### Symmetry -/

/-- The values of the cells are symmetric. -/
def RotSem (g : Grid) (C : Nat × Nat → CellVal) : Prop := ∀ p, g.In p →
  (∀ d, (C p).inp d = (C (g.turned p)).out d) ∧ (∀ d, (C p).out d = (C (g.turned p)).inp d) ∧ (∀ d, (C p).ug d = (C (g.turned p)).ug d) ∧
  (C p).isEmpty = (C (g.turned p)).isEmpty ∧ (C p).isBelt = (C (g.turned p)).isBelt ∧ (C p).isSplitter = (C (g.turned p)).isSplitter ∧
  (C p).isUgIn = (C (g.turned p)).isUgOut ∧ (C p).isUgOut = (C (g.turned p)).isUgIn ∧
  ¬ ((C p).isHead = true ∧ (C (g.turned p)).isHead = true)

theorem rot_iff (g : Grid) : ∃ cs, requireRotationalSymmetry g = .ok cs ∧ ∀ v, Sat v cs ↔ RotSem g (g.vals v) := by
  unfold requireRotationalSymmetry
  obtain ⟨cs, h1, h2⟩ := concatE_iff (fun p => rotTiles (g.at' p) (g.at' (g.turned p))) (fun v p =>
    (∀ d, (g.vals v p).inp d = (g.vals v (g.turned p)).out d) ∧ (∀ d, (g.vals v p).out d = (g.vals v (g.turned p)).inp d) ∧
    (∀ d, (g.vals v p).ug d = (g.vals v (g.turned p)).ug d) ∧ (g.vals v p).isEmpty = (g.vals v (g.turned p)).isEmpty ∧
    (g.vals v p).isBelt = (g.vals v (g.turned p)).isBelt ∧ (g.vals v p).isSplitter = (g.vals v (g.turned p)).isSplitter ∧
    (g.vals v p).isUgIn = (g.vals v (g.turned p)).isUgOut ∧ (g.vals v p).isUgOut = (g.vals v (g.turned p)).isUgIn ∧
    ¬ ((g.vals v p).isHead = true ∧ (g.vals v (g.turned p)).isHead = true)) g.cells (by
      intro p _
      unfold rotTiles
      have hlen : ∀ a b : TileInst, setNumbersEqual
          (dirs a.inp ++ dirs a.out ++ dirs a.ug ++ [a.isEmpty, a.isBelt, a.isSplitter, a.isUgIn, a.isUgOut])
          (dirs b.out ++ dirs b.inp ++ dirs b.ug ++ [b.isEmpty, b.isBelt, b.isSplitter, b.isUgOut, b.isUgIn]) =
          .ok (equalClauses (dirs a.inp ++ dirs a.out ++ dirs a.ug ++ [a.isEmpty, a.isBelt, a.isSplitter, a.isUgIn, a.isUgOut])
          (dirs b.out ++ dirs b.inp ++ dirs b.ug ++ [b.isEmpty, b.isBelt, b.isSplitter, b.isUgOut, b.isUgIn])) := fun a b => rfl
      rw [hlen]
      refine ⟨_, rfl, fun v => ?_⟩
      rw [Sat_append, Sat_equalClauses _ _ _ (by rfl)]
      have fd : ∀ P : Dir → Prop, (∀ d, P d) ↔ P .right ∧ P .up ∧ P .left ∧ P .down := fun P =>
        ⟨fun h => ⟨h _, h _, h _, h _⟩, fun h d => by cases d <;> simp [h]⟩
      simp only [fd]
      simp only [dirs, Dir.all, List.map_append, List.map_cons, List.map_nil, List.cons_append, List.nil_append, List.append_assoc, List.cons.injEq,
        and_true, Sat_cons, Sat_nil, SatC_cons, SatC_nil, or_false, ev_neg, Grid.vals, evalTile]
      constructor
      · rintro ⟨⟨a1, a2, a3, a4, b1, b2, b3, b4, c1, c2, c3, c4, d1, d2, d3, d4, d5⟩, e1⟩
        refine ⟨⟨a1, a2, a3, a4⟩, ⟨b1, b2, b3, b4⟩, ⟨c1, c2, c3, c4⟩, d1, d2, d3, d4, d5, ?_⟩
        simpa [imp_iff_not_or] using e1
      · rintro ⟨⟨a1, a2, a3, a4⟩, ⟨b1, b2, b3, b4⟩, ⟨c1, c2, c3, c4⟩, d1, d2, d3, d4, d5, e1⟩
        refine ⟨⟨a1, a2, a3, a4, b1, b2, b3, b4, c1, c2, c3, c4, d1, d2, d3, d4, d5⟩, ?_⟩
        simpa [imp_iff_not_or] using e1)
  refine ⟨cs, h1, fun v => ?_⟩
  rw [h2]
  exact forall_congr' fun p => by rw [Grid.mem_cells]

end

end FSat
