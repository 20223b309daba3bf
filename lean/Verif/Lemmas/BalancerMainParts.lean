import Verif.Lemmas.BalancerMain
import Verif.Props.Balancer
import Verif.Props.Ends
import Verif.Props.Optimisations
import Verif.Props.NetFreeMain
import Verif.Props.NetworkFlow
import Verif.Lemmas.MirrorBreak
import Verif.Lemmas.LayoutFlow
/-!
# The clauses of the program `belt_balancer`, part by part
-/

set_option linter.unusedSimpArgs false
set_option linter.unusedVariables false

namespace FSat

/-! ### Taking the run apart -/

theorem Gen.cons_ok {f : Gen} {fs : List Gen} {s s' : Nat} {cs : Cnf} (h : Gen.all (f :: fs) s = .ok (cs, s')) :
    ∃ c1 s1 c2, f s = .ok (c1, s1) ∧ Gen.all fs s1 = .ok (c2, s') ∧ cs = c1 ++ c2 := by
  unfold Gen.all at h
  split at h
  · cases h
  · rename_i c1 s1 h1
    split at h
    · cases h
    · rename_i c2 s2 h2
      cases h
      exact ⟨_, _, _, h1, h2, rfl⟩

theorem Gen.nil_ok {s s' : Nat} {cs : Cnf} (h : Gen.all [] s = .ok (cs, s')) : cs = [] ∧ s' = s := by
  cases h; exact ⟨rfl, rfl⟩

theorem Gen.pure_ok {e : Except PyErr Cnf} {s s' : Nat} {cs : Cnf} (h : Gen.pure e s = .ok (cs, s')) : e = .ok cs ∧ s' = s := by
  unfold Gen.pure at h
  split at h
  · cases h
  · cases h; exact ⟨rfl, rfl⟩

/-- Clauses that are there if the condition holds. -/
def When (b : Bool) (e : Except PyErr Cnf) (c : Cnf) : Prop := (b = true → e = .ok c) ∧ (b = false → c = [])

theorem Gen.when_ok {b : Bool} {e : Except PyErr Cnf} {s s' : Nat} {cs : Cnf} (h : Gen.when b (Gen.pure e) s = .ok (cs, s')) :
    When b e cs ∧ s' = s := by
  unfold Gen.when at h
  cases b with
  | true =>
    obtain ⟨h1, h2⟩ := Gen.pure_ok h
    exact ⟨⟨fun _ => h1, (fun h => by cases h)⟩, h2⟩
  | false =>
    cases h
    exact ⟨⟨(fun h => by cases h), fun _ => rfl⟩, rfl⟩

theorem When.sat {b : Bool} {e : Except PyErr Cnf} {c : Cnf} (h : When b e c) {v : Asg} {P : Prop}
    (hP : e = .ok c → (Sat v c ↔ P)) : Sat v c ↔ (b = true → P) := by
  cases b with
  | true => rw [hP (h.1 rfl)]; simp
  | false => rw [h.2 rfl]; simp

/-- The parts of the clauses of the program. -/
structure MainParts (lib : CardLib) (net : PyDict Node Nat) (width height : Nat) (ugLen : Option Nat) (o : BalancerOptions) (g : Grid)
    (node : Nat × Nat → List Lit) (s' : Nat) where
  base : Cnf
  s0 : Nat
  e0 : Nat
  edge : Cnf
  s1 : Nat
  belts : Cnf
  glue : Cnf
  expand : Cnf
  merge : Cnf
  y1 : Nat
  sym : Cnf
  y2 : Nat
  bad : Cnf
  len : Cnf
  set : Cnf
  s2 : Nat
  ends : Cnf
  hbase : createBalancer lib net width height ugLen = .ok (g, node, base, s0)
  hedge : Gen.when (o.edgeSplitters || o.fast) (enforceEdgeSplitters lib g node net) e0 = .ok (edge, s1)
  hbelts : When o.edgeBelts (preventDoubleEdgeBelts g) belts
  hglue : When (o.glueSplitters || o.fast) (joinE [.ok (FSat.glueSplitters g), gluePartialSplitters g]) glue
  hexpand : When (o.expandUnderground || o.fast) (FSat.expandUnderground g { minX := 1, maxX := some ((g.width : Int) - 2) }) expand
  hmerge : When (o.preventMergeable || o.fast) (.ok (preventMergeableUnderground g)) merge
  hsym : Gen.when o.breakSymmetry (breakVerticalSymmetry g) y1 = .ok (sym, y2)
  hbad : When (o.preventBadPatterns || o.fast) (joinE [.ok (preventBeltHooks g), .ok (preventSemicircles g),
      .ok (preventSmallLoops g), .ok (preventUndergroundHook g), preventZigzags g, preventBeltParallelSplitter g]) bad
  hlen : enforceMaximumUndergroundLength g = .ok len
  hset : (match o.partialLayout with
      | some rows => setNonemptyTiles g rows
      | none => .ok []) = .ok set
  hends : balancerMainEnds g net o s2 = .ok (ends, s')
  order : (e0 = s0 ∧ y1 = s1 ∧ y2 = s2) ∨ (s2 = s0 ∧ e0 = s')

/-- All the parts hold. -/
def MainParts.Holds {lib : CardLib} {net : PyDict Node Nat} {width height : Nat} {ugLen : Option Nat} {o : BalancerOptions}
    {g : Grid} {node : Nat × Nat → List Lit} {s' : Nat} (P : MainParts lib net width height ugLen o g node s') (v : Asg) : Prop :=
  Sat v P.base ∧ Sat v (preventIntersection g) ∧
      Sat v P.edge ∧ Sat v P.belts ∧ Sat v P.glue ∧ Sat v P.expand ∧ Sat v P.merge ∧ Sat v P.sym ∧ Sat v P.bad ∧ Sat v P.len ∧
      Sat v (preventEmptyAlongUnderground g) ∧ Sat v P.set ∧ Sat v P.ends

theorem balancerMain_parts {lib : CardLib} {net : PyDict Node Nat} {width height : Nat} {ugLen : Option Nat} {o : BalancerOptions}
    {g : Grid} {node : Nat × Nat → List Lit} {cs : Cnf} {s' : Nat}
    (h : balancerMain lib net width height ugLen o = .ok (g, node, cs, s')) :
    ∃ P : MainParts lib net width height ugLen o g node s', ∀ v, Sat v cs ↔ P.Holds v := by
  unfold balancerMain at h
  split at h
  · split at h
    · cases h
    · rename_i g0 node0 cs0 s0 h0
      split at h
      · cases h
      · rename_i cs1 s1' h1
        cases h
        unfold balancerMainClauses at h1
        obtain ⟨c1, t1, d1, a1, k1, e1⟩ := Gen.cons_ok h1
        obtain ⟨b1, rfl⟩ := Gen.pure_ok a1
        obtain ⟨c2, t2, d2, a2, k2, e2⟩ := Gen.cons_ok k1
        obtain ⟨c3, t3, d3, a3, k3, e3⟩ := Gen.cons_ok k2
        obtain ⟨b3, rfl⟩ := Gen.when_ok a3
        obtain ⟨c4, t4, d4, a4, k4, e4⟩ := Gen.cons_ok k3
        obtain ⟨b4, rfl⟩ := Gen.when_ok a4
        obtain ⟨c5, t5, d5, a5, k5, e5⟩ := Gen.cons_ok k4
        obtain ⟨b5, rfl⟩ := Gen.when_ok a5
        obtain ⟨c6, t6, d6, a6, k6, e6⟩ := Gen.cons_ok k5
        obtain ⟨b6, rfl⟩ := Gen.when_ok a6
        obtain ⟨c7, t7, d7, a7, k7, e7⟩ := Gen.cons_ok k6
        obtain ⟨c8, t8, d8, a8, k8, e8⟩ := Gen.cons_ok k7
        obtain ⟨b8, rfl⟩ := Gen.when_ok a8
        obtain ⟨c9, t9, d9, a9, k9, e9⟩ := Gen.cons_ok k8
        obtain ⟨b9, rfl⟩ := Gen.pure_ok a9
        obtain ⟨c10, t10, d10, a10, k10, e10⟩ := Gen.cons_ok k9
        obtain ⟨b10, rfl⟩ := Gen.pure_ok a10
        obtain ⟨c11, t11, d11, a11, k11, e11⟩ := Gen.cons_ok k10
        obtain ⟨b11, rfl⟩ := Gen.pure_ok a11
        obtain ⟨c12, t12, d12, a12, k12, e12⟩ := Gen.cons_ok k11
        obtain ⟨e13, rfl⟩ := Gen.nil_ok k12
        cases b1
        cases b10
        refine ⟨⟨cs0, _, _, c2, _, c3, c4, c5, c6, _, c7, _, c8, c9, c11, _, c12, h0, a2, b3, b4, b5, b6, a7, b8, b9, b11, a12,
          .inl ⟨rfl, rfl, rfl⟩⟩, fun v => ?_⟩
        simp only [MainParts.Holds, e1, e2, e3, e4, e5, e6, e7, e8, e9, e10, e11, e12, e13, Sat_append, Sat_nil, and_true]
  · cases h

/-! ### What the parts say -/

section
variable {lib : CardLib} {net : PyDict Node Nat} {width height : Nat} {ugLen : Option Nat} {o : BalancerOptions} {g : Grid}
  {node : Nat × Nat → List Lit} {s' : Nat} {v : Asg} {T : Nat × Nat → Tile} {cs : Cnf}

theorem or_bool {a b : Bool} : ((a || b) = true) ↔ (a = true ∨ b = true) := by simp

theorem MainParts.belts_sem (P : MainParts lib net width height ugLen o g node s') (hS : Solved g v T) (hw : 2 ≤ g.width) :
    Sat v P.belts ↔ (o.edgeBelts = true → ∀ x y, x = 1 ∨ x = max (g.width - 2) 1 → y + 1 < g.height →
      ¬ (T (x, y) = .belt .right .right ∧ T (x, y + 1) = .belt .right .right)) := by
  refine P.hbelts.sat fun h => ?_
  obtain ⟨cs, h1, h2⟩ := c59_double_edge hw
  rw [h] at h1; cases h1
  exact h2 v T hS

theorem MainParts.glue_sem (P : MainParts lib net width height ugLen o g node s') (hS : Solved g v T) :
    Sat v P.glue ↔ (o.glueSplitters = true ∨ o.fast = true →
      (∀ p d, g.In p → ¬ (d = .right ∧ (p.1 = 1 ∨ p.1 + 2 = g.width)) → ¬ GluedSplitter g.nb T p d) ∧
      ∀ p d, g.In p → (p.1 : Int) ≤ g.width - 2 → (p.1 : Int) + d.ccw.dx + d.dx ≤ g.width - 2 →
        ¬ LooseSplitter g.nb T (fun q e => (g.flow v).inp q e = true) p d) := by
  rw [← or_bool]
  refine P.hglue.sat fun h => ?_
  obtain ⟨cs, h1, h2⟩ := c59_loose_splitters hS.wf
  rw [h1] at h
  have h := Except.ok.inj
    ((show joinE [.ok (FSat.glueSplitters g), .ok cs] = .ok (FSat.glueSplitters g ++ (cs ++ [])) from rfl).symm.trans h)
  rw [← h, Sat_append, Sat_append, c59_glue hS, h2 v T hS]
  simp only [Sat_nil, and_true]
  exact Iff.rfl

theorem MainParts.expand_sem (P : MainParts lib net width height ugLen o g node s') (hS : Solved g v T) (hw : 2 ≤ g.width)
    (hug : g.ugLen = ugLen) :
    Sat v P.expand ↔ (o.expandUnderground = true ∨ o.fast = true → Expanded T g.nb g.In g.width g.height ugLen) := by
  rw [← or_bool]
  refine P.hexpand.sat fun h => ?_
  have hin : Window.Inside { minX := 1, maxX := some ((g.width : Int) - 2) } g := by
    unfold Window.Inside Window.hiX Window.hiY
    simp only [Option.getD_some, Option.getD_none]
    omega
  have e1 : Window.hiX { minX := 1, maxX := some ((g.width : Int) - 2) } g = ((g.width - 2 : Nat) : Int) := by
    unfold Window.hiX
    simp only [Option.getD_some]
    omega
  have e2 : Window.hiY { minX := 1, maxX := some ((g.width : Int) - 2) } g = ((g.height - 1 : Nat) : Int) := by
    have := hS.wf.h
    unfold Window.hiY
    simp only [Option.getD_none]
    omega
  rcases hu : g.ugLen with _ | L
  · obtain ⟨cs, h1, h2⟩ := c59_expand_unlimited hS.wf _ hin hu
    rw [Except.ok.inj (h.symm.trans h1), h2 v T hS, e1, e2, ← hug, hu]
    simp only [Expanded, Nat.cast_sub hw, Nat.cast_sub (show 1 ≤ g.height from hS.wf.h)]
    exact Iff.rfl
  · obtain ⟨cs, h1, h2⟩ := c59_expand hS.wf _ hin L hu
    rw [Except.ok.inj (h.symm.trans h1), h2 v T hS, e1, e2, ← hug, hu]
    simp only [Expanded, Nat.cast_sub hw, Nat.cast_sub (show 1 ≤ g.height from hS.wf.h)]
    exact Iff.rfl

theorem MainParts.merge_sem (P : MainParts lib net width height ugLen o g node s') (hS : Solved g v T) (hug : g.ugLen = ugLen)
    (hedge : g.edge = ⟨false, false⟩) :
    Sat v P.merge ↔ (o.preventMergeable = true ∨ o.fast = true →
      ∀ p d k m, g.In p → (∀ L, ugLen = some L → k + m ≤ L) → ¬ MergeablePair g.nb T p d k m) := by
  rw [← or_bool]
  refine P.hmerge.sat fun h => ?_
  rw [← Except.ok.inj h, c59_mergeable_flat hS (by rw [hedge]) (by rw [hedge]), hug]

theorem MainParts.bad_sem (P : MainParts lib net width height ugLen o g node s') (hS : Solved g v T) :
    Sat v P.bad ↔ (o.preventBadPatterns = true ∨ o.fast = true →
      (∀ x y, x + 1 < g.width → y + 1 < g.height → ¬ SmallLoop T x y) ∧
      ∀ p d t, g.In p → d.Across t →
        ¬ BeltHook g.nb T p d t ∧ ¬ Semicircle g.nb T p d t ∧ ¬ EntranceHook g.nb T p d t ∧ ¬ ExitHook g.nb T p d t ∧
        ¬ Zigzag g.nb T p d t ∧ ¬ BeltBesideSplitter g.nb T (fun q e => (g.flow v).out q e = true) p d t) := by
  rw [← or_bool]
  refine P.hbad.sat fun h => ?_
  obtain ⟨cz, h1, h2⟩ := c59_zigzags hS.wf
  obtain ⟨cp, h3, h4⟩ := c59_parallel_partial hS.wf
  rw [h1, h3] at h
  have h := Except.ok.inj ((show joinE [.ok (preventBeltHooks g), .ok (preventSemicircles g), .ok (preventSmallLoops g), .ok (preventUndergroundHook g),
    .ok cz, .ok cp] = .ok (preventBeltHooks g ++ (preventSemicircles g ++ (preventSmallLoops g ++ (preventUndergroundHook g ++
      (cz ++ (cp ++ [])))))) from rfl).symm.trans h)
  rw [← h]
  simp only [Sat_append, c59_belt_hooks hS, c59_semicircles hS, c59_small_loops hS, c59_underground_hooks hS, h2 v T hS, h4 v T hS,
    Sat_nil, and_true]
  constructor
  · rintro ⟨a, b, c, d, e, f⟩
    exact ⟨c, fun p x t hp ht => ⟨a p x t hp ht, b p x t hp ht, (d p x t hp ht).1, (d p x t hp ht).2, e p x t hp ht, f p x t hp ht⟩⟩
  · rintro ⟨c, a⟩
    exact ⟨fun p x t hp ht => (a p x t hp ht).1, fun p x t hp ht => (a p x t hp ht).2.1, c,
      fun p x t hp ht => ⟨(a p x t hp ht).2.2.1, (a p x t hp ht).2.2.2.1⟩, fun p x t hp ht => (a p x t hp ht).2.2.2.2.1,
      fun p x t hp ht => (a p x t hp ht).2.2.2.2.2⟩

theorem MainParts.len_sem (P : MainParts lib net width height ugLen o g node s') (hg : g.WF) (hug : g.ugLen = ugLen) :
    Sat v P.len ↔ ∀ l, ugLen = some l → LengthSem g (g.vals v) l := by
  have h := P.hlen
  subst hug
  generalize P.len = c at h
  rcases hu : g.ugLen with _ | l
  · rw [(c21_no_limit g).1 hu] at h
    rw [← Except.ok.inj h]; simp
  · have hl : 1 ≤ l := by
      rcases Nat.eq_zero_or_pos l with rfl | h'
      · rw [(c21_no_limit g).2 hu] at h; cases h
      · exact h'
    obtain ⟨cl, h1, h2⟩ := length_iff hg l hu hl
    rw [Except.ok.inj (h.symm.trans h1), h2]; simp

theorem MainParts.set_sem (P : MainParts lib net width height ugLen o g node s') (hl : Lays g (g.vals v) T) :
    Sat v P.set ↔ ∀ rows, o.partialLayout = some rows → Contains T rows := by
  have h := P.hset
  cases hp : o.partialLayout with
  | none =>
    rw [hp] at h
    rw [← Except.ok.inj h]; simp
  | some rows =>
    rw [hp] at h
    rw [setNonempty_sem hl h]; simp

theorem ends_fit {t1 t2 : List TileInst} {d1 d2 : Dir} {m n : Nat} {r al : Bool} {s : Nat} {x : Cnf × Nat}
    (h : endsClauses t1 t2 d1 d2 m n r al s = .ok x) : m ≤ t1.length ∧ n ≤ t2.length := by
  unfold endsClauses at h
  split at h
  · cases h
  · rename_i a b c h1
    split at h
    · cases h
    · rename_i a' b' c' h2
      constructor
      · unfold setupBalancerInput at h1
        by_contra hc
        rw [if_neg hc] at h1; cases h1
      · unfold setupBalancerOutput at h2
        by_contra hc
        rw [if_neg hc] at h2; cases h2

theorem MainParts.ends_sem (P : MainParts lib net width height ugLen o g node s') (hg : g.WF) (hb : g.LitsLe P.s2)
    {a m b n : Int} (hE : Ends (elements net) a m b n) (hS : ∃ ci, initClauses g = .ok ci ∧ Sat v ci) (hT : Decodes g v T) :
    SatUpTo P.s2 v P.ends ↔ EndsPlaced T (g.flow v) g.width g.height o m.toNat n.toNat := by
  obtain ⟨ci, hci, hi⟩ := hS
  have hm : ((m.toNat : Nat) : Int) = m := Int.toNat_of_nonneg (Int.le_of_lt hE.pos)
  have hn : ((n.toNat : Nat) : Int) = n := Int.toNat_of_nonneg (Int.le_of_lt hE.neg)
  have hE' : Ends (elements net) a (m.toNat : Nat) b (n.toNat : Nat) := by rw [hm, hn]; exact hE
  have hio := (gio_iff _ _ _ _ _).2 hE
  have h := P.hends
  unfold balancerMainEnds at h
  unfold EndsPlaced
  split at h
  · rename_i h90
    rw [if_pos h90]
    have hf := h
    unfold setupBalancerEnds90 at hf
    rw [hio] at hf
    have := ends_fit hf
    simp only [Grid.column, Grid.row, List.length_map, List.length_range] at this
    obtain ⟨cs, t, h1, h2⟩ := c28_ends_90_partial hg hb hE' this.1 this.2 hci o.useEnds
    rw [h] at h1; cases h1
    exact h2 v T hi hT
  · rename_i h90
    rw [if_neg h90]
    split at h
    · rename_i h180
      rw [if_pos h180]
      have hf := h
      unfold setupBalancerEnds180 at hf
      rw [hio] at hf
      have := ends_fit hf
      simp only [Grid.column, Grid.row, List.length_map, List.length_range] at this
      obtain ⟨cs, t, h1, h2⟩ := c28_ends_180_partial hg hb hE' this.1 this.2 hci
      rw [h] at h1; cases h1
      exact h2 v T hi hT
    · rename_i h180
      rw [if_neg h180]
      split at h
      · rename_i hcu
        rw [if_pos hcu, (Gen.nil_ok h).1]
        exact ⟨fun _ => trivial, fun _ => ⟨v, fun _ _ => rfl, by simp⟩⟩
      · rename_i hcu
        rw [if_neg hcu]
        have hf := h
        unfold setupBalancerEnds at hf
        rw [hio] at hf
        have := ends_fit hf
        simp only [Grid.column, Grid.row, List.length_map, List.length_range] at this
        obtain ⟨cs, t, h1, h2⟩ := c28_ends_partial hg hb hE' this.1 this.2 hci o.aligned o.useEnds
        rw [h] at h1; cases h1
        exact h2 v T hi hT

theorem allocVars_bound_le {s n t : Nat} (h : s + n ≤ t) : LBound t (allocVars s n) := fun l hl => le_trans (allocVars_bound s n l hl) h

theorem LBound.slice {s : Nat} {ls : List Lit} (h : LBound s ls) (i k : Nat) : LBound s ((ls.drop i).take k) :=
  fun l hl => h l (List.mem_of_mem_drop (List.mem_of_mem_take hl))

theorem CBound_quadraticOne {s : Nat} {ls : List Lit} (h : LBound s ls) : CBound s (quadraticOne ls) := by
  unfold quadraticOne quadraticAmo
  rw [CBound_append]
  refine ⟨CBound_quadraticLoop _ _ (fun x hx => by simp at hx) h, ?_⟩
  intro c hc
  rw [List.mem_singleton.1 hc]
  exact h

theorem block_bound {t count di : Nat} {inside rest : TileInst → Cnf} {tiles : List TileInst}
    (h : ∀ x ∈ tiles, CBound t (inside x) ∧ CBound t (rest x)) : CBound t (blockConsequences inside rest tiles count di) := by
  unfold blockConsequences
  refine CBound_flatMap fun e he => ?_
  have := h e.1 (List.fst_mem_of_mem_zipIdx he)
  split
  · exact this.1
  · exact this.2

theorem offset_bound {t count s n : Nat} {inside rest : TileInst → Cnf} {tiles : List TileInst}
    (h : ∀ x ∈ tiles, CBound t (inside x) ∧ CBound t (rest x)) (hs : s + n ≤ t) :
    CBound t (offsetClauses inside rest tiles count (allocVars s n)) := by
  unfold offsetClauses
  rw [CBound_append]
  refine ⟨CBound_quadraticOne (allocVars_bound_le hs), CBound_flatMap fun e he => ?_⟩
  refine CBound_implies ?_ (block_bound h)
  intro l hl
  rw [List.mem_singleton.1 hl]
  exact allocVars_bound_le hs _ (List.fst_mem_of_mem_zipIdx he)

theorem ends_bound {t1 t2 : List TileInst} {d1 d2 : Dir} {m n : Nat} {r al : Bool} {s s' : Nat} {cs : Cnf}
    (h1 : ∀ x ∈ t1, LBound s x.lits) (h2 : ∀ x ∈ t2, LBound s x.lits)
    (h : endsClauses t1 t2 d1 d2 m n r al s = .ok (cs, s')) : s ≤ s' ∧ CBound s' cs := by
  have up : ∀ {t : Nat} {x : TileInst}, s ≤ t → LBound s x.lits → LBound t x.lits := fun ht hx l hl => le_trans (hx l hl) ht
  have one : ∀ (t : Nat) (x : TileInst), LBound t x.lits → CBound t [[x.inp d1]] := fun t x hx => CBound_one (hx _ (inp_lits x d1))
  unfold endsClauses at h
  split at h
  · cases h
  · rename_i starts c1 s1 e1
    split at h
    · cases h
    · rename_i ends c2 s2 e2
      have a1 : starts = allocVars s (t1.length - m) ∧ s1 = s + (t1.length - m) ∧ ∀ t, s1 ≤ t → CBound t c1 := by
        unfold setupBalancerInput at e1
        split at e1
        · simp only at e1
          split at e1
          · rename_i h0
            cases e1
            refine ⟨rfl, by omega, fun t ht => CBound_flatMap fun x hx => one t x (up ht (h1 x hx))⟩
          · cases e1
            exact ⟨rfl, rfl, fun t ht => offset_bound (fun x hx => input_bound (up (by omega) (h1 x hx)) d1 r) ht⟩
        · cases e1
      have a2 : ends = allocVars s1 (t2.length - n) ∧ s2 = s1 + (t2.length - n) ∧ ∀ t, s2 ≤ t → CBound t c2 := by
        unfold setupBalancerOutput at e2
        split at e2
        · simp only at e2
          split at e2
          · rename_i h0
            cases e2
            refine ⟨rfl, by omega, fun t ht => CBound_flatMap fun x hx => (output_bound (up (by omega) (h2 x hx)) d2 r).1⟩
          · cases e2
            exact ⟨rfl, rfl, fun t ht => offset_bound (fun x hx => output_bound (up (by omega) (h2 x hx)) d2 r) ht⟩
        · cases e2
      obtain ⟨rfl, e1', b1⟩ := a1
      obtain ⟨rfl, e2', b2⟩ := a2
      cases h
      refine ⟨by omega, ?_⟩
      rw [CBound_append, CBound_append]
      refine ⟨⟨b1 _ (by omega), b2 _ le_rfl⟩, ?_⟩
      have l1 : LBound s' (allocVars s (t1.length - m)) := allocVars_bound_le (by omega)
      have l2 : LBound s' (allocVars s1 (t2.length - n)) := allocVars_bound_le (by omega)
      have head : ∀ {ls : List Lit} {e : Lit × Nat}, LBound s' ls → e ∈ ls.zipIdx → LBound s' [e.1] := by
        intro ls e hb he l hl
        rw [List.mem_singleton.1 hl]
        exact hb _ (List.fst_mem_of_mem_zipIdx he)
      split
      · unfold alignClauses
        split
        · refine CBound_flatMap fun e he => CBound_implies (head l1 he) ?_
          intro c hc
          rw [List.mem_singleton.1 hc]
          exact l2.slice _ _
        · refine CBound_flatMap fun e he => CBound_implies (head l2 he) ?_
          intro c hc
          rw [List.mem_singleton.1 hc]
          exact l1.slice _ _
      · simp

theorem mainEnds_bound {s : Nat} (hg : g.WF) (hb : g.LitsLe s) (h : balancerMainEnds g net o s = .ok (cs, s')) :
    s ≤ s' ∧ CBound s' cs := by
  have col : ∀ x, x < g.width → ∀ t ∈ g.column x, LBound s t.lits := by
    intro x hx t ht
    obtain ⟨y, hy, rfl⟩ := List.mem_map.1 ht
    exact hb (x, y) ⟨hx, List.mem_range.1 hy⟩
  have row : ∀ y, y < g.height → ∀ t ∈ g.row y, LBound s t.lits := by
    intro y hy t ht
    obtain ⟨x, hx, rfl⟩ := List.mem_map.1 ht
    exact hb (x, y) ⟨List.mem_range.1 hx, hy⟩
  have w0 := col 0 hg.w
  have w1 := col (g.width - 1) (Nat.sub_lt hg.w Nat.one_pos)
  have r1 := row (g.height - 1) (Nat.sub_lt hg.h Nat.one_pos)
  unfold balancerMainEnds at h
  split at h
  · unfold setupBalancerEnds90 at h
    generalize getInputOutputColours (elements net) = io at h
    rcases io with e | ⟨⟨x, y⟩, z, w⟩
    · cases h
    · exact ends_bound w0 r1 h
  · split at h
    · unfold setupBalancerEnds180 at h
      generalize getInputOutputColours (elements net) = io at h
      rcases io with e | ⟨⟨x, y⟩, z, w⟩
      · cases h
      · exact ends_bound w0 w0 h
    · split at h
      · obtain ⟨rfl, rfl⟩ := Gen.nil_ok h
        exact ⟨le_rfl, by simp⟩
      · unfold setupBalancerEnds at h
        generalize getInputOutputColours (elements net) = io at h
        rcases io with e | ⟨⟨x, y⟩, z, w⟩
        · cases h
        · exact ends_bound w0 w1 h

/-! ### The edges -/

theorem GenEnc.when {s0 : Nat} {b : Bool} {f : Gen} {Q : Asg → Prop} (h : GenEnc s0 f Q) :
    GenEnc s0 (Gen.when b f) fun v => b = true → Q v := by
  cases b with
  | true => exact h.congr (by simp)
  | false =>
    refine ⟨fun _ _ _ => by simp, fun s hs cs s' hf => ?_⟩
    cases hf
    exact ⟨le_rfl, fun _ _ _ _ => by simp, (fun _ _ h => by cases h), fun v _ => ⟨v, fun _ _ => rfl, by simp⟩⟩

/-- What the clauses of both edges say. -/
def BothEdges (g : Grid) (node : Nat × Nat → List Lit) (net : PyDict Node Nat) (a b : Int) (v : Asg) : Prop :=
  EdgeSem g v node 1 (edgeNodes Prod.fst net a) (recirculations Prod.snd net a) ∧
  EdgeSem g v node (g.width - 2) (edgeNodes Prod.snd net b) (recirculations Prod.fst net b)

theorem mem_edgeNodes {side : Node → Colour × Colour} {c : Int} {e : Nat × Nat} (h : e ∈ edgeNodes side net c) : e.1 < net.length := by
  unfold edgeNodes at h
  obtain ⟨x, hx, hx'⟩ := List.mem_filterMap.1 h
  split at hx'
  · cases hx'
    exact (List.mem_zipIdx' hx).1
  · cases hx'

theorem edge_genEnc (hl : lib.Correct) {V : Nat} (hb : g.LitsLe V)
    (hn : ∀ p, g.In p → ∀ i < net.length, ((node p).getD i default).var ≤ V) (hw : 2 ≤ g.width) {a m b n : Int}
    (hE : Ends (elements net) a m b n) : GenEnc V (enforceEdgeSplitters lib g node net) (BothEdges g node net a b) := by
  unfold enforceEdgeSplitters
  rw [(gio_iff _ _ _ _ _).2 hE]
  have e2 : ((g.width : Int) - 2).toNat = g.width - 2 := by omega
  have h1 := edgeColumn_enc hl hb (x := 1) (by omega) (by omega) (nodes := edgeNodes Prod.fst net a)
    (fun p hp e he => hn p hp e.1 (mem_edgeNodes he)) (recirculations Prod.snd net a)
  have h2 := edgeColumn_enc hl hb (x := (g.width : Int) - 2) (by omega) (by omega) (nodes := edgeNodes Prod.snd net b)
    (fun p hp e he => hn p hp e.1 (mem_edgeNodes he)) (recirculations Prod.fst net b)
  refine (h1.cons (h2.cons (GenEnc.nil V))).congr fun v => ?_
  rw [e2, and_true]
  exact Iff.rfl

theorem recirculations_eq (net : PyDict Node Nat) (c : Int) :
    recirculations Prod.snd net c = (outsOf (elements net)).count (some c) ∧
    recirculations Prod.fst net c = (insOf (elements net)).count (some c) := by
  unfold recirculations outsOf insOf
  rw [List.count_flatMap, List.count_flatMap]
  exact ⟨rfl, rfl⟩

theorem Ends.unique {n : Network} {a p b q a' p' b' q' : Int} (h : Ends n a p b q) (h' : Ends n a' p' b' q') :
    a = a' ∧ p = p' ∧ b = b' ∧ q = q' := by
  have h1 := (gio_iff _ _ _ _ _).2 h
  rw [(gio_iff _ _ _ _ _).2 h'] at h1
  simp only [Except.ok.injEq, Prod.mk.injEq] at h1
  obtain ⟨⟨rfl, rfl⟩, rfl, rfl⟩ := h1
  exact ⟨rfl, rfl, rfl, rfl⟩

theorem bothEdges_iff (hv : net.Valid) (hT : Lays g (g.vals v) T) {lab : Nat × Nat → Option Node} {F : Flow (Nat × Nat)}
    (hR : Realises g.nb T F g.cells (elements net) lab)
    (hN : ∀ p, g.In p → ∀ i, ∀ hi : i < net.length, ev v ((node p).getD i default) = true ↔ lab p = some (net[i]).1)
    (hw : 2 ≤ g.width) {a m b n : Int} (hE : Ends (elements net) a m b n) :
    BothEdges g node net a b v ↔ EdgeSplitters T lab g.width g.cells (elements net) := by
  have hmem : ∀ p, g.In p → ∀ k, lab p = some k → k ∈ net.map Prod.fst := by
    intro p hp k hk
    have h1 : 0 < (elements net).count k := by
      rw [← hR.used k]
      exact List.countP_pos_iff.2 ⟨p, (g.mem_cells p).2 hp, by simpa using hk⟩
    rw [count_elements net hv] at h1
    cases hg : net.get k with
    | none => rw [hg] at h1; simp at h1
    | some x => exact List.mem_map.2 ⟨(k, x), PyDict.mem_of_get hg, rfl⟩
  unfold BothEdges
  rw [edgeSem_iff hv hT hR.heads hR.used hN hmem Prod.fst a _ (by omega),
    edgeSem_iff hv hT hR.heads hR.used hN hmem Prod.snd b _ (by omega), (recirculations_eq net a).1, (recirculations_eq net b).2]
  constructor
  · intro h a' i b' o' hE'
    obtain ⟨rfl, rfl, rfl, rfl⟩ := hE.unique hE'
    exact h
  · intro h
    exact h a m b n hE

/-! ### Colours -/

theorem createBalancer_colours (hc : createBalancer lib net width height ugLen = .ok (g, node, cs, s'))
    (hpos : ∀ c ∈ netColours net, 0 ≤ c) :
    (∃ c : Nat, (c : Int) ∈ netColours net) ∧ ∀ c : Nat, (c : Int) ∈ netColours net → c < g.colours.getD 1 := by
  have hm : ∃ m, (netColours net).max? = some m := by
    cases h : (netColours net).max? with
    | none => unfold createBalancer at hc; rw [h] at hc; simp only at hc; split at hc <;> cases hc
    | some m => exact ⟨m, rfl⟩
  obtain ⟨m, hm⟩ := hm
  obtain ⟨h1, h2⟩ := List.max?_eq_some_iff.1 hm
  have h0 := hpos m h1
  refine ⟨⟨m.toNat, by rw [Int.toNat_of_nonneg h0]; exact h1⟩, fun c hcm => ?_⟩
  rw [createBalancer_grid hc hm]
  show c < (m + 1).toNat
  have := h2 c hcm
  omega

theorem mem_netColours (hcnt : ∀ e ∈ net, 0 < e.2) (c : Int) : c ∈ netColours net ↔ ∃ k ∈ elements net, k.HasColour c := by
  unfold netColours elements Node.HasColour
  simp only [List.mem_filterMap, List.mem_flatMap, id_eq, exists_eq_right, List.mem_replicate]
  constructor
  · rintro ⟨e, he, h⟩
    exact ⟨e.1, ⟨e, he, Nat.ne_of_gt (hcnt e he), rfl⟩, h⟩
  · rintro ⟨k, ⟨e, he, _, rfl⟩, h⟩
    exact ⟨e, he, h⟩

/-! ### Inputs and outputs -/

theorem comes_goes {C : Nat × Nat → CellVal} (hg : g.WF) (hedge : g.edge = ⟨false, false⟩) (hw : 2 ≤ g.width) (hh : 2 ≤ g.height)
    (hio : IoSem g C) {F : Flow (Nat × Nat)} (hi : ∀ p, g.In p → F.inp p = (C p).inp) (ho : ∀ p, g.In p → F.out p = (C p).out)
    {p : Nat × Nat} (hp : g.In p) : F.comesIn g.nb p = (C p).isInput ∧ F.goesOut g.nb p = (C p).isOutput := by
  have all : ∀ d : Dir, d ∈ [Dir.right, .up, .left, .down] := by intro d; cases d <;> simp
  obtain ⟨h1, h2⟩ := hio p hp
  constructor
  · rw [Bool.eq_iff_iff, h1]
    unfold Flow.comesIn
    rw [List.any_eq_true, hi p hp]
    constructor
    · rintro ⟨d, _, h⟩
      rw [Bool.and_eq_true, Option.isNone_iff_eq_none, (nb_none_outside hg hedge hp d).1] at h
      exact ⟨d, (mem_ioDirs hp hw hh d).1.2 h.2, h.1⟩
    · rintro ⟨d, h, h'⟩
      refine ⟨d, all d, ?_⟩
      rw [Bool.and_eq_true, Option.isNone_iff_eq_none, (nb_none_outside hg hedge hp d).1]
      exact ⟨h', (mem_ioDirs hp hw hh d).1.1 h⟩
  · rw [Bool.eq_iff_iff, h2]
    unfold Flow.goesOut
    rw [List.any_eq_true, ho p hp]
    constructor
    · rintro ⟨d, _, h⟩
      rw [Bool.and_eq_true, Option.isNone_iff_eq_none, (nb_none_outside hg hedge hp d).2] at h
      refine ⟨d.opp, (mem_ioDirs hp hw hh d.opp).2.2 ?_, ?_⟩
      · rw [Dir.opp_opp]; exact h.2
      · rw [Dir.opp_opp]; exact h.1
    · rintro ⟨d, h, h'⟩
      refine ⟨d.opp, all _, ?_⟩
      rw [Bool.and_eq_true, Option.isNone_iff_eq_none, (nb_none_outside hg hedge hp d.opp).2]
      exact ⟨h', (mem_ioDirs hp hw hh d).2.1 h⟩

/-! ### All the options -/

theorem MeetsOptions.congr {F F' : Flow (Nat × Nat)} {lab : Nat × Nat → Option Node} {cells : List (Nat × Nat)} {n : Network} (hg : g.WF)
    (hi : ∀ p, g.In p → F'.inp p = F.inp p) (ho : ∀ p, g.In p → F'.out p = F.out p)
    (h : MeetsOptions T F lab g.nb g.In cells g.width g.height ugLen n o) :
    MeetsOptions T F' lab g.nb g.In cells g.width g.height ugLen n o := by
  have hw := hg.w
  have hh := hg.h
  have entry : ∀ (line : Nat → Nat × Nat) (len : Nat) (d : Dir) (m : Nat) (u : Bool) (a : Nat), (∀ y < len, g.In (line y)) →
      EntryBlock T F line len d m u a → EntryBlock T F' line len d m u a := by
    intro line len d m u a hin h
    unfold EntryBlock at h ⊢
    split
    · rw [if_pos ‹_›] at h
      exact ⟨h.1, fun y hy => by rw [hi _ (hin y hy)]; exact h.2 y hy⟩
    · rw [if_neg ‹_›] at h
      exact h
  have exit : ∀ (line : Nat → Nat × Nat) (len : Nat) (d : Dir) (m : Nat) (u : Bool) (a : Nat), (∀ y < len, g.In (line y)) →
      ExitBlock T F line len d m u a → ExitBlock T F' line len d m u a := by
    intro line len d m u a hin h
    unfold ExitBlock at h ⊢
    split
    · rw [if_pos ‹_›] at h
      exact h
    · rw [if_neg ‹_›] at h
      refine ⟨h.1, h.2.1, fun y hy => ?_⟩
      have := h.2.2 y hy
      split
      · rw [if_pos ‹_›] at this; exact this
      · rw [if_neg ‹_›] at this
        cases u with
        | true => simp only [if_true] at this ⊢; rw [ho _ (hin y hy)]; exact this
        | false => exact this
  refine ⟨h.edgeSplitters, h.edgeBelts, h.glued, fun hf p d hp h1 h2 => ?_, h.expanded, h.mergeable, h.loops, fun hf p d t hp ht => ?_,
    h.spans, h.layout, fun a i b k hE => ?_⟩
  · rintro ⟨q, a, b, h3, h4, h5, h6, h7, h8⟩
    have hq : g.In q := by obtain ⟨_, hn, _⟩ := h3; exact g.nb_in hg hn
    refine h.loose hf p d hp h1 h2 ⟨q, a, b, h3, h4, h5, h6, h7, ?_⟩
    simp only [hi p hp, hi q hq] at h8
    exact h8
  · obtain ⟨a, b, c, e, f, k⟩ := h.patterns hf p d t hp ht
    refine ⟨a, b, c, e, f, ?_⟩
    rintro ⟨q, b', c', h1, h2, h3, h4, h5, h6⟩
    have hb : g.In b' := g.nb_in hg h2
    rw [ho b' hb] at h5
    exact k ⟨q, b', c', h1, h2, h3, h4, h5, h6⟩
  · have := h.ends a i b k hE
    unfold EndsPlaced at this ⊢
    have c0 : ∀ y < g.height, g.In (0, y) := fun y hy => ⟨hw, hy⟩
    have cw : ∀ y < g.height, g.In (g.width - 1, y) := fun y hy => ⟨by show g.width - 1 < g.width; omega, hy⟩
    have rh : ∀ x < g.width, g.In (x, g.height - 1) := fun x hx => ⟨hx, by show g.height - 1 < g.height; omega⟩
    split
    · rw [if_pos ‹_›] at this
      obtain ⟨x, y, h1, h2⟩ := this
      exact ⟨x, y, entry _ _ _ _ _ _ c0 h1, exit _ _ _ _ _ _ rh h2⟩
    · rw [if_neg ‹_›] at this
      split
      · rw [if_pos ‹_›] at this
        obtain ⟨x, y, h1, h2⟩ := this
        exact ⟨x, y, entry _ _ _ _ _ _ c0 h1, exit _ _ _ _ _ _ c0 h2⟩
      · rw [if_neg ‹_›] at this
        split
        · trivial
        · rw [if_neg ‹_›] at this
          obtain ⟨x, y, h1, h2, h3⟩ := this
          exact ⟨x, y, entry _ _ _ _ _ _ c0 h1, exit _ _ _ _ _ _ cw h2, h3⟩

theorem MainParts.meets (P : MainParts lib net width height ugLen o g node s') (hS : Solved g v T) (hug : g.ugLen = ugLen)
    (hedge : g.edge = ⟨false, false⟩) (hw : 2 ≤ g.width) (hb : g.LitsLe P.s2) {a m b n : Int} (hE : Ends (elements net) a m b n)
    (hlen : ∀ p q d k, g.In p → UgPair g.nb T p q d k → ∀ l, ugLen = some l → k - 1 ≤ l)
    {lab : Nat × Nat → Option Node} (hedges : BothEdges g node net a b v ↔ EdgeSplitters T lab g.width g.cells (elements net)) :
    (((o.edgeSplitters || o.fast) = true → BothEdges g node net a b v) ∧ Sat v P.belts ∧ Sat v P.glue ∧ Sat v P.expand ∧
      Sat v P.merge ∧ Sat v P.bad ∧ Sat v (preventEmptyAlongUnderground g) ∧ Sat v P.set ∧ SatUpTo P.s2 v P.ends) ↔
    MeetsOptions T (g.flow v) lab g.nb g.In g.cells g.width g.height ugLen (elements net) o := by
  have hlay : Lays g (g.vals v) T := by
    obtain ⟨ci, h1, h2⟩ := hS.init
    exact lays_of_decodes (sem_of_sat hS.wf h1 h2) hS.decodes
  rw [hedges, or_bool, P.belts_sem hS hw, P.glue_sem hS, P.expand_sem hS hw hug, P.merge_sem hS hug hedge, P.bad_sem hS, c59_empty_span hS,
    P.set_sem hlay, P.ends_sem hS.wf hb hE hS.init hS.decodes]
  constructor
  · rintro ⟨h1, h2, h3, h4, h5, h6, h7, h8, h9⟩
    refine ⟨h1, h2, fun hf => (h3 hf).1, fun hf => (h3 hf).2, h4, h5, fun hf => (h6 hf).1, fun hf => (h6 hf).2,
      fun p q d k hp hs => h7 p q d k hp (fun l hl => hlen p q d k hp hs.1 l (hug.symm.trans hl)) hs, h8, ?_⟩
    intro a' i b' k hE'
    obtain ⟨rfl, rfl, rfl, rfl⟩ := hE.unique hE'
    exact h9
  · intro h
    exact ⟨h.edgeSplitters, h.edgeBelts, fun hf => ⟨h.glued hf, h.loose hf⟩, h.expanded, h.mergeable, fun hf => ⟨h.loops hf, h.patterns hf⟩,
      fun p q d k hp _ => h.spans p q d k hp, h.layout, h.ends a m b n hE⟩

/-! ### The grid and its variables -/

theorem LitsLe_mono {s t : Nat} (h : g.LitsLe s) (hst : s ≤ t) : g.LitsLe t := fun p hp l hl => le_trans (h p hp l hl) hst

/-- What is known about the grid, its variables, and the clauses of `create_balancer`. -/
structure Ready (P : MainParts lib net width height ugLen o g node s') (k V : Nat) (a m b n : Int) : Prop where
  gd : g = mkGrid width height ⟨false, false⟩ (some k) ugLen (nodeFields net.length) 0
  k1 : 1 ≤ k
  wf : g.WF
  edge : g.edge = ⟨false, false⟩
  ug : g.ugLen = ugLen
  w : g.width = width
  h : g.height = height
  ne : net ≠ []
  lits : g.LitsLe V
  nodes : ∀ p, g.In p → ∀ i < net.length, ((node p).getD i default).var ≤ V
  ends : Ends (elements net) a m b n
  base : Enc V P.s0 P.base fun v => InitSem g (g.vals v) ∧
        (∀ c < k, (c : Int) ∉ netColours net → NoColourSem g c (g.vals v)) ∧ BlockUgSem g (.ofBool true) (g.vals v) ∧
        UndergroundSem g (g.vals v) ∧ ColourSem g (g.vals v) ∧
        BalancerSem g net a m b n (g.vals v) fun p i => ev v ((node p).getD i default)
  side : Enc P.e0 P.s1 P.edge fun v => (o.edgeSplitters || o.fast) = true → BothEdges g node net a b v
  e0le : P.s0 ≤ P.e0
  s2le : P.s0 ≤ P.s2
  order : P.s1 ≤ P.s2 ∨ s' ≤ P.e0
  bound : CBound s' P.ends

theorem MainParts.ready (P : MainParts lib net width height ugLen o g node s') (hl : lib.Correct) (hpos : ∀ c ∈ netColours net, 0 ≤ c)
    (hw : 2 ≤ width) (hh : 2 ≤ height) : ∃ k V a m b n, Ready P k V a m b n := by
  obtain ⟨k, a, m, b, n, hk, hgd, hw', hh', hne, hnd, hE, hok, hcol, henc⟩ := createBalancer_enc hl hpos P.hbase
  have hg : g.WF := hgd ▸ mkGrid_wf hw' hh' _ _ _ (by intro n h; cases h; omega) _ _
  have hgw : g.width = width := by rw [hgd]; rfl
  have hgh : g.height = height := by rw [hgd]; rfl
  obtain ⟨hlits, hnodes⟩ := mkGrid_lits width height ⟨false, false⟩ (some k) ugLen (nodeFields net.length) 0
  rw [← hgd, Nat.zero_add] at hlits hnodes
  have hbits : ∀ p, (g.at' p).colour.length = (k - 1).size ∧ (g.at' p).colourUx.length = (k - 1).size ∧
      (g.at' p).colourUy.length = (k - 1).size := by
    intro p
    have e : g.bits = (k - 1).size := by rw [hgd]; rfl
    exact ⟨e ▸ hg.c p, e ▸ hg.cx p, e ▸ hg.cy p⟩
  have hn : ∀ p, g.In p → ∀ i < net.length, ((node p).getD i default).var ≤
      height * width * (gridFields (some k) (nodeFields net.length)).variableCount := by
    intro p hp i hi
    have h2 : (nodeFields net.length).flatten (toExtras (some k) (nodeFields net.length)
        (cellInstance width (some k) (nodeFields net.length) 0 p.1 p.2)) = node p := by
      rw [hnd]; exact List.append_nil (α := Lit) _
    have hlen : (node p).length = net.length := by
      obtain ⟨w, _, hw⟩ := mkGrid_free width height ⟨false, false⟩ (some k) ugLen (nodeFields net.length) 0 (fun _ => false)
        (fun p => g.vals (fun _ => false) p) (fun _ => List.replicate net.length false)
        (fun p => by simpa [Grid.vals, evalTile] using (hbits p).1) (fun p => by simpa [Grid.vals, evalTile] using (hbits p).2.1)
        (fun p => by simpa [Grid.vals, evalTile] using (hbits p).2.2)
        (fun p => by simp [nodeFields, TFields.variableCount, Tmpl.variableCount])
      rw [← hgd] at hw
      have := congrArg List.length (hw p hp).2
      rw [h2] at this
      simpa using this
    have hmem : (node p).getD i default ∈ node p := by
      rw [List.getD_eq_getElem?_getD, List.getElem?_eq_getElem (show i < (node p).length by omega), Option.getD_some]
      exact List.getElem_mem _
    exact hnodes p hp _ (h2 ▸ hmem)
  have henc' := henc.le
  have hge : ∀ e, P.s0 ≤ e → e = P.e0 → _ := fun e he h =>
    ((edge_genEnc hl hlits hn (by omega) hE).when (b := o.edgeSplitters || o.fast)).enc e (le_trans henc' he) _ _ (h ▸ P.hedge)
  have hends : P.s0 ≤ P.s2 → P.s2 ≤ s' ∧ CBound s' P.ends := fun h => mainEnds_bound hg (LitsLe_mono hlits (le_trans henc' h)) P.hends
  have fin : P.s0 ≤ P.e0 → P.s0 ≤ P.s2 → (P.s1 ≤ P.s2 ∨ s' ≤ P.e0) → ∃ k V a m b n, Ready P k V a m b n := fun h1 h2 h3 =>
    ⟨k, _, a, m, b, n, hgd, hk, hg, by rw [hgd]; rfl, by rw [hgd]; rfl, hgw, hgh, hne, hlits, hn, hE, henc, hge _ h1 rfl, h1, h2, h3,
      (hends h2).2⟩
  rcases P.order with ⟨o1, o2, o3⟩ | ⟨o1, o2⟩
  · have hedge := hge P.s0 le_rfl o1.symm
    have hsym : P.s1 ≤ P.s2 := by
      have := (((breakVertical_enc (by omega) (LitsLe_mono hlits (le_trans henc.le hedge.le))).when (b := o.breakSymmetry)).enc P.s1 le_rfl _ _
        (o2 ▸ P.hsym)).le
      exact o3 ▸ this
    exact fin o1.ge (le_trans hedge.le hsym) (.inl hsym)
  · exact fin (by rw [o2]; exact o1 ▸ (hends o1.ge).1) o1.ge (.inr o2.ge)

/-! ### Soundness -/

theorem MainParts.layout (P : MainParts lib net width height ugLen o g node s') (hl : lib.Correct) (hv : net.Valid)
    (hpos : ∀ c ∈ netColours net, 0 ≤ c) (hcnt : ∀ e ∈ net, 0 < e.2) (hw : 2 ≤ width) (hh : 2 ≤ height) (hs : P.Holds v)
    (hT : Decodes g v T) :
    BalancerLayout g.nb g.In g.cells (g.shut (.ofBool true)) width height ugLen (elements net) o T := by
  obtain ⟨k, V, a, m, b, n, R⟩ := P.ready hl hpos hw hh
  obtain ⟨s1, s2, s3, s4, s5, s6, s7, s8, s9, s10, s11, s12, s13⟩ := hs
  obtain ⟨hi, hno, hbu, hun, hco, hB⟩ := R.base.sound v s1
  have hg := R.wf
  have hlay := lays_of_decodes hi hT
  have hx := (Sat_intersection g v).1 s2
  obtain ⟨ci, hi1, hi2⟩ := init_iff hg
  have hS : Solved g v T := ⟨hg, ⟨ci, hi1, (hi2 v).2 hi⟩, s2, (Sat_underground g v).2 hun, hT⟩
  have hlen := (P.len_sem hg R.ug).1 s10
  have hE : g.Sealed (.ofBool true) := fun d _ => by cases d <;> rfl
  have hrules : BasicRules g.In g.nb T (fun _ _ => False) (g.shut (.ofBool true)) ugLen := by
    refine ⟨fun p hp => (hlay p hp).basic, (splitterSem_iff hg hlay).1 hi.splitter, joined_of_sem hg hlay hx, ends_of_sem hg hlay hx,
      ⟨fun p d hp ht => ?_, fun q d hq ht => ?_, fun p q d k hp hpair l hul => pairs_len hg hlay hun (hlen l hul) hp hpair⟩,
      (fun _ _ _ h => h.elim), underShut_of_sem hg hlay hun hbu⟩
    · obtain ⟨q, k, a, b, _⟩ := entrance_run hg hlay hun hbu hE hp ht
      exact ⟨q, k, a, b⟩
    · obtain ⟨p, k, a, b⟩ := exit_run hg hlay hun hbu hE hq ht
      exact ⟨p, k, a, b⟩
  have hreal := hB.realises hv hlay hrules.splitters
  have one := fun p hp => (oneHot_iff net.length (g.vals v p).isHead fun i => ev v ((node p).getD i default)).1 (hB.one p hp)
  have hkc : g.colours.getD 1 = k := by rw [R.gd]; rfl
  have hcolr := colourRules_of_sem hg hlay hun hco fun p hp => (hi.range p hp).1
  have hes := hB.ends R.ne
  have hgw : 2 ≤ g.width := by rw [R.w]; exact hw
  have hgh : 2 ≤ g.height := by rw [R.h]; exact hh
  have hcg := fun p (hp : g.In p) => comes_goes (F := g.flow v) hg R.edge hgw hgh hi.io (fun _ _ => rfl) (fun _ _ => rfl) hp
  refine ⟨hrules, g.flow v, _, ⟨fits_of_lays hlay hx, fun p hp ht => ?_, hcolr.surface, hcolr.under, hreal,
    a, m, b, n, R.ends, ?_, ?_, fun p hp h => ?_, fun p hp h => ?_⟩, ?_⟩
  · rw [← mem_netColours hcnt]
    by_contra hcn
    have hlt := (hi.range p hp).1
    rw [hkc] at hlt
    have := hno _ hlt hcn p hp
    split at this
    · rename_i h0
      refine ht ((hlay p hp).noFlags.1 ⟨fun d => ?_, fun d => ?_⟩)
      · by_contra hd; exact this d (.inl (by simpa using hd)) h0
      · by_contra hd; exact this d (.inr (by simpa using hd)) h0
    · exact this.1 rfl
  · rw [← hes.ins, List.countP_congr fun p hp => by rw [(hcg p ((g.mem_cells p).1 hp)).1]]
  · rw [← hes.outs, List.countP_congr fun p hp => by rw [(hcg p ((g.mem_cells p).1 hp)).2]]
  · exact hes.inCol p hp ((hcg p hp).1 ▸ h)
  · exact hes.outCol p hp ((hcg p hp).2 ▸ h)
  · have hb2 : g.LitsLe P.s2 := LitsLe_mono R.lits (le_trans R.base.le R.s2le)
    have hN : ∀ p, g.In p → ∀ i, ∀ hi : i < net.length, ev v ((node p).getD i default) = true ↔
        labelOf net (fun i => ev v ((node p).getD i default)) = some (net[i]).1 :=
      fun p hp i hi => (labelOf_iff hv (one p hp).2.2 hi).symm
    have := (P.meets hS R.ug R.edge hgw hb2 R.ends hrules.undergrounds.len
      (bothEdges_iff hv hlay hreal hN hgw R.ends)).1
      ⟨R.side.sound v s3, s4, s5, s6, s7, s9, s11, s12, ⟨v, fun _ _ => rfl, s13⟩⟩
    rw [R.w, R.h] at this
    exact this

theorem balancerMain_sound (hl : lib.Correct) (hv : net.Valid) (hpos : ∀ c ∈ netColours net, 0 ≤ c) (hcnt : ∀ e ∈ net, 0 < e.2)
    (hw : 2 ≤ width) (hh : 2 ≤ height) (hc : balancerMain lib net width height ugLen o = .ok (g, node, cs, s')) (hs : Sat v cs)
    (hT : Decodes g v T) :
    BalancerLayout g.nb g.In g.cells (g.shut (.ofBool true)) width height ugLen (elements net) o T := by
  obtain ⟨P, hP⟩ := balancerMain_parts hc
  exact P.layout hl hv hpos hcnt hw hh ((hP v).1 hs) hT

/-! ### Completeness -/

/-- The colours, with `c` for the cells that have none. -/
def recolour (T : Nat × Nat → Tile) (c : Nat) (F : Flow (Nat × Nat)) : Flow (Nat × Nat) where
  inp := F.inp
  out := F.out
  col p := if T p = .empty then c else F.col p

theorem Realises.congr {F F' : Flow (Nat × Nat)} {lab : Nat × Nat → Option Node} {net : Network} (hg : g.WF)
    (hf : FlowFits g.In g.nb T F) (hi : ∀ p, g.In p → F'.inp p = F.inp p) (ho : ∀ p, g.In p → F'.out p = F.out p)
    (hcol : ∀ p, g.In p → T p ≠ .empty → F'.col p = F.col p) (h : Realises g.nb T F g.cells net lab) :
    Realises g.nb T F' g.cells net lab := by
  refine ⟨h.heads, h.used, fun p hpm k d hl ht => ?_⟩
  have hp := (g.mem_cells p).1 hpm
  obtain ⟨q, p', q', hs, h1, h2, h3, h4⟩ := h.wired p hpm k d hl ht
  have hq : g.In q := by obtain ⟨_, hn, _⟩ := hs; exact g.nb_in hg hn
  have hp' := g.nb_in hg h1
  have hq' := g.nb_in hg h2
  have htq : T q ≠ .empty := by obtain ⟨_, _, e⟩ := hs; rw [e]; simp
  have htp : T p ≠ .empty := by rw [ht]; simp
  have front : ∀ x y, g.In x → g.In y → g.nb x d = some y → colourIf (F'.out x d) (F'.col y) = colourIf (F.out x d) (F.col y) := by
    intro x y hx hy hxy
    rw [ho x hx]
    cases hb : F.out x d with
    | false => rfl
    | true =>
      rw [hcol y hy]
      intro he
      have := hf.takes y d hy (hf.same x y d hx hxy ▸ hb)
      rw [he] at this
      exact this
  refine ⟨q, p', q', hs, h1, h2, ?_, ?_⟩
  · rw [hi p hp, hi q hq, hcol p hp htp, hcol q hq htq]; exact h3
  · rw [front p p' hp hp' h1, front q q' hq hq' h2]; exact h4

theorem underCol_prop (hg : g.WF) {col : Nat × Nat → Nat} {Q : Nat → Prop} (hn : ∀ p, g.In p → Q (col p)) {e : Dir} {r : Nat × Nat}
    (hr : g.In r) : Q (underCol g T col e r) := by
  unfold underCol
  split
  · rename_i h; exact hn _ (Classical.choose_spec h).1
  · split
    · rename_i h; exact hn _ (Classical.choose_spec h).1
    · exact hn r hr

theorem Tile.takes_ne {t : Tile} {d : Dir} (h : t.Takes d) : t ≠ .empty := by rintro rfl; exact h
theorem Tile.emits_ne {t : Tile} {d : Dir} (h : t.Emits d) : t ≠ .empty := by rintro rfl; exact h

theorem MainParts.solved (P : MainParts lib net width height ugLen o g node s') (hl : lib.Correct) (hv : net.Valid)
    (hpos : ∀ c ∈ netColours net, 0 ≤ c) (hcnt : ∀ e ∈ net, 0 < e.2) (hw : 2 ≤ width) (hh : 2 ≤ height)
    (hsym : o.breakSymmetry = false)
    (h : BalancerLayout g.nb g.In g.cells (g.shut (.ofBool true)) width height ugLen (elements net) o T) :
    ∃ v, P.Holds v ∧ Decodes g v T := by
  obtain ⟨k, V, a, m, b, n, R⟩ := P.ready hl hpos hw hh
  have hg := R.wf
  obtain ⟨hr, F, lab, hI, hM⟩ := h
  obtain ⟨⟨c0, hc0⟩, hclt⟩ := createBalancer_colours P.hbase hpos
  have hgw : 2 ≤ g.width := by rw [R.w]; exact hw
  have hgh : 2 ≤ g.height := by rw [R.h]; exact hh
  have hkc : g.colours.getD 1 = k := by rw [R.gd]; rfl
  -- the colours
  obtain ⟨F', hF'⟩ : ∃ F', F' = recolour T c0 F := ⟨_, rfl⟩
  have ei : F'.inp = F.inp := by rw [hF']; rfl
  have eo : F'.out = F.out := by rw [hF']; rfl
  have ec : ∀ p, T p ≠ .empty → F'.col p = F.col p := fun p hp => by rw [hF']; exact if_neg hp
  have hnetc : ∀ p, g.In p → (F'.col p : Int) ∈ netColours net := by
    intro p hp
    by_cases ht : T p = .empty
    · have : F'.col p = c0 := by rw [hF']; exact if_pos ht
      rw [this]; exact hc0
    · rw [ec p ht, mem_netColours hcnt]; exact hI.colours p hp ht
  have hlt : ∀ p, g.In p → F'.col p < g.colours.getD 1 := fun p hp => hclt _ (hnetc p hp)
  have hfits : FlowFits g.In g.nb T F' := by
    obtain ⟨h1, h2, h3, h4, h5, h6⟩ := hI.fits
    constructor <;> simp only [ei, eo] <;> assumption
  have hl' := draw_lays (col := F'.col) hr.basic hfits
  have hcr : ColourRules g.In g.nb T (g.colours.getD 1) F'.col := by
    refine ⟨hlt, fun p q d hp hq he hs => ?_, fun p q d j hp hpair => ?_⟩
    · have := hr.joined.1 p q d hp hq he hs
      rw [ec p (Tile.emits_ne he), ec q (Tile.takes_ne this)]
      exact hI.surface p q d hp hq he hs
    · rw [ec p, ec q]
      · exact hI.under p q d j hp hpair
      · rw [hpair.2.2.2.1]; simp
      · rw [hpair.2.2.1]; simp
  -- an assignment for the cells
  have hbt : g.bits = (k - 1).size := by rw [R.gd]; rfl
  obtain ⟨v0, _, hv0⟩ := mkGrid_free width height ⟨false, false⟩ (some k) ugLen (nodeFields net.length) 0 (fun _ => false)
    (drawCell g T F'.inp F'.out F'.col) (fun _ => List.replicate net.length false)
    (fun p => by simp [drawCell, hbt]) (fun p => by simp [drawCell, hbt]) (fun p => by simp [drawCell, hbt])
    (fun p => by simp [nodeFields, TFields.variableCount, Tmpl.variableCount])
  rw [← R.gd] at hv0
  have hvals : ∀ p, g.In p → g.vals v0 p = drawCell g T F'.inp F'.out F'.col p := fun p hp => (hv0 p hp).1
  have hi := (draw_init hg hl' hr.splitters hlt).congr hg hvals
  have hx := (draw_intersection hg hl' hfits hr.ends).congr hg hvals
  have hun := (draw_underground hg hl' hr.undergrounds).congr hg hvals
  have hbu := (draw_blockUg hg hl' hr.under).congr hvals
  have hco := (draw_colour hg hl' hr.undergrounds hcr).congr hg hvals
  have hlays : ∀ u, (∀ p, g.In p → g.vals u p = g.vals v0 p) → Lays g (g.vals u) T := fun u hu p hp => by
    rw [hu p hp, hvals p hp]; exact hl' p hp
  have hcolv : ∀ p, g.In p → (g.flow v0).col p = F'.col p := fun p hp => by
    show binVal (g.vals v0 p).colour = _
    rw [hvals p hp]
    exact binVal_getBits_of_range _ _ (bits_lt hg (hlt p hp))
  have hiv : ∀ p, g.In p → (g.flow v0).inp p = F.inp p := fun p hp => by
    show (g.vals v0 p).inp = _
    rw [hvals p hp, ei]; rfl
  have hov : ∀ p, g.In p → (g.flow v0).out p = F.out p := fun p hp => by
    show (g.vals v0 p).out = _
    rw [hvals p hp, eo]; rfl
  obtain ⟨ci, hi1, hi2⟩ := init_iff hg
  obtain ⟨cc, hc1, hc2⟩ := colouring_iff hg
  have hreal : Realises g.nb T (g.flow v0) g.cells (elements net) lab :=
    hI.realises.congr hg hI.fits hiv hov fun p hp ht => (hcolv p hp).trans (ec p ht)
  have hcg := fun p (hp : g.In p) => comes_goes (F := F) hg R.edge hgw hgh hi.io (fun p hp => (hiv p hp).symm) (fun p hp => (hov p hp).symm) hp
  obtain ⟨a', m', b', n', hE', e1, e2, e3, e4⟩ := hI.ends
  obtain ⟨rfl, rfl, rfl, rfl⟩ := R.ends.unique hE'
  have nonempty_in : ∀ p, F.comesIn g.nb p = true → g.In p → T p ≠ .empty := by
    intro p hp hin
    obtain ⟨d, _, hd⟩ := List.any_eq_true.1 hp
    rw [Bool.and_eq_true] at hd
    exact Tile.takes_ne (hI.fits.takes p d hin hd.1)
  have nonempty_out : ∀ p, F.goesOut g.nb p = true → g.In p → T p ≠ .empty := by
    intro p hp hin
    obtain ⟨d, _, hd⟩ := List.any_eq_true.1 hp
    rw [Bool.and_eq_true] at hd
    exact Tile.emits_ne (hI.fits.emits p d hin hd.1)
  obtain ⟨v1, hv1, hs1, hlab⟩ := createBalancer_complete hl hv hpos P.hbase v0 hi1 ((hi2 v0).2 hi) ((Sat_blockUg hg _ v0).2 hbu)
    ((Sat_underground g v0).2 hun) hc1 ((hc2 v0).2 hco) (by
      intro c hck hcn cu hcu
      have hcb : c < 2 ^ g.bits := bits_lt hg hck
      obtain ⟨cu', q1, q2⟩ := preventColour_iff hg c hcb
      rw [hcu] at q1; cases q1
      refine (q2 v0).2 fun p hp => ?_
      have key : ∀ x : Nat, (x : Int) ∈ netColours net → x ≠ c := by rintro x hx rfl; exact hcn hx
      rw [hvals p hp]
      have u1 := underCol_prop (T := T) (Q := fun x => (x : Int) ∈ netColours net) hg hnetc (e := .right) hp
      have u2 := underCol_prop (T := T) (Q := fun x => (x : Int) ∈ netColours net) hg hnetc (e := .up) hp
      have b0 : binVal (drawCell g T F'.inp F'.out F'.col p).colour = F'.col p :=
        binVal_getBits_of_range _ _ (bits_lt hg (hlt p hp))
      have b1 : binVal (drawCell g T F'.inp F'.out F'.col p).colourUx = underCol g T F'.col .right p :=
        binVal_getBits_of_range _ _ (bits_lt hg (hclt _ u1))
      have b2 : binVal (drawCell g T F'.inp F'.out F'.col p).colourUy = underCol g T F'.col .up p :=
        binVal_getBits_of_range _ _ (bits_lt hg (hclt _ u2))
      rw [b0, b1, b2]
      split
      · rename_i h0
        intro d _
        rw [← h0]; exact key _ (hnetc p hp)
      · exact ⟨key _ (hnetc p hp), key _ u1, key _ u2⟩)
    T (decodes_of_lays (hlays v0 fun _ _ => rfl)) lab hreal a m b n R.ends
    (by
      rw [← e1, List.countP_congr fun p hp => ?_]
      rw [(hcg p ((g.mem_cells p).1 hp)).1]; exact Iff.rfl)
    (by
      rw [← e2, List.countP_congr fun p hp => ?_]
      rw [(hcg p ((g.mem_cells p).1 hp)).2]; exact Iff.rfl)
    (fun p hp hin => by
      have hin' : F.comesIn g.nb p = true := (hcg p hp).1.trans hin
      rw [hcolv p hp, ec p (nonempty_in p hin' hp)]
      exact e3 p hp hin')
    (fun p hp hout => by
      have hout' : F.goesOut g.nb p = true := (hcg p hp).2.trans hout
      rw [hcolv p hp, ec p (nonempty_out p hout' hp)]
      exact e4 p hp hout')
  -- the options
  have hfl : ∀ u, (∀ p, g.In p → g.vals u p = g.vals v0 p) → MeetsOptions T (g.flow u) lab g.nb g.In g.cells g.width g.height ugLen
      (elements net) o := by
    intro u hu
    rw [← R.w, ← R.h] at hM
    refine hM.congr hg (fun p hp => ?_) (fun p hp => ?_)
    · rw [← hiv p hp]; show (g.vals u p).inp = _; rw [hu p hp]; rfl
    · rw [← hov p hp]; show (g.vals u p).out = _; rw [hu p hp]; rfl
  have hsolved : ∀ u, (∀ p, g.In p → g.vals u p = g.vals v0 p) → Solved g u T := by
    intro u hu
    exact ⟨hg, ⟨ci, hi1, (hi2 u).2 (hi.congr hg hu)⟩, (Sat_intersection g u).2 (hx.congr hg hu),
      (Sat_underground g u).2 (hun.congr hg hu), decodes_of_lays (hlays u hu)⟩
  have hs12 : P.sym = [] := by
    have := P.hsym
    rw [hsym] at this
    have := Except.ok.inj this
    rw [Prod.mk.injEq] at this
    exact this.1.symm
  have hb2 : g.LitsLe P.s2 := LitsLe_mono R.lits (le_trans R.base.le R.s2le)
  have hmeets : ∀ u, (∀ p, g.In p → g.vals u p = g.vals v0 p) →
      (∀ p, g.In p → ∀ i, ∀ hi : i < net.length, ev u ((node p).getD i default) = true ↔ lab p = some (net[i]).1) → _ :=
    fun u hu hN => (P.meets (hsolved u hu) R.ug R.edge hgw hb2 R.ends hr.undergrounds.len
      (bothEdges_iff hv (hlays u hu) hI.realises hN hgw R.ends)).2 (hfl u hu)
  have hlab1 : ∀ u, Agree P.s0 v1 u → ∀ p, g.In p → ∀ i, ∀ hi : i < net.length,
      ev u ((node p).getD i default) = true ↔ lab p = some (net[i]).1 := by
    intro u hu p hp i hi
    rw [ev_agree' hu (le_trans (R.nodes p hp i hi) R.base.le), hlab p hp i hi, decide_eq_true_iff]
  have hval : ∀ u, Agree P.s0 v1 u → ∀ p, g.In p → g.vals u p = g.vals v0 p := fun u hu p hp =>
    (g.vals_agree (LitsLe_mono R.lits R.base.le) hu hp).trans (hv1 p hp)
  -- the variables of the edges and of the ends, in the order in which they were taken
  obtain ⟨v3, ha13, hs2, hs3⟩ : ∃ v3, Agree P.s0 v1 v3 ∧ Sat v3 P.edge ∧ Sat v3 P.ends := by
    rcases R.order with ho | ho
    · obtain ⟨v2, ha2, hs2⟩ := R.side.complete v1 (hmeets v1 hv1 (hlab1 v1 (Agree.refl _ _))).1
      have ha2 : Agree P.s0 v1 v2 := Agree.mono (show Agree P.e0 v1 v2 from ha2) R.e0le
      obtain ⟨v3, ha3, hs3⟩ := (hmeets v2 (hval v2 ha2) (hlab1 v2 ha2)).2.2.2.2.2.2.2.2
      have ha3 : Agree P.s2 v2 v3 := ha3
      exact ⟨v3, ha2.trans (ha3.mono R.s2le), R.side.stable v2 v3 (ha3.mono ho) hs2, hs3⟩
    · obtain ⟨v2, ha2, hs2⟩ := (hmeets v1 hv1 (hlab1 v1 (Agree.refl _ _))).2.2.2.2.2.2.2.2
      have ha2 : Agree P.s0 v1 v2 := Agree.mono (show Agree P.s2 v1 v2 from ha2) R.s2le
      obtain ⟨v3, ha3, hs3⟩ := R.side.complete v2 (hmeets v2 (hval v2 ha2) (hlab1 v2 ha2)).1
      have ha3 : Agree P.e0 v2 v3 := ha3
      exact ⟨v3, ha2.trans (ha3.mono R.e0le), hs3, (Sat_agree (ha3.mono ho) R.bound).2 hs2⟩
  obtain ⟨t1, t2, t3, t4, t5, t6, t7, t8, _⟩ := hmeets v3 (hval v3 ha13) (hlab1 v3 ha13)
  refine ⟨v3, ⟨R.base.stable v1 v3 ha13 hs1, (hsolved v3 (hval v3 ha13)).inter, hs2, t2, t3, t4, t5, ?_, t6,
    (P.len_sem hg R.ug).2 fun l hl => ?_, t7, t8, hs3⟩, decodes_of_lays (hlays v3 (hval v3 ha13))⟩
  · rw [hs12]; simp
  · exact ((draw_length hg (hl ▸ hr.undergrounds)).congr hg hvals).congr hg (hval v3 ha13)

theorem balancerMain_complete (hl : lib.Correct) (hv : net.Valid) (hpos : ∀ c ∈ netColours net, 0 ≤ c) (hcnt : ∀ e ∈ net, 0 < e.2)
    (hw : 2 ≤ width) (hh : 2 ≤ height) (hc : balancerMain lib net width height ugLen o = .ok (g, node, cs, s'))
    (hsym : o.breakSymmetry = false)
    (h : BalancerLayout g.nb g.In g.cells (g.shut (.ofBool true)) width height ugLen (elements net) o T) :
    ∃ v, Sat v cs ∧ Decodes g v T := by
  obtain ⟨P, hP⟩ := balancerMain_parts hc
  obtain ⟨v, h1, h2⟩ := P.solved hl hv hpos hcnt hw hh hsym h
  exact ⟨v, (hP v).2 h1, h2⟩

end

end FSat
