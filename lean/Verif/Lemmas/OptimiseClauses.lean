import Verif.Lemmas.Optimisations

set_option linter.unusedSimpArgs false
set_option linter.unusedVariables false

namespace FSat

/-- What the clauses that are always present give: the flags describe the layout `T`, belts connect, splitters and undergrounds are
complete. -/
structure Base (g : Grid) (v : Asg) (T : Nat × Nat → Tile) : Prop where
  wf : g.WF
  lays : Lays g (g.vals v) T
  inter : IntersectionSem g (g.vals v)
  under : UndergroundSem g (g.vals v)
  split : SplitterSem g (g.vals v)

section
variable {g : Grid} {v : Asg} {T : Nat × Nat → Tile}

theorem Sat_smallLoops (h : Base g v T) : Sat v (preventSmallLoops g) ↔
    ∀ x y, x + 1 < g.width → y + 1 < g.height → ¬ SmallLoop T x y := by
  simp only [preventSmallLoops, Sat_flatMap, List.mem_range]
  refine forall_congr' fun x => ?_
  have key : ∀ y, x + 1 < g.width → y + 1 < g.height →
      (Sat v [[-(g.tile (x + 0) (y + 0)).inp .left, -(g.tile (x + 0) (y + 0)).out .down, -(g.tile (x + 0) (y + 1)).inp .down,
        -(g.tile (x + 0) (y + 1)).out .right, -(g.tile (x + 1) (y + 1)).inp .right, -(g.tile (x + 1) (y + 1)).out .up,
        -(g.tile (x + 1) (y + 0)).inp .up, -(g.tile (x + 1) (y + 0)).out .left],
      [-(g.tile (x + 0) (y + 0)).inp .up, -(g.tile (x + 0) (y + 0)).out .right, -(g.tile (x + 1) (y + 0)).inp .right,
        -(g.tile (x + 1) (y + 0)).out .down, -(g.tile (x + 1) (y + 1)).inp .down, -(g.tile (x + 1) (y + 1)).out .left,
        -(g.tile (x + 0) (y + 1)).inp .left, -(g.tile (x + 0) (y + 1)).out .up]] ↔ ¬ SmallLoop T x y) := by
    intro y hx hy
    rw [← smallLoop_iff h.lays hx hy]
    simp only [Sat_cons, Sat_nil, and_true, SatC_iff_not, List.mem_cons, List.not_mem_nil, or_false, forall_eq_or_imp, forall_eq,
      ev_neg, Bool.not_eq_false', ← not_or]
    rfl
  constructor
  · intro hh y hx hy
    exact (key y hx hy).1 (hh (by omega) y (by omega))
  · intro hh hx y hy
    exact (key y (by omega) (by omega)).2 (hh y (by omega) (by omega))

theorem Sat_beltHooks (h : Base g v T) : Sat v (preventBeltHooks g) ↔
    ∀ p d t, g.In p → d.Across t → ¬ BeltHook g.nb T p d t := by
  simp only [preventBeltHooks, Sat_flatMap, forall_cells, Dir.forall_mem_all]
  refine forall_congr' fun p => ?_
  constructor
  · intro hh d t hp ha
    have := (forall_across d _).1 (hh hp d) t ha
    rintro ⟨q, r, s, hq, hr, hs, k1, k2, k3, k4⟩
    have iq := Grid.nb_in h.wf hq
    have ir := Grid.nb_in h.wf hr
    obtain ⟨s', hs1, hs2⟩ := Grid.square h.wf hp ha hq hr
    have : s' = s := by
      have := Grid.nb_opp h.wf (Grid.nb_in h.wf hs1) hs2
      rw [hs] at this; exact (Option.some.inj this).symm
    subst this
    have e0 : g.offset p (d.dx + t.dx) (d.dy + t.dy) = some r := by
      rw [Grid.offset_corner1 h.wf hp ha, hq]; exact hr
    have e1 : g.offset p d.dx d.dy = some q := hq
    have e2 : g.offset p t.dx t.dy = some s' := hs1
    rw [e0, e1, e2] at this
    simp only [Sat_flatMap, Sat_map] at this
    have key : ∀ i o, (i = d ∨ i = t) → (o = t ∨ o = d.opp) → T p = .belt i d → T s' = .belt d.opp o → False := by
      intro i o hi ho kp ks
      have := this i (by simpa using hi) o (by simpa [Dir.reverse_eq] using ho)
      rw [SatC_iff_not] at this
      apply this
      simp only [List.mem_cons, List.not_mem_nil, or_false, forall_eq_or_imp, forall_eq, ev_neg, Bool.not_eq_false', Dir.reverse_eq]
      exact (hook_iff h.wf h.lays h.inter ha hp hq hr hs).2 ⟨kp, k2, k3, ks⟩
    rcases k1 with k1 | k1 <;> rcases k4 with k4 | k4
    · exact key _ _ (.inl rfl) (.inl rfl) k1 k4
    · exact key _ _ (.inl rfl) (.inr rfl) k1 k4
    · exact key _ _ (.inr rfl) (.inl rfl) k1 k4
    · exact key _ _ (.inr rfl) (.inr rfl) k1 k4
  · intro hh hp d
    rw [forall_across]
    intro t ha
    have hn := hh d t hp ha
    split
    · rename_i q s r hq hs hr
      have hr' : g.nb q t = some r := by
        rw [Grid.offset_corner1 h.wf hp ha] at hr
        have : g.nb p d = some q := hq
        rw [this] at hr; exact hr
      obtain ⟨s', hs1, hs2⟩ := Grid.square h.wf hp ha hq hr'
      have : s' = s := by
        have e2 : g.nb p t = some s := hs
        rw [hs1] at e2; exact Option.some.inj e2
      subst this
      have hs3 := Grid.nb_opp h.wf (Grid.nb_in h.wf hs1) hs2
      simp only [Sat_flatMap, Sat_map]
      intro i hi o ho
      rw [SatC_iff_not]
      intro hall
      simp only [List.mem_cons, List.not_mem_nil, or_false, forall_eq_or_imp, forall_eq, ev_neg, Bool.not_eq_false', Dir.reverse_eq] at hall hi ho
      obtain ⟨k1, k2, k3, k4⟩ := (hook_iff h.wf h.lays h.inter ha hp hq hr' hs3).1 hall
      refine hn ⟨q, r, s', hq, hr', hs3, ?_, k2, k3, ?_⟩
      · rcases hi with rfl | rfl
        · exact .inl k1
        · exact .inr k1
      · rcases ho with rfl | rfl
        · exact .inl k4
        · exact .inr k4
    · simp

/-! ### Empty spans -/

theorem emptySpans_iff (h : Base g v T) (d : Dir) {p : Nat × Nat} (hp : g.In p) (n i : Nat) (middle : List (Nat × Nat))
    (hi : 1 ≤ i) (hl : middle.length = i - 1)
    (hm : ∀ r, r ∈ middle ↔ ∃ j, 0 < j ∧ j < i ∧ walk g.nb p d j = some r) (hall : ∀ j, j < i → ∃ r, walk g.nb p d j = some r) :
    Sat v (emptySpans g d p i n middle) ↔ ∀ k, i ≤ k → k < i + n → ∀ q, ¬ EmptySpan g.nb T p q d k := by
  induction n generalizing i middle with
  | zero => simp only [emptySpans, Sat_nil, true_iff]; intro k h1 h2; omega
  | succ n ih =>
    simp only [emptySpans]
    rw [Grid.offset_walk h.wf hp]
    cases hw : walk g.nb p d i with
    | none =>
      simp only [Sat_nil, true_iff]
      intro k h1 h2 q hq
      obtain ⟨r, hr, _⟩ := walk_le hq.1.2.1 h1
      rw [hw] at hr; cases hr
    | some q =>
      simp only [Sat_append]
      rw [ih (i + 1) (middle ++ [q]) (by omega) (by simp [hl]; omega)]
      · have key : Sat v (if middle.length > 0 then [emptySpanClause g d p middle q] else []) ↔
            ∀ q', ¬ EmptySpan g.nb T p q' d i := by
          by_cases hi2 : 2 ≤ i
          · rw [if_pos (by omega)]
            have iq := walk_in h.wf hp hw
            simp only [Sat_cons, Sat_nil, and_true, SatC_iff_not]
            have hcl : (∀ l ∈ emptySpanClause g d p middle q, ev v l = false) ↔ EmptySpan g.nb T p q d i := by
              simp only [emptySpanClause, List.mem_append, List.mem_cons, List.not_mem_nil, or_false, or_imp, forall_and, forall_eq,
                ev_neg, Bool.not_eq_false', List.mem_map, forall_exists_index, and_imp, forall_apply_eq_imp_iff₂]
              constructor
              · rintro ⟨⟨⟨a1, a2⟩, a3⟩, a4, a5⟩
                have hemp : ∀ j, 0 < j → j < i → ∀ r, walk g.nb p d j = some r → T r = .empty := fun j h1 h2 r hr =>
                  (h.lays r (walk_in h.wf hp hr)).isEmpty_iff.1 (a3 r ((hm r).2 ⟨j, h1, h2, hr⟩))
                refine ⟨⟨hi2, hw, ((h.lays p hp).ugIn_iff d).1 ⟨a1, a2⟩, ((h.lays q iq).ugOut_iff d).1 ⟨a4, a5⟩, ?_⟩, hemp⟩
                intro j h1 h2 r hr
                rw [hemp j h1 h2 r hr]; exact id
              · rintro ⟨⟨_, _, k1, k2, _⟩, k3⟩
                obtain ⟨a1, a2⟩ := ((h.lays p hp).ugIn_iff d).2 k1
                obtain ⟨a4, a5⟩ := ((h.lays q iq).ugOut_iff d).2 k2
                refine ⟨⟨⟨a1, a2⟩, fun r hr => ?_⟩, a4, a5⟩
                obtain ⟨j, h1, h2, hj⟩ := (hm r).1 hr
                exact (h.lays r (walk_in h.wf hp hj)).isEmpty_iff.2 (k3 j h1 h2 r hj)
            rw [hcl]
            constructor
            · intro hh q' hq'
              have := hq'.1.2.1
              rw [hw] at this; cases this
              exact hh hq'
            · intro hh; exact hh q
          · rw [if_neg (by omega)]
            simp only [Sat_nil, true_iff]
            intro q' hq'
            exact hi2 hq'.1.1
        rw [key]
        constructor
        · rintro ⟨h1, h2⟩ k hk1 hk2 q'
          rcases Nat.eq_or_lt_of_le hk1 with rfl | hlt
          · exact h1 q'
          · exact h2 k hlt (by omega) q'
        · intro hh
          exact ⟨hh i (by omega) (by omega), fun k hk1 hk2 => hh k (by omega) (by omega)⟩
      · intro r
        simp only [List.mem_append, List.mem_singleton, hm]
        constructor
        · rintro (⟨j, h1, h2, h3⟩ | rfl)
          · exact ⟨j, h1, by omega, h3⟩
          · exact ⟨i, by omega, by omega, hw⟩
        · rintro ⟨j, h1, h2, h3⟩
          rcases Nat.lt_or_ge j i with hlt | hge
          · exact .inl ⟨j, h1, hlt, h3⟩
          · have : j = i := by omega
            subst this
            rw [hw] at h3; cases h3; exact .inr rfl
      · intro j hj
        rcases Nat.lt_or_ge j i with hlt | hge
        · exact hall j hlt
        · have : j = i := by omega
          subst this; exact ⟨q, hw⟩

theorem EmptySpan.short (hg : g.WF) {p q : Nat × Nat} {d : Dir} {k : Nat} (hp : g.In p) (h : EmptySpan g.nb T p q d k) :
    k < g.len d := by
  by_contra hc
  obtain ⟨r, hr, _⟩ := walk_le h.1.2.1 (i := g.len d) (by omega)
  rw [Grid.walk_len hg hp] at hr
  split at hr
  · cases hr
    have hlen := g.len_pos hg d
    rcases Nat.lt_or_ge (g.len d) k with hlt | hge
    · have := h.2 (g.len d) hlen hlt p (by rw [Grid.walk_len hg hp]; simp_all)
      rw [h.1.2.2.1] at this; cases this
    · have hk : k = g.len d := by omega
      have := h.1.2.1
      rw [hk, Grid.walk_len hg hp] at this
      have hpq : p = q := by simp_all
      have a := h.1.2.2.1
      rw [hpq, h.1.2.2.2.1] at a; cases a
  · cases hr

theorem Sat_emptySpans (h : Base g v T) : Sat v (preventEmptyAlongUnderground g) ↔
    ∀ p q d k, g.In p → (∀ L, g.ugLen = some L → k - 1 ≤ L) → ¬ EmptySpan g.nb T p q d k := by
  simp only [preventEmptyAlongUnderground, Sat_flatMap, forall_cells, Dir.forall_mem_all]
  have hone : ∀ d p, g.In p → (Sat v (emptySpans g d p 1 (g.effectiveLength + 1).toNat []) ↔
      ∀ k, 1 ≤ k → k < 1 + (g.effectiveLength + 1).toNat → ∀ q, ¬ EmptySpan g.nb T p q d k) := fun d p hp =>
    emptySpans_iff h d hp _ 1 [] (by omega) rfl (by intro r; simp; try omega)
      (by intro j hj; have : j = 0 := by omega
          subst this; exact ⟨p, rfl⟩)
  constructor
  · intro hh p q d k hp hk hspan
    refine (hone d p hp).1 (hh d p hp) k (by have := hspan.1.1; omega) ?_ q hspan
    have h1 := hspan.short h.wf hp
    have h2 := hspan.1.1
    have h3 : g.len d ≤ max g.width g.height := by unfold Grid.len; split <;> omega
    unfold Grid.effectiveLength
    cases hu : g.ugLen with
    | none => simp only; omega
    | some L => have := hk L hu; simp only; omega
  · intro hh d p hp
    rw [hone d p hp]
    intro k h1 h2 q hspan
    refine hh p q d k hp (fun L hL => ?_) hspan
    rw [Grid.effectiveLength, hL] at h2
    simp only at h2
    omega

/-! ### Glued splitters -/

theorem Sat_glue (h : Base g v T) : Sat v (glueSplitters g) ↔
    ∀ p d, g.In p → ¬ (d = .right ∧ (p.1 = 1 ∨ p.1 + 2 = g.width)) → ¬ GluedSplitter g.nb T p d := by
  simp only [glueSplitters, Sat_flatMap, forall_cells, Dir.forall_mem_all]
  refine forall_congr' fun p => ?_
  have hcorner : ∀ d : Dir, g.In p → g.offset p (-d.dx + d.next.dx) (-d.dy + d.next.dy) = (g.nb p d.opp).bind fun q => g.nb q d.ccw := by
    intro d hp
    rw [← Grid.offset_corner1 h.wf hp d.across_ccw.opp_left, Dir.next_eq, Dir.dx_opp, Dir.dy_opp]
  constructor
  · intro hh d hp hne
    have := hh hp d
    rw [if_neg hne, hcorner d hp, Grid.offset_neg] at this
    rintro ⟨k0, a, b, h1, h2, k1, k2⟩
    rw [h1] at this
    simp only [Option.bind_some, h2, Sat_cons, Sat_nil, and_true, SatC_iff_not] at this
    apply this
    simp only [straight, List.cons_append, List.nil_append, List.append_assoc, List.mem_cons, List.not_mem_nil, or_false,
      forall_eq_or_imp, forall_eq, ev_neg, Bool.not_eq_false']
    exact (glued_iff h.wf h.lays h.inter hp h1 h2).2 ⟨k0, k1, k2⟩
  · intro hh hp d
    split
    · simp
    · rename_i hne
      have hn := hh d hp hne
      rw [hcorner d hp, Grid.offset_neg]
      split
      · rename_i a b h1 h2
        rw [h1] at h2
        simp only [Option.bind_some] at h2
        simp only [Sat_cons, Sat_nil, and_true, SatC_iff_not]
        simp only [straight, List.cons_append, List.nil_append, List.append_assoc, List.mem_cons, List.not_mem_nil, or_false,
          forall_eq_or_imp, forall_eq, ev_neg, Bool.not_eq_false']
        intro hall
        obtain ⟨k0, k1, k2⟩ := (glued_iff h.wf h.lays h.inter hp h1 h2).1 hall
        exact hn ⟨k0, a, b, h1, h2, k1, k2⟩
      · simp

/-! ### Semicircles and underground hooks -/

theorem ev_allDir (t : TileInst) : (∀ l ∈ t.allDir, ev v l = false) ↔
    (∀ d, ev v (t.inp d) = false) ∧ ∀ d, ev v (t.out d) = false := by
  simp only [TileInst.allDir, List.mem_append, or_imp, forall_and, forall_dirs]

theorem Sat_semicircles (h : Base g v T) : Sat v (preventSemicircles g) ↔
    ∀ p d t, g.In p → d.Across t → ¬ Semicircle g.nb T p d t := by
  simp only [preventSemicircles, Sat_flatMap, forall_cells, Dir.forall_mem_all]
  refine forall_congr' fun p => ?_
  have geo : ∀ d t : Dir, g.In p → d.Across t →
      g.offset p (d.dx * 0 + t.dx * 0) (d.dy * 0 + t.dy * 0) = some p ∧
      g.offset p (d.dx * 1 + t.dx * 0) (d.dy * 1 + t.dy * 0) = g.nb p d ∧
      g.offset p (d.dx * 2 + t.dx * 0) (d.dy * 2 + t.dy * 0) = ((g.nb p d).bind fun a => g.nb a d) ∧
      g.offset p (d.dx * 0 + t.dx * 1) (d.dy * 0 + t.dy * 1) = g.nb p t ∧
      g.offset p (d.dx * 1 + t.dx * 1) (d.dy * 1 + t.dy * 1) = ((g.nb p t).bind fun b => g.nb b d) ∧
      g.offset p (d.dx * 2 + t.dx * 1) (d.dy * 2 + t.dy * 1) = (((g.nb p t).bind fun b => g.nb b d).bind fun c => g.nb c d) := by
    intro d t hp ha
    have w0 := Grid.offset_walk h.wf hp d 0
    have w2 := Grid.offset_walk h.wf hp d 2
    simp only [walk, Option.bind_some] at w0 w2
    refine ⟨by simpa using w0, by simp [Grid.nb], by simpa using w2, by simp [Grid.nb], ?_, ?_⟩
    · rw [Int.add_comm, Int.add_comm (d.dy * 1), Grid.offset_corner h.wf hp ha.symm]; simp [Grid.nb]
    · rw [Int.add_comm, Int.add_comm (d.dy * 2), Grid.offset_corner h.wf hp ha.symm]
      simp only [Int.mul_one]
      cases hb : g.offset p t.dx t.dy with
      | none => have : g.nb p t = none := hb
                rw [this]; rfl
      | some b =>
        have hb' : g.nb p t = some b := hb
        rw [hb']
        have := Grid.offset_walk h.wf (Grid.nb_in h.wf hb') d 2
        simp only [walk, Option.bind_some] at this
        simpa using this
  have cl : ∀ (d t i o : Dir) p a e b c f, ((∀ l ∈ [-(g.at' p).inp i] ++ (if t = i then [(g.at' p).isSplitter] else []) ++
        (g.at' a).allDir ++
        [-(g.at' e).inp t.reverse, -(g.at' e).out o] ++ (if t.reverse = o then [(g.at' e).isSplitter] else []) ++
        [-(g.at' b).inp t, -(g.at' c).inp d, (g.at' c).isSplitter, -(g.at' f).inp d], ev v l = false) ↔
      ((g.vals v p).inp i = true ∧ (t = i → (g.vals v p).isSplitter = false) ∧
        ((∀ x, (g.vals v a).inp x = false) ∧ ∀ x, (g.vals v a).out x = false) ∧
        (g.vals v e).inp t.opp = true ∧ (g.vals v e).out o = true ∧ (t.opp = o → (g.vals v e).isSplitter = false) ∧
        (g.vals v b).inp t = true ∧ (g.vals v c).inp d = true ∧ (g.vals v c).isSplitter = false ∧ (g.vals v f).inp d = true)) := by
    intro d t i o p a e b c f
    have hite : ∀ (P : Prop) [Decidable P] (x : Lit), (∀ l ∈ (if P then [x] else []), ev v l = false) ↔ (P → ev v x = false) := by
      intro P _ x; split <;> simp_all
    have hfa : ∀ (A B : List Lit), (∀ l ∈ A ++ B, ev v l = false) ↔ (∀ l ∈ A, ev v l = false) ∧ ∀ l ∈ B, ev v l = false := by
      intro A B; simp only [List.mem_append, or_imp, forall_and]
    rw [hfa, hfa, hfa, hfa, hfa, hite, hite, ev_allDir]
    simp only [List.mem_cons, List.not_mem_nil, or_false, forall_eq_or_imp, forall_eq, ev_neg, Bool.not_eq_false', Dir.reverse_eq,
      and_assoc]
    rfl
  constructor
  · intro hh d t hp ha
    have := (forall_across d _).1 (hh hp d) t ha
    obtain ⟨g0, g1, g2, g3, g4, g5⟩ := geo d t hp ha
    rw [g0, g1, g2, g3, g4, g5] at this
    rintro ⟨a, e, b, c, f, h1, h2, h3, h4, h5, h6, ka, kp, kb, kc, kf, ke⟩
    simp only [h1, h2, h3, h4, h5, Option.bind_some, Sat_flatMap, Sat_map] at this
    have key : ∀ i o, (i = d ∨ i = t) → (o = t.opp ∨ o = d) → T p = .belt i t → T e = .belt t.opp o → False := by
      intro i o hi ho kp ke
      have := this i (by simpa using hi) o (by simpa [Dir.reverse_eq] using ho)
      rw [SatC_iff_not] at this
      apply this
      rw [cl]
      exact (semicircle_iff h.wf h.lays h.inter ha hi ho hp h1 h2 h3 h4 h5 h6).2 ⟨ka, kp, kb, kc, kf, ke⟩
    rcases kp with kp | kp <;> rcases ke with ke | ke
    · exact key _ _ (.inl rfl) (.inl rfl) kp ke
    · exact key _ _ (.inl rfl) (.inr rfl) kp ke
    · exact key _ _ (.inr rfl) (.inl rfl) kp ke
    · exact key _ _ (.inr rfl) (.inr rfl) kp ke
  · intro hh hp d
    rw [forall_across]
    intro t ha
    have hn := hh d t hp ha
    obtain ⟨g0, g1, g2, g3, g4, g5⟩ := geo d t hp ha
    rw [g0, g1, g2, g3, g4, g5]
    split
    · rename_i p0 a e b c f h0 h1 h2 h3 h4 h5
      cases h0
      rw [h3] at h4 h5
      rw [h1] at h2
      simp only [Option.bind_some] at h2 h4 h5
      rw [h4] at h5
      simp only [Option.bind_some] at h5
      have h6 : g.nb e t = some f := by
        obtain ⟨a', x1, x2⟩ := Grid.square h.wf hp ha.symm h3 h4
        rw [h1] at x1; cases x1
        obtain ⟨e', y1, y2⟩ := Grid.square h.wf (Grid.nb_in h.wf h1) ha.symm x2 h5
        rw [h2] at y1; cases y1
        exact y2
      simp only [Sat_flatMap, Sat_map]
      intro i hi o ho
      rw [SatC_iff_not, cl]
      intro hall
      simp only [List.mem_cons, List.not_mem_nil, or_false, Dir.reverse_eq] at hi ho
      obtain ⟨k1, k2, k3, k4, k5, k6⟩ := (semicircle_iff h.wf h.lays h.inter ha hi ho hp h1 h2 h3 h4 h5 h6).1 hall
      refine hn ⟨a, e, b, c, f, h1, h2, h3, h4, h5, h6, k1, ?_, k3, k4, k5, ?_⟩
      · rcases hi with rfl | rfl
        · exact .inl k2
        · exact .inr k2
      · rcases ho with rfl | rfl
        · exact .inl k6
        · exact .inr k6
    · simp

theorem Sat_ugHook (h : Base g v T) : Sat v (preventUndergroundHook g) ↔
    ∀ p d t, g.In p → d.Across t → ¬ EntranceHook g.nb T p d t ∧ ¬ ExitHook g.nb T p d t := by
  simp only [preventUndergroundHook, Sat_flatMap, forall_cells, Dir.forall_mem_all]
  refine forall_congr' fun p => ?_
  have geo : ∀ d t : Dir, g.In p → d.Across t →
      g.offset p (-t.dx - d.dx) (-t.dy - d.dy) = ((g.nb p d.opp).bind fun a => g.nb a t.opp) := by
    intro d t hp ha
    rw [← Grid.offset_corner1 h.wf hp ha.opp_left.opp_right, Dir.dx_opp, Dir.dy_opp, Dir.dx_opp, Dir.dy_opp]
    congr 1 <;> omega
  have geo2 : ∀ (d t : Dir) a b, g.In p → d.Across t → g.nb p d.opp = some a → g.nb a t.opp = some b → g.nb b d = g.nb p t.opp := by
    intro d t a b hp ha h1 h2
    obtain ⟨c, x1, x2⟩ := Grid.square h.wf hp ha.opp_left.opp_right h1 h2
    have := Grid.nb_opp h.wf (Grid.nb_in h.wf x1) x2
    rw [Dir.opp_opp] at this
    rw [x1, this]
  have cl : ∀ (d t i : Dir) p e a b c, ((∀ l ∈ (g.at' e).allDir ++ [-(g.at' e).ug d, (g.at' p).ug d, -(g.at' a).inp t, -(g.at' b).inp d.reverse,
                -(g.at' c).inp i, (g.at' c).isSplitter], ev v l = false) ↔
      (((∀ x, (g.vals v e).inp x = false) ∧ ∀ x, (g.vals v e).out x = false) ∧ (g.vals v e).ug d = true ∧ (g.vals v p).ug d = false ∧ (g.vals v a).inp t = true ∧
      (g.vals v b).inp d.opp = true ∧ (g.vals v c).inp i = true ∧ (g.vals v c).isSplitter = false)) := by
    intro d t i p e a b c
    have hfa : ∀ (A B : List Lit), (∀ l ∈ A ++ B, ev v l = false) ↔ (∀ l ∈ A, ev v l = false) ∧ ∀ l ∈ B, ev v l = false := by
      intro A B; simp only [List.mem_append, or_imp, forall_and]
    rw [hfa, ev_allDir]
    simp only [List.mem_cons, List.not_mem_nil, or_false, forall_eq_or_imp, forall_eq, ev_neg, Bool.not_eq_false', Dir.reverse_eq]
    rfl
  have cl2 : ∀ (d t o : Dir) p e a b c, ((∀ l ∈ (g.at' e).allDir ++ [-(g.at' e).ug d.reverse, (g.at' p).ug d.reverse, -(g.at' a).out t.reverse, -(g.at' b).out d,
                -(g.at' c).out o, (g.at' c).isSplitter], ev v l = false) ↔
      (((∀ x, (g.vals v e).inp x = false) ∧ ∀ x, (g.vals v e).out x = false) ∧ (g.vals v e).ug d.opp = true ∧ (g.vals v p).ug d.opp = false ∧
      (g.vals v a).out t.opp = true ∧ (g.vals v b).out d = true ∧ (g.vals v c).out o = true ∧ (g.vals v c).isSplitter = false)) := by
    intro d t i p e a b c
    have hfa : ∀ (A B : List Lit), (∀ l ∈ A ++ B, ev v l = false) ↔ (∀ l ∈ A, ev v l = false) ∧ ∀ l ∈ B, ev v l = false := by
      intro A B; simp only [List.mem_append, or_imp, forall_and]
    rw [hfa, ev_allDir]
    simp only [List.mem_cons, List.not_mem_nil, or_false, forall_eq_or_imp, forall_eq, ev_neg, Bool.not_eq_false', Dir.reverse_eq]
    rfl
  constructor
  · intro hh d t hp ha
    have := hh hp d
    constructor
    · rintro ⟨e, a, b, c, h1, h2, h3, h4, ke, kp, ka, kb, kc⟩
      have h1' : g.offset p d.dx d.dy = some e := h1
      rw [h1', Grid.offset_neg, h2] at this
      simp only [Sat_flatMap] at this
      have := (forall_across d _).1 this t ha
      rw [geo d t hp ha, h2, Grid.offset_neg, ← geo2 d t a b hp ha h2 h3] at this
      simp only [Option.bind_some, h3, h4, Sat_append, Sat_map] at this
      have key : ∀ i, (i = d.opp ∨ i = t) → T c = .belt i d.opp → False := by
        intro i hi kc
        have := this.1 i (by simpa [Dir.reverse_eq] using hi)
        rw [SatC_iff_not, cl] at this
        exact this ((entranceHook_iff h.wf h.lays h.inter h.under ha hi hp h1 h2 h3 h4).2 ⟨ke, kp, ka, kb, kc⟩)
      rcases kc with kc | kc
      · exact key _ (.inl rfl) kc
      · exact key _ (.inr rfl) kc
    · rintro ⟨e, a, b, c, h1, h2, h3, h4, ke, kp, ka, kb, kc⟩
      have h1' : g.offset p d.dx d.dy = some e := h1
      rw [h1', Grid.offset_neg, h2] at this
      simp only [Sat_flatMap] at this
      have := (forall_across d _).1 this t ha
      rw [geo d t hp ha, h2, Grid.offset_neg, ← geo2 d t a b hp ha h2 h3] at this
      simp only [Option.bind_some, h3, h4, Sat_append, Sat_map] at this
      have key : ∀ o, (o = d ∨ o = t.opp) → T c = .belt d o → False := by
        intro o ho kc
        have := this.2 o (by simpa [Dir.reverse_eq] using ho)
        rw [SatC_iff_not, cl2] at this
        exact this ((exitHook_iff h.wf h.lays h.inter h.under ha ho hp h1 h2 h3 h4).2 ⟨ke, kp, ka, kb, kc⟩)
      rcases kc with kc | kc
      · exact key _ (.inl rfl) kc
      · exact key _ (.inr rfl) kc
  · intro hh hp d
    cases h1 : g.nb p d with
    | none => have h1' : g.offset p d.dx d.dy = none := h1
              rw [h1']; simp
    | some e =>
      have h1' : g.offset p d.dx d.dy = some e := h1
      rw [h1', Grid.offset_neg]
      cases h2 : g.nb p d.opp with
      | none => simp
      | some a =>
        simp only [Sat_flatMap]
        rw [forall_across]
        intro t ha
        rw [geo d t hp ha, h2, Grid.offset_neg]
        simp only [Option.bind_some]
        obtain ⟨n1, n2⟩ := hh d t hp ha
        cases h3 : g.nb a t.opp with
        | none => simp
        | some b =>
          simp only
          rw [← geo2 d t a b hp ha h2 h3]
          cases h4 : g.nb b d with
          | none => simp
          | some c =>
            simp only [Sat_append, Sat_map]
            constructor
            · intro i hi
              simp only [List.mem_cons, List.not_mem_nil, or_false, Dir.reverse_eq] at hi
              rw [SatC_iff_not, cl]
              intro hall
              obtain ⟨k1, k2, k3, k4, k5⟩ := (entranceHook_iff h.wf h.lays h.inter h.under ha hi hp h1 h2 h3 h4).1 hall
              refine n1 ⟨e, a, b, c, h1, h2, h3, h4, k1, k2, k3, k4, ?_⟩
              rcases hi with rfl | rfl
              · exact .inl k5
              · exact .inr k5
            · intro o ho
              simp only [List.mem_cons, List.not_mem_nil, or_false, Dir.reverse_eq] at ho
              rw [SatC_iff_not, cl2]
              intro hall
              obtain ⟨k1, k2, k3, k4, k5⟩ := (exitHook_iff h.wf h.lays h.inter h.under ha ho hp h1 h2 h3 h4).1 hall
              refine n2 ⟨e, a, b, c, h1, h2, h3, h4, k1, k2, k3, k4, ?_⟩
              rcases ho with rfl | rfl
              · exact .inl k5
              · exact .inr k5

theorem Sat_shrink (h : Base g v T) : Sat v (shrinkUnderground g) ↔
    ∀ p d, g.In p → ¬ EmptyAfterEntrance g.nb T p d ∧ ¬ EmptyBeforeExit g.nb T p d := by
  have key : Sat v (shrinkUnderground g) ↔ ∀ p d q, g.In p → g.nb p d = some q →
      ¬ (T p = .underground d true ∧ T q = .empty) ∧ ¬ (T q = .underground d false ∧ T p = .empty) := by
    simp only [shrinkUnderground, Sat_flatMap, forall_cells, Dir.forall_mem_all]
    refine forall_congr' fun p => ?_
    constructor
    · intro hh d q hp hq
      have iq := Grid.nb_in h.wf hq
      have hbk := Grid.nb_opp h.wf hp hq
      have := hh hp d
      rw [show g.offset p d.dx d.dy = g.nb p d from rfl, hq] at this
      simp only [Sat_append, Sat_implies, Sat_cons, Sat_nil, SatC_cons, SatC_nil, ev_neg, List.mem_cons, List.not_mem_nil, or_false,
        forall_eq_or_imp, forall_eq, and_true, Bool.not_eq_true'] at this
      obtain ⟨h1, h2⟩ := this
      constructor
      · rintro ⟨k1, k2⟩
        obtain ⟨k3, k4⟩ := (ug_start' h.lays h.under h.wf hp hq).2 k1
        have := h1 ⟨k4, k3⟩
        rw [show ev v (g.at' q).isEmpty = (g.vals v q).isEmpty from rfl, (h.lays q iq).isEmpty_iff.2 k2] at this
        cases this
      · rintro ⟨k1, k2⟩
        obtain ⟨k3, k4⟩ := (ug_stop h.lays h.under h.wf iq hbk).2 k1
        have := h2 ⟨k3, k4⟩
        rw [show ev v (g.at' p).isEmpty = (g.vals v p).isEmpty from rfl, (h.lays p hp).isEmpty_iff.2 k2] at this
        cases this
    · intro hh hp d
      rw [show g.offset p d.dx d.dy = g.nb p d from rfl]
      cases hq : g.nb p d with
      | none => simp
      | some q =>
        have iq := Grid.nb_in h.wf hq
        have hbk := Grid.nb_opp h.wf hp hq
        obtain ⟨n1, n2⟩ := hh d q hp hq
        simp only [Sat_append, Sat_implies, Sat_cons, Sat_nil, SatC_cons, SatC_nil, ev_neg, List.mem_cons, List.not_mem_nil, or_false,
          forall_eq_or_imp, forall_eq, and_true, Bool.not_eq_true']
        constructor
        · rintro ⟨k1, k2⟩
          by_contra hc
          exact n1 ⟨(ug_start' h.lays h.under h.wf hp hq).1 ⟨k2, k1⟩, (h.lays q iq).isEmpty_iff.1 (Bool.eq_true_of_not_eq_false hc)⟩
        · rintro ⟨k1, k2⟩
          by_contra hc
          exact n2 ⟨(ug_stop h.lays h.under h.wf iq hbk).1 ⟨k1, k2⟩, (h.lays p hp).isEmpty_iff.1 (Bool.eq_true_of_not_eq_false hc)⟩
  rw [key]
  constructor
  · intro hh p d hp
    refine ⟨?_, ?_⟩
    · rintro ⟨k1, q, hq, k2⟩; exact (hh p d q hp hq).1 ⟨k1, k2⟩
    · rintro ⟨k1, q, hq, k2⟩
      have hbk := Grid.nb_opp h.wf hp hq
      rw [Dir.opp_opp] at hbk
      exact (hh q d p (Grid.nb_in h.wf hq) hbk).2 ⟨k1, k2⟩
  · intro hh p d q hp hq
    exact ⟨fun k => (hh p d hp).1 ⟨k.1, q, hq, k.2⟩, fun k => (hh q d (Grid.nb_in h.wf hq)).2 ⟨k.1, p, Grid.nb_opp h.wf hp hq, k.2⟩⟩

end

end FSat
