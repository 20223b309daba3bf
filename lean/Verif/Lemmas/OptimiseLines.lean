import Verif.Lemmas.OptimiseClauses

set_option linter.unusedSimpArgs false
set_option linter.unusedVariables false

namespace FSat

section
variable {g : Grid} {v : Asg} {T : Nat × Nat → Tile}

/-! ### Blocks -/

theorem overBlocks_iff (hg : g.WF) {c r : Dir} (hcr : c.Across r) (maxX : Option Int)
    (f : (Nat × Nat) → (Nat × Nat) → (Nat × Nat) → (Nat × Nat) → Cnf) :
    ∃ cs, overBlocks g c r maxX f = .ok cs ∧ ∀ v, Sat v cs ↔ ∀ p a b e, g.In p →
      (∀ m, maxX = some m → (p.1 : Int) ≤ m ∧ (p.1 : Int) + (r.dx + c.dx) ≤ m) →
      g.nb p c = some a → g.nb p r = some b → g.nb b c = some e → Sat v (f p a b e) := by
  have hc : c.dx.natAbs + c.dy.natAbs = 1 := by cases c <;> rfl
  have hr : r.dx.natAbs + r.dy.natAbs = 1 := by cases r <;> rfl
  unfold overBlocks Grid.blocks iterateTileBlocks
  simp only [hc, hr, ne_eq, not_true_eq_false, if_false, show (2 : Nat) ≠ 0 by decide, show ((2 : Nat) : Int) - 1 = 1 by decide,
    Int.mul_one]
  refine ⟨_, rfl, fun v => ?_⟩
  simp only [Sat_flatMap, List.mem_map, List.mem_flatMap, List.mem_range]
  have hrange : List.range 2 = [0, 1] := rfl
  have geo : ∀ p, g.In p →
      g.offset p (r.dx * (0 : Nat) + c.dx * (0 : Nat)) (r.dy * (0 : Nat) + c.dy * (0 : Nat)) = some p ∧
      g.offset p (r.dx * (0 : Nat) + c.dx * (1 : Nat)) (r.dy * (0 : Nat) + c.dy * (1 : Nat)) = g.nb p c ∧
      g.offset p (r.dx * (1 : Nat) + c.dx * (0 : Nat)) (r.dy * (1 : Nat) + c.dy * (0 : Nat)) = g.nb p r ∧
      g.offset p (r.dx * (1 : Nat) + c.dx * (1 : Nat)) (r.dy * (1 : Nat) + c.dy * (1 : Nat)) = (g.nb p r).bind fun b => g.nb b c := by
    intro p hp
    have w0 := Grid.offset_walk hg hp c 0
    simp only [walk] at w0
    refine ⟨by simpa using w0, by simp [Grid.nb], by simp [Grid.nb], ?_⟩
    rw [Grid.offset_corner hg hp hcr.symm]; simp [Grid.nb]
  have hall : ∀ (x y : Nat), blockAllowed (r.dx + c.dx) (r.dy + c.dy) none none maxX none x y = true ↔
      ∀ m, maxX = some m → (x : Int) ≤ m ∧ (x : Int) + (r.dx + c.dx) ≤ m := by
    intro x y
    unfold blockAllowed
    cases maxX with
    | none => simp
    | some m => simp
  constructor
  · intro hh p a b e hp hb ha hb' he
    have := hh [[some p, some a], [some b, some e]] ⟨(p, (List.range 2).map fun (row : Nat) => (List.range 2).map fun (col : Nat) =>
          offsetPos g.width g.height g.edge p.1 p.2 (r.dx * row + c.dx * col) (r.dy * row + c.dy * col)),
      ⟨p.1, hp.1, p.2, hp.2, by rw [if_pos ((hall _ _).2 hb)]; simp⟩, ?_⟩
    · exact this
    · obtain ⟨g0, g1, g2, g3⟩ := geo p hp
      rw [hb'] at g3
      simp only [Option.bind_some] at g3
      simp only [hrange, List.map_cons, List.map_nil]
      refine congr (congrArg List.cons (congr (congrArg List.cons ?_) (congr (congrArg List.cons ?_) rfl)))
        (congr (congrArg List.cons (congr (congrArg List.cons ?_) (congr (congrArg List.cons ?_) rfl))) rfl)
      · exact g0
      · exact g1.trans ha
      · exact g2.trans hb'
      · exact g3.trans he
  · rintro hh bl ⟨a, ⟨x, hx, y, hy, hm⟩, rfl⟩
    have hp : g.In (x, y) := ⟨hx, hy⟩
    by_cases hba : blockAllowed (r.dx + c.dx) (r.dy + c.dy) none none maxX none x y = true
    · rw [if_pos hba, List.mem_singleton] at hm
      subst hm
      simp only [hrange, List.map_cons, List.map_nil]
      obtain ⟨g0, g1, g2, g3⟩ := geo (x, y) hp
      split
      · rename_i p00 p01 p10 p11 heq
        simp only [List.cons.injEq, and_true] at heq
        obtain ⟨⟨e0, e1⟩, e2, e3⟩ := heq
        have e0' : g.offset (x, y) (r.dx * (0 : Nat) + c.dx * (0 : Nat)) (r.dy * (0 : Nat) + c.dy * (0 : Nat)) = some p00 := e0
        have e1' : g.offset (x, y) (r.dx * (0 : Nat) + c.dx * (1 : Nat)) (r.dy * (0 : Nat) + c.dy * (1 : Nat)) = some p01 := e1
        have e2' : g.offset (x, y) (r.dx * (1 : Nat) + c.dx * (0 : Nat)) (r.dy * (1 : Nat) + c.dy * (0 : Nat)) = some p10 := e2
        have e3' : g.offset (x, y) (r.dx * (1 : Nat) + c.dx * (1 : Nat)) (r.dy * (1 : Nat) + c.dy * (1 : Nat)) = some p11 := e3
        rw [g0] at e0'; cases e0'
        rw [g1] at e1'
        rw [g2] at e2'
        rw [g3, e2'] at e3'
        exact hh (x, y) p01 p10 p11 hp ((hall x y).1 hba) e1' e2' e3'
      · simp
    · rw [if_neg hba] at hm; simp at hm

theorem zigzags_iff (hg : g.WF) : ∃ cs, preventZigzags g = .ok cs ∧ ∀ v T, Base g v T →
    (Sat v cs ↔ ∀ p d t, g.In p → d.Across t → ¬ Zigzag g.nb T p d t) := by
  obtain ⟨cs, h1, h2⟩ := concatE_iff (fun d : Dir => concatE (fun t : Dir => overBlocks g d t none fun p00 p01 p10 p11 =>
    [[-(g.at' p00).inp d, -(g.at' p00).out t] ++ (g.at' p01).allDir ++ [-(g.at' p10).out d, -(g.at' p11).out t]])
    [d.next, d.prev]) (fun v d => ∀ t, d.Across t → ∀ p a b e, g.In p → g.nb p d = some a → g.nb p t = some b → g.nb b d = some e →
      SatC v ([-(g.at' p).inp d, -(g.at' p).out t] ++ (g.at' a).allDir ++ [-(g.at' b).out d, -(g.at' e).out t])) Dir.all (by
    intro d _
    obtain ⟨cs, h1, h2⟩ := concatE_iff (fun t : Dir => overBlocks g d t none fun p00 p01 p10 p11 =>
      [[-(g.at' p00).inp d, -(g.at' p00).out t] ++ (g.at' p01).allDir ++ [-(g.at' p10).out d, -(g.at' p11).out t]])
      (fun v t => ∀ p a b e, g.In p → g.nb p d = some a → g.nb p t = some b → g.nb b d = some e →
      SatC v ([-(g.at' p).inp d, -(g.at' p).out t] ++ (g.at' a).allDir ++ [-(g.at' b).out d, -(g.at' e).out t])) [d.next, d.prev] (by
        intro t ht
        have ha : d.Across t := (forall_across d (fun t => d.Across t)).2 (fun t h => h) t ht
        obtain ⟨cs, h1, h2⟩ := overBlocks_iff hg ha none fun p00 p01 p10 p11 =>
          [[-(g.at' p00).inp d, -(g.at' p00).out t] ++ (g.at' p01).allDir ++ [-(g.at' p10).out d, -(g.at' p11).out t]]
        refine ⟨cs, h1, fun v => ?_⟩
        rw [h2]
        simp)
    refine ⟨cs, h1, fun v => ?_⟩
    rw [h2, forall_across])
  refine ⟨cs, h1, fun v T h => ?_⟩
  rw [h2]
  simp only [Dir.forall_mem_all]
  have cl : ∀ (d t : Dir) p a b e, (∀ l ∈ [-(g.at' p).inp d, -(g.at' p).out t] ++ (g.at' a).allDir ++ [-(g.at' b).out d, -(g.at' e).out t],
      ev v l = false) ↔ ((g.vals v p).inp d = true ∧ (g.vals v p).out t = true ∧ ((∀ x, (g.vals v a).inp x = false) ∧ ∀ x, (g.vals v a).out x = false) ∧
      (g.vals v b).out d = true ∧ (g.vals v e).out t = true) := by
    intro d t p a b e
    have hfa : ∀ (A B : List Lit), (∀ l ∈ A ++ B, ev v l = false) ↔ (∀ l ∈ A, ev v l = false) ∧ ∀ l ∈ B, ev v l = false := by
      intro A B; simp only [List.mem_append, or_imp, forall_and]
    rw [hfa, hfa, ev_allDir]
    simp only [List.mem_cons, List.not_mem_nil, or_false, forall_eq_or_imp, forall_eq, ev_neg, Bool.not_eq_false', and_assoc]
    rfl
  constructor
  · rintro hh p d t hp ha ⟨a, b, c, e1, e2, e3, k1, k2, k3, k4⟩
    have := hh d t ha p a b c hp e1 e2 e3
    rw [SatC_iff_not, cl] at this
    exact this ((zigzag_iff hg h.lays h.inter ha hp e1 e2 e3).2 ⟨k1, k2, k3, k4⟩)
  · intro hh d t ha p a b c hp e1 e2 e3
    rw [SatC_iff_not, cl]
    intro hall
    exact hh p d t hp ha ⟨a, b, c, e1, e2, e3, (zigzag_iff hg h.lays h.inter ha hp e1 e2 e3).1 hall⟩

theorem parallel_iff (hg : g.WF) : ∃ cs, preventBeltParallelSplitter g = .ok cs ∧ ∀ v T, Base g v T →
    (Sat v cs ↔ ∀ p d a, g.In p → d.Across a → ¬ BeltBesideSplitter g.nb T (fun q e => (g.vals v q).out e = true) p d a) := by
  have hcl : ∀ (d : Dir) (s : Dir × Bool) (p00 p10 p11 : Nat × Nat) v, Sat v ([d, s.1].map fun i => invertComponents
      ([(g.at' p00).inp i, (g.at' p00).out d] ++ (if i = d then [-(g.at' p00).isSplitter] else []) ++
        [(g.at' p10).out s.1, (g.at' p11).isSplitter, setLiteral (g.at' p11).isHead s.2])) ↔
      ∀ i, (i = d ∨ i = s.1) → ¬ ((g.vals v p00).inp i = true ∧ (g.vals v p00).out d = true ∧ (i = d → (g.vals v p00).isSplitter = false) ∧
        (g.vals v p10).out s.1 = true ∧ (g.vals v p11).isSplitter = true ∧ (g.vals v p11).isHead = s.2) := by
    intro d s p00 p10 p11 v
    simp only [Sat_map, List.mem_cons, List.not_mem_nil, or_false]
    refine forall_congr' fun i => imp_congr_right fun _ => ?_
    rw [SatC_invertComponents]
    apply not_congr
    have hfa : ∀ (A B : List Lit), (∀ l ∈ A ++ B, ev v l = true) ↔ (∀ l ∈ A, ev v l = true) ∧ ∀ l ∈ B, ev v l = true := by
      intro A B; simp only [List.mem_append, or_imp, forall_and]
    have hite : ∀ (P : Prop) [Decidable P] (x : Lit), (∀ l ∈ (if P then [-x] else []), ev v l = true) ↔ (P → ev v x = false) := by
      intro P _ x; split <;> simp_all
    have hset : ∀ (x : Lit) (b : Bool), ev v (setLiteral x b) = true ↔ ev v x = b := by
      intro x b; cases b <;> simp [setLiteral]
    rw [hfa, hfa, hite]
    simp only [List.mem_cons, List.not_mem_nil, or_false, forall_eq_or_imp, forall_eq, and_assoc, hset]
    rfl
  obtain ⟨cs, h1, h2⟩ := concatE_iff (fun d : Dir => concatE (fun s : Dir × Bool => overBlocks g d s.1 none fun p00 _ p10 p11 =>
    [d, s.1].map fun i => invertComponents
      ([(g.at' p00).inp i, (g.at' p00).out d] ++ (if i = d then [-(g.at' p00).isSplitter] else []) ++
        [(g.at' p10).out s.1, (g.at' p11).isSplitter, setLiteral (g.at' p11).isHead s.2]))
    [(d.next, true), (d.prev, false)]) (fun v d => ∀ t, d.Across t → ∀ p a b e, g.In p → g.nb p d = some a → g.nb p t = some b →
      g.nb b d = some e → ∀ i, (i = d ∨ i = t) → ¬ ((g.vals v p).inp i = true ∧ (g.vals v p).out d = true ∧ (i = d → (g.vals v p).isSplitter = false) ∧
        (g.vals v b).out t = true ∧ (g.vals v e).isSplitter = true ∧ (g.vals v e).isHead = decide (t = d.ccw))) Dir.all (by
    intro d _
    obtain ⟨cs, h1, h2⟩ := concatE_iff (fun s : Dir × Bool => overBlocks g d s.1 none fun p00 _ p10 p11 =>
    [d, s.1].map fun i => invertComponents
      ([(g.at' p00).inp i, (g.at' p00).out d] ++ (if i = d then [-(g.at' p00).isSplitter] else []) ++
        [(g.at' p10).out s.1, (g.at' p11).isSplitter, setLiteral (g.at' p11).isHead s.2]))
      (fun v s => ∀ p a b e, g.In p → g.nb p d = some a → g.nb p s.1 = some b →
      g.nb b d = some e → ∀ i, (i = d ∨ i = s.1) → ¬ ((g.vals v p).inp i = true ∧ (g.vals v p).out d = true ∧ (i = d → (g.vals v p).isSplitter = false) ∧
        (g.vals v b).out s.1 = true ∧ (g.vals v e).isSplitter = true ∧ (g.vals v e).isHead = s.2)) [(d.next, true), (d.prev, false)] (by
        intro s hs
        have ha : d.Across s.1 := by
          simp only [List.mem_cons, List.not_mem_nil, or_false] at hs
          rcases hs with rfl | rfl
          · exact (forall_across d (fun t => d.Across t)).2 (fun t h => h) d.next (by simp)
          · exact (forall_across d (fun t => d.Across t)).2 (fun t h => h) d.prev (by simp)
        obtain ⟨cs, h1, h2⟩ := overBlocks_iff hg ha none fun p00 _ p10 p11 =>
          [d, s.1].map fun i => invertComponents
            ([(g.at' p00).inp i, (g.at' p00).out d] ++ (if i = d then [-(g.at' p00).isSplitter] else []) ++
              [(g.at' p10).out s.1, (g.at' p11).isSplitter, setLiteral (g.at' p11).isHead s.2])
        refine ⟨cs, h1, fun v => ?_⟩
        rw [h2]
        simp only [hcl]
        simp)
    refine ⟨cs, h1, fun v => ?_⟩
    rw [h2]
    simp only [List.mem_cons, List.not_mem_nil, or_false, forall_eq_or_imp, forall_eq]
    constructor
    · rintro ⟨k1, k2⟩ t ht
      rcases ht with rfl | rfl
      · rw [Dir.next_eq] at k1
        simpa using k1
      · have e : d.prev = d.ccw.opp := by cases d <;> rfl
        have e2 : decide (d.ccw.opp = d.ccw) = false := by cases d <;> rfl
        rw [e] at k2
        rw [e2]; exact k2
    · intro k
      constructor
      · have := k d.ccw (.inl rfl)
        rw [Dir.next_eq]
        simpa using this
      · have e : d.prev = d.ccw.opp := by cases d <;> rfl
        have e2 : decide (d.ccw.opp = d.ccw) = false := by cases d <;> rfl
        have := k d.ccw.opp (.inr rfl)
        rw [e2] at this
        rw [e]; exact this)
  refine ⟨cs, h1, fun v T h => ?_⟩
  rw [h2]
  simp only [Dir.forall_mem_all]
  have hp1 : ∀ (p : Nat × Nat) (d a i : Dir), g.In p → d.Across a → (i = d ∨ i = a) →
      (T p = .belt i d ↔ (g.vals v p).inp i = true ∧ (g.vals v p).out d = true ∧ (i = d → (g.vals v p).isSplitter = false)) := by
    intro p d a i hp ha hi
    rcases hi with rfl | rfl
    · rw [(h.lays p hp).through_iff]; simp
    · rw [(h.lays p hp).turn_iff ha.ne.1.symm]
      constructor
      · rintro ⟨x, y⟩; exact ⟨x, y, fun hh => absurd hh.symm ha.ne.1⟩
      · rintro ⟨x, y, _⟩; exact ⟨x, y⟩
  have hp2 : ∀ (c : Nat × Nat) (b : Bool), g.In c → ((∃ e, T c = .splitter e b) ↔ (g.vals v c).isSplitter = true ∧ (g.vals v c).isHead = b) := by
    intro c b hc
    constructor
    · rintro ⟨e, he⟩
      obtain ⟨s1, s2, _⟩ := (he ▸ h.lays c hc).splitter_flags
      exact ⟨s1, s2⟩
    · rintro ⟨s1, s2⟩
      obtain ⟨e, b', he⟩ := (h.lays c hc).isSplitter_iff.1 s1
      obtain ⟨_, s3, _⟩ := (he ▸ h.lays c hc).splitter_flags
      exact ⟨e, by rw [he, ← s2, s3]⟩
  constructor
  · rintro hh p d t hp ha ⟨a, b, c, e1, e2, e3, k1, k2, k3⟩
    obtain ⟨s1, s2⟩ := (hp2 c _ (Grid.nb_in hg e3)).1 k3
    have key : ∀ i, (i = d ∨ i = t) → T p = .belt i d → False := by
      intro i hi kp
      obtain ⟨x, y, z⟩ := (hp1 p d t i hp ha hi).1 kp
      exact hh d t ha p a b c hp e1 e2 e3 i hi ⟨x, y, z, k2, s1, s2⟩
    rcases k1 with k1 | k1
    · exact key _ (.inl rfl) k1
    · exact key _ (.inr rfl) k1
  · rintro hh d t ha p a b c hp e1 e2 e3 i hi ⟨x, y, z, k2, s1, s2⟩
    have kp := (hp1 p d t i hp ha hi).2 ⟨x, y, z⟩
    refine hh p d t hp ha ⟨a, b, c, e1, e2, e3, ?_, k2, (hp2 c _ (Grid.nb_in hg e3)).2 ⟨s1, s2⟩⟩
    rcases hi with rfl | rfl
    · exact .inl kp
    · exact .inr kp

theorem gluePartial_iff (hg : g.WF) : ∃ cs, gluePartialSplitters g = .ok cs ∧ ∀ v T, Base g v T →
    (Sat v cs ↔ ∀ p d, g.In p → (p.1 : Int) ≤ g.width - 2 → (p.1 : Int) + d.ccw.dx + d.dx ≤ g.width - 2 →
      ¬ LooseSplitter g.nb T (fun q e => (g.vals v q).inp e = true) p d) := by
  have hcl : ∀ (d : Dir) (p a q b : Nat × Nat) v, Sat v (
    let belts := [(g.at' a).inp d, (g.at' a).out d, (g.at' a).isBelt, (g.at' b).inp d, (g.at' b).out d, (g.at' b).isBelt]
    [invertComponents ([(g.at' p).inp d, (g.at' p).isHead, -(g.at' q).inp d] ++ belts),
     invertComponents ([-(g.at' p).inp d, (g.at' q).inp d, (g.at' q).isSplitter, -(g.at' q).isHead] ++ belts)]) ↔
     ¬ (((g.vals v p).inp d = true ∧ (g.vals v p).isHead = true ∧ (g.vals v q).inp d = false ∧
        (g.vals v a).inp d = true ∧ (g.vals v a).out d = true ∧ (g.vals v a).isBelt = true ∧
        (g.vals v b).inp d = true ∧ (g.vals v b).out d = true ∧ (g.vals v b).isBelt = true) ∨
      ((g.vals v p).inp d = false ∧ (g.vals v q).inp d = true ∧ (g.vals v q).isSplitter = true ∧ (g.vals v q).isHead = false ∧
        (g.vals v a).inp d = true ∧ (g.vals v a).out d = true ∧ (g.vals v a).isBelt = true ∧
        (g.vals v b).inp d = true ∧ (g.vals v b).out d = true ∧ (g.vals v b).isBelt = true)) := by
    intro d p a q b v
    simp only [Sat_cons, Sat_nil, and_true, SatC_invertComponents, List.cons_append, List.nil_append, List.mem_cons, List.not_mem_nil,
      or_false, forall_eq_or_imp, forall_eq, ev_neg, Bool.not_eq_true', ← not_or]
    rfl
  obtain ⟨cs, h1, h2⟩ := concatE_iff (fun d : Dir => overBlocks g d d.next (some ((g.width : Int) - 2)) fun p00 p01 p10 p11 =>
    let belts := [(g.at' p01).inp d, (g.at' p01).out d, (g.at' p01).isBelt, (g.at' p11).inp d, (g.at' p11).out d, (g.at' p11).isBelt]
    [invertComponents ([(g.at' p00).inp d, (g.at' p00).isHead, -(g.at' p10).inp d] ++ belts),
     invertComponents ([-(g.at' p00).inp d, (g.at' p10).inp d, (g.at' p10).isSplitter, -(g.at' p10).isHead] ++ belts)])
    (fun v d => ∀ p a q b, g.In p → (p.1 : Int) ≤ g.width - 2 → (p.1 : Int) + d.ccw.dx + d.dx ≤ g.width - 2 → g.nb p d = some a →
      g.nb p d.ccw = some q → g.nb q d = some b → ¬ (((g.vals v p).inp d = true ∧ (g.vals v p).isHead = true ∧ (g.vals v q).inp d = false ∧
        (g.vals v a).inp d = true ∧ (g.vals v a).out d = true ∧ (g.vals v a).isBelt = true ∧
        (g.vals v b).inp d = true ∧ (g.vals v b).out d = true ∧ (g.vals v b).isBelt = true) ∨
      ((g.vals v p).inp d = false ∧ (g.vals v q).inp d = true ∧ (g.vals v q).isSplitter = true ∧ (g.vals v q).isHead = false ∧
        (g.vals v a).inp d = true ∧ (g.vals v a).out d = true ∧ (g.vals v a).isBelt = true ∧
        (g.vals v b).inp d = true ∧ (g.vals v b).out d = true ∧ (g.vals v b).isBelt = true))) Dir.all (by
    intro d _
    have ha : d.Across d.next := by rw [Dir.next_eq]; exact d.across_ccw
    obtain ⟨cs, h1, h2⟩ := overBlocks_iff hg ha (some ((g.width : Int) - 2)) fun p00 p01 p10 p11 =>
      let belts := [(g.at' p01).inp d, (g.at' p01).out d, (g.at' p01).isBelt, (g.at' p11).inp d, (g.at' p11).out d, (g.at' p11).isBelt]
      [invertComponents ([(g.at' p00).inp d, (g.at' p00).isHead, -(g.at' p10).inp d] ++ belts),
       invertComponents ([-(g.at' p00).inp d, (g.at' p10).inp d, (g.at' p10).isSplitter, -(g.at' p10).isHead] ++ belts)]
    refine ⟨cs, h1, fun v => ?_⟩
    rw [h2]
    simp only [hcl, Dir.next_eq, Option.some.injEq, forall_eq', ← Int.add_assoc]
    constructor
    · intro hh p a q b hp b1 b2; exact hh p a q b hp ⟨b1, b2⟩
    · rintro hh p a q b hp ⟨b1, b2⟩; exact hh p a q b hp b1 b2)
  refine ⟨cs, h1, fun v T h => ?_⟩
  rw [h2]
  simp only [Dir.forall_mem_all]
  constructor
  · rintro hh p d hp b1 b2 ⟨q, a, b, hpq, e1, e2, k1, k2, k3⟩
    exact hh d p a q b hp b1 b2 e1 hpq.2.1 e2 ((loose_iff hg h.lays h.split hp hpq.2.1 e1 e2).2 ⟨hpq, k1, k2, k3⟩)
  · intro hh d p a q b hp b1 b2 e1 e2 e3 hall
    obtain ⟨k0, k1, k2, k3⟩ := (loose_iff hg h.lays h.split hp e2 e1 e3).1 hall
    exact hh p d hp b1 b2 ⟨q, a, b, k0, e1, e3, k1, k2, k3⟩

end

end FSat
