import Verif.Lemmas.NetFree
/-!
What the clauses of the balancers with different numbers of inputs and outputs say.
-/

set_option linter.unusedSimpArgs false

namespace FSat

/-! ### The constants -/

theorem lcmAll_dvd : ∀ (a : Nat) (l : List Nat), ∀ x ∈ a :: l, x ∣ lcmAll a l
  | a, [], x, h => by
    simp only [List.mem_cons, List.not_mem_nil, or_false] at h
    subst h; exact dvd_refl _
  | a, b :: l, x, h => by
    show x ∣ Nat.lcm a (lcmAll b l)
    rcases List.mem_cons.1 h with rfl | h
    · exact Nat.dvd_lcm_left _ _
    · exact (lcmAll_dvd b l x h).trans (Nat.dvd_lcm_right _ _)

theorem lcmAll_pos : ∀ (a : Nat) (l : List Nat), (∀ x ∈ a :: l, 0 < x) → 0 < lcmAll a l
  | a, [], h => h a (by simp)
  | a, b :: l, h => Nat.lcm_pos (h a (by simp)) (lcmAll_pos b l fun x hx => h x (by simp [hx]))

theorem maxBeltFlow_facts (m n : Nat) : m ∣ maxBeltFlow m n ∧ n ∣ maxBeltFlow m n ∧ 2 ∣ maxBeltFlow m n ∧
    nextPowerOfTwo (min m n) ∣ maxBeltFlow m n :=
  ⟨lcmAll_dvd _ _ _ (by simp), lcmAll_dvd _ _ _ (by simp), lcmAll_dvd _ _ _ (by simp), lcmAll_dvd _ _ _ (by simp)⟩

theorem maxBeltFlow_pos {m n : Nat} (hm : 0 < m) (hn : 0 < n) : 0 < maxBeltFlow m n :=
  lcmAll_pos _ _ (by simp [hm, hn, nextPowerOfTwo_pos])

/-- All divisions are exact. -/
theorem nToMFlows_exact {m n : Nat} (hm : 0 < m) (hn : 0 < n) : let (fIn, fOut, bIn, bOut) := nToMFlows m n
    m * fIn = maxBeltFlow m n * min m n ∧ n * fOut = fIn ∧ n * bIn = maxBeltFlow m n * min m n ∧ m * bOut = bIn ∧ 0 < fOut ∧ 0 < bOut := by
  obtain ⟨⟨a, ha⟩, ⟨b, hb⟩, _⟩ := maxBeltFlow_facts m n
  have hM := maxBeltFlow_pos hm hn
  unfold nToMFlows
  simp only
  generalize maxBeltFlow m n = M at *
  have e1 : m * (M * min m n / m) = M * min m n := Nat.mul_div_cancel' (ha ▸ (Dvd.intro a rfl).mul_right _)
  have e2 : n * (M * min m n / n) = M * min m n := Nat.mul_div_cancel' (hb ▸ (Dvd.intro b rfl).mul_right _)
  have d1 : n ∣ M * min m n / m := by
    rcases Nat.le_total m n with h | h
    · rw [Nat.min_eq_left h, Nat.mul_div_cancel _ hm, hb]; exact Dvd.intro _ rfl
    · rw [Nat.min_eq_right h, ha, Nat.mul_assoc, Nat.mul_div_cancel_left _ hm]; exact Dvd.intro_left _ rfl
  have d2 : m ∣ M * min m n / n := by
    rcases Nat.le_total m n with h | h
    · rw [Nat.min_eq_left h, hb, Nat.mul_assoc, Nat.mul_div_cancel_left _ hn]; exact Dvd.intro_left _ rfl
    · rw [Nat.min_eq_right h, Nat.mul_div_cancel _ hn, ha]; exact Dvd.intro _ rfl
  have e3 := Nat.mul_div_cancel' d1
  have e4 := Nat.mul_div_cancel' d2
  have hmin : 0 < min m n := by omega
  have htot := Nat.mul_pos hM hmin
  refine ⟨e1, e3, e2, e4, Nat.pos_of_ne_zero fun h => ?_, Nat.pos_of_ne_zero fun h => ?_⟩
  · rw [h, Nat.mul_zero] at e3; rw [← e3, Nat.mul_zero] at e1; omega
  · rw [h, Nat.mul_zero] at e4; rw [← e4, Nat.mul_zero] at e2; omega

/-! ### Partial splitters -/

theorem value_dropLast {v : Asg} {l : List Lit} {o : Lit} (h : l.getLast? = some o) (ho : ev v o = false) : value v l = value v l.dropLast := by
  have e := List.dropLast_append_getLast? o h
  conv_lhs => rw [← e]
  rw [value_append, value_cons]
  simp [ho, value]

theorem splitOne_sound {inF out0 out1 : List Lit} {c : Cnf} (h : splitOne inF out0 out1 = .ok c) (h0 : out0.length = inF.length)
    (h1 : out1.length = inF.length) {v : Asg} (hv : Sat v c) : value v inF = value v out0 * 2 ∧ value v inF = value v out1 * 2 := by
  unfold splitOne at h
  cases inF with
  | nil => cases h
  | cons a as =>
    cases e0 : out0.getLast? with
    | none => rw [e0] at h; cases h
    | some o0 =>
      cases e1 : out1.getLast? with
      | none => rw [e0, e1] at h; cases h
      | some o1 =>
        rw [e0, e1] at h
        simp only at h
        obtain ⟨c0, k0, s0⟩ := c07_set_numbers_equal as out0.dropLast (by simp [h0])
        obtain ⟨c1, k1, s1⟩ := c07_set_numbers_equal as out1.dropLast (by simp [h1])
        rw [k0, k1] at h
        simp only [Except.ok.injEq] at h
        subst h
        simp only [Sat_append, Sat_cons, Sat_nil, SatC_cons, SatC_nil, or_false, ev_neg, and_true, Bool.not_eq_true'] at hv
        obtain ⟨⟨⟨ha, t0⟩, t1⟩, u0, u1⟩ := hv
        rw [value_cons', value_dropLast e0 u0, value_dropLast e1 u1, ← (s0 v).1 t0, ← (s1 v).1 t1, ha]
        simp [Nat.mul_comm]

theorem mergeOne_sound {in0 in1 outF carry : List Lit} {c : Cnf} (h : mergeOne in0 in1 outF carry = .ok c) {v : Asg} (hv : Sat v c) :
    value v outF = value v in0 + value v in1 := by
  unfold mergeOne at h
  split at h
  · cases h
  · rename_i c' s' e
    cases h
    rcases c01_add_numbers_any_allocator fixedAlloc in0 in1 outF none false carry c s' e v hv with k | k
    · simpa [carryVal] using k
    · cases k.1

theorem splitAll_sound {n bits : Nat} {pre : List Lit} {inF out0 out1 : List (List Lit)} {c : Cnf}
    (h : splitAll pre inF out0 out1 = .ok c) (h0 : Arrayed n bits inF) (h1 : Arrayed n bits out0) (h2 : Arrayed n bits out1)
    {v : Asg} (hv : Sat v c) (hp : ∀ l ∈ pre, ev v l = true) {i : Nat} (hi : i < n) :
    value v (comp inF i) = value v (comp out0 i) * 2 ∧ value v (comp inF i) = value v (comp out1 i) * 2 := by
  have hm : (comp inF i, comp out0 i, comp out1 i) ∈ inF.zip (out0.zip out1) := by
    have e1 := zip_getD (l := out0) (l' := out1) [] [] (i := i) (by rw [h1.1]; exact hi) (by rw [h2.1]; exact hi)
    have e0 := mem_zip_getD (l := inF) (l' := out0.zip out1) [] ([], []) (i := i) (by rw [h0.1]; exact hi) (by simp [h1.1, h2.1, hi])
    rw [e1] at e0
    exact e0
  obtain ⟨c1, e1, s1⟩ := concatE_sat h hv _ hm
  obtain ⟨c2, e2, s2⟩ := impliesE_sound e1 s1 hp
  exact splitOne_sound e2 ((h1.comp_length hi).trans (h0.comp_length hi).symm) ((h2.comp_length hi).trans (h0.comp_length hi).symm) s2

theorem mergeAll_sound {n bits cb : Nat} {pre : List Lit} {in0 in1 outF carry : List (List Lit)} {c : Cnf}
    (h : mergeAll pre in0 in1 outF carry = .ok c) (h0 : Arrayed n bits in0) (h1 : Arrayed n bits in1) (h2 : Arrayed n bits outF)
    (h3 : Arrayed n cb carry) {v : Asg} (hv : Sat v c) (hp : ∀ l ∈ pre, ev v l = true) {i : Nat} (hi : i < n) :
    value v (comp outF i) = value v (comp in0 i) + value v (comp in1 i) := by
  have hm : (comp in0 i, comp in1 i, comp outF i, comp carry i) ∈ in0.zip (in1.zip (outF.zip carry)) := by
    have e2 := zip_getD (l := outF) (l' := carry) [] [] (i := i) (by rw [h2.1]; exact hi) (by rw [h3.1]; exact hi)
    have e1 := zip_getD (l := in1) (l' := outF.zip carry) [] ([], []) (i := i) (by rw [h1.1]; exact hi) (by simp [h2.1, h3.1, hi])
    have e0 := mem_zip_getD (l := in0) (l' := in1.zip (outF.zip carry)) [] ([], [], []) (i := i) (by rw [h0.1]; exact hi)
      (by simp [h1.1, h2.1, h3.1, hi])
    rw [e1, e2] at e0
    exact e0
  obtain ⟨c1, e1, s1⟩ := concatE_sat h hv _ hm
  obtain ⟨c2, e2, s2⟩ := impliesE_sound e1 s1 hp
  exact mergeOne_sound e2 s2

/-! ### The clauses -/

/-- The four ends of a splitter: `ip`, `iq` its inputs, `op`, `oq` its outputs; the forward numbers `fp`, `fq` of its halves and `fp'`, `fq'`
of the cells in front of it; likewise backward. -/
structure MixSem (ip iq op oq : Bool) (fp fq fp' fq' bp bq bp' bq' : Nat → Nat) (m n : Nat) : Prop where
  three : (ip = true → op = true ∨ oq = true) ∧ (ip = true → op = true ∨ iq = true) ∧ (op = true → ip = true ∨ iq = true) ∧
    (op = true → ip = true ∨ oq = true)
  full : ip = true → iq = true → op = true → oq = true → (∀ i < m, fp' i * 2 = fp i + fq i ∧ fq' i * 2 = fp i + fq i) ∧
    ∀ i < n, bp i * 2 = bp' i + bq' i ∧ bq i * 2 = bp' i + bq' i
  inP : op = true → ip = true → iq = false → (∀ i < m, fp i = fp' i * 2 ∧ fp i = fq' i * 2) ∧ ∀ i < n, bp i = bp' i + bq' i
  inQ : op = true → iq = true → ip = false → (∀ i < m, fq i = fp' i * 2 ∧ fq i = fq' i * 2) ∧ ∀ i < n, bq i = bp' i + bq' i
  outP : ip = true → op = true → oq = false → (∀ i < m, fp' i = fp i + fq i) ∧ ∀ i < n, bp' i = bp i * 2 ∧ bp' i = bq i * 2
  outQ : ip = true → oq = true → op = false → (∀ i < m, fq' i = fp i + fq i) ∧ ∀ i < n, bq' i = bp i * 2 ∧ bq' i = bq i * 2

/-- What the clauses of `create_n_to_m_balancer` say. -/
structure NToMSem (g : Grid) (F B : Nat × Nat → FlowLits) (m n : Nat) (v : Asg) : Prop where
  init : InitSem g (g.vals v)
  shut : BlockUgSem g (.ofBool true) (g.vals v)
  under : UndergroundSem g (g.vals v)
  leF : ∀ p, g.In p → ∀ i < m, value v (comp (F p).flow i) ≤ maxBeltFlow m n
  leB : ∀ p, g.In p → ∀ i < n, value v (comp (B p).flow i) ≤ maxBeltFlow m n
  transF : TransportSem g (g.vals v) (fun p => (F p).flow.flatten.map (ev v))
    (fun d p => ((if d.axis = .horizontal then fun p => (F p).ux.flatten else fun p => (F p).uy.flatten) p).map (ev v))
  transB : TransportSem g (g.vals v) (fun p => (B p).flow.flatten.map (ev v))
    (fun d p => ((if d.axis = .horizontal then fun p => (B p).ux.flatten else fun p => (B p).uy.flatten) p).map (ev v))
  ends : ∀ p d p10 p01 p11, g.In p → g.nb p d = some p10 → g.nb p d.ccw = some p01 → g.nb p01 d = some p11 →
    (g.vals v p).isHead = true →
    MixSem ((g.vals v p).inp d) ((g.vals v p01).inp d) ((g.vals v p).out d) ((g.vals v p01).out d)
      (fun i => value v (comp (F p).flow i)) (fun i => value v (comp (F p01).flow i)) (fun i => value v (comp (F p10).flow i))
      (fun i => value v (comp (F p11).flow i)) (fun i => value v (comp (B p).flow i)) (fun i => value v (comp (B p01).flow i))
      (fun i => value v (comp (B p10).flow i)) (fun i => value v (comp (B p11).flow i)) m n
  first : ∀ y < g.height, (g.vals v (0, y)).isSplitter = false ∧
    (∀ i < m, value v (comp (F (0, y)).flow i) = if y % m = i then (nToMFlows m n).1 else 0) ∧
    ∀ i < n, value v (comp (B (0, y)).flow i) = (nToMFlows m n).2.2.2
  last : ∀ y < g.height, (g.vals v (g.width - 1, y)).isSplitter = false ∧
    (∀ i < m, value v (comp (F (g.width - 1, y)).flow i) = (nToMFlows m n).2.1) ∧
    ∀ i < n, value v (comp (B (g.width - 1, y)).flow i) = if y % n = i then (nToMFlows m n).2.2.1 else 0

theorem nToMHalves_sound {a b : TileInst} {d : Dir} {v : Asg} (h : Sat v (nToMHalves a b d)) (hh : ev v a.isHead = true) :
    (ev v (a.inp d) = true → ev v (a.out d) = true ∨ ev v (b.out d) = true) ∧
    (ev v (a.inp d) = true → ev v (a.out d) = true ∨ ev v (b.inp d) = true) ∧
    (ev v (a.out d) = true → ev v (a.inp d) = true ∨ ev v (b.inp d) = true) ∧
    (ev v (a.out d) = true → ev v (a.inp d) = true ∨ ev v (b.out d) = true) := by
  simp only [nToMHalves, Sat_cons, Sat_nil, SatC_cons, SatC_nil, or_false, ev_neg, and_true, hh, Bool.not_true, Bool.false_eq_true, false_or,
    Bool.not_eq_true'] at h
  obtain ⟨h1, h2, h3, h4⟩ := h
  refine ⟨fun hi => ?_, fun hi => ?_, fun hi => ?_, fun hi => ?_⟩
  · simpa [hi] using h1
  · simpa [hi] using h2
  · simpa [hi] using h3
  · simpa [hi] using h4

theorem nToM_sem {g : Grid} (hg : g.WF) {F B : Nat × Nat → FlowLits} {m n bits cb : Nat} (hF : ∀ p, (F p).Shape m bits cb)
    (hB : ∀ p, (B p).Shape n bits cb) {cs : Cnf} (h : nToMClauses g F B m n = .ok cs) {v : Asg} (hv : Sat v cs) : NToMSem g F B m n v := by
  unfold nToMClauses at h
  have H := joinE_sat h hv
  simp only [List.mem_cons, List.not_mem_nil, or_false, forall_eq_or_imp, forall_eq] at H
  obtain ⟨⟨c1, e1, s1⟩, ⟨c2, e2, s2⟩, ⟨c3, e3, s3⟩, ⟨c4, e4, s4⟩, ⟨c5, e5, s5⟩, ⟨c5', e5', s5'⟩, ⟨c6, e6, s6⟩, ⟨c7, e7, s7⟩, ⟨c8, e8, s8⟩,
    ⟨c8', e8', s8'⟩, ⟨c9, e9, s9⟩, ⟨c10, e10, s10⟩, ⟨c10', e10', s10'⟩⟩ := H
  cases e2; cases e3; cases e7; cases e9
  have hmax : ∀ p, g.In p → ∀ c ∈ (F p).flow ++ (B p).flow, value v c ≤ maxBeltFlow m n := by
    intro p hp c hc
    obtain ⟨c', e, s⟩ := concatE_sat e4 s4 p ((g.mem_cells p).2 hp)
    unfold nToMTile at e
    split at e
    · obtain ⟨c'', e', s'⟩ := joinE_sat e s (concatE (fun c => setMaximum (maxBeltFlow m n) c) ((F p).flow ++ (B p).flow)) (by simp)
      obtain ⟨c3, e3, s3⟩ := concatE_sat e' s' c hc
      exact setMaximum_sound e3 s3
    · cases e
    · cases e
  refine ⟨sem_of_sat hg e1 s1, (Sat_blockUg hg _ v).1 s2, (Sat_underground g v).1 s3, ?_, ?_, ?_, ?_, ?_, ?_, ?_⟩
  · exact fun p hp i hi => hmax p hp _ (List.mem_append_left _ ((hF p).flow.comp_mem hi))
  · exact fun p hp i hi => hmax p hp _ (List.mem_append_right _ ((hB p).flow.comp_mem hi))
  · obtain ⟨c, e, s⟩ := transport_iff (g := g) (n := m * bits) (q := fun p => (F p).flow.flatten)
      (qux := fun p => (F p).ux.flatten) (quy := fun p => (F p).uy.flatten) (fun p => (hF p).flow.flatten_length)
      (fun p => (hF p).ux.flatten_length) (fun p => (hF p).uy.flatten_length)
    rw [e] at e5; cases e5
    exact (s v).1 s5
  · obtain ⟨c, e, s⟩ := transport_iff (g := g) (n := n * bits) (q := fun p => (B p).flow.flatten)
      (qux := fun p => (B p).ux.flatten) (quy := fun p => (B p).uy.flatten) (fun p => (hB p).flow.flatten_length)
      (fun p => (hB p).ux.flatten_length) (fun p => (hB p).uy.flatten_length)
    rw [e] at e5'; cases e5'
    exact (s v).1 s5'
  · intro p d p10 p01 p11 hp h10 h01 h11 hh
    obtain ⟨c, e, s⟩ := concatE_sat e6 s6 p ((g.mem_cells p).2 hp)
    obtain ⟨c', e', s'⟩ := concatE_sat e s d (by cases d <;> simp [Dir.all])
    have hoff : g.offset p (d.dx + d.next.dx) (d.dy + d.next.dy) = some p11 := by
      rw [Dir.next_eq, Grid.offset_corner1 hg hp d.across_ccw, Grid.nb_comm hg hp d.across_ccw, h01]
      exact h11
    unfold nToMCell at e'
    rw [Dir.next_eq] at e' hoff
    rw [h10, h01, hoff] at e'
    simp only at e'
    have H := joinE_sat e' s'
    simp only [List.mem_cons, List.not_mem_nil, or_false, forall_eq_or_imp, forall_eq] at H
    obtain ⟨⟨d1, x1, y1⟩, ⟨d2, x2, y2⟩, ⟨d3, x3, y3⟩, -, ⟨d5, x5, y5⟩, ⟨d6, x6, y6⟩⟩ := H
    cases x1
    have hpart : ∀ {c c' u : Nat × Nat} {cl : Cnf}, nToMPartial g F B d p p10 p01 p11 c c' u = .ok cl → Sat v cl →
        ((g.vals v p).out d = true → (g.vals v c).inp d = true → (g.vals v u).inp d = false →
          (∀ i < m, value v (comp (F c).flow i) = value v (comp (F p10).flow i) * 2 ∧
            value v (comp (F c).flow i) = value v (comp (F p11).flow i) * 2) ∧
          ∀ i < n, value v (comp (B c).flow i) = value v (comp (B p10).flow i) + value v (comp (B p11).flow i)) ∧
        ((g.vals v p).inp d = true → (g.vals v c).out d = true → (g.vals v u).out d = false →
          (∀ i < m, value v (comp (F c').flow i) = value v (comp (F p).flow i) + value v (comp (F p01).flow i)) ∧
          ∀ i < n, value v (comp (B c').flow i) = value v (comp (B p).flow i) * 2 ∧
            value v (comp (B c').flow i) = value v (comp (B p01).flow i) * 2) := by
      intro c c' u cl e s
      unfold nToMPartial at e
      have H := joinE_sat e s
      simp only [List.mem_cons, List.not_mem_nil, or_false, forall_eq_or_imp, forall_eq] at H
      obtain ⟨⟨a1, b1, z1⟩, ⟨a2, b2, z2⟩, ⟨a3, b3, z3⟩, ⟨a4, b4, z4⟩⟩ := H
      refine ⟨fun f1 f2 f3 => ?_, fun f1 f2 f3 => ?_⟩
      · have hpre : ∀ l ∈ [(g.at' p).isHead, (g.at' p).out d, (g.at' c).inp d, -(g.at' u).inp d], ev v l = true := by
          simp only [List.mem_cons, List.not_mem_nil, or_false, forall_eq_or_imp, forall_eq, ev_neg, Bool.not_eq_true']
          exact ⟨hh, f1, f2, f3⟩
        exact ⟨fun i hi => splitAll_sound b1 (hF _).flow (hF _).flow (hF _).flow z1 hpre hi,
          fun i hi => mergeAll_sound b2 (hB _).flow (hB _).flow (hB _).flow (hB _).carry z2 hpre hi⟩
      · have hpre : ∀ l ∈ [(g.at' p).isHead, (g.at' p).inp d, (g.at' c).out d, -(g.at' u).out d], ev v l = true := by
          simp only [List.mem_cons, List.not_mem_nil, or_false, forall_eq_or_imp, forall_eq, ev_neg, Bool.not_eq_true']
          exact ⟨hh, f1, f2, f3⟩
        exact ⟨fun i hi => mergeAll_sound b3 (hF _).flow (hF _).flow (hF _).flow (hF _).carry z3 hpre hi,
          fun i hi => splitAll_sound b4 (hB _).flow (hB _).flow (hB _).flow z4 hpre hi⟩
    refine ⟨nToMHalves_sound y1 hh, fun f1 f2 f3 f4 => ?_, (hpart x5 y5).1, (hpart x6 y6).1, (hpart x5 y5).2, (hpart x6 y6).2⟩
    have hpre : ∀ l ∈ [(g.at' p).isHead, (g.at' p).inp d, (g.at' p01).inp d, (g.at' p).out d, (g.at' p01).out d], ev v l = true := by
      simp only [List.mem_cons, List.not_mem_nil, or_false, forall_eq_or_imp, forall_eq]
      exact ⟨hh, f1, f2, f3, f4⟩
    exact ⟨fun i hi => halveAll_sound x2 (hF _).flow (hF _).flow (hF _).flow (hF _).flow (hF _).carry y2 hpre hi,
      fun i hi => halveAll_sound x3 (hB _).flow (hB _).flow (hB _).flow (hB _).flow (hB _).carry y3 hpre hi⟩
  · intro y hy
    exact ⟨columnNoSplitter_sound s7 y hy, columnFlow_sound e8 (fun p => (hF p).flow) s8 y hy, columnFlow_sound e8' (fun p => (hB p).flow) s8' y hy⟩
  · intro y hy
    exact ⟨columnNoSplitter_sound s9 y hy, columnFlow_sound e10 (fun p => (hF p).flow) s10 y hy, columnFlow_sound e10' (fun p => (hB p).flow) s10' y hy⟩

/-! ### Flows -/

section
variable {g : Grid} {F B : Nat × Nat → FlowLits} {m n bits cb : Nat} {v : Asg} {T : Nat × Nat → Tile}

/-- At least three of the four ends of every splitter are connected. -/
theorem NToMSem.ends_of (hs : NToMSem g F B m n v) (hl : Lays g (g.vals v) T) {p q p' q' : Nat × Nat} {d : Dir} (hp : g.In p) (hq : g.In q)
    (hpair : SplitterPair g.nb T p q d) (hp' : g.nb p d = some p') (hq' : g.nb q d = some q') :
    MixSem ((g.vals v p).inp d) ((g.vals v q).inp d) ((g.vals v p).out d) ((g.vals v q).out d)
      (fun i => value v (comp (F p).flow i)) (fun i => value v (comp (F q).flow i)) (fun i => value v (comp (F p').flow i))
      (fun i => value v (comp (F q').flow i)) (fun i => value v (comp (B p).flow i)) (fun i => value v (comp (B q).flow i))
      (fun i => value v (comp (B p').flow i)) (fun i => value v (comp (B q').flow i)) m n ∧
    ((g.vals v p).inp d = true ∨ (g.vals v p).out d = true) ∧ ((g.vals v q).inp d = true ∨ (g.vals v q).out d = true) := by
  have ha : Agrees (g.vals v p) (.splitter d true) := hpair.1 ▸ hl p hp
  have hb : Agrees (g.vals v q) (.splitter d false) := hpair.2.2 ▸ hl q hq
  exact ⟨hs.ends p d p' q q' hp hp' hpair.2.1 hq' ha.splitter_flags.2.1, ha.2.2.2.2, hb.2.2.2.2⟩

theorem NToMSem.steady (hg : g.WF) (hF : ∀ p, (F p).Shape m bits cb) (hs : NToMSem g F B m n v)
    (hi : IntersectionSem g (g.vals v)) (hl : Lays g (g.vals v) T) (hin : InnerSplitters g T) {k : Nat} (hk : k < m) :
    Steady g.In g.nb T (g.linked (g.vals v)) fun p => (value v (comp (F p).flow k) : Nat) := by
  have := steady_of_transport hg hl hi hs.under hs.transF hin (readComp bits k) (by
    intro p q d p' q' hp hpair hp' hq'
    have hq := Grid.nb_in hg hpair.2.1
    obtain ⟨hm, f1, f2⟩ := hs.ends_of hl hp hq hpair hp' hq'
    simp only [readComp_eq (hF _).flow hk]
    obtain ⟨h1, h2, h3, h4, h5, h6⟩ := hm
    generalize (g.vals v p).inp d = ip at *
    generalize (g.vals v q).inp d = iq at *
    generalize (g.vals v p).out d = op at *
    generalize (g.vals v q).out d = oq at *
    cases ip <;> cases iq <;> cases op <;> cases oq <;> simp at f1 f2 h1 <;> simp only [gate, if_true, if_false, Bool.false_eq_true]
    · obtain ⟨a, b⟩ := (h4 rfl rfl rfl).1 k hk
      exact ⟨fun _ => by rw [a]; push_cast; ring, fun _ => by rw [b]; push_cast; ring⟩
    · obtain ⟨a, b⟩ := (h3 rfl rfl rfl).1 k hk
      exact ⟨fun _ => by rw [a]; push_cast; ring, fun _ => by rw [b]; push_cast; ring⟩
    · have a := (h6 rfl rfl rfl).1 k hk
      exact ⟨fun h => (by cases h), fun _ => by rw [a]; push_cast; ring⟩
    · have a := (h5 rfl rfl rfl).1 k hk
      exact ⟨fun _ => by rw [a]; push_cast; ring, fun h => by cases h⟩
    · obtain ⟨a, b⟩ := (h2 rfl rfl rfl rfl).1 k hk
      have a' : ((value v (comp (F p').flow k) * 2 : Nat) : Rat) = ((value v (comp (F p).flow k) + value v (comp (F q).flow k) : Nat) : Rat) := by rw [a]
      have b' : ((value v (comp (F q').flow k) * 2 : Nat) : Rat) = ((value v (comp (F p).flow k) + value v (comp (F q).flow k) : Nat) : Rat) := by rw [b]
      push_cast at a' b'
      exact ⟨fun _ => by linarith, fun _ => by linarith⟩)
  simpa only [readComp_eq (hF _).flow hk] using this

end

section
variable {g : Grid} {C : Nat × Nat → CellVal} {T : Nat × Nat → Tile}

theorem inlets_eq (hg : g.WF) (hi : IntersectionSem g C) {p b : Nat × Nat} {d : Dir} (hp : g.In p) (hb : g.nb p d.opp = some b) :
    inlets g.In (g.linked C) p d = gate ((C p).inp d) 1 := by
  unfold inlets gate
  by_cases h : (C p).inp d = true
  · rw [if_pos h, if_pos ((inflow_iff hg hi hp hb).2 h)]
  · rw [if_neg h, if_neg fun hh => h ((inflow_iff hg hi hp hb).1 hh)]

theorem departs_eq {p f : Nat × Nat} {d : Dir} (hf : g.nb p d = some f) (F : Nat × Nat → Rat) :
    departs (g.linked C) F p f d = gate ((C p).out d) (F f) := by
  unfold departs gate
  by_cases h : (C p).out d = true
  · rw [if_pos h, if_pos ⟨hf, h⟩]
  · rw [if_neg h, if_neg fun hh => h hh.2]

/-- A transported quantity is drawn evenly if the splitters share it. -/
theorem drawn_of_transport {Q : Nat × Nat → List Bool} {U : Dir → Nat × Nat → List Bool} (hg : g.WF) (hT : Lays g C T)
    (hi : IntersectionSem g C) (h : UndergroundSem g C) (hc : TransportSem g C Q U) (hin : InnerSplitters g T) (φ : List Bool → Rat)
    (hs : ∀ p q d p' q', g.In p → SplitterPair g.nb T p q d → g.nb p d = some p' → g.nb q d = some q' →
      ((C p).inp d = true → φ (Q p) * (gate ((C p).inp d) 1 + gate ((C q).inp d) 1) =
        gate ((C p).out d) (φ (Q p')) + gate ((C q).out d) (φ (Q q'))) ∧
      ((C q).inp d = true → φ (Q q) * (gate ((C p).inp d) 1 + gate ((C q).inp d) 1) =
        gate ((C p).out d) (φ (Q p')) + gate ((C q).out d) (φ (Q q')))) :
    Drawn g.In g.nb T (g.linked C) fun p => φ (Q p) := by
  refine ⟨?_, ?_, ?_⟩
  · intro p q d hp ⟨hq, ho⟩ hns
    rw [hc.surface d p q hp hq ho ((hT p hp).isSplitter_false hns)]
  · intro p q d k hp hpair
    rw [transport_under hg hT h hc hp hpair]
  · intro p q d p' q' hp hq hpair hp' hq' r hr hfed
    obtain ⟨_, a2⟩ := hin p d true hp hpair.1
    obtain ⟨_, b2⟩ := hin q d false hq hpair.2.2
    obtain ⟨x, hx⟩ := Option.ne_none_iff_exists'.1 a2
    obtain ⟨y, hy⟩ := Option.ne_none_iff_exists'.1 b2
    rw [inlets_eq hg hi hp hx, inlets_eq hg hi hq hy, departs_eq hp', departs_eq hq']
    obtain ⟨k1, k2⟩ := hs p q d p' q' hp hpair hp' hq'
    rcases hr with rfl | rfl
    · exact k1 ((inflow_iff hg hi hp hx).1 hfed)
    · exact k2 ((inflow_iff hg hi hq hy).1 hfed)

end

section
variable {g : Grid} {F B : Nat × Nat → FlowLits} {m n bits cb : Nat} {v : Asg} {T : Nat × Nat → Tile}

theorem NToMSem.drawn (hg : g.WF) (hB : ∀ p, (B p).Shape n bits cb) (hs : NToMSem g F B m n v)
    (hi : IntersectionSem g (g.vals v)) (hl : Lays g (g.vals v) T) (hin : InnerSplitters g T) {k : Nat} (hk : k < n) :
    Drawn g.In g.nb T (g.linked (g.vals v)) fun p => (value v (comp (B p).flow k) : Nat) := by
  have := drawn_of_transport hg hl hi hs.under hs.transB hin (readComp bits k) (by
    intro p q d p' q' hp hpair hp' hq'
    have hq := Grid.nb_in hg hpair.2.1
    obtain ⟨hm, f1, f2⟩ := hs.ends_of hl hp hq hpair hp' hq'
    simp only [readComp_eq (hB _).flow hk]
    obtain ⟨h1, h2, h3, h4, h5, h6⟩ := hm
    generalize (g.vals v p).inp d = ip at *
    generalize (g.vals v q).inp d = iq at *
    generalize (g.vals v p).out d = op at *
    generalize (g.vals v q).out d = oq at *
    cases ip <;> cases iq <;> cases op <;> cases oq <;> simp at f1 f2 h1 <;> simp only [gate, if_true, if_false, Bool.false_eq_true]
    · have a := (h4 rfl rfl rfl).2 k hk
      exact ⟨fun h => (by cases h), fun _ => by rw [a]; push_cast; ring⟩
    · have a := (h3 rfl rfl rfl).2 k hk
      exact ⟨fun _ => by rw [a]; push_cast; ring, fun h => (by cases h)⟩
    · obtain ⟨a, b⟩ := (h6 rfl rfl rfl).2 k hk
      have a' := congrArg (Nat.cast (R := Rat)) a
      have b' := congrArg (Nat.cast (R := Rat)) b
      push_cast at a' b'
      exact ⟨fun _ => by linarith, fun _ => by linarith⟩
    · obtain ⟨a, b⟩ := (h5 rfl rfl rfl).2 k hk
      have a' := congrArg (Nat.cast (R := Rat)) a
      have b' := congrArg (Nat.cast (R := Rat)) b
      push_cast at a' b'
      exact ⟨fun _ => by linarith, fun _ => by linarith⟩
    · obtain ⟨a, b⟩ := (h2 rfl rfl rfl rfl).2 k hk
      have a' := congrArg (Nat.cast (R := Rat)) a
      have b' := congrArg (Nat.cast (R := Rat)) b
      push_cast at a' b'
      exact ⟨fun _ => by linarith, fun _ => by linarith⟩)
  simpa only [readComp_eq (hB _).flow hk] using this

end

/-! ### The function does not raise -/

theorem splitOne_total {k : Nat} {inF out0 out1 : List Lit} (h : inF.length = k + 1) (h0 : out0.length = k + 1) (h1 : out1.length = k + 1) :
    ∃ c, splitOne inF out0 out1 = .ok c := by
  cases inF with
  | nil => cases h
  | cons a as =>
    simp only [List.length_cons, Nat.add_right_cancel_iff] at h
    have n0 : out0 ≠ [] := by rintro rfl; cases h0
    have n1 : out1 ≠ [] := by rintro rfl; cases h1
    obtain ⟨c0, k0, _⟩ := c07_set_numbers_equal as out0.dropLast (by simp [h0, h])
    obtain ⟨c1, k1, _⟩ := c07_set_numbers_equal as out1.dropLast (by simp [h1, h])
    exact ⟨_, by simp only [splitOne, List.getLast?_eq_getLast_of_ne_nil n0, List.getLast?_eq_getLast_of_ne_nil n1, k0, k1]; rfl⟩

theorem splitAll_total {n bits : Nat} {pre : List Lit} {inF out0 out1 : List (List Lit)} (h0 : Arrayed n bits inF)
    (h1 : Arrayed n bits out0) (h2 : Arrayed n bits out1) (hb : 0 < bits) : ∃ c, splitAll pre inF out0 out1 = .ok c := by
  refine concatE_total fun ⟨a, b, c⟩ hm => impliesE_total ?_
  have m1 := (List.of_mem_zip hm)
  have m2 := (List.of_mem_zip m1.2)
  exact splitOne_total (k := bits - 1) (by rw [h0.2 _ m1.1]; omega) (by rw [h1.2 _ m2.1]; omega) (by rw [h2.2 _ m2.2]; omega)

theorem mergeAll_total {n bits : Nat} {pre : List Lit} {in0 in1 outF carry : List (List Lit)} (h0 : Arrayed n bits in0)
    (h1 : Arrayed n bits in1) (h2 : Arrayed n bits outF) (h3 : Arrayed n bits carry) (hb : 0 < bits) :
    ∃ c, mergeAll pre in0 in1 outF carry = .ok c := by
  refine concatE_total fun ⟨a, b, c, d⟩ hm => impliesE_total ?_
  have m1 := (List.of_mem_zip hm)
  have m2 := (List.of_mem_zip m1.2)
  have m3 := (List.of_mem_zip m2.2)
  have l0 := h0.2 _ m1.1
  have l1 := h1.2 _ m2.1
  have l2 := h2.2 _ m3.1
  have l3 := h3.2 _ m3.2
  obtain ⟨cl, s', e⟩ := addNumbers_fixed (a := a) (b := b) (out := c) (cin := none) (s := d) (by omega)
    (.inl (by rintro rfl; simp at l0; omega)) (by omega) (.inl (by omega))
  exact ⟨cl, by simp only [mergeOne, e]⟩

theorem topBits_total {n bits : Nat} (hb : 0 < bits) : ∀ {l : List (List Lit)}, Arrayed n bits l → ∃ t, topBits l = .ok t := by
  intro l
  induction l generalizing n with
  | nil => exact fun _ => ⟨[], rfl⟩
  | cons c cs ih =>
    rintro ⟨rfl, h⟩
    obtain ⟨t, e⟩ := ih (n := cs.length) ⟨rfl, fun c hc => h c (by simp [hc])⟩
    have hne : c ≠ [] := by
      have := h c (by simp)
      rintro rfl; simp at this; omega
    exact ⟨c.getLast hne :: t, by simp only [topBits, List.getLast?_eq_getLast_of_ne_nil hne, e]⟩

theorem nToM_total {g : Grid} (hg : g.WF) {F B : Nat × Nat → FlowLits} {m n : Nat} (hm : 0 < m) (hn : 0 < n)
    (hF : ∀ p, (F p).Shape m (maxBeltFlow m n).size (maxBeltFlow m n).size) (hB : ∀ p, (B p).Shape n (maxBeltFlow m n).size (maxBeltFlow m n).size) :
    ∃ cs, nToMClauses g F B m n = .ok cs := by
  have hfull : maxBeltFlow m n < 2 ^ (maxBeltFlow m n).size := Nat.lt_size_self _
  have hbits : 0 < (maxBeltFlow m n).size := Nat.size_pos.2 (maxBeltFlow_pos hm hn)
  have hle : (nToMFlows m n).1 ≤ maxBeltFlow m n ∧ (nToMFlows m n).2.1 ≤ maxBeltFlow m n ∧ (nToMFlows m n).2.2.1 ≤ maxBeltFlow m n ∧
      (nToMFlows m n).2.2.2 ≤ maxBeltFlow m n := by
    have h1 : (nToMFlows m n).1 ≤ maxBeltFlow m n :=
      Nat.div_le_of_le_mul (by rw [Nat.mul_comm]; exact Nat.mul_le_mul (Nat.min_le_left _ _) (Nat.le_refl _))
    have h2 : (nToMFlows m n).2.2.1 ≤ maxBeltFlow m n :=
      Nat.div_le_of_le_mul (by rw [Nat.mul_comm]; exact Nat.mul_le_mul (Nat.min_le_right _ _) (Nat.le_refl _))
    exact ⟨h1, (Nat.div_le_self _ _).trans h1, h2, (Nat.div_le_self _ _).trans h2⟩
  unfold nToMClauses
  generalize nToMFlows m n = fl at *
  obtain ⟨fIn, fOut, bIn, bOut⟩ := fl
  obtain ⟨l1, l2, l3, l4⟩ := hle
  refine joinE_total ?_
  simp only [List.mem_cons, List.not_mem_nil, or_false, forall_eq_or_imp, forall_eq]
  refine ⟨?_, ⟨_, rfl⟩, ⟨_, rfl⟩, ?_, ?_, ?_, ?_, ⟨_, rfl⟩, ?_, ?_, ⟨_, rfl⟩, ?_, ?_⟩
  · obtain ⟨c, e, _⟩ := init_iff hg; exact ⟨c, e⟩
  · refine concatE_total fun p _ => ?_
    obtain ⟨t1, e1⟩ := topBits_total hbits (hF p).flow
    obtain ⟨t2, e2⟩ := topBits_total hbits (hB p).flow
    unfold nToMTile
    rw [e1, e2]
    refine joinE_total ?_
    simp only [List.mem_cons, List.not_mem_nil, or_false, forall_eq_or_imp, forall_eq]
    refine ⟨concatE_total fun c hc => setMaximum_total ?_, _, rfl⟩
    rcases List.mem_append.1 hc with hc | hc
    · rw [(hF p).flow.2 c hc]; exact hfull
    · rw [(hB p).flow.2 c hc]; exact hfull
  · obtain ⟨c, e, _⟩ := transport_iff (g := g) (n := m * (maxBeltFlow m n).size) (q := fun p => (F p).flow.flatten)
      (qux := fun p => (F p).ux.flatten) (quy := fun p => (F p).uy.flatten) (fun p => (hF p).flow.flatten_length)
      (fun p => (hF p).ux.flatten_length) (fun p => (hF p).uy.flatten_length)
    exact ⟨c, e⟩
  · obtain ⟨c, e, _⟩ := transport_iff (g := g) (n := n * (maxBeltFlow m n).size) (q := fun p => (B p).flow.flatten)
      (qux := fun p => (B p).ux.flatten) (quy := fun p => (B p).uy.flatten) (fun p => (hB p).flow.flatten_length)
      (fun p => (hB p).ux.flatten_length) (fun p => (hB p).uy.flatten_length)
    exact ⟨c, e⟩
  · refine concatE_total fun p _ => concatE_total fun d _ => ?_
    unfold nToMCell
    split
    · have hpart : ∀ p00 p10 p01 p11 c c' u, ∃ cl, nToMPartial g F B d p00 p10 p01 p11 c c' u = .ok cl := by
        intro p00 p10 p01 p11 c c' u
        refine joinE_total ?_
        simp only [List.mem_cons, List.not_mem_nil, or_false, forall_eq_or_imp, forall_eq]
        exact ⟨splitAll_total (hF _).flow (hF _).flow (hF _).flow hbits, mergeAll_total (hB _).flow (hB _).flow (hB _).flow (hB _).carry hbits,
          mergeAll_total (hF _).flow (hF _).flow (hF _).flow (hF _).carry hbits, splitAll_total (hB _).flow (hB _).flow (hB _).flow hbits⟩
      refine joinE_total ?_
      simp only [List.mem_cons, List.not_mem_nil, or_false, forall_eq_or_imp, forall_eq]
      exact ⟨⟨_, rfl⟩, halveAll_total (hF _).flow (hF _).flow (hF _).flow (hF _).flow (hF _).carry (.inr hbits) (Nat.sub_le _ _),
        halveAll_total (hB _).flow (hB _).flow (hB _).flow (hB _).flow (hB _).carry (.inr hbits) (Nat.sub_le _ _), ⟨_, rfl⟩,
        hpart _ _ _ _ _ _ _, hpart _ _ _ _ _ _ _⟩
    · exact ⟨_, rfl⟩
  · refine columnFlow_total (fun p => (hF p).flow) fun y i _ => ?_
    split
    · exact Nat.lt_of_le_of_lt l1 hfull
    · exact Nat.pow_pos (by decide)
  · exact columnFlow_total (fun p => (hB p).flow) fun y i _ => Nat.lt_of_le_of_lt l4 hfull
  · exact columnFlow_total (fun p => (hF p).flow) fun y i _ => Nat.lt_of_le_of_lt l2 hfull
  · refine columnFlow_total (fun p => (hB p).flow) fun y i _ => ?_
    split
    · exact Nat.lt_of_le_of_lt l3 hfull
    · exact Nat.pow_pos (by decide)

end FSat
