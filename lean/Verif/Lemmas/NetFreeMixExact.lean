import Verif.Lemmas.NetFreeExact
import Verif.Lemmas.BalancerMain
/-!
Every layout with suitable flows satisfies the clauses of the balancers with different numbers of inputs and outputs.
-/

set_option linter.unusedSimpArgs false

namespace FSat

/-! ### The highest bits -/

theorem getLast_value {v : Asg} {l : List Lit} {o : Lit} (h : l.getLast? = some o) : ev v o = true ↔ 2 ^ (l.length - 1) ≤ value v l := by
  have e := List.dropLast_append_getLast? o h
  have hlt : value v l.dropLast < 2 ^ (l.length - 1) := by
    have := binVal_lt (l.dropLast.map (ev v))
    simpa [value] using this
  have e2 : value v l = value v l.dropLast + 2 ^ (l.length - 1) * bit (ev v o) := by
    conv_lhs => rw [← e]
    rw [value_append, value_cons]
    simp [value]
  rw [e2]
  cases ev v o <;> simp [bit] <;> omega

theorem topBits_get {n bits : Nat} {v : Asg} : ∀ {l : List (List Lit)} {t : List Lit}, topBits l = .ok t → Arrayed n bits l →
    t.length = n ∧ ∀ i < n, ((t.map (ev v)).getD i false = true ↔ 2 ^ (bits - 1) ≤ value v (comp l i)) := by
  intro l
  induction l generalizing n with
  | nil =>
    intro t h ha
    cases h
    obtain ⟨rfl, _⟩ := ha
    exact ⟨rfl, fun i hi => absurd hi (Nat.not_lt_zero _)⟩
  | cons c cs ih =>
    intro t h ha
    obtain ⟨rfl, ha⟩ := ha
    unfold topBits at h
    split at h
    · rename_i o ls e1 e2
      cases h
      obtain ⟨k1, k2⟩ := ih (n := cs.length) e2 ⟨rfl, fun c hc => ha c (by simp [hc])⟩
      refine ⟨by simp [k1], fun i hi => ?_⟩
      cases i with
      | zero =>
        have := getLast_value (v := v) e1
        rw [ha c (by simp)] at this
        simpa [comp] using this
      | succ i => simpa [comp] using k2 i (by simpa using hi)
    · cases h
    · cases h

theorem amo_iff {v : Asg} {t : List Lit} : countTrue v t ≤ 1 ↔
    ∀ i < t.length, ∀ j < t.length, i ≠ j → ¬ ((t.map (ev v)).getD i false = true ∧ (t.map (ev v)).getD j false = true) := by
  induction t with
  | nil => simp [countTrue, trues]
  | cons a t ih =>
    have hc : countTrue v (a :: t) = (if ev v a = true then 1 else 0) + countTrue v t := by
      simp only [countTrue, trues, List.map_cons, List.count_cons]
      cases ev v a <;> simp [Nat.add_comm]
    have h0 : countTrue v t = 0 ↔ ∀ i < t.length, (t.map (ev v)).getD i false ≠ true := by
      simp only [countTrue, trues]
      rw [List.count_eq_zero]
      constructor
      · intro h i hi he
        apply h
        rw [List.getD_eq_getElem?_getD, List.getElem?_eq_getElem (by simpa using hi)] at he
        simp only [Option.getD_some] at he
        rw [← he]
        exact List.getElem_mem _
      · intro h hm
        obtain ⟨i, hi, he⟩ := List.mem_iff_getElem.1 hm
        apply h i (by simpa using hi)
        rw [List.getD_eq_getElem?_getD, List.getElem?_eq_getElem hi]
        exact he
    rw [hc]
    constructor
    · intro h i hi j hj hne
      have hlt : countTrue v t ≤ 1 := by omega
      cases i with
      | zero =>
        cases j with
        | zero => exact absurd rfl hne
        | succ j =>
          rintro ⟨x, y⟩
          have hx : ev v a = true := by simpa using x
          rw [if_pos hx] at h
          exact h0.1 (by omega) j (by simpa using hj) (by simpa using y)
      | succ i =>
        cases j with
        | zero =>
          rintro ⟨x, y⟩
          have hy : ev v a = true := by simpa using y
          rw [if_pos hy] at h
          exact h0.1 (by omega) i (by simpa using hi) (by simpa using x)
        | succ j =>
          have := ih.1 hlt i (by simpa using hi) j (by simpa using hj) (by simpa using hne)
          simpa using this
    · intro h
      by_cases ha : ev v a = true
      · rw [if_pos ha]
        have : countTrue v t = 0 := h0.2 fun i hi he => h 0 (by simp) (i + 1) (by simpa using hi) (by simp) ⟨by simpa using ha, by simpa using he⟩
        omega
      · rw [if_neg ha, Nat.zero_add]
        exact ih.2 fun i hi j hj hne hh => h (i + 1) (by simpa using hi) (j + 1) (by simpa using hj) (by simpa using hne) (by simpa using hh)

theorem topBits_amo {n bits : Nat} {v : Asg} {l : List (List Lit)} {t : List Lit} (h : topBits l = .ok t) (ha : Arrayed n bits l) :
    Sat v (quadraticAmo t) ↔ ∀ i < n, ∀ j < n, i ≠ j → ¬ (2 ^ (bits - 1) ≤ value v (comp l i) ∧ 2 ^ (bits - 1) ≤ value v (comp l j)) := by
  obtain ⟨h1, h2⟩ := topBits_get (v := v) h ha
  rw [quadraticAmo_iff, amo_iff, h1]
  constructor
  · intro k i hi j hj hne ⟨x, y⟩
    exact k i hi j hj hne ⟨(h2 i hi).2 x, (h2 j hj).2 y⟩
  · intro k i hi j hj hne ⟨x, y⟩
    exact k i hi j hj hne ⟨(h2 i hi).1 x, (h2 j hj).1 y⟩

/-! ### What else the clauses say -/

/-- The two groups of clauses that restrict the flows further. -/
structure NToMMore (g : Grid) (F B : Nat × Nat → FlowLits) (m n bits : Nat) (v : Asg) : Prop where
  topF : ∀ p, g.In p → ∀ i < m, ∀ j < m, i ≠ j →
    ¬ (2 ^ (bits - 1) ≤ value v (comp (F p).flow i) ∧ 2 ^ (bits - 1) ≤ value v (comp (F p).flow j))
  topB : ∀ p, g.In p → ∀ i < n, ∀ j < n, i ≠ j →
    ¬ (2 ^ (bits - 1) ≤ value v (comp (B p).flow i) ∧ 2 ^ (bits - 1) ≤ value v (comp (B p).flow j))
  diff : ∀ p d p10 p01 p11, g.In p → g.nb p d = some p10 → g.nb p d.ccw = some p01 → g.nb p01 d = some p11 →
    (g.vals v p).isHead = true → (g.vals v p).inp d = true → (g.vals v p01).inp d = true → (g.vals v p).out d = true →
    (g.vals v p01).out d = true →
    ((F p).flow.flatten ++ (B p).flow.flatten).map (ev v) ≠ ((F p01).flow.flatten ++ (B p01).flow.flatten).map (ev v)

theorem nToM_more {g : Grid} (hg : g.WF) {F B : Nat × Nat → FlowLits} {m n bits cb : Nat} (hF : ∀ p, (F p).Shape m bits cb)
    (hB : ∀ p, (B p).Shape n bits cb) {cs : Cnf} (h : nToMClauses g F B m n = .ok cs) {v : Asg} (hv : Sat v cs) :
    NToMMore g F B m n bits v := by
  unfold nToMClauses at h
  have H := joinE_sat h hv
  simp only [List.mem_cons, List.not_mem_nil, or_false, forall_eq_or_imp, forall_eq] at H
  obtain ⟨-, -, -, ⟨c4, e4, s4⟩, -, -, ⟨c6, e6, s6⟩, -⟩ := H
  have htop : ∀ p, g.In p → ∃ f b, topBits (F p).flow = .ok f ∧ topBits (B p).flow = .ok b ∧ Sat v (quadraticAmo f) ∧ Sat v (quadraticAmo b) := by
    intro p hp
    obtain ⟨c', e, s⟩ := concatE_sat e4 s4 p ((g.mem_cells p).2 hp)
    unfold nToMTile at e
    split at e
    · rename_i f b ef eb
      obtain ⟨c'', e', s'⟩ := joinE_sat e s (.ok (quadraticAmo f ++ quadraticAmo b)) (by simp)
      cases e'
      rw [Sat_append] at s'
      exact ⟨f, b, ef, eb, s'⟩
    · cases e
    · cases e
  refine ⟨fun p hp => ?_, fun p hp => ?_, ?_⟩
  · obtain ⟨f, b, ef, eb, k1, k2⟩ := htop p hp
    exact (topBits_amo ef (hF p).flow).1 k1
  · obtain ⟨f, b, ef, eb, k1, k2⟩ := htop p hp
    exact (topBits_amo eb (hB p).flow).1 k2
  · intro p d p10 p01 p11 hp h10 h01 h11 hh f1 f2 f3 f4
    obtain ⟨c, e, s⟩ := concatE_sat e6 s6 p ((g.mem_cells p).2 hp)
    obtain ⟨c', e', s'⟩ := concatE_sat e s d (by cases d <;> simp [Dir.all])
    have hoff : g.offset p (d.dx + d.next.dx) (d.dy + d.next.dy) = some p11 := by
      rw [Dir.next_eq, Grid.offset_corner1 hg hp d.across_ccw, Grid.nb_comm hg hp d.across_ccw, h01]
      exact h11
    unfold nToMCell at e'
    rw [Dir.next_eq] at e' hoff
    rw [h10, h01, hoff] at e'
    simp only at e'
    have H := joinE_sat e' s'
    simp only [List.mem_cons, List.not_mem_nil, or_false, forall_eq_or_imp, forall_eq] at H
    obtain ⟨-, -, -, ⟨d4, x4, y4⟩, -, -⟩ := H
    cases x4
    refine diff_sound y4 ?_ ?_ ?_
    · simp only [List.mem_cons, List.not_mem_nil, or_false, forall_eq_or_imp, forall_eq]
      exact ⟨hh, f1, f2, f3, f4⟩
    · simp only [List.length_append, (hF p).flow.flatten_length, (hF p).diff.flatten_length, (hB p).flow.flatten_length, (hB p).diff.flatten_length]
    · simp only [List.length_append, (hF p01).flow.flatten_length, (hF p).diff.flatten_length, (hB p01).flow.flatten_length, (hB p).diff.flatten_length]

/-! ### Completeness -/

theorem nToM_fill {g : Grid} (hg : g.WF) {F B : Nat × Nat → FlowLits} {m n bits : Nat} (hF : ∀ p, (F p).Shape m bits bits)
    (hB : ∀ p, (B p).Shape n bits bits) {cs : Cnf} (h : nToMClauses g F B m n = .ok cs) {v : Asg} (hs : NToMSem g F B m n v)
    (hm : NToMMore g F B m n bits v)
    (hx : ∀ p d p10 p01 p11, g.In p → g.nb p d = some p10 → g.nb p d.ccw = some p01 → g.nb p01 d = some p11 →
      (g.vals v p).isHead = true →
      ((g.vals v p).inp d = true → (g.vals v p01).inp d = true → (g.vals v p).out d = true → (g.vals v p01).out d = true →
        (∀ i < m, ((comp (F p).carry i).map (ev v)).take (bits - 1) =
          halfCarries ((comp (F p).flow i).map (ev v)) ((comp (F p01).flow i).map (ev v))) ∧
        (∀ i < n, ((comp (B p).carry i).map (ev v)).take (bits - 1) =
          halfCarries ((comp (B p10).flow i).map (ev v)) ((comp (B p11).flow i).map (ev v))) ∧
        ((F p).diff.flatten ++ (B p).diff.flatten).map (ev v) = List.zipWith xor (((F p).flow.flatten ++ (B p).flow.flatten).map (ev v))
          (((F p01).flow.flatten ++ (B p01).flow.flatten).map (ev v))) ∧
      (((g.vals v p).inp d = true ∨ (g.vals v p).out d = true) →
        ¬ ((g.vals v p).inp d = true ∧ (g.vals v p01).inp d = true ∧ (g.vals v p).out d = true ∧ (g.vals v p01).out d = true) →
        (∀ i < m, ((comp (F p).carry i).map (ev v)).take bits =
          carries ((comp (F p).flow i).map (ev v)) ((comp (F p01).flow i).map (ev v)) false) ∧
        (∀ i < n, ((comp (B p).carry i).map (ev v)).take bits =
          carries ((comp (B p10).flow i).map (ev v)) ((comp (B p11).flow i).map (ev v)) false))) : Sat v cs := by
  unfold nToMClauses at h
  refine joinE_fill h ?_
  simp only [List.mem_cons, List.not_mem_nil, or_false, forall_eq_or_imp, forall_eq]
  refine ⟨fun c hc => ?_, fun c hc => ?_, fun c hc => ?_, fun c hc => ?_, fun c hc => ?_, fun c hc => ?_, fun c hc => ?_, fun c hc => ?_,
    fun c hc => ?_, fun c hc => ?_, fun c hc => ?_, fun c hc => ?_, fun c hc => ?_⟩
  · obtain ⟨ci, e, s⟩ := init_iff hg
    rw [e] at hc; cases hc
    exact (s v).2 hs.init
  · cases hc; exact (Sat_blockUg hg _ v).2 hs.shut
  · cases hc; exact (Sat_underground g v).2 hs.under
  · refine concatE_fill hc fun p hp c' hc' => ?_
    rw [g.mem_cells] at hp
    unfold nToMTile at hc'
    split at hc'
    · rename_i f b ef eb
      refine joinE_fill hc' ?_
      simp only [List.mem_cons, List.not_mem_nil, or_false, forall_eq_or_imp, forall_eq]
      refine ⟨fun c'' h'' => concatE_fill h'' fun l hl c3 h3 => ?_, fun c'' h'' => ?_⟩
      · have key : ∀ {k : Nat} {G : FlowLits}, G.Shape k bits bits → (∀ i < k, value v (comp G.flow i) ≤ maxBeltFlow m n) → l ∈ G.flow → Sat v c3 := by
          intro k G hG hle hl
          obtain ⟨i, hi, rfl⟩ := List.mem_iff_getElem.1 hl
          have e : G.flow[i] = comp G.flow i := by
            rw [comp, List.getD_eq_getElem?_getD, List.getElem?_eq_getElem hi]; rfl
          rw [e] at h3
          exact setMaximum_fill h3 (hle i (by rw [← hG.flow.1]; exact hi))
        rcases List.mem_append.1 hl with hl | hl
        · exact key (hF p) (hs.leF p hp) hl
        · exact key (hB p) (hs.leB p hp) hl
      · cases h''
        rw [Sat_append]
        exact ⟨(topBits_amo ef (hF p).flow).2 (hm.topF p hp), (topBits_amo eb (hB p).flow).2 (hm.topB p hp)⟩
    · cases hc'
    · cases hc'
  · obtain ⟨c', e, s⟩ := transport_iff (g := g) (n := m * bits) (q := fun p => (F p).flow.flatten)
      (qux := fun p => (F p).ux.flatten) (quy := fun p => (F p).uy.flatten) (fun p => (hF p).flow.flatten_length)
      (fun p => (hF p).ux.flatten_length) (fun p => (hF p).uy.flatten_length)
    rw [e] at hc; cases hc
    exact (s v).2 hs.transF
  · obtain ⟨c', e, s⟩ := transport_iff (g := g) (n := n * bits) (q := fun p => (B p).flow.flatten)
      (qux := fun p => (B p).ux.flatten) (quy := fun p => (B p).uy.flatten) (fun p => (hB p).flow.flatten_length)
      (fun p => (hB p).ux.flatten_length) (fun p => (hB p).uy.flatten_length)
    rw [e] at hc; cases hc
    exact (s v).2 hs.transB
  · refine concatE_fill hc fun p hp c' hc' => concatE_fill hc' fun d _ c'' h'' => ?_
    rw [g.mem_cells] at hp
    unfold nToMCell at h''
    rw [Dir.next_eq] at h''
    cases h10 : g.nb p d with
    | none => rw [h10] at h''; cases h''; exact (Sat_nil v).2 trivial
    | some p10 =>
    cases h01 : g.nb p d.ccw with
    | none => rw [h10, h01] at h''; cases h''; exact (Sat_nil v).2 trivial
    | some p01 =>
    cases h11 : g.offset p (d.dx + d.ccw.dx) (d.dy + d.ccw.dy) with
    | none => rw [h10, h01, h11] at h''; cases h''; exact (Sat_nil v).2 trivial
    | some p11 =>
    rw [h10, h01, h11] at h''
    have hn : g.nb p01 d = some p11 := by
      rw [Grid.offset_corner1 hg hp d.across_ccw, Grid.nb_comm hg hp d.across_ccw, h01] at h11
      exact h11
    have hsem := hs.ends p d p10 p01 p11 hp h10 h01 hn
    have hx' := hx p d p10 p01 p11 hp h10 h01 hn
    have hd' := hm.diff p d p10 p01 p11 hp h10 h01 hn
    have hpart : ∀ {c c' u : Nat × Nat} {cl : Cnf}, nToMPartial g F B d p p10 p01 p11 c c' u = .ok cl →
        (c = p ∧ c' = p10 ∧ u = p01 ∨ c = p01 ∧ c' = p11 ∧ u = p) → Sat v cl := by
      intro c c' u cl e hcase
      unfold nToMPartial at e
      refine joinE_fill e ?_
      simp only [List.mem_cons, List.not_mem_nil, or_false, forall_eq_or_imp, forall_eq]
      refine ⟨fun c3 h3 => ?_, fun c3 h3 => ?_, fun c3 h3 => ?_, fun c3 h3 => ?_⟩
      · refine splitAll_fill h3 (hF _).flow (hF _).flow (hF _).flow fun hpre i hi => ?_
        simp only [List.mem_cons, List.not_mem_nil, or_false, forall_eq_or_imp, forall_eq, ev_neg, Bool.not_eq_true'] at hpre
        obtain ⟨a1, a2, a3, a4⟩ := hpre
        rcases hcase with ⟨rfl, rfl, rfl⟩ | ⟨rfl, rfl, rfl⟩
        · obtain ⟨b1, b2⟩ := ((hsem a1).inP a2 a3 a4).1 i hi; exact ⟨b1.symm, b2.symm⟩
        · obtain ⟨b1, b2⟩ := ((hsem a1).inQ a2 a3 a4).1 i hi; exact ⟨b1.symm, b2.symm⟩
      · refine mergeAll_fill h3 (hB _).flow (hB _).flow (hB _).flow (hB _).carry fun hpre i hi => ?_
        simp only [List.mem_cons, List.not_mem_nil, or_false, forall_eq_or_imp, forall_eq, ev_neg, Bool.not_eq_true'] at hpre
        obtain ⟨a1, a2, a3, a4⟩ := hpre
        have a4' : (g.vals v u).inp d = false := a4
        rcases hcase with ⟨rfl, rfl, rfl⟩ | ⟨rfl, rfl, rfl⟩
        · exact ⟨((hsem a1).inP a2 a3 a4).2 i hi, ((hx' a1).2 (.inr a2) fun hh => by rw [hh.2.1] at a4'; cases a4').2 i hi⟩
        · exact ⟨((hsem a1).inQ a2 a3 a4).2 i hi, ((hx' a1).2 (.inr a2) fun hh => by rw [hh.1] at a4'; cases a4').2 i hi⟩
      · refine mergeAll_fill h3 (hF _).flow (hF _).flow (hF _).flow (hF _).carry fun hpre i hi => ?_
        simp only [List.mem_cons, List.not_mem_nil, or_false, forall_eq_or_imp, forall_eq, ev_neg, Bool.not_eq_true'] at hpre
        obtain ⟨a1, a2, a3, a4⟩ := hpre
        have a4' : (g.vals v u).out d = false := a4
        rcases hcase with ⟨rfl, rfl, rfl⟩ | ⟨rfl, rfl, rfl⟩
        · exact ⟨((hsem a1).outP a2 a3 a4).1 i hi, ((hx' a1).2 (.inl a2) fun hh => by rw [hh.2.2.2] at a4'; cases a4').1 i hi⟩
        · exact ⟨((hsem a1).outQ a2 a3 a4).1 i hi, ((hx' a1).2 (.inl a2) fun hh => by rw [hh.2.2.1] at a4'; cases a4').1 i hi⟩
      · refine splitAll_fill h3 (hB _).flow (hB _).flow (hB _).flow fun hpre i hi => ?_
        simp only [List.mem_cons, List.not_mem_nil, or_false, forall_eq_or_imp, forall_eq, ev_neg, Bool.not_eq_true'] at hpre
        obtain ⟨a1, a2, a3, a4⟩ := hpre
        rcases hcase with ⟨rfl, rfl, rfl⟩ | ⟨rfl, rfl, rfl⟩
        · obtain ⟨b1, b2⟩ := ((hsem a1).outP a2 a3 a4).2 i hi; exact ⟨b1.symm, b2.symm⟩
        · obtain ⟨b1, b2⟩ := ((hsem a1).outQ a2 a3 a4).2 i hi; exact ⟨b1.symm, b2.symm⟩
    refine joinE_fill h'' ?_
    simp only [List.mem_cons, List.not_mem_nil, or_false, forall_eq_or_imp, forall_eq]
    refine ⟨fun c3 h3 => ?_, fun c3 h3 => ?_, fun c3 h3 => ?_, fun c3 h3 => ?_, fun c3 h3 => hpart h3 (.inl ⟨rfl, rfl, rfl⟩),
      fun c3 h3 => hpart h3 (.inr ⟨rfl, rfl, rfl⟩)⟩
    · cases h3
      by_cases hh : (g.vals v p).isHead = true
      · obtain ⟨t1, t2, t3, t4⟩ := (hsem hh).three
        simp only [nToMHalves, Sat_cons, Sat_nil, SatC_cons, SatC_nil, or_false, ev_neg, and_true, Bool.not_eq_true']
        refine ⟨?_, ?_, ?_, ?_⟩ <;> right
        · by_cases k : (g.vals v p).inp d = true
          · exact .inr (t1 k)
          · exact .inl (Bool.eq_false_iff.2 k)
        · by_cases k : (g.vals v p).inp d = true
          · exact .inr (t2 k)
          · exact .inl (Bool.eq_false_iff.2 k)
        · by_cases k : (g.vals v p).out d = true
          · exact .inr (t3 k)
          · exact .inl (Bool.eq_false_iff.2 k)
        · by_cases k : (g.vals v p).out d = true
          · exact .inr (t4 k)
          · exact .inl (Bool.eq_false_iff.2 k)
      · have : ev v (g.at' p).isHead = false := Bool.eq_false_iff.2 hh
        simp only [nToMHalves, Sat_cons, Sat_nil, SatC_cons, SatC_nil, or_false, ev_neg, and_true, Bool.not_eq_true', this, true_or]
    · refine halveAll_fill h3 (hF _).flow (hF _).flow (hF _).flow (hF _).flow (hF _).carry fun hpre i hi => ?_
      simp only [List.mem_cons, List.not_mem_nil, or_false, forall_eq_or_imp, forall_eq] at hpre
      obtain ⟨a1, a2, a3, a4, a5⟩ := hpre
      obtain ⟨k1, k2⟩ := ((hsem a1).full a2 a3 a4 a5).1 i hi
      exact ⟨k1, k2, ((hx' a1).1 a2 a3 a4 a5).1 i hi⟩
    · refine halveAll_fill h3 (hB _).flow (hB _).flow (hB _).flow (hB _).flow (hB _).carry fun hpre i hi => ?_
      simp only [List.mem_cons, List.not_mem_nil, or_false, forall_eq_or_imp, forall_eq] at hpre
      obtain ⟨a1, a2, a3, a4, a5⟩ := hpre
      obtain ⟨k1, k2⟩ := ((hsem a1).full a2 a3 a4 a5).2 i hi
      exact ⟨k1, k2, ((hx' a1).1 a2 a3 a4 a5).2.1 i hi⟩
    · cases h3
      refine diff_fill ?_ ?_ fun hpre => ?_
      · simp only [List.length_append, (hF p).flow.flatten_length, (hF p).diff.flatten_length, (hB p).flow.flatten_length, (hB p).diff.flatten_length]
      · simp only [List.length_append, (hF p01).flow.flatten_length, (hF p).diff.flatten_length, (hB p01).flow.flatten_length, (hB p).diff.flatten_length]
      · simp only [List.mem_cons, List.not_mem_nil, or_false, forall_eq_or_imp, forall_eq] at hpre
        obtain ⟨a1, a2, a3, a4, a5⟩ := hpre
        exact ⟨((hx' a1).1 a2 a3 a4 a5).2.2, hd' a1 a2 a3 a4 a5⟩
  · cases hc; exact columnNoSplitter_fill fun y hy => (hs.first y hy).1
  · exact columnFlow_fill hc (fun p => (hF p).flow) fun y hy => (hs.first y hy).2.1
  · exact columnFlow_fill hc (fun p => (hB p).flow) fun y hy => (hs.first y hy).2.2
  · cases hc; exact columnNoSplitter_fill fun y hy => (hs.last y hy).1
  · exact columnFlow_fill hc (fun p => (hF p).flow) fun y hy => (hs.last y hy).2.1
  · exact columnFlow_fill hc (fun p => (hB p).flow) fun y hy => (hs.last y hy).2.2

end FSat
