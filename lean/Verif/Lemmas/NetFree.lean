import Verif.Model.NetFree
import Verif.Lemmas.LayoutFlow
import Mathlib.Tactic.Ring
import Mathlib.Data.Nat.ModEq
/-!
What the clauses of the net-free balancers say.
-/

set_option linter.unusedSimpArgs false

namespace FSat

/-! ### Shapes -/

theorem block_mod {i k k' n : Nat} (h : (i + k) % n = (i + k') % n) (hk' : k' < n) (hk : k < n) : k = k' := by
  have h1 := Nat.ModEq.add_left_cancel' (n := n) i h
  exact Nat.ModEq.eq_of_lt_of_lt h1 hk hk'

theorem number_array (n bits s : Nat) : Arrayed n bits (nestedInst (Tmpl.number bits false).instantiate [n] s).1 := by
  have := repeatInst_all (Tmpl.number bits false).instantiate (fun c : List Lit => c.length = bits) (fun s => by
    simp [Tmpl.instantiate, nextMany_eq]) n s
  exact this

theorem bool_array (n bits s : Nat) : Arrayed n bits (nestedInst Tmpl.bool.instantiate [n, bits] s).1 := by
  have inner : ∀ s, (nestedInst Tmpl.bool.instantiate [bits] s).1.length = bits := fun s =>
    (repeatInst_all (nestedInst Tmpl.bool.instantiate []) (fun _ => True) (fun _ => trivial) bits s).1
  exact repeatInst_all (nestedInst Tmpl.bool.instantiate [bits]) (fun c : List Lit => c.length = bits) inner n s

/-- The members have `n` numbers of `bits` bits, and `cb` carry bits each. -/
structure FlowLits.Shape (n bits cb : Nat) (F : FlowLits) : Prop where
  flow : Arrayed n bits F.flow
  diff : Arrayed n bits F.diff
  carry : Arrayed n cb F.carry
  ux : Arrayed n bits F.ux
  uy : Arrayed n bits F.uy

theorem nToNLits_shape (width n bits : Nat) (p : Nat × Nat) : (nToNLits width n bits p).Shape n bits (bits - 1) :=
  ⟨number_array _ _ _, bool_array _ _ _, bool_array _ _ _, number_array _ _ _, number_array _ _ _⟩

theorem nToMLits_shape (width m n bits : Nat) (p : Nat × Nat) :
    (nToMLits width m n bits p).1.Shape m bits bits ∧ (nToMLits width m n bits p).2.Shape n bits bits :=
  ⟨⟨number_array _ _ _, bool_array _ _ _, bool_array _ _ _, number_array _ _ _, number_array _ _ _⟩,
   ⟨number_array _ _ _, bool_array _ _ _, bool_array _ _ _, number_array _ _ _, number_array _ _ _⟩⟩

/-! ### Numbers -/

theorem value_cons' (v : Asg) (a : Lit) (as : List Lit) : value v (a :: as) = (if ev v a = true then 1 else 0) + 2 * value v as := by
  rw [value_cons]
  cases ev v a <;> simp

theorem halveBoth_sound {in0 in1 out0 out1 carry : List Lit} {c : Cnf} (h : halveBoth in0 in1 out0 out1 carry = .ok c)
    (hl : out0.length = out1.length) {v : Asg} (hv : Sat v c) :
    value v out0 * 2 = value v in0 + value v in1 ∧ value v out1 * 2 = value v in0 + value v in1 := by
  unfold halveBoth at h
  cases in0 with
  | nil => cases h
  | cons a as =>
    cases in1 with
    | nil => cases h
    | cons b bs =>
      simp only at h
      cases e1 : addNumbers fixedAlloc as bs out0 (some a) false carry with
      | error e => rw [e1] at h; cases h
      | ok r =>
        obtain ⟨c1, s1⟩ := r
        obtain ⟨c2, e2, hs2⟩ := c07_set_numbers_equal out0 out1 hl
        rw [e1, e2] at h
        simp only [Except.ok.injEq] at h
        subst h
        simp only [Sat_append, Sat_literalsSame] at hv
        obtain ⟨⟨h1, h2⟩, h3⟩ := hv
        have k1 := c01_add_numbers_any_allocator fixedAlloc as bs out0 (some a) false carry c1 s1 e1 v h1
        have k3 := (hs2 v).1 h3
        have k2 : value v out0 = value v as + value v bs + carryVal v (some a) := by
          rcases k1 with k1 | k1
          · exact k1
          · cases k1.1
        have hc : carryVal v (some a) = if ev v a = true then 1 else 0 := by
          simp only [carryVal]
        rw [value_cons', value_cons', ← h2]
        omega

theorem mem_zip_getD {α β : Type} {l : List α} {l' : List β} (d : α) (d' : β) {i : Nat} (h : i < l.length) (h' : i < l'.length) :
    (l.getD i d, l'.getD i d') ∈ l.zip l' := by
  rw [List.getD_eq_getElem?_getD, List.getD_eq_getElem?_getD, List.getElem?_eq_getElem h, List.getElem?_eq_getElem h']
  have : (l.zip l')[i]'(by simp; omega) = (l[i], l'[i]) := List.getElem_zip
  simp only [Option.getD_some]
  rw [← this]
  exact List.getElem_mem _

theorem zip_getD {α β : Type} {l : List α} {l' : List β} (d : α) (d' : β) {i : Nat} (h : i < l.length) (h' : i < l'.length) :
    (l.zip l').getD i (d, d') = (l.getD i d, l'.getD i d') := by
  rw [List.getD_eq_getElem?_getD, List.getD_eq_getElem?_getD, List.getD_eq_getElem?_getD, List.getElem?_eq_getElem h,
    List.getElem?_eq_getElem h', List.getElem?_eq_getElem (by simp; omega)]
  simp

theorem impliesE_sound {cond : List Lit} {e : Except PyErr Cnf} {c : Cnf} (h : impliesE cond e = .ok c) {v : Asg} (hv : Sat v c)
    (hc : ∀ l ∈ cond, ev v l = true) : ∃ c', e = .ok c' ∧ Sat v c' := by
  cases e with
  | error e => cases h
  | ok c' =>
    simp only [impliesE, Except.ok.injEq] at h
    subst h
    exact ⟨c', rfl, (Sat_implies v cond c').1 hv hc⟩

theorem halveAll_sound {n bits cb : Nat} {pre : List Lit} {in0 in1 out0 out1 carry : List (List Lit)} {c : Cnf}
    (h : halveAll pre in0 in1 out0 out1 carry = .ok c) (h0 : Arrayed n bits in0) (h1 : Arrayed n bits in1) (h2 : Arrayed n bits out0)
    (h3 : Arrayed n bits out1) (h4 : Arrayed n cb carry) {v : Asg} (hv : Sat v c) (hp : ∀ l ∈ pre, ev v l = true) {i : Nat} (hi : i < n) :
    value v (comp out0 i) * 2 = value v (comp in0 i) + value v (comp in1 i) ∧
    value v (comp out1 i) * 2 = value v (comp in0 i) + value v (comp in1 i) := by
  have hm : (comp in0 i, comp in1 i, comp out0 i, comp out1 i, comp carry i) ∈ in0.zip (in1.zip (out0.zip (out1.zip carry))) := by
    have e3 := zip_getD (l := out1) (l' := carry) [] [] (i := i) (by rw [h3.1]; exact hi) (by rw [h4.1]; exact hi)
    have e2 := zip_getD (l := out0) (l' := out1.zip carry) [] ([], []) (i := i) (by rw [h2.1]; exact hi) (by simp [h3.1, h4.1, hi])
    have e1 := zip_getD (l := in1) (l' := out0.zip (out1.zip carry)) [] ([], [], []) (i := i) (by rw [h1.1]; exact hi)
      (by simp [h2.1, h3.1, h4.1, hi])
    have e0 := mem_zip_getD (l := in0) (l' := in1.zip (out0.zip (out1.zip carry))) [] ([], [], [], []) (i := i) (by rw [h0.1]; exact hi)
      (by simp [h1.1, h2.1, h3.1, h4.1, hi])
    rw [e1, e2, e3] at e0
    exact e0
  obtain ⟨c1, e1, s1⟩ := concatE_sat h hv _ hm
  obtain ⟨c2, e2, s2⟩ := impliesE_sound e1 s1 hp
  exact halveBoth_sound e2 ((h2.comp_length hi).trans (h3.comp_length hi).symm) s2

theorem joinE_sat {l : List (Except PyErr Cnf)} {cs : Cnf} (h : joinE l = .ok cs) {v : Asg} (hv : Sat v cs) :
    ∀ e ∈ l, ∃ c, e = .ok c ∧ Sat v c := concatE_sat h hv

/-- Two lists of truth values of the same length differ if some `diff` literal marks a position at which they do. -/
theorem diff_sound {pre bits0 bits1 diff : List Lit} {v : Asg} (hv : Sat v (diffClauses pre bits0 bits1 diff))
    (hp : ∀ l ∈ pre, ev v l = true) (h1 : bits0.length = diff.length) (h2 : bits1.length = diff.length) :
    bits0.map (ev v) ≠ bits1.map (ev v) := by
  unfold diffClauses at hv
  rw [Sat_append, Sat_flatMap, Sat_implies, Sat_cons] at hv
  obtain ⟨ha, hb⟩ := hv
  have hb := (hb hp).1
  rw [SatC] at hb
  obtain ⟨l, hl, hlt⟩ := hb
  obtain ⟨i, hi, rfl⟩ := List.mem_iff_getElem.1 hl
  intro heq
  have hm : (bits0[i], bits1[i], diff[i]) ∈ bits0.zip (bits1.zip diff) := by
    have : (bits0.zip (bits1.zip diff))[i]'(by simp; omega) = (bits0[i], bits1[i], diff[i]) := by simp
    rw [← this]; exact List.getElem_mem _
  have := ha _ hm
  rw [Sat_implies] at this
  have := this hp
  simp only [Sat_cons, Sat_nil, SatC_cons, SatC_nil, ev_neg, hlt, and_true, or_false, Bool.not_true, Bool.false_eq_true] at this
  have e : ev v bits0[i] = ev v bits1[i] := by
    have := congrArg (fun l => l[i]?) heq
    simpa [h1, h2, hi, List.getElem?_eq_getElem] using this
  rw [e] at this
  obtain ⟨t1, t2⟩ := this
  cases hx : ev v bits1[i] <;> simp [hx] at t1 t2

/-! ### `n` to `n` -/

/-- What the clauses of `create_n_to_n_balancer` say. -/
structure NToNSem (g : Grid) (F : Nat × Nat → FlowLits) (size : Nat) (v : Asg) : Prop where
  init : InitSem g (g.vals v)
  shut : BlockUgSem g (.ofBool true) (g.vals v)
  under : UndergroundSem g (g.vals v)
  both : ∀ p, g.In p → (g.vals v p).isSplitter = true → (∃ d, (g.vals v p).inp d = true) ∧ ∃ d, (g.vals v p).out d = true
  le : ∀ p, g.In p → ∀ i < size - 1, value v (comp (F p).flow i) ≤ size * nToNDenominator size
  transport : TransportSem g (g.vals v) (fun p => (F p).flow.flatten.map (ev v))
    (fun d p => ((if d.axis = .horizontal then fun p => (F p).ux.flatten else fun p => (F p).uy.flatten) p).map (ev v))
  halve : ∀ p d p10 p01 p11, g.In p → g.nb p d = some p10 → g.nb p d.ccw = some p01 → g.nb p01 d = some p11 →
    (g.vals v p).isHead = true → (g.vals v p).inp d = true →
    (∀ i < size - 1, value v (comp (F p10).flow i) * 2 = value v (comp (F p).flow i) + value v (comp (F p01).flow i) ∧
      value v (comp (F p11).flow i) * 2 = value v (comp (F p).flow i) + value v (comp (F p01).flow i)) ∧
    (F p).flow.flatten.map (ev v) ≠ (F p01).flow.flatten.map (ev v)
  first : ∀ y < g.height, (g.vals v (0, y)).isSplitter = false ∧
    ∀ i < size - 1, value v (comp (F (0, y)).flow i) = if y % size = i then size * nToNDenominator size else 0
  last : ∀ y < g.height, (g.vals v (g.width - 1, y)).isSplitter = false ∧
    ∀ i < size - 1, value v (comp (F (g.width - 1, y)).flow i) = nToNDenominator size

theorem columnFlow_sound {g : Grid} {flow : Nat × Nat → List (List Lit)} {x : Nat} {value' : Nat → Nat → Nat} {c : Cnf}
    (h : columnFlow g flow x value' = .ok c) {n bits : Nat} (hs : ∀ p, Arrayed n bits (flow p)) {v : Asg} (hv : Sat v c) :
    ∀ y < g.height, ∀ i < n, value v (comp (flow (x, y)) i) = value' y i := by
  intro y hy i hi
  obtain ⟨c1, e1, s1⟩ := concatE_sat h hv y (by simpa using hy)
  have hm : (comp (flow (x, y)) i, i) ∈ (flow (x, y)).zipIdx := by
    have hl : i < (flow (x, y)).length := by rw [(hs _).1]; exact hi
    rw [List.mem_zipIdx_iff_getElem?]
    unfold comp
    rw [List.getD_eq_getElem?_getD, List.getElem?_eq_getElem hl]
    rfl
  obtain ⟨c2, e2, s2⟩ := concatE_sat e1 s1 _ hm
  obtain ⟨k1, k2⟩ := c06_set_number (value' y i) (comp (flow (x, y)) i)
  by_cases hlt : value' y i < 2 ^ (comp (flow (x, y)) i).length
  · obtain ⟨c3, e3, s3⟩ := k1 hlt
    simp only at e2
    rw [e3] at e2
    cases e2
    exact (s3 v).1 s2
  · have := k2 (by omega)
    simp only at e2
    rw [this] at e2; cases e2

theorem columnNoSplitter_sound {g : Grid} {x : Nat} {v : Asg} (hv : Sat v (columnNoSplitter g x)) :
    ∀ y < g.height, (g.vals v (x, y)).isSplitter = false := by
  intro y hy
  unfold columnNoSplitter at hv
  rw [Sat_map] at hv
  have := hv y (by simpa using hy)
  simp only [SatC_cons, SatC_nil, or_false, ev_neg, Bool.not_eq_true'] at this
  exact this

theorem setMaximum_sound {x : Nat} {ls : List Lit} {c : Cnf} (h : setMaximum x ls = .ok c) {v : Asg} (hv : Sat v c) : value v ls ≤ x := by
  by_cases hlt : (x : Int) < 2 ^ ls.length
  · obtain ⟨c', e, s⟩ := c05_set_maximum x ls (by omega) hlt
    rw [e] at h; cases h
    have := (s v).1 hv
    omega
  · rw [c05_set_maximum_rejects x ls (.inr (by omega))] at h
    cases h

theorem nToN_sem {g : Grid} (hg : g.WF) {F : Nat × Nat → FlowLits} {size bits cb : Nat} (hF : ∀ p, (F p).Shape (size - 1) bits cb)
    {cs : Cnf} (h : nToNClauses g F size = .ok cs) {v : Asg} (hv : Sat v cs) : NToNSem g F size v := by
  unfold nToNClauses at h
  have H := joinE_sat h hv
  simp only [List.mem_cons, List.not_mem_nil, or_false, forall_eq_or_imp, forall_eq] at H
  obtain ⟨⟨c1, e1, s1⟩, ⟨c2, e2, s2⟩, ⟨c3, e3, s3⟩, ⟨c4, e4, s4⟩, ⟨c5, e5, s5⟩, ⟨c6, e6, s6⟩, ⟨c7, e7, s7⟩, ⟨c8, e8, s8⟩,
    ⟨c9, e9, s9⟩, ⟨c10, e10, s10⟩⟩ := H
  cases e2; cases e3; cases e7; cases e9
  refine ⟨sem_of_sat hg e1 s1, (Sat_blockUg hg _ v).1 s2, (Sat_underground g v).1 s3, ?_, ?_, ?_, ?_, ?_, ?_⟩
  · intro p hp hs
    obtain ⟨c, e, s⟩ := concatE_sat e4 s4 p ((g.mem_cells p).2 hp)
    have := joinE_sat e s (.ok (implies [(g.at' p).isSplitter] [dirs (g.at' p).inp, dirs (g.at' p).out])) (by simp)
    obtain ⟨c', e', s'⟩ := this
    cases e'
    rw [Sat_implies] at s'
    have s'' := s' (by
      simp only [List.mem_cons, List.not_mem_nil, or_false, forall_eq]
      exact hs)
    simp only [Sat_cons, Sat_nil, and_true, SatC, dirs, List.mem_map] at s''
    obtain ⟨⟨_, ⟨d, _, rfl⟩, h1⟩, ⟨_, ⟨d', _, rfl⟩, h2⟩⟩ := s''
    exact ⟨⟨d, h1⟩, d', h2⟩
  · intro p hp i hi
    obtain ⟨c, e, s⟩ := concatE_sat e4 s4 p ((g.mem_cells p).2 hp)
    obtain ⟨c', e', s'⟩ := joinE_sat e s (concatE (fun c => setMaximum (size * nToNDenominator size : Nat) c) (F p).flow) (by simp)
    obtain ⟨c'', e'', s''⟩ := concatE_sat e' s' _ ((hF p).flow.comp_mem hi)
    exact setMaximum_sound e'' s''
  · obtain ⟨c, e, s⟩ := transport_iff (g := g) (n := (size - 1) * bits) (q := fun p => (F p).flow.flatten)
      (qux := fun p => (F p).ux.flatten) (quy := fun p => (F p).uy.flatten) (fun p => (hF p).flow.flatten_length)
      (fun p => (hF p).ux.flatten_length) (fun p => (hF p).uy.flatten_length)
    rw [e] at e5; cases e5
    exact (s v).1 s5
  · intro p d p10 p01 p11 hp h10 h01 h11 hh hi
    obtain ⟨c, e, s⟩ := concatE_sat e6 s6 p ((g.mem_cells p).2 hp)
    obtain ⟨c', e', s'⟩ := concatE_sat e s d (by cases d <;> simp [Dir.all])
    have hoff : g.offset p (d.dx + d.next.dx) (d.dy + d.next.dy) = some p11 := by
      rw [Dir.next_eq, Grid.offset_corner1 hg hp d.across_ccw, Grid.nb_comm hg hp d.across_ccw, h01]
      exact h11
    unfold nToNCell at e'
    rw [Dir.next_eq] at e' hoff
    rw [h10, h01, hoff] at e'
    simp only at e'
    have H := joinE_sat e' s'
    simp only [List.mem_cons, List.not_mem_nil, or_false, forall_eq_or_imp, forall_eq] at H
    obtain ⟨⟨d1, x1, y1⟩, ⟨d2, x2, y2⟩⟩ := H
    cases x2
    have hpre : ∀ l ∈ [(g.at' p).isHead, (g.at' p).inp d], ev v l = true := by
      simp only [List.mem_cons, List.not_mem_nil, or_false, forall_eq_or_imp, forall_eq]
      exact ⟨hh, hi⟩
    refine ⟨fun i hi => halveAll_sound x1 (hF p).flow (hF p01).flow (hF p10).flow (hF p11).flow (hF p).carry y1 hpre hi, ?_⟩
    refine diff_sound y2 hpre ?_ ?_
    · rw [(hF p).flow.flatten_length, (hF p).diff.flatten_length]
    · rw [(hF p01).flow.flatten_length, (hF p).diff.flatten_length]
  · intro y hy
    exact ⟨columnNoSplitter_sound s7 y hy, columnFlow_sound e8 (fun p => (hF p).flow) s8 y hy⟩
  · intro y hy
    exact ⟨columnNoSplitter_sound s9 y hy, columnFlow_sound e10 (fun p => (hF p).flow) s10 y hy⟩

/-- What the clauses of `main` around the balancer say. -/
structure FreeSem (g : Grid) (m n : Nat) (aligned : Bool) (v : Asg) : Prop where
  surface : BlockBeltSem g (.ofPair false true) (g.vals v)
  inter : IntersectionSem g (g.vals v)
  len : ∀ l, g.ugLen = some l → LengthSem g (g.vals v) l
  ends : ∀ T, InitSem g (g.vals v) → Decodes g v T → (∀ y, ¬ (T (0, y)).IsSplitter ∧ ¬ (T (g.width - 1, y)).IsSplitter) →
    ∃ i j, BlockAt g.height i m (fun y => T (0, y) = .belt .right .right) (fun y => T (0, y) = .empty) ∧
      BlockAt g.height j n (fun y => T (g.width - 1, y) = .belt .right .right) (fun y => T (g.width - 1, y) = .empty) ∧
      (aligned = true → RowsNested i m j n)

theorem Gen.all_cons {f : Gen} {fs : List Gen} {s : Nat} {r : Cnf × Nat} (h : Gen.all (f :: fs) s = .ok r) :
    ∃ c s1 c', f s = .ok (c, s1) ∧ Gen.all fs s1 = .ok (c', r.2) ∧ r.1 = c ++ c' := by
  unfold Gen.all at h
  cases e : f s with
  | error e' => rw [e] at h; cases h
  | ok r1 =>
    obtain ⟨c, s1⟩ := r1
    rw [e] at h
    simp only at h
    cases e2 : Gen.all fs s1 with
    | error e' => rw [e2] at h; cases h
    | ok r2 =>
      obtain ⟨c', s2⟩ := r2
      rw [e2] at h
      simp only [Except.ok.injEq] at h
      subst h
      exact ⟨c, s1, c', rfl, e2, rfl⟩

theorem free_sem {width height : Nat} {ugLen : Option Nat} {m n : Nat} {aligned : Bool} {g : Grid} {cs : Cnf} {s : Nat}
    (hL : ∀ l, ugLen = some l → 1 ≤ l) (h : freeBalancer width height ugLen m n aligned = .ok (g, cs, s)) :
    ∃ cs0 s0, createNToM width height ugLen m n = .ok (g, cs0, s0) ∧ ∀ v, g.WF → g.LitsLe s0 → g.ugLen = ugLen → Sat v cs →
      Sat v cs0 ∧ FreeSem g m n aligned v := by
  unfold freeBalancer at h
  cases e : createNToM width height ugLen m n with
  | error e' => rw [e] at h; cases h
  | ok r =>
    obtain ⟨g', cs0, s0⟩ := r
    rw [e] at h
    simp only at h
    split at h
    · cases h
    · rename_i cs1 s1 e1
      simp only [Except.ok.injEq, Prod.mk.injEq] at h
      obtain ⟨rfl, rfl, rfl⟩ := h
      refine ⟨cs0, s0, rfl, fun v hg hl hug hv => ?_⟩
      rw [Sat_append] at hv
      refine ⟨hv.1, ?_⟩
      obtain ⟨c1, t1, r1, f1, f2, f3⟩ := Gen.all_cons e1
      obtain ⟨c2, t2, r2, f4, f5, f6⟩ := Gen.all_cons f2
      obtain ⟨c3, t3, r3, f7, f8, f9⟩ := Gen.all_cons f5
      obtain ⟨c4, t4, r4, f10, f11, f12⟩ := Gen.all_cons f8
      simp only at f3 f6 f9 f12
      have hpure : ∀ {e : Except PyErr Cnf} {s : Nat} {r : Cnf × Nat}, Gen.pure e s = .ok r → e = .ok r.1 := by
        intro e s r h
        cases e with
        | error e' => cases h
        | ok c => cases h; rfl
      have f4 := hpure f4
      have f7 := hpure f7
      have f10 := hpure f10
      simp only at f4 f7 f10
      cases f4; cases f7
      have hv2 := hv.2
      rw [f3, f6, f9, f12] at hv2
      simp only [Sat_append] at hv2
      obtain ⟨k1, k2, k3, k4, -⟩ := hv2
      obtain ⟨ci, hci, hci2⟩ := init_iff hg
      refine ⟨(Sat_blockBelt hg _ v).1 k2, (Sat_intersection g' v).1 k3, fun l hl' => ?_, fun T hvi hT hns => ?_⟩
      · obtain ⟨cl, q1, q2⟩ := length_iff hg l hl' (hL l (hug ▸ hl'))
        rw [q1] at f10; cases f10
        exact (q2 v).1 k4
      · obtain ⟨c5, s5, q1, q2⟩ := c28_free (m := m) (n := n) hg hl hci aligned
        rw [q1] at f1
        simp only [Except.ok.injEq, Prod.mk.injEq] at f1
        obtain ⟨rfl, rfl⟩ := f1
        exact (q2 v T ((hci2 v).2 hvi) hT hns).1 ⟨v, Agree.refl _ _, k1⟩

/-! ### The layouts of the net-free balancers -/

/-- What is known of every layout: it obeys the basic rules, its first column holds `m` inputs from row `i` on and its last column `n`
outputs from row `j` on. -/
structure FreeLayout (g : Grid) (T : Nat × Nat → Tile) (m n i j : Nat) : Prop where
  rules : BasicRules g.In g.nb T (g.shut (.ofPair false true)) (g.shut (.ofBool true)) g.ugLen
  inputs : BlockAt g.height i m (fun y => T (0, y) = .belt .right .right) (fun y => T (0, y) = .empty)
  outputs : BlockAt g.height j n (fun y => T (g.width - 1, y) = .belt .right .right) (fun y => T (g.width - 1, y) = .empty)

theorem free_layout {g : Grid} (hg : g.WF) {v : Asg} {T : Nat × Nat → Tile} {m n : Nat} {aligned : Bool}
    (hi : InitSem g (g.vals v)) (hb : BlockUgSem g (.ofBool true) (g.vals v)) (hu : UndergroundSem g (g.vals v))
    (h0 : ∀ y < g.height, (g.vals v (0, y)).isSplitter = false) (h1 : ∀ y < g.height, (g.vals v (g.width - 1, y)).isSplitter = false)
    (hf : FreeSem g m n aligned v) (hT : Decodes g v T) :
    ∃ i j, FreeLayout g T m n i j ∧ (aligned = true → RowsNested i m j n) := by
  have hl := lays_of_decodes hi hT
  let T' : Nat × Nat → Tile := fun p => if g.In p then T p else .empty
  have e : ∀ p, g.In p → T' p = T p := fun p hp => if_pos hp
  have hT' : Decodes g v T' := fun p hp => by rw [e p hp]; exact hT p hp
  have hns : ∀ x, (x = 0 ∨ x = g.width - 1) → ∀ y, ¬ (T' (x, y)).IsSplitter := by
    rintro x hx y ⟨d, b, h⟩
    by_cases hp : g.In (x, y)
    · rw [e _ hp] at h
      have := ((h ▸ hl _ hp : Agrees _ (.splitter d b)).splitter_flags).1
      have h2 : (g.vals v (x, y)).isSplitter = false := by
        rcases hx with rfl | rfl
        · exact h0 y hp.2
        · exact h1 y hp.2
      rw [h2] at this; cases this
    · have : T' (x, y) = .empty := if_neg hp
      rw [this] at h; cases h
  obtain ⟨i, j, k1, k2, k3⟩ := hf.ends T' hi hT' fun y => ⟨hns 0 (.inl rfl) y, hns _ (.inr rfl) y⟩
  have hw := hg.w
  refine ⟨i, j, ⟨layout_of_sem hg hl hi hf.inter hu hf.surface hb hf.len (fun d _ => by cases d <;> rfl), ⟨k1.1, fun y hy => ?_⟩,
    ⟨k2.1, fun y hy => ?_⟩⟩, k3⟩
  · have := k1.2 y hy
    simp only [e (0, y) ⟨hw, hy⟩] at this; exact this
  · have := k2.2 y hy
    simp only [e (g.width - 1, y) ⟨Nat.sub_lt hw Nat.one_pos, hy⟩] at this; exact this

section
variable {g : Grid} {T : Nat × Nat → Tile} {m n i j : Nat} (hg : g.WF) (he : g.edge = ⟨false, false⟩) (h : FreeLayout g T m n i j)
include hg he h

omit hg he in
theorem FreeLayout.first {y : Nat} (hy : y < g.height) : T (0, y) = .empty ∨ T (0, y) = .belt .right .right ∧ i ≤ y ∧ y < i + m := by
  have := h.inputs.2 y hy
  split at this
  · exact .inr ⟨this, ‹_›⟩
  · exact .inl this

omit hg he in
theorem FreeLayout.last {y : Nat} (hy : y < g.height) :
    T (g.width - 1, y) = .empty ∨ T (g.width - 1, y) = .belt .right .right ∧ j ≤ y ∧ y < j + n := by
  have := h.outputs.2 y hy
  split at this
  · exact .inr ⟨this, ‹_›⟩
  · exact .inl this

theorem FreeLayout.edge {p : Nat × Nat} {d : Dir} (hp : g.In p) (hn : g.nb p d = none) :
    (¬ (T p).Emits d ∧ ¬ (T p).Takes d.opp) ∨
    (d = .left ∧ ∃ y, p = (0, y) ∧ T p = .belt .right .right ∧ i ≤ y ∧ y < i + m) ∨
    (d = .right ∧ ∃ y, p = (g.width - 1, y) ∧ T p = .belt .right .right ∧ j ≤ y ∧ y < j + n) := by
  have hon := ((Grid.nb_none_iff hg hp d).1 hn).2
  obtain ⟨x, y⟩ := p
  have hy := hp.2
  have hsurf := fun hsel => h.rules.surface (x, y) d hp ⟨hsel, hon⟩
  cases d with
  | up => exact .inl ⟨(hsurf rfl).1, (hsurf rfl).2.1⟩
  | down => exact .inl ⟨(hsurf rfl).1, (hsurf rfl).2.1⟩
  | left =>
    have : x = 0 := hon
    subst this
    rcases h.first hy with ht | ht
    · exact .inl ⟨by rw [ht]; exact id, by rw [ht]; exact id⟩
    · exact .inr (.inl ⟨rfl, y, rfl, ht⟩)
  | right =>
    have : x = g.width - 1 := hon
    subst this
    rcases h.last hy with ht | ht
    · exact .inl ⟨by rw [ht]; exact id, by rw [ht]; exact id⟩
    · exact .inr (.inr ⟨rfl, y, rfl, ht⟩)

theorem FreeLayout.inner : InnerSplitters g T := by
  intro p d b hp ht
  refine ⟨fun hn => ?_, fun hn => ?_⟩
  · rcases h.edge hg he hp hn with h1 | ⟨_, _, _, h1, _⟩ | ⟨_, _, _, h1, _⟩
    · exact h1.1 (by rw [ht]; rfl)
    · rw [ht] at h1; cases h1
    · rw [ht] at h1; cases h1
  · rcases h.edge hg he hp hn with h1 | ⟨_, _, _, h1, _⟩ | ⟨_, _, _, h1, _⟩
    · exact h1.2 (by rw [ht, Dir.opp_opp]; rfl)
    · rw [ht] at h1; cases h1
    · rw [ht] at h1; cases h1

theorem FreeLayout.enters {p : Nat × Nat} (hp : g.In p) (hent : EntersAt g.nb T p) : ∃ y, p = (0, y) ∧ i ≤ y ∧ y < i + m := by
  obtain ⟨d, h1, h2⟩ := hent
  rcases h.edge hg he hp h2 with h3 | ⟨_, y, h4, _, h5⟩ | ⟨h3, y, h4, h5, _⟩
  · exact (h3.2 (by rwa [Dir.opp_opp])).elim
  · exact ⟨y, h4, h5⟩
  · rw [h5] at h1
    have : d = .right := h1.symm
    subst this
    cases h3

theorem FreeLayout.leaves {y : Nat} (h1 : j ≤ y) (h2 : y < j + n) : g.In (g.width - 1, y) ∧ LeavesAt g.nb T (g.width - 1, y) := by
  have hy : y < g.height := by have := h.outputs.1; omega
  have hin : g.In (g.width - 1, y) := ⟨Nat.sub_lt hg.w Nat.one_pos, hy⟩
  refine ⟨hin, .right, ?_, (Grid.nb_none_iff hg hin .right).2 ⟨by simp [Grid.wraps, he, Dir.axis], rfl⟩⟩
  have := h.outputs.2 y hy
  rw [if_pos ⟨h1, h2⟩] at this
  rw [this]; rfl

open Finset in
/-- The flows from the single inputs determine all flows. -/
theorem FreeLayout.balance {C : Nat × Nat → CellVal} (hl : Lays g C T) (hi : IntersectionSem g C) {φ : Nat → Nat × Nat → Rat}
    (hφ : ∀ k < m, Steady g.In g.nb T (g.linked C) (φ k)) {a b : Rat} (ha : a ≠ 0)
    (h0 : ∀ k < m, ∀ y, i ≤ y → y < i + m → φ k (0, y) = if y % m = k then a else 0)
    (h1 : ∀ k < m, ∀ y, j ≤ y → y < j + n → φ k (g.width - 1, y) = b)
    (F : Nat × Nat → Rat) (hF : Steady g.In g.nb T (g.linked C) F) {y : Nat} (hy : j ≤ y) (hy' : y < j + n) :
    F (g.width - 1, y) = (∑ k ∈ range m, F (0, i + k)) * (b / a) := by
  have hm : ∀ k ∈ range m, (i + k) % m < m := fun k hk => Nat.mod_lt _ (by have := mem_range.1 hk; omega)
  have hG := Steady.sum (range m) (fun k => F (0, i + k) / a) (fun k => φ ((i + k) % m)) fun k hk => hφ _ (hm k hk)
  obtain ⟨hin, hlv⟩ := h.leaves hg he hy hy'
  have key := Steady.unique (In := g.In) (nb := g.nb) (T := T) (conn := g.linked C) g.cells.toFinset (fun p => by rw [List.mem_toFinset, Grid.mem_cells])
    (fun p q d hp hq => Grid.nb_in hg hq) (fun p q d hp hq => Grid.nb_opp hg hp hq) h.rules.basic h.rules.splitters
    (fun p q d hp hc => ⟨hc.1, (hl p hp).out_emits hc.2, (hl q (Grid.nb_in hg hc.1)).inp_takes ((hi d p q hp hc.1).1 ▸ hc.2)⟩)
    (fun p q d hp hq ht hns => ⟨hq, (hi d p q hp hq).1.trans
      (((hl q (Grid.nb_in hg hq)).takes_iff ((hl q (Grid.nb_in hg hq)).isSplitter_false hns) d).2 ht)⟩)
    (fun q d hq ht => h.rules.undergrounds.exit q d hq ht) (h.inner hg he) hF hG (by
      intro p hp hent
      obtain ⟨y, rfl, hy1, hy2⟩ := h.enters hg he hp hent
      have hmem : y - i ∈ range m := mem_range.2 (by omega)
      rw [sum_eq_single_of_mem (y - i) hmem]
      · rw [h0 _ (hm _ hmem) y hy1 hy2, show i + (y - i) = y by omega, if_pos rfl, div_mul_cancel₀ _ ha]
      · intro k hk hne
        rw [h0 _ (hm k hk) y hy1 hy2, if_neg, mul_zero]
        intro hmod
        have hk' := mem_range.1 hk
        have e1 : (y : Int) % m = ((i + k : Nat) : Int) % m := by exact_mod_cast hmod
        obtain ⟨c, hc⟩ := Int.ModEq.dvd (n := m) e1
        have hb1 : -(m : Int) < m * c := by omega
        have hb2 : (m : Int) * c < m := by omega
        have : c = 0 := by
          have hmpos : (0 : Int) < m := by omega
          have h3 : -1 < c := by
            by_contra hcon
            have : c ≤ -1 := by omega
            have := mul_le_mul_of_nonneg_left this (le_of_lt hmpos)
            omega
          have h4 : c < 1 := by
            by_contra hcon
            have : 1 ≤ c := by omega
            have := mul_le_mul_of_nonneg_left this (le_of_lt hmpos)
            omega
          omega
        subst this
        omega) (g.width - 1, y) hin hlv
  rw [key, sum_mul]
  refine sum_congr rfl fun k hk => ?_
  rw [h1 _ (hm k hk) y hy hy']
  ring

end

/-! ### Flows of `n` to `n` -/

section
variable {g : Grid} {F : Nat × Nat → FlowLits} {size bits cb : Nat} {v : Asg} {T : Nat × Nat → Tile} {i j : Nat}

theorem NToNSem.full (hs : NToNSem g F size v) (hl : Lays g (g.vals v) T) {p : Nat × Nat} {d : Dir} {b : Bool} (hp : g.In p)
    (ht : T p = .splitter d b) : (g.vals v p).inp d = true ∧ (g.vals v p).out d = true := by
  have ha : Agrees (g.vals v p) (.splitter d b) := ht ▸ hl p hp
  obtain ⟨⟨e, h1⟩, e', h2⟩ := hs.both p hp ha.splitter_flags.1
  have := ha.2.2.1 e h1
  subst this
  have := ha.2.2.2.1 e' h2
  subst this
  exact ⟨h1, h2⟩

theorem NToNSem.linked_iff (hg : g.WF) (hs : NToNSem g F size v) (hi : IntersectionSem g (g.vals v)) (hl : Lays g (g.vals v) T)
    (p q : Nat × Nat) (d : Dir) (hp : g.In p) : g.linked (g.vals v) p q d ↔ Connected g.nb T p q d := by
  constructor
  · rintro ⟨h1, h2⟩
    exact ⟨h1, (hl p hp).out_emits h2, (hl q (Grid.nb_in hg h1)).inp_takes ((hi d p q hp h1).1 ▸ h2)⟩
  · rintro ⟨h1, h2, _⟩
    refine ⟨h1, ?_⟩
    by_cases hsp : (T p).IsSplitter
    · obtain ⟨e, b, ht⟩ := hsp
      have : e = d := by rw [ht] at h2; exact h2
      subst this
      exact (hs.full hl hp ht).2
    · exact ((hl p hp).emits_iff ((hl p hp).isSplitter_false hsp) d).2 h2

theorem NToNSem.fullSplitters (hg : g.WF) (hs : NToNSem g F size v) (hi : IntersectionSem g (g.vals v)) (hl : Lays g (g.vals v) T)
    (hin : InnerSplitters g T) : FullSplitters g.In T (g.linked (g.vals v)) := by
  intro p d b hp ht
  obtain ⟨h1, h2⟩ := hs.full hl hp ht
  obtain ⟨a1, a2⟩ := hin p d b hp ht
  obtain ⟨f, hf⟩ := Option.ne_none_iff_exists'.1 a1
  obtain ⟨x, hx⟩ := Option.ne_none_iff_exists'.1 a2
  exact ⟨(outflow_iff hf).2 h2, (inflow_iff hg hi hp hx).2 h1⟩

theorem NToNSem.steady (hg : g.WF) (hF : ∀ p, (F p).Shape (size - 1) bits cb) (hs : NToNSem g F size v)
    (hi : IntersectionSem g (g.vals v)) (hl : Lays g (g.vals v) T) (hin : InnerSplitters g T) {k : Nat} (hk : k < size - 1) :
    Steady g.In g.nb T (g.linked (g.vals v)) fun p => (value v (comp (F p).flow k) : Nat) := by
  have := steady_of_transport hg hl hi hs.under hs.transport hin (readComp bits k) (by
    intro p q d p' q' hp hpair hp' hq'
    have hq := Grid.nb_in hg hpair.2.1
    obtain ⟨f1, f2⟩ := hs.full hl hp hpair.1
    obtain ⟨f3, f4⟩ := hs.full hl hq hpair.2.2
    have hh := ((hpair.1 ▸ hl p hp : Agrees _ (.splitter d true)).splitter_flags).2.1
    obtain ⟨k1, k2⟩ := (hs.halve p d p' q q' hp hp' hpair.2.1 hq' hh f1).1 k hk
    simp only [f1, f2, f3, f4, gate, if_true, readComp_eq (hF _).flow hk]
    refine ⟨fun _ => ?_, fun _ => ?_⟩
    · have : ((value v (comp (F p').flow k) * 2 : Nat) : Rat) = ((value v (comp (F p).flow k) + value v (comp (F q).flow k) : Nat) : Rat) := by
        rw [k1]
      push_cast at this
      linarith
    · have : ((value v (comp (F q').flow k) * 2 : Nat) : Rat) = ((value v (comp (F p).flow k) + value v (comp (F q).flow k) : Nat) : Rat) := by
        rw [k2]
      push_cast at this
      linarith)
  simpa only [readComp_eq (hF _).flow hk] using this

end

end FSat

namespace FSat

/-! ### The functions do not raise -/

theorem concatE_total {α : Type} {f : α → Except PyErr Cnf} {as : List α} (h : ∀ a ∈ as, ∃ c, f a = .ok c) : ∃ cs, concatE f as = .ok cs := by
  induction as with
  | nil => exact ⟨[], rfl⟩
  | cons a as ih =>
    obtain ⟨c, hc⟩ := h a (by simp)
    obtain ⟨cs, hcs⟩ := ih fun b hb => h b (by simp [hb])
    exact ⟨c ++ cs, by simp only [concatE, hc, hcs]⟩

theorem addLoop_fixed {a b out : List Lit} {cin : Option Lit} {s : List Lit} (hs : a.length ≤ s.length) (hne : a ≠ [] ∨ cin.isSome)
    (hb : a.length = b.length) (ho : a.length ≤ out.length) : ∃ c cf s', addLoop fixedAlloc a b out cin s = .ok (c, some cf, s') := by
  induction a generalizing b out cin s with
  | nil =>
    rcases hne with hne | hne
    · exact (hne rfl).elim
    · obtain ⟨x, rfl⟩ := Option.isSome_iff_exists.1 hne
      exact ⟨[], x, s, by cases b <;> rfl⟩
  | cons a as ih =>
    cases b with
    | nil => cases hb
    | cons b bs =>
      cases out with
      | nil => cases ho
      | cons o os =>
        cases s with
        | nil => cases hs
        | cons l ls =>
          obtain ⟨c, cf, s', e⟩ := ih (b := bs) (out := os) (cin := some l) (s := ls) (by simpa using hs) (.inr rfl) (by simpa using hb) (by simpa using ho)
          exact ⟨addBit a b o cin l ++ c, cf, s', by simp only [addLoop, fixedAlloc, e]⟩

theorem addNumbers_fixed {a b out : List Lit} {cin : Option Lit} {s : List Lit} (hs : a.length ≤ s.length) (hne : a ≠ [] ∨ cin.isSome)
    (hb : a.length = b.length) (ho : out.length = a.length ∨ out.length = a.length + 1) :
    ∃ c s', addNumbers fixedAlloc a b out cin false s = .ok (c, s') := by
  obtain ⟨c, cf, s', e⟩ := addLoop_fixed (out := out) (cin := cin) hs hne hb (by omega)
  unfold addNumbers
  rw [if_neg (by omega), if_neg (by omega), e]
  simp only
  split
  · rename_i hgt
    have : out ≠ [] := by rintro rfl; simp at hgt
    rw [List.getLast?_eq_getLast_of_ne_nil this]
    exact ⟨_, _, rfl⟩
  · exact ⟨_, _, rfl⟩

theorem halveBoth_total {n : Nat} {in0 in1 out0 out1 carry : List Lit} (h0 : in0.length = n + 1) (h1 : in1.length = n + 1)
    (h2 : out0.length = n + 1) (h3 : out1.length = n + 1) (h4 : n ≤ carry.length) : ∃ c, halveBoth in0 in1 out0 out1 carry = .ok c := by
  cases in0 with
  | nil => cases h0
  | cons a as =>
    cases in1 with
    | nil => cases h1
    | cons b bs =>
      simp only [List.length_cons, Nat.add_right_cancel_iff] at h0 h1
      obtain ⟨c, s', e⟩ := addNumbers_fixed (a := as) (b := bs) (out := out0) (cin := some a) (s := carry) (by omega) (.inr rfl) (by omega) (by omega)
      obtain ⟨c2, e2, _⟩ := c07_set_numbers_equal out0 out1 (by omega)
      exact ⟨_, by simp only [halveBoth, e, e2]; rfl⟩

theorem impliesE_total {cond : List Lit} {e : Except PyErr Cnf} (h : ∃ c, e = .ok c) : ∃ c, impliesE cond e = .ok c := by
  obtain ⟨c, rfl⟩ := h
  exact ⟨_, rfl⟩

theorem halveAll_total {n bits cb : Nat} {pre : List Lit} {in0 in1 out0 out1 carry : List (List Lit)} (h0 : Arrayed n bits in0)
    (h1 : Arrayed n bits in1) (h2 : Arrayed n bits out0) (h3 : Arrayed n bits out1) (h4 : Arrayed n cb carry) (hb : n = 0 ∨ 0 < bits)
    (hc : bits - 1 ≤ cb) : ∃ c, halveAll pre in0 in1 out0 out1 carry = .ok c := by
  refine concatE_total fun ⟨a, b, c, d, e⟩ hm => impliesE_total ?_
  have m1 := (List.of_mem_zip hm)
  have m2 := (List.of_mem_zip m1.2)
  have m3 := (List.of_mem_zip m2.2)
  have m4 := (List.of_mem_zip m3.2)
  have hbits : 0 < bits := by
    rcases hb with rfl | hb
    · have := h0.1
      rw [List.length_eq_zero_iff] at this
      rw [this] at m1
      cases m1.1
    · exact hb
  exact halveBoth_total (n := bits - 1) (by rw [h0.2 _ m1.1]; omega) (by rw [h1.2 _ m2.1]; omega) (by rw [h2.2 _ m3.1]; omega)
    (by rw [h3.2 _ m4.1]; omega) (by rw [h4.2 _ m4.2]; omega)

theorem joinE_total {l : List (Except PyErr Cnf)} (h : ∀ e ∈ l, ∃ c, e = .ok c) : ∃ cs, joinE l = .ok cs := concatE_total h

theorem columnFlow_total {g : Grid} {flow : Nat × Nat → List (List Lit)} {x : Nat} {value' : Nat → Nat → Nat} {n bits : Nat}
    (hs : ∀ p, Arrayed n bits (flow p)) (hv : ∀ y i, i < n → value' y i < 2 ^ bits) : ∃ c, columnFlow g flow x value' = .ok c := by
  refine concatE_total fun y _ => concatE_total fun ⟨l, i⟩ hm => ?_
  have hm' := List.mem_zipIdx_iff_getElem?.1 hm
  have hi : i < n := by
    have := (List.getElem?_eq_some_iff.1 hm').1
    rw [(hs _).1] at this; exact this
  have hl : l.length = bits := (hs _).2 l (List.mem_of_getElem? hm')
  obtain ⟨c, e, _⟩ := (c06_set_number (value' y i) l).1 (by rw [hl]; exact hv y i hi)
  exact ⟨c, e⟩

theorem setMaximum_total {x : Nat} {ls : List Lit} (h : x < 2 ^ ls.length) : ∃ c, setMaximum x ls = .ok c := by
  obtain ⟨c, e, _⟩ := c05_set_maximum x ls (by omega) (by exact_mod_cast h)
  exact ⟨c, e⟩

theorem nextPowerOfTwo_pos (x : Nat) : 0 < nextPowerOfTwo x := by
  unfold nextPowerOfTwo
  rw [Nat.one_shiftLeft]
  exact Nat.pow_pos (by decide)

theorem nToNDenominator_pos {n : Nat} : 0 < nToNDenominator n :=
  Nat.div_pos (Nat.le_of_dvd (nextPowerOfTwo_pos n) (Nat.gcd_dvd_left _ _)) (Nat.gcd_pos_of_pos_left _ (nextPowerOfTwo_pos n))

theorem nToN_total {g : Grid} (hg : g.WF) {F : Nat × Nat → FlowLits} {size : Nat} (hsize : 0 < size)
    (hF : ∀ p, (F p).Shape (size - 1) (size * nToNDenominator size).size ((size * nToNDenominator size).size - 1)) :
    ∃ cs, nToNClauses g F size = .ok cs := by
  have hfull : size * nToNDenominator size < 2 ^ (size * nToNDenominator size).size := Nat.lt_size_self _
  have hbits : 0 < (size * nToNDenominator size).size := Nat.size_pos.2 (Nat.mul_pos hsize nToNDenominator_pos)
  refine joinE_total ?_
  simp only [List.mem_cons, List.not_mem_nil, or_false, forall_eq_or_imp, forall_eq]
  refine ⟨?_, ⟨_, rfl⟩, ⟨_, rfl⟩, ?_, ?_, ?_, ⟨_, rfl⟩, ?_, ⟨_, rfl⟩, ?_⟩
  · obtain ⟨c, e, _⟩ := init_iff hg; exact ⟨c, e⟩
  · refine concatE_total fun p _ => joinE_total ?_
    simp only [List.mem_cons, List.not_mem_nil, or_false, forall_eq_or_imp, forall_eq]
    exact ⟨⟨_, rfl⟩, concatE_total fun c hc => setMaximum_total (by rw [(hF p).flow.2 c hc]; exact hfull)⟩
  · obtain ⟨c, e, _⟩ := transport_iff (g := g) (n := (size - 1) * (size * nToNDenominator size).size) (q := fun p => (F p).flow.flatten)
      (qux := fun p => (F p).ux.flatten) (quy := fun p => (F p).uy.flatten) (fun p => (hF p).flow.flatten_length)
      (fun p => (hF p).ux.flatten_length) (fun p => (hF p).uy.flatten_length)
    exact ⟨c, e⟩
  · refine concatE_total fun p _ => concatE_total fun d _ => ?_
    unfold nToNCell
    split
    · refine joinE_total ?_
      simp only [List.mem_cons, List.not_mem_nil, or_false, forall_eq_or_imp, forall_eq]
      exact ⟨halveAll_total (hF _).flow (hF _).flow (hF _).flow (hF _).flow (hF _).carry (.inr hbits) (Nat.le_refl _), _, rfl⟩
    · exact ⟨_, rfl⟩
  · refine columnFlow_total (fun p => (hF p).flow) fun y i _ => ?_
    split
    · exact hfull
    · exact Nat.pow_pos (by decide)
  · refine columnFlow_total (fun p => (hF p).flow) fun y i _ => Nat.lt_of_le_of_lt ?_ hfull
    exact Nat.le_mul_of_pos_left _ hsize

end FSat
