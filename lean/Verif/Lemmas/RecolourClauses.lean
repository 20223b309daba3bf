import Verif.Lemmas.Recolour
/-!
# What the clauses of `optimise_colours` say
-/

namespace FSat

theorem freshLits_pos (s n : Nat) : ∀ l ∈ freshLits s n, l.pos = true := by
  induction n generalizing s with
  | zero => simp [freshLits]
  | succ n ih =>
    intro l hl
    rcases List.mem_cons.1 hl with rfl | hl
    · rfl
    · exact ih _ l hl

theorem labelLoop_spec (len : Nat) : ∀ (cols : List Int) (s : Nat), ∃ L, labelLoop len cols s = .ok (L, s + len * cols.length) ∧
    L.map Prod.fst = cols ∧ (∀ e ∈ L, e.2.length = len ∧ LBound (s + len * cols.length) e.2 ∧ ∀ l ∈ e.2, l.pos = true) ∧
    ∀ (v : Asg) (f : Int → Nat), (∀ c ∈ cols, f c < 2 ^ len) → ∃ w, Agree s v w ∧ ∀ e ∈ L, value w e.2 = f e.1
  | [], s => ⟨[], rfl, rfl, by simp, fun v f _ => ⟨v, Agree.refl _ _, by simp⟩⟩
  | c :: cols, s => by
    obtain ⟨L, h1, h2, h3, h4⟩ := labelLoop_spec len cols (s + len)
    have e : s + len + len * cols.length = s + len * (c :: cols).length := by
      simp only [List.length_cons, Nat.mul_add]
      omega
    rw [e] at h1 h3
    have hb : LBound (s + len * (c :: cols).length) (freshLits s len) := (LBound_freshLits s len).mono (by omega)
    refine ⟨(c, freshLits s len) :: L, ?_, ?_, ?_, ?_⟩
    · unfold labelLoop
      rw [allocMany_pool]
      dsimp only
      rw [h1]
    · simp [h2]
    · intro x hx
      rcases List.mem_cons.1 hx with rfl | hx
      · exact ⟨freshLits_length s len, hb, freshLits_pos s len⟩
      · exact h3 x hx
    · intro v f hf
      obtain ⟨bs, hl, hv⟩ := exists_bits len (f c) (hf c (by simp))
      obtain ⟨w1, a1, m1⟩ := exists_assign_fresh s v bs
      rw [hl] at m1
      obtain ⟨w, a2, m2⟩ := h4 w1 f fun d hd => hf d (by simp [hd])
      refine ⟨w, a1.trans (a2.mono (by omega)), fun x hx => ?_⟩
      rcases List.mem_cons.1 hx with rfl | hx
      · dsimp only
        rw [value_agree a2 (LBound_freshLits s len)]
        unfold value
        rw [m1, hv]
      · exact m2 x hx

theorem mapM_notNumber (k len : Nat) (hk : k < 2 ^ len) : ∀ (labels : List (List Lit)), (∀ l ∈ labels, l.length = len) →
    ∃ c, (labels.mapM fun l => setNotNumber (k : Int) l) = .ok c ∧ ∀ v, Sat v c ↔ ∀ l ∈ labels, value v l ≠ k
  | [], _ => ⟨[], rfl, fun v => by simp⟩
  | l :: labels, h => by
    obtain ⟨c, h1, h2⟩ := mapM_notNumber k len hk labels fun l hl => h l (by simp [hl])
    have hl := h l (by simp)
    refine ⟨notNumberClause k l :: c, ?_, fun v => ?_⟩
    · rw [List.mapM_cons, setNotNumber_eq, if_pos (by rw [hl]; exact_mod_cast hk), h1]
      rfl
    · rw [Sat_cons, h2, SatC_notNumberClause v k l (by rw [hl]; exact hk)]
      simp

theorem excludeAll_spec (labels : List (List Lit)) (len : Nat) (hl : ∀ l ∈ labels, l.length = len) : ∀ (ks : List Nat),
    (∀ k ∈ ks, k < 2 ^ len) → ∃ cs, excludeAll labels ks = .ok cs ∧ ∀ v, Sat v cs ↔ ∀ k ∈ ks, ∀ l ∈ labels, value v l ≠ k
  | [], _ => ⟨[], rfl, fun v => by simp⟩
  | k :: ks, h => by
    obtain ⟨c, h1, h2⟩ := mapM_notNumber k len (h k (by simp)) labels hl
    obtain ⟨cs, h3, h4⟩ := excludeAll_spec labels len hl ks fun k hk => h k (by simp [hk])
    refine ⟨c ++ cs, ?_, fun v => ?_⟩
    · unfold excludeAll
      rw [h1]
      dsimp only
      rw [h3]
    · rw [Sat_append, h2, h4]
      simp

theorem mem_pyRange (a b k : Nat) : k ∈ pyRange a b ↔ a ≤ k ∧ k < b := by
  simp only [pyRange, List.mem_map, List.mem_range]
  constructor
  · rintro ⟨x, h, rfl⟩; omega
  · intro h; exact ⟨k - a, by omega, by omega⟩

theorem Sat_differenceBit (v : Asg) (a b o : Lit) : Sat v (differenceBit a b o) ↔ ev v o = (ev v a != ev v b) := by
  simp only [differenceBit, Sat_cons, Sat_nil, SatC_cons, SatC_nil, ev_neg, and_true, or_false]
  cases ev v a <;> cases ev v b <;> cases ev v o <;> simp

theorem Sat_differenceBits (v : Asg) : ∀ (a b o : List Lit), a.length = o.length → b.length = o.length →
    (Sat v (differenceBits a b o) ↔ o.map (ev v) = List.zipWith (· != ·) (a.map (ev v)) (b.map (ev v)))
  | a, b, [], h, h' => by
    obtain rfl := List.length_eq_zero_iff.1 h
    obtain rfl := List.length_eq_zero_iff.1 h'
    simp [differenceBits]
  | [], _, _ :: _, h, _ => by simp at h
  | _ :: _, [], _ :: _, _, h' => by simp at h'
  | a :: as, b :: bs, o :: os, h, h' => by
    unfold differenceBits
    rw [Sat_append, Sat_differenceBit, Sat_differenceBits v as bs os (by simpa using h) (by simpa using h')]
    simp

theorem differenceBits_bound {s : Nat} : ∀ (a b o : List Lit), LBound s a → LBound s b → LBound s o → CBound s (differenceBits a b o)
  | a :: as, b :: bs, o :: os, ha, hb, ho => by
    unfold differenceBits
    rw [LBound_cons] at ha hb ho
    intro c hc
    rcases List.mem_append.1 hc with hc | hc
    · simp only [differenceBit, List.mem_cons, List.not_mem_nil, or_false] at hc
      intro l hl
      rcases hc with rfl | rfl | rfl | rfl <;> simp only [List.mem_cons, List.not_mem_nil, or_false] at hl <;>
        rcases hl with rfl | rfl | rfl <;> first | exact ha.1 | exact hb.1 | exact ho.1
    · exact differenceBits_bound as bs os ha.2 hb.2 ho.2 c hc
  | [], _, _, _, _, _ => by simp [differenceBits, CBound]
  | _ :: _, [], _, _, _, _ => by simp [differenceBits, CBound]
  | _ :: _, _ :: _, [], _, _, _ => by simp [differenceBits, CBound]

theorem differenceBits_covers : ∀ (a b o : List Lit), a.length = o.length → b.length = o.length → ∀ l ∈ a ++ b,
    ∃ c ∈ differenceBits a b o, ∃ l' ∈ c, l'.var = l.var
  | a, b, [], h, h', l, hl => by
    obtain rfl := List.length_eq_zero_iff.1 h
    obtain rfl := List.length_eq_zero_iff.1 h'
    simp at hl
  | [], _, _ :: _, h, _, _, _ => by simp at h
  | _ :: _, [], _ :: _, _, h', _, _ => by simp at h'
  | a :: as, b :: bs, o :: os, h, h', l, hl => by
    have ih := differenceBits_covers as bs os (by simpa using h) (by simpa using h') l
    unfold differenceBits
    simp only [List.cons_append, List.mem_cons, List.mem_append] at hl ih
    rcases hl with rfl | hl | rfl | hl
    · exact ⟨_, List.mem_append.2 (.inl (by simp only [differenceBit]; exact List.mem_cons_self)), l, List.mem_cons_self, rfl⟩
    · obtain ⟨c, hc, h⟩ := ih (.inl hl)
      exact ⟨c, List.mem_append.2 (.inr hc), h⟩
    · exact ⟨_, List.mem_append.2 (.inl (by simp only [differenceBit]; exact List.mem_cons_self)), l, by simp, rfl⟩
    · obtain ⟨c, hc, h⟩ := ih (.inr hl)
      exact ⟨c, List.mem_append.2 (.inr hc), h⟩

theorem zip_differs : ∀ (a b : List Bool), a.length = b.length → (true ∈ List.zipWith (· != ·) a b ↔ a ≠ b)
  | [], [], _ => by simp
  | a :: as, b :: bs, h => by
    have ih := zip_differs as bs (by simpa using h)
    simp only [List.zipWith_cons_cons, List.mem_cons, ih, ne_eq, List.cons.injEq]
    cases a <;> cases b <;> simp

/-- What `differences` means for an assignment. -/
def DifferencesHold (lab : Int → List Lit) (ds : PyDict (Int × Int) (List Lit)) (v : Asg) : Prop :=
  ∀ e ∈ ds, e.2.map (ev v) = List.zipWith (· != ·) ((lab e.1.1).map (ev v)) ((lab e.1.2).map (ev v))

theorem SatC_mem (v : Asg) (c : Clause) : SatC v c ↔ true ∈ c.map (ev v) := by
  simp [SatC]

theorem differenceLoop_spec (len : Nat) (lab : Int → List Lit) : ∀ (P : List ((Int × List Lit) × (Int × List Lit))) (s : Nat),
    (∀ p ∈ P, (p.1.2 = lab p.1.1 ∧ p.1.2.length = len ∧ LBound s p.1.2) ∧ (p.2.2 = lab p.2.1 ∧ p.2.2.length = len ∧ LBound s p.2.2)) →
    ∃ cs ds s', differenceLoop len P s = .ok (cs, ds, s') ∧ s ≤ s' ∧ CBound s' cs ∧ (∀ e ∈ ds, e.2.length = len ∧ LBound s' e.2) ∧
      (∀ p ∈ P, p.1.1 < p.2.1 → ∃ d, ds.get (p.1.1, p.2.1) = some d ∧ ((p.1.1, p.2.1), d) ∈ ds) ∧
      (∀ p ∈ P, p.1.1 < p.2.1 → ∀ l ∈ p.1.2 ++ p.2.2, ∃ c ∈ cs, ∃ l' ∈ c, l'.var = l.var) ∧
      (∀ v, Sat v cs → DifferencesHold lab ds v ∧ ∀ p ∈ P, p.1.1 < p.2.1 → p.1.2.map (ev v) ≠ p.2.2.map (ev v)) ∧
      ∀ v, (∀ p ∈ P, p.1.1 < p.2.1 → p.1.2.map (ev v) ≠ p.2.2.map (ev v)) → ∃ w, Agree s v w ∧ Sat w cs
  | [], s, _ => ⟨[], [], s, rfl, le_rfl, by simp [CBound], by simp, by simp, by simp, fun v _ => ⟨by simp [DifferencesHold], by simp⟩,
      fun v _ => ⟨v, Agree.refl _ _, by simp⟩⟩
  | (a, b) :: P, s, h => by
    unfold differenceLoop
    by_cases hab : a.1 ≥ b.1
    · obtain ⟨cs, ds, s', h1, h2, h3, h4, h5, h6, h7, h8⟩ := differenceLoop_spec len lab P s fun p hp => h p (by simp [hp])
      rw [if_pos hab]
      refine ⟨cs, ds, s', h1, h2, h3, h4, ?_, ?_, fun v hv => ⟨(h7 v hv).1, ?_⟩, fun v hv => h8 v fun p hp => hv p (by simp [hp])⟩
      · intro p hp hlt
        rcases List.mem_cons.1 hp with rfl | hp
        · exact absurd hlt (not_lt.2 hab)
        · exact h5 p hp hlt
      · intro p hp hlt
        rcases List.mem_cons.1 hp with rfl | hp
        · exact absurd hlt (not_lt.2 hab)
        · exact h6 p hp hlt
      · intro p hp hlt
        rcases List.mem_cons.1 hp with rfl | hp
        · exact absurd hlt (not_lt.2 hab)
        · exact (h7 v hv).2 p hp hlt
    · obtain ⟨⟨ha1, ha2, ha3⟩, hb1, hb2, hb3⟩ := h (a, b) (by simp)
      dsimp only at ha1 ha2 ha3 hb1 hb2 hb3
      obtain ⟨cs, ds, s', h1, h2, h3, h4, h5, h6, h7, h8⟩ := differenceLoop_spec len lab P (s + len) fun p hp => by
        have := h p (by simp [hp])
        exact ⟨⟨this.1.1, this.1.2.1, this.1.2.2.mono (by omega)⟩, this.2.1, this.2.2.1, this.2.2.2.mono (by omega)⟩
      rw [if_neg hab, allocMany_pool]
      dsimp only
      rw [h1]
      have hd := LBound_freshLits s len
      have hdl := freshLits_length s len
      have hfr : ∀ (v : Asg) (bs : List Bool), bs.length = len → ∃ w, Agree s v w ∧ (freshLits s len).map (ev w) = bs := by
        intro v bs hl
        have := exists_assign_fresh s v bs
        rwa [hl] at this
      generalize freshLits s len = d at hd hdl hfr ⊢
      have hsat : ∀ v, Sat v (differenceBits a.2 b.2 d ++ [d]) ↔
          d.map (ev v) = List.zipWith (· != ·) (a.2.map (ev v)) (b.2.map (ev v)) ∧ a.2.map (ev v) ≠ b.2.map (ev v) := by
        intro v
        rw [Sat_append, Sat_differenceBits v _ _ _ (by rw [ha2, hdl]) (by rw [hb2, hdl]), Sat_cons, SatC_mem]
        simp only [Sat_nil, and_true]
        refine and_congr_right fun hz => ?_
        rw [hz, zip_differs _ _ (by simp [ha2, hb2])]
      refine ⟨_, _, s', rfl, by omega, ?_, ?_, ?_, ?_, ?_, ?_⟩
      · intro c hc
        rcases List.mem_append.1 hc with hc | hc
        · rcases List.mem_append.1 hc with hc | hc
          · exact differenceBits_bound _ _ _ (ha3.mono (by omega)) (hb3.mono (by omega)) (hd.mono h2) c hc
          · rw [List.mem_singleton.1 hc]
            exact hd.mono h2
        · exact h3 c hc
      · intro e he
        rcases List.mem_cons.1 he with rfl | he
        · exact ⟨hdl, hd.mono h2⟩
        · exact h4 e he
      · intro p hp hlt
        unfold PyDict.get
        split
        · rename_i e
          exact ⟨d, rfl, by rw [← e]; simp⟩
        · rename_i e
          rcases List.mem_cons.1 hp with rfl | hp
          · exact absurd rfl e
          · obtain ⟨d', e1, e2⟩ := h5 p hp hlt
            exact ⟨d', e1, by simp [e2]⟩
      · intro p hp hlt l hl
        rcases List.mem_cons.1 hp with rfl | hp
        · obtain ⟨c, hc, hx⟩ := differenceBits_covers a.2 b.2 d (by rw [ha2, hdl]) (by rw [hb2, hdl]) l hl
          exact ⟨c, by simp [hc], hx⟩
        · obtain ⟨c, hc, hx⟩ := h6 p hp hlt l hl
          exact ⟨c, by simp [hc], hx⟩
      · intro v hv
        rw [Sat_append, hsat] at hv
        refine ⟨fun e he => ?_, fun p hp hlt => ?_⟩
        · rcases List.mem_cons.1 he with rfl | he
          · dsimp only
            rw [← ha1, ← hb1]
            exact hv.1.1
          · exact (h7 v hv.2).1 e he
        · rcases List.mem_cons.1 hp with rfl | hp
          · exact hv.1.2
          · exact (h7 v hv.2).2 p hp hlt
      · intro v hv
        obtain ⟨w1, a1, m1⟩ := hfr v (List.zipWith (· != ·) (a.2.map (ev v)) (b.2.map (ev v))) (by simp [ha2, hb2])
        have same : ∀ ls, LBound s ls → ls.map (ev w1) = ls.map (ev v) := fun ls hls =>
          List.map_congr_left fun l hl => ev_agree a1 (hls l hl)
        obtain ⟨w, a2, m2⟩ := h8 w1 fun p hp hlt => by
          have hp' := h p (by simp [hp])
          rw [same _ hp'.1.2.2, same _ hp'.2.2.2]
          exact hv p (by simp [hp]) hlt
        have same2 : ∀ ls, LBound (s + len) ls → ls.map (ev w) = ls.map (ev w1) := fun ls hls =>
          List.map_congr_left fun l hl => ev_agree a2 (hls l hl)
        refine ⟨w, a1.trans (a2.mono (by omega)), ?_⟩
        rw [Sat_append, hsat, same2 _ hd, same2 _ (ha3.mono (by omega)), same2 _ (hb3.mono (by omega)), same _ ha3, same _ hb3]
        exact ⟨⟨m1, hv (a, b) (by simp) (not_le.1 hab)⟩, m2⟩

theorem countedLoop_spec (n : Network) (len s : Nat) (lab : Int → List Lit) (ds : PyDict (Int × Int) (List Lit))
    (hl : ∀ c, UsesColour n c → (lab c).length = len) (hd : ∀ e ∈ ds, e.2.length = len ∧ LBound s e.2)
    (hg : ∀ a b, UsesColour n a → UsesColour n b → a < b → ∃ d, ds.get (a, b) = some d ∧ ((a, b), d) ∈ ds) :
    ∀ ss : List (Colour × Colour), (∀ t ∈ ss, ∀ c, t.1 = some c ∨ t.2 = some c → UsesColour n c) → (∀ p ∈ pairsFrom n ss, p.1 ≠ p.2) →
    ∃ bits, countedLoop ((colourSet (insOf n)).filter (· ∉ colourSet (outsOf n)) ++ (colourSet (outsOf n)).filter (· ∉ colourSet (insOf n)))
        ds ss = .ok bits ∧ bits.length = len * (pairsFrom n ss).length ∧ LBound s bits ∧
      ∀ v, DifferencesHold lab ds v → (bits.map (ev v)).count true =
        ((pairsFrom n ss).map fun p => natApart (value v (lab p.1)) (value v (lab p.2))).sum
  | [], _, _ => ⟨[], rfl, by simp [pairsFrom], by simp [LBound], fun v _ => by simp [pairsFrom]⟩
  | (none, b) :: ss, h, h' => by
    have : pairsFrom n ((none, b) :: ss) = pairsFrom n ss := by simp [pairsFrom, bothColours]
    rw [this] at h' ⊢
    exact countedLoop_spec n len s lab ds hl hd hg ss (fun t ht => h t (by simp [ht])) h'
  | (some a, none) :: ss, h, h' => by
    have : pairsFrom n ((some a, none) :: ss) = pairsFrom n ss := by simp [pairsFrom, bothColours]
    rw [this] at h' ⊢
    exact countedLoop_spec n len s lab ds hl hd hg ss (fun t ht => h t (by simp [ht])) h'
  | (some a, some b) :: ss, h, h' => by
    have ua := h _ List.mem_cons_self a (.inl rfl)
    have ub := h _ List.mem_cons_self b (.inr rfl)
    unfold countedLoop
    by_cases hm : Inner n a ∨ Inner n b
    · have e : pairsFrom n ((some a, some b) :: ss) = (a, b) :: pairsFrom n ss := by
        simp [pairsFrom, bothColours, hm]
      rw [e] at h' ⊢
      obtain ⟨bits, h1, h2, h3, h4⟩ := countedLoop_spec n len s lab ds hl hd hg ss (fun t ht => h t (by simp [ht]))
        fun p hp => h' p (by simp [hp])
      have hab : a ≠ b := h' (a, b) (by simp)
      rw [if_neg (by rw [mem_edge a ua, mem_edge b ub]; unfold Inner at hm; tauto)]
      obtain ⟨d, e1, e2, e3⟩ : ∃ d, ds.get (if a > b then (b, a) else (a, b)) = some d ∧
          (d.length = len ∧ LBound s d) ∧ ∀ v, DifferencesHold lab ds v →
            (d.map (ev v)).count true = natApart (value v (lab a)) (value v (lab b)) := by
        split
        · rename_i hlt
          obtain ⟨d, e1, e2⟩ := hg b a ub ua hlt
          refine ⟨d, e1, hd _ e2, fun v hv => ?_⟩
          rw [natApart_comm]
          unfold value
          rw [natApart_binVal _ _ (by simp [hl a ua, hl b ub]), ← hv _ e2]
        · rename_i hlt
          obtain ⟨d, e1, e2⟩ := hg a b ua ub (by omega)
          refine ⟨d, e1, hd _ e2, fun v hv => ?_⟩
          unfold value
          rw [natApart_binVal _ _ (by simp [hl a ua, hl b ub]), ← hv _ e2]
      rw [e1]
      dsimp only
      rw [h1]
      refine ⟨d ++ bits, rfl, ?_, ?_, fun v hv => ?_⟩
      · rw [List.length_append, e2.1, h2, List.length_cons, Nat.mul_add]
        omega
      · intro l hl
        rcases List.mem_append.1 hl with hl | hl
        · exact e2.2 l hl
        · exact h3 l hl
      · rw [List.map_append, List.count_append, e3 v hv, h4 v hv]
        simp
    · have e : pairsFrom n ((some a, some b) :: ss) = pairsFrom n ss := by
        simp [pairsFrom, bothColours, hm]
      rw [e] at h' ⊢
      rw [if_pos (by rw [mem_edge a ua, mem_edge b ub]; unfold Inner at hm; tauto)]
      exact countedLoop_spec n len s lab ds hl hd hg ss (fun t ht => h t (by simp [ht])) h'

end FSat
