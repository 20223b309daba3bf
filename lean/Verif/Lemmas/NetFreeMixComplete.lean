import Verif.Lemmas.NetFreeMixFill
/-!
Every layout with suitable shares satisfies all clauses of `create_n_to_m_balancer`.
-/

set_option linter.unusedSimpArgs false

namespace FSat

/-- The shares of the inputs, continued to the empty cells of the first and the last column. -/
def mixForward (w m fIn fOut : Nat) (φ : Nat → Nat × Nat → Nat) (k : Nat) (p : Nat × Nat) : Nat :=
  if p.1 = 0 then (if p.2 % m = k then fIn else 0) else if p.1 = w - 1 then fOut else φ k p

/-- The same for the shares of the outputs. -/
def mixBackward (w n bIn bOut : Nat) (β : Nat → Nat × Nat → Nat) (k : Nat) (p : Nat × Nat) : Nat :=
  if p.1 = 0 then bOut else if p.1 = w - 1 then (if p.2 % n = k then bIn else 0) else β k p

/-- The cell in front of a splitter half. -/
def front (g : Grid) (T : Nat × Nat → Tile) (p : Nat × Nat) : Nat × Nat :=
  match T p with
  | .splitter d _ => (g.nb p d).getD p
  | _ => p

theorem front_eq {g : Grid} {T : Nat × Nat → Tile} {p q : Nat × Nat} {d : Dir} {b : Bool} (ht : T p = .splitter d b)
    (hq : g.nb p d = some q) : front g T p = q := by
  unfold front
  rw [ht]
  simp [hq]

section
variable {g : Grid} {T : Nat × Nat → Tile} {conn : Nat × Nat → Nat × Nat → Dir → Prop}

/-- All four ends of the splitter at a head are used. -/
def FullAt (g : Grid) (T : Nat × Nat → Tile) (conn : Nat × Nat → Nat × Nat → Dir → Prop) (p : Nat × Nat) : Prop :=
  ∀ d, T p = .splitter d true → EntryUsed g.nb T conn p d ∧ EntryUsed g.nb T conn (mate g T p) d ∧ ExitUsed g.nb T conn p d ∧
    ExitUsed g.nb T conn (mate g T p) d

theorem FreeLayout.wide {m n i j : Nat} (hm : 0 < m) (hn : 0 < n) (hne : m ≠ n) (h : FreeLayout g T m n i j) : g.width - 1 ≠ 0 := by
  intro h0
  have h1 := h.inputs
  have h2 := h.outputs
  rw [h0] at h2
  have a : ∀ y < g.height, (i ≤ y ∧ y < i + m) ↔ (j ≤ y ∧ y < j + n) := by
    intro y hy
    have k1 := h1.2 y hy
    have k2 := h2.2 y hy
    by_cases c1 : i ≤ y ∧ y < i + m <;> by_cases c2 : j ≤ y ∧ y < j + n <;> simp only [c1, c2, if_true, if_false] at k1 k2 ⊢ <;>
      rw [k1] at k2 <;> cases k2
  have l1 := h1.1
  have l2 := h2.1
  have b1 := a i (by omega)
  have b2 := a j (by omega)
  have b3 := a (i + m - 1) (by omega)
  have b4 := a (j + n - 1) (by omega)
  omega

end

open Classical in
/-- Completeness: a layout with suitable shares satisfies all clauses of `create_n_to_m_balancer`.  The assignment of the variables after
those of the grid is free. -/
theorem nToM_complete {width height m n : Nat} {ugLen : Option Nat} (hw : 0 < width) (hh : 0 < height) (hm : 0 < m) (hn : 0 < n)
    (hne : m ≠ n) {g : Grid} {full : Nat} (hfull : full = maxBeltFlow m n)
    (hgd : g = mkGrid width height ⟨false, false⟩ none ugLen (nToMFields m n full.size) 0) {cs : Cnf}
    (hcs : nToMClauses g (fun p => (nToMLits width m n full.size p).1) (fun p => (nToMLits width m n full.size p).2) m n = .ok cs)
    {T : Nat × Nat → Tile} {i j : Nat} (hlay : FreeLayout g T m n i j) {conn : Nat × Nat → Nat × Nat → Dir → Prop}
    (hc : SplitterChoice g.In g.nb T conn) (ha : AlmostFull g.In g.nb T conn) {φ β : Nat → Nat × Nat → Nat}
    (hs : MixShares g.In g.nb T conn width m n i j full φ β) (hd : NoIdleFull g.In g.nb T conn m φ) :
    ∃ v0, ∀ v, Agree (height * width * (gridFields none (nToMFields m n full.size)).variableCount) v0 v →
      Sat v cs ∧ ∀ p, g.In p → g.vals v p = drawCell g T (connFlow g T conn).inp (connFlow g T conn).out (fun _ => 0) p := by
  have hg : g.WF := by rw [hgd]; exact mkGrid_wf hw hh _ none _ (by intro n h; cases h) _ _
  have hgw : g.width = width := by rw [hgd]; rfl
  have hge : g.edge = ⟨false, false⟩ := by rw [hgd]; rfl
  have hgb : g.bits = 0 := by rw [hgd]; rfl
  have hgc : g.colours = none := by rw [hgd]; rfl
  obtain ⟨q1, q2, q3, q4, q5, q6, _, _, q7, q8, q9, q10⟩ := c30_constants hm hn
  rw [← hfull] at q3 q4 q7 q8 q9 q10
  generalize hfl : nToMFlows m n = flows at q1 q2 q3 q4 q5 q6 q7 q8 q9 q10
  obtain ⟨fIn, fOut, bIn, bOut⟩ := flows
  simp only at q1 q2 q3 q4 q5 q6 q7 q8 q9 q10
  have hfp : 0 < full := by rw [hfull]; exact maxBeltFlow_pos hm hn
  have hbits : 0 < full.size := Nat.size_pos.2 hfp
  have hlog := size_log hfp
  subst hgw
  have hr := hlay.rules
  have hin := hlay.inner hg hge
  have hwide := hlay.wide hm hn hne
  have hfits := connFlow_fits hg hc ha hr.joined hr.splitters hin
  have hl := draw_lays (col := fun _ => 0) hr.basic hfits
  have hint := draw_intersection (col := fun _ => 0) hg hl hfits hr.ends
  let ψ := mixForward g.width m fIn fOut φ
  let χ := mixBackward g.width n bIn bOut β
  have hψ : ∀ k < m, ∀ p, g.In p → T p ≠ .empty → ψ k p = φ k p := by
    rintro k hk ⟨x, y⟩ hp ht
    show mixForward _ _ _ _ _ _ _ = _
    unfold mixForward
    simp only
    split
    · rename_i h0
      subst h0
      rcases hlay.first hp.2 with h | ⟨_, h1, h2⟩
      · exact absurd h ht
      · have := (hs.inputs y h1 h2).1 k hk
        apply Nat.eq_of_mul_eq_mul_right hm
        rw [this]
        split
        · rw [← q3, Nat.mul_comm]
        · simp
    · split
      · rename_i h0 h1
        subst h1
        rcases hlay.last hp.2 with h | ⟨_, h1, h2⟩
        · exact absurd h ht
        · have := (hs.outputs y h1 h2).1 k hk
          apply Nat.eq_of_mul_eq_mul_right (Nat.mul_pos hm hn)
          rw [this, ← q3, ← q5]
          ring
      · rfl
  have hχ : ∀ k < n, ∀ p, g.In p → T p ≠ .empty → χ k p = β k p := by
    rintro k hk ⟨x, y⟩ hp ht
    show mixBackward _ _ _ _ _ _ _ = _
    unfold mixBackward
    simp only
    split
    · rename_i h0
      subst h0
      rcases hlay.first hp.2 with h | ⟨_, h1, h2⟩
      · exact absurd h ht
      · have := (hs.inputs y h1 h2).2 k hk
        apply Nat.eq_of_mul_eq_mul_right (Nat.mul_pos hm hn)
        rw [this, ← q4, ← q6]
        ring
    · split
      · rename_i h0 h1
        subst h1
        rcases hlay.last hp.2 with h | ⟨_, h1, h2⟩
        · exact absurd h ht
        · have := (hs.outputs y h1 h2).2 k hk
          apply Nat.eq_of_mul_eq_mul_right hn
          rw [this]
          split
          · rw [← q4, Nat.mul_comm]
          · simp
      · rfl
  have hfo : fOut ≤ full := (Nat.le_mul_of_pos_left _ hm).trans q9
  have hbo : bOut ≤ full := (Nat.le_mul_of_pos_left _ hn).trans q10
  have hleF : ∀ k < m, ∀ p, g.In p → ψ k p ≤ full := by
    intro k hk p hp
    show mixForward _ _ _ _ _ _ _ ≤ _
    unfold mixForward
    split
    · split <;> omega
    · split
      · exact hfo
      · exact (hs.le p hp).1 k hk
  have hleB : ∀ k < n, ∀ p, g.In p → χ k p ≤ full := by
    intro k hk p hp
    show mixBackward _ _ _ _ _ _ _ ≤ _
    unfold mixBackward
    split
    · exact hbo
    · split
      · split <;> omega
      · exact (hs.le p hp).2 k hk
  have hlt : full < 2 ^ full.size := Nat.lt_size_self _
  have htwo : 2 ^ full.size = 2 * 2 ^ (full.size - 1) := by
    conv_lhs => rw [← Nat.sub_add_cancel hbits]
    rw [pow_succ, Nat.mul_comm]
  have hpp : 0 < 2 ^ (full.size - 1) := Nat.pow_pos (by norm_num)
  have hsmall : ∀ a x, 2 ≤ a → a * x ≤ full → x < 2 ^ (full.size - 1) := by
    intro a x h2 hx
    have : 2 * x ≤ full := (Nat.mul_le_mul_right x h2).trans hx
    omega
  have htopF : ∀ p, g.In p → ∀ k < m, ∀ l < m, k ≠ l → ¬ (2 ^ (full.size - 1) ≤ ψ k p ∧ 2 ^ (full.size - 1) ≤ ψ l p) := by
    intro p hp k hk l hl' hkl
    show ¬ (_ ≤ mixForward _ _ _ _ _ _ _ ∧ _ ≤ mixForward _ _ _ _ _ _ _)
    unfold mixForward
    by_cases h0 : p.1 = 0
    · rw [if_pos h0, if_pos h0]
      rintro ⟨a, b⟩
      split at a
      · split at b
        · omega
        · omega
      · omega
    · rw [if_neg h0, if_neg h0]
      by_cases h1 : p.1 = g.width - 1
      · rw [if_pos h1, if_pos h1]
        rintro ⟨a, _⟩
        have := hsmall m fOut (by omega) q9
        omega
      · rw [if_neg h1, if_neg h1, hlog]
        exact (hs.top p hp).1 k hk l hl' hkl
  have htopB : ∀ p, g.In p → ∀ k < n, ∀ l < n, k ≠ l → ¬ (2 ^ (full.size - 1) ≤ χ k p ∧ 2 ^ (full.size - 1) ≤ χ l p) := by
    intro p hp k hk l hl' hkl
    show ¬ (_ ≤ mixBackward _ _ _ _ _ _ _ ∧ _ ≤ mixBackward _ _ _ _ _ _ _)
    unfold mixBackward
    by_cases h0 : p.1 = 0
    · rw [if_pos h0, if_pos h0]
      rintro ⟨a, _⟩
      have := hsmall n bOut (by omega) q10
      omega
    · rw [if_neg h0, if_neg h0]
      by_cases h1 : p.1 = g.width - 1
      · rw [if_pos h1, if_pos h1]
        rintro ⟨a, b⟩
        split at a
        · split at b
          · omega
          · omega
        · omega
      · rw [if_neg h1, if_neg h1, hlog]
        exact (hs.top p hp).2 k hk l hl' hkl
  -- the assignment
  let fl := flowBits m full.size ψ
  let fl' := flowBits n full.size χ
  have hfla : ∀ p, Arrayed m full.size (fl p) := flowBits_arrayed _ _ _
  have hfla' : ∀ p, Arrayed n full.size (fl' p) := flowBits_arrayed _ _ _
  have hhalf : ∀ a b : Int, (halfCarries (getBits a full.size) (getBits b full.size) ++ [false]).length = full.size := by
    intro a b
    unfold halfCarries
    rw [List.length_append, carries_length _ _ _ (by simp)]
    simp
    omega
  have hcar : ∀ a b : Int, (carries (getBits a full.size) (getBits b full.size) false).length = full.size := by
    intro a b
    rw [carries_length _ _ _ (by simp)]
    simp
  obtain ⟨v0, hv0⟩ := nToM_assign g.width height m n full.size ugLen
    (drawCell g T (connFlow g T conn).inp (connFlow g T conn).out fun _ => 0) (fun p => by simp [drawCell, hgb]) (fl := fl) (fl' := fl')
    (di := fun p => List.zipWith (List.zipWith xor) (fl p) (fl (mate g T p)))
    (di' := fun p => List.zipWith (List.zipWith xor) (fl' p) (fl' (mate g T p)))
    (ca := fun p => (List.range m).map fun k => if FullAt g T conn p then
      halfCarries (getBits (ψ k p) full.size) (getBits (ψ k (mate g T p)) full.size) ++ [false] else
      carries (getBits (ψ k p) full.size) (getBits (ψ k (mate g T p)) full.size) false)
    (ca' := fun p => (List.range n).map fun k => if FullAt g T conn p then
      halfCarries (getBits (χ k (front g T p)) full.size) (getBits (χ k (front g T (mate g T p))) full.size) ++ [false] else
      carries (getBits (χ k (front g T p)) full.size) (getBits (χ k (front g T (mate g T p))) full.size) false)
    (ux := fun p => fl (underCell g T .right p)) (uy := fun p => fl (underCell g T .up p))
    (ux' := fun p => fl' (underCell g T .right p)) (uy' := fun p => fl' (underCell g T .up p)) hfla
    (fun p => zipWith_arrayed (hfla p) (hfla _))
    (fun p => map_arrayed fun k _ => by split <;> [exact hhalf _ _; exact hcar _ _]) (fun p => hfla _) (fun p => hfla _) hfla'
    (fun p => zipWith_arrayed (hfla' p) (hfla' _))
    (fun p => map_arrayed fun k _ => by split <;> [exact hhalf _ _; exact hcar _ _]) (fun p => hfla' _) (fun p => hfla' _)
  rw [← hgd] at hv0
  refine ⟨v0, fun v hag => ?_⟩
  have hv := hv0 v hag
  have hvals : ∀ p, g.In p → g.vals v p = drawCell g T (connFlow g T conn).inp (connFlow g T conn).out (fun _ => 0) p := fun p hp => (hv p hp).1
  refine ⟨?_, hvals⟩
  have hlv : Lays g (g.vals v) T := fun p hp => by rw [hvals p hp]; exact hl p hp
  have hiv : IntersectionSem g (g.vals v) := hint.congr hg hvals
  have hinp : ∀ p d, g.In p → ((g.vals v p).inp d = true ↔ EntryUsed g.nb T conn p d) := fun p d hp => by
    rw [hvals p hp]; exact connFlow_inp
  have hout : ∀ p d, g.In p → ((g.vals v p).out d = true ↔ ExitUsed g.nb T conn p d) := fun p d hp => by
    rw [hvals p hp]; exact connFlow_out
  have hlink : ∀ p q d, g.In p → (conn p q d ↔ g.linked (g.vals v) p q d) := by
    intro p q d hp
    constructor
    · intro h
      have k := (hc.1 p q d hp h).1
      exact ⟨k, (hout p d hp).2 ((exitUsed_iff hc hp k).2 h)⟩
    · rintro ⟨h1, h2⟩
      exact (exitUsed_iff hc hp h1).1 ((hout p d hp).1 h2)
  have hconn : ∀ p q d, g.In p → g.linked (g.vals v) p q d → Connected g.nb T p q d := fun p q d hp h => hc.1 p q d hp ((hlink p q d hp).2 h)
  have hst : ∀ k < m, Steady g.In g.nb T (g.linked (g.vals v)) fun p => (ψ k p : Rat) := fun k hk =>
    ((hs.steady k hk).congr hlink).congr_on hg hconn fun p hp ht => by rw [hψ k hk p hp ht]
  have hdr : ∀ k < n, Drawn g.In g.nb T (g.linked (g.vals v)) fun p => (χ k p : Rat) := fun k hk =>
    ((hs.drawn k hk).congr hlink).congr_on hg hconn fun p hp ht => by rw [hχ k hk p hp ht]
  have hcompF : ∀ p, g.In p → ∀ k < m, (comp (nToMLits g.width m n full.size p).1.flow k).map (ev v) = getBits (ψ k p) full.size :=
    fun p hp k hk => by rw [comp_map (hv p hp).2.1.flow, flowBits_getD hk]
  have hcompB : ∀ p, g.In p → ∀ k < n, (comp (nToMLits g.width m n full.size p).2.flow k).map (ev v) = getBits (χ k p) full.size :=
    fun p hp k hk => by rw [comp_map (hv p hp).2.2.flow, flowBits_getD hk]
  have hvalF : ∀ p, g.In p → ∀ k < m, value v (comp (nToMLits g.width m n full.size p).1.flow k) = ψ k p := fun p hp k hk => by
    unfold value
    rw [hcompF p hp k hk, binVal_getBits_of_range _ _ ((hleF k hk p hp).trans_lt hlt)]
  have hvalB : ∀ p, g.In p → ∀ k < n, value v (comp (nToMLits g.width m n full.size p).2.flow k) = χ k p := fun p hp k hk => by
    unfold value
    rw [hcompB p hp k hk, binVal_getBits_of_range _ _ ((hleB k hk p hp).trans_lt hlt)]
  have hQF : ∀ p, g.In p → (nToMLits g.width m n full.size p).1.flow.flatten.map (ev v) = (fl p).flatten := fun p hp =>
    flatten_map (hv p hp).2.1.flow
  have hQB : ∀ p, g.In p → (nToMLits g.width m n full.size p).2.flow.flatten.map (ev v) = (fl' p).flatten := fun p hp =>
    flatten_map (hv p hp).2.2.flow
  have flEq : ∀ (n : Nat) (ω : Nat → Nat × Nat → Nat) p q, (∀ k < n, ω k p = ω k q) →
      (flowBits n full.size ω p).flatten = (flowBits n full.size ω q).flatten := by
    intro n ω p q h
    unfold flowBits
    congr 1
    apply List.map_congr_left
    intro k hk
    rw [h k (List.mem_range.1 hk)]
  have hrange : ∀ y, y < g.height → g.In (0, y) ∧ g.In (g.width - 1, y) := fun y hy => ⟨⟨hg.w, hy⟩, Nat.sub_lt hg.w Nat.one_pos, hy⟩
  have noSp : ∀ p, g.In p → (T p = .empty ∨ T p = .belt .right .right) → (g.vals v p).isSplitter = false := by
    intro p hp h
    refine (hlv p hp).isSplitter_false ?_
    rintro ⟨d, b, h2⟩
    rw [h2] at h
    rcases h with h | h <;> cases h
  have hfirst : ∀ y < g.height, T (0, y) = .empty ∨ T (0, y) = .belt .right .right := fun y hy =>
    (hlay.first hy).imp_right And.left
  have hlast : ∀ y < g.height, T (g.width - 1, y) = .empty ∨ T (g.width - 1, y) = .belt .right .right := fun y hy =>
    (hlay.last hy).imp_right And.left
  have htr : ∀ (n : Nat) (ω : Nat → Nat × Nat → Nat) (L : Nat × Nat → FlowLits),
      (∀ k < n, ∀ p q d, g.In p → g.linked (g.vals v) p q d → ¬ (T p).IsSplitter → (ω k q : Rat) = ω k p) →
      (∀ k < n, ∀ p q d l, g.In p → UgPair g.nb T p q d l → (ω k q : Rat) = ω k p) →
      (∀ p, g.In p → (L p).flow.flatten.map (ev v) = (flowBits n full.size ω p).flatten) →
      (∀ p, g.In p → (L p).ux.flatten.map (ev v) = (flowBits n full.size ω (underCell g T .right p)).flatten) →
      (∀ p, g.In p → (L p).uy.flatten.map (ev v) = (flowBits n full.size ω (underCell g T .up p)).flatten) →
      TransportSem g (g.vals v) (fun p => (L p).flow.flatten.map (ev v))
        (fun d p => ((if d.axis = .horizontal then fun p => (L p).ux.flatten else fun p => (L p).uy.flatten) p).map (ev v)) := by
    intro n ω L w1 w2 w3 w4 w5
    have hts := transport_fill (C := g.vals v) (Q := fun p => (flowBits n full.size ω p).flatten) hg hlv hr.undergrounds (fun d p hp h => by
        rw [hvals p hp] at h
        exact of_decide_eq_true h) (fun p q d hp hq ho hns => flEq n ω _ _ fun k hk => by
          exact_mod_cast w1 k hk p q d hp ⟨hq, ho⟩ hns) (fun p q d k' hp hpair => flEq n ω _ _ fun k hk => by
          exact_mod_cast w2 k hk p q d k' hp hpair)
    have hU : ∀ (d : Dir) p, g.In p → ((if d.axis = .horizontal then fun p => (L p).ux.flatten
        else fun p => (L p).uy.flatten) p).map (ev v) = (flowBits n full.size ω (underCell g T d.axisDir p)).flatten := by
      intro d p hp
      unfold Dir.axisDir
      split
      · exact w4 p hp
      · exact w5 p hp
    refine ⟨fun d p q hp hq h1 h2 => ?_, fun d p q hp hq h1 => ?_, fun d p q hp hq h1 h2 h3 => ?_, fun d p q hp hq h1 h2 h3 => ?_⟩
    · rw [w3 p hp, w3 q (Grid.nb_in hg hq)]; exact hts.surface d p q hp hq h1 h2
    · rw [hU d p hp, hU d q (Grid.nb_in hg hq)]; exact hts.under d p q hp hq h1
    · rw [w3 p hp, hU d q (Grid.nb_in hg hq)]; exact hts.entrance d p q hp hq h1 h2 h3
    · rw [hU d p hp, w3 q (Grid.nb_in hg hq)]; exact hts.exit d p q hp hq h1 h2 h3
  have hpairOf : ∀ p d p01, g.In p → g.nb p d.ccw = some p01 → (g.vals v p).isHead = true →
      ((g.vals v p).inp d = true ∨ (g.vals v p).out d = true) → SplitterPair g.nb T p p01 d := by
    intro p d p01 hp h01 hhd hi
    obtain ⟨e, he⟩ := (hlv p hp).isHead_iff.1 hhd
    have : e = d := by
      rcases hi with hi | hi
      · have ht := (hlv p hp).inp_takes hi
        rw [he] at ht
        exact ht
      · have ht := (hlv p hp).out_emits hi
        rw [he] at ht
        exact ht
    subst this
    obtain ⟨q, _, _, h1, h2⟩ := hr.splitters.1 p e hp he
    rw [h01] at h1
    cases h1
    exact ⟨he, h01, h2⟩
  have hsem : NToMSem g (fun p => (nToMLits g.width m n full.size p).1) (fun p => (nToMLits g.width m n full.size p).2) m n v := by
    refine ⟨(draw_init hg hl hr.splitters (by rw [hgc]; simp)).congr hg hvals, (draw_blockUg hg hl hr.under).congr hvals,
      (draw_underground hg hl hr.undergrounds).congr hg hvals, ?_, ?_, ?_, ?_, ?_, ?_, ?_⟩
    · intro p hp k hk
      rw [hvalF p hp k hk, ← hfull]
      exact hleF k hk p hp
    · intro p hp k hk
      rw [hvalB p hp k hk, ← hfull]
      exact hleB k hk p hp
    · exact htr m ψ _ (fun k hk => (hst k hk).surface) (fun k hk => (hst k hk).under) hQF
        (fun p hp => flatten_map (hv p hp).2.1.ux) (fun p hp => flatten_map (hv p hp).2.1.uy)
    · exact htr n χ _ (fun k hk => (hdr k hk).surface) (fun k hk => (hdr k hk).under) hQB
        (fun p hp => flatten_map (hv p hp).2.2.ux) (fun p hp => flatten_map (hv p hp).2.2.uy)
    · intro p d p10 p01 p11 hp h10 h01 h11 hhd
      have i10 := Grid.nb_in hg h10
      have i01 := Grid.nb_in hg h01
      have i11 := Grid.nb_in hg h11
      by_cases hany : (g.vals v p).inp d = true ∨ (g.vals v p).out d = true
      · have hpair := hpairOf p d p01 hp h01 hhd hany
        obtain ⟨b0, hb0⟩ := Option.ne_none_iff_exists'.1 (hin p _ _ hp hpair.1).2
        obtain ⟨b1, hb1⟩ := Option.ne_none_iff_exists'.1 (hin p01 _ _ i01 hpair.2.2).2
        have e1 := inlets_eq hg hiv hp hb0
        have e2 := inlets_eq hg hiv i01 hb1
        have e3 := outlets_eq (C := g.vals v) h10
        have e4 := outlets_eq (C := g.vals v) h11
        refine mix_of ?_ (fun k hk => ?_) fun k hk => ?_
        · have := ha p p01 d hp i01 hpair
          have ci : ∀ r, inlets g.In conn r d = inlets g.In (g.linked (g.vals v)) r d := by
            intro r
            unfold inlets
            simp only [fun x => and_congr_right (a := g.In x) fun hx => hlink x r d hx]
          have co : ∀ r, g.In r → outlets conn r d = outlets (g.linked (g.vals v)) r d := by
            intro r hr
            unfold outlets
            simp only [fun x => hlink r x d hr]
          rw [ci, ci, co p hp, co p01 i01, e1, e2, e3, e4] at this
          exact this
        · have hsp := (hst k hk).splitter p p01 d hp i01 hpair
          rw [e3, e4, arrives_eq hg hiv hp hb0, arrives_eq hg hiv i01 hb1] at hsp
          simp only [hvalF _ hp k hk, hvalF _ i01 k hk, hvalF _ i10 k hk, hvalF _ i11 k hk]
          exact ⟨fun h => hsp p10 (.inl ⟨h10, h⟩), fun h => hsp p11 (.inr ⟨h11, h⟩)⟩
        · have hsp := (hdr k hk).splitter p p01 d p10 p11 hp i01 hpair h10 h11
          rw [e1, e2, departs_eq h10, departs_eq h11] at hsp
          simp only [hvalB _ hp k hk, hvalB _ i01 k hk, hvalB _ i10 k hk, hvalB _ i11 k hk]
          exact ⟨fun h => hsp p (.inl rfl) ((inflow_iff hg hiv hp hb0).2 h), fun h => hsp p01 (.inr rfl) ((inflow_iff hg hiv i01 hb1).2 h)⟩
      · push Not at hany
        obtain ⟨n1, n2⟩ := hany
        have n1 := Bool.eq_false_iff.2 n1
        have n2 := Bool.eq_false_iff.2 n2
        refine ⟨?_, ?_, ?_, ?_, ?_, ?_⟩ <;> simp only [n1, n2, Bool.false_eq_true, IsEmpty.forall_iff, and_self]
    · intro y hy
      refine ⟨noSp _ (hrange y hy).1 (hfirst y hy), fun k hk => ?_, fun k hk => ?_⟩
      · rw [hvalF _ (hrange y hy).1 k hk, hfl]
        rfl
      · rw [hvalB _ (hrange y hy).1 k hk, hfl]
        rfl
    · intro y hy
      refine ⟨noSp _ (hrange y hy).2 (hlast y hy), fun k hk => ?_, fun k hk => ?_⟩
      · rw [hvalF _ (hrange y hy).2 k hk, hfl]
        show mixForward _ _ _ _ _ _ _ = _
        unfold mixForward
        rw [if_neg hwide, if_pos rfl]
      · rw [hvalB _ (hrange y hy).2 k hk, hfl]
        show mixBackward _ _ _ _ _ _ _ = _
        unfold mixBackward
        rw [if_neg hwide, if_pos rfl]
  have hfullIff : ∀ p d p01, g.In p → SplitterPair g.nb T p p01 d → (FullAt g T conn p ↔
      (g.vals v p).inp d = true ∧ (g.vals v p01).inp d = true ∧ (g.vals v p).out d = true ∧ (g.vals v p01).out d = true) := by
    intro p d p01 hp hpair
    have i01 := Grid.nb_in hg hpair.2.1
    rw [hinp p d hp, hinp p01 d i01, hout p d hp, hout p01 d i01]
    unfold FullAt
    rw [mate_eq hpair.1 hpair.2.1]
    constructor
    · exact fun h => h d hpair.1
    · intro h e he
      rw [hpair.1] at he
      cases he
      exact h
  refine nToM_fill hg (fun p => (nToMLits_shape _ _ _ _ p).1) (fun p => (nToMLits_shape _ _ _ _ p).2) hcs hsem ⟨?_, ?_, ?_⟩ ?_
  · intro p hp k hk l hl' hkl
    rw [hvalF p hp k hk, hvalF p hp l hl']
    exact htopF p hp k hk l hl' hkl
  · intro p hp k hk l hl' hkl
    rw [hvalB p hp k hk, hvalB p hp l hl']
    exact htopB p hp k hk l hl' hkl
  · intro p d p10 p01 p11 hp h10 h01 h11 hhd f1 f2 f3 f4 heq
    have hpair := hpairOf p d p01 hp h01 hhd (.inl f1)
    have i01 := Grid.nb_in hg h01
    obtain ⟨b0, hb0⟩ := Option.ne_none_iff_exists'.1 (hin p _ _ hp hpair.1).2
    obtain ⟨b1, hb1⟩ := Option.ne_none_iff_exists'.1 (hin p01 _ _ i01 hpair.2.2).2
    obtain ⟨r0, r0i, r0c⟩ := (inflow_iff hg hiv hp hb0).2 f1
    obtain ⟨r1, r1i, r1c⟩ := (inflow_iff hg hiv i01 hb1).2 f2
    obtain ⟨k, hk, hne'⟩ := hd p p01 d hp hpair ⟨r0, r0i, (hlink _ _ _ r0i).2 r0c⟩ ⟨r1, r1i, (hlink _ _ _ r1i).2 r1c⟩
      ⟨p10, (hlink _ _ _ hp).2 ⟨h10, f3⟩⟩ ⟨p11, (hlink _ _ _ i01).2 ⟨h11, f4⟩⟩
    apply hne'
    rw [List.map_append, List.map_append] at heq
    have heq := (List.append_inj heq (by
      simp only [List.length_map, (nToMLits_shape g.width m n full.size p).1.flow.flatten_length,
        (nToMLits_shape g.width m n full.size p01).1.flow.flatten_length])).1
    have h1 := readComp_eq (nToMLits_shape g.width m n full.size p).1.flow hk v
    have h2 := readComp_eq (nToMLits_shape g.width m n full.size p01).1.flow hk v
    rw [heq, h2, hvalF p hp k hk, hvalF p01 i01 k hk, hψ k hk p hp (by rw [hpair.1]; simp), hψ k hk p01 i01 (by rw [hpair.2.2]; simp)] at h1
    exact_mod_cast h1.symm
  · intro p d p10 p01 p11 hp h10 h01 h11 hhd
    have i10 := Grid.nb_in hg h10
    have i01 := Grid.nb_in hg h01
    have i11 := Grid.nb_in hg h11
    have hcaF : ∀ k < m, (comp (nToMLits g.width m n full.size p).1.carry k).map (ev v) = if FullAt g T conn p then
        halfCarries (getBits (ψ k p) full.size) (getBits (ψ k (mate g T p)) full.size) ++ [false] else
        carries (getBits (ψ k p) full.size) (getBits (ψ k (mate g T p)) full.size) false := by
      intro k hk
      rw [comp_map (hv p hp).2.1.carry]
      simp [List.getD_eq_getElem?_getD, List.getElem?_map, hk]
    have hcaB : ∀ k < n, (comp (nToMLits g.width m n full.size p).2.carry k).map (ev v) = if FullAt g T conn p then
        halfCarries (getBits (χ k (front g T p)) full.size) (getBits (χ k (front g T (mate g T p))) full.size) ++ [false] else
        carries (getBits (χ k (front g T p)) full.size) (getBits (χ k (front g T (mate g T p))) full.size) false := by
      intro k hk
      rw [comp_map (hv p hp).2.2.carry]
      simp [List.getD_eq_getElem?_getD, List.getElem?_map, hk]
    have htake : ∀ a b : Int, (halfCarries (getBits a full.size) (getBits b full.size) ++ [false]).take (full.size - 1) =
        halfCarries (getBits a full.size) (getBits b full.size) := by
      intro a b
      have := hhalf a b
      rw [List.length_append, List.length_singleton] at this
      exact List.take_left' (by omega)
    have htake' : ∀ a b : Int, (carries (getBits a full.size) (getBits b full.size) false).take full.size =
        carries (getBits a full.size) (getBits b full.size) false := fun a b =>
      List.take_of_length_le (by rw [hcar])
    refine ⟨fun f1 f2 f3 f4 => ?_, fun hany hnf => ?_⟩
    · have hpair := hpairOf p d p01 hp h01 hhd (.inl f1)
      have hmt := mate_eq hpair.1 h01
      have hF := (hfullIff p d p01 hp hpair).2 ⟨f1, f2, f3, f4⟩
      have ft := front_eq hpair.1 h10
      have ft' := front_eq hpair.2.2 h11
      refine ⟨fun k hk => ?_, fun k hk => ?_, ?_⟩
      · rw [hcaF k hk, if_pos hF, htake, hcompF p hp k hk, hcompF p01 i01 k hk, hmt]
      · rw [hcaB k hk, if_pos hF, htake, hcompB p10 i10 k hk, hcompB p11 i11 k hk, hmt, ft, ft']
      · rw [List.map_append, List.map_append, List.map_append, flatten_map (hv p hp).2.1.diff, flatten_map (hv p hp).2.2.diff, hQF p hp,
          hQF p01 i01, hQB p hp, hQB p01 i01, zipWith_flatten (hfla _) (hfla _), zipWith_flatten (hfla' _) (hfla' _), hmt,
          List.zipWith_append (by rw [(hfla p).flatten_length, (hfla p01).flatten_length])]
    · have hpair := hpairOf p d p01 hp h01 hhd hany
      have hmt := mate_eq hpair.1 h01
      have hF : ¬ FullAt g T conn p := fun h => hnf ((hfullIff p d p01 hp hpair).1 h)
      have ft := front_eq hpair.1 h10
      have ft' := front_eq hpair.2.2 h11
      refine ⟨fun k hk => ?_, fun k hk => ?_⟩
      · rw [hcaF k hk, if_neg hF, htake', hcompF p hp k hk, hcompF p01 i01 k hk, hmt]
      · rw [hcaB k hk, if_neg hF, htake', hcompB p10 i10 k hk, hcompB p11 i11 k hk, hmt, ft, ft']

end FSat
