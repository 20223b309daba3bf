import Verif.Lemmas.NetFreeFill
import Verif.Spec.NetFree
/-!
Every layout with suitable flows satisfies the clauses of the net-free balancers.
-/

set_option linter.unusedSimpArgs false

namespace FSat

/-! ### `n` to `n` -/

theorem columnNoSplitter_fill {g : Grid} {x : Nat} {v : Asg} (h : ∀ y < g.height, (g.vals v (x, y)).isSplitter = false) :
    Sat v (columnNoSplitter g x) := by
  unfold columnNoSplitter
  rw [Sat_map]
  intro y hy
  simp only [SatC_cons, SatC_nil, or_false, ev_neg, Bool.not_eq_true']
  exact h y (by simpa using hy)

theorem nToN_fill {g : Grid} (hg : g.WF) {F : Nat × Nat → FlowLits} {size bits cb : Nat} (hF : ∀ p, (F p).Shape (size - 1) bits cb)
    {cs : Cnf} (h : nToNClauses g F size = .ok cs) {v : Asg} (hs : NToNSem g F size v)
    (hx : ∀ p d p10 p01 p11, g.In p → g.nb p d = some p10 → g.nb p d.ccw = some p01 → g.nb p01 d = some p11 →
      (g.vals v p).isHead = true → (g.vals v p).inp d = true →
      (∀ i < size - 1, ((comp (F p).carry i).map (ev v)).take (bits - 1) =
        halfCarries ((comp (F p).flow i).map (ev v)) ((comp (F p01).flow i).map (ev v))) ∧
      (F p).diff.flatten.map (ev v) = List.zipWith xor ((F p).flow.flatten.map (ev v)) ((F p01).flow.flatten.map (ev v))) : Sat v cs := by
  unfold nToNClauses at h
  refine joinE_fill h ?_
  simp only [List.mem_cons, List.not_mem_nil, or_false, forall_eq_or_imp, forall_eq]
  refine ⟨fun c hc => ?_, fun c hc => ?_, fun c hc => ?_, fun c hc => ?_, fun c hc => ?_, fun c hc => ?_, fun c hc => ?_, fun c hc => ?_,
    fun c hc => ?_, fun c hc => ?_⟩
  · obtain ⟨ci, e, s⟩ := init_iff hg
    rw [e] at hc; cases hc
    exact (s v).2 hs.init
  · cases hc; exact (Sat_blockUg hg _ v).2 hs.shut
  · cases hc; exact (Sat_underground g v).2 hs.under
  · refine concatE_fill hc fun p hp c' hc' => joinE_fill hc' ?_
    rw [g.mem_cells] at hp
    simp only [List.mem_cons, List.not_mem_nil, or_false, forall_eq_or_imp, forall_eq]
    refine ⟨fun c'' h'' => ?_, fun c'' h'' => concatE_fill h'' fun l hl c3 h3 => ?_⟩
    · cases h''
      rw [Sat_implies]
      intro hsp
      simp only [List.mem_cons, List.not_mem_nil, or_false, forall_eq] at hsp
      obtain ⟨⟨d, h1⟩, d', h2⟩ := hs.both p hp hsp
      simp only [Sat_cons, Sat_nil, and_true, SatC, dirs, List.mem_map]
      exact ⟨⟨_, ⟨d, by cases d <;> simp [Dir.all], rfl⟩, h1⟩, _, ⟨d', by cases d' <;> simp [Dir.all], rfl⟩, h2⟩
    · obtain ⟨i, hi, rfl⟩ := List.mem_iff_getElem.1 hl
      have e : (F p).flow[i] = comp (F p).flow i := by
        rw [comp, List.getD_eq_getElem?_getD, List.getElem?_eq_getElem hi]; rfl
      rw [e] at h3
      exact setMaximum_fill h3 (hs.le p hp i (by rw [← (hF p).flow.1]; exact hi))
  · obtain ⟨c', e, s⟩ := transport_iff (g := g) (n := (size - 1) * bits) (q := fun p => (F p).flow.flatten)
      (qux := fun p => (F p).ux.flatten) (quy := fun p => (F p).uy.flatten) (fun p => (hF p).flow.flatten_length)
      (fun p => (hF p).ux.flatten_length) (fun p => (hF p).uy.flatten_length)
    rw [e] at hc; cases hc
    exact (s v).2 hs.transport
  · refine concatE_fill hc fun p hp c' hc' => concatE_fill hc' fun d _ c'' h'' => ?_
    rw [g.mem_cells] at hp
    unfold nToNCell at h''
    rw [Dir.next_eq] at h''
    cases h10 : g.nb p d with
    | none => rw [h10] at h''; cases h''; exact (Sat_nil v).2 trivial
    | some p10 =>
    cases h01 : g.nb p d.ccw with
    | none => rw [h10, h01] at h''; cases h''; exact (Sat_nil v).2 trivial
    | some p01 =>
    cases h11 : g.offset p (d.dx + d.ccw.dx) (d.dy + d.ccw.dy) with
    | none => rw [h10, h01, h11] at h''; cases h''; exact (Sat_nil v).2 trivial
    | some p11 =>
    rw [h10, h01, h11] at h''
    have hn : g.nb p01 d = some p11 := by
      rw [Grid.offset_corner1 hg hp d.across_ccw, Grid.nb_comm hg hp d.across_ccw, h01] at h11
      exact h11
    refine joinE_fill h'' ?_
    simp only [List.mem_cons, List.not_mem_nil, or_false, forall_eq_or_imp, forall_eq]
    refine ⟨fun c3 h3 => ?_, fun c3 h3 => ?_⟩
    · refine halveAll_fill h3 (hF p).flow (hF p01).flow (hF p10).flow (hF p11).flow (hF p).carry fun hpre i hi => ?_
      simp only [List.mem_cons, List.not_mem_nil, or_false, forall_eq_or_imp, forall_eq] at hpre
      obtain ⟨k1, k2⟩ := (hs.halve p d p10 p01 p11 hp h10 h01 hn hpre.1 hpre.2).1 i hi
      exact ⟨k1, k2, (hx p d p10 p01 p11 hp h10 h01 hn hpre.1 hpre.2).1 i hi⟩
    · cases h3
      refine diff_fill (by rw [(hF p).flow.flatten_length, (hF p).diff.flatten_length])
        (by rw [(hF p01).flow.flatten_length, (hF p).diff.flatten_length]) fun hpre => ?_
      simp only [List.mem_cons, List.not_mem_nil, or_false, forall_eq_or_imp, forall_eq] at hpre
      exact ⟨(hx p d p10 p01 p11 hp h10 h01 hn hpre.1 hpre.2).2, (hs.halve p d p10 p01 p11 hp h10 h01 hn hpre.1 hpre.2).2⟩
  · cases hc; exact columnNoSplitter_fill fun y hy => (hs.first y hy).1
  · exact columnFlow_fill hc (fun p => (hF p).flow) fun y hy => (hs.first y hy).2
  · cases hc; exact columnNoSplitter_fill fun y hy => (hs.last y hy).1
  · exact columnFlow_fill hc (fun p => (hF p).flow) fun y hy => (hs.last y hy).2

/-- The bits of the flows of a cell. -/
def flowBits (n bits : Nat) (φ : Nat → Nat × Nat → Nat) (p : Nat × Nat) : List (List Bool) :=
  (List.range n).map fun k => getBits (φ k p) bits

theorem flowBits_arrayed (n bits : Nat) (φ : Nat → Nat × Nat → Nat) (p : Nat × Nat) : Arrayed n bits (flowBits n bits φ p) := by
  refine ⟨by simp [flowBits], fun c hc => ?_⟩
  obtain ⟨k, _, rfl⟩ := List.mem_map.1 hc
  simp

theorem flowBits_getD {n bits k : Nat} {φ : Nat → Nat × Nat → Nat} {p : Nat × Nat} (hk : k < n) :
    (flowBits n bits φ p).getD k [] = getBits (φ k p) bits := by
  simp [flowBits, List.getD_eq_getElem?_getD, List.getElem?_map, hk]

/-- The other half of the splitter whose head is at a cell. -/
def mate (g : Grid) (T : Nat × Nat → Tile) (p : Nat × Nat) : Nat × Nat :=
  match T p with
  | .splitter d true => (g.nb p d.ccw).getD p
  | _ => p

theorem mate_eq {g : Grid} {T : Nat × Nat → Tile} {p q : Nat × Nat} {d : Dir} (ht : T p = .splitter d true) (hq : g.nb p d.ccw = some q) :
    mate g T p = q := by
  unfold mate
  rw [ht]
  simp [hq]

theorem map_arrayed {n b : Nat} {f : Nat → List Bool} (h : ∀ k < n, (f k).length = b) : Arrayed n b ((List.range n).map f) := by
  refine ⟨by simp, fun c hc => ?_⟩
  obtain ⟨k, hk, rfl⟩ := List.mem_map.1 hc
  exact h k (List.mem_range.1 hk)

theorem zipWith_flatten {n bits : Nat} {a b : List (List Bool)} (ha : Arrayed n bits a) (hb : Arrayed n bits b) :
    (List.zipWith (List.zipWith xor) a b).flatten = List.zipWith xor a.flatten b.flatten := by
  obtain ⟨rfl, ha⟩ := ha
  obtain ⟨hl, hb⟩ := hb
  induction a generalizing b with
  | nil => simp
  | cons x a ih =>
    cases b with
    | nil => simp at hl
    | cons y b =>
      simp only [List.zipWith_cons_cons, List.flatten_cons]
      rw [ih (fun c hc => ha c (by simp [hc])) (by simpa using hl) (fun c hc => hb c (by simp [hc])),
        List.zipWith_append (by rw [ha x (by simp), hb y (by simp)])]

theorem zipWith_arrayed {n bits : Nat} {a b : List (List Bool)} (ha : Arrayed n bits a) (hb : Arrayed n bits b) :
    Arrayed n bits (List.zipWith (List.zipWith xor) a b) := by
  refine ⟨by simp [ha.1, hb.1], fun c hc => ?_⟩
  obtain ⟨i, hi, rfl⟩ := List.mem_iff_getElem.1 hc
  simp only [List.getElem_zipWith, List.length_zipWith]
  rw [ha.2 _ (List.getElem_mem _), hb.2 _ (List.getElem_mem _)]
  exact Nat.min_self _

section
variable {g : Grid} {T : Nat × Nat → Tile}

theorem realise_inp (hg : g.WF) (hfull : FullSplitters g.In T (Connected g.nb T)) (hb : Joined g.In g.nb T) {p : Nat × Nat} {d : Dir}
    (hp : g.In p) (ht : (T p).Takes d) : InpFlag g T p d := by
  refine ⟨ht, fun q hq => ?_⟩
  by_cases hs : (T p).IsSplitter
  · obtain ⟨e, b, h⟩ := hs
    have : e = d := by rw [h] at ht; exact ht
    subst this
    obtain ⟨r, hr, h1, h2, _⟩ := (hfull p e b hp h).2
    have := Grid.nb_opp hg hr h1
    rw [hq] at this
    cases this
    exact h2
  · exact ((inpFlag_iff hg hb hp hs d).2 ht).2 q hq

theorem realise_out (hfull : FullSplitters g.In T (Connected g.nb T)) (hb : Joined g.In g.nb T) {p : Nat × Nat} {d : Dir}
    (hp : g.In p) (ht : (T p).Emits d) : OutFlag g T p d := by
  refine ⟨ht, fun q hq => ?_⟩
  by_cases hs : (T p).IsSplitter
  · obtain ⟨e, b, h⟩ := hs
    have : e = d := by rw [h] at ht; exact ht
    subst this
    obtain ⟨r, h1, _, h2⟩ := (hfull p e b hp h).1
    rw [hq] at h1
    cases h1
    exact h2
  · exact ((outFlag_iff hb hp hs d).2 ht).2 q hq

/-- The shares, continued to the empty cells of the first and the last column. -/
def edgeShares (w n full den : Nat) (φ : Nat → Nat × Nat → Nat) (k : Nat) (p : Nat × Nat) : Nat :=
  if p.1 = 0 then (if p.2 % n = k then full else 0) else if p.1 = w - 1 then den else φ k p

theorem edgeShares_eq {n i j full den : Nat} {φ : Nat → Nat × Nat → Nat} (hlay : FreeLayout g T n n i j) (hn : 0 < n) (hfd : full = n * den)
    (hφ : InputShares g.In g.nb T g.width n i j full φ) {k : Nat} (hk : k < n - 1) {p : Nat × Nat} (hp : g.In p) (ht : T p ≠ .empty) :
    edgeShares g.width n full den φ k p = φ k p := by
  obtain ⟨x, y⟩ := p
  unfold edgeShares
  simp only
  split
  · rename_i h0
    subst h0
    rcases hlay.first hp.2 with h | ⟨_, h1, h2⟩
    · exact absurd h ht
    · exact (hφ.inputs k hk y h1 h2).symm
  · split
    · rename_i h1
      subst h1
      rcases hlay.last hp.2 with h | ⟨_, h1, h2⟩
      · exact absurd h ht
      · have := hφ.outputs k hk y h1 h2
        rw [hfd, Nat.mul_comm] at this
        exact (Nat.eq_of_mul_eq_mul_left hn this).symm
    · rfl

end

theorem takes_ne_empty {t : Tile} {d : Dir} (h : t.Takes d) : t ≠ .empty := by rintro rfl; exact h
theorem emits_ne_empty {t : Tile} {d : Dir} (h : t.Emits d) : t ≠ .empty := by rintro rfl; exact h

open Classical in
/-- Completeness: a layout with suitable shares satisfies all clauses of `create_n_to_n_balancer` and the basic rules.  The assignment of
the variables after those of the grid is free. -/
theorem nToN_complete {width height size : Nat} {ugLen : Option Nat} (hw : 0 < width) (hh : 0 < height) (hn : 0 < size) {g : Grid}
    {full den : Nat} (hden : den = nToNDenominator size) (hfd : full = size * den)
    (hgd : g = mkGrid width height ⟨false, false⟩ none ugLen (nToNFields (size - 1) full.size) 0) {cs : Cnf}
    (hcs : nToNClauses g (nToNLits width (size - 1) full.size) size = .ok cs) {T : Nat × Nat → Tile} {i j : Nat}
    (hlay : FreeLayout g T size size i j) (hfull : FullSplitters g.In T (Connected g.nb T)) {φ : Nat → Nat × Nat → Nat}
    (hφ : InputShares g.In g.nb T width size i j full φ) (hdiff : NoIdleSplitter g.In g.nb T size φ) :
    ∃ v0, ∀ v, Agree (height * width * (gridFields none (nToNFields (size - 1) full.size)).variableCount) v0 v →
      Sat v cs ∧ ∀ p, g.In p → g.vals v p = realise g T (fun _ => 0) p := by
  have hg : g.WF := by rw [hgd]; exact mkGrid_wf hw hh _ none _ (by intro n h; cases h) _ _
  have hgw : g.width = width := by rw [hgd]; rfl
  have hge : g.edge = ⟨false, false⟩ := by rw [hgd]; rfl
  have hgb : g.bits = 0 := by rw [hgd]; rfl
  have hgc : g.colours = none := by rw [hgd]; rfl
  have hdp : 0 < den := by rw [hden]; exact nToNDenominator_pos
  have hfp : 0 < full := by rw [hfd]; exact Nat.mul_pos hn hdp
  have hbits : 0 < full.size := Nat.size_pos.2 hfp
  subst hgw
  have hr := hlay.rules
  have hl := realise_lays (col := fun _ => 0) hg hr.basic hr.joined hr.ends
  have hin := hlay.inner hg hge
  let ψ := edgeShares g.width size full den φ
  have hψ : ∀ k < size - 1, ∀ p, g.In p → T p ≠ .empty → ψ k p = φ k p := fun k hk p hp ht => edgeShares_eq hlay hn hfd hφ hk hp ht
  have hle : ∀ k < size - 1, ∀ p, g.In p → ψ k p ≤ full := by
    intro k hk p hp
    show edgeShares _ _ _ _ _ _ _ ≤ _
    unfold edgeShares
    split
    · split <;> omega
    · split
      · rw [hfd]; exact Nat.le_mul_of_pos_left _ hn
      · exact hφ.le k hk p hp
  have hlt : ∀ k < size - 1, ∀ p, g.In p → ψ k p < 2 ^ full.size := fun k hk p hp => lt_of_le_of_lt (hle k hk p hp) (Nat.lt_size_self _)
  -- the assignment
  let fl := flowBits (size - 1) full.size ψ
  have hfl : ∀ p, Arrayed (size - 1) full.size (fl p) := flowBits_arrayed _ _ _
  obtain ⟨v0, hv0⟩ := nToN_assign g.width height (size - 1) full.size ugLen (realise g T fun _ => 0)
    (fun p => by simp [realise, drawCell, hgb]) (fl := fl)
    (di := fun p => List.zipWith (List.zipWith xor) (fl p) (fl (mate g T p)))
    (ca := fun p => (List.range (size - 1)).map fun k => halfCarries (getBits (ψ k p) full.size) (getBits (ψ k (mate g T p)) full.size))
    (ux := fun p => fl (underCell g T .right p)) (uy := fun p => fl (underCell g T .up p)) hfl
    (fun p => zipWith_arrayed (hfl p) (hfl _))
    (fun p => map_arrayed fun k _ => by
      unfold halfCarries
      rw [carries_length _ _ _ (by simp)]
      simp) (fun p => hfl _) (fun p => hfl _)
  rw [← hgd] at hv0
  refine ⟨v0, fun v hag => ?_⟩
  have hv := hv0 v hag
  have hvals : ∀ p, g.In p → g.vals v p = realise g T (fun _ => 0) p := fun p hp => (hv p hp).1
  refine ⟨?_, hvals⟩
  have hlv : Lays g (g.vals v) T := fun p hp => by rw [hvals p hp]; exact hl p hp
  have hcomp : ∀ p, g.In p → ∀ k < size - 1, (comp (nToNLits g.width (size - 1) full.size p).flow k).map (ev v) =
      getBits (ψ k p) full.size := fun p hp k hk => by
    rw [comp_map (hv p hp).2.flow, flowBits_getD hk]
  have hval : ∀ p, g.In p → ∀ k < size - 1, value v (comp (nToNLits g.width (size - 1) full.size p).flow k) = ψ k p := fun p hp k hk => by
    unfold value
    rw [hcomp p hp k hk, binVal_getBits_of_range _ _ (hlt k hk p hp)]
  have hQ : ∀ p, g.In p → (nToNLits g.width (size - 1) full.size p).flow.flatten.map (ev v) = (fl p).flatten := fun p hp =>
    flatten_map (hv p hp).2.flow
  have flEq : ∀ p q, (∀ k < size - 1, ψ k p = ψ k q) → (fl p).flatten = (fl q).flatten := by
    intro p q h
    show (flowBits _ _ _ _).flatten = (flowBits _ _ _ _).flatten
    unfold flowBits
    congr 1
    apply List.map_congr_left
    intro k hk
    rw [h k (List.mem_range.1 hk)]
  have hrange : ∀ y, y < g.height → g.In (0, y) ∧ g.In (g.width - 1, y) := fun y hy => ⟨⟨hg.w, hy⟩, Nat.sub_lt hg.w Nat.one_pos, hy⟩
  have noSp : ∀ p, g.In p → (T p = .empty ∨ T p = .belt .right .right) → (g.vals v p).isSplitter = false := by
    intro p hp h
    refine (hlv p hp).isSplitter_false ?_
    rintro ⟨d, b, h2⟩
    rw [h2] at h
    rcases h with h | h <;> cases h
  have hpairOf : ∀ p d p01, g.In p → g.nb p d.ccw = some p01 → (g.vals v p).isHead = true → (g.vals v p).inp d = true →
      SplitterPair g.nb T p p01 d := by
    intro p d p01 hp h01 hhd hi
    obtain ⟨e, he⟩ := (hlv p hp).isHead_iff.1 hhd
    have ht := (hlv p hp).inp_takes hi
    rw [he] at ht
    have : e = d := ht
    subst this
    obtain ⟨q, _, _, h1, h2⟩ := hr.splitters.1 p e hp he
    rw [h01] at h1
    cases h1
    exact ⟨he, h01, h2⟩
  have hfirst : ∀ y < g.height, T (0, y) = .empty ∨ T (0, y) = .belt .right .right := fun y hy => by
    rcases hlay.first hy with h | ⟨h, _⟩
    · exact .inl h
    · exact .inr h
  have hlast : ∀ y < g.height, T (g.width - 1, y) = .empty ∨ T (g.width - 1, y) = .belt .right .right := fun y hy => by
    rcases hlay.last hy with h | ⟨h, _⟩
    · exact .inl h
    · exact .inr h
  have hsem : NToNSem g (nToNLits g.width (size - 1) full.size) size v := by
    refine ⟨(realise_init hg hl hr.splitters (by rw [hgc]; simp)).congr hg hvals, (realise_blockUg hg hl hr.under).congr hvals,
      (realise_underground hg hl hr.undergrounds).congr hg hvals, ?_, ?_, ?_, ?_, ?_, ?_⟩
    · intro p hp hsp
      obtain ⟨d, b, ht⟩ := (hlv p hp).isSplitter_iff.1 hsp
      rw [hvals p hp]
      exact ⟨⟨d, decide_eq_true (realise_inp hg hfull hr.joined hp (by rw [ht]; rfl))⟩,
        d, decide_eq_true (realise_out hfull hr.joined hp (by rw [ht]; rfl))⟩
    · intro p hp k hk
      rw [hval p hp k hk, ← hden, ← hfd]
      exact hle k hk p hp
    · have hts := transport_fill (C := g.vals v) (Q := fun p => (fl p).flatten) hg hlv hr.undergrounds (fun d p hp h => by
        rw [hvals p hp] at h
        exact of_decide_eq_true h) (fun p q d hp hq ho hns => by
        have hq' := Grid.nb_in hg hq
        rw [hvals p hp] at ho
        obtain ⟨h1, h2⟩ : OutFlag g T p d := of_decide_eq_true ho
        have h2 := h2 q hq
        refine flEq _ _ fun k hk => ?_
        rw [hψ k hk p hp (emits_ne_empty h1), hψ k hk q hq' (takes_ne_empty h2)]
        exact_mod_cast (hφ.steady k hk).surface p q d hp ⟨hq, h1, h2⟩ hns) (fun p q d k' hp hpair => by
        have hq' := walk_in hg hp hpair.2.1
        refine flEq _ _ fun k hk => ?_
        rw [hψ k hk p hp (by rw [hpair.2.2.1]; simp), hψ k hk q hq' (by rw [hpair.2.2.2.1]; simp)]
        exact_mod_cast (hφ.steady k hk).under p q d k' hp hpair)
      have hU : ∀ (d : Dir) p, g.In p → ((if d.axis = .horizontal then fun p => (nToNLits g.width (size - 1) full.size p).ux.flatten
          else fun p => (nToNLits g.width (size - 1) full.size p).uy.flatten) p).map (ev v) = (fl (underCell g T d.axisDir p)).flatten := by
        intro d p hp
        unfold Dir.axisDir
        split
        · exact flatten_map (hv p hp).2.ux
        · exact flatten_map (hv p hp).2.uy
      refine ⟨fun d p q hp hq h1 h2 => ?_, fun d p q hp hq h1 => ?_, fun d p q hp hq h1 h2 h3 => ?_, fun d p q hp hq h1 h2 h3 => ?_⟩
      · rw [hQ p hp, hQ q (Grid.nb_in hg hq)]; exact hts.surface d p q hp hq h1 h2
      · rw [hU d p hp, hU d q (Grid.nb_in hg hq)]; exact hts.under d p q hp hq h1
      · rw [hQ p hp, hU d q (Grid.nb_in hg hq)]; exact hts.entrance d p q hp hq h1 h2 h3
      · rw [hU d p hp, hQ q (Grid.nb_in hg hq)]; exact hts.exit d p q hp hq h1 h2 h3
    · intro p d p10 p01 p11 hp h10 h01 h11 hhd hi
      have hpair := hpairOf p d p01 hp h01 hhd hi
      have h01' := Grid.nb_in hg h01
      obtain ⟨r1, c1⟩ := (hfull p d true hp hpair.1).1
      obtain ⟨r2, c2⟩ := (hfull p01 d false h01' hpair.2.2).1
      have : r1 = p10 := by have := c1.1; rw [h10] at this; exact (Option.some.inj this).symm
      subst this
      have : r2 = p11 := by have := c2.1; rw [h11] at this; exact (Option.some.inj this).symm
      subst this
      have e0 : T p ≠ .empty := by rw [hpair.1]; simp
      have e1 : T p01 ≠ .empty := by rw [hpair.2.2]; simp
      have i1 := Grid.nb_in hg h10
      have i2 := Grid.nb_in hg h11
      refine ⟨fun k hk => ?_, ?_⟩
      · rw [hval _ i1 k hk, hval _ i2 k hk, hval p hp k hk, hval p01 h01' k hk, hψ k hk _ i1 (takes_ne_empty c1.2.2),
          hψ k hk _ i2 (takes_ne_empty c2.2.2), hψ k hk p hp e0, hψ k hk p01 h01' e1]
        have k1 := (hφ.steady k hk).halves hfull hp h01' hpair (.inl c1)
        have k2 := (hφ.steady k hk).halves hfull hp h01' hpair (.inr c2)
        rw [eq_div_iff (by norm_num)] at k1 k2
        exact ⟨by exact_mod_cast k1, by exact_mod_cast k2⟩
      · intro heq
        obtain ⟨k, hk, hne⟩ := hdiff p p01 d hp hpair
        apply hne
        have h1 := readComp_eq (nToNLits_shape g.width (size - 1) full.size p).flow hk v
        have h2 := readComp_eq (nToNLits_shape g.width (size - 1) full.size p01).flow hk v
        rw [heq, h2, hval p hp k hk, hval p01 h01' k hk, hψ k hk p hp e0, hψ k hk p01 h01' e1] at h1
        exact_mod_cast h1.symm
    · intro y hy
      refine ⟨noSp _ (hrange y hy).1 (hfirst y hy), fun k hk => ?_⟩
      rw [hval _ (hrange y hy).1 k hk, ← hden, ← hfd]
      rfl
    · intro y hy
      refine ⟨noSp _ (hrange y hy).2 (hlast y hy), fun k hk => ?_⟩
      rw [hval _ (hrange y hy).2 k hk, ← hden]
      show edgeShares _ _ _ _ _ _ _ = _
      unfold edgeShares
      split
      · rename_i h0
        exfalso
        simp only at h0
        have hi1 := hlay.inputs.1
        have hj1 := hlay.outputs.1
        have t1 := hlay.outputs.2 j (by omega)
        rw [if_pos ⟨Nat.le_refl _, by omega⟩] at t1
        rw [h0] at t1
        rcases hlay.first (y := j) (by omega) with h | ⟨_, h1, h2⟩
        · rw [t1] at h; cases h
        · have k1 := hφ.inputs k hk j h1 h2
          have k2 := hφ.outputs k hk j (Nat.le_refl _) (by omega)
          rw [h0, k1] at k2
          split at k2
          · rw [Nat.mul_comm] at k2
            have : size * full = 1 * full := by omega
            have := Nat.eq_of_mul_eq_mul_right hfp this
            omega
          · omega
      · rw [if_pos rfl]
  refine nToN_fill hg (fun p => nToNLits_shape _ _ _ p) hcs hsem ?_
  intro p d p10 p01 p11 hp h10 h01 h11 hhd hi
  have hpair := hpairOf p d p01 hp h01 hhd hi
  have h01' := Grid.nb_in hg h01
  have hm := mate_eq hpair.1 h01
  refine ⟨fun k hk => ?_, ?_⟩
  · rw [comp_map (hv p hp).2.carry, hcomp p hp k hk, hcomp p01 h01' k hk, ← hm]
    simp only [List.getD_eq_getElem?_getD, List.getElem?_map, List.getElem?_range hk, Option.map_some, Option.getD_some]
    rw [List.take_of_length_le]
    unfold halfCarries
    rw [carries_length _ _ _ (by simp)]
    simp
  · rw [flatten_map (hv p hp).2.diff, hQ p hp, hQ p01 h01', zipWith_flatten (hfl _) (hfl _), hm]

end FSat

namespace FSat

/-- The clauses of `main` around the balancer have a solution, too. -/
theorem free_fill {width height : Nat} {ugLen : Option Nat} {m n : Nat} {aligned : Bool} {g g' : Grid} {cs0 cs : Cnf} {s0 s : Nat}
    (hL : ∀ l, ugLen = some l → 1 ≤ l) (hc : createNToM width height ugLen m n = .ok (g, cs0, s0))
    (h : freeBalancer width height ugLen m n aligned = .ok (g', cs, s)) (hg : g.WF) (hlits : g.LitsLe s0) (hug : g.ugLen = ugLen)
    {T : Nat × Nat → Tile} {i j : Nat} (hlay : FreeLayout g T m n i j) (hal : aligned = true → RowsNested i m j n) {v0 : Asg}
    (hv0 : ∀ v, Agree s0 v0 v → Sat v cs0 ∧ InitSem g (g.vals v) ∧ Lays g (g.vals v) T ∧ IntersectionSem g (g.vals v) ∧
      ∀ l, ugLen = some l → LengthSem g (g.vals v) l) :
    g' = g ∧ ∃ v, Agree s0 v0 v ∧ Sat v cs ∧ Decodes g v T := by
  unfold freeBalancer at h
  rw [hc] at h
  simp only at h
  split at h
  · cases h
  · rename_i cs1 s1 e1
    simp only [Except.ok.injEq, Prod.mk.injEq] at h
    obtain ⟨rfl, rfl, rfl⟩ := h
    refine ⟨rfl, ?_⟩
    obtain ⟨c1, t1, r1, f1, f2, f3⟩ := Gen.all_cons e1
    obtain ⟨c2, t2, r2, f4, f5, f6⟩ := Gen.all_cons f2
    obtain ⟨c3, t3, r3, f7, f8, f9⟩ := Gen.all_cons f5
    obtain ⟨c4, t4, r4, f10, f11, f12⟩ := Gen.all_cons f8
    simp only at f3 f6 f9 f12
    have hpure : ∀ {e : Except PyErr Cnf} {s : Nat} {r : Cnf × Nat}, Gen.pure e s = .ok r → e = .ok r.1 := by
      intro e s r h
      cases e with
      | error e' => cases h
      | ok c => cases h; rfl
    have f4 := hpure f4
    have f7 := hpure f7
    have f10 := hpure f10
    simp only at f4 f7 f10
    cases f4; cases f7
    have e4 : r4 = [] := by
      simp only [Gen.all, Except.ok.injEq, Prod.mk.injEq] at f11
      exact f11.1.symm
    obtain ⟨ci, hci, hci2⟩ := init_iff hg
    obtain ⟨c5, s5, q1, q2⟩ := c28_free (m := m) (n := n) hg hlits hci aligned
    rw [q1] at f1
    simp only [Except.ok.injEq, Prod.mk.injEq] at f1
    obtain ⟨rfl, rfl⟩ := f1
    let T' : Nat × Nat → Tile := fun p => if g.In p then T p else .empty
    have e : ∀ p, g.In p → T' p = T p := fun p hp => if_pos hp
    obtain ⟨k1, k2, k3, _, _⟩ := hv0 v0 (Agree.refl _ _)
    have hT' : Decodes g v0 T' := fun p hp => by rw [e p hp]; exact decodes_of_lays k3 p hp
    have hsp : ∀ x y, (g.In (x, y) → T (x, y) = .empty ∨ T (x, y) = .belt .right .right) → ¬ (T' (x, y)).IsSplitter := by
      rintro x y hx ⟨d, b, h⟩
      by_cases hp : g.In (x, y)
      · rw [e _ hp] at h
        rcases hx hp with h2 | h2 <;> (rw [h2] at h; cases h)
      · have : T' (x, y) = .empty := if_neg hp
        rw [this] at h; cases h
    have hw := hg.w
    obtain ⟨w, hag, hws⟩ := (q2 v0 T' ((hci2 v0).2 k2) hT' fun y =>
      ⟨hsp 0 y fun hp => (hlay.first hp.2).imp_right And.left, hsp _ y fun hp => (hlay.last hp.2).imp_right And.left⟩).2
      ⟨i, j, ⟨hlay.inputs.1, fun y hy => by
          have := hlay.inputs.2 y hy
          simp only [e (0, y) ⟨hw, hy⟩]; exact this⟩,
        ⟨hlay.outputs.1, fun y hy => by
          have := hlay.outputs.2 y hy
          simp only [e (g.width - 1, y) ⟨Nat.sub_lt hw Nat.one_pos, hy⟩]; exact this⟩, hal⟩
    obtain ⟨k1, k2, k3, k4, k5⟩ := hv0 w hag
    refine ⟨w, hag, ?_, decodes_of_lays k3⟩
    rw [f3, f6, f9, f12, e4]
    simp only [Sat_append]
    refine ⟨k1, hws, (Sat_blockBelt hg _ w).2 ((blockBelt_iff k3 _).2 hlay.rules.surface), (Sat_intersection g w).2 k4, ?_, (Sat_nil w).2 trivial⟩
    cases hul : ugLen with
    | none =>
      rw [(c21_no_limit g).1 (hug.trans hul)] at f10
      cases f10
      exact (Sat_nil w).2 trivial
    | some l =>
      obtain ⟨cl, q1, q2⟩ := length_iff hg l (hug.trans hul) (hL l hul)
      rw [q1] at f10; cases f10
      exact (q2 w).2 (k5 l hul)

end FSat
