import Verif.Lemmas.RecolourClauses
import Verif.Lemmas.Dict
/-!
# The clauses of `optimise_colours` as a whole, and the search
-/

namespace FSat

/-- The set of the colours as the code builds it. -/
def colourList (n : Network) : List Colour := (colourSet (insOf n) ++ colourSet (outsOf n)).dedup

theorem mem_colourList (n : Network) (o : Colour) : o ∈ colourList n ↔ ∃ c, o = some c ∧ UsesColour n c := by
  simp only [colourList, List.mem_dedup, List.mem_append, mem_colourSet, UsesColour]
  cases o <;> simp

theorem colourList_length (n : Network) : (colourList n).length = numColours n := by
  refine List.Perm.length_eq ((List.perm_ext_iff_of_nodup (List.nodup_dedup _) (nodup_colourSet _)).2 fun o => ?_)
  rw [show o ∈ (colourSet (insOf n) ++ colourSet (outsOf n)).dedup ↔ _ from mem_colourList n o, mem_colourSet]
  cases o <;> simp [UsesColour]

/-- The order in which the colours are visited. -/
def visited (ord : List Colour → List Colour) (n : Network) : List Int := (ord (colourList n)).filterMap id

variable {ord : List Colour → List Colour} {n : Network}

theorem mem_visited (ho : SetOrder ord) (c : Int) : c ∈ visited ord n ↔ UsesColour n c := by
  simp only [visited, List.mem_filterMap, id_eq, exists_eq_right, (ho _).mem_iff, mem_colourList]
  simp

theorem visited_nodup (ho : SetOrder ord) : (visited ord n).Nodup := by
  refine List.Nodup.filterMap ?_ ((ho _).nodup_iff.2 (List.nodup_dedup _))
  intro a b c ha hb
  simp only [id_eq, Option.mem_def] at ha hb
  rw [ha, hb]

theorem visited_length (ho : SetOrder ord) : (visited ord n).length = numColours n := by
  rw [← colourList_length, ← (ho (colourList n)).length_eq]
  have : ∀ l : List Colour, (∀ o ∈ l, o ≠ none) → (l.filterMap id).length = l.length := by
    intro l
    induction l with
    | nil => simp
    | cons o l ih =>
      intro h
      cases o with
      | none => exact absurd rfl (h none (by simp))
      | some c =>
        have := ih fun o ho => h o (by simp [ho])
        exact congrArg (· + 1) this
  refine this _ fun o hm => ?_
  obtain ⟨c, rfl, -⟩ := (mem_colourList n o).1 ((ho _).mem_iff.1 hm)
  simp

/-- The variables of the label of a colour. -/
def colourLabel (labels : PyDict Int (List Lit)) (c : Int) : List Lit := (labels.get c).getD []

theorem colourLabel_mem {labels : PyDict Int (List Lit)} (hv : labels.Valid) {e : Int × List Lit} (he : e ∈ labels) :
    colourLabel labels e.1 = e.2 := by
  unfold colourLabel
  rw [PyDict.get_of_mem hv (v := e.2) he]
  rfl

/-- Everything before the sum. -/
theorem colourProblem_start (ho : SetOrder ord) (hn : ∀ p ∈ innerPairs n, p.1 ≠ p.2) (h0 : numColours n ≠ 0) :
    ∃ labels c1 c2 s counted, (∀ start, colourProblem ord n start =
        match getPopcount poolAlloc counted (freshLits s (binLength (counted.length + 1))) (s + binLength (counted.length + 1)) with
        | .error e => .error e
        | .ok (c3, _) =>
          match excludeAll [freshLits s (binLength (counted.length + 1))] (pyRange start (1 <<< binLength (counted.length + 1))) with
          | .error e => .error e
          | .ok c4 => .ok (labels, freshLits s (binLength (counted.length + 1)), c1 ++ c2 ++ c3 ++ c4)) ∧
      labels.Valid ∧ (∀ c, c ∈ labels.map Prod.fst ↔ UsesColour n c) ∧ (∀ e ∈ labels, ∀ l ∈ e.2, l.pos = true) ∧
      counted.length = Nat.clog 2 (numColours n) * (innerPairs n).length ∧ LBound s counted ∧
      (∀ c, UsesColour n c → LBound s (colourLabel labels c)) ∧
      (2 ≤ numColours n → ∀ e ∈ labels, ∀ l ∈ e.2, ∃ c ∈ c1 ++ c2, ∃ l' ∈ c, l'.var = l.var) ∧
      (∀ v, Sat v (c1 ++ c2) → Renumbers n (fun c => value v (colourLabel labels c)) ∧ (counted.map (ev v)).count true =
        ((innerPairs n).map fun p => natApart (value v (colourLabel labels p.1)) (value v (colourLabel labels p.2))).sum) ∧
      (∀ f : Int → Nat, Renumbers n (fun c => f c) → ∃ v, (∀ w, Agree s v w → Sat w (c1 ++ c2)) ∧
        ∀ c, UsesColour n c → value v (colourLabel labels c) = f c) := by
  have hall : ((colourSet (insOf n)) ++ (colourSet (outsOf n))).dedup = colourList n := rfl
  obtain ⟨L, l1, l2, l3, l4⟩ := labelLoop_spec (binLength (numColours n)) (visited ord n) 0
  rw [visited_length ho] at l1 l3
  have hv : PyDict.Valid L := by unfold PyDict.Valid; rw [l2]; exact visited_nodup ho
  have hkeys : ∀ c, c ∈ L.map Prod.fst ↔ UsesColour n c := fun c => by rw [l2]; exact mem_visited ho c
  have hlab := fun e he => colourLabel_mem hv (e := e) he
  have hent : ∀ c, UsesColour n c → (c, colourLabel L c) ∈ L := by
    intro c hc
    obtain ⟨e, he, rfl⟩ := List.mem_map.1 ((hkeys c).2 hc)
    rw [hlab e he]
    exact he
  generalize hs1 : 0 + binLength (numColours n) * numColours n = s1 at l1 l3
  obtain ⟨c1, x1, x2⟩ := excludeAll_spec (L.map Prod.snd) (binLength (numColours n))
    (fun l hl => by obtain ⟨e, he, rfl⟩ := List.mem_map.1 hl; exact (l3 e he).1)
    (pyRange (numColours n) (1 <<< binLength (numColours n)))
    (fun k hk => by
      have := ((mem_pyRange _ _ _).1 hk).2
      rwa [Nat.one_shiftLeft] at this)
  obtain ⟨c2, ds, s2, d1, d2, d3, d4, d5, d6, d7, d8⟩ := differenceLoop_spec (binLength (numColours n)) (colourLabel L)
    (L.flatMap fun a => L.map fun b => (a, b)) s1 (by
      intro p hp
      obtain ⟨a, ha, hp⟩ := List.mem_flatMap.1 hp
      obtain ⟨b, hb, rfl⟩ := List.mem_map.1 hp
      exact ⟨⟨(hlab a ha).symm, (l3 a ha).1, (l3 a ha).2.1⟩, (hlab b hb).symm, (l3 b hb).1, (l3 b hb).2.1⟩)
  have hpair : ∀ a b, a ∈ L → b ∈ L → (a, b) ∈ L.flatMap fun a => L.map fun b => (a, b) := fun a b ha hb =>
    List.mem_flatMap.2 ⟨a, ha, List.mem_map.2 ⟨b, hb, rfl⟩⟩
  obtain ⟨counted, k1, k2, k3, k4⟩ := countedLoop_spec n (binLength (numColours n)) s2 (colourLabel L) ds
    (fun c hc => (l3 _ (hent c hc)).1) d4 (fun a b ha hb hlt => d5 ((a, colourLabel L a), (b, colourLabel L b)) (hpair _ _ (hent a ha) (hent b hb)) hlt)
    (sidesOf n) (fun t ht c hc => side_uses ht hc) (by rw [← innerPairs_eq]; exact hn)
  rw [← innerPairs_eq] at k2 k4
  have hlt : ∀ v, Sat v c1 ↔ ∀ c, UsesColour n c → value v (colourLabel L c) < numColours n := by
    intro v
    rw [x2]
    constructor
    · intro h c hc
      by_contra hge
      have hm := hent c hc
      refine h (value v (colourLabel L c)) ((mem_pyRange _ _ _).2 ⟨by omega, ?_⟩) _ (List.mem_map.2 ⟨_, hm, rfl⟩) rfl
      rw [Nat.one_shiftLeft, ← (l3 _ hm).1]
      exact value_lt _ _
    · intro h k hk l hl e
      obtain ⟨x, hx, rfl⟩ := List.mem_map.1 hl
      have := h x.1 ((hkeys _).1 (List.mem_map.2 ⟨x, hx, rfl⟩))
      rw [hlab x hx] at this
      have := ((mem_pyRange _ _ _).1 hk).1
      omega
  refine ⟨L, c1, c2, s2, counted, fun start => ?_, hv, hkeys, fun e he => (l3 e he).2.2, k2, k3, fun c hc => (l3 _ (hent c hc)).2.1.mono d2,
    ?_, ?_, ?_⟩
  · unfold colourProblem
    dsimp only
    rw [hall, colourList_length, if_neg h0, show (ord (colourList n)).filterMap id = visited ord n from rfl, l1]
    dsimp only
    rw [x1]
    dsimp only
    rw [d1]
    dsimp only
    rw [k1]
    dsimp only
    rw [allocMany_pool]
    rfl
  · intro h2 e he l hl
    obtain ⟨c, hc, hne⟩ : ∃ c ∈ visited ord n, c ≠ e.1 := by
      by_contra hno
      push Not at hno
      have hsub : (visited ord n) ⊆ [e.1] := fun c hc => by simp [hno c hc]
      have := ((visited_nodup ho).subperm hsub).length_le
      rw [visited_length ho] at this
      simp at this
      omega
    have hc' := hent c ((mem_visited ho c).1 hc)
    rcases lt_or_gt_of_ne hne with h | h
    · obtain ⟨x, hx, y⟩ := d6 ((c, colourLabel L c), e) (hpair _ _ hc' he) h l (by simp [hl])
      exact ⟨x, by simp [hx], y⟩
    · obtain ⟨x, hx, y⟩ := d6 (e, (c, colourLabel L c)) (hpair _ _ he hc') h l (by simp [hl])
      exact ⟨x, by simp [hx], y⟩
  · intro v hs
    rw [Sat_append] at hs
    obtain ⟨h1, h2⟩ := d7 v hs.2
    refine ⟨⟨?_, fun c hc => ⟨by omega, by exact_mod_cast (hlt v).1 hs.1 c hc⟩⟩, k4 v h1⟩
    intro c d hc hd e
    have e : value v (colourLabel L c) = value v (colourLabel L d) := by exact_mod_cast e
    have e := binVal_inj (by simp [(l3 _ (hent c hc)).1, (l3 _ (hent d hd)).1]) e
    by_contra hcd
    rcases lt_or_gt_of_ne hcd with h | h
    · exact h2 ((c, colourLabel L c), (d, colourLabel L d)) (hpair _ _ (hent c hc) (hent d hd)) h e
    · exact h2 ((d, colourLabel L d), (c, colourLabel L c)) (hpair _ _ (hent d hd) (hent c hc)) h e.symm
  · intro f hf
    have hf2 : ∀ c ∈ visited ord n, f c < 2 ^ binLength (numColours n) := by
      intro c hc
      have h1 := (hf.range c ((mem_visited ho c).1 hc)).2
      have h2 : numColours n ≤ 2 ^ binLength (numColours n) := Nat.le_pow_clog (by omega) _
      have h1 : f c < numColours n := by exact_mod_cast h1
      omega
    obtain ⟨v, -, m1⟩ := l4 (fun _ => false) f hf2
    have hval : ∀ c, UsesColour n c → value v (colourLabel L c) = f c := fun c hc => m1 _ (hent c hc)
    obtain ⟨w, a2, m2⟩ := d8 v (by
      intro p hp hlt e
      obtain ⟨a, ha, hp⟩ := List.mem_flatMap.1 hp
      obtain ⟨b, hb, rfl⟩ := List.mem_map.1 hp
      have e : value v a.2 = value v b.2 := congrArg binVal e
      rw [m1 a ha, m1 b hb] at e
      have := hf.inj a.1 b.1 ((hkeys _).1 (List.mem_map.2 ⟨a, ha, rfl⟩)) ((hkeys _).1 (List.mem_map.2 ⟨b, hb, rfl⟩)) (by exact_mod_cast e)
      dsimp only at hlt
      omega)
    have hval2 : ∀ u, Agree s2 w u → ∀ c, UsesColour n c → value u (colourLabel L c) = f c := by
      intro u hu c hc
      have hb := (l3 _ (hent c hc)).2.1
      rw [value_agree hu (hb.mono d2), value_agree a2 hb, hval c hc]
    refine ⟨w, fun u hu => ?_, hval2 w (Agree.refl _ _)⟩
    rw [Sat_append, hlt]
    refine ⟨fun c hc => ?_, (Sat_agree hu d3).2 m2⟩
    rw [hval2 u hu c hc]
    exact_mod_cast (hf.range c hc).2

theorem cost_pos {f : Int → Int} (hn : ∀ p ∈ innerPairs n, p.1 ≠ p.2) (hf : Renumbers n f) :
    (innerPairs n).length ≤ NumberingCost (rename f n) := by
  rw [cost_rename hf.inj]
  have : ∀ l : List (Int × Int), (∀ p ∈ l, 0 < bitsApart (f p.1) (f p.2)) → l.length ≤ (l.map fun p => bitsApart (f p.1) (f p.2)).sum := by
    intro l
    induction l with
    | nil => simp
    | cons p l ih =>
      intro h
      have := ih fun q hq => h q (by simp [hq])
      have := h p (by simp)
      simp only [List.length_cons, List.map_cons, List.sum_cons]
      omega
  refine this _ fun p hp => ?_
  obtain ⟨h1, h2⟩ := pair_uses hp
  obtain ⟨x, hx⟩ := Int.eq_ofNat_of_zero_le (hf.range _ h1).1
  obtain ⟨y, hy⟩ := Int.eq_ofNat_of_zero_le (hf.range _ h2).1
  rw [hx, hy, bitsApart_nat]
  refine natApart_pos fun e => hn p hp (hf.inj _ _ h1 h2 ?_)
  rw [hx, hy, e]

/-- Too little to count. -/
theorem colourProblem_small (ho : SetOrder ord) (hn : ∀ p ∈ innerPairs n, p.1 ≠ p.2) (h0 : numColours n ≠ 0)
    (h2 : Nat.clog 2 (numColours n) * (innerPairs n).length < 2) (start : Nat) : colourProblem ord n start = .error .assertion := by
  obtain ⟨labels, c1, c2, s, counted, h, -, -, -, hl, -⟩ := colourProblem_start ho hn h0
  rw [h start]
  have : getPopcount poolAlloc counted (freshLits s (binLength (counted.length + 1))) (s + binLength (counted.length + 1)) =
      .error .assertion := by
    rw [← hl] at h2
    rw [getPopcount.eq_def, if_neg (by simp)]
    rcases counted with _ | ⟨a, _ | ⟨b, l⟩⟩
    · rfl
    · rfl
    · simp at h2
  rw [this]

/-- What the clauses say. -/
structure ProblemSays (n : Network) (start : Nat) (labels : PyDict Int (List Lit)) (result : List Lit) (cs : Cnf) : Prop where
  valid : labels.Valid
  keys : ∀ c, c ∈ labels.map Prod.fst ↔ UsesColour n c
  pos : ∀ e ∈ labels, ∀ l ∈ e.2, l.pos = true
  width : result.length = Nat.clog 2 (Nat.clog 2 (numColours n) * (innerPairs n).length + 1)
  covers : ∀ e ∈ labels, ∀ l ∈ e.2, ∃ c ∈ cs, ∃ l' ∈ c, l'.var = l.var
  sound : ∀ v, Sat v cs → Renumbers n (fun c => value v (colourLabel labels c)) ∧
    value v result = NumberingCost (rename (fun c => value v (colourLabel labels c)) n) ∧ value v result < start
  complete : ∀ f, Renumbers n f → NumberingCost (rename f n) < start → ∃ v, Sat v cs ∧ value v result = NumberingCost (rename f n)

theorem colourProblem_spec (ho : SetOrder ord) (hn : ∀ p ∈ innerPairs n, p.1 ≠ p.2)
    (h2 : 2 ≤ Nat.clog 2 (numColours n) * (innerPairs n).length) (start : Nat) :
    ∃ labels result cs, colourProblem ord n start = .ok (labels, result, cs) ∧ ProblemSays n start labels result cs := by
  have h1 : 2 ≤ numColours n := by
    by_contra h
    have : Nat.clog 2 (numColours n) = 0 := Nat.clog_of_right_le_one (by omega) 2
    rw [this] at h2
    omega
  obtain ⟨labels, c1, c2, s, counted, h, hv, hk, hp, hl, hb, hlb, hcov, hsound, hcomp⟩ := colourProblem_start ho hn (by omega)
  have hr := LBound_freshLits s (binLength (counted.length + 1))
  have hrl := freshLits_length s (binLength (counted.length + 1))
  have hfr : ∀ (v : Asg) (bs : List Bool), bs.length = binLength (counted.length + 1) →
      ∃ w, Agree s v w ∧ (freshLits s (binLength (counted.length + 1))).map (ev w) = bs := by
    intro v bs hl
    have := exists_assign_fresh s v bs
    rwa [hl] at this
  generalize freshLits s (binLength (counted.length + 1)) = result at h hr hrl hfr
  obtain ⟨c3, s', g1, g2⟩ := getPopcount_pool counted result (s + binLength (counted.length + 1)) (by omega) hrl (hb.mono (by omega)) hr
  obtain ⟨c4, x1, x2⟩ := excludeAll_spec [result] (binLength (counted.length + 1)) (by simpa using hrl)
    (pyRange start (1 <<< binLength (counted.length + 1))) (fun k hk => by
      have := ((mem_pyRange _ _ _).1 hk).2
      rwa [Nat.one_shiftLeft] at this)
  have hfit : counted.length < 2 ^ binLength (counted.length + 1) := Nat.le_pow_clog (by omega) _
  refine ⟨labels, result, c1 ++ c2 ++ c3 ++ c4, ?_, hv, hk, hp, by rw [hrl, hl]; rfl, ?_, ?_, ?_⟩
  · rw [h start, g1]
    dsimp only
    rw [x1]
  · intro e he l hl
    obtain ⟨c, hc, hx⟩ := hcov h1 e he l hl
    exact ⟨c, by simp only [List.mem_append] at hc ⊢; tauto, hx⟩
  · intro v hs
    rw [Sat_append, Sat_append] at hs
    obtain ⟨e1, e2⟩ := hsound v hs.1.1
    have e3 : value v result = (counted.map (ev v)).count true := g2.sound v hs.1.2
    refine ⟨e1, ?_, ?_⟩
    · rw [e3, e2, cost_rename e1.inj]
      rfl
    · by_contra hge
      refine (x2 v).1 hs.2 (value v result) ((mem_pyRange _ _ _).2 ⟨by omega, ?_⟩) result (by simp) rfl
      rw [Nat.one_shiftLeft, ← hrl]
      exact value_lt _ _
  · intro f hf hc
    have hfe : ∀ c, UsesColour n c → ((f c).toNat : Int) = f c := fun c hc => Int.toNat_of_nonneg (hf.range c hc).1
    obtain ⟨v, hv1, hv2⟩ := hcomp (fun c => (f c).toNat) ⟨fun c d hc hd e => hf.inj c d hc hd (by
        rwa [hfe c hc, hfe d hd] at e), fun c hc => by
        rw [hfe c hc]
        exact hf.range c hc⟩
    obtain ⟨-, e2⟩ := hsound v (hv1 v (Agree.refl _ _))
    have e2 : (counted.map (ev v)).count true = NumberingCost (rename f n) := by
      rw [e2, cost_rename hf.inj]
      congr 1
      refine List.map_congr_left fun p hp => ?_
      obtain ⟨u1, u2⟩ := pair_uses hp
      rw [hv2 _ u1, hv2 _ u2, ← bitsApart_nat, hfe _ u1, hfe _ u2]
    have hle : NumberingCost (rename f n) ≤ counted.length := by
      rw [← e2]
      exact (List.count_le_length).trans (by simp)
    obtain ⟨bs, hbl, hbv⟩ := exists_bits (binLength (counted.length + 1)) (NumberingCost (rename f n)) (by omega)
    obtain ⟨w, a1, m1⟩ := hfr v bs hbl
    have hw : value w result = NumberingCost (rename f n) := by
      unfold value
      rw [m1, hbv]
    obtain ⟨u, a2, m2⟩ := g2.complete w (show value w result = (counted.map (ev w)).count true by
      rw [hw, ← e2]
      exact congrArg _ (List.map_congr_left fun l hl => (ev_agree a1 (hb l hl)).symm))
    have hu : value u result = NumberingCost (rename f n) := by
      rw [value_agree (s := s + binLength (counted.length + 1)) a2 hr, hw]
    refine ⟨u, ?_, hu⟩
    rw [Sat_append, Sat_append]
    refine ⟨⟨hv1 u (a1.trans (Agree.mono a2 (by omega))), m2⟩, (x2 u).2 fun k hk l hl => ?_⟩
    obtain rfl := List.mem_singleton.1 hl
    have := ((mem_pyRange _ _ _).1 hk).1
    omega

/-! ### The search -/

theorem costSearch_none {solver : Oracle} (hs : CorrectSolver solver) {result : List Lit} (k call : Nat) (cs : Cnf) (model : Option (List Lit))
    (h : ¬ ∃ v, Sat v cs) : costSearch solver result k call cs model = .ok (model, if k = 0 then 1 else k) := by
  cases k with
  | zero => rfl
  | succ k =>
    unfold costSearch
    cases e : solver call cs with
    | none => simp
    | some m => exact absurd ⟨_, (hs.model _ _ _ e).asg⟩ h

theorem costSearch_min {solver : Oracle} (hs : CorrectSolver solver) {result : List Lit} {cs0 : Cnf} {m : Nat} (hm : 0 < m)
    (hex : ∃ v, Sat v cs0 ∧ value v result = m) (hmin : ∀ v, Sat v cs0 → m ≤ value v result) : ∀ (k call : Nat) (ex : Cnf) (model : Option (List Lit)),
    m ≤ k → k < 2 ^ result.length → (∀ v, Sat v (cs0 ++ ex) ↔ Sat v cs0 ∧ value v result ≤ k) →
    ∃ x, costSearch solver result k call (cs0 ++ ex) model = .ok (some x, max 1 (m - 1)) ∧ (x.map Lit.var).Nodup ∧ Sat (asgOf x) cs0 ∧
      value (asgOf x) result = m ∧ ∀ c ∈ cs0, ∀ l ∈ c, ∃ l' ∈ x, l'.var = l.var
  | 0, _, _, _, h, _, _ => by omega
  | k + 1, call, ex, model, h, hk, hc => by
    unfold costSearch
    cases e : solver call (cs0 ++ ex) with
    | none =>
      obtain ⟨v, h1, h2⟩ := hex
      exact absurd ⟨v, (hc v).2 ⟨h1, by omega⟩⟩ (hs.unsat _ _ e)
    | some x =>
      dsimp only
      rw [setNotNumber_eq, if_pos (by exact_mod_cast hk)]
      dsimp only
      have hx := hs.model _ _ _ e
      have hxs := (hc _).1 hx.asg
      have hc' : ∀ v, Sat v (cs0 ++ (ex ++ [notNumberClause ((k + 1 : Nat) : Int) result])) ↔ Sat v cs0 ∧ value v result ≤ k := by
        intro v
        rw [← List.append_assoc, Sat_append, hc, Sat_cons, SatC_notNumberClause v (k + 1) result hk]
        simp only [Sat_nil, and_true]
        constructor
        · rintro ⟨⟨h1, h2⟩, h3⟩; exact ⟨h1, by omega⟩
        · rintro ⟨h1, h2⟩; exact ⟨⟨h1, by omega⟩, by omega⟩
      rw [List.append_assoc]
      by_cases hmk : m ≤ k
      · exact costSearch_min hs hm hex hmin k (call + 1) _ (some x) hmk (by omega) hc'
      · refine ⟨x, ?_, hx.nodup, hxs.1, ?_, fun c hc l hl => hx.covers c (by simp [hc]) l hl⟩
        · rw [costSearch_none hs k (call + 1) _ _ (by
            rintro ⟨v, hv⟩
            have := (hc' v).1 hv
            have := hmin v this.1
            omega)]
          have : (if k = 0 then 1 else k) = max 1 (m - 1) := by split <;> omega
          rw [this]
        · have := hmin _ hxs.1
          omega

theorem costSearch_wide {solver : Oracle} (hs : CorrectSolver solver) {result : List Lit} {cs : Cnf} {k : Nat} (hk : 2 ^ result.length ≤ k)
    (hex : ∃ v, Sat v cs) (call : Nat) (model : Option (List Lit)) : costSearch solver result k call cs model = .error .assertion := by
  cases k with
  | zero => simp at hk
  | succ k =>
    unfold costSearch
    cases e : solver call cs with
    | none => exact absurd hex (hs.unsat _ _ e)
    | some m =>
      dsimp only
      rw [setNotNumber_eq, if_neg (by push Not; exact_mod_cast hk)]

theorem mapM_lookUp {x : List Lit} (hx : (x.map Lit.var).Nodup) : ∀ (ls : List Lit), (∀ l ∈ ls, l.pos = true) →
    (∀ l ∈ ls, ∃ l' ∈ x, l'.var = l.var) → ls.mapM (lookUp (mappingOf x)) = .ok (ls.map (ev (asgOf x)))
  | [], _, _ => rfl
  | l :: ls, hp, hc => by
    obtain ⟨l', hl', hv⟩ := hc l (by simp)
    have e := mappingOf_mem hx hl'
    rw [hv] at e
    rw [List.mapM_cons, mapM_lookUp hx ls (fun l hl => hp l (by simp [hl])) fun l hl => hc l (by simp [hl])]
    have : lookUp (mappingOf x) l = .ok (ev (asgOf x) l) := by
      unfold lookUp
      rw [e]
      have := hp l (by simp)
      simp [ev, asgOf, e, this]
    rw [this]
    rfl

theorem readColours_eq {x : List Lit} (hx : (x.map Lit.var).Nodup) : ∀ (labels : PyDict Int (List Lit)), (∀ e ∈ labels, ∀ l ∈ e.2, l.pos = true) →
    (∀ e ∈ labels, ∀ l ∈ e.2, ∃ l' ∈ x, l'.var = l.var) →
    readColours (mappingOf x) labels = .ok (labels.map fun e => (some e.1, some (value (asgOf x) e.2 : Int)))
  | [], _, _ => rfl
  | (c, ls) :: rest, hp, hc => by
    unfold readColours
    rw [mapM_lookUp hx ls (hp (c, ls) (by simp)) (hc (c, ls) (by simp))]
    dsimp only
    rw [readNumber_unsigned]
    dsimp only
    rw [readColours_eq hx rest (fun e he => hp e (by simp [he])) fun e he => hc e (by simp [he])]
    rfl

theorem get_labels (v : Asg) (c : Int) : ∀ (labels : PyDict Int (List Lit)), c ∈ labels.map Prod.fst →
    PyDict.get (labels.map fun e => ((some e.1 : Colour), (some (value v e.2 : Int) : Colour))) (some c) = some (some (value v (colourLabel labels c) : Int))
  | [], h => by simp at h
  | (d, l) :: labels, h => by
    unfold colourLabel
    simp only [List.map_cons, PyDict.get, Option.some.injEq]
    by_cases e : d = c
    · simp [e]
    · rw [if_neg e, if_neg e]
      exact get_labels v c labels (by simpa [Ne.symm e] using h)

theorem remap_labels {labels : PyDict Int (List Lit)} (hk : ∀ c, c ∈ labels.map Prod.fst ↔ UsesColour n c) (v : Asg) :
    remapColours n (labels.map fun e => (some e.1, some (value v e.2 : Int))) = .ok (rename (fun c => value v (colourLabel labels c)) n) := by
  have hnone : PyDict.get (labels.map fun e => ((some e.1 : Colour), (some (value v e.2 : Int) : Colour))) none = none := by
    rw [PyDict.get_eq_none]
    simp
  unfold remapColours
  rw [hnone]
  simp only [Option.isSome_none, Bool.false_eq_true, if_false]
  congr 1
  unfold rename
  have hm : ∀ o : Colour, (∀ c, o = some c → UsesColour n c) →
      mapColour (labels.map fun e => ((some e.1 : Colour), (some (value v e.2 : Int) : Colour))) o = o.map fun c => (value v (colourLabel labels c) : Int) := by
    intro o ho
    unfold mapColour
    cases o with
    | none => rw [hnone]; rfl
    | some c => rw [get_labels v c labels ((hk c).2 (ho c rfl))]; rfl
  refine List.map_congr_left fun nd hnd => ?_
  have h1 : nd.1 ∈ sidesOf n := List.mem_flatMap.2 ⟨nd, hnd, by simp⟩
  have h2 : nd.2 ∈ sidesOf n := List.mem_flatMap.2 ⟨nd, hnd, by simp⟩
  rw [hm _ fun c hc => side_uses h1 (.inl hc), hm _ fun c hc => side_uses h1 (.inr hc), hm _ fun c hc => side_uses h2 (.inl hc),
    hm _ fun c hc => side_uses h2 (.inr hc)]

end FSat
