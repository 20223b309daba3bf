import Verif.Lemmas.Balancer
import Verif.Lemmas.NetworkNorm
import Mathlib.Data.Finset.Card
import Mathlib.Data.Finset.Dedup

set_option linter.unusedSimpArgs false

namespace FSat

theorem range_one (n : Nat) (f : Nat → Bool) :
    ((List.range n).map f).count true = 1 ↔ ∃ i < n, f i = true ∧ ∀ j < n, f j = true → j = i := by
  have : ((List.range n).map f).count true = ((List.range n).filter f).length := by
    rw [List.count, List.countP_map, ← List.countP_eq_length_filter]
    exact List.countP_congr fun a _ => by simp
  rw [this, List.length_eq_one_iff]
  simp only [filter_eq_singleton _ List.nodup_range, List.mem_range]

theorem range_zero (n : Nat) (f : Nat → Bool) : ((List.range n).map f).count true = 0 ↔ ∀ i < n, f i = false := by
  rw [List.count_eq_zero]
  simp only [List.mem_map, List.mem_range, not_exists, not_and, Bool.not_eq_true]

/-- Exactly one label on heads, none elsewhere. -/
theorem oneHot_iff (n : Nat) (h : Bool) (f : Nat → Bool) :
    ((!h) :: (List.range n).map f).count true = 1 ↔
      (h = true → ∃ i < n, f i = true) ∧ (∀ i < n, f i = true → h = true) ∧
      (∀ i < n, ∀ j < n, f i = true → f j = true → i = j) := by
  cases h with
  | false =>
    have e : ((!false) :: (List.range n).map f).count true = ((List.range n).map f).count true + 1 := by simp
    rw [e, Nat.add_eq_right, range_zero]
    constructor
    · intro hh
      exact ⟨by simp, fun i hi hf => (by simpa using (hh i hi).symm.trans hf), fun i hi j hj hf => by simp [hh i hi] at hf⟩
    · rintro ⟨_, hh, _⟩ i hi
      cases hf : f i with
      | false => rfl
      | true => simpa using hh i hi hf
  | true =>
    have e : ((!true) :: (List.range n).map f).count true = ((List.range n).map f).count true := by simp
    rw [e, range_one]
    constructor
    · rintro ⟨i, hi, hf, hu⟩
      exact ⟨fun _ => ⟨i, hi, hf⟩, fun _ _ _ => rfl, fun a ha b hb h1 h2 => (hu a ha h1).trans (hu b hb h2).symm⟩
    · rintro ⟨h1, _, h3⟩
      obtain ⟨i, hi, hf⟩ := h1 rfl
      exact ⟨i, hi, hf, fun j hj hfj => h3 j hj i hi hfj hf⟩

theorem Grid.cells_nodup (g : Grid) : g.cells.Nodup := by
  unfold Grid.cells
  rw [List.nodup_flatMap]
  refine ⟨fun x _ => List.nodup_range.map fun a b h => (Prod.mk.inj h).2, ?_⟩
  refine List.nodup_range.imp fun {a b} hab => ?_
  intro c hc hc'
  obtain ⟨y, _, rfl⟩ := List.mem_map.1 hc
  obtain ⟨y', _, h⟩ := List.mem_map.1 hc'
  exact hab (Prod.mk.inj h).1.symm

theorem Grid.nb_parity {g : Grid} (hg : g.WF) (he : g.edge = ⟨false, false⟩) {p q : Nat × Nat} {d : Dir} (h : g.nb p d = some q) :
    (q.1 + q.2) % 2 ≠ (p.1 + p.2) % 2 := by
  rw [Grid.nb, Grid.offset_iff hg, he] at h
  obtain ⟨⟨_, h1⟩, _, h2⟩ := h
  simp only [Bool.false_eq_true, if_false] at h1 h2
  cases d <;> simp only [Dir.dx, Dir.dy] at h1 h2 <;> omega

/-- On a grid that does not wrap every splitter covers one cell of each colour of a checkerboard. -/
theorem splitter_count {g : Grid} (hg : g.WF) (he : g.edge = ⟨false, false⟩) {C : Nat × Nat → CellVal} {T : Nat × Nat → Tile}
    (hT : Lays g C T) (hs : PairedSplitters g.In g.nb T) :
    (g.cells.filter fun p => (p.1 + p.2) % 2 = 1).countP (fun p => (C p).isSplitter) = g.cells.countP (fun p => (C p).isHead) := by
  have e1 : (g.cells.filter fun p => (p.1 + p.2) % 2 = 1).countP (fun p => (C p).isSplitter) =
      ((g.cells.filter fun p => decide ((p.1 + p.2) % 2 = 1) && (C p).isSplitter).toFinset).card := by
    rw [List.toFinset_card_of_nodup (g.cells_nodup.filter _), List.countP_eq_length_filter, List.filter_filter]
    congr 1
    exact List.filter_congr fun x _ => Bool.and_comm _ _
  have e2 : g.cells.countP (fun p => (C p).isHead) = ((g.cells.filter fun p => (C p).isHead).toFinset).card := by
    rw [List.toFinset_card_of_nodup (g.cells_nodup.filter _), List.countP_eq_length_filter]
  rw [e1, e2]
  classical
  symm
  have hcell : ∀ p, (p ∈ g.cells) ↔ g.In p := g.mem_cells
  let dirOf : Nat × Nat → Dir := fun p => match T p with | .splitter d _ => d | _ => .right
  refine Finset.card_bij (fun p _ => if (p.1 + p.2) % 2 = 1 then p else ((g.nb p (dirOf p).ccw).getD p)) ?_ ?_ ?_
  · intro p hp
    simp only [List.mem_toFinset, List.mem_filter, hcell, Bool.and_eq_true, decide_eq_true_eq] at hp ⊢
    obtain ⟨hp, hh⟩ := hp
    obtain ⟨d, hd⟩ := (hT p hp).isHead_iff.1 hh
    split
    · rename_i ho
      exact ⟨hp, ho, (hT p hp).isSplitter_iff.2 ⟨d, true, hd⟩⟩
    · rename_i ho
      obtain ⟨q, hq, _, hn, ht⟩ := hs.head p d hp hd
      have : dirOf p = d := by simp only [dirOf, hd]
      rw [this, hn, Option.getD_some]
      have := g.nb_parity hg he hn
      exact ⟨hq, by omega, (hT q hq).isSplitter_iff.2 ⟨d, false, ht⟩⟩
  · intro p hp p' hp' heq
    simp only [List.mem_toFinset, List.mem_filter, hcell] at hp hp'
    obtain ⟨hp, hh⟩ := hp
    obtain ⟨hp', hh'⟩ := hp'
    obtain ⟨d, hd⟩ := (hT p hp).isHead_iff.1 hh
    obtain ⟨d', hd'⟩ := (hT p' hp').isHead_iff.1 hh'
    obtain ⟨q, hq, _, hn, ht⟩ := hs.head p d hp hd
    obtain ⟨q', hq', _, hn', ht'⟩ := hs.head p' d' hp' hd'
    have e : dirOf p = d := by simp only [dirOf, hd]
    have e' : dirOf p' = d' := by simp only [dirOf, hd']
    simp only [e, e', hn, hn', Option.getD_some] at heq
    split at heq <;> split at heq
    · exact heq
    · rw [heq, ht'] at hd; cases hd
    · rw [← heq, ht] at hd'; cases hd'
    · subst heq
      rw [ht] at ht'
      cases ht'
      exact g.nb_inj hg hp hp' hn hn'
  · intro q hq
    simp only [List.mem_toFinset, List.mem_filter, hcell, Bool.and_eq_true, decide_eq_true_eq] at hq
    obtain ⟨hq, ho, hsq⟩ := hq
    obtain ⟨d, b, hd⟩ := (hT q hq).isSplitter_iff.1 hsq
    cases b with
    | true =>
      refine ⟨q, ?_, if_pos ho⟩
      simp only [List.mem_toFinset, List.mem_filter, hcell]
      exact ⟨hq, (hT q hq).isHead_iff.2 ⟨d, hd⟩⟩
    | false =>
      obtain ⟨p, hp, hph, hn, _⟩ := hs.tail q d hq hd
      refine ⟨p, ?_, ?_⟩
      · simp only [List.mem_toFinset, List.mem_filter, hcell]
        exact ⟨hp, (hT p hp).isHead_iff.2 ⟨d, hph⟩⟩
      · have e : dirOf p = d := by simp only [dirOf, hph]
        have := g.nb_parity hg he hn
        rw [if_neg (by omega), e, hn, Option.getD_some]

/-- The flow the flags of the cells describe. -/
def flowOf (C : Nat × Nat → CellVal) : Flow (Nat × Nat) := ⟨fun p => (C p).inp, fun p => (C p).out, fun p => binVal (C p).colour⟩

theorem wired_iff {g : Grid} {C : Nat × Nat → CellVal} {T : Nat × Nat → Tile} (hs : PairedSplitters g.In g.nb T) {k : Node}
    {p : Nat × Nat} {d : Dir} (hp : g.In p) (hd : T p = .splitter d true) : Wired g.nb T (flowOf C) k p d ↔ WiredSem g C k p d := by
  constructor
  · rintro ⟨q, p', q', hq, h1, h2, h3, h4⟩
    exact ⟨q, p', q', hq.2.1, h1, h2, h3, h4⟩
  · rintro ⟨q, p', q', hq, h1, h2, h3, h4⟩
    obtain ⟨q1, _, hs1⟩ := hs.head p d hp hd
    have : q1 = q := Option.some.inj (hs1.2.1.symm.trans hq)
    subst this
    exact ⟨q1, p', q', hs1, h1, h2, h3, h4⟩

/-- The ends of a balancer, in terms of flags. -/
structure EndsSem (g : Grid) (C : Nat × Nat → CellVal) (a m b n : Int) : Prop where
  ins : (g.cells.countP (fun p => (C p).isInput) : Int) = m
  outs : (g.cells.countP (fun p => (C p).isOutput) : Int) = n
  inCol : ∀ p, g.In p → (C p).isInput = true → (binVal (C p).colour : Int) = a
  outCol : ∀ p, g.In p → (C p).isOutput = true → (binVal (C p).colour : Int) = b

/-- The label a row of node flags stands for. -/
def labelOf (net : PyDict Node Nat) (f : Nat → Bool) : Option Node :=
  ((List.range net.length).find? f).bind fun i => (net[i]?).map Prod.fst

theorem labelOf_iff {net : PyDict Node Nat} (hv : net.Valid) {f : Nat → Bool}
    (hu : ∀ i < net.length, ∀ j < net.length, f i = true → f j = true → i = j) {i : Nat} (hi : i < net.length) :
    labelOf net f = some (net[i]).1 ↔ f i = true := by
  unfold labelOf
  constructor
  · intro h
    cases hf : (List.range net.length).find? f with
    | none => rw [hf] at h; cases h
    | some j =>
      have hj := List.find?_some hf
      have hjl : j < net.length := List.mem_range.1 (List.mem_of_find?_eq_some hf)
      rw [hf] at h
      simp only [Option.bind_some, List.getElem?_eq_getElem hjl, Option.map_some, Option.some.injEq] at h
      have : j = i := by
        have hv' : (net.map Prod.fst).Nodup := hv
        refine (List.Nodup.getElem_inj_iff hv' (hi := by simpa using hjl) (hj := by simpa using hi)).1 ?_
        simpa using h
      exact this ▸ hj
  · intro h
    cases hf : (List.range net.length).find? f with
    | none =>
      have := List.find?_eq_none.1 hf i (List.mem_range.2 hi)
      exact absurd h this
    | some j =>
      have hj := List.find?_some hf
      have hjl : j < net.length := List.mem_range.1 (List.mem_of_find?_eq_some hf)
      have : j = i := hu j hjl i hi hj h
      subst this
      simp [List.getElem?_eq_getElem hi]

theorem labelOf_isSome {net : PyDict Node Nat} {f : Nat → Bool} : (∃ k, labelOf net f = some k) ↔ ∃ i < net.length, f i = true := by
  unfold labelOf
  cases hf : (List.range net.length).find? f with
  | none =>
    simp only [Option.bind_none, reduceCtorEq, exists_false, false_iff, not_exists, not_and]
    exact fun i hi => List.find?_eq_none.1 hf i (List.mem_range.2 hi)
  | some j =>
    have hj := List.find?_some hf
    have hjl : j < net.length := List.mem_range.1 (List.mem_of_find?_eq_some hf)
    simp only [Option.bind_some, List.getElem?_eq_getElem hjl, Option.map_some]
    exact ⟨fun _ => ⟨j, hjl, hj⟩, fun _ => ⟨_, rfl⟩⟩

theorem labelOf_mem {net : PyDict Node Nat} {f : Nat → Bool} {k : Node} (h : labelOf net f = some k) :
    ∃ i, ∃ hi : i < net.length, k = (net[i]).1 := by
  unfold labelOf at h
  cases hf : (List.range net.length).find? f with
  | none => rw [hf] at h; cases h
  | some j =>
    have hjl : j < net.length := List.mem_range.1 (List.mem_of_find?_eq_some hf)
    rw [hf] at h
    simp only [Option.bind_some, List.getElem?_eq_getElem hjl, Option.map_some, Option.some.injEq] at h
    exact ⟨j, hjl, h.symm⟩

theorem zipIdx_getElem {α : Type} {l : List α} {i : Nat} (hi : i < l.length) : (l[i], i) ∈ l.zipIdx := by
  rw [List.mem_zipIdx_iff_getElem?]
  simp [hi]

section
variable {g : Grid} {net : PyDict Node Nat} {a m b n : Int} {C : Nat × Nat → CellVal} {T : Nat × Nat → Tile}

theorem BalancerSem.realises (hv : net.Valid) (hT : Lays g C T) (hs : PairedSplitters g.In g.nb T)
    {N : Nat × Nat → Nat → Bool} (h : BalancerSem g net a m b n C N) :
    Realises g.nb T (flowOf C) g.cells (elements net) fun p => labelOf net (N p) := by
  have one := fun p hp => (oneHot_iff net.length (C p).isHead (N p)).1 (h.one p hp)
  constructor
  · intro p hp
    have hp := (g.mem_cells p).1 hp
    rw [labelOf_isSome, ← (hT p hp).isHead_iff]
    exact ⟨fun ⟨i, hi, hf⟩ => (one p hp).2.1 i hi hf, (one p hp).1⟩
  · intro k
    rw [count_elements net hv]
    by_cases hk : ∃ i, ∃ hi : i < net.length, k = (net[i]).1
    · obtain ⟨i, hi, rfl⟩ := hk
      have hget : net.get (net[i]).1 = some (net[i]).2 := PyDict.get_of_mem hv (List.getElem_mem hi)
      rw [hget, Option.getD_some, ← h.count (net[i], i) (zipIdx_getElem hi)]
      refine List.countP_congr fun p hp => ?_
      rw [decide_eq_true_eq]
      exact labelOf_iff hv (one p ((g.mem_cells p).1 hp)).2.2 hi
    · have hget : net.get k = none := by
        rw [PyDict.get_eq_none]
        intro hm
        obtain ⟨e, he, rfl⟩ := List.mem_map.1 hm
        obtain ⟨i, hi, rfl⟩ := List.mem_iff_getElem.1 he
        exact hk ⟨i, hi, rfl⟩
      rw [hget, Option.getD_none, List.countP_eq_zero]
      intro p _ hl
      exact hk (labelOf_mem (of_decide_eq_true hl))
  · intro p hp k d hl hd
    have hp := (g.mem_cells p).1 hp
    obtain ⟨i, hi, rfl⟩ := labelOf_mem hl
    have hN := (labelOf_iff hv (one p hp).2.2 hi).1 hl
    obtain ⟨_, _, hdir, hw⟩ := h.nodes _ (zipIdx_getElem hi) p hp
    obtain ⟨e, he⟩ := hdir hN
    have : e = d := by
      have ha := hT p hp
      rw [hd] at ha
      unfold mainFlag at he
      split at he
      · exact ha.2.2.2.1 e he
      · exact ha.2.2.1 e he
    subst this
    exact (wired_iff hs hp hd).2 (hw e hN he)

theorem BalancerSem.ends (hne : net ≠ []) {N : Nat × Nat → Nat → Bool} (h : BalancerSem g net a m b n C N) : EndsSem g C a m b n := by
  obtain ⟨e, l, rfl⟩ := List.exists_cons_of_ne_nil hne
  have := h.nodes (e, 0) (by simp)
  exact ⟨h.ins, h.outs, fun p hp => (this p hp).1, fun p hp => (this p hp).2.1⟩

theorem SameSide.full {x y : Bool} {c e : Nat} {s : Colour × Colour} (h : SameSide (colourIf x c, colourIf y e) s)
    (ho : sideOpen s = false) : x = true ∧ y = true := by
  obtain ⟨s1, s2⟩ := s
  cases s1 <;> cases s2 <;> simp [sideOpen] at ho
  cases x <;> cases y <;> simp [SameSide, colourIf] at h ⊢

theorem balancerSem_of (hg : g.WF) (he : g.edge = ⟨false, false⟩) (hv : net.Valid) {bits : Nat} (hk : ∀ e ∈ net, NodeOk bits e.1)
    (hT : Lays g C T) (hs : PairedSplitters g.In g.nb T) {lab : Nat × Nat → Option Node}
    (h : Realises g.nb T (flowOf C) g.cells (elements net) lab) (hE : EndsSem g C a m b n) :
    BalancerSem g net a m b n C fun p i => decide (∃ h : i < net.length, lab p = some (net[i]).1) := by
  have hcount : ∀ i, ∀ hi : i < net.length, g.cells.countP (fun p => lab p = some (net[i]).1) = (net[i]).2 := by
    intro i hi
    have hget : net.get (net[i]).1 = some (net[i]).2 := PyDict.get_of_mem hv (List.getElem_mem hi)
    rw [h.used, count_elements net hv, hget, Option.getD_some]
  have hinj : ∀ i, ∀ hi : i < net.length, ∀ j, ∀ hj : j < net.length, (net[i]).1 = (net[j]).1 → i = j := by
    intro i hi j hj e
    have hv' : (net.map Prod.fst).Nodup := hv
    refine (List.Nodup.getElem_inj_iff hv' (hi := by simpa using hi) (hj := by simpa using hj)).1 ?_
    simpa using e
  have hlab : ∀ p, g.In p → ∀ k, lab p = some k → ∃ i, ∃ hi : i < net.length, k = (net[i]).1 := by
    intro p hp k hl
    have h1 : 0 < g.cells.countP (fun p => lab p = some k) :=
      List.countP_pos_iff.2 ⟨p, (g.mem_cells p).2 hp, by simpa using hl⟩
    rw [h.used, count_elements net hv] at h1
    cases e : net.get k with
    | none => rw [e] at h1; simp at h1
    | some c =>
      obtain ⟨i, hi, e'⟩ := List.mem_iff_getElem.1 (PyDict.mem_of_get e)
      exact ⟨i, hi, by rw [e']⟩
  refine ⟨?_, ?_, ?_, hE.ins, hE.outs, ?_⟩
  · rw [splitter_count hg he hT hs, ← elements_length]
    have hperm : (g.cells.filterMap lab).Perm (elements net) := by
      rw [List.perm_iff_count]
      intro k
      rw [← h.used k, List.count_filterMap]
      exact List.countP_congr fun p _ => by simp
    rw [← hperm.length_eq, List.length_filterMap_eq_countP]
    refine List.countP_congr fun p hp => ?_
    rw [(hT p ((g.mem_cells p).1 hp)).isHead_iff, ← h.heads p hp, Option.isSome_iff_exists]
  · intro e he'
    have hi := (List.mem_zipIdx' he').1
    have hx := (List.mem_zipIdx' he').2
    rw [hx, ← hcount e.2 hi]
    refine List.countP_congr fun p _ => ?_
    simp only [decide_eq_true_eq]
    exact ⟨fun ⟨_, h⟩ => h, fun h => ⟨hi, h⟩⟩
  · intro p hp
    rw [oneHot_iff]
    simp only [decide_eq_true_eq]
    refine ⟨fun hh => ?_, fun i hi ⟨_, hf⟩ => ?_, fun i hi j hj ⟨_, h1⟩ ⟨_, h2⟩ => ?_⟩
    · obtain ⟨d, hd⟩ := (hT p hp).isHead_iff.1 hh
      obtain ⟨k, hl⟩ := (h.heads p ((g.mem_cells p).2 hp)).2 ⟨d, hd⟩
      obtain ⟨i, hi, rfl⟩ := hlab p hp k hl
      exact ⟨i, hi, hi, hl⟩
    · exact (hT p hp).isHead_iff.2 ((h.heads p ((g.mem_cells p).2 hp)).1 ⟨_, hf⟩)
    · rw [h1] at h2
      exact hinj i hi j hj (Option.some.inj h2)
  · intro e he' p hp
    have hi := (List.mem_zipIdx' he').1
    have hx := (List.mem_zipIdx' he').2
    refine ⟨hE.inCol p hp, hE.outCol p hp, ?_⟩
    by_cases hh : lab p = some e.1.1
    · obtain ⟨d, hd⟩ := (h.heads p ((g.mem_cells p).2 hp)).1 ⟨_, hh⟩
      have hw := (wired_iff hs hp hd).1 (h.wired p ((g.mem_cells p).2 hp) _ d hh hd)
      have hok := hk e.1 (hx ▸ List.getElem_mem hi)
      have hmain : mainFlag e.1.1 (C p) d = true := by
        obtain ⟨q, p', q', _, _, _, h1, h2⟩ := hw
        unfold mainFlag
        split
        · rename_i ho
          exact (h2.full (hok.notBoth ho)).1
        · rename_i ho
          exact (h1.full (by simpa using ho)).1
      refine ⟨fun _ => ⟨d, hmain⟩, fun d' _ hd' => ?_⟩
      have : d' = d := by
        have ha := hT p hp
        rw [hd] at ha
        unfold mainFlag at hd'
        split at hd'
        · exact ha.2.2.2.1 d' hd'
        · exact ha.2.2.1 d' hd'
      exact this ▸ hw
    · have hfalse : decide (∃ h : e.2 < net.length, lab p = some (net[e.2]).1) = false := by
        rw [decide_eq_false_iff_not]
        rintro ⟨_, h'⟩
        rw [← hx] at h'
        exact hh h'
      rw [hfalse]
      exact ⟨fun h => Bool.noConfusion h, fun _ h => Bool.noConfusion h⟩

end

end FSat
