import Verif.Lemmas.Energy
import Verif.Lemmas.Balancer
import Verif.Props.Ends
import Mathlib.Algebra.BigOperators.Ring.Finset
/-!
Layouts from satisfying assignments, and flows on them from transported quantities.
-/

set_option linter.unusedSimpArgs false

namespace FSat

section
variable {g : Grid} {C : Nat × Nat → CellVal} {T : Nat × Nat → Tile}

/-- The layout of an assignment that satisfies the basic constraints. -/
theorem layout_of_sem (hg : g.WF) {v : Asg} {eB eU : Edges} (hl : Lays g (g.vals v) T) (h1 : InitSem g (g.vals v)) (h2 : IntersectionSem g (g.vals v))
    (h3 : UndergroundSem g (g.vals v)) (h4 : BlockBeltSem g eB (g.vals v)) (h5 : BlockUgSem g eU (g.vals v))
    (h6 : ∀ l, g.ugLen = some l → LengthSem g (g.vals v) l) (hE : g.Sealed eU) :
    BasicRules g.In g.nb T (g.shut eB) (g.shut eU) g.ugLen := by
  refine ⟨fun p hp => (hl p hp).basic, (splitterSem_iff hg hl).1 h1.splitter, joined_of_sem hg hl h2, ends_of_sem hg hl h2,
    ⟨fun p d hp ht => ?_, fun q d hq ht => ?_, fun p q d k hp hpair l hul => pairs_len hg hl h3 (h6 l hul) hp hpair⟩,
    (blockBelt_iff hl eB).1 h4, underShut_of_sem hg hl h3 h5⟩
  · obtain ⟨q, k, a, b, _⟩ := entrance_run hg hl h3 h5 hE hp ht
    exact ⟨q, k, a, b⟩
  · obtain ⟨p, k, a, b⟩ := exit_run hg hl h3 h5 hE hq ht
    exact ⟨p, k, a, b⟩

/-- The flags connect `p` with its neighbour `q`. -/
def Grid.linked (g : Grid) (C : Nat × Nat → CellVal) (p q : Nat × Nat) (d : Dir) : Prop := g.nb p d = some q ∧ (C p).out d = true

theorem transport_under {Q : Nat × Nat → List Bool} {U : Dir → Nat × Nat → List Bool} (hg : g.WF) (hT : Lays g C T)
    (h : UndergroundSem g C) (hc : TransportSem g C Q U) {p q : Nat × Nat} {d : Dir} {k : Nat} (hp : g.In p)
    (hpair : UgPair g.nb T p q d k) : Q p = Q q := by
  have hrun := pair_run hg hT h hp hpair
  have hk := hpair.1
  have ha := hpair.2.2.1 ▸ hT p hp
  have hpf := ha.isSplitter_false (by rintro ⟨_, _, h⟩; cases h)
  have hall : ∀ i, i + 1 < k → ∀ r, walk g.nb p d (i + 1) = some r → Q p = U d r := by
    intro i
    induction i with
    | zero =>
      intro _ r hr
      exact hc.entrance d p r hp hr ((ha.2.2.1 d).2 rfl) hpf ha.2.2.2
    | succ i ih =>
      intro hi r hr
      obtain ⟨s, hs1, hs2⟩ := hrun (i + 1) (by omega) (by omega)
      rw [ih (by omega) s hs1]
      have : g.nb s d = some r := by
        have : walk g.nb p d (i + 1 + 1) = some r := hr
        rw [walk, hs1] at this
        simpa using this
      exact hc.under d s r (walk_in hg hp hs1) this hs2
  obtain ⟨s, hs1, hs2⟩ := hrun (k - 1) (by omega) (by omega)
  have hsq : g.nb s d = some q := by
    have : walk g.nb p d (k - 1 + 1) = some q := by rw [show k - 1 + 1 = k by omega]; exact hpair.2.1
    rw [walk, hs1] at this
    simpa using this
  have hq := Grid.nb_in hg hsq
  have haq := hpair.2.2.2.1 ▸ hT q hq
  have h1 := hall (k - 2) (by omega) s (by rwa [show k - 2 + 1 = k - 1 by omega])
  rw [h1]
  exact hc.exit d s q (walk_in hg hp hs1) hsq ((haq.2.2.2 d).2 rfl)
    (haq.isSplitter_false (by rintro ⟨_, _, h⟩; cases h)) haq.2.2.1

theorem inflow_iff (hg : g.WF) (hi : IntersectionSem g C) {p b : Nat × Nat} {d : Dir} (hp : g.In p) (hb : g.nb p d.opp = some b) :
    (∃ r, g.In r ∧ g.linked C r p d) ↔ (C p).inp d = true := by
  have hb' : g.nb b d = some p := by
    have := Grid.nb_opp hg hp hb
    rwa [Dir.opp_opp] at this
  have hbin := Grid.nb_in hg hb
  have e := (hi d b p hbin hb').1
  constructor
  · rintro ⟨r, hr, h1, h2⟩
    have : r = b := Grid.nb_inj hg hr hbin h1 hb'
    subst this
    rw [← e]; exact h2
  · intro h
    exact ⟨b, hbin, hb', e.trans h⟩

theorem outflow_iff {p f : Nat × Nat} {d : Dir} (hf : g.nb p d = some f) : (∃ r, g.linked C p r d) ↔ (C p).out d = true :=
  ⟨fun ⟨_, h⟩ => h.2, fun h => ⟨f, hf, h⟩⟩

/-- How much of the amount `x` counts. -/
def gate (b : Bool) (x : Rat) : Rat := if b = true then x else 0

theorem arrives_eq (hg : g.WF) (hi : IntersectionSem g C) {p b : Nat × Nat} {d : Dir} (hp : g.In p) (hb : g.nb p d.opp = some b)
    (F : Nat × Nat → Rat) : arrives g.In (g.linked C) F p d = gate ((C p).inp d) (F p) := by
  unfold arrives gate
  by_cases h : (C p).inp d = true
  · rw [if_pos h, if_pos ((inflow_iff hg hi hp hb).2 h)]
  · rw [if_neg h, if_neg fun hh => h ((inflow_iff hg hi hp hb).1 hh)]

theorem outlets_eq {p f : Nat × Nat} {d : Dir} (hf : g.nb p d = some f) : outlets (g.linked C) p d = gate ((C p).out d) 1 := by
  unfold outlets gate
  by_cases h : (C p).out d = true
  · rw [if_pos h, if_pos ((outflow_iff hf).2 h)]
  · rw [if_neg h, if_neg fun hh => h ((outflow_iff hf).1 hh)]

/-- No splitter half touches the border in its direction. -/
def InnerSplitters (g : Grid) (T : Nat × Nat → Tile) : Prop :=
  ∀ p d b, g.In p → T p = .splitter d b → g.nb p d ≠ none ∧ g.nb p d.opp ≠ none

/-- A transported quantity is a steady flow if the splitters share it. -/
theorem steady_of_transport {Q : Nat × Nat → List Bool} {U : Dir → Nat × Nat → List Bool} (hg : g.WF) (hT : Lays g C T)
    (hi : IntersectionSem g C) (h : UndergroundSem g C) (hc : TransportSem g C Q U) (hin : InnerSplitters g T) (φ : List Bool → Rat)
    (hs : ∀ p q d p' q', g.In p → SplitterPair g.nb T p q d → g.nb p d = some p' → g.nb q d = some q' →
      ((C p).out d = true → φ (Q p') * (gate ((C p).out d) 1 + gate ((C q).out d) 1) =
        gate ((C p).inp d) (φ (Q p)) + gate ((C q).inp d) (φ (Q q))) ∧
      ((C q).out d = true → φ (Q q') * (gate ((C p).out d) 1 + gate ((C q).out d) 1) =
        gate ((C p).inp d) (φ (Q p)) + gate ((C q).inp d) (φ (Q q)))) :
    Steady g.In g.nb T (g.linked C) fun p => φ (Q p) := by
  refine ⟨?_, ?_, ?_⟩
  · intro p q d hp ⟨hq, ho⟩ hns
    rw [hc.surface d p q hp hq ho ((hT p hp).isSplitter_false hns)]
  · intro p q d k hp hpair
    rw [transport_under hg hT h hc hp hpair]
  · intro p q d hp hq hpair r hr
    obtain ⟨a1, a2⟩ := hin p d true hp hpair.1
    obtain ⟨b1, b2⟩ := hin q d false hq hpair.2.2
    obtain ⟨p', hp'⟩ := Option.ne_none_iff_exists'.1 a1
    obtain ⟨q', hq'⟩ := Option.ne_none_iff_exists'.1 b1
    obtain ⟨x, hx⟩ := Option.ne_none_iff_exists'.1 a2
    obtain ⟨y, hy⟩ := Option.ne_none_iff_exists'.1 b2
    rw [arrives_eq hg hi hp hx, arrives_eq hg hi hq hy, outlets_eq hp', outlets_eq hq']
    obtain ⟨k1, k2⟩ := hs p q d p' q' hp hpair hp' hq'
    rcases hr with ⟨h1, h2⟩ | ⟨h1, h2⟩
    · have : r = p' := Option.some.inj (h1.symm.trans hp')
      subst this; exact k1 h2
    · have : r = q' := Option.some.inj (h1.symm.trans hq')
      subst this; exact k2 h2

end

section
variable {P : Type} {In : P → Prop} {nb : P → Dir → Option P} {T : P → Tile} {conn conn' : P → P → Dir → Prop}

theorem Steady.congr (h : ∀ p q d, In p → (conn p q d ↔ conn' p q d)) {F : P → Rat} (hF : Steady In nb T conn F) : Steady In nb T conn' F := by
  have ea : ∀ p d, In p → arrives In conn' F p d = arrives In conn F p d := by
    intro p d _
    unfold arrives
    have : (∃ r, In r ∧ conn' r p d) ↔ ∃ r, In r ∧ conn r p d :=
      exists_congr fun r => and_congr_right fun hr => (h r p d hr).symm
    by_cases hh : ∃ r, In r ∧ conn r p d
    · rw [if_pos hh, if_pos (this.2 hh)]
    · rw [if_neg hh, if_neg fun h => hh (this.1 h)]
  have eo : ∀ p d, In p → outlets conn' p d = outlets conn p d := by
    intro p d hp
    unfold outlets
    have : (∃ r, conn' p r d) ↔ ∃ r, conn p r d := exists_congr fun r => (h p r d hp).symm
    by_cases hh : ∃ r, conn p r d
    · rw [if_pos hh, if_pos (this.2 hh)]
    · rw [if_neg hh, if_neg fun h => hh (this.1 h)]
  refine ⟨fun p q d hp hc => hF.surface p q d hp ((h p q d hp).2 hc), hF.under, fun p q d hp hq hpair r hr => ?_⟩
  rw [ea p d hp, ea q d hq, eo p d hp, eo q d hq]
  exact hF.splitter p q d hp hq hpair r (hr.imp (h p r d hp).2 (h q r d hq).2)

open Finset in
theorem Steady.sum {ι : Type} (s : Finset ι) (c : ι → Rat) (φ : ι → P → Rat) (h : ∀ i ∈ s, Steady In nb T conn (φ i)) :
    Steady In nb T conn fun p => ∑ i ∈ s, c i * φ i p := by
  have ea : ∀ p d, arrives In conn (fun p => ∑ i ∈ s, c i * φ i p) p d = ∑ i ∈ s, c i * arrives In conn (φ i) p d := by
    intro p d
    unfold arrives
    split
    · rfl
    · simp
  refine ⟨fun p q d hp hc hns => sum_congr rfl fun i hi => by rw [(h i hi).surface p q d hp hc hns],
    fun p q d k hp hc => sum_congr rfl fun i hi => by rw [(h i hi).under p q d k hp hc], fun p q d hp hq hpair r hr => ?_⟩
  rw [ea, ea, sum_mul, ← sum_add_distrib]
  refine sum_congr rfl fun i hi => ?_
  have := (h i hi).splitter p q d hp hq hpair r hr
  rw [mul_assoc, this]; ring

theorem Steady.const (c : Rat) (hfull : FullSplitters In T conn) : Steady In nb T conn fun _ => c := by
  refine ⟨fun _ _ _ _ _ _ => rfl, fun _ _ _ _ _ _ => rfl, fun p q d hp hq hpair r _ => ?_⟩
  obtain ⟨a1, a2⟩ := hfull p d true hp hpair.1
  obtain ⟨b1, b2⟩ := hfull q d false hq hpair.2.2
  unfold outlets arrives
  rw [if_pos a1, if_pos b1, if_pos a2, if_pos b2]; ring

/-- With both halves connected a splitter halves the sum of what it gets. -/
theorem Steady.halves (hfull : FullSplitters In T conn) {F : P → Rat} (hF : Steady In nb T conn F) {p q r : P} {d : Dir} (hp : In p)
    (hq : In q) (hpair : SplitterPair nb T p q d) (hr : conn p r d ∨ conn q r d) : F r = (F p + F q) / 2 := by
  have := hF.splitter p q d hp hq hpair r hr
  obtain ⟨a1, a2⟩ := hfull p d true hp hpair.1
  obtain ⟨b1, b2⟩ := hfull q d false hq hpair.2.2
  unfold outlets arrives at this
  rw [if_pos a1, if_pos b1, if_pos a2, if_pos b2] at this
  linarith

end

/-! ### Lists of numbers -/

/-- `n` numbers of `bits` bits. -/
def Arrayed {α : Type} (n bits : Nat) (l : List (List α)) : Prop := l.length = n ∧ ∀ c ∈ l, c.length = bits

theorem Arrayed.flatten_inj {α : Type} {n bits : Nat} {a b : List (List α)} (ha : Arrayed n bits a) (hb : Arrayed n bits b)
    (h : a.flatten = b.flatten) : a = b := by
  obtain ⟨rfl, ha⟩ := ha
  obtain ⟨hl, hb⟩ := hb
  induction a generalizing b with
  | nil => exact (List.length_eq_zero_iff.1 hl).symm
  | cons x a ih =>
    cases b with
    | nil => cases hl
    | cons y b =>
      simp only [List.flatten_cons] at h
      have hx := ha x (by simp)
      have hy := hb y (by simp)
      obtain ⟨h1, h2⟩ := List.append_inj h (hx.trans hy.symm)
      rw [h1, ih h2 (fun c hc => ha c (by simp [hc])) (by simpa using hl) (fun c hc => hb c (by simp [hc]))]

theorem Arrayed.flatten_length {α : Type} {n bits : Nat} {a : List (List α)} (ha : Arrayed n bits a) : a.flatten.length = n * bits := by
  obtain ⟨rfl, ha⟩ := ha
  induction a with
  | nil => simp
  | cons x a ih =>
    rw [List.flatten_cons, List.length_append, ih fun c hc => ha c (by simp [hc]), ha x (by simp), List.length_cons, Nat.succ_mul]
    omega

theorem Arrayed.map {α β : Type} (f : α → β) {n bits : Nat} {a : List (List α)} (ha : Arrayed n bits a) : Arrayed n bits (a.map (List.map f)) := by
  refine ⟨by simpa using ha.1, fun c hc => ?_⟩
  obtain ⟨x, hx, rfl⟩ := List.mem_map.1 hc
  simpa using ha.2 x hx

/-- Component `i` of a list of numbers. -/
def comp (l : List (List Lit)) (i : Nat) : List Lit := l.getD i []

theorem Arrayed.comp_mem {n bits : Nat} {l : List (List Lit)} (h : Arrayed n bits l) {i : Nat} (hi : i < n) : comp l i ∈ l := by
  obtain ⟨rfl, _⟩ := h
  unfold comp
  rw [List.getD_eq_getElem?_getD, List.getElem?_eq_getElem hi]
  exact List.getElem_mem hi

theorem Arrayed.comp_length {n bits : Nat} {l : List (List Lit)} (h : Arrayed n bits l) {i : Nat} (hi : i < n) : (comp l i).length = bits :=
  h.2 _ (h.comp_mem hi)

/-- The value of component `i`, read from the flattened list of truth values. -/
def readComp (bits i : Nat) (bs : List Bool) : Rat := (binVal ((bs.drop (i * bits)).take bits) : Nat)

theorem Arrayed.flatten_slice {α : Type} {n bits : Nat} {a : List (List α)} (ha : Arrayed n bits a) {i : Nat} (hi : i < n) :
    (a.flatten.drop (i * bits)).take bits = a.getD i [] := by
  obtain ⟨rfl, ha⟩ := ha
  induction a generalizing i with
  | nil => cases hi
  | cons x a ih =>
    have hx := ha x (by simp)
    cases i with
    | zero => simp [← hx]
    | succ i =>
      have e : (i + 1) * bits = x.length + i * bits := by rw [hx, Nat.succ_mul]; omega
      rw [List.flatten_cons, e, ← List.drop_drop, List.drop_left, ih (fun c hc => ha c (by simp [hc])) (by simpa using hi)]
      rfl

theorem readComp_eq {n bits : Nat} {l : List (List Lit)} (h : Arrayed n bits l) {i : Nat} (hi : i < n) (v : Asg) :
    readComp bits i (l.flatten.map (ev v)) = (value v (comp l i) : Nat) := by
  have h2 := h.flatten_slice hi
  unfold readComp comp value
  rw [← List.map_drop, ← List.map_take, h2]

theorem repeatInst_all {α : Type} (f : Nat → α × Nat) (p : α → Prop) (h : ∀ s, p (f s).1) (k s : Nat) :
    (repeatInst f k s).1.length = k ∧ ∀ a ∈ (repeatInst f k s).1, p a := by
  induction k generalizing s with
  | zero => exact ⟨rfl, by intro a ha; cases ha⟩
  | succ k ih =>
    obtain ⟨h1, h2⟩ := ih (f s).2
    simp only [repeatInst]
    refine ⟨by simp [h1], fun a ha => ?_⟩
    simp only [List.mem_cons] at ha
    rcases ha with rfl | ha
    · exact h s
    · exact h2 a ha

theorem concatE_sat {α : Type} {f : α → Except PyErr Cnf} {as : List α} {cs : Cnf} (h : concatE f as = .ok cs) {v : Asg} (hv : Sat v cs) :
    ∀ a ∈ as, ∃ c, f a = .ok c ∧ Sat v c := by
  induction as generalizing cs with
  | nil => simp
  | cons a as ih =>
    unfold concatE at h
    cases e : f a with
    | error e' => rw [e] at h; cases h
    | ok c =>
      rw [e] at h
      simp only at h
      cases e2 : concatE f as with
      | error e' => rw [e2] at h; cases h
      | ok c' =>
        rw [e2] at h
        simp only [Except.ok.injEq] at h
        subst h
        rw [Sat_append] at hv
        intro b hb
        simp only [List.mem_cons] at hb
        rcases hb with rfl | hb
        · exact ⟨c, e, hv.1⟩
        · exact ih e2 hv.2 b hb

end FSat
