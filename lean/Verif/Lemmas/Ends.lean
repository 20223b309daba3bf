import Verif.Model.BalancerEnds
import Verif.Spec.Ends
import Verif.Lemmas.GridLits
import Verif.Lemmas.Labels

namespace FSat

theorem allocVars_length (s n : Nat) : (allocVars s n).length = n := by simp [allocVars]

theorem allocVars_bound (s n : Nat) : LBound (s + n) (allocVars s n) := by
  intro l hl
  obtain ⟨i, hi, rfl⟩ := List.mem_map.1 hl
  have := List.mem_range.1 hi
  show s + 1 + i ≤ s + n
  omega

theorem ev_pos (v : Asg) (x : Nat) : ev v ⟨x, true⟩ = v x := by simp [ev]

theorem mem_allocVars_zipIdx {s n : Nat} {e : Lit × Nat} : e ∈ (allocVars s n).zipIdx ↔ ∃ j < n, e = (⟨s + 1 + j, true⟩, j) := by
  constructor
  · intro h
    obtain ⟨h1, h2, h3⟩ := List.mem_zipIdx h
    simp only [allocVars, List.length_map, List.length_range] at h2
    refine ⟨e.2, by omega, ?_⟩
    have : e.1 = ⟨s + 1 + e.2, true⟩ := by rw [h3]; simp [allocVars]
    exact Prod.ext this rfl
  · rintro ⟨j, hj, rfl⟩
    have hl : j < (allocVars s n).length := by simpa [allocVars] using hj
    have := zipIdx_getElem hl
    simpa [allocVars] using this

/-- Of the `n` variables after `s` exactly number `a` is true. -/
def Picks (s n : Nat) (w : Asg) (a : Nat) : Prop := ∀ j < n, (w (s + 1 + j) = true ↔ j = a)

theorem picks_iff (s n : Nat) (w : Asg) : Sat w (quadraticOne (allocVars s n)) ↔ ∃ a < n, Picks s n w a := by
  rw [quadraticOne, Sat_append, quadraticAmo_iff, Sat_cons, SatC_iff_countTrue]
  have : countTrue w (allocVars s n) = ((List.range n).map fun j => w (s + 1 + j)).count true := by
    simp only [countTrue, trues, allocVars, List.map_map]
    congr 1
    apply List.map_congr_left
    intro a _
    simp [ev]
  rw [this]
  have h1 : (((List.range n).map fun j => w (s + 1 + j)).count true ≤ 1 ∧ 1 ≤ ((List.range n).map fun j => w (s + 1 + j)).count true ∧
      Sat w []) ↔ ((List.range n).map fun j => w (s + 1 + j)).count true = 1 := by
    simp only [Sat_nil, and_true]; omega
  rw [h1, range_one]
  constructor
  · rintro ⟨i, hi, h, h'⟩
    exact ⟨i, hi, fun j hj => ⟨h' j hj, fun e => e ▸ h⟩⟩
  · rintro ⟨i, hi, h⟩
    exact ⟨i, hi, (h i hi).2 rfl, fun j hj => (h j hj).1⟩

theorem sat_block (v : Asg) (inside rest : TileInst → Cnf) (tiles : List TileInst) (count di : Nat) :
    Sat v (blockConsequences inside rest tiles count di) ↔
      ∀ e ∈ tiles.zipIdx, Sat v (if di ≤ e.2 ∧ e.2 < di + count then inside e.1 else rest e.1) := by
  simp only [blockConsequences, Sat_flatMap]

theorem sat_offsets (w : Asg) (inside rest : TileInst → Cnf) (tiles : List TileInst) (count s n : Nat) :
    Sat w (offsetClauses inside rest tiles count (allocVars s n)) ↔
      ∃ a < n, Picks s n w a ∧ Sat w (blockConsequences inside rest tiles count a) := by
  rw [offsetClauses, Sat_append, picks_iff]
  constructor
  · rintro ⟨⟨a, ha, hp⟩, h⟩
    refine ⟨a, ha, hp, ?_⟩
    rw [Sat_flatMap] at h
    have := h _ (mem_allocVars_zipIdx.2 ⟨a, ha, rfl⟩)
    rw [Sat_implies] at this
    exact this (by simp [ev_pos, (hp a ha).2 rfl])
  · rintro ⟨a, ha, hp, h⟩
    refine ⟨⟨a, ha, hp⟩, ?_⟩
    rw [Sat_flatMap]
    intro e he
    obtain ⟨j, hj, rfl⟩ := mem_allocVars_zipIdx.1 he
    rw [Sat_implies]
    intro hc
    have : j = a := (hp j hj).1 (by simpa [ev_pos] using hc)
    exact this ▸ h

theorem satC_slice {s n : Nat} {w : Asg} {a : Nat} (ha : a < n) (hp : Picks s n w a) (i k : Nat) :
    SatC w (((allocVars s n).drop i).take k) ↔ i ≤ a ∧ a < i + k := by
  constructor
  · rintro ⟨l, hl, hv⟩
    obtain ⟨j, hj, rfl⟩ := List.mem_iff_getElem.1 hl
    simp only [List.length_take, List.length_drop, allocVars_length] at hj
    have : i + j = a := (hp (i + j) (by omega)).1 (by simpa [allocVars, ev] using hv)
    omega
  · rintro ⟨h1, h2⟩
    refine ⟨⟨s + 1 + a, true⟩, ?_, by rw [ev_pos]; exact (hp a ha).2 rfl⟩
    rw [List.mem_iff_getElem]
    refine ⟨a - i, by simp [allocVars_length]; omega, ?_⟩
    simp [allocVars]; omega

theorem sat_align {s1 s2 na nb m n : Nat} {w : Asg} {a b : Nat} (ha : 0 < na → a < na ∧ Picks s1 na w a)
    (hb : 0 < nb → b < nb ∧ Picks s2 nb w b) (hab : n ≤ m → 0 < na → 0 < nb) (hba : m < n → 0 < nb → 0 < na) :
    Sat w (alignClauses m n (allocVars s1 na) (allocVars s2 nb)) ↔
      if n ≤ m then (0 < na → a ≤ b ∧ b + n ≤ a + m) else (0 < nb → b ≤ a ∧ a + m ≤ b + n) := by
  unfold alignClauses
  by_cases h : n ≤ m
  · rw [if_pos h, if_pos h, Sat_flatMap]
    constructor
    · intro hs h0
      have := hs _ (mem_allocVars_zipIdx.2 ⟨a, (ha h0).1, rfl⟩)
      rw [Sat_implies] at this
      have := this (by simp [ev_pos, ((ha h0).2 a (ha h0).1).2 rfl])
      rw [Sat_cons, satC_slice (hb (hab h h0)).1 (hb (hab h h0)).2] at this
      omega
    · intro hn e he
      obtain ⟨j, hj, rfl⟩ := mem_allocVars_zipIdx.1 he
      have h0 : 0 < na := by omega
      rw [Sat_implies]
      intro hc
      have : j = a := ((ha h0).2 j hj).1 (by simpa [ev_pos] using hc)
      subst this
      rw [Sat_cons, satC_slice (hb (hab h h0)).1 (hb (hab h h0)).2]
      have := hn h0
      refine ⟨by omega, by simp⟩
  · rw [if_neg h, if_neg h, Sat_flatMap]
    have h' : m < n := by omega
    constructor
    · intro hs h0
      have := hs _ (mem_allocVars_zipIdx.2 ⟨b, (hb h0).1, rfl⟩)
      rw [Sat_implies] at this
      have := this (by simp [ev_pos, ((hb h0).2 b (hb h0).1).2 rfl])
      rw [Sat_cons, satC_slice (ha (hba h' h0)).1 (ha (hba h' h0)).2] at this
      omega
    · intro hn e he
      obtain ⟨j, hj, rfl⟩ := mem_allocVars_zipIdx.1 he
      have h0 : 0 < nb := by omega
      rw [Sat_implies]
      intro hc
      have : j = b := ((hb h0).2 j hj).1 (by simpa [ev_pos] using hc)
      subst this
      rw [Sat_cons, satC_slice (ha (hba h' h0)).1 (ha (hba h' h0)).2]
      have := hn h0
      refine ⟨by omega, by simp⟩

/-- The assignment that extends `v` by picking `a` among the `na` variables after `s` and `b` among the next ones. -/
def pick (s na : Nat) (v : Asg) (a b : Nat) : Asg := fun x =>
  if x ≤ s then v x else if x ≤ s + na then decide (x = s + 1 + a) else decide (x = s + na + 1 + b)

theorem pick_agree (s na : Nat) (v : Asg) (a b : Nat) : Agree s v (pick s na v a b) := by
  intro x hx; simp [pick, hx]

theorem pick_fst (s na : Nat) (v : Asg) (a b : Nat) : Picks s na (pick s na v a b) a := by
  intro j hj
  have h1 : ¬ s + 1 + j ≤ s := by omega
  have h2 : s + 1 + j ≤ s + na := by omega
  simp only [pick, if_neg h1, if_pos h2, decide_eq_true_eq]
  omega

theorem pick_snd (s na nb : Nat) (v : Asg) (a b : Nat) : Picks (s + na) nb (pick s na v a b) b := by
  intro j hj
  have h1 : ¬ s + na + 1 + j ≤ s := by omega
  have h2 : ¬ s + na + 1 + j ≤ s + na := by omega
  simp only [pick, if_neg h1, if_neg h2, decide_eq_true_eq]
  omega

/-- One line of tiles: with no offsets the clauses `full`, otherwise an offset and its consequences. -/
def Shown (inside rest : TileInst → Cnf) (full : Cnf) (tiles : List TileInst) (count n : Nat) (v : Asg) (a : Nat) : Prop :=
  if n = 0 then a = 0 ∧ Sat v full else a < n ∧ Sat v (blockConsequences inside rest tiles count a)

/-- The clauses of one line. -/
def lineClauses (inside rest : TileInst → Cnf) (full : Cnf) (tiles : List TileInst) (count s n : Nat) : Cnf :=
  if n = 0 then full else offsetClauses inside rest tiles count (allocVars s n)

theorem sat_line (w : Asg) (inside rest : TileInst → Cnf) (full : Cnf) (tiles : List TileInst) (count s n : Nat) :
    Sat w (lineClauses inside rest full tiles count s n) ↔
      ∃ a, (0 < n → a < n ∧ Picks s n w a) ∧ Shown inside rest full tiles count n w a := by
  unfold lineClauses Shown
  by_cases h : n = 0
  · simp only [if_pos h]
    exact ⟨fun hs => ⟨0, fun h0 => by omega, rfl, hs⟩, fun ⟨a, _, _, hs⟩ => hs⟩
  · simp only [if_neg h]
    rw [sat_offsets]
    exact ⟨fun ⟨a, h1, h2, h3⟩ => ⟨a, fun _ => ⟨h1, h2⟩, h1, h3⟩, fun ⟨a, h1, h2, h3⟩ => ⟨a, h2, (h1 (by omega)).2, h3⟩⟩

theorem ends_iff {s na nb m n : Nat} (in1 re1 in2 re2 : TileInst → Cnf) (f1 f2 : Cnf) (t1 t2 : List TileInst) (aligned : Bool)
    (hab : aligned = true → n ≤ m → 0 < na → 0 < nb) (hba : aligned = true → m < n → 0 < nb → 0 < na)
    (h1 : ∀ v w a, Agree s v w → (Shown in1 re1 f1 t1 m na w a ↔ Shown in1 re1 f1 t1 m na v a))
    (h2 : ∀ v w a, Agree s v w → (Shown in2 re2 f2 t2 n nb w a ↔ Shown in2 re2 f2 t2 n nb v a)) (v : Asg) :
    SatUpTo s v (lineClauses in1 re1 f1 t1 m s na ++ lineClauses in2 re2 f2 t2 n (s + na) nb ++
      (if aligned then alignClauses m n (allocVars s na) (allocVars (s + na) nb) else [])) ↔
    ∃ a b, Shown in1 re1 f1 t1 m na v a ∧ Shown in2 re2 f2 t2 n nb v b ∧
      (aligned = true → if n ≤ m then (0 < na → a ≤ b ∧ b + n ≤ a + m) else (0 < nb → b ≤ a ∧ a + m ≤ b + n)) := by
  constructor
  · rintro ⟨w, hw, hs⟩
    rw [Sat_append, Sat_append, sat_line, sat_line] at hs
    obtain ⟨⟨⟨a, pa, ha⟩, ⟨b, pb, hb⟩⟩, hal⟩ := hs
    refine ⟨a, b, (h1 v w a hw).1 ha, (h2 v w b hw).1 hb, fun he => ?_⟩
    rw [if_pos he, sat_align pa pb (hab he) (hba he)] at hal
    exact hal
  · rintro ⟨a, b, ha, hb, hal⟩
    have pa : 0 < na → a < na ∧ Picks s na (pick s na v a b) a := fun h0 => by
      refine ⟨?_, pick_fst _ _ _ _ _⟩
      unfold Shown at ha
      rw [if_neg (by omega)] at ha
      exact ha.1
    have pb : 0 < nb → b < nb ∧ Picks (s + na) nb (pick s na v a b) b := fun h0 => by
      refine ⟨?_, pick_snd _ _ _ _ _ _⟩
      unfold Shown at hb
      rw [if_neg (by omega)] at hb
      exact hb.1
    refine ⟨pick s na v a b, pick_agree _ _ _ _ _, ?_⟩
    rw [Sat_append, Sat_append, sat_line, sat_line]
    refine ⟨⟨⟨a, pa, (h1 v _ a (pick_agree _ _ _ _ _)).2 ha⟩, ⟨b, pb, (h2 v _ b (pick_agree _ _ _ _ _)).2 hb⟩⟩, ?_⟩
    by_cases he : aligned = true
    · rw [if_pos he, sat_align pa pb (hab he) (hba he)]; exact hal he
    · rw [if_neg he]; simp

theorem block_line (v : Asg) (inside rest : TileInst → Cnf) (len : Nat) (f : Nat → TileInst) (count a : Nat) {I R : Nat → Prop}
    (hI : ∀ y < len, Sat v (inside (f y)) ↔ I y) (hR : ∀ y < len, Sat v (rest (f y)) ↔ R y) :
    Sat v (blockConsequences inside rest ((List.range len).map f) count a) ↔
      ∀ y < len, if a ≤ y ∧ y < a + count then I y else R y := by
  rw [sat_block]
  have key : ∀ y < len, (Sat v (if a ≤ y ∧ y < a + count then inside (f y) else rest (f y)) ↔
      if a ≤ y ∧ y < a + count then I y else R y) := by
    intro y hy
    split
    · exact hI y hy
    · exact hR y hy
  constructor
  · intro h y hy
    have hl : y < ((List.range len).map f).length := by simpa using hy
    have := h _ (zipIdx_getElem hl)
    simp only [List.getElem_map, List.getElem_range] at this
    exact (key y hy).1 this
  · intro h e he
    obtain ⟨h1, h2, h3⟩ := List.mem_zipIdx he
    simp only [List.length_map, List.length_range] at h2
    have hy : e.2 < len := by omega
    have : e.1 = f e.2 := by rw [h3]; simp
    rw [this]
    exact (key e.2 hy).2 (h e.2 hy)

end FSat
