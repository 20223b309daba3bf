import Verif.Model.Util
import Verif.Spec.Bits
import Mathlib.Tactic.Tauto

namespace FSat

@[simp] theorem Lit.neg_var (l : Lit) : (-l).var = l.var := rfl
@[simp] theorem Lit.neg_pos (l : Lit) : (-l).pos = !l.pos := rfl
@[simp] theorem Lit.neg_neg (l : Lit) : - -l = l := by
  cases l; simp [Neg.neg]

@[simp] theorem ev_neg (v : Asg) (l : Lit) : ev v (-l) = !ev v l := by
  simp only [ev, Lit.neg_var, Lit.neg_pos]
  cases v l.var <;> cases l.pos <;> rfl

@[simp] theorem ev_mk_true (v : Asg) (x : Nat) : ev v ⟨x, true⟩ = v x := by
  simp [ev]

@[simp] theorem SatC_nil (v : Asg) : SatC v [] ↔ False := by simp [SatC]
@[simp] theorem SatC_cons (v : Asg) (l : Lit) (c : Clause) :
    SatC v (l :: c) ↔ (ev v l = true ∨ SatC v c) := by simp [SatC]
@[simp] theorem SatC_append (v : Asg) (c d : Clause) : SatC v (c ++ d) ↔ (SatC v c ∨ SatC v d) := by
  simp [SatC, or_and_right, exists_or]
theorem SatC_map {α : Type} (v : Asg) (xs : List α) (f : α → Lit) :
    SatC v (xs.map f) ↔ ∃ x ∈ xs, ev v (f x) = true := by simp [SatC]
@[simp] theorem SatC_map_neg (v : Asg) (xs : List Lit) :
    SatC v (xs.map (- ·)) ↔ ¬ ∀ x ∈ xs, ev v x = true := by
  simp [SatC]

@[simp] theorem Sat_nil (v : Asg) : Sat v [] ↔ True := by simp [Sat]
@[simp] theorem Sat_cons (v : Asg) (c : Clause) (cs : Cnf) : Sat v (c :: cs) ↔ (SatC v c ∧ Sat v cs) := by
  simp [Sat]
@[simp] theorem Sat_append (v : Asg) (cs ds : Cnf) : Sat v (cs ++ ds) ↔ (Sat v cs ∧ Sat v ds) := by
  simp [Sat, or_imp, forall_and]
@[simp] theorem Sat_flatMap {α : Type} (v : Asg) (xs : List α) (f : α → Cnf) :
    Sat v (xs.flatMap f) ↔ ∀ x ∈ xs, Sat v (f x) := by
  simp only [Sat, List.mem_flatMap]
  constructor
  · intro h x hx c hc; exact h c ⟨x, hx, hc⟩
  · rintro h c ⟨x, hx, hc⟩; exact h x hx c hc
@[simp] theorem Sat_map {α : Type} (v : Asg) (xs : List α) (f : α → Clause) :
    Sat v (xs.map f) ↔ ∀ x ∈ xs, SatC v (f x) := by
  simp [Sat]
@[simp] theorem Sat_ite (v : Asg) (p : Prop) [Decidable p] (a b : Cnf) :
    Sat v (if p then a else b) ↔ (if p then Sat v a else Sat v b) := by
  split <;> rfl
@[simp] theorem Sat_flatten (v : Asg) (xs : List Cnf) : Sat v xs.flatten ↔ ∀ x ∈ xs, Sat v x := by
  simp only [Sat, List.mem_flatten]
  constructor
  · intro h x hx c hc; exact h c ⟨x, hx, hc⟩
  · rintro h c ⟨x, hx, hc⟩; exact h x hx c hc

@[simp] theorem Sat_implies (v : Asg) (cond : List Lit) (cons : Cnf) :
    Sat v (implies cond cons) ↔ ((∀ l ∈ cond, ev v l = true) → Sat v cons) := by
  simp only [implies, Sat_map, SatC_append, SatC_map_neg]
  constructor
  · intro hh h c hc
    rcases hh c hc with h1 | h1
    · exact absurd h h1
    · exact h1
  · intro hh c hc
    by_cases h : ∀ l ∈ cond, ev v l = true
    · exact Or.inr (hh h c hc)
    · exact Or.inl h

@[simp] theorem Sat_literalsSame (v : Asg) (a b : Lit) :
    Sat v (literalsSame a b) ↔ ev v a = ev v b := by
  simp only [literalsSame, Sat_cons, Sat_nil, SatC_cons, SatC_nil, ev_neg]
  cases ev v a <;> cases ev v b <;> simp

@[simp] theorem Sat_literalsDifferent (v : Asg) (a b : Lit) :
    Sat v (literalsDifferent a b) ↔ ev v a = !ev v b := by
  simp only [literalsDifferent, Sat_cons, Sat_nil, SatC_cons, SatC_nil, ev_neg]
  cases ev v a <;> cases ev v b <;> simp

@[simp] theorem SatC_invertComponents (v : Asg) (c : Clause) :
    SatC v (invertComponents c) ↔ ¬ ∀ l ∈ c, ev v l = true := by
  simp [invertComponents]

@[simp] theorem mem_invertComponents (c : Clause) (l : Lit) : l ∈ invertComponents c ↔ -l ∈ c := by
  simp only [invertComponents, List.mem_map]
  constructor
  · rintro ⟨a, ha, rfl⟩; simpa using ha
  · intro h; exact ⟨-l, h, by simp⟩

theorem forall_mem_invertComponents (v : Asg) (c : Clause) :
    (∀ l ∈ invertComponents c, ev v l = true) ↔ ∀ l ∈ c, ev v l = false := by
  simp [invertComponents]

@[simp] theorem Sat_setAllFalse (v : Asg) (ls : List Lit) :
    Sat v (setAllFalse ls) ↔ ∀ l ∈ ls, ev v l = false := by
  simp [setAllFalse]

@[simp] theorem Sat_setAllTrue (v : Asg) (ls : List Lit) :
    Sat v (setAllTrue ls) ↔ ∀ l ∈ ls, ev v l = true := by
  simp [setAllTrue]

@[simp] theorem ev_setLiteral (v : Asg) (l : Lit) (b : Bool) :
    ev v (setLiteral l b) = (ev v l == b) := by
  cases b <;> simp [setLiteral]

/-! ### Bounds and agreement -/

@[simp] theorem LBound_nil (s : Nat) : LBound s [] := by simp [LBound]
@[simp] theorem LBound_cons (s : Nat) (l : Lit) (ls : List Lit) :
    LBound s (l :: ls) ↔ (l.var ≤ s ∧ LBound s ls) := by simp [LBound]
@[simp] theorem LBound_append (s : Nat) (a b : List Lit) :
    LBound s (a ++ b) ↔ (LBound s a ∧ LBound s b) := by simp [LBound, or_imp, forall_and]
theorem LBound.mono {s t : Nat} {ls : List Lit} (h : LBound s ls) (hst : s ≤ t) : LBound t ls :=
  fun l hl => Nat.le_trans (h l hl) hst
theorem LBound.sublist {s : Nat} {a b : List Lit} (h : LBound s b) (hs : ∀ x ∈ a, x ∈ b) : LBound s a :=
  fun l hl => h l (hs l hl)
@[simp] theorem LBound_map_neg (s : Nat) (ls : List Lit) : LBound s (ls.map (- ·)) ↔ LBound s ls := by
  simp [LBound]

@[simp] theorem CBound_nil (s : Nat) : CBound s [] := by simp [CBound]
@[simp] theorem CBound_cons (s : Nat) (c : Clause) (cs : Cnf) :
    CBound s (c :: cs) ↔ (LBound s c ∧ CBound s cs) := by simp [CBound]
@[simp] theorem CBound_append (s : Nat) (a b : Cnf) :
    CBound s (a ++ b) ↔ (CBound s a ∧ CBound s b) := by simp [CBound, or_imp, forall_and]
theorem CBound.mono {s t : Nat} {cs : Cnf} (h : CBound s cs) (hst : s ≤ t) : CBound t cs :=
  fun c hc => (h c hc).mono hst
theorem CBound_implies {s : Nat} {cond : List Lit} {cons : Cnf} (h1 : LBound s cond) (h2 : CBound s cons) :
    CBound s (implies cond cons) := by
  intro c hc
  simp only [implies, List.mem_map] at hc
  obtain ⟨d, hd, rfl⟩ := hc
  simp only [LBound_append, LBound_map_neg]
  exact ⟨h1, h2 d hd⟩
@[simp] theorem CBound_literalsSame (s : Nat) (a b : Lit) :
    CBound s (literalsSame a b) ↔ (a.var ≤ s ∧ b.var ≤ s) := by
  simp [literalsSame]
@[simp] theorem CBound_literalsDifferent (s : Nat) (a b : Lit) :
    CBound s (literalsDifferent a b) ↔ (a.var ≤ s ∧ b.var ≤ s) := by
  simp [literalsDifferent]

/-- Agreement on the already allocated variables. -/
def Agree (s : Nat) (v v' : Asg) : Prop := ∀ x, x ≤ s → v' x = v x

theorem Agree.refl (s : Nat) (v : Asg) : Agree s v v := fun _ _ => rfl
theorem Agree.symm {s : Nat} {v w : Asg} (h : Agree s v w) : Agree s w v := fun x hx => (h x hx).symm
theorem Agree.trans {s : Nat} {v w u : Asg} (h : Agree s v w) (h' : Agree s w u) : Agree s v u :=
  fun x hx => (h' x hx).trans (h x hx)
theorem Agree.mono {s t : Nat} {v w : Asg} (h : Agree t v w) (hst : s ≤ t) : Agree s v w :=
  fun x hx => h x (Nat.le_trans hx hst)

theorem ev_agree {s : Nat} {v w : Asg} (h : Agree s v w) {l : Lit} (hl : l.var ≤ s) : ev w l = ev v l := by
  simp [ev, h _ hl]

theorem map_ev_agree {s : Nat} {v w : Asg} (h : Agree s v w) {ls : List Lit} (hl : LBound s ls) :
    ls.map (ev w) = ls.map (ev v) :=
  List.map_congr_left fun l hm => ev_agree h (hl l hm)

theorem SatC_agree {s : Nat} {v w : Asg} (h : Agree s v w) {c : Clause} (hc : LBound s c) :
    SatC w c ↔ SatC v c := by
  simp only [SatC]
  constructor
  · rintro ⟨l, hl, he⟩; exact ⟨l, hl, by rw [← ev_agree h (hc l hl)]; exact he⟩
  · rintro ⟨l, hl, he⟩; exact ⟨l, hl, by rw [ev_agree h (hc l hl)]; exact he⟩

theorem Sat_agree {s : Nat} {v w : Asg} (h : Agree s v w) {cs : Cnf} (hc : CBound s cs) :
    Sat w cs ↔ Sat v cs := by
  simp only [Sat]
  constructor
  · intro hs c hm; exact (SatC_agree h (hc c hm)).1 (hs c hm)
  · intro hs c hm; exact (SatC_agree h (hc c hm)).2 (hs c hm)

theorem SatUpTo_iff (s : Nat) (v : Asg) (cs : Cnf) : SatUpTo s v cs ↔ ∃ w, Agree s v w ∧ Sat w cs := Iff.rfl

/-- Change one variable. -/
def upd (v : Asg) (x : Nat) (b : Bool) : Asg := fun y => if y = x then b else v y

@[simp] theorem upd_same (v : Asg) (x : Nat) (b : Bool) : upd v x b x = b := by simp [upd]
theorem agree_upd {s x : Nat} (v : Asg) (b : Bool) (h : s < x) : Agree s v (upd v x b) := by
  intro y hy; simp only [upd]; rw [if_neg]; omega

/-! ### allocMany on the pool -/

/-- The literals `s+1, ..., s+n`. -/
def freshLits : Nat → Nat → List Lit
  | _, 0 => []
  | s, n + 1 => ⟨s + 1, true⟩ :: freshLits (s + 1) n

@[simp] theorem freshLits_length (s n : Nat) : (freshLits s n).length = n := by
  induction n generalizing s with
  | zero => rfl
  | succ n ih => simp [freshLits, ih]

theorem allocMany_pool (n s : Nat) : allocMany poolAlloc n s = .ok (freshLits s n, s + n) := by
  induction n generalizing s with
  | zero => rfl
  | succ n ih => simp only [allocMany, poolAlloc, freshLits]; rw [ih]; simp; omega

theorem LBound_freshLits (s n : Nat) : LBound (s + n) (freshLits s n) := by
  induction n generalizing s with
  | zero => simp [freshLits]
  | succ n ih =>
    simp only [freshLits, LBound_cons]
    exact ⟨by omega, (ih (s + 1)).mono (by omega)⟩

/-- Any values can be given to fresh literals. -/
theorem exists_assign_fresh (s : Nat) (v : Asg) (bs : List Bool) :
    ∃ w, Agree s v w ∧ (freshLits s bs.length).map (ev w) = bs := by
  induction bs generalizing s v with
  | nil => exact ⟨v, Agree.refl _ _, rfl⟩
  | cons b bs ih =>
    obtain ⟨w, hw, hm⟩ := ih (s + 1) (upd v (s + 1) b)
    refine ⟨w, ((agree_upd v b (Nat.lt_succ_self s)).trans (hw.mono (Nat.le_succ s))), ?_⟩
    simp only [List.length_cons, freshLits, List.map_cons, ev_mk_true, hm]
    rw [hw (s + 1) (Nat.le_refl _)]; simp

end FSat
