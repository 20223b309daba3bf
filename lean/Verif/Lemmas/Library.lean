import Verif.Spec.Library
import Verif.Lemmas.Cardinality
import Verif.Lemmas.Solver

namespace FSat

/-- `P` looks at variables up to `s` only. -/
def Local (s : Nat) (P : Asg → Prop) : Prop := ∀ v w, Agree s v w → (P w ↔ P v)

theorem Local.mono {s s' : Nat} {P : Asg → Prop} (h : Local s P) (hs : s ≤ s') : Local s' P :=
  fun v w hv => h v w fun x hx => hv x (Nat.le_trans hx hs)

theorem Local.and {s : Nat} {P Q : Asg → Prop} (h : Local s P) (h' : Local s Q) : Local s fun v => P v ∧ Q v :=
  fun v w hv => and_congr (h v w hv) (h' v w hv)

theorem Local.imp {s : Nat} {P Q : Asg → Prop} (h : Local s P) (h' : Local s Q) : Local s fun v => P v → Q v :=
  fun v w hv => imp_congr (h v w hv) (h' v w hv)

theorem Local.forall {s : Nat} {α : Sort*} {P : α → Asg → Prop} (h : ∀ a, Local s (P a)) : Local s fun v => ∀ a, P a v :=
  fun v w hv => forall_congr' fun a => h a v w hv

theorem ev_agree' {s : Nat} {v w : Asg} (h : Agree s v w) {l : Lit} (hl : l.var ≤ s) : ev w l = ev v l := by
  simp only [ev, h _ hl]

theorem Local.ev {s : Nat} {l : Lit} (hl : l.var ≤ s) (b : Bool) : Local s fun v => FSat.ev v l = b :=
  fun v w h => by simp only [ev_agree' h hl]

theorem Local.count {s : Nat} {ls : List Lit} (hl : LBound s ls) (P : Nat → Prop) : Local s fun v => P (countTrue v ls) :=
  fun v w h => by simp only [countTrue, map_ev_agree h hl]

/-- A clause list that says `P` about the variables up to `s`, using variables up to `s'`. -/
structure Enc (s s' : Nat) (cs : Cnf) (P : Asg → Prop) : Prop where
  le : s ≤ s'
  stable : ∀ v w, Agree s' v w → Sat v cs → Sat w cs
  sound : ∀ v, Sat v cs → P v
  complete : ∀ v, P v → SatUpTo s v cs

theorem Expresses.enc {s s' : Nat} {cs : Cnf} {P : Asg → Prop} (h : Expresses s s' cs P) : Enc s s' cs P :=
  ⟨h.1, fun _ _ ha hs => (Sat_agree ha h.2.1).2 hs, fun v hv => (h.2.2 v).1 ⟨v, fun _ _ => rfl, hv⟩, fun v hv => (h.2.2 v).2 hv⟩

theorem Enc.append {s s1 s2 : Nat} {c1 c2 : Cnf} {P Q : Asg → Prop} (h1 : Enc s s1 c1 P) (h2 : Enc s1 s2 c2 Q)
    (hQ : Local s Q) : Enc s s2 (c1 ++ c2) fun v => P v ∧ Q v where
  le := Nat.le_trans h1.le h2.le
  stable v w ha h := by
    rw [Sat_append] at h ⊢
    exact ⟨h1.stable v w (fun x hx => ha x (Nat.le_trans hx h2.le)) h.1, h2.stable v w ha h.2⟩
  sound v h := by
    rw [Sat_append] at h
    exact ⟨h1.sound v h.1, h2.sound v h.2⟩
  complete v h := by
    obtain ⟨w, hw, hs⟩ := h1.complete v h.1
    obtain ⟨u, hu, hs'⟩ := h2.complete w ((hQ v w hw).2 h.2)
    refine ⟨u, fun x hx => (hu x (Nat.le_trans hx h1.le)).trans (hw x hx), ?_⟩
    rw [Sat_append]
    exact ⟨h1.stable w u hu hs, hs'⟩

/-- A generator that says `P`, which looks at variables up to `s0`, whenever it succeeds. -/
structure GenEnc (s0 : Nat) (f : Gen) (P : Asg → Prop) : Prop where
  loc : Local s0 P
  enc : ∀ s, s0 ≤ s → ∀ cs s', f s = .ok (cs, s') → Enc s s' cs P

theorem GenEnc.congr {s0 : Nat} {f : Gen} {P Q : Asg → Prop} (h : GenEnc s0 f P) (e : ∀ v, P v ↔ Q v) : GenEnc s0 f Q := by
  have : P = Q := funext fun v => propext (e v)
  exact this ▸ h

theorem GenEnc.pure {s0 : Nat} {e : Except PyErr Cnf} {P : Asg → Prop} (hl : Local s0 P)
    (h : ∀ cs, e = .ok cs → ∀ v, Sat v cs ↔ P v) : GenEnc s0 (Gen.pure e) P := by
  refine ⟨hl, fun s hs cs s' hf => ?_⟩
  unfold Gen.pure at hf
  cases e with
  | error e => cases hf
  | ok c =>
    simp only [Except.ok.injEq, Prod.mk.injEq] at hf
    obtain ⟨rfl, rfl⟩ := hf
    have := h c rfl
    exact ⟨Nat.le_refl _, fun v w ha hv => (this w).2 (((hl.mono hs) v w ha).2 ((this v).1 hv)), fun v hv => (this v).1 hv,
      fun v hv => ⟨v, fun _ _ => rfl, (this v).2 hv⟩⟩

theorem GenEnc.nil (s0 : Nat) : GenEnc s0 (Gen.all []) fun _ => True := by
  refine ⟨fun _ _ _ => Iff.rfl, fun s _ cs s' hf => ?_⟩
  unfold Gen.all at hf
  cases hf
  exact ⟨Nat.le_refl _, fun _ _ _ _ => by simp, fun _ _ => trivial, fun v _ => ⟨v, fun _ _ => rfl, by simp⟩⟩

theorem GenEnc.cons {s0 : Nat} {f : Gen} {fs : List Gen} {P Q : Asg → Prop} (h : GenEnc s0 f P) (h' : GenEnc s0 (Gen.all fs) Q) :
    GenEnc s0 (Gen.all (f :: fs)) fun v => P v ∧ Q v := by
  refine ⟨h.loc.and h'.loc, fun s hs cs s' hf => ?_⟩
  unfold Gen.all at hf
  cases e1 : f s with
  | error e => rw [e1] at hf; cases hf
  | ok r =>
    obtain ⟨c, s1⟩ := r
    rw [e1] at hf
    simp only at hf
    cases e2 : Gen.all fs s1 with
    | error e => rw [e2] at hf; cases hf
    | ok r =>
      obtain ⟨cs', s2⟩ := r
      rw [e2] at hf
      cases hf
      have a1 := h.enc s hs _ _ e1
      have a2 := h'.enc s1 (Nat.le_trans hs a1.le) _ _ e2
      exact a1.append a2 (h'.loc.mono hs)

theorem Gen.all_append (fs gs : List Gen) (s : Nat) : Gen.all (fs ++ gs) s = Gen.all [Gen.all fs, Gen.all gs] s := by
  induction fs generalizing s with
  | nil =>
    simp only [List.nil_append, Gen.all]
    cases Gen.all gs s with
    | error e => rfl
    | ok r => simp
  | cons f fs ih =>
    simp only [List.cons_append, Gen.all]
    cases f s with
    | error e => rfl
    | ok r =>
      simp only [ih, Gen.all]
      cases Gen.all fs r.2 with
      | error e => rfl
      | ok r2 =>
        simp only
        cases Gen.all gs r2.2 with
        | error e => rfl
        | ok r3 => simp

theorem GenEnc.append {s0 : Nat} {fs gs : List Gen} {P Q : Asg → Prop} (h : GenEnc s0 (Gen.all fs) P)
    (h' : GenEnc s0 (Gen.all gs) Q) : GenEnc s0 (Gen.all (fs ++ gs)) fun v => P v ∧ Q v := by
  have := (h.cons (h'.cons (GenEnc.nil s0))).congr (Q := fun v => P v ∧ Q v) (by simp)
  exact ⟨this.loc, fun s hs cs s' hf => this.enc s hs cs s' (by rw [← Gen.all_append]; exact hf)⟩

theorem GenEnc.map {s0 : Nat} {α : Type} (l : List α) {f : α → Gen} {P : α → Asg → Prop} (h : ∀ a ∈ l, GenEnc s0 (f a) (P a)) :
    GenEnc s0 (Gen.all (l.map f)) fun v => ∀ a ∈ l, P a v := by
  induction l with
  | nil => exact (GenEnc.nil s0).congr (by simp)
  | cons a l ih =>
    exact ((h a (by simp)).cons (ih fun b hb => h b (by simp [hb]))).congr (by simp)

theorem nonEmptyClauses_ok {r : Except PyErr (Cnf × Nat)} {cs : Cnf} {s : Nat} (h : nonEmptyClauses r = .ok (cs, s)) :
    r = .ok (cs, s) := by
  unfold nonEmptyClauses at h
  split at h
  · cases h
  · cases h
  · exact h

theorem GenEnc.equals {lib : CardLib} (hl : lib.Correct) {s0 : Nat} {ls : List Lit} (hb : LBound s0 ls) (n : Int) :
    GenEnc s0 (libraryEquals lib ls n) fun v => (countTrue v ls : Int) = n :=
  ⟨Local.count hb fun k => (k : Int) = n, fun s hs cs s' hf =>
    (hl.equals ls n s cs s' (hb.mono hs) (nonEmptyClauses_ok hf)).enc⟩

theorem GenEnc.atleast {lib : CardLib} (hl : lib.Correct) {s0 : Nat} {ls : List Lit} (hb : LBound s0 ls) (n : Int) :
    GenEnc s0 (libraryAtleast lib ls n) fun v => n ≤ (countTrue v ls : Int) :=
  ⟨Local.count hb fun k => n ≤ (k : Int), fun s hs cs s' hf =>
    (hl.atleast ls n s cs s' (hb.mono hs) (nonEmptyClauses_ok hf)).enc⟩

theorem GenEnc.implies {s0 : Nat} {cond : List Lit} (hc : LBound s0 cond) {f : Gen} {P : Asg → Prop} (h : GenEnc s0 f P) :
    GenEnc s0 (Gen.implies cond f) fun v => (∀ l ∈ cond, ev v l = true) → P v := by
  have hloc : Local s0 fun v => ∀ l ∈ cond, ev v l = true :=
    fun v w ha => forall_congr' fun l => forall_congr' fun hm => by rw [ev_agree' ha (hc l hm)]
  refine ⟨hloc.imp h.loc, fun s hs cs s' hf => ?_⟩
  unfold Gen.implies at hf
  cases e : f s with
  | error e' => rw [e] at hf; cases hf
  | ok r =>
    obtain ⟨c, s1⟩ := r
    rw [e] at hf
    cases hf
    have a := h.enc s hs _ _ e
    refine ⟨a.le, fun v w ha hv => ?_, fun v hv => ?_, fun v hv => ?_⟩
    · rw [Sat_implies] at hv ⊢
      exact fun hw => a.stable v w ha (hv (((hloc.mono (Nat.le_trans hs a.le)) v w ha).1 hw))
    · rw [Sat_implies] at hv
      exact fun hw => a.sound v (hv hw)
    · by_cases hw : ∀ l ∈ cond, ev v l = true
      · obtain ⟨u, hu, hs'⟩ := a.complete v (hv hw)
        exact ⟨u, hu, by rw [Sat_implies]; exact fun _ => hs'⟩
      · exact ⟨v, fun _ _ => rfl, by rw [Sat_implies]; exact fun h => absurd h hw⟩

/-! ### A library that is correct -/

/-- All lists of `n` truth values. -/
def boolLists : Nat → List (List Bool)
  | 0 => [[]]
  | n + 1 => (boolLists n).flatMap fun l => [false :: l, true :: l]

theorem mem_boolLists (n : Nat) (bs : List Bool) : bs ∈ boolLists n ↔ bs.length = n := by
  induction n generalizing bs with
  | zero => simp [boolLists]
  | succ n ih =>
    simp only [boolLists, List.mem_flatMap, List.mem_cons, List.not_mem_nil, or_false]
    constructor
    · rintro ⟨l, hl, rfl | rfl⟩ <;> simp [(ih l).1 hl]
    · intro h
      match bs, h with
      | b :: bs, h =>
        exact ⟨bs, (ih bs).2 (by simpa using h), by cases b <;> simp⟩

/-- One clause for each list of values that is not wanted. -/
def naiveClauses (ls : List Lit) (bad : Nat → Bool) : Cnf :=
  ((boolLists ls.length).filter fun bs => bad (trues bs)).map fun bs => List.zipWith (fun l b => if b then -l else l) ls bs

theorem SatC_zip (v : Asg) (ls : List Lit) (bs : List Bool) (h : bs.length = ls.length) :
    SatC v (List.zipWith (fun l b => if b then -l else l) ls bs) ↔ ls.map (ev v) ≠ bs := by
  induction ls generalizing bs with
  | nil =>
    cases bs with
    | nil => simp
    | cons b bs => simp at h
  | cons l ls ih =>
    match bs, h with
    | b :: bs, h =>
      simp only [List.zipWith_cons_cons, SatC_cons, List.map_cons, ne_eq, List.cons.injEq, not_and_or]
      rw [ih bs (by simpa using h)]
      cases b <;> cases he : ev v l <;> simp [ev_neg, he]

theorem Sat_naive (v : Asg) (ls : List Lit) (bad : Nat → Bool) : Sat v (naiveClauses ls bad) ↔ bad (countTrue v ls) = false := by
  unfold naiveClauses countTrue
  rw [Sat_map]
  constructor
  · intro h
    by_contra hb
    have hm : ls.map (ev v) ∈ (boolLists ls.length).filter fun bs => bad (trues bs) := by
      rw [List.mem_filter, mem_boolLists]
      exact ⟨by simp, by simpa using hb⟩
    exact (SatC_zip v ls _ (by simp)).1 (h _ hm) rfl
  · intro h bs hbs
    rw [List.mem_filter, mem_boolLists] at hbs
    rw [SatC_zip v ls bs hbs.1]
    rintro rfl
    rw [h] at hbs
    exact absurd hbs.2 (by simp)

/-- A correct library, for the examples. -/
def naiveLib : CardLib where
  equals ls n s := .ok (naiveClauses ls fun k => decide ((k : Int) ≠ n), s)
  atmost ls n s := .ok (naiveClauses ls fun k => decide (n < (k : Int)), s)
  atleast ls n s := .ok (naiveClauses ls fun k => decide ((k : Int) < n), s)

theorem naive_bound {s : Nat} {ls : List Lit} (hb : LBound s ls) (bad : Nat → Bool) : CBound s (naiveClauses ls bad) := by
  intro c hc
  obtain ⟨bs, hbs, rfl⟩ := List.mem_map.1 hc
  clear hc hbs
  induction ls generalizing bs with
  | nil => intro l hl; simp at hl
  | cons l ls ih =>
    cases bs with
    | nil => intro l hl; simp at hl
    | cons b bs =>
      intro x hx
      simp only [List.zipWith_cons_cons, List.mem_cons] at hx
      rcases hx with rfl | hx
      · have := hb l (by simp)
        split
        · exact this
        · exact this
      · exact ih (fun y hy => hb y (by simp [hy])) bs x hx

theorem naiveLib_correct : naiveLib.Correct := by
  have key : ∀ (ls : List Lit) (bad : Nat → Bool) (P : Nat → Prop) (s : Nat), LBound s ls → (∀ k, bad k = false ↔ P k) →
      Expresses s s (naiveClauses ls bad) fun v => P (countTrue v ls) := by
    intro ls bad P s hb hP
    refine ⟨Nat.le_refl _, naive_bound hb bad, fun v => ⟨?_, fun h => ⟨v, fun _ _ => rfl, (Sat_naive v ls bad).2 ((hP _).2 h)⟩⟩⟩
    rintro ⟨w, hw, hs⟩
    have := (hP _).1 ((Sat_naive w ls bad).1 hs)
    rwa [show countTrue w ls = countTrue v ls by simp only [countTrue, map_ev_agree hw hb]] at this
  refine ⟨fun ls n s cs s' hb h => ?_, fun ls n s cs s' hb h => ?_, fun ls n s cs s' hb h => ?_⟩ <;> cases h
  · exact key ls _ (fun k => (k : Int) = n) s hb (by intro k; simp)
  · exact key ls _ (fun k => (k : Int) ≤ n) s hb (by intro k; simp)
  · exact key ls _ (fun k => n ≤ (k : Int)) s hb (by intro k; simp)

end FSat
