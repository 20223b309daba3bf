import Verif.Lemmas.Constants

set_option linter.unusedSimpArgs false

namespace FSat

/-! ### invert_number -/

theorem Sat_invLast (v : Asg) (a b c : Lit) :
    Sat v [[-a, -b, -c], [-a, b, c], [a, -b, c], [a, b, -c]] ↔
      (bit (ev v a) + bit (ev v b) + bit (ev v c)) % 2 = 0 := by
  simp only [Sat_cons, Sat_nil, SatC_cons, SatC_nil, ev_neg]
  cases ev v a <;> cases ev v b <;> cases ev v c <;> simp

theorem Sat_invCarry (v : Asg) (a b c co : Lit) :
    Sat v [[-a, -b, co], [-a, -c, co], [-b, -c, co], [a, b, -co], [a, c, -co], [b, c, -co]] ↔
      bit (ev v co) = (bit (ev v a) + bit (ev v b) + bit (ev v c)) / 2 := by
  simp only [Sat_cons, Sat_nil, SatC_cons, SatC_nil, ev_neg]
  cases ev v a <;> cases ev v b <;> cases ev v c <;> cases ev v co <;> simp

theorem Sat_invCarry0 (v : Asg) (a b co : Lit) :
    Sat v [[-a, -b, co], [a, -co], [b, -co]] ↔ bit (ev v co) = (bit (ev v a) + bit (ev v b)) / 2 := by
  simp only [Sat_cons, Sat_nil, SatC_cons, SatC_nil, ev_neg]
  cases ev v a <;> cases ev v b <;> cases ev v co <;> simp

/-- The clauses of one non-final position. -/
def invBit (a b : Lit) (c : Option Lit) (co : Lit) : Cnf :=
  match c with
  | none => literalsSame a b ++ [[-a, -b, co], [a, -co], [b, -co]]
  | some c => [[-a, -b, -c], [-a, b, c], [a, -b, c], [a, b, -c]]
            ++ [[-a, -b, co], [-a, -c, co], [-b, -c, co], [a, b, -co], [a, c, -co], [b, c, -co]]

theorem Sat_invBit (v : Asg) (a b : Lit) (c : Option Lit) (co : Lit) :
    Sat v (invBit a b c co) ↔ bit (ev v a) + bit (ev v b) + carryVal v c = 2 * bit (ev v co) := by
  cases c with
  | none =>
    simp only [invBit, Sat_append, Sat_literalsSame, Sat_invCarry0, carryVal]
    cases ev v a <;> cases ev v b <;> cases ev v co <;> simp
  | some c =>
    have e : carryVal v (some c) = bit (ev v c) := rfl
    simp only [invBit, Sat_append, Sat_invLast, Sat_invCarry, e]
    omega

theorem CBound_invBit {s : Nat} {a b : Lit} {c : Option Lit} {co : Lit}
    (ha : a.var ≤ s) (hb : b.var ≤ s) (hc : OBound s c) (hco : co.var ≤ s) : CBound s (invBit a b c co) := by
  cases c with
  | none => simp [invBit, ha, hb, hco]
  | some c => simp [invBit, ha, hb, hco, hc c rfl]

/-- The clauses of the final position. -/
def invEnd (a b : Lit) (c : Option Lit) : Cnf :=
  match c with
  | none => literalsSame a b
  | some c => [[-a, -b, -c], [-a, b, c], [a, -b, c], [a, b, -c]]

theorem Sat_invEnd (v : Asg) (a b : Lit) (c : Option Lit) :
    Sat v (invEnd a b c) ↔ (bit (ev v a) + bit (ev v b) + carryVal v c) % 2 = 0 := by
  cases c with
  | none =>
    simp only [invEnd, Sat_literalsSame, carryVal]
    cases ev v a <;> cases ev v b <;> simp
  | some c => exact Sat_invLast v a b c

theorem CBound_invEnd {s : Nat} {a b : Lit} {c : Option Lit}
    (ha : a.var ≤ s) (hb : b.var ≤ s) (hc : OBound s c) : CBound s (invEnd a b c) := by
  cases c with
  | none => simp [invEnd, ha, hb]
  | some c => simp [invEnd, ha, hb, hc c rfl]

theorem invertLoop_single {σ : Type} (al : Alloc σ) (a b : Lit) (c : Option Lit) (s : σ) :
    invertLoop al [a] [b] c s = .ok (invEnd a b c, s) := by
  cases c <;> simp [invertLoop, invEnd]

theorem invertLoop_cons {σ : Type} (al : Alloc σ) (a a' b b' : Lit) (as bs : List Lit) (c : Option Lit) (s : σ) :
    invertLoop al (a :: a' :: as) (b :: b' :: bs) c s =
      match al s with
      | .error e => .error e
      | .ok (co, s1) =>
        match invertLoop al (a' :: as) (b' :: bs) (some co) s1 with
        | .error e => .error e
        | .ok (cls, s2) => .ok (invBit a b c co ++ cls, s2) := by
  rw [invertLoop]
  · cases al s with
    | error e => rfl
    | ok p =>
      simp only
      cases invertLoop al (a' :: as) (b' :: bs) (some p.1) p.2 with
      | error e => rfl
      | ok q => cases c <;> simp [invBit]
  · simp

theorem invertLoop_sound {σ : Type} (al : Alloc σ) (a b : List Lit) (c : Option Lit) (s : σ) {cls : Cnf} {s' : σ}
    (h : invertLoop al a b c s = .ok (cls, s')) (hab : a.length = b.length) (hne : a ≠ []) (v : Asg) (hs : Sat v cls) :
    (value v a + value v b + carryVal v c) % 2 ^ a.length = 0 := by
  induction a generalizing b c s cls s' with
  | nil => exact absurd rfl hne
  | cons x a ih =>
    cases b with
    | nil => simp at hab
    | cons y b =>
      cases a with
      | nil =>
        cases b with
        | cons => simp at hab
        | nil =>
          rw [invertLoop_single] at h
          simp only [Except.ok.injEq, Prod.mk.injEq] at h
          rw [← h.1, Sat_invEnd] at hs
          simpa [value_cons] using hs
      | cons x' a =>
        cases b with
        | nil => simp at hab
        | cons y' b =>
          rw [invertLoop_cons] at h
          cases h1 : al s with
          | error e => simp [h1] at h
          | ok p =>
            obtain ⟨co, s1⟩ := p
            simp only [h1] at h
            cases h2 : invertLoop al (x' :: a) (y' :: b) (some co) s1 with
            | error e => simp [h2] at h
            | ok q =>
              obtain ⟨cls1, s2⟩ := q
              simp only [h2, Except.ok.injEq, Prod.mk.injEq] at h
              obtain ⟨rfl, rfl⟩ := h
              simp only [Sat_append, Sat_invBit] at hs
              have := ih (y' :: b) (some co) s1 h2 (by simpa using hab) (by simp) hs.2
              have e : carryVal v (some co) = bit (ev v co) := rfl
              rw [e] at this
              rw [value_cons v x, value_cons v y, List.length_cons, Nat.pow_succ, Nat.mul_comm (2 ^ (x' :: a).length) 2]
              have e2 : bit (ev v x) + 2 * value v (x' :: a) + (bit (ev v y) + 2 * value v (y' :: b)) + carryVal v c
                  = 2 * (value v (x' :: a) + value v (y' :: b) + bit (ev v co)) := by omega
              rw [e2, Nat.mul_mod_mul_left, this]

theorem invertLoop_pool (a b : List Lit) (c : Option Lit) (s : Nat) (hab : a.length = b.length) (hne : a ≠ [])
    (ha : LBound s a) (hb : LBound s b) (hc : OBound s c) :
    ∃ cls, invertLoop poolAlloc a b c s = .ok (cls, s + (a.length - 1)) ∧ CBound (s + (a.length - 1)) cls ∧
      ∀ v, (value v a + value v b + carryVal v c) % 2 ^ a.length = 0 → SatUpTo s v cls := by
  induction a generalizing b c s with
  | nil => exact absurd rfl hne
  | cons x a ih =>
    cases b with
    | nil => simp at hab
    | cons y b =>
      simp only [LBound_cons] at ha hb
      cases a with
      | nil =>
        cases b with
        | cons => simp at hab
        | nil =>
          refine ⟨_, invertLoop_single _ x y c s, CBound_invEnd ha.1 hb.1 hc, ?_⟩
          intro v hv
          refine ⟨v, fun _ _ => rfl, ?_⟩
          rw [Sat_invEnd]
          simpa [value_cons] using hv
      | cons x' a =>
        cases b with
        | nil => simp at hab
        | cons y' b =>
          obtain ⟨cls, he, hbd, hex⟩ := ih (y' :: b) (some ⟨s + 1, true⟩) (s + 1) (by simpa using hab) (by simp)
            (ha.2.mono (by omega)) (hb.2.mono (by omega))
            (by intro l hl; simp only [Option.some.injEq] at hl; subst hl; simp)
          have elen : s + 1 + ((x' :: a).length - 1) = s + ((x :: x' :: a).length - 1) := by
            simp only [List.length_cons]; omega
          rw [elen] at he hbd
          have hbit : CBound (s + 1) (invBit x y c ⟨s + 1, true⟩) :=
            CBound_invBit (by omega) (by omega) (fun l hl => by have := hc l hl; omega) (by simp)
          refine ⟨invBit x y c ⟨s + 1, true⟩ ++ cls, ?_, ?_, ?_⟩
          · rw [invertLoop_cons]; simp only [poolAlloc] at he ⊢; rw [he]
          · simp only [CBound_append]
            exact ⟨hbit.mono (by simp), hbd⟩
          · intro v hv
            rw [value_cons v x, value_cons v y, List.length_cons, Nat.pow_succ, Nat.mul_comm (2 ^ (x' :: a).length) 2] at hv
            have hb1 := bit_le (ev v x); have hb2 := bit_le (ev v y); have hb3 := carryVal_le v c
            let co := decide (2 ≤ bit (ev v x) + bit (ev v y) + carryVal v c)
            have hpar : (bit (ev v x) + bit (ev v y) + carryVal v c) % 2 = 0 := by
              have := congrArg (· % 2) hv
              simp only [Nat.mod_mul_right_mod] at this
              omega
            have hbc : bit (ev v x) + bit (ev v y) + carryVal v c = 2 * bit co := by
              simp only [co, bit_decide]; split <;> omega
            let v1 := upd v (s + 1) co
            have hag : Agree s v v1 := agree_upd v co (Nat.lt_succ_self s)
            have e2 : bit (ev v x) + 2 * value v (x' :: a) + (bit (ev v y) + 2 * value v (y' :: b)) + carryVal v c
                  = 2 * (value v (x' :: a) + value v (y' :: b) + bit co) := by omega
            rw [e2, Nat.mul_mod_mul_left] at hv
            obtain ⟨w, hw, hsw⟩ := hex v1 (by
              rw [value_agree hag ha.2, value_agree hag hb.2]
              have : carryVal v1 (some ⟨s + 1, true⟩) = bit co := by simp [carryVal, v1, bit]
              rw [this]; omega)
            refine ⟨w, hag.trans (Agree.mono hw (Nat.le_succ s)), ?_⟩
            simp only [Sat_append]
            refine ⟨?_, hsw⟩
            rw [Sat_agree hw hbit, Sat_invBit, ev_agree hag ha.1, ev_agree hag hb.1, carryVal_agree hag hc, hbc]
            simp [v1]

theorem value_eq_pow_iff (v : Asg) (a : List Lit) (l : Lit) :
    value v (a ++ [l]) = 2 ^ a.length ↔ (∀ x ∈ a, ev v x = false) ∧ ev v l = true := by
  rw [value_append, ← value_eq_zero_iff]
  have h := value_lt v a
  have e : value v [l] = bit (ev v l) := by simp [value_cons]
  rw [e]
  cases ev v l
  · simp; omega
  · simp

theorem signedVal_eq (bs : List Bool) (n : Nat) (h : bs.length = n + 1) :
    signedVal bs = if 2 ^ n ≤ binVal bs then (binVal bs : Int) - 2 * 2 ^ n else binVal bs := by
  have hne : bs ≠ [] := by intro h'; simp [h'] at h
  obtain ⟨l, hl⟩ : ∃ l, bs.getLast hne = l := ⟨_, rfl⟩
  have hd : bs = bs.dropLast ++ [l] := by rw [← hl, List.dropLast_concat_getLast]
  have hdl : bs.dropLast.length = n := by simp [h]
  have hlt := binVal_lt bs.dropLast
  rw [hdl] at hlt
  have hv : binVal bs = binVal bs.dropLast + 2 ^ n * bit l := by
    conv => lhs; rw [hd, binVal_append, hdl]
    simp [binVal_cons]
  simp only [signedVal, List.getLast?_eq_some_getLast hne, hl, Option.some.injEq, h, pow_succ]
  cases l
  · simp only [Bool.false_eq_true, if_false]
    rw [if_neg]; rw [hv]; simpa using hlt
  · simp only [if_true]
    rw [if_pos (by rw [hv]; simp)]; ring

/-- Relation of `invert_number`. -/
def InvRel (a b : List Lit) (v : Asg) : Prop :=
  (value v a + value v b) % 2 ^ a.length = 0 ∧ value v a ≠ 2 ^ (a.length - 1)

theorem InvRel_iff (a b : List Lit) (h : a.length = b.length) (hne : a ≠ []) (v : Asg) :
    InvRel a b v ↔ svalue v b = - svalue v a := by
  obtain ⟨n, hn⟩ : ∃ n, a.length = n + 1 := ⟨a.length - 1, by
    cases a with
    | nil => exact absurd rfl hne
    | cons => simp⟩
  have ha := value_lt v a
  have hb := value_lt v b
  rw [← h, hn, Nat.pow_succ] at hb
  rw [hn, Nat.pow_succ] at ha
  simp only [InvRel, svalue, signedVal_eq _ n (show (a.map (ev v)).length = n + 1 by simpa using hn),
    signedVal_eq _ n (show (b.map (ev v)).length = n + 1 by simpa using h ▸ hn)]
  change _ ↔ (if 2 ^ n ≤ value v b then (value v b : Int) - 2 * 2 ^ n else value v b) =
    -(if 2 ^ n ≤ value v a then (value v a : Int) - 2 * 2 ^ n else value v a)
  rw [hn, Nat.add_sub_cancel, Nat.pow_succ]
  have hcast : ((2 : Int) ^ n) = ((2 ^ n : Nat) : Int) := by push_cast; rfl
  rw [hcast]
  have hp : 0 < 2 ^ n := Nat.two_pow_pos _
  generalize value v a = A at *
  generalize value v b = B at *
  generalize 2 ^ n = N at *
  constructor
  · rintro ⟨h1, h2⟩
    have : A + B = 0 ∨ A + B = N * 2 := by
      rcases Nat.lt_or_ge (A + B) (N * 2) with h | h
      · rw [Nat.mod_eq_of_lt h] at h1; left; exact h1
      · right
        rw [Nat.mod_eq_sub_mod h, Nat.mod_eq_of_lt (by omega)] at h1; omega
    split <;> split <;> omega
  · intro h1
    have : (A + B = 0 ∨ A + B = N * 2) ∧ A ≠ N := by
      split at h1 <;> split at h1 <;> omega
    refine ⟨?_, this.2⟩
    rcases this.1 with h | h <;> rw [h] <;> simp

theorem lastClause_iff (v : Asg) (a : List Lit) (l : Lit) (h : a.getLast? = some l) :
    SatC v (a.dropLast ++ [-l]) ↔ value v a ≠ 2 ^ (a.length - 1) := by
  have hne : a ≠ [] := by rintro rfl; simp at h
  rw [List.getLast?_eq_some_getLast hne] at h
  simp only [Option.some.injEq] at h
  have hd : a = a.dropLast ++ [l] := by rw [← h, List.dropLast_concat_getLast]
  have hlen : a.length - 1 = a.dropLast.length := by simp
  rw [hlen]
  conv => rhs; lhs; rw [hd]
  rw [Ne, value_eq_pow_iff]
  simp only [SatC_append, SatC_cons, SatC_nil, ev_neg, or_false, SatC]
  rw [not_and_or]
  push Not
  simp

theorem invertNumber_pool (a b : List Lit) (s : Nat) (hab : a.length = b.length) (hne : a ≠ [])
    (ha : LBound s a) (hb : LBound s b) :
    ∃ cls s', invertNumber poolAlloc a b s = .ok (cls, s') ∧ Encodes s s' cls (InvRel a b) := by
  obtain ⟨cls, he, hbd, hex⟩ := invertLoop_pool a b none s hab hne ha hb (by intro l hl; simp at hl)
  obtain ⟨l, hl⟩ : ∃ l, a.getLast? = some l := ⟨_, List.getLast?_eq_some_getLast hne⟩
  have hlast : LBound s (a.dropLast ++ [-l]) := by
    simp only [LBound_append, LBound_cons, LBound_nil, and_true, Lit.neg_var]
    exact ⟨ha.sublist fun _ h => List.dropLast_subset a h, ha l (List.mem_of_getLast? hl)⟩
  refine ⟨cls ++ [a.dropLast ++ [-l]], s + (a.length - 1), ?_, by omega, ?_, ?_, ?_⟩
  · simp [invertNumber, hab, hl]
    rw [← hab, he]
  · simp only [CBound_append, CBound_cons, CBound_nil, and_true]
    exact ⟨hbd, hlast.mono (by omega)⟩
  · intro v hs
    simp only [Sat_append, Sat_cons, Sat_nil, and_true] at hs
    refine ⟨?_, (lastClause_iff v a l hl).1 hs.2⟩
    simpa [carryVal] using invertLoop_sound poolAlloc a b none s he hab hne v hs.1
  · intro v hr
    obtain ⟨w, hw, hsw⟩ := hex v (by simpa [carryVal] using hr.1)
    refine ⟨w, hw, ?_⟩
    simp only [Sat_append, Sat_cons, Sat_nil, and_true]
    exact ⟨hsw, (SatC_agree hw hlast).2 ((lastClause_iff v a l hl).2 hr.2)⟩

theorem invertNumber_sound {σ : Type} (al : Alloc σ) (a b : List Lit) (s : σ) {cls : Cnf} {s' : σ}
    (h : invertNumber al a b s = .ok (cls, s')) (v : Asg) (hs : Sat v cls) :
    svalue v b = - svalue v a := by
  simp only [invertNumber] at h
  by_cases hab : a.length = b.length
  swap
  · simp [hab] at h
  rw [if_neg (by simpa using hab)] at h
  cases h1 : invertLoop al a b none s with
  | error e => simp [h1] at h
  | ok p =>
    simp only [h1] at h
    cases h2 : a.getLast? with
    | none => simp [h2] at h
    | some l =>
      simp only [h2, Except.ok.injEq, Prod.mk.injEq] at h
      have hne : a ≠ [] := by rintro rfl; simp at h2
      rw [← InvRel_iff a b hab hne]
      rw [← h.1] at hs
      simp only [Sat_append, Sat_cons, Sat_nil, and_true] at hs
      refine ⟨?_, (lastClause_iff v a l h2).1 hs.2⟩
      simpa [carryVal] using invertLoop_sound al a b none s h1 hab hne v hs.1

/-! ### break_symmetry -/

theorem breakSymmetryLoop_sound (v : Asg) (l r d : List Lit) (prev : Option Lit)
    (h : l.length = r.length) (hd : l.length = d.length) (hs : Sat v (breakSymmetryLoop l r d prev)) :
    carryVal v prev = 1 ∨ LexLe (l.map (ev v)) (r.map (ev v)) := by
  induction l generalizing r d prev with
  | nil => right; simp [LexLe]
  | cons x l ih =>
    cases r with
    | nil => simp at h
    | cons y r =>
      cases d with
      | nil => simp at hd
      | cons z d =>
        simp only [breakSymmetryLoop, Sat_append] at hs
        have := ih r d (some z) (by simpa using h) (by simpa using hd) hs.2
        have h1 := hs.1
        simp only [carryVal] at this
        simp only [List.map_cons, LexLe]
        cases prev with
        | none =>
          simp only [Sat_cons, Sat_nil, SatC_cons, SatC_nil, ev_neg] at h1
          right
          revert h1 this
          cases ev v x <;> cases ev v y <;> cases ev v z <;> simp
        | some p =>
          simp only [Sat_cons, Sat_nil, SatC_cons, SatC_nil, ev_neg] at h1
          simp only [carryVal]
          revert h1 this
          cases ev v x <;> cases ev v y <;> cases ev v z <;> cases ev v p <;> simp

/-- The values the difference variables must take. -/
def diffBits : Bool → List Bool → List Bool → List Bool
  | p, a :: as, b :: bs => (p || (!a && b)) :: diffBits (p || (!a && b)) as bs
  | _, _, _ => []

theorem diffBits_length (p : Bool) (a b : List Bool) (h : a.length = b.length) : (diffBits p a b).length = a.length := by
  induction a generalizing p b with
  | nil => simp [diffBits]
  | cons x a ih =>
    cases b with
    | nil => simp at h
    | cons y b => simp [diffBits, ih _ b (by simpa using h)]

theorem breakSymmetryLoop_complete (v : Asg) (l r d : List Lit) (prev : Option Lit)
    (h : l.length = r.length) (p : Bool) (hp : carryVal v prev = bit p)
    (hd : d.map (ev v) = diffBits p (l.map (ev v)) (r.map (ev v)))
    (hlex : p = true ∨ LexLe (l.map (ev v)) (r.map (ev v))) :
    Sat v (breakSymmetryLoop l r d prev) := by
  induction l generalizing r d prev p with
  | nil => simp [breakSymmetryLoop]
  | cons x l ih =>
    cases r with
    | nil => simp at h
    | cons y r =>
      cases d with
      | nil => simp [diffBits] at hd
      | cons z d =>
        simp only [List.map_cons, diffBits, List.cons.injEq] at hd
        simp only [breakSymmetryLoop, Sat_append]
        have hz := hd.1
        refine ⟨?_, ?_⟩
        · cases prev with
          | none =>
            have hpf : p = false := by cases p <;> simp_all [carryVal]
            subst hpf
            simp only [Sat_cons, Sat_nil, SatC_cons, SatC_nil, ev_neg]
            simp only [List.map_cons, LexLe, Bool.false_eq_true, false_or] at hlex
            revert hz hlex
            cases ev v x <;> cases ev v y <;> cases ev v z <;> simp
          | some q =>
            have hpq : ev v q = p := by
              simp only [carryVal] at hp
              cases p <;> cases hq : ev v q <;> simp_all
            simp only [Sat_cons, Sat_nil, SatC_cons, SatC_nil, ev_neg, hpq]
            simp only [List.map_cons, LexLe] at hlex
            revert hz hlex
            cases ev v x <;> cases ev v y <;> cases ev v z <;> cases p <;> simp
        · apply ih r d (some z) (by simpa using h) (p || (!ev v x && ev v y))
          · simp only [carryVal, hz, bit]
          · exact hd.2
          · simp only [List.map_cons, LexLe] at hlex
            revert hlex
            cases ev v x <;> cases ev v y <;> cases p <;> simp

theorem CBound_breakSymmetryLoop {s : Nat} (l r d : List Lit) (prev : Option Lit) (hl : LBound s l) (hr : LBound s r)
    (hd : LBound s d) (hp : OBound s prev) : CBound s (breakSymmetryLoop l r d prev) := by
  induction l generalizing r d prev with
  | nil => simp [breakSymmetryLoop]
  | cons x l ih =>
    cases r with
    | nil => simp [breakSymmetryLoop]
    | cons y r =>
      cases d with
      | nil => simp [breakSymmetryLoop]
      | cons z d =>
        simp only [LBound_cons] at hl hr hd
        simp only [breakSymmetryLoop, CBound_append]
        refine ⟨?_, ih r d (some z) hl.2 hr.2 hd.2 (by intro q hq; simp at hq; subst hq; exact hd.1)⟩
        cases prev with
        | none => simp [hl, hr, hd]
        | some q => simp [hl, hr, hd, hp q rfl]

theorem breakSymmetry_pool (left right : List Lit) (s : Nat) (h : left.length = right.length)
    (hl : LBound s left) (hr : LBound s right) :
    ∃ cls, breakSymmetry poolAlloc left right s = .ok (cls, s + left.length) ∧
      Encodes s (s + left.length) cls (fun v => LexLe (left.map (ev v)) (right.map (ev v))) := by
  refine ⟨breakSymmetryLoop left right (freshLits s left.length) none, ?_, by omega, ?_, ?_, ?_⟩
  · simp [breakSymmetry, h, allocMany_pool]
  · exact CBound_breakSymmetryLoop _ _ _ _ (hl.mono (by omega)) (hr.mono (by omega)) (LBound_freshLits _ _)
      (by intro l hl; simp at hl)
  · intro v hs
    have := breakSymmetryLoop_sound v left right (freshLits s left.length) none h (by simp) hs
    simpa [carryVal] using this
  · intro v hv
    obtain ⟨w, hw, hm⟩ := exists_assign_fresh s v (diffBits false (left.map (ev v)) (right.map (ev v)))
    rw [diffBits_length _ _ _ (by simpa using h), List.length_map] at hm
    refine ⟨w, hw, ?_⟩
    apply breakSymmetryLoop_complete w left right _ none h false (by simp [carryVal])
    · rw [hm, map_ev_agree hw hl, map_ev_agree hw hr]
    · right; rw [map_ev_agree hw hl, map_ev_agree hw hr]; exact hv

theorem breakSymmetry_sound {σ : Type} (al : Alloc σ) (left right : List Lit) (s : σ) {cls : Cnf} {s' : σ}
    (h : breakSymmetry al left right s = .ok (cls, s')) (v : Asg) (hs : Sat v cls) :
    LexLe (left.map (ev v)) (right.map (ev v)) := by
  simp only [breakSymmetry] at h
  by_cases hlr : left.length = right.length
  swap
  · simp [hlr] at h
  rw [if_neg (by simpa using hlr)] at h
  have hlen : ∀ (n : Nat) (s : σ) ds s1, allocMany al n s = .ok (ds, s1) → ds.length = n := by
    intro n
    induction n with
    | zero => intro s ds s1 h; simp [allocMany] at h; simp [← h.1]
    | succ n ih =>
      intro s ds s1 h
      simp only [allocMany] at h
      cases h1 : al s with
      | error e => simp [h1] at h
      | ok p =>
        simp only [h1] at h
        cases h2 : allocMany al n p.2 with
        | error e => simp [h2] at h
        | ok q =>
          simp only [h2, Except.ok.injEq, Prod.mk.injEq] at h
          rw [← h.1]; simp [ih _ _ _ h2]
  cases h1 : allocMany al left.length s with
  | error e => simp [h1] at h
  | ok p =>
    obtain ⟨ds, s1⟩ := p
    simp only [h1, Except.ok.injEq, Prod.mk.injEq] at h
    rw [← h.1] at hs
    have := breakSymmetryLoop_sound v left right ds none hlr (hlen _ _ _ _ h1).symm hs
    simpa [carryVal] using this

theorem LexLe_total (a b : List Bool) : LexLe a b ∨ LexLe b a := by
  induction a generalizing b with
  | nil => left; simp [LexLe]
  | cons x a ih =>
    cases b with
    | nil => left; simp [LexLe]
    | cons y b =>
      have := ih b
      simp only [LexLe]
      cases x <;> cases y <;> simp [this]

end FSat
