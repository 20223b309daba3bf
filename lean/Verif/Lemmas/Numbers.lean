import Verif.Lemmas.Sat
import Mathlib.Tactic.Ring
import Mathlib.Tactic.Linarith
import Mathlib.Algebra.Order.Ring.Nat

namespace FSat

/-- `bit b` is 0 or 1. -/
def bit (b : Bool) : Nat := if b then 1 else 0

@[simp] theorem bit_true : bit true = 1 := rfl
@[simp] theorem bit_false : bit false = 0 := rfl
theorem bit_decide (p : Prop) [Decidable p] : bit (decide p) = if p then 1 else 0 := by simp [bit]

theorem bit_le (b : Bool) : bit b ≤ 1 := by cases b <;> simp [bit]

@[simp] theorem binVal_nil : binVal [] = 0 := rfl
theorem binVal_cons (b : Bool) (bs : List Bool) : binVal (b :: bs) = bit b + 2 * binVal bs := rfl

theorem binVal_lt (bs : List Bool) : binVal bs < 2 ^ bs.length := by
  induction bs with
  | nil => simp
  | cons b bs ih =>
    rw [binVal_cons, List.length_cons, Nat.pow_succ]
    have := bit_le b
    omega

theorem binVal_append (as bs : List Bool) : binVal (as ++ bs) = binVal as + 2 ^ as.length * binVal bs := by
  induction as with
  | nil => simp
  | cons a as ih =>
    rw [List.cons_append, binVal_cons, binVal_cons, ih, List.length_cons, Nat.pow_succ]; ring

theorem binVal_inj {as bs : List Bool} (hl : as.length = bs.length) (h : binVal as = binVal bs) : as = bs := by
  induction as generalizing bs with
  | nil => cases bs with
    | nil => rfl
    | cons => simp at hl
  | cons a as ih =>
    cases bs with
    | nil => simp at hl
    | cons b bs =>
      rw [binVal_cons, binVal_cons] at h
      simp only [List.length_cons, Nat.add_right_cancel_iff] at hl
      have ha := bit_le a
      have hb := bit_le b
      have h1 : bit a = bit b := by omega
      have h2 : binVal as = binVal bs := by omega
      rw [ih hl h2]
      congr 1
      cases a <;> cases b <;> simp_all [bit]

theorem exists_bits (n x : Nat) (h : x < 2 ^ n) : ∃ bs : List Bool, bs.length = n ∧ binVal bs = x := by
  induction n generalizing x with
  | zero => exact ⟨[], rfl, by simp at h; simp [h]⟩
  | succ n ih =>
    obtain ⟨bs, hl, hv⟩ := ih (x / 2) (by rw [Nat.pow_succ] at h; omega)
    refine ⟨decide (x % 2 = 1) :: bs, by simp [hl], ?_⟩
    rw [binVal_cons, hv]
    rcases Nat.mod_two_eq_zero_or_one x with hx | hx <;> simp [bit, hx] <;> omega

theorem value_lt (v : Asg) (ls : List Lit) : value v ls < 2 ^ ls.length := by
  have := binVal_lt (ls.map (ev v)); simpa [value] using this

@[simp] theorem value_nil (v : Asg) : value v [] = 0 := rfl
theorem value_cons (v : Asg) (l : Lit) (ls : List Lit) : value v (l :: ls) = bit (ev v l) + 2 * value v ls := rfl
theorem value_append (v : Asg) (a b : List Lit) : value v (a ++ b) = value v a + 2 ^ a.length * value v b := by
  simp [value, binVal_append]

theorem value_agree {s : Nat} {v w : Asg} (h : Agree s v w) {ls : List Lit} (hl : LBound s ls) :
    value w ls = value v ls := by simp only [value, map_ev_agree h hl]

theorem countTrue_agree {s : Nat} {v w : Asg} (h : Agree s v w) {ls : List Lit} (hl : LBound s ls) :
    countTrue w ls = countTrue v ls := by simp only [countTrue, map_ev_agree h hl]

/-- The optional literal is already allocated. -/
def OBound (s : Nat) (c : Option Lit) : Prop := ∀ l, c = some l → l.var ≤ s

theorem carryVal_agree {s : Nat} {v w : Asg} (h : Agree s v w) {c : Option Lit} (hl : OBound s c) :
    carryVal w c = carryVal v c := by
  cases c with
  | none => rfl
  | some l => simp only [carryVal, ev_agree h (hl l rfl)]

theorem carryVal_le (v : Asg) (c : Option Lit) : carryVal v c ≤ 1 := by
  cases c with
  | none => simp [carryVal]
  | some l => simp only [carryVal]; split <;> omega

/-- A clause list encodes a predicate on the variables `≤ s`, allocating up to `s'`. -/
structure Encodes (s s' : Nat) (cls : Cnf) (P : Asg → Prop) : Prop where
  le : s ≤ s'
  bound : CBound s' cls
  sound : ∀ v, Sat v cls → P v
  complete : ∀ v, P v → SatUpTo s v cls

theorem Encodes.iff {s s' : Nat} {cls : Cnf} {P : Asg → Prop} (h : Encodes s s' cls P)
    (hP : ∀ v w, Agree s v w → (P w ↔ P v)) (v : Asg) : SatUpTo s v cls ↔ P v :=
  ⟨fun ⟨w, hw, hs⟩ => (hP v w hw).1 (h.sound w hs), h.complete v⟩

/-- Sequential composition. -/
theorem Encodes.append {s s1 s2 : Nat} {c1 c2 : Cnf} {P Q : Asg → Prop}
    (h1 : Encodes s s1 c1 P) (h2 : Encodes s1 s2 c2 Q) (hQ : ∀ v w, Agree s v w → (Q w ↔ Q v)) :
    Encodes s s2 (c1 ++ c2) (fun v => P v ∧ Q v) where
  le := Nat.le_trans h1.le h2.le
  bound := by simp only [CBound_append]; exact ⟨h1.bound.mono h2.le, h2.bound⟩
  sound v h := by
    simp only [Sat_append] at h
    exact ⟨h1.sound v h.1, h2.sound v h.2⟩
  complete v h := by
    obtain ⟨w, hw, hs⟩ := h1.complete v h.1
    obtain ⟨u, hu, hsu⟩ := h2.complete w ((hQ v w hw).2 h.2)
    refine ⟨u, Agree.trans (v := v) hw (Agree.mono hu h1.le), ?_⟩
    simp only [Sat_append]
    exact ⟨(Sat_agree hu h1.bound).2 hs, hsu⟩

/-! ### add_numbers -/

theorem Sat_addBit (v : Asg) (a b o : Lit) (c : Option Lit) (co : Lit) :
    Sat v (addBit a b o c co) ↔
      bit (ev v a) + bit (ev v b) + carryVal v c = bit (ev v o) + 2 * bit (ev v co) := by
  cases c with
  | none =>
    simp only [addBit, Sat_cons, Sat_nil, SatC_cons, SatC_nil, ev_neg, carryVal]
    cases ev v a <;> cases ev v b <;> cases ev v o <;> cases ev v co <;> simp [bit]
  | some c =>
    simp only [addBit, Sat_cons, Sat_nil, SatC_cons, SatC_nil, ev_neg, carryVal]
    cases ev v a <;> cases ev v b <;> cases ev v o <;> cases ev v co <;> cases ev v c <;> simp [bit]

theorem CBound_addBit {s : Nat} {a b o : Lit} {c : Option Lit} {co : Lit}
    (ha : a.var ≤ s) (hb : b.var ≤ s) (ho : o.var ≤ s) (hc : OBound s c) (hco : co.var ≤ s) :
    CBound s (addBit a b o c co) := by
  cases c with
  | none => simp [addBit, ha, hb, ho, hco]
  | some c => simp [addBit, ha, hb, ho, hco, hc c rfl]

theorem addLoop_sound {σ : Type} (al : Alloc σ) (a b o : List Lit) (c : Option Lit) (s : σ)
    {cls : Cnf} {cf : Option Lit} {s' : σ} (h : addLoop al a b o c s = .ok (cls, cf, s'))
    (hab : a.length = b.length) (hao : a.length ≤ o.length) (v : Asg) (hs : Sat v cls) :
    value v a + value v b + carryVal v c = value v (o.take a.length) + 2 ^ a.length * carryVal v cf := by
  induction a generalizing b o c s cls cf s' with
  | nil =>
    cases b with
    | cons => simp at hab
    | nil => simp only [addLoop, Except.ok.injEq, Prod.mk.injEq] at h; simp [h.2.1]
  | cons x a ih =>
    cases b with
    | nil => simp at hab
    | cons y b =>
      cases o with
      | nil => simp at hao
      | cons z o =>
        simp only [addLoop] at h
        cases h1 : al s with
        | error e => simp [h1] at h
        | ok p =>
          obtain ⟨co, s1⟩ := p
          simp only [h1] at h
          cases h2 : addLoop al a b o (some co) s1 with
          | error e => simp [h2] at h
          | ok q =>
            obtain ⟨cls1, cf1, s2⟩ := q
            simp only [h2, Except.ok.injEq, Prod.mk.injEq] at h
            obtain ⟨rfl, rfl, rfl⟩ := h
            simp only [Sat_append, Sat_addBit] at hs
            have := ih b o (some co) s1 h2 (by simpa using hab) (by simpa using hao) hs.2
            simp only [value_cons, List.length_cons, List.take_succ_cons, Nat.pow_succ]
            have e : carryVal v (some co) = bit (ev v co) := rfl
            rw [e] at this
            have h3 := hs.1
            nlinarith

theorem addLoop_pool (a b o : List Lit) (c : Option Lit) (s : Nat)
    (hab : a.length = b.length) (hao : a.length ≤ o.length)
    (ha : LBound s a) (hb : LBound s b) (ho : LBound s o) (hc : OBound s c) :
    ∃ cls cf, addLoop poolAlloc a b o c s = .ok (cls, cf, s + a.length) ∧ CBound (s + a.length) cls ∧
      OBound (s + a.length) cf ∧ (a ≠ [] ∨ c.isSome → cf.isSome) ∧
      ∀ v, value v (o.take a.length) = (value v a + value v b + carryVal v c) % 2 ^ a.length →
        SatUpTo s v cls := by
  induction a generalizing b o c s with
  | nil =>
    refine ⟨[], c, ?_, by simp, hc, by simp, fun v _ => ⟨v, fun _ _ => rfl, by simp⟩⟩
    cases b <;> simp [addLoop]
  | cons x a ih =>
    cases b with
    | nil => simp at hab
    | cons y b =>
      cases o with
      | nil => simp at hao
      | cons z o =>
        simp only [LBound_cons] at ha hb ho
        simp only [List.length_cons, Nat.add_right_cancel_iff, Nat.add_le_add_iff_right] at hab hao
        obtain ⟨cls, cf, h1, hbd, hcf, hsome, hex⟩ := ih b o (some ⟨s + 1, true⟩) (s + 1) hab hao
          (ha.2.mono (by omega)) (hb.2.mono (by omega)) (ho.2.mono (by omega))
          (by intro l hl; simp only [Option.some.injEq] at hl; subst hl; simp)
        have elen : s + 1 + a.length = s + (x :: a).length := by simp only [List.length_cons]; omega
        rw [elen] at h1 hbd hcf
        refine ⟨addBit x y z c ⟨s + 1, true⟩ ++ cls, cf, ?_, ?_, hcf, fun _ => hsome (by simp), ?_⟩
        · simp only [addLoop, poolAlloc] at h1 ⊢
          rw [h1]
        · simp only [CBound_append]
          refine ⟨CBound_addBit ?_ ?_ ?_ ?_ ?_, hbd⟩ <;> simp only [List.length_cons]
          · omega
          · omega
          · omega
          · intro l hl; have := hc l hl; omega
          · omega
        · intro v hv
          let co := decide (2 ≤ bit (ev v x) + bit (ev v y) + carryVal v c)
          let v1 := upd v (s + 1) co
          have hag : Agree s v v1 := agree_upd v co (Nat.lt_succ_self s)
          simp only [value_cons, List.length_cons, List.take_succ_cons] at hv
          have hb1 := bit_le (ev v x); have hb2 := bit_le (ev v y); have hb3 := carryVal_le v c
          have hb4 := bit_le (ev v z)
          have hco : bit (ev v1 ⟨s + 1, true⟩) = bit co := by simp [v1]
          have hbc : bit co = (bit (ev v x) + bit (ev v y) + carryVal v c) / 2 := by
            simp only [co, bit_decide]
            split <;> omega
          have hz : bit (ev v z) = (bit (ev v x) + bit (ev v y) + carryVal v c) % 2 := by
            have e := congrArg (· % 2) hv
            simp only [Nat.pow_succ] at e
            rw [Nat.mod_mul_left_mod] at e
            omega
          have hrest : value v (o.take a.length) =
              (value v a + value v b + bit co) % 2 ^ a.length := by
            have e := congrArg (· / 2) hv
            simp only [Nat.pow_succ] at e
            have e2 : (bit (ev v x) + 2 * value v a + (bit (ev v y) + 2 * value v b) + carryVal v c)
                = (bit (ev v x) + bit (ev v y) + carryVal v c) % 2 + 2 * (value v a + value v b + bit co) := by
              rw [hbc]; omega
            rw [e2, Nat.mul_comm (2 ^ a.length) 2, Nat.mod_mul] at e
            have e3 : ((bit (ev v x) + bit (ev v y) + carryVal v c) % 2 + 2 * (value v a + value v b + bit co)) / 2
                = value v a + value v b + bit co := by omega
            have e4 : ((bit (ev v x) + bit (ev v y) + carryVal v c) % 2 + 2 * (value v a + value v b + bit co)) % 2
                = (bit (ev v x) + bit (ev v y) + carryVal v c) % 2 := by omega
            rw [e3, e4] at e
            omega
          have ho' : LBound s (o.take a.length) := ho.2.sublist fun _ h => List.mem_of_mem_take h
          obtain ⟨w, hw, hsw⟩ := hex v1 (by
            rw [value_agree hag ho', value_agree hag ha.2, value_agree hag hb.2, hrest]
            simp [carryVal, v1, bit])
          refine ⟨w, hag.trans (Agree.mono hw (Nat.le_succ s)), ?_⟩
          simp only [Sat_append]
          refine ⟨?_, hsw⟩
          rw [Sat_agree hw (CBound_addBit (by omega) (by omega) (by omega)
            (fun l hl => by have := hc l hl; omega) (by simp)), Sat_addBit]
          rw [ev_agree hag ha.1, ev_agree hag hb.1, ev_agree hag ho.1, carryVal_agree hag hc, hco, hbc, hz]
          omega

/-- The relation `add_numbers` is meant to encode. -/
def AddRel (a b out : List Lit) (cin : Option Lit) (ovf : Bool) (v : Asg) : Prop :=
  if out.length = a.length ∧ ovf = true then
    value v out = (value v a + value v b + carryVal v cin) % 2 ^ a.length
  else value v out = value v a + value v b + carryVal v cin

theorem AddRel_agree {a b out : List Lit} {cin : Option Lit} {ovf : Bool} {s : Nat} (ha : LBound s a)
    (hb : LBound s b) (ho : LBound s out) (hc : OBound s cin) (v w : Asg) (h : Agree s v w) :
    AddRel a b out cin ovf w ↔ AddRel a b out cin ovf v := by
  simp only [AddRel, value_agree h ha, value_agree h hb, value_agree h ho, carryVal_agree h hc]

theorem value_getLast (v : Asg) (o : List Lit) (n : Nat) (h : o.length = n + 1) (l : Lit)
    (hl : o.getLast? = some l) : value v o = value v (o.take n) + 2 ^ n * bit (ev v l) := by
  have h1 : o = o.dropLast ++ [l] := by
    cases o with
    | nil => simp at h
    | cons x xs =>
      rw [List.getLast?_eq_some_getLast (by simp)] at hl
      simp only [Option.some.injEq] at hl
      rw [← hl, List.dropLast_concat_getLast]
  have h2 : o.dropLast = o.take n := by rw [List.dropLast_eq_take]; congr 1; omega
  rw [h2] at h1
  have h3 : (o.take n).length = n := by simp; omega
  conv => lhs; rw [h1, value_append, h3]
  simp [value_cons]

theorem addNumbers_sound {σ : Type} (al : Alloc σ) (a b out : List Lit) (cin : Option Lit) (ovf : Bool) (s : σ)
    {cls : Cnf} {s' : σ} (h : addNumbers al a b out cin ovf s = .ok (cls, s')) (v : Asg) (hs : Sat v cls) :
    AddRel a b out cin ovf v := by
  simp only [addNumbers] at h
  by_cases hab : a.length = b.length
  swap
  · simp [hab] at h
  by_cases hlen : out.length = a.length ∨ out.length = a.length + 1
  swap
  · rw [if_neg (by simpa using hab), if_pos hlen] at h; simp at h
  rw [if_neg (by simpa using hab), if_neg (by omega)] at h
  cases h1 : addLoop al a b out cin s with
  | error e => simp [h1] at h
  | ok p =>
    obtain ⟨cls1, cf, s1⟩ := p
    simp only [h1] at h
    have hao : a.length ≤ out.length := by omega
    have key := addLoop_sound al a b out cin s h1 hab hao v
    rcases hlen with hlen | hlen
    · rw [if_neg (by omega)] at h
      have htake : out.take a.length = out := by rw [← hlen]; simp
      rw [htake] at key
      have hlt := value_lt v out
      cases ovf with
      | false =>
        cases cf with
        | none => simp at h
        | some c =>
          simp only [Bool.not_false, if_true, Except.ok.injEq, Prod.mk.injEq] at h
          obtain ⟨rfl, rfl⟩ := h
          simp only [Sat_append, Sat_cons, SatC_cons, SatC_nil, ev_neg, Sat_nil, or_false, and_true,
            Bool.not_eq_true', carryVal] at hs key
          have := key hs.1
          simp only [hs.2] at this
          simp only [AddRel, Bool.false_eq_true, and_false, if_false, carryVal]
          simpa using this.symm
      | true =>
        simp only [Bool.not_true, Bool.false_eq_true, if_false, Except.ok.injEq, Prod.mk.injEq] at h
        obtain ⟨rfl, rfl⟩ := h
        simp only [AddRel, hlen, and_self, if_true]
        rw [key hs, Nat.add_mul_mod_self_left, Nat.mod_eq_of_lt (by rw [← hlen]; exact hlt)]
    · rw [if_pos (by omega)] at h
      cases cf with
      | none => simp at h
      | some c =>
        cases ho : out.getLast? with
        | none => simp [ho] at h
        | some o =>
          simp only [ho, Except.ok.injEq, Prod.mk.injEq] at h
          obtain ⟨rfl, rfl⟩ := h
          simp only [Sat_append, Sat_literalsSame] at hs
          have := key hs.1
          simp only [AddRel, hlen]
          rw [if_neg (by omega), value_getLast v out a.length hlen o ho, this]
          simp [carryVal, bit, hs.2]

theorem addNumbers_pool (a b out : List Lit) (cin : Option Lit) (ovf : Bool) (s : Nat)
    (hab : a.length = b.length) (hlen : out.length = a.length ∨ out.length = a.length + 1)
    (hne : a ≠ [] ∨ cin.isSome) (ha : LBound s a) (hb : LBound s b) (ho : LBound s out) (hc : OBound s cin) :
    ∃ cls, addNumbers poolAlloc a b out cin ovf s = .ok (cls, s + a.length) ∧
      Encodes s (s + a.length) cls (AddRel a b out cin ovf) := by
  have hao : a.length ≤ out.length := by omega
  obtain ⟨cls, cf, h1, hbd, hcf, hsome, hex⟩ := addLoop_pool a b out cin s hab hao ha hb ho hc
  have hsome := hsome hne
  obtain ⟨c, rfl⟩ := Option.isSome_iff_exists.1 hsome
  have hcv := hcf c rfl
  have hlow : ∀ v, AddRel a b out cin ovf v →
      value v (out.take a.length) = (value v a + value v b + carryVal v cin) % 2 ^ a.length := by
    intro v hr
    simp only [AddRel] at hr
    have htk : value v out = value v (out.take a.length) + 2 ^ a.length * value v (out.drop a.length) := by
      have := value_append v (out.take a.length) (out.drop a.length)
      rw [List.take_append_drop] at this
      rw [this]; congr 2; simp; omega
    have hlt := value_lt v (out.take a.length)
    have hl2 : (out.take a.length).length = a.length := by simp; omega
    rw [hl2] at hlt
    split at hr
    · rename_i h
      have : out.take a.length = out := by rw [← h.1]; simp
      rw [this, hr]
    · rw [← hr, htk, Nat.add_mul_mod_self_left, Nat.mod_eq_of_lt hlt]
  have hloop := fun v hs => addLoop_sound poolAlloc a b out cin s h1 hab hao v hs
  have main : ∀ (cls' : Cnf), addNumbers poolAlloc a b out cin ovf s = .ok (cls ++ cls', s + a.length) →
      CBound (s + a.length) cls' →
      (∀ v w, AddRel a b out cin ovf v → Agree s v w → Sat w cls → Sat w cls') →
      ∃ cls, addNumbers poolAlloc a b out cin ovf s = .ok (cls, s + a.length) ∧
      Encodes s (s + a.length) cls (AddRel a b out cin ovf) := by
    intro cls' he hb' hw'
    refine ⟨_, he, ⟨by omega, by simp [hbd, hb'], fun v hs => addNumbers_sound poolAlloc a b out cin ovf s he v hs, ?_⟩⟩
    intro v hr
    obtain ⟨w, hw, hsw⟩ := hex v (hlow v hr)
    exact ⟨w, hw, by simp only [Sat_append]; exact ⟨hsw, hw' v w hr hw hsw⟩⟩
  rcases hlen with hlen | hlen
  · cases ovf with
    | true =>
      apply main []
      · simp [addNumbers, hab, hlen, h1]
      · simp
      · simp
    | false =>
      apply main [[-c]]
      · simp only [addNumbers, hab, ne_eq, not_true_eq_false, if_false]
        rw [← hab, if_neg (by omega), h1]
        simp [hlen]
      · simp [hcv]
      · intro v w hr hw hsw
        have := hloop w hsw
        have hr' := (AddRel_agree ha hb ho hc v w hw).2 hr
        simp only [AddRel, Bool.false_eq_true, and_false, if_false] at hr'
        have ht : out.take a.length = out := by rw [← hlen]; simp
        rw [ht, ← hr'] at this
        have hp : 0 < 2 ^ a.length := Nat.two_pow_pos _
        simp only [Sat_cons, SatC_cons, SatC_nil, ev_neg, Sat_nil, or_false, and_true]
        cases hcw : ev w c
        · rfl
        · simp only [carryVal, hcw, if_true] at this; omega
  · have : out ≠ [] := by intro h; simp [h] at hlen
    obtain ⟨o, hol⟩ : ∃ o, out.getLast? = some o := ⟨_, List.getLast?_eq_some_getLast this⟩
    apply main (literalsSame c o)
    · simp only [addNumbers, hab, ne_eq, not_true_eq_false, if_false]
      rw [← hab, if_neg (by omega), h1]
      simp [hlen, hol]
    · simp only [CBound_literalsSame]
      refine ⟨hcv, ?_⟩
      have := ho o (List.mem_of_getLast? hol)
      omega
    · intro v w hr hw hsw
      have := hloop w hsw
      have hr' := (AddRel_agree ha hb ho hc v w hw).2 hr
      simp only [AddRel, hlen] at hr'
      rw [if_neg (by omega), value_getLast w out a.length hlen o hol, this] at hr'
      have hp : 0 < 2 ^ a.length := Nat.two_pow_pos _
      simp only [Sat_literalsSame]
      simp only [carryVal] at hr'
      cases h1 : ev w c <;> cases h2 : ev w o <;> simp_all [bit]

end FSat
