import Verif.Lemmas.Numbers
import Mathlib.Tactic.LinearCombination

namespace FSat

/-! ### get_bits and read_number -/

@[simp] theorem getBits_length (x : Int) (n : Nat) : (getBits x n).length = n := by simp [getBits]

theorem getBits_succ (x : Int) (n : Nat) :
    getBits x (n + 1) = decide (x % 2 = 1) :: getBits (x / 2) n := by
  simp only [getBits, List.range_succ_eq_map, List.map_cons, List.map_map]
  congr 1
  · simp
  · apply List.map_congr_left
    intro i _
    simp only [Function.comp]
    rw [Int.pow_succ, Int.mul_comm, Int.ediv_ediv_of_nonneg (by omega)]

@[simp] theorem getBits_zero (x : Int) : getBits x 0 = [] := rfl

theorem emod_pow_succ (x : Int) (n : Nat) : x % 2 ^ (n + 1) = x % 2 + 2 * ((x / 2) % 2 ^ n) := by
  have hp : (0 : Int) < 2 ^ n := by positivity
  have h1 := Int.emod_add_mul_ediv (x / 2) (2 ^ n)
  have h2 := Int.emod_add_mul_ediv x 2
  have h3 := Int.emod_nonneg (x / 2) (ne_of_gt hp)
  have h4 := Int.emod_lt_of_pos (x / 2) hp
  have h5 := Int.emod_nonneg x (b := 2) (by omega)
  have h6 := Int.emod_lt_of_pos x (b := 2) (by omega)
  have e : x = (x % 2 + 2 * ((x / 2) % 2 ^ n)) + 2 ^ (n + 1) * (x / 2 / 2 ^ n) := by
    rw [pow_succ]
    linear_combination (-1) * h2 - 2 * h1
  conv => lhs; rw [e]
  rw [Int.add_mul_emod_self_left]
  apply Int.emod_eq_of_lt
  · omega
  · rw [pow_succ]; omega

theorem binVal_getBits (x : Int) (n : Nat) : (binVal (getBits x n) : Int) = x % 2 ^ n := by
  induction n generalizing x with
  | zero => simp [Int.emod_one]
  | succ n ih =>
    rw [getBits_succ, binVal_cons, emod_pow_succ, ← ih]
    rcases Int.emod_two_eq_zero_or_one x with h | h <;> simp [h, bit]

theorem binVal_getBits_of_range (x : Nat) (n : Nat) (h : x < 2 ^ n) : binVal (getBits x n) = x := by
  have := binVal_getBits x n
  rw [Int.emod_eq_of_lt (by omega) (by exact_mod_cast h)] at this
  exact_mod_cast this

theorem binVal_getBits_of_range' (x : Int) (n : Nat) (h0 : 0 ≤ x) (h : x < 2 ^ n) : (binVal (getBits x n) : Int) = x := by
  rw [binVal_getBits, Int.emod_eq_of_lt h0 h]

theorem getBits_binVal (bs : List Bool) : getBits (binVal bs) bs.length = bs := by
  apply binVal_inj (by simp)
  exact binVal_getBits_of_range _ _ (binVal_lt bs)

theorem readNumberFrom_eq (bs : List Bool) (i r : Nat) (h : r < 2 ^ i) :
    readNumberFrom i r bs = r + 2 ^ i * binVal bs := by
  induction bs generalizing i r with
  | nil => simp [readNumberFrom]
  | cons b bs ih =>
    simp only [readNumberFrom]
    have hor : r ||| (1 <<< i) = r + 2 ^ i := by
      rw [Nat.shiftLeft_eq, Nat.one_mul, Nat.or_comm]
      have := Nat.two_pow_add_eq_or_of_lt h 1
      rw [Nat.mul_one] at this
      omega
    have hp : 2 ^ (i + 1) = 2 ^ i + 2 ^ i := by rw [Nat.pow_succ]; omega
    rw [ih]
    · rw [binVal_cons, Nat.pow_succ]
      cases b
      · simp; ring
      · simp [hor]; ring
    · cases b
      · simp; omega
      · simp [hor]; omega

theorem readNumber_unsigned (bs : List Bool) : readNumber bs false = .ok (binVal bs : Int) := by
  simp [readNumber, readNumberFrom_eq bs 0 0 (by simp)]

theorem readNumber_signed (bs : List Bool) (h : 1 < bs.length) : readNumber bs true = .ok (signedVal bs) := by
  simp only [readNumber, readNumberFrom_eq bs 0 0 (by simp), if_true, h, signedVal]
  split <;> simp

/-! ### set_number -/

theorem Sat_numberClauses_bits (v : Asg) (x : Int) (ls : List Lit) :
    Sat v (numberClauses x ls) ↔ ls.map (ev v) = getBits x ls.length := by
  simp only [numberClauses]
  generalize hb : getBits x ls.length = bs
  have hl : ls.length = bs.length := by rw [← hb]; simp
  clear hb
  induction ls generalizing bs with
  | nil => cases bs <;> simp_all
  | cons l ls ih =>
    cases bs with
    | nil => simp at hl
    | cons b bs =>
      have := ih bs (by simpa using hl)
      simp only [Sat_map] at this
      simp only [List.zip_cons_cons, List.map_cons, Sat_cons, SatC_cons, SatC_nil, or_false, ev_setLiteral,
        List.cons.injEq, Sat_map]
      simp only [Prod.forall] at this
      simp [← this]

theorem Sat_numberClauses_int (v : Asg) (x : Int) (ls : List Lit) :
    Sat v (numberClauses x ls) ↔ (value v ls : Int) = x % 2 ^ ls.length := by
  rw [Sat_numberClauses_bits, ← binVal_getBits, value]
  constructor
  · intro h; rw [h]
  · intro h; exact binVal_inj (by simp) (by exact_mod_cast h)

theorem Sat_numberClauses (v : Asg) (x : Nat) (ls : List Lit) (h : x < 2 ^ ls.length) :
    Sat v (numberClauses x ls) ↔ value v ls = x := by
  rw [Sat_numberClauses_int, Int.emod_eq_of_lt (by omega) (by exact_mod_cast h)]
  exact_mod_cast Iff.rfl

theorem notNumberClause_iff (v : Asg) (x : Int) (ls : List Lit) :
    SatC v (notNumberClause x ls) ↔ ¬ Sat v (numberClauses x ls) := by
  simp only [notNumberClause, SatC_map, ev_neg, Sat]
  push Not
  constructor
  · rintro ⟨c, hc, he⟩
    refine ⟨c, hc, ?_⟩
    simp only [numberClauses, List.mem_map] at hc
    obtain ⟨p, _, rfl⟩ := hc
    simpa using he
  · rintro ⟨c, hc, he⟩
    refine ⟨c, hc, ?_⟩
    simp only [numberClauses, List.mem_map] at hc
    obtain ⟨p, _, rfl⟩ := hc
    simpa using he

theorem SatC_notNumberClause (v : Asg) (x : Nat) (ls : List Lit) (h : x < 2 ^ ls.length) :
    SatC v (notNumberClause x ls) ↔ value v ls ≠ x := by
  rw [notNumberClause_iff, Sat_numberClauses v x ls h]

theorem setNotNumber_eq (x : Int) (ls : List Lit) :
    setNotNumber x ls = if x < 2 ^ ls.length then .ok (notNumberClause x ls) else .error .assertion := by
  simp only [setNotNumber, setNumber]
  split <;> rename_i h
  · split at h <;> simp_all
  · split at h <;> simp_all [notNumberClause]

/-! ### set_numbers_equal -/

theorem Sat_equalClauses (v : Asg) (a b : List Lit) (h : a.length = b.length) :
    Sat v (equalClauses a b) ↔ a.map (ev v) = b.map (ev v) := by
  induction a generalizing b with
  | nil => cases b <;> simp_all [equalClauses]
  | cons x a ih =>
    cases b with
    | nil => simp at h
    | cons y b =>
      have := ih b (by simpa using h)
      simp only [equalClauses] at this ⊢
      rw [List.zip_cons_cons, List.flatMap_cons, Sat_append, this]
      simp

theorem Sat_equalClauses_value (v : Asg) (a b : List Lit) (h : a.length = b.length) :
    Sat v (equalClauses a b) ↔ value v a = value v b := by
  rw [Sat_equalClauses v a b h, value, value]
  exact ⟨fun h => by rw [h], fun h' => binVal_inj (by simpa using h) h'⟩

theorem value_eq_zero_iff (v : Asg) (a : List Lit) : value v a = 0 ↔ ∀ l ∈ a, ev v l = false := by
  induction a with
  | nil => simp
  | cons x a ih =>
    rw [value_cons]
    have := bit_le (ev v x)
    simp only [List.mem_cons, forall_eq_or_imp, ← ih]
    cases ev v x <;> simp

theorem Sat_setNumbersEqual_diff (v : Asg) (a b : List Lit) :
    Sat v (setAllFalse (a.drop b.length) ++ setAllFalse (b.drop a.length) ++ equalClauses a b) ↔
      value v a = value v b := by
  have hz : equalClauses a b = equalClauses (a.take b.length) (b.take a.length) := by
    simp only [equalClauses]; congr 1
    rw [List.zip_eq_zip_take_min]
    congr 1
    · rcases Nat.le_total a.length b.length with h | h
      · rw [Nat.min_eq_left h, List.take_of_length_le (Nat.le_refl _), List.take_of_length_le h]
      · rw [Nat.min_eq_right h]
    · rcases Nat.le_total a.length b.length with h | h
      · rw [Nat.min_eq_left h]
      · rw [Nat.min_eq_right h, List.take_of_length_le (Nat.le_refl _), List.take_of_length_le h]
  rw [Sat_append, Sat_append, hz, Sat_equalClauses_value v _ _ (by simp; omega), Sat_setAllFalse, Sat_setAllFalse,
    ← value_eq_zero_iff, ← value_eq_zero_iff]
  have ea : value v a = value v (a.take b.length) + 2 ^ (a.take b.length).length * value v (a.drop b.length) := by
    rw [← value_append, List.take_append_drop]
  have eb : value v b = value v (b.take a.length) + 2 ^ (b.take a.length).length * value v (b.drop a.length) := by
    rw [← value_append, List.take_append_drop]
  rcases Nat.le_total a.length b.length with h | h
  · have h0 : a.drop b.length = [] := List.drop_of_length_le h
    have ht : a.take b.length = a := List.take_of_length_le h
    have hl : (b.take a.length).length = a.length := by simp; omega
    rw [hl] at eb
    rw [h0, ht, eb]
    have hlt := value_lt v a
    have hlt2 := value_lt v (b.take a.length)
    rw [hl] at hlt2
    simp only [value_nil, true_and]
    constructor
    · rintro ⟨h1, h2⟩; rw [h1, h2]; simp
    · intro h1
      have : value v (b.drop a.length) = 0 := by
        by_contra hne
        have : 2 ^ a.length ≤ 2 ^ a.length * value v (b.drop a.length) := Nat.le_mul_of_pos_right _ (by omega)
        omega
      rw [this] at h1; simp at h1
      exact ⟨this, h1⟩
  · have h0 : b.drop a.length = [] := List.drop_of_length_le h
    have ht : b.take a.length = b := List.take_of_length_le h
    have hl : (a.take b.length).length = b.length := by simp; omega
    rw [hl] at ea
    rw [h0, ht, ea]
    have hlt := value_lt v b
    have hlt2 := value_lt v (a.take b.length)
    rw [hl] at hlt2
    simp only [value_nil, and_true]
    constructor
    · rintro ⟨h1, h2⟩; rw [h1, h2]; simp
    · intro h1
      have : value v (a.drop b.length) = 0 := by
        by_contra hne
        have : 2 ^ b.length ≤ 2 ^ b.length * value v (a.drop b.length) := Nat.le_mul_of_pos_right _ (by omega)
        omega
      rw [this] at h1; simp at h1
      exact ⟨this, h1⟩

/-! ### set_numbers -/

theorem Sat_setNumbersTail (v : Asg) (ds : List (Lit × Lit × Bool)) :
    Sat v (setNumbersTail ds) ↔ ∃ t : Bool, ∀ d ∈ ds, ev v d.1 = (d.2.2 ^^ t) := by
  cases ds with
  | nil => simp [setNumbersTail]
  | cons d rest =>
    obtain ⟨la, lb, ba⟩ := d
    simp only [setNumbersTail, Sat_flatMap, Sat_ite, Sat_literalsSame, Sat_literalsDifferent]
    constructor
    · intro h
      refine ⟨ev v la ^^ ba, ?_⟩
      intro d hd
      rcases List.mem_cons.1 hd with rfl | hd
      · cases ba <;> simp
      · have := h d hd
        revert this
        cases ba <;> cases d.2.2 <;> cases ev v la <;> cases ev v d.1 <;> simp
    · rintro ⟨t, h⟩ d hd
      have h0 := h (la, lb, ba) (by simp)
      have h1 := h d (by simp [hd])
      simp only at h0
      rw [h0, h1]
      cases ba <;> cases d.2.2 <;> cases t <;> simp

theorem setNumbersLoop_iff (v : Asg) (t : Bool) (la lb : List Lit) (A B : List Bool)
    (h1 : la.length = lb.length) (h2 : la.length = A.length) (h3 : la.length = B.length) :
    (Sat v (setNumbersLoop la lb A B).1 ∧ ∀ d ∈ (setNumbersLoop la lb A B).2, ev v d.1 = (d.2.2 ^^ t)) ↔
      (la.map (ev v) = (if t then B else A) ∧ lb.map (ev v) = (if t then A else B)) := by
  induction la generalizing lb A B with
  | nil =>
    cases lb <;> cases A <;> cases B <;> simp_all [setNumbersLoop]
  | cons x la ih =>
    cases lb with
    | nil => simp at h1
    | cons y lb =>
      cases A with
      | nil => simp at h2
      | cons p A =>
        cases B with
        | nil => simp at h3
        | cons q B =>
          have := ih lb A B (by simpa using h1) (by simpa using h2) (by simpa using h3)
          simp only [setNumbersLoop]
          generalize hr : setNumbersLoop la lb A B = r at this
          obtain ⟨cls, ds⟩ := r
          simp only at this ⊢
          split
          · rename_i hpq
            subst hpq
            simp only [Sat_cons, SatC_cons, SatC_nil, ev_setLiteral, or_false, List.map_cons]
            cases t <;> simp only [Bool.false_eq_true, if_false, if_true] at this ⊢ <;>
              simp only [List.cons.injEq, beq_iff_eq] <;> rw [and_assoc, and_assoc, this] <;> tauto
          · rename_i hpq
            simp only [Sat_append, Sat_literalsDifferent, List.mem_cons, forall_eq_or_imp, List.map_cons]
            have e : ((ev v x = !ev v y) ∧ Sat v cls) ∧ (ev v x = (p ^^ t)) ∧ (∀ a ∈ ds, ev v a.1 = (a.2.2 ^^ t)) ↔
                ((ev v x = !ev v y) ∧ (ev v x = (p ^^ t))) ∧ (Sat v cls ∧ ∀ a ∈ ds, ev v a.1 = (a.2.2 ^^ t)) := by
              tauto
            rw [e, this]
            have hq : q = !p := by revert hpq; cases p <;> cases q <;> simp
            subst hq
            cases t <;> simp only [Bool.false_eq_true, if_false, if_true, List.cons.injEq] <;>
              cases p <;> cases ev v x <;> cases ev v y <;> simp

theorem Sat_numbersClauses_bits (v : Asg) (a b : Int) (la lb : List Lit) (h : la.length = lb.length) :
    Sat v (numbersClauses a b la lb) ↔
      (la.map (ev v) = getBits a la.length ∧ lb.map (ev v) = getBits b la.length) ∨
      (la.map (ev v) = getBits b la.length ∧ lb.map (ev v) = getBits a la.length) := by
  have key := fun t => setNumbersLoop_iff v t la lb (getBits a la.length) (getBits b la.length) h (by simp) (by simp)
  simp only [numbersClauses, Sat_append, Sat_setNumbersTail]
  constructor
  · rintro ⟨h1, t, h2⟩
    have := (key t).1 ⟨h1, h2⟩
    cases t
    · left; simpa using this
    · right; simpa using this
  · rintro (h' | h')
    · have := (key false).2 (by simpa using h'); exact ⟨this.1, false, this.2⟩
    · have := (key true).2 (by simpa using h'); exact ⟨this.1, true, this.2⟩

theorem bits_eq_iff (v : Asg) (x n : Nat) (ls : List Lit) (hn : ls.length = n) (h : x < 2 ^ n) :
    ls.map (ev v) = getBits x n ↔ value v ls = x := by
  subst hn
  rw [← Sat_numberClauses_bits, Sat_numberClauses v x ls h]

theorem Sat_numbersClauses (v : Asg) (a b : Nat) (la lb : List Lit) (h : la.length = lb.length)
    (ha : a < 2 ^ la.length) (hb : b < 2 ^ la.length) :
    Sat v (numbersClauses a b la lb) ↔
      (value v la = a ∧ value v lb = b) ∨ (value v la = b ∧ value v lb = a) := by
  rw [Sat_numbersClauses_bits v a b la lb h, bits_eq_iff v a _ la rfl ha, bits_eq_iff v b _ la rfl hb,
    bits_eq_iff v b _ lb h.symm hb, bits_eq_iff v a _ lb h.symm ha]

/-! ### set_maximum -/

theorem binVal_mono (V T : List Bool) (hl : V.length = T.length)
    (h : ∀ p ∈ List.zip V T, p.1 = true → p.2 = true) : binVal V ≤ binVal T := by
  induction V generalizing T with
  | nil => simp
  | cons a V ih =>
    cases T with
    | nil => simp at hl
    | cons b T =>
      have := ih T (by simpa using hl) (fun p hp => h p (by simp [hp]))
      have h0 := h (a, b) (by simp)
      rw [binVal_cons, binVal_cons]
      simp only at h0
      have : bit a ≤ bit b := by
        clear * - h0
        cases a <;> cases b <;> simp_all
      omega

theorem setMaximum_iff (x : Int) (ls : List Lit) :
    (0 ≤ x ∧ x < 2 ^ ls.length →
      ∃ cls, setMaximum x ls = .ok cls ∧ ∀ v, Sat v cls ↔ (value v ls : Int) ≤ x) ∧
    (¬ (0 ≤ x ∧ x < 2 ^ ls.length) → setMaximum x ls = .error .assertion) := by
  induction ls generalizing x with
  | nil =>
    refine ⟨?_, ?_⟩
    · rintro ⟨h0, h1⟩
      have : x = 0 := by simp at h1; omega
      subst this
      exact ⟨[], by simp [setMaximum], by simp⟩
    · intro h
      have : x ≠ 0 := by rintro rfl; simp at h
      simp [setMaximum, this]
  | cons l tail ih =>
    have hlen : (2 : Int) ^ (l :: tail).length = 2 * 2 ^ tail.length := by rw [List.length_cons, pow_succ]; ring
    refine ⟨?_, ?_⟩
    · rintro ⟨h0, h1⟩
      rw [hlen] at h1
      obtain ⟨cls, he, hs⟩ := (ih (x / 2)).1 ⟨by omega, by omega⟩
      simp only [setMaximum, he]
      by_cases hx : x % 2 = 0
      · rw [if_pos hx]
        refine ⟨_, rfl, ?_⟩
        intro v
        simp only [Sat_append, hs, Sat_cons, SatC_cons, ev_neg, Sat_nil, and_true, value_cons, SatC_map]
        have hV : (binVal (getBits (x / 2) tail.length) : Int) = x / 2 :=
          binVal_getBits_of_range' _ _ (by omega) (by omega)
        cases hl : ev v l
        · simp; omega
        · simp only [Bool.not_true, Bool.false_eq_true, false_or, bit_true]
          constructor
          · rintro ⟨hle, p, hp, hpf⟩
            have hne : (value v tail : Int) ≠ x / 2 := by
              intro heq
              have hb : tail.map (ev v) = getBits (x / 2) tail.length := by
                apply binVal_inj (by simp)
                have : (binVal (tail.map (ev v)) : Int) = binVal (getBits (x / 2) tail.length) := by
                  rw [hV]; exact heq
                exact_mod_cast this
              rw [List.mem_filter] at hp
              rw [← hb, List.zip_map_left, List.mem_map] at hp
              obtain ⟨⟨q, hq, rfl⟩, hqt⟩ := hp
              have : q.1 = q.2 := by
                have hz : List.zip tail tail = tail.map fun a => (a, a) := by
                  clear * -
                  induction tail with
                  | nil => rfl
                  | cons a t ih => simp [ih]
                rw [hz, List.mem_map] at hq
                obtain ⟨a, _, rfl⟩ := hq; rfl
              simp [this] at hqt hpf
              rw [hqt] at hpf; simp at hpf
            push_cast; omega
          · intro h
            push_cast at h
            refine ⟨by omega, ?_⟩
            by_contra hcon
            push Not at hcon
            have := binVal_mono (getBits (x / 2) tail.length) (tail.map (ev v)) (by simp) (by
              intro p hp hpt
              rw [List.zip_map_right, List.mem_map] at hp
              obtain ⟨q, hq, rfl⟩ := hp
              have := hcon q (List.mem_filter.2 ⟨hq, by simpa using hpt⟩)
              simpa using this)
            have : (x / 2 : Int) ≤ value v tail := by rw [← hV]; exact_mod_cast this
            omega
      · rw [if_neg hx]
        refine ⟨_, rfl, ?_⟩
        intro v
        rw [hs, value_cons]
        have := bit_le (ev v l)
        push_cast
        omega
    · intro h
      rw [hlen] at h
      have := (ih (x / 2)).2 (by omega)
      simp [setMaximum, this]

/-! ### increment_number -/

theorem Sat_incrementLoop (v : Asg) (pre is os : List Lit) (h : is.length = os.length) :
    Sat v (incrementLoop pre is os) ↔
      if (∀ l ∈ pre, ev v l = true) then value v os = (value v is + 1) % 2 ^ is.length
      else value v os = value v is := by
  induction is generalizing pre os with
  | nil =>
    cases os with
    | nil => simp [incrementLoop]
    | cons => simp at h
  | cons i is ih =>
    cases os with
    | nil => simp at h
    | cons o os =>
      have hl : is.length = os.length := by simpa using h
      have hlt := value_lt v os
      have hlt' := value_lt v is
      rw [← hl] at hlt
      have hp : 0 < 2 ^ is.length := Nat.two_pow_pos _
      simp only [incrementLoop, Sat_append, Sat_implies, Sat_literalsDifferent, Sat_flatMap, Sat_literalsSame,
        List.mem_singleton, forall_eq, ev_neg, ih _ os hl, value_cons, List.length_cons, Nat.pow_succ]
      by_cases hpre : ∀ l ∈ pre, ev v l = true
      · have hB : (∀ l ∈ pre, ((!ev v l) = true → ev v i = ev v o)) ↔ True :=
          ⟨fun _ => trivial, fun _ l hm hx => by simp [hpre l hm] at hx⟩
        have hA : ((∀ l ∈ pre, ev v l = true) → ev v i = !ev v o) ↔ ev v i = !ev v o :=
          ⟨fun hh => hh hpre, fun hh _ => hh⟩
        have hC : (∀ l ∈ pre ++ [i], ev v l = true) ↔ ev v i = true :=
          ⟨fun hh => hh i (by simp), fun hh l hl => by
            rcases List.mem_append.1 hl with hl | hl
            · exact hpre l hl
            · rw [List.mem_singleton.1 hl]; exact hh⟩
        rw [hA, hB, and_true, if_pos hpre]
        simp only [hC]
        cases hi : ev v i <;> cases ho : ev v o
        · simp only [Bool.not_false, Bool.false_eq_true, false_and, false_iff, bit_false]
          rw [Nat.mod_eq_of_lt (by omega)]; omega
        · simp only [Bool.not_true, Bool.false_eq_true, if_false, true_and, bit_true, bit_false]
          rw [Nat.mod_eq_of_lt (by omega)]; omega
        · simp only [Bool.not_false, if_true, true_and, bit_true, bit_false]
          have e : (1 + 2 * value v is + 1) % (2 ^ is.length * 2) = 2 * ((value v is + 1) % 2 ^ is.length) := by
            rw [show 1 + 2 * value v is + 1 = 2 * (value v is + 1) by ring, Nat.mul_comm (2 ^ is.length) 2,
              Nat.mul_mod_mul_left]
          rw [e]; omega
        · simp only [Bool.not_true, Bool.true_eq_false, false_and, false_iff, bit_true]
          have e : (1 + 2 * value v is + 1) % (2 ^ is.length * 2) = 2 * ((value v is + 1) % 2 ^ is.length) := by
            rw [show 1 + 2 * value v is + 1 = 2 * (value v is + 1) by ring, Nat.mul_comm (2 ^ is.length) 2,
              Nat.mul_mod_mul_left]
          rw [e]; omega
      · have hpre' : ¬ ∀ l ∈ pre ++ [i], ev v l = true := fun hh => hpre fun l hl => hh l (by simp [hl])
        rw [if_neg hpre', if_neg hpre]
        push Not at hpre
        obtain ⟨l, hl1, hl2⟩ := hpre
        have h1 : ((∀ l ∈ pre, ev v l = true) → ev v i = !ev v o) := fun hh => absurd (hh l hl1) hl2
        rw [show (((∀ l ∈ pre, ev v l = true) → ev v i = !ev v o)) ↔ True from ⟨fun _ => trivial, fun _ => h1⟩, true_and]
        have h2 : (∀ x ∈ pre, (!ev v x) = true → ev v i = ev v o) ↔ ev v i = ev v o :=
          ⟨fun hh => hh l hl1 (by simpa using hl2), fun hh _ _ _ => hh⟩
        rw [h2]
        cases ev v i <;> cases ev v o <;> simp only [bit_true, bit_false, true_and, reduceCtorEq, false_and, false_iff] <;> omega

end FSat
