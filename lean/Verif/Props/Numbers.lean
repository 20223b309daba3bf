import Verif.Lemmas.Sums
import Verif.Lemmas.Invert
import Verif.Lemmas.Cardinality
/-!
# C01 - C12: meaning of the clause generators of `util.py` and `cardinality.py`

Vocabulary (from `Spec/Bits.lean` and `Model/Sat.lean`): `value v ls` is the number the literals `ls` denote under the
assignment `v`; `SatUpTo s v cs` says `v`, restricted to the variables `≤ s` already allocated when the generator was
called, extends to an assignment satisfying `cs`.
-/

namespace FSat

/-! ## C01 -/

/-- C01. Without overflow permission `add_numbers` returns clauses that hold (up to the new carry variables) exactly when
`out = a + b + carry_in` as natural numbers, for both permitted widths of `out`. -/
theorem c01_add_numbers_exact (a b out : List Lit) (cin : Option Lit) (s : Nat)
    (hab : a.length = b.length) (hout : out.length = a.length ∨ out.length = a.length + 1)
    (hne : a ≠ [] ∨ cin.isSome)
    (hfresh : LBound s (a ++ b ++ out ++ cin.toList)) :
    ∃ cls s', addNumbers poolAlloc a b out cin false s = .ok (cls, s') ∧
      ∀ v, SatUpTo s v cls ↔ value v out = value v a + value v b + carryVal v cin := by
  simp only [LBound_append] at hfresh
  have hc : OBound s cin := by intro l hl; subst hl; exact hfresh.2 l (by simp)
  obtain ⟨cls, he, hen⟩ := addNumbers_pool a b out cin false s hab hout hne hfresh.1.1.1 hfresh.1.1.2 hfresh.1.2 hc
  refine ⟨cls, _, he, fun v => ?_⟩
  rw [hen.iff (AddRel_agree hfresh.1.1.1 hfresh.1.1.2 hfresh.1.2 hc)]
  simp [AddRel]

/-- C01, overflow permitted and equal widths: addition modulo `2^n`. -/
theorem c01_add_numbers_mod (a b out : List Lit) (cin : Option Lit) (s : Nat)
    (hab : a.length = b.length) (hout : out.length = a.length)
    (hne : a ≠ [] ∨ cin.isSome)
    (hfresh : LBound s (a ++ b ++ out ++ cin.toList)) :
    ∃ cls s', addNumbers poolAlloc a b out cin true s = .ok (cls, s') ∧
      ∀ v, SatUpTo s v cls ↔ value v out = (value v a + value v b + carryVal v cin) % 2 ^ a.length := by
  simp only [LBound_append] at hfresh
  have hc : OBound s cin := by intro l hl; subst hl; exact hfresh.2 l (by simp)
  obtain ⟨cls, he, hen⟩ := addNumbers_pool a b out cin true s hab (Or.inl hout) hne hfresh.1.1.1 hfresh.1.1.2
    hfresh.1.2 hc
  refine ⟨cls, _, he, fun v => ?_⟩
  rw [hen.iff (AddRel_agree hfresh.1.1.1 hfresh.1.1.2 hfresh.1.2 hc)]
  simp [AddRel, hout]

/-- C01, any allocator (in particular the fixed per-tile carry variables): whenever clauses are returned, every
satisfying assignment adds correctly. -/
theorem c01_add_numbers_any_allocator {σ : Type} (al : Alloc σ) (a b out : List Lit) (cin : Option Lit) (ovf : Bool)
    (s : σ) (cls : Cnf) (s' : σ) (h : addNumbers al a b out cin ovf s = .ok (cls, s')) (v : Asg) (hs : Sat v cls) :
    value v out = value v a + value v b + carryVal v cin ∨
      (ovf = true ∧ out.length = a.length ∧ value v out = (value v a + value v b + carryVal v cin) % 2 ^ a.length) := by
  have := addNumbers_sound al a b out cin ovf s h v hs
  simp only [AddRel] at this
  split at this
  · rename_i hh; exact Or.inr ⟨hh.2, hh.1, this⟩
  · exact Or.inl this

/-- The hypotheses of C01 hold for 2-bit operands with a carry literal. -/
example : let a : List Lit := [⟨1, true⟩, ⟨2, true⟩]; let b : List Lit := [⟨3, true⟩, ⟨4, false⟩]
    let out : List Lit := [⟨5, true⟩, ⟨6, true⟩, ⟨7, true⟩]; let cin : Option Lit := some ⟨8, true⟩
    a.length = b.length ∧ (out.length = a.length ∨ out.length = a.length + 1) ∧ (a ≠ [] ∨ cin.isSome) ∧
    LBound 8 (a ++ b ++ out ++ cin.toList) := by
  simp [LBound]

/-- A satisfiable instance: the 2-bit adder accepts 3 + 2 + 1 = 6. -/
example : ∃ cls s', addNumbers poolAlloc [⟨1, true⟩, ⟨2, true⟩] [⟨3, true⟩, ⟨4, true⟩] [⟨5, true⟩, ⟨6, true⟩, ⟨7, true⟩]
    (some ⟨8, true⟩) false 8 = .ok (cls, s') ∧
    SatUpTo 8 (fun x => x ∈ [1, 2, 4, 6, 7, 8]) cls := by
  obtain ⟨cls, s', h, hs⟩ := c01_add_numbers_exact [⟨1, true⟩, ⟨2, true⟩] [⟨3, true⟩, ⟨4, true⟩]
    [⟨5, true⟩, ⟨6, true⟩, ⟨7, true⟩] (some ⟨8, true⟩) 8 rfl (Or.inr rfl) (Or.inl (by simp)) (by simp [LBound])
  exact ⟨cls, s', h, (hs _).2 (by decide)⟩

/-! ## C02 -/

/-- C02. `sum_numbers` without overflow permission: exactly the natural-number sum. -/
theorem c02_sum_numbers_exact (numbers : List (List Lit)) (output : List Lit) (s : Nat)
    (hw : 0 < output.length) (hn : 2 ≤ numbers.length) (hlen : ∀ n ∈ numbers, n.length = output.length)
    (hfresh : ∀ n ∈ numbers, LBound s n) (hout : LBound s output) :
    ∃ cls s', sumNumbers poolAlloc numbers output false s = .ok (cls, s') ∧
      ∀ v, SatUpTo s v cls ↔ value v output = (numbers.map (value v)).sum := by
  obtain ⟨cls, s', he, hen⟩ := sumNumbers_pool numbers output false s hw hn hlen hfresh hout
  refine ⟨cls, s', he, fun v => ?_⟩
  rw [hen.iff (SumRel_agree hfresh hout)]
  simp [SumRel, sumVal]

/-- C02. `sum_numbers` with overflow permission: the sum modulo `2^n`. -/
theorem c02_sum_numbers_mod (numbers : List (List Lit)) (output : List Lit) (s : Nat)
    (hw : 0 < output.length) (hn : 2 ≤ numbers.length) (hlen : ∀ n ∈ numbers, n.length = output.length)
    (hfresh : ∀ n ∈ numbers, LBound s n) (hout : LBound s output) :
    ∃ cls s', sumNumbers poolAlloc numbers output true s = .ok (cls, s') ∧
      ∀ v, SatUpTo s v cls ↔ value v output = (numbers.map (value v)).sum % 2 ^ output.length := by
  obtain ⟨cls, s', he, hen⟩ := sumNumbers_pool numbers output true s hw hn hlen hfresh hout
  refine ⟨cls, s', he, fun v => ?_⟩
  rw [hen.iff (SumRel_agree hfresh hout)]
  simp [SumRel, sumVal]

/-- Three 2-bit operands: 1 + 1 + 1 = 3 is accepted. -/
example : ∃ cls s', sumNumbers poolAlloc [[⟨1, true⟩, ⟨2, true⟩], [⟨3, true⟩, ⟨4, true⟩], [⟨5, true⟩, ⟨6, true⟩]]
    [⟨7, true⟩, ⟨8, true⟩] false 8 = .ok (cls, s') ∧ SatUpTo 8 (fun x => x ∈ [1, 3, 5, 7, 8]) cls := by
  obtain ⟨cls, s', h, hs⟩ := c02_sum_numbers_exact
    [[⟨1, true⟩, ⟨2, true⟩], [⟨3, true⟩, ⟨4, true⟩], [⟨5, true⟩, ⟨6, true⟩]] [⟨7, true⟩, ⟨8, true⟩] 8
    (by simp) (by simp) (by simp) (by simp [LBound]) (by simp [LBound])
  exact ⟨cls, s', h, (hs _).2 (by decide)⟩

/-! ## C03 -/

/-- C03. `get_popcount` never fails when the output has `ceil(log2(n+1))` bits and its clauses hold exactly when the output
is the number of true bits. -/
theorem c03_get_popcount (bits output : List Lit) (s : Nat) (hn : 2 ≤ bits.length)
    (hlen : output.length = Nat.clog 2 (bits.length + 1)) (hb : LBound s bits) (ho : LBound s output) :
    ∃ cls s', getPopcount poolAlloc bits output s = .ok (cls, s') ∧
      ∀ v, SatUpTo s v cls ↔ value v output = (bits.map (ev v)).count true := by
  obtain ⟨cls, s', he, hen⟩ := getPopcount_pool bits output s hn hlen hb ho
  refine ⟨cls, s', he, fun v => ?_⟩
  rw [hen.iff (fun v w hw => by simp only [PopRel, value_agree hw ho, countTrue_agree hw hb])]
  rfl

/-- C03, the other side of the contract: a wrongly sized output is rejected. -/
theorem c03_get_popcount_wrong_width {σ : Type} (al : Alloc σ) (bits output : List Lit) (s : σ)
    (hlen : output.length ≠ Nat.clog 2 (bits.length + 1)) :
    getPopcount al bits output s = .error .assertion := by
  rw [getPopcount.eq_def, if_pos]
  simpa [binLength] using Ne.symm hlen

example : ∃ cls s', getPopcount poolAlloc [⟨1, true⟩, ⟨2, true⟩, ⟨3, true⟩, ⟨4, true⟩, ⟨5, true⟩]
    [⟨6, true⟩, ⟨7, true⟩, ⟨8, true⟩] 8 = .ok (cls, s') ∧ SatUpTo 8 (fun x => x ∈ [1, 2, 4, 5, 8]) cls := by
  obtain ⟨cls, s', h, hs⟩ := c03_get_popcount [⟨1, true⟩, ⟨2, true⟩, ⟨3, true⟩, ⟨4, true⟩, ⟨5, true⟩]
    [⟨6, true⟩, ⟨7, true⟩, ⟨8, true⟩] 8 (by simp) (by decide) (by simp [LBound]) (by simp [LBound])
  exact ⟨cls, s', h, (hs _).2 (by decide)⟩

/-! ## C04 -/

/-- C04. -/
theorem c04_increment_number (input output : List Lit) (h : input.length = output.length) (hne : 0 < input.length) :
    ∃ cls, incrementNumber input output = .ok cls ∧
      ∀ v, Sat v cls ↔ value v output = (value v input + 1) % 2 ^ input.length := by
  refine ⟨_, by simp only [incrementNumber]; rw [if_pos ⟨h, hne⟩], fun v => ?_⟩
  rw [Sat_incrementLoop v [] input output h]; simp

example : ∃ cls, incrementNumber [⟨1, true⟩, ⟨2, true⟩] [⟨3, true⟩, ⟨4, true⟩] = .ok cls ∧
    Sat (fun x => x ∈ [1, 2]) cls ∧ Sat (fun x => x ∈ [1, 4]) cls ∧ ¬ Sat (fun x => x ∈ [1, 3]) cls := by
  obtain ⟨cls, h, hs⟩ := c04_increment_number [⟨1, true⟩, ⟨2, true⟩] [⟨3, true⟩, ⟨4, true⟩] rfl (by simp)
  exact ⟨cls, h, (hs _).2 (by decide), (hs _).2 (by decide), fun hh => absurd ((hs _).1 hh) (by decide)⟩

/-! ## C05 -/

/-- C05. In range, `set_maximum` succeeds and means `≤`. -/
theorem c05_set_maximum (x : Int) (ls : List Lit) (h0 : 0 ≤ x) (h1 : x < 2 ^ ls.length) :
    ∃ cls, setMaximum x ls = .ok cls ∧ ∀ v, Sat v cls ↔ (value v ls : Int) ≤ x :=
  (setMaximum_iff x ls).1 ⟨h0, h1⟩

/-- C05. Out of range (negative or too large) the assertion fires. -/
theorem c05_set_maximum_rejects (x : Int) (ls : List Lit) (h : x < 0 ∨ 2 ^ ls.length ≤ x) :
    setMaximum x ls = .error .assertion :=
  (setMaximum_iff x ls).2 (by omega)

example : ∃ cls, setMaximum 5 [⟨1, true⟩, ⟨2, true⟩, ⟨3, true⟩] = .ok cls ∧
    Sat (fun x => x ∈ [1, 3]) cls ∧ ¬ Sat (fun x => x ∈ [2, 3]) cls := by
  obtain ⟨cls, h, hs⟩ := c05_set_maximum 5 [⟨1, true⟩, ⟨2, true⟩, ⟨3, true⟩] (by simp) (by simp)
  exact ⟨cls, h, (hs _).2 (by decide), fun hh => absurd ((hs _).1 hh) (by decide)⟩

/-! ## C06 -/

/-- C06. `set_number` pins the value; a too large value is rejected. -/
theorem c06_set_number (x : Nat) (ls : List Lit) :
    (x < 2 ^ ls.length → ∃ cls, setNumber x ls = .ok cls ∧ ∀ v, Sat v cls ↔ value v ls = x) ∧
    (2 ^ ls.length ≤ x → setNumber x ls = .error .assertion) := by
  refine ⟨fun h => ⟨numberClauses x ls, ?_, fun v => Sat_numberClauses v x ls h⟩, fun h => ?_⟩
  · simp only [setNumber]; rw [if_pos (by exact_mod_cast h)]
  · simp only [setNumber]; rw [if_neg]; push Not; exact_mod_cast h

/-- C06. `set_not_number` is the clause excluding exactly that value. -/
theorem c06_set_not_number (x : Nat) (ls : List Lit) (h : x < 2 ^ ls.length) :
    ∃ c, setNotNumber x ls = .ok c ∧ ∀ v, SatC v c ↔ value v ls ≠ x := by
  refine ⟨notNumberClause x ls, ?_, fun v => SatC_notNumberClause v x ls h⟩
  rw [setNotNumber_eq, if_pos (by exact_mod_cast h)]

/-- C06. Reading back the bits of a number returns it. -/
theorem c06_read_get_bits (x n : Nat) (h : x < 2 ^ n) : readNumber (getBits x n) false = .ok (x : Int) := by
  rw [readNumber_unsigned, binVal_getBits_of_range x n h]

/-- C06. ... and the bits of a read number are the original bits. -/
theorem c06_get_bits_read (bs : List Bool) :
    ∃ x : Nat, readNumber bs false = .ok (x : Int) ∧ x < 2 ^ bs.length ∧ getBits x bs.length = bs :=
  ⟨binVal bs, readNumber_unsigned bs, binVal_lt bs, getBits_binVal bs⟩

/-- C06. The signed reading of the bits of `x` (as Python's `&` sees negative ints) is `x` for every representable `x`. -/
theorem c06_read_signed (x : Int) (n : Nat) (hn : 0 < n) (h0 : - 2 ^ n ≤ x) (h1 : x < 2 ^ n) :
    readNumber (getBits x (n + 1)) true = .ok x := by
  rw [readNumber_signed _ (by simp; omega), signedVal_eq _ n (by simp)]
  have hb := binVal_getBits x (n + 1)
  have hp : (2 : Int) ^ (n + 1) = 2 * 2 ^ n := by rw [pow_succ]; ring
  have hc : ((2 ^ n : Nat) : Int) = 2 ^ n := by push_cast; rfl
  rcases lt_or_ge x 0 with hx | hx
  · have : x % 2 ^ (n + 1) = x + 2 ^ (n + 1) := by
      rw [← Int.add_emod_right]
      exact Int.emod_eq_of_lt (by omega) (by omega)
    rw [this] at hb
    rw [if_pos (by omega)]
    congr 1; omega
  · have : x % 2 ^ (n + 1) = x := Int.emod_eq_of_lt hx (by omega)
    rw [this] at hb
    rw [if_neg (by omega)]
    congr 1

example : readNumber (getBits (-3) 4) true = .ok (-3) ∧ getBits (-3) 4 = [true, false, true, true] :=
  ⟨c06_read_signed (-3) 3 (by simp) (by simp) (by simp), by decide⟩
example : (5 : Nat) < 2 ^ ([⟨1, true⟩, ⟨2, true⟩, ⟨3, true⟩] : List Lit).length := by decide

/-! ## C07 -/

/-- C07. -/
theorem c07_set_numbers (a b : Nat) (la lb : List Lit) (h : la.length = lb.length)
    (ha : a < 2 ^ la.length) (hb : b < 2 ^ la.length) :
    ∃ cls, setNumbers a b la lb = .ok cls ∧
      ∀ v, Sat v cls ↔ (value v la = a ∧ value v lb = b) ∨ (value v la = b ∧ value v lb = a) := by
  refine ⟨numbersClauses a b la lb, ?_, fun v => Sat_numbersClauses v a b la lb h ha hb⟩
  simp only [setNumbers]
  rw [if_pos ⟨h, by exact_mod_cast ha, by exact_mod_cast hb⟩]

/-- C07. Equality of equally long numbers. -/
theorem c07_set_numbers_equal (a b : List Lit) (h : a.length = b.length) :
    ∃ cls, setNumbersEqual a b false = .ok cls ∧ ∀ v, Sat v cls ↔ value v a = value v b :=
  ⟨equalClauses a b, by simp [setNumbersEqual, h], fun v => Sat_equalClauses_value v a b h⟩

/-- C07. Equality of numbers of any two lengths. -/
theorem c07_set_numbers_equal_different (a b : List Lit) :
    ∃ cls, setNumbersEqual a b true = .ok cls ∧ ∀ v, Sat v cls ↔ value v a = value v b :=
  ⟨_, by simp [setNumbersEqual]; rfl, fun v => by simpa using Sat_setNumbersEqual_diff v a b⟩

example : ∃ cls, setNumbers 1 2 [⟨1, true⟩, ⟨2, true⟩] [⟨3, true⟩, ⟨4, true⟩] = .ok cls ∧
    Sat (fun x => x ∈ [1, 4]) cls ∧ Sat (fun x => x ∈ [2, 3]) cls ∧ ¬ Sat (fun x => x ∈ [1, 3]) cls := by
  obtain ⟨cls, h, hs⟩ := c07_set_numbers 1 2 [⟨1, true⟩, ⟨2, true⟩] [⟨3, true⟩, ⟨4, true⟩] rfl (by decide) (by decide)
  exact ⟨cls, h, (hs _).2 (by decide), (hs _).2 (by decide), fun hh => absurd ((hs _).1 hh) (by decide)⟩

/-! ## C08 -/

/-- C08. -/
theorem c08_invert_number (a b : List Lit) (s : Nat) (hab : a.length = b.length) (hne : a ≠ [])
    (ha : LBound s a) (hb : LBound s b) :
    ∃ cls s', invertNumber poolAlloc a b s = .ok (cls, s') ∧ ∀ v, SatUpTo s v cls ↔ svalue v b = - svalue v a := by
  obtain ⟨cls, s', he, hen⟩ := invertNumber_pool a b s hab hne ha hb
  refine ⟨cls, s', he, fun v => ?_⟩
  rw [hen.iff (fun v w hw => by simp only [InvRel, value_agree hw ha, value_agree hw hb]), InvRel_iff a b hab hne]

/-- C08, any allocator. -/
theorem c08_invert_number_any_allocator {σ : Type} (al : Alloc σ) (a b : List Lit) (s : σ) (cls : Cnf) (s' : σ)
    (h : invertNumber al a b s = .ok (cls, s')) (v : Asg) (hs : Sat v cls) : svalue v b = - svalue v a :=
  invertNumber_sound al a b s h v hs

/-- C08: the most negative input has no negation, so it is excluded. -/
theorem c08_excludes_minimum (a b : List Lit) (v : Asg) (hab : a.length = b.length) (hne : a ≠ [])
    (h : svalue v b = - svalue v a) : svalue v a ≠ - 2 ^ (a.length - 1) := by
  obtain ⟨n, hn⟩ : ∃ n, a.length = n + 1 := ⟨a.length - 1, by
    cases a with
    | nil => exact absurd rfl hne
    | cons => simp⟩
  intro hc
  rw [hc] at h
  simp only [svalue, signedVal_eq (b.map (ev v)) n (by simp; omega)] at h
  have hlt := binVal_lt (b.map (ev v))
  rw [List.length_map, ← hab, hn, Nat.pow_succ] at hlt
  rw [hn, Nat.add_sub_cancel] at h
  have hcast : ((2 : Int) ^ n) = ((2 ^ n : Nat) : Int) := by push_cast; rfl
  rw [hcast] at h
  have hp : 0 < 2 ^ n := Nat.two_pow_pos _
  split at h <;> omega

example : ∃ cls s', invertNumber poolAlloc [⟨1, true⟩, ⟨2, true⟩, ⟨3, true⟩] [⟨4, true⟩, ⟨5, true⟩, ⟨6, true⟩] 6
      = .ok (cls, s') ∧ SatUpTo 6 (fun x => x ∈ [1, 2, 4, 6]) cls := by
  obtain ⟨cls, s', h, hs⟩ := c08_invert_number [⟨1, true⟩, ⟨2, true⟩, ⟨3, true⟩] [⟨4, true⟩, ⟨5, true⟩, ⟨6, true⟩] 6
    rfl (by simp) (by simp [LBound]) (by simp [LBound])
  exact ⟨cls, s', h, (hs _).2 (by decide)⟩

/-! ## C09 -/

/-- C09. `quadratic_amo`: at most one true position. -/
theorem c09_quadratic_amo (ls : List Lit) (v : Asg) :
    Sat v (quadraticAmo ls) ↔ (ls.map (ev v)).count true ≤ 1 := quadraticAmo_iff v ls

/-- C09. `quadratic_one`: exactly one true position. -/
theorem c09_quadratic_one (ls : List Lit) (v : Asg) :
    Sat v (quadraticOne ls) ↔ (ls.map (ev v)).count true = 1 := by
  simp only [quadraticOne, Sat_append, Sat_cons, Sat_nil, and_true, quadraticAmo_iff, SatC_iff_countTrue]
  simp only [countTrue, trues]; omega

/-- C09. `heule_amo` with any cutoff `≥ 3` (termination included): at most one true position. -/
theorem c09_heule_amo (ls : List Lit) (cutoff : Nat) (hc : 3 ≤ cutoff) (s : Nat) (hb : LBound s ls) :
    ∃ cls s', heuleAmo poolAlloc ls cutoff s = .ok (cls, s') ∧
      ∀ v, SatUpTo s v cls ↔ (ls.map (ev v)).count true ≤ 1 := by
  obtain ⟨cls, s', he, hen⟩ := heuleAmo_pool_aux cutoff hc ls.length ls rfl s hb
  exact ⟨cls, s', he, fun v => hen.iff (fun v w hw => by rw [countTrue_agree hw hb]) v⟩

/-- C09. `heule_one`: exactly one true position. -/
theorem c09_heule_one (ls : List Lit) (cutoff : Nat) (hc : 3 ≤ cutoff) (s : Nat) (hb : LBound s ls) :
    ∃ cls s', heuleOne poolAlloc ls cutoff s = .ok (cls, s') ∧
      ∀ v, SatUpTo s v cls ↔ (ls.map (ev v)).count true = 1 := by
  obtain ⟨cls, s', he, hen⟩ := heuleAmo_pool_aux cutoff hc ls.length ls rfl s hb
  refine ⟨cls ++ [ls], s', by simp [heuleOne, he], fun v => ?_⟩
  exact (Encodes_one hb hen).iff (fun v w hw => by rw [countTrue_agree hw hb]) v

/-- C09, any allocator: satisfying assignments have at most one true position. -/
theorem c09_heule_amo_any_allocator {σ : Type} (al : Alloc σ) (ls : List Lit) (cutoff : Nat) (s : σ) (cls : Cnf)
    (s' : σ) (h : heuleAmo al ls cutoff s = .ok (cls, s')) (v : Asg) (hs : Sat v cls) :
    (ls.map (ev v)).count true ≤ 1 :=
  heuleAmo_sound_aux al cutoff ls.length ls rfl s cls s' h v hs

example : ∃ cls s', heuleAmo poolAlloc [⟨1, true⟩, ⟨2, true⟩, ⟨3, true⟩, ⟨4, true⟩, ⟨5, true⟩] 3 5 = .ok (cls, s') ∧
    SatUpTo 5 (fun x => x ∈ [4]) cls ∧ SatUpTo 5 (fun _ => false) cls ∧ ¬ SatUpTo 5 (fun x => x ∈ [1, 5]) cls := by
  obtain ⟨cls, s', h, hs⟩ := c09_heule_amo [⟨1, true⟩, ⟨2, true⟩, ⟨3, true⟩, ⟨4, true⟩, ⟨5, true⟩] 3 (by simp) 5
    (by simp [LBound])
  exact ⟨cls, s', h, (hs _).2 (by decide), (hs _).2 (by decide), fun hh => absurd ((hs _).1 hh) (by decide)⟩

/-! ## C10 -/

/-- C10 is false: `logarithmic_amo` rejects the all-false assignment for every non-empty list of positive literals. -/
theorem c10_logarithmic_amo_refuted (ls : List Lit) (s : Nat) (hne : ls ≠ []) (hb : LBound s ls) :
    ∃ cls s', logarithmicAmo poolAlloc ls s = .ok (cls, s') ∧
      ∀ v, (ls.map (ev v)).count true = 0 → ¬ SatUpTo s v cls := by
  obtain ⟨cls, s', he, hen⟩ := logarithmicAmo_pool ls s hne hb
  refine ⟨cls, s', he, fun v hv h => ?_⟩
  have := (hen.iff (fun v w hw => by rw [countTrue_agree hw hb]) v).1 h
  simp only [countTrue, trues] at this; omega

/-- C10, what does hold: the clauses mean *exactly* one.  Missing for the full property: accepting the all-false case. -/
theorem c10_logarithmic_amo_partial (ls : List Lit) (s : Nat) (hne : ls ≠ []) (hb : LBound s ls) :
    ∃ cls s', logarithmicAmo poolAlloc ls s = .ok (cls, s') ∧
      ∀ v, SatUpTo s v cls ↔ (ls.map (ev v)).count true = 1 := by
  obtain ⟨cls, s', he, hen⟩ := logarithmicAmo_pool ls s hne hb
  exact ⟨cls, s', he, fun v => hen.iff (fun v w hw => by rw [countTrue_agree hw hb]) v⟩

/-- C10. `logarithmic_one` is therefore correct (its extra clause is redundant). -/
theorem c10_logarithmic_one (ls : List Lit) (s : Nat) (hne : ls ≠ []) (hb : LBound s ls) :
    ∃ cls s', logarithmicOne poolAlloc ls s = .ok (cls, s') ∧
      ∀ v, SatUpTo s v cls ↔ (ls.map (ev v)).count true = 1 := by
  obtain ⟨cls, s', he, hen⟩ := logarithmicAmo_pool ls s hne hb
  refine ⟨cls ++ [ls], s', by simp [logarithmicOne, he], fun v => ?_⟩
  have hen1 : Encodes s s' (cls ++ [ls]) (fun v => countTrue v ls = 1) := by
    refine ⟨hen.le, ?_, ?_, ?_⟩
    · simp only [CBound_append, CBound_cons, CBound_nil, and_true]; exact ⟨hen.bound, hb.mono hen.le⟩
    · intro v hs; simp only [Sat_append] at hs; exact hen.sound v hs.1
    · intro v hv
      obtain ⟨w, hw, hsw⟩ := hen.complete v hv
      refine ⟨w, hw, ?_⟩
      simp only [Sat_append, Sat_cons, Sat_nil, and_true, SatC_iff_countTrue, countTrue_agree hw hb]
      exact ⟨hsw, by omega⟩
  exact hen1.iff (fun v w hw => by rw [countTrue_agree hw hb]) v

example : ([⟨1, true⟩, ⟨2, true⟩, ⟨3, true⟩] : List Lit) ≠ [] ∧
    LBound 3 [⟨1, true⟩, ⟨2, true⟩, ⟨3, true⟩] ∧
    (([⟨1, true⟩, ⟨2, true⟩, ⟨3, true⟩] : List Lit).map (ev fun _ => false)).count true = 0 := by
  simp [LBound, ev]

/-! ## C12 -/

/-- C12. `implies`: under the condition the consequences hold, otherwise nothing is required. -/
theorem c12_implies (cond : List Lit) (cons : Cnf) (v : Asg) :
    Sat v (implies cond cons) ↔ ((∃ l ∈ cond, ev v l = false) ∨ Sat v cons) := by
  rw [Sat_implies]
  by_cases h : ∀ l ∈ cond, ev v l = true
  · constructor
    · intro hh; exact Or.inr (hh h)
    · rintro (⟨l, hl, hf⟩ | hh) _
      · simp [h l hl] at hf
      · exact hh
  · constructor
    · intro _; left; push Not at h; obtain ⟨l, hl, hf⟩ := h; exact ⟨l, hl, by simpa using hf⟩
    · intro _ hh; exact absurd hh h

/-- C12. The small connectives. -/
theorem c12_connectives (a b : Lit) (ls : List Lit) (v : Asg) :
    (Sat v (literalsSame a b) ↔ ev v a = ev v b) ∧
    (Sat v (literalsDifferent a b) ↔ ev v a ≠ ev v b) ∧
    (Sat v (setAllTrue ls) ↔ ∀ l ∈ ls, ev v l = true) ∧
    (Sat v (setAllFalse ls) ↔ ∀ l ∈ ls, ev v l = false) ∧
    (SatC v (invertComponents ls) ↔ ¬ ∀ l ∈ ls, ev v l = true) := by
  refine ⟨Sat_literalsSame v a b, ?_, Sat_setAllTrue v ls, Sat_setAllFalse v ls, SatC_invertComponents v ls⟩
  rw [Sat_literalsDifferent]; cases ev v a <;> cases ev v b <;> simp

example : Sat (fun x => x = 2) (implies [⟨1, true⟩] [[⟨2, false⟩]]) ∧
    ¬ Sat (fun x => x = 2 ∨ x = 1) (implies [⟨1, true⟩] [[⟨2, false⟩]]) := by
  refine ⟨(c12_implies _ _ _).2 (Or.inl ⟨⟨1, true⟩, by simp, by decide⟩), fun h => ?_⟩
  rcases (c12_implies _ _ _).1 h with ⟨l, hl, hf⟩ | h
  · simp at hl; subst hl; exact absurd hf (by decide)
  · simp [ev] at h

/-! ## C11 (first half) -/

/-- C11. `break_symmetry`: the left list is lexicographically at most the right one. -/
theorem c11_break_symmetry (left right : List Lit) (s : Nat) (h : left.length = right.length)
    (hl : LBound s left) (hr : LBound s right) :
    ∃ cls s', breakSymmetry poolAlloc left right s = .ok (cls, s') ∧
      ∀ v, SatUpTo s v cls ↔ LexLe (left.map (ev v)) (right.map (ev v)) := by
  obtain ⟨cls, he, hen⟩ := breakSymmetry_pool left right s h hl hr
  exact ⟨cls, _, he, fun v => hen.iff (fun v w hw => by rw [map_ev_agree hw hl, map_ev_agree hw hr]) v⟩

/-- C11. Lists of different length are rejected. -/
theorem c11_lengths (left right : List Lit) (s : Nat) (h : left.length ≠ right.length) :
    breakSymmetry poolAlloc left right s = .error .assertion := by
  unfold breakSymmetry
  rw [if_pos h]

/-- C11. Of an assignment and one that exchanges the two sides at least one is accepted. -/
theorem c11_one_side_survives (left right : List Lit) (s : Nat) (h : left.length = right.length)
    (hl : LBound s left) (hr : LBound s right) :
    ∃ cls s', breakSymmetry poolAlloc left right s = .ok (cls, s') ∧
      ∀ v v', left.map (ev v') = right.map (ev v) → right.map (ev v') = left.map (ev v) →
        SatUpTo s v cls ∨ SatUpTo s v' cls := by
  obtain ⟨cls, s', he, hs⟩ := c11_break_symmetry left right s h hl hr
  refine ⟨cls, s', he, fun v v' h1 h2 => ?_⟩
  rw [hs, hs, h1, h2]
  exact LexLe_total _ _

example : ∃ cls s', breakSymmetry poolAlloc [⟨1, true⟩, ⟨2, true⟩] [⟨3, true⟩, ⟨4, true⟩] 4 = .ok (cls, s') ∧
    SatUpTo 4 (fun x => x ∈ [2, 3]) cls ∧ ¬ SatUpTo 4 (fun x => x ∈ [1, 4]) cls := by
  obtain ⟨cls, s', h, hs⟩ := c11_break_symmetry [⟨1, true⟩, ⟨2, true⟩] [⟨3, true⟩, ⟨4, true⟩] 4 rfl
    (by simp [LBound]) (by simp [LBound])
  refine ⟨cls, s', h, (hs _).2 ?_, fun hh => absurd ((hs _).1 hh) ?_⟩ <;> simp [LexLe, ev]

end FSat
