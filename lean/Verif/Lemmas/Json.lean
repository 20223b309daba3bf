import Verif.Spec.Json
import Verif.Lemmas.Dict
import Verif.Lemmas.Search
/-!
# Reading back JSON texts
-/

namespace FSat.Json

/-! ### Strings -/

theorem hexVal_hexDigit (n : Nat) (h : n < 16) : hexVal (hexDigit n) = some n := by
  interval_cases n <;> decide

theorem readHex4_hex (n : Nat) (h : n < 65536) (rest : List Char) :
    readHex4 ([n / 4096 % 16, n / 256 % 16, n / 16 % 16, n % 16].map hexDigit ++ rest) = some (n, rest) := by
  simp only [List.map_cons, List.map_nil, List.cons_append, List.nil_append, readHex4]
  rw [hexVal_hexDigit _ (by omega), hexVal_hexDigit _ (by omega), hexVal_hexDigit _ (by omega), hexVal_hexDigit _ (by omega)]
  simp only [Option.some.injEq, Prod.mk.injEq, and_true]
  omega

theorem escape_spec (c : Char) : (escape c = [c] ∧ c ≠ '"' ∧ c ≠ '\\' ∧ 32 ≤ c.toNat) ∨
    ∃ e, escape c = '\\' :: e ∧ ∀ rest, readEscape (e ++ rest) = some (c, rest) := by
  unfold escape
  split
  · rename_i h; subst h; exact Or.inr ⟨_, rfl, fun _ => rfl⟩
  split
  · rename_i h; subst h; exact Or.inr ⟨_, rfl, fun _ => rfl⟩
  split
  · rename_i h; subst h; exact Or.inr ⟨_, rfl, fun _ => rfl⟩
  split
  · rename_i h; subst h; exact Or.inr ⟨_, rfl, fun _ => rfl⟩
  split
  · rename_i h; subst h; exact Or.inr ⟨_, rfl, fun _ => rfl⟩
  split
  · rename_i h; subst h; exact Or.inr ⟨_, rfl, fun _ => rfl⟩
  split
  · rename_i h; subst h; exact Or.inr ⟨_, rfl, fun _ => rfl⟩
  split
  · rename_i h1 h2 _ _ _ _ _ h; exact Or.inl ⟨rfl, h1, h2, h.1⟩
  have hv : c.toNat.isValidChar := c.valid
  have hc : Char.ofNat c.toNat = c := Char.ofNat_toNat c
  unfold Nat.isValidChar at hv
  split
  · rename_i h
    refine Or.inr ⟨_, rfl, fun rest => ?_⟩
    rw [List.cons_append]
    simp only [readEscape]
    rw [readHex4_hex _ h]
    simp only
    rw [if_neg (by omega), if_neg (by omega), hc]
  · rename_i h
    obtain ⟨k, hk⟩ : ∃ k, k = c.toNat - 65536 := ⟨_, rfl⟩
    rw [← hk]
    have e1 : 65536 + 1024 * (55296 + k / 1024 - 55296) + (56320 + k % 1024 - 56320) = c.toNat := by omega
    refine Or.inr ⟨'u' :: ([(55296 + k / 1024) / 4096 % 16, (55296 + k / 1024) / 256 % 16, (55296 + k / 1024) / 16 % 16,
      (55296 + k / 1024) % 16].map hexDigit ++ hex4 (56320 + k % 1024)), by simp only [hex4, List.cons_append], fun rest => ?_⟩
    rw [List.cons_append, List.append_assoc]
    simp only [readEscape]
    rw [readHex4_hex (55296 + k / 1024) (by omega)]
    simp only [readLow, hex4, List.cons_append]
    rw [if_pos (by omega), readHex4_hex (56320 + k % 1024) (by omega)]
    simp only
    rw [if_pos (by omega), e1, hc]

theorem readStr_quote (s rest : List Char) : ∀ fuel, s.length < fuel → readStr fuel (s.flatMap escape ++ '"' :: rest) = some (s, rest) := by
  induction s with
  | nil =>
    intro fuel h
    obtain ⟨f, rfl⟩ : ∃ f, fuel = f + 1 := ⟨fuel - 1, by simp at h; omega⟩
    simp [readStr]
  | cons c s ih =>
    intro fuel h
    obtain ⟨f, rfl⟩ : ∃ f, fuel = f + 1 := ⟨fuel - 1, by simp at h; omega⟩
    simp only [List.length_cons, Nat.add_lt_add_iff_right] at h
    rw [List.flatMap_cons, List.append_assoc]
    rcases escape_spec c with ⟨e, h1, h2, h3⟩ | ⟨e, he, hr⟩
    · rw [e]
      simp only [List.cons_append, List.nil_append, readStr]
      rw [if_neg h1, if_neg h2, if_neg (by omega), ih _ h]
      rfl
    · rw [he]
      simp only [List.cons_append, readStr]
      rw [if_neg (by decide), if_pos trivial, hr]
      simp only
      rw [ih _ h]
      rfl

theorem length_le_flatMap_escape (s : List Char) : s.length ≤ (s.flatMap escape).length := by
  induction s with
  | nil => simp
  | cons c s ih =>
    rw [List.flatMap_cons, List.length_append, List.length_cons]
    rcases escape_spec c with ⟨e, -⟩ | ⟨e, he, -⟩
    · rw [e, List.length_singleton]; omega
    · rw [he, List.length_cons]; omega

/-- Reading a quoted string, after the quote. -/
theorem readStr_quote' (s rest : List Char) :
    readStr ((s.flatMap escape ++ '"' :: rest).length + 1) (s.flatMap escape ++ '"' :: rest) = some (s, rest) := by
  apply readStr_quote
  have := length_le_flatMap_escape s
  rw [List.length_append]
  omega

/-! ### Numbers -/

/-- The text stops here or goes on with a character that can follow a value. -/
def Stop (rest : List Char) : Prop := ∀ c, rest.head? = some c → isWs c = true ∨ c = ',' ∨ c = ']' ∨ c = '}'

theorem Stop.not_dig {rest : List Char} (h : Stop rest) : rest.takeWhile isDig = [] ∧ rest.dropWhile isDig = rest := by
  cases rest with
  | nil => simp
  | cons c t =>
    have hc : isDig c = false := by
      rcases h c rfl with h | rfl | rfl | rfl
      · unfold isWs at h
        simp only [Bool.or_eq_true, decide_eq_true_eq] at h
        rcases h with ((rfl | rfl) | rfl) | rfl <;> decide
      all_goals decide
    simp [hc]

theorem Stop.not_frac {rest : List Char} (h : Stop rest) : rest.head? ≠ some '.' ∧ rest.head? ≠ some 'e' ∧ rest.head? ≠ some 'E' := by
  refine ⟨?_, ?_, ?_⟩ <;>
  · intro e
    have := h _ e
    revert this
    decide

theorem isDig_iff_digitVal (c : Char) : isDig c = true ↔ '0' ≤ c ∧ c ≤ '9' := by
  unfold isDig
  simp only [Bool.and_eq_true, decide_eq_true_eq]
  exact Iff.rfl

theorem digit_char (d : Nat) (h : d < 10) : isDig (Char.ofNat ('0'.toNat + d)) = true := by
  interval_cases d <;> decide

theorem showNat_dig (n : Nat) : ∀ c ∈ showNat n, isDig c = true := by
  unfold showNat
  split
  · simp; decide
  · intro c hc
    simp only [List.mem_map, List.mem_reverse] at hc
    obtain ⟨d, hd, rfl⟩ := hc
    exact digit_char d (Nat.digits_lt_base (by norm_num) hd)

theorem showNat_head (n : Nat) (hn : n ≠ 0) : ∃ c t, showNat n = c :: t ∧ c ≠ '0' := by
  unfold showNat
  rw [if_neg hn]
  have hne : Nat.digits 10 n ≠ [] := Nat.digits_ne_nil_iff_ne_zero.2 hn
  have hlast := Nat.getLast_digit_ne_zero 10 hn
  have hlt : (Nat.digits 10 n).getLast hne < 10 := Nat.digits_lt_base (by norm_num) (List.getLast_mem hne)
  obtain ⟨l, hl⟩ : ∃ l, Nat.digits 10 n = l ++ [(Nat.digits 10 n).getLast hne] := ⟨_, (List.dropLast_append_getLast hne).symm⟩
  rw [hl, List.reverse_append]
  refine ⟨_, _, rfl, ?_⟩
  revert hlast hlt
  generalize (Nat.digits 10 n).getLast hne = d
  intro h1 h2
  interval_cases d <;> first | exact absurd rfl h1 | decide

theorem takeWhile_dig {l rest : List Char} (h : ∀ c ∈ l, isDig c = true) (hr : rest.takeWhile isDig = []) :
    (l ++ rest).takeWhile isDig = l ∧ (l ++ rest).dropWhile isDig = rest.dropWhile isDig := by
  induction l with
  | nil => simp [hr]
  | cons c l ih =>
    have := ih fun x hx => h x (List.mem_cons_of_mem _ hx)
    simp [h c (by simp), this]

theorem readDigits_showNat (n : Nat) (rest : List Char) (hr : rest.takeWhile isDig = []) :
    readDigits (showNat n ++ rest) = some (n, rest) := by
  have hd : rest.dropWhile isDig = rest := by
    cases rest with
    | nil => rfl
    | cons c t =>
      by_cases hc : isDig c = true
      · simp [hc] at hr
      · simp [hc]
  by_cases hn : n = 0
  · subst hn
    simp [showNat, readDigits]
  · obtain ⟨c, t, e, hc⟩ := showNat_head n hn
    have hdig := showNat_dig n
    rw [e] at hdig
    have h1 := takeWhile_dig (fun x hx => hdig x (List.mem_cons_of_mem c hx)) hr
    have h2 : natOf 0 (c :: t) = some n := by rw [← e]; exact natOf_showNat n
    rw [e]
    simp only [List.cons_append, readDigits]
    rw [if_neg hc, if_pos (hdig c (by simp)), h1.1, h1.2, h2, hd]
    rfl

theorem readFraction_stop (neg : Bool) (n : Nat) (rest : List Char) (h : Stop rest) :
    readFraction neg n rest = some (.int (if neg then -(n : Int) else n), rest) := by
  obtain ⟨h1, h2, h3⟩ := h.not_frac
  unfold readFraction
  split
  · simp at h1
  · rw [if_neg (by tauto)]

theorem dash_not_dig (c : Char) (h : isDig c = true) : c ≠ '-' := by rintro rfl; exact absurd h (by decide)

theorem readNumber_pos (n : Nat) (rest : List Char) (hr : rest.takeWhile isDig = []) :
    readNumber (showNat n ++ rest) = readFraction false n rest := by
  obtain ⟨c, t, e, hc, -⟩ := showNat_spec n
  unfold readNumber
  split
  · rename_i heq
    rw [e] at heq
    simp only [List.cons_append, List.cons.injEq] at heq
    exact absurd heq.1 hc
  · rw [readDigits_showNat n rest hr]

theorem readNumber_neg (n : Nat) (rest : List Char) (hr : rest.takeWhile isDig = []) :
    readNumber ('-' :: (showNat n ++ rest)) = readFraction true n rest := by
  unfold readNumber
  simp only
  rw [readDigits_showNat n rest hr]

theorem readNumber_showInt (n : Int) (rest : List Char) (h : Stop rest) : readNumber (showInt n ++ rest) = some (.int n, rest) := by
  unfold showInt
  split
  · rw [List.cons_append, readNumber_neg _ _ h.not_dig.1, readFraction_stop _ _ _ h]
    simp only [if_true, Option.some.injEq, Prod.mk.injEq, Json.int.injEq, and_true]
    omega
  · rw [readNumber_pos _ _ h.not_dig.1, readFraction_stop _ _ _ h]
    simp only [Bool.false_eq_true, if_false, Option.some.injEq, Prod.mk.injEq, Json.int.injEq, and_true]
    omega

theorem readNumber_showHalf (t : Int) (rest : List Char) (h : Stop rest) : readNumber (showHalf t ++ rest) = some (.half t, rest) := by
  obtain ⟨-, h2, h3⟩ := h.not_frac
  have key : ∀ neg n, (if t.natAbs % 2 = 0 then '0' else '5' : Char) = '0' ∧ t.natAbs % 2 = 0 ∨
      (if t.natAbs % 2 = 0 then '0' else '5' : Char) = '5' ∧ t.natAbs % 2 = 1 →
      readFraction neg n ('.' :: (if t.natAbs % 2 = 0 then '0' else '5') :: rest) =
        some (.half (if neg then -(2 * n + (t.natAbs % 2 : Nat) : Int) else 2 * n + (t.natAbs % 2 : Nat)), rest) := by
    rintro neg n (⟨e, e2⟩ | ⟨e, e2⟩)
    · rw [e, e2]
      unfold readFraction
      simp only [h.not_dig]
      rw [if_pos (by decide), if_neg (by tauto)]
      simp
    · rw [e, e2]
      unfold readFraction
      simp only [h.not_dig]
      rw [if_pos (by decide), if_neg (by tauto)]
      simp
  have hd : (if t.natAbs % 2 = 0 then '0' else '5' : Char) = '0' ∧ t.natAbs % 2 = 0 ∨
      (if t.natAbs % 2 = 0 then '0' else '5' : Char) = '5' ∧ t.natAbs % 2 = 1 := by
    by_cases h : t.natAbs % 2 = 0
    · simp [h]
    · right
      simp [h]
      omega
  unfold showHalf
  split
  · rw [List.append_assoc, List.append_assoc, List.singleton_append, readNumber_neg _ _ (by rw [List.cons_append, List.takeWhile_cons_of_neg (by decide)])]
    rw [show ['.', if t.natAbs % 2 = 0 then '0' else '5'] ++ rest = '.' :: (if t.natAbs % 2 = 0 then '0' else '5') :: rest from rfl,
      key _ _ hd]
    simp only [if_true, Option.some.injEq, Prod.mk.injEq, Json.half.injEq, and_true]
    omega
  · rw [List.append_assoc, List.append_assoc, List.nil_append, readNumber_pos _ _ (by rw [List.cons_append, List.takeWhile_cons_of_neg (by decide)])]
    rw [show ['.', if t.natAbs % 2 = 0 then '0' else '5'] ++ rest = '.' :: (if t.natAbs % 2 = 0 then '0' else '5') :: rest from rfl,
      key _ _ hd]
    simp only [Bool.false_eq_true, if_false, Option.some.injEq, Prod.mk.injEq, Json.half.injEq, and_true]
    omega

/-! ### Values -/

theorem dumps_head (v : Json) : ∃ c t, dumps v = c :: t ∧ isWs c = false ∧ c ≠ ']' ∧ c ≠ '}' := by
  have hnat : ∀ n : Nat, ∃ c t, showNat n = c :: t ∧ isWs c = false ∧ c ≠ ']' ∧ c ≠ '}' := by
    intro n
    obtain ⟨c, t, e, -⟩ := showNat_spec n
    have hd := showNat_dig n c (by rw [e]; simp)
    refine ⟨c, t, e, ?_, ?_, ?_⟩
    · unfold isWs
      by_contra h
      simp only [Bool.not_eq_false, Bool.or_eq_true, decide_eq_true_eq] at h
      rcases h with ((rfl | rfl) | rfl) | rfl <;> exact absurd hd (by decide)
    · rintro rfl; exact absurd hd (by decide)
    · rintro rfl; exact absurd hd (by decide)
  match v with
  | .null => exact ⟨_, _, by rw [dumps], by decide, by decide, by decide⟩
  | .bool true => exact ⟨_, _, by rw [dumps], by decide, by decide, by decide⟩
  | .bool false => exact ⟨_, _, by rw [dumps], by decide, by decide, by decide⟩
  | .int n =>
    rw [dumps, showInt]
    split
    · exact ⟨_, _, rfl, by decide, by decide, by decide⟩
    · exact hnat _
  | .half t =>
    rw [dumps, showHalf]
    split
    · exact ⟨_, _, rfl, by decide, by decide, by decide⟩
    · obtain ⟨c, t, e, h⟩ := hnat (t.natAbs / 2)
      rw [e]
      exact ⟨_, _, rfl, h⟩
  | .str s => exact ⟨_, _, by rw [dumps]; rfl, by decide, by decide, by decide⟩
  | .arr [] => exact ⟨_, _, by rw [dumps], by decide, by decide, by decide⟩
  | .arr (x :: xs) => exact ⟨_, _, by rw [dumps], by decide, by decide, by decide⟩
  | .obj [] => exact ⟨_, _, by rw [dumps], by decide, by decide, by decide⟩
  | .obj (x :: xs) => exact ⟨_, _, by rw [dumps], by decide, by decide, by decide⟩

theorem skipWs_cons {c : Char} (t : List Char) (h : isWs c = false) : skipWs (c :: t) = c :: t := by
  simp [skipWs, h]

theorem skipWs_dumps (v : Json) (rest : List Char) : skipWs (dumps v ++ rest) = dumps v ++ rest := by
  obtain ⟨c, t, e, h, -⟩ := dumps_head v
  rw [e, List.cons_append, skipWs_cons _ h]

theorem skipWs_quote (k rest : List Char) : skipWs (quote k ++ rest) = quote k ++ rest := by
  rw [quote, List.cons_append, List.cons_append, skipWs_cons _ (by decide)]

theorem readValue_number (f : Nat) (c : Char) (t : List Char) (h : isDig c = true ∨ c = '-') :
    readValue (f + 1) (c :: t) = Json.readNumber (c :: t) := by
  have hne : ∀ d : Char, isDig d = false → d ≠ '-' → c ≠ d := by
    rintro d hd hd' rfl
    rcases h with h | h
    · rw [hd] at h; cases h
    · exact hd' h
  rw [readValue.eq_def]
  simp only
  split
  all_goals first
    | rfl
    | (rename_i heq; simp only [List.cons.injEq] at heq; exact absurd heq.1 (hne _ (by decide) (by decide)))

theorem Stop.comma (t : List Char) : Stop (',' :: t) := by intro c h; simp at h; subst h; simp
theorem Stop.bracket (t : List Char) : Stop (']' :: t) := by intro c h; simp at h; subst h; simp
theorem Stop.brace (t : List Char) : Stop ('}' :: t) := by intro c h; simp at h; subst h; simp
theorem Stop.nil : Stop [] := by intro c h; simp at h

theorem stop_elems (xs : List Json) (rest : List Char) : Stop (dumpsElems xs ++ rest) := by
  cases xs with
  | nil => rw [dumpsElems]; exact Stop.bracket _
  | cons x xs => rw [dumpsElems]; exact Stop.comma _

theorem stop_pairs (xs : List (List Char × Json)) (rest : List Char) : Stop (dumpsPairs xs ++ rest) := by
  cases xs with
  | nil => rw [dumpsPairs]; exact Stop.brace _
  | cons x xs => rw [dumpsPairs]; exact Stop.comma _

theorem num_head_int (n : Int) : ∃ c t, showInt n = c :: t ∧ (isDig c = true ∨ c = '-') := by
  unfold showInt
  split
  · exact ⟨_, _, rfl, Or.inr rfl⟩
  · obtain ⟨c, t, e, -⟩ := showNat_spec n.natAbs
    exact ⟨c, t, e, Or.inl (showNat_dig _ c (by rw [e]; simp))⟩

theorem num_head_half (n : Int) : ∃ c t, showHalf n = c :: t ∧ (isDig c = true ∨ c = '-') := by
  unfold showHalf
  split
  · exact ⟨_, _, rfl, Or.inr rfl⟩
  · obtain ⟨c, t, e, -⟩ := showNat_spec (n.natAbs / 2)
    rw [e]
    exact ⟨c, _, rfl, Or.inl (showNat_dig _ c (by rw [e]; simp))⟩

mutual
theorem readValue_dumps : ∀ (v : Json), Ok v → ∀ (fuel : Nat) (rest : List Char), (dumps v).length ≤ fuel → Stop rest →
    readValue fuel (dumps v ++ rest) = some (v, rest)
  | .null, _, fuel, rest, hf, hr => by
    obtain ⟨f, rfl⟩ : ∃ f, fuel = f + 1 := ⟨fuel - 1, by simp [dumps] at hf; omega⟩
    simp [dumps, readValue]
  | .bool true, _, fuel, rest, hf, hr => by
    obtain ⟨f, rfl⟩ : ∃ f, fuel = f + 1 := ⟨fuel - 1, by simp [dumps] at hf; omega⟩
    simp [dumps, readValue]
  | .bool false, _, fuel, rest, hf, hr => by
    obtain ⟨f, rfl⟩ : ∃ f, fuel = f + 1 := ⟨fuel - 1, by simp [dumps] at hf; omega⟩
    simp [dumps, readValue]
  | .int n, _, fuel, rest, hf, hr => by
    obtain ⟨c, t, e, h⟩ := num_head_int n
    rw [dumps] at hf ⊢
    obtain ⟨f, rfl⟩ : ∃ f, fuel = f + 1 := ⟨fuel - 1, by rw [e] at hf; simp at hf; omega⟩
    have := readNumber_showInt n rest hr
    rw [e, List.cons_append] at this ⊢
    rw [readValue_number _ _ _ h, this]
  | .half n, _, fuel, rest, hf, hr => by
    obtain ⟨c, t, e, h⟩ := num_head_half n
    rw [dumps] at hf ⊢
    obtain ⟨f, rfl⟩ : ∃ f, fuel = f + 1 := ⟨fuel - 1, by rw [e] at hf; simp at hf; omega⟩
    have := readNumber_showHalf n rest hr
    rw [e, List.cons_append] at this ⊢
    rw [readValue_number _ _ _ h, this]
  | .str s, _, fuel, rest, hf, hr => by
    rw [dumps] at hf ⊢
    obtain ⟨f, rfl⟩ : ∃ f, fuel = f + 1 := ⟨fuel - 1, by simp [quote] at hf; omega⟩
    rw [quote, List.cons_append, List.cons_append, List.append_assoc]
    simp only [readValue]
    rw [List.singleton_append, readStr_quote']
    rfl
  | .arr [], _, fuel, rest, hf, hr => by
    obtain ⟨f, rfl⟩ : ∃ f, fuel = f + 1 := ⟨fuel - 1, by simp [dumps] at hf; omega⟩
    simp [dumps, readValue, skipWs, isWs]
  | .arr (x :: xs), hok, fuel, rest, hf, hr => by
    rw [dumps] at hf ⊢
    simp only [List.length_cons, List.length_append] at hf
    obtain ⟨f, rfl⟩ : ∃ f, fuel = f + 1 := ⟨fuel - 1, by omega⟩
    rw [Ok, OkElems] at hok
    obtain ⟨c, t, e, -, h1, -⟩ := dumps_head x
    have h2 := readValue_dumps x hok.1 f (dumpsElems xs ++ rest) (by omega) (stop_elems _ _)
    have h3 := readElems_dumps xs hok.2 f rest (by omega)
    rw [List.cons_append, List.append_assoc]
    simp only [readValue]
    rw [skipWs_dumps]
    split
    · rename_i heq
      rw [e] at heq
      simp only [List.cons_append, List.cons.injEq] at heq
      exact absurd heq.1 h1
    · rw [h2]
      simp only
      rw [h3]
      rfl
  | .obj [], _, fuel, rest, hf, hr => by
    obtain ⟨f, rfl⟩ : ∃ f, fuel = f + 1 := ⟨fuel - 1, by simp [dumps] at hf; omega⟩
    simp [dumps, readValue, skipWs, isWs]
  | .obj (x :: xs), hok, fuel, rest, hf, hr => by
    rw [dumps] at hf ⊢
    simp only [List.length_cons, List.length_append] at hf
    obtain ⟨f, rfl⟩ : ∃ f, fuel = f + 1 := ⟨fuel - 1, by omega⟩
    rw [Ok, OkPairs] at hok
    have h2 := readPair_dumps x hok.2.1 f (dumpsPairs xs ++ rest) (by omega) (stop_pairs _ _)
    have h3 := readPairs_dumps xs hok.2.2 f rest (by omega)
    have h4 : skipWs (dumpsPair x ++ (dumpsPairs xs ++ rest)) = dumpsPair x ++ (dumpsPairs xs ++ rest) := by
      obtain ⟨k, v⟩ := x
      rw [dumpsPair, List.append_assoc, skipWs_quote]
    rw [List.cons_append, List.append_assoc]
    simp only [readValue]
    rw [h4]
    split
    · rename_i heq
      obtain ⟨k, v⟩ := x
      rw [dumpsPair, quote] at heq
      simp only [List.cons_append, List.cons.injEq] at heq
      exact absurd heq.1 (by decide)
    · rw [h2]
      simp only
      rw [h3]
      simp only [Option.map_some]
      rw [PyDict.ofPairs_valid _ hok.1]
theorem readElems_dumps : ∀ (l : List Json), OkElems l → ∀ (fuel : Nat) (rest : List Char), (dumpsElems l).length ≤ fuel →
    readElems fuel (dumpsElems l ++ rest) = some (l, rest)
  | [], _, fuel, rest, hf => by
    obtain ⟨f, rfl⟩ : ∃ f, fuel = f + 1 := ⟨fuel - 1, by simp [dumpsElems] at hf; omega⟩
    simp [dumpsElems, readElems, skipWs, isWs]
  | x :: xs, hok, fuel, rest, hf => by
    rw [dumpsElems] at hf ⊢
    simp only [List.length_cons, List.length_append] at hf
    obtain ⟨f, rfl⟩ : ∃ f, fuel = f + 1 := ⟨fuel - 1, by omega⟩
    rw [OkElems] at hok
    have h2 := readValue_dumps x hok.1 f (dumpsElems xs ++ rest) (by omega) (stop_elems _ _)
    have h3 := readElems_dumps xs hok.2 f rest (by omega)
    rw [List.cons_append, List.cons_append, List.append_assoc]
    simp only [readElems]
    rw [skipWs_cons _ (by decide)]
    simp only
    rw [show skipWs (' ' :: (dumps x ++ (dumpsElems xs ++ rest))) = skipWs (dumps x ++ (dumpsElems xs ++ rest)) from rfl,
      skipWs_dumps, h2]
    simp only
    rw [h3]
    rfl
theorem readPairs_dumps : ∀ (l : List (List Char × Json)), OkPairs l → ∀ (fuel : Nat) (rest : List Char),
    (dumpsPairs l).length ≤ fuel → readPairs fuel (dumpsPairs l ++ rest) = some (l, rest)
  | [], _, fuel, rest, hf => by
    obtain ⟨f, rfl⟩ : ∃ f, fuel = f + 1 := ⟨fuel - 1, by simp [dumpsPairs] at hf; omega⟩
    simp [dumpsPairs, readPairs, skipWs, isWs]
  | x :: xs, hok, fuel, rest, hf => by
    rw [dumpsPairs] at hf ⊢
    simp only [List.length_cons, List.length_append] at hf
    obtain ⟨f, rfl⟩ : ∃ f, fuel = f + 1 := ⟨fuel - 1, by omega⟩
    rw [OkPairs] at hok
    have h2 := readPair_dumps x hok.1 f (dumpsPairs xs ++ rest) (by omega) (stop_pairs _ _)
    have h3 := readPairs_dumps xs hok.2 f rest (by omega)
    have h4 : skipWs (dumpsPair x ++ (dumpsPairs xs ++ rest)) = dumpsPair x ++ (dumpsPairs xs ++ rest) := by
      obtain ⟨k, v⟩ := x
      rw [dumpsPair, List.append_assoc, skipWs_quote]
    rw [List.cons_append, List.cons_append, List.append_assoc]
    simp only [readPairs]
    rw [skipWs_cons _ (by decide)]
    simp only
    rw [show skipWs (' ' :: (dumpsPair x ++ (dumpsPairs xs ++ rest))) = skipWs (dumpsPair x ++ (dumpsPairs xs ++ rest)) from rfl,
      h4, h2]
    simp only
    rw [h3]
    rfl
theorem readPair_dumps : ∀ (x : List Char × Json), OkPair x → ∀ (fuel : Nat) (rest : List Char), (dumpsPair x).length ≤ fuel →
    Stop rest → readPair fuel (dumpsPair x ++ rest) = some (x, rest)
  | (k, v), hok, fuel, rest, hf, hr => by
    rw [dumpsPair] at hf ⊢
    simp only [List.length_cons, List.length_append] at hf
    obtain ⟨f, rfl⟩ : ∃ f, fuel = f + 1 := ⟨fuel - 1, by omega⟩
    rw [OkPair] at hok
    have h2 := readValue_dumps v hok f rest (by omega) hr
    rw [quote]
    simp only [List.cons_append, List.append_assoc, List.nil_append, readPair]
    rw [readStr_quote']
    simp only
    rw [skipWs_cons _ (by decide)]
    simp only
    rw [show skipWs (' ' :: (dumps v ++ rest)) = skipWs (dumps v ++ rest) from rfl, skipWs_dumps, h2]
    rfl
end

/-- What was written is read back. -/
theorem loads_dumps (v : Json) (h : Ok v) : loads (dumps v) = .ok v := by
  unfold loads
  have h1 := readValue_dumps v h ((dumps v).length + 1) [] (by omega) Stop.nil
  have h2 := skipWs_dumps v []
  rw [List.append_nil] at h1 h2
  rw [h2, h1]
  rfl

end FSat.Json
