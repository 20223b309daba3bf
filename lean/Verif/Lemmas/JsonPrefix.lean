import Verif.Lemmas.Json
/-!
# A cut JSON text is not accepted
-/

namespace FSat.Json

theorem readHex4_ext {cs rest : List Char} {n : Nat} (h : readHex4 cs = some (n, rest)) (r : List Char) :
    readHex4 (cs ++ r) = some (n, rest ++ r) := by
  unfold readHex4 at h
  split at h
  · simp only [List.cons_append, readHex4]
    split at h
    · rename_i h1 h2 h3 h4
      simp only [Option.some.injEq, Prod.mk.injEq] at h
      obtain ⟨rfl, rfl⟩ := h
      rfl
    · cases h
  · cases h

theorem readLow_ext {hi : Nat} {cs rest : List Char} {c : Char} (h : readLow hi cs = some (c, rest)) (r : List Char) :
    readLow hi (cs ++ r) = some (c, rest ++ r) := by
  unfold readLow at h
  split at h
  · split at h
    · rename_i heq
      split at h
      · rename_i h1
        simp only [Option.some.injEq, Prod.mk.injEq] at h
        obtain ⟨rfl, rfl⟩ := h
        simp only [List.cons_append, readLow]
        rw [readHex4_ext heq]
        simp only
        rw [if_pos h1]
      · cases h
    · cases h
  · cases h

theorem readEscape_ext {cs rest : List Char} {c : Char} (h : readEscape cs = some (c, rest)) (r : List Char) :
    readEscape (cs ++ r) = some (c, rest ++ r) := by
  unfold readEscape at h
  split at h
  case h_9 =>
    split at h
    · rename_i heq
      simp only [List.cons_append, readEscape]
      rw [readHex4_ext heq]
      simp only
      split at h
      · rename_i h1
        rw [if_pos h1]
        exact readLow_ext h r
      · rename_i h1
        rw [if_neg h1]
        split at h
        · cases h
        · rename_i h2
          rw [if_neg h2]
          simp only [Option.some.injEq, Prod.mk.injEq] at h
          obtain ⟨rfl, rfl⟩ := h
          rfl
    · cases h
  case h_10 => cases h
  all_goals
    simp only [Option.some.injEq, Prod.mk.injEq] at h
    obtain ⟨rfl, rfl⟩ := h
    rfl

theorem readStr_ext : ∀ (f : Nat) {cs rest s : List Char}, readStr f cs = some (s, rest) → ∀ (f' : Nat) (r : List Char), f ≤ f' →
    readStr f' (cs ++ r) = some (s, rest ++ r) := by
  intro f
  induction f with
  | zero => intro cs rest s h; simp [readStr] at h
  | succ f ih =>
    intro cs rest s h f' r hf
    obtain ⟨g, rfl⟩ : ∃ g, f' = g + 1 := ⟨f' - 1, by omega⟩
    cases cs with
    | nil => simp [readStr] at h
    | cons c cs =>
      simp only [readStr] at h
      simp only [List.cons_append, readStr]
      split at h
      · rename_i hc
        simp only [Option.some.injEq, Prod.mk.injEq] at h
        obtain ⟨rfl, rfl⟩ := h
        rw [if_pos hc]
      rename_i hc
      rw [if_neg hc]
      split at h
      · rename_i hc2
        rw [if_pos hc2]
        split at h
        · rename_i heq
          rw [readEscape_ext heq]
          simp only
          simp only [Option.map_eq_some_iff] at h
          obtain ⟨⟨a, b⟩, h1, h2⟩ := h
          rw [ih h1 g r (by omega)]
          simp only [Prod.mk.injEq] at h2
          obtain ⟨rfl, rfl⟩ := h2
          rfl
        · cases h
      rename_i hc2
      rw [if_neg hc2]
      split at h
      · cases h
      rename_i hc3
      rw [if_neg hc3]
      simp only [Option.map_eq_some_iff] at h
      obtain ⟨⟨a, b⟩, h1, h2⟩ := h
      rw [ih h1 g r (by omega)]
      simp only [Prod.mk.injEq] at h2
      obtain ⟨rfl, rfl⟩ := h2
      rfl

/-- The text goes on with a character that ends a number. -/
def Ends (rest : List Char) : Prop := ∃ c t, rest = c :: t ∧ isDig c = false ∧ c ≠ '.' ∧ c ≠ 'e' ∧ c ≠ 'E'

theorem ends_of_skipWs {cs rest : List Char} {c : Char} (h : skipWs cs = c :: rest) (hc : c = ',' ∨ c = ']' ∨ c = '}') : Ends cs := by
  cases cs with
  | nil => simp [skipWs] at h
  | cons d t =>
    by_cases hd : isWs d = true
    · refine ⟨d, t, rfl, ?_⟩
      unfold isWs at hd
      simp only [Bool.or_eq_true, decide_eq_true_eq] at hd
      rcases hd with ((rfl | rfl) | rfl) | rfl <;> decide
    · rw [skipWs_cons _ (by simpa using hd)] at h
      simp only [List.cons.injEq] at h
      obtain ⟨rfl, rfl⟩ := h
      refine ⟨d, t, rfl, ?_⟩
      rcases hc with rfl | rfl | rfl <;> decide

theorem skipWs_ext {cs rest : List Char} {c : Char} (h : skipWs cs = c :: rest) (r : List Char) : skipWs (cs ++ r) = c :: rest ++ r := by
  induction cs with
  | nil => simp [skipWs] at h
  | cons d t ih =>
    by_cases hd : isWs d = true
    · rw [skipWs, List.dropWhile_cons_of_pos hd] at h
      rw [List.cons_append, skipWs, List.dropWhile_cons_of_pos hd]
      exact ih h
    · rw [skipWs_cons _ (by simpa using hd)] at h
      rw [List.cons_append, skipWs_cons _ (by simpa using hd)]
      simp only [List.cons.injEq] at h
      obtain ⟨rfl, rfl⟩ := h
      rfl

theorem while_ext {l : List Char} (h : l.dropWhile isDig ≠ []) (r : List Char) :
    (l ++ r).takeWhile isDig = l.takeWhile isDig ∧ (l ++ r).dropWhile isDig = l.dropWhile isDig ++ r := by
  induction l with
  | nil => simp at h
  | cons c l ih =>
    by_cases hc : isDig c = true
    · simp only [List.dropWhile_cons_of_pos hc] at h
      simp [hc, ih h]
    · simp [hc]

theorem readDigits_ext {cs rest : List Char} {n : Nat} (h : readDigits cs = some (n, rest)) (hr : rest ≠ []) (r : List Char) :
    readDigits (cs ++ r) = some (n, rest ++ r) := by
  cases cs with
  | nil => simp [readDigits] at h
  | cons c cs =>
    simp only [readDigits] at h
    simp only [List.cons_append, readDigits]
    split at h
    · rename_i hc
      rw [if_pos hc]
      simp only [Option.some.injEq, Prod.mk.injEq] at h
      obtain ⟨rfl, rfl⟩ := h
      rfl
    rename_i hc
    rw [if_neg hc]
    split at h
    · rename_i hc2
      rw [if_pos hc2]
      simp only [Option.map_eq_some_iff, Prod.mk.injEq] at h
      obtain ⟨m, h1, rfl, rfl⟩ := h
      obtain ⟨e1, e2⟩ := while_ext hr r
      rw [e1, e2, h1]
      rfl
    · cases h

theorem readFraction_ext {neg : Bool} {n : Nat} {cs rest : List Char} {v : Json} (h : readFraction neg n cs = some (v, rest))
    (hr : Ends rest) (r : List Char) : cs ≠ [] ∧ readFraction neg n (cs ++ r) = some (v, rest ++ r) := by
  obtain ⟨c, t, rfl, hc1, hc2, hc3, hc4⟩ := hr
  unfold readFraction at h
  split at h
  · rename_i d l
    refine ⟨by simp, ?_⟩
    simp only [List.cons_append, readFraction]
    split at h
    · rename_i hd
      rw [if_pos hd]
      simp only at h
      by_cases h1 : (l.dropWhile isDig).head? = some 'e' ∨ (l.dropWhile isDig).head? = some 'E'
      · rw [if_pos h1] at h; cases h
      rw [if_neg h1] at h
      have key : l.dropWhile isDig = c :: t ∧ (d :: l.takeWhile isDig = ['0'] ∨ d :: l.takeWhile isDig = ['5']) := by
        by_cases h2 : d :: l.takeWhile isDig = ['0']
        · rw [if_pos h2] at h
          simp only [Option.some.injEq, Prod.mk.injEq] at h
          exact ⟨h.2, Or.inl h2⟩
        · rw [if_neg h2] at h
          by_cases h3 : d :: l.takeWhile isDig = ['5']
          · rw [if_pos h3] at h
            simp only [Option.some.injEq, Prod.mk.injEq] at h
            exact ⟨h.2, Or.inr h3⟩
          · rw [if_neg h3] at h; cases h
      obtain ⟨key, hds⟩ := key
      obtain ⟨e1, e2⟩ := while_ext (l := l) (by rw [key]; simp) r
      rw [key] at h h1
      rw [e1, e2, key, if_neg (by simpa using h1)]
      by_cases h2 : d :: l.takeWhile isDig = ['0']
      · rw [if_pos h2] at h ⊢
        simp only [Option.some.injEq, Prod.mk.injEq] at h
        rw [← h.1]
        rfl
      · have h3 : d :: l.takeWhile isDig = ['5'] := hds.resolve_left h2
        rw [if_neg h2, if_pos h3] at h ⊢
        simp only [Option.some.injEq, Prod.mk.injEq] at h
        rw [← h.1]
        rfl
    · rename_i hd
      simp only [Option.some.injEq, Prod.mk.injEq, List.cons.injEq] at h
      exact absurd h.2.1.symm hc2
  · split at h
    · cases h
    rename_i h1
    simp only [Option.some.injEq, Prod.mk.injEq] at h
    obtain ⟨rfl, rfl⟩ := h
    refine ⟨by simp, ?_⟩
    unfold readFraction
    split
    · rename_i heq
      simp only [List.cons_append, List.cons.injEq] at heq
      exact absurd heq.1 hc2
    · rw [if_neg (by simpa using ⟨hc3, hc4⟩)]

theorem readNumber_ext {cs rest : List Char} {v : Json} (h : Json.readNumber cs = some (v, rest)) (hr : Ends rest) (r : List Char) :
    Json.readNumber (cs ++ r) = some (v, rest ++ r) := by
  unfold Json.readNumber at h
  split at h
  · split at h
    · rename_i heq
      obtain ⟨h1, h2⟩ := readFraction_ext h hr r
      simp only [List.cons_append, Json.readNumber]
      rw [readDigits_ext heq h1]
      exact h2
    · cases h
  · rename_i hne
    split at h
    · rename_i heq
      obtain ⟨h1, h2⟩ := readFraction_ext h hr r
      unfold Json.readNumber
      split
      · rename_i heq2
        cases cs with
        | nil => simp [readDigits] at heq
        | cons c cs =>
          simp only [List.cons_append, List.cons.injEq] at heq2
          exact absurd (by rw [heq2.1]) (hne cs)
      · rw [readDigits_ext heq h1]
        exact h2
    · cases h

/-- The values whose text has an end of its own. -/
def closed : Json → Bool
  | .int _ => false
  | .half _ => false
  | _ => true

theorem ext_all : ∀ f : Nat,
    (∀ cs v rest, readValue f cs = some (v, rest) → (closed v = true ∨ Ends rest) → ∀ f' r, f ≤ f' →
      readValue f' (cs ++ r) = some (v, rest ++ r)) ∧
    (∀ cs v rest, readElems f cs = some (v, rest) → Ends cs ∧ ∀ f' r, f ≤ f' → readElems f' (cs ++ r) = some (v, rest ++ r)) ∧
    (∀ cs v rest, readPairs f cs = some (v, rest) → Ends cs ∧ ∀ f' r, f ≤ f' → readPairs f' (cs ++ r) = some (v, rest ++ r)) ∧
    (∀ cs v rest, readPair f cs = some (v, rest) → Ends rest → ∀ f' r, f ≤ f' → readPair f' (cs ++ r) = some (v, rest ++ r)) := by
  intro f
  induction f with
  | zero =>
    refine ⟨?_, ?_, ?_, ?_⟩ <;> intro cs v rest h
    · simp [readValue] at h
    · simp [readElems] at h
    · simp [readPairs] at h
    · simp [readPair] at h
  | succ f ih =>
    obtain ⟨ihv, ihe, ihps, ihp⟩ := ih
    refine ⟨?_, ?_, ?_, ?_⟩
    · intro cs v rest h hv f' r hf
      obtain ⟨g, rfl⟩ : ∃ g, f' = g + 1 := ⟨f' - 1, by omega⟩
      rw [readValue.eq_def] at h
      simp only at h
      split at h
      · simp only [Option.map_eq_some_iff, Prod.mk.injEq] at h
        obtain ⟨⟨a, b⟩, h1, rfl, rfl⟩ := h
        simp only [List.cons_append, readValue]
        rw [readStr_ext _ h1 _ r (by simp)]
        rfl
      · simp only [Option.some.injEq, Prod.mk.injEq] at h
        obtain ⟨rfl, rfl⟩ := h
        simp [readValue]
      · simp only [Option.some.injEq, Prod.mk.injEq] at h
        obtain ⟨rfl, rfl⟩ := h
        simp [readValue]
      · simp only [Option.some.injEq, Prod.mk.injEq] at h
        obtain ⟨rfl, rfl⟩ := h
        simp [readValue]
      · rename_i cs
        simp only [List.cons_append, readValue]
        split at h
        · rename_i heq
          simp only [Option.some.injEq, Prod.mk.injEq] at h
          obtain ⟨rfl, rfl⟩ := h
          rw [skipWs_ext heq]
          rfl
        · rename_i hne
          split at h
          · rename_i heq
            simp only [Option.map_eq_some_iff, Prod.mk.injEq] at h
            obtain ⟨⟨a, b⟩, h1, rfl, rfl⟩ := h
            obtain ⟨he, h2⟩ := ihe _ _ _ h1
            cases hs : skipWs cs with
            | nil =>
              rw [hs] at heq
              cases f with
              | zero => simp [readValue] at heq
              | succ f => simp [readValue, Json.readNumber, readDigits] at heq
            | cons c t =>
              rw [skipWs_ext hs]
              rw [hs] at heq hne
              split
              · rename_i heq2
                simp only [List.cons_append, List.cons.injEq] at heq2
                exact absurd (by rw [heq2.1]) (hne t)
              · rw [ihv _ _ _ heq (Or.inr he) g r (by omega)]
                simp only
                rw [h2 g r (by omega)]
                rfl
          · cases h
      · rename_i cs
        simp only [List.cons_append, readValue]
        split at h
        · rename_i heq
          simp only [Option.some.injEq, Prod.mk.injEq] at h
          obtain ⟨rfl, rfl⟩ := h
          rw [skipWs_ext heq]
          rfl
        · rename_i hne
          split at h
          · rename_i heq
            simp only [Option.map_eq_some_iff, Prod.mk.injEq] at h
            obtain ⟨⟨a, b⟩, h1, rfl, rfl⟩ := h
            obtain ⟨he, h2⟩ := ihps _ _ _ h1
            cases hs : skipWs cs with
            | nil =>
              rw [hs] at heq
              cases f with
              | zero => simp [readPair] at heq
              | succ f => simp [readPair] at heq
            | cons c t =>
              rw [skipWs_ext hs]
              rw [hs] at heq hne
              split
              · rename_i heq2
                simp only [List.cons_append, List.cons.injEq] at heq2
                exact absurd (by rw [heq2.1]) (hne t)
              · rw [ihp _ _ _ heq he g r (by omega)]
                simp only
                rw [h2 g r (by omega)]
                rfl
          · cases h
      · rename_i n1 n2 n3 n4 n5 n6
        have hnum : closed v = false := by
          unfold Json.readNumber at h
          have key : ∀ neg n cs, readFraction neg n cs = some (v, rest) → closed v = false := by
            intro neg n cs h
            unfold readFraction at h
            split at h
            · split at h
              · simp only at h
                split at h
                · cases h
                split at h
                · simp only [Option.some.injEq, Prod.mk.injEq] at h; rw [← h.1]; rfl
                split at h
                · simp only [Option.some.injEq, Prod.mk.injEq] at h; rw [← h.1]; rfl
                · cases h
              · simp only [Option.some.injEq, Prod.mk.injEq] at h; rw [← h.1]; rfl
            · split at h
              · cases h
              · simp only [Option.some.injEq, Prod.mk.injEq] at h; rw [← h.1]; rfl
          split at h
          · split at h
            · exact key _ _ _ h
            · cases h
          · split at h
            · exact key _ _ _ h
            · cases h
        rcases hv with hv | hv
        · rw [hnum] at hv; cases hv
        have h1 := readNumber_ext h hv r
        cases cs with
        | nil => simp [Json.readNumber, readDigits] at h
        | cons c cs =>
          have hc : isDig c = true ∨ c = '-' := by
            unfold Json.readNumber at h
            split at h
            · rename_i heq; simp only [List.cons.injEq] at heq; exact Or.inr heq.1
            · split at h
              · rename_i heq
                simp only [readDigits] at heq
                split at heq
                · rename_i hc; subst hc; left; decide
                split at heq
                · rename_i hc; exact Or.inl hc
                · cases heq
              · cases h
          rw [List.cons_append] at h1 ⊢
          rw [readValue_number _ _ _ hc, h1]
    · intro cs v rest h
      rw [readElems.eq_def] at h
      simp only at h
      split at h
      · rename_i heq
        simp only [Option.some.injEq, Prod.mk.injEq] at h
        obtain ⟨rfl, rfl⟩ := h
        refine ⟨ends_of_skipWs heq (by simp), fun f' r hf => ?_⟩
        obtain ⟨g, rfl⟩ : ∃ g, f' = g + 1 := ⟨f' - 1, by omega⟩
        simp only [readElems]
        rw [skipWs_ext heq]
        rfl
      · rename_i heq
        refine ⟨ends_of_skipWs heq (by simp), fun f' r hf => ?_⟩
        obtain ⟨g, rfl⟩ : ∃ g, f' = g + 1 := ⟨f' - 1, by omega⟩
        simp only [readElems]
        rw [skipWs_ext heq]
        simp only [List.cons_append]
        split at h
        · rename_i l _ _ _ heq2
          simp only [Option.map_eq_some_iff, Prod.mk.injEq] at h
          obtain ⟨⟨a, b⟩, h1, rfl, rfl⟩ := h
          obtain ⟨he, h2⟩ := ihe _ _ _ h1
          cases hs : skipWs l with
          | nil =>
            rw [hs] at heq2
            cases f with
            | zero => simp [readValue] at heq2
            | succ f => simp [readValue, Json.readNumber, readDigits] at heq2
          | cons c t =>
            rw [skipWs_ext hs]
            rw [hs] at heq2
            rw [ihv _ _ _ heq2 (Or.inr he) g r (by omega)]
            simp only
            rw [h2 g r (by omega)]
            rfl
        · cases h
      · cases h
    · intro cs v rest h
      rw [readPairs.eq_def] at h
      simp only at h
      split at h
      · rename_i heq
        simp only [Option.some.injEq, Prod.mk.injEq] at h
        obtain ⟨rfl, rfl⟩ := h
        refine ⟨ends_of_skipWs heq (by simp), fun f' r hf => ?_⟩
        obtain ⟨g, rfl⟩ : ∃ g, f' = g + 1 := ⟨f' - 1, by omega⟩
        simp only [readPairs]
        rw [skipWs_ext heq]
        rfl
      · rename_i heq
        refine ⟨ends_of_skipWs heq (by simp), fun f' r hf => ?_⟩
        obtain ⟨g, rfl⟩ : ∃ g, f' = g + 1 := ⟨f' - 1, by omega⟩
        simp only [readPairs]
        rw [skipWs_ext heq]
        simp only [List.cons_append]
        split at h
        · rename_i l _ _ _ heq2
          simp only [Option.map_eq_some_iff, Prod.mk.injEq] at h
          obtain ⟨⟨a, b⟩, h1, rfl, rfl⟩ := h
          obtain ⟨he, h2⟩ := ihps _ _ _ h1
          cases hs : skipWs l with
          | nil =>
            rw [hs] at heq2
            cases f with
            | zero => simp [readPair] at heq2
            | succ f => simp [readPair] at heq2
          | cons c t =>
            rw [skipWs_ext hs]
            rw [hs] at heq2
            rw [ihp _ _ _ heq2 he g r (by omega)]
            simp only
            rw [h2 g r (by omega)]
            rfl
        · cases h
      · cases h
    · intro cs v rest h hr f' r hf
      obtain ⟨g, rfl⟩ : ∃ g, f' = g + 1 := ⟨f' - 1, by omega⟩
      rw [readPair.eq_def] at h
      simp only at h
      split at h
      · split at h
        · rename_i heq
          split at h
          · rename_i l hl
            simp only [Option.map_eq_some_iff, Prod.mk.injEq] at h
            obtain ⟨⟨a, b⟩, h1, rfl, rfl⟩ := h
            simp only [List.cons_append, readPair]
            rw [readStr_ext _ heq _ r (by simp)]
            simp only
            rw [skipWs_ext hl]
            simp only [List.cons_append]
            cases hs : skipWs l with
            | nil =>
              rw [hs] at h1
              cases f with
              | zero => simp [readValue] at h1
              | succ f => simp [readValue, Json.readNumber, readDigits] at h1
            | cons c t =>
              rw [skipWs_ext hs]
              rw [hs] at h1
              rw [ihv _ _ _ h1 (Or.inr hr) g r (by omega)]
              rfl
          · cases h
        · cases h
      · cases h

/-- A text that is cut anywhere before the end of an object is rejected. -/
theorem loads_prefix (o : List (List Char × Json)) (h : Ok (.obj o)) (p r : List Char) (e : p ++ r = dumps (.obj o)) (hr : r ≠ []) :
    loads p = .error .jsonDecode := by
  obtain ⟨t, ht⟩ : ∃ t, dumps (.obj o) = '{' :: t := by
    cases o with
    | nil => exact ⟨_, by rw [dumps]⟩
    | cons x xs => exact ⟨_, by rw [dumps]⟩
  cases p with
  | nil => rfl
  | cons c p =>
    have hc : c = '{' := by
      rw [ht, List.cons_append] at e
      simp only [List.cons.injEq] at e
      exact e.1
    subst hc
    unfold loads
    rw [skipWs_cons _ (by decide)]
    cases hv : readValue ((('{' :: p) : List Char).length + 1) ('{' :: p) with
    | none => rfl
    | some q =>
      obtain ⟨v, rest⟩ := q
      exfalso
      have hcl : closed v = true := by
        rw [readValue.eq_def] at hv
        simp only at hv
        split at hv
        · simp only [Option.some.injEq, Prod.mk.injEq] at hv
          rw [← hv.1]; rfl
        · split at hv
          · simp only [Option.map_eq_some_iff, Prod.mk.injEq] at hv
            obtain ⟨_, _, rfl, _⟩ := hv
            rfl
          · cases hv
      have h1 := (ext_all _).1 _ _ _ hv (Or.inl hcl) ((dumps (.obj o)).length + 1) r (by
        rw [← e]; simp)
      have h2 := readValue_dumps _ h ((dumps (.obj o)).length + 1) [] (by omega) Stop.nil
      rw [List.append_nil, ← e] at h2
      rw [e] at h1 h2
      rw [h1] at h2
      simp only [Option.some.injEq, Prod.mk.injEq, List.append_eq_nil_iff] at h2
      exact hr h2.2.2

end FSat.Json
