import Verif.Lemmas.Json
import Verif.Lemmas.Blueprint
/-!
# What `json.dumps` writes has no line ends, and what `json.loads` reads has no name twice
-/

namespace FSat.Json

/-- Printable. -/
def Plain (l : List Char) : Prop := ∀ c ∈ l, 32 ≤ c.toNat

theorem Plain.nil : Plain [] := by intro c h; cases h
theorem Plain.cons {c : Char} {l : List Char} (h : 32 ≤ c.toNat) (hl : Plain l) : Plain (c :: l) := by
  intro x hx
  rcases List.mem_cons.1 hx with rfl | hx
  · exact h
  · exact hl x hx
theorem Plain.append {l m : List Char} (hl : Plain l) (hm : Plain m) : Plain (l ++ m) := by
  intro x hx
  rcases List.mem_append.1 hx with hx | hx
  · exact hl x hx
  · exact hm x hx

theorem hexDigit_plain (n : Nat) (h : n < 16) : 32 ≤ (hexDigit n).toNat := by
  interval_cases n <;> decide

theorem hex4_plain (n : Nat) : Plain (hex4 n) := by
  unfold hex4
  refine Plain.cons (by decide) (Plain.cons (by decide) ?_)
  intro c hc
  simp only [List.map_cons, List.map_nil, List.mem_cons, List.not_mem_nil, or_false] at hc
  rcases hc with rfl | rfl | rfl | rfl <;> exact hexDigit_plain _ (by omega)

theorem escape_plain (c : Char) : Plain (escape c) := by
  unfold escape
  repeat' split
  all_goals first
    | exact Plain.append (hex4_plain _) (hex4_plain _)
    | exact hex4_plain _
    | (intro x hx; simp only [List.mem_cons, List.not_mem_nil, or_false] at hx; rcases hx with rfl | rfl <;> decide)
    | (rename_i h; intro x hx; simp only [List.mem_cons, List.not_mem_nil, or_false] at hx; subst hx; exact h.1)

theorem quote_plain (s : List Char) : Plain (quote s) := by
  unfold quote
  rw [List.cons_append]
  refine Plain.cons (by decide) (Plain.append ?_ (Plain.cons (by decide) Plain.nil))
  intro c hc
  obtain ⟨d, -, hd⟩ := List.mem_flatMap.1 hc
  exact escape_plain d c hd

theorem isDig_plain {c : Char} (h : isDig c = true) : 32 ≤ c.toNat := by
  simp only [isDig, Bool.and_eq_true, decide_eq_true_eq] at h
  omega

theorem showNat_plain (n : Nat) : Plain (showNat n) := fun c hc => isDig_plain (showNat_dig n c hc)

theorem showInt_plain (n : Int) : Plain (showInt n) := by
  unfold showInt
  split
  · exact Plain.cons (by decide) (showNat_plain _)
  · exact showNat_plain _

theorem showHalf_plain (n : Int) : Plain (showHalf n) := by
  unfold showHalf
  refine Plain.append (Plain.append ?_ (showNat_plain _)) (Plain.cons (by decide) (Plain.cons ?_ Plain.nil))
  · split
    · exact Plain.cons (by decide) Plain.nil
    · exact Plain.nil
  · split <;> decide

mutual
theorem dumps_plain : ∀ v : Json, Plain (dumps v)
  | .null => by unfold dumps; intro c hc; revert c; decide
  | .bool true => by unfold dumps; intro c hc; revert c; decide
  | .bool false => by unfold dumps; intro c hc; revert c; decide
  | .int n => by unfold dumps; exact showInt_plain n
  | .half n => by unfold dumps; exact showHalf_plain n
  | .str s => by unfold dumps; exact quote_plain s
  | .arr [] => by unfold dumps; intro c hc; revert c; decide
  | .arr (x :: xs) => by
    unfold dumps
    exact Plain.cons (by decide) (Plain.append (dumps_plain x) (dumpsElems_plain xs))
  | .obj [] => by unfold dumps; intro c hc; revert c; decide
  | .obj (x :: xs) => by
    unfold dumps
    exact Plain.cons (by decide) (Plain.append (dumpsPair_plain x) (dumpsPairs_plain xs))
theorem dumpsElems_plain : ∀ l : List Json, Plain (dumpsElems l)
  | [] => by unfold dumpsElems; intro c hc; revert c; decide
  | x :: xs => by
    unfold dumpsElems
    exact Plain.cons (by decide) (Plain.cons (by decide) (Plain.append (dumps_plain x) (dumpsElems_plain xs)))
theorem dumpsPairs_plain : ∀ l : List (List Char × Json), Plain (dumpsPairs l)
  | [] => by unfold dumpsPairs; intro c hc; revert c; decide
  | x :: xs => by
    unfold dumpsPairs
    exact Plain.cons (by decide) (Plain.cons (by decide) (Plain.append (dumpsPair_plain x) (dumpsPairs_plain xs)))
theorem dumpsPair_plain : ∀ x : List Char × Json, Plain (dumpsPair x)
  | (k, v) => by
    unfold dumpsPair
    exact Plain.append (quote_plain k) (Plain.cons (by decide) (Plain.cons (by decide) (dumps_plain v)))
end

theorem dumps_line (v : Json) : '\n' ∉ dumps v := fun h => absurd (dumps_plain v _ h) (by decide)

/-! ### No name twice -/

theorem okElems_iff (l : List Json) : OkElems l ↔ ∀ v ∈ l, v.Ok := by
  induction l with
  | nil => simp [OkElems]
  | cons x l ih => simp [OkElems, ih]

theorem okPairs_iff' (l : List (List Char × Json)) : OkPairs l ↔ ∀ e ∈ l, e.2.Ok := by
  induction l with
  | nil => simp [OkPairs]
  | cons x l ih => obtain ⟨k, v⟩ := x; simp [OkPairs, OkPair, ih]

theorem ok_arr (l : List Json) : Ok (.arr l) ↔ ∀ v ∈ l, v.Ok := okElems_iff l
theorem ok_obj (o : List (List Char × Json)) : Ok (.obj o) ↔ (o.map Prod.fst).Nodup ∧ ∀ e ∈ o, e.2.Ok := by
  rw [← okPairs_iff']; exact Iff.rfl

theorem mem_set {d : List (List Char × Json)} {k : List Char} {v : Json} {e : List Char × Json} (h : e ∈ PyDict.set d k v) :
    e ∈ d ∨ e = (k, v) := by
  induction d with
  | nil => simp only [PyDict.set, List.mem_singleton] at h; exact Or.inr h
  | cons x d ih =>
    simp only [PyDict.set] at h
    split at h
    · rcases List.mem_cons.1 h with rfl | h
      · exact Or.inr rfl
      · exact Or.inl (.tail _ h)
    · rcases List.mem_cons.1 h with rfl | h
      · exact Or.inl (.head _)
      · rcases ih h with h | h
        · exact Or.inl (.tail _ h)
        · exact Or.inr h

theorem mem_foldl_set (ps d : List (List Char × Json)) {e : List Char × Json}
    (h : e ∈ ps.foldl (fun d p => PyDict.set d p.1 p.2) d) : e ∈ d ∨ e ∈ ps := by
  induction ps generalizing d with
  | nil => exact Or.inl h
  | cons p ps ih =>
    rcases ih _ h with h | h
    · rcases mem_set h with h | rfl
      · exact Or.inl h
      · exact Or.inr (.head _)
    · exact Or.inr (.tail _ h)

theorem ok_ofPairs (ps : List (List Char × Json)) (h : ∀ e ∈ ps, e.2.Ok) : Ok (.obj (PyDict.ofPairs ps)) := by
  rw [ok_obj]
  refine ⟨valid_foldl_set ps [] PyDict.valid_nil, fun e he => ?_⟩
  rcases mem_foldl_set ps [] he with he | he
  · cases he
  · exact h e he

theorem readFraction_ok {neg : Bool} {n : Nat} {cs : List Char} {v : Json} {rest : List Char}
    (h : readFraction neg n cs = some (v, rest)) : v.Ok := by
  unfold readFraction at h
  split at h
  · split at h
    · simp only at h
      split at h
      · cases h
      · split at h
        · cases h; trivial
        · split at h
          · cases h; trivial
          · cases h
    · cases h; trivial
  · split at h
    · cases h
    · cases h; trivial

theorem readNumber_ok {cs : List Char} {v : Json} {rest : List Char} (h : readNumber cs = some (v, rest)) : v.Ok := by
  unfold readNumber at h
  repeat' split at h
  all_goals first | exact readFraction_ok h | cases h

theorem read_ok (fuel : Nat) :
    (∀ cs v rest, readValue fuel cs = some (v, rest) → v.Ok) ∧
    (∀ cs l rest, readElems fuel cs = some (l, rest) → ∀ v ∈ l, v.Ok) ∧
    (∀ cs l rest, readPairs fuel cs = some (l, rest) → ∀ e ∈ l, e.2.Ok) ∧
    (∀ cs e rest, readPair fuel cs = some (e, rest) → e.2.Ok) := by
  induction fuel with
  | zero =>
    refine ⟨?_, ?_, ?_, ?_⟩ <;> intro cs v rest h
    · unfold readValue at h; cases h
    · unfold readElems at h; cases h
    · unfold readPairs at h; cases h
    · unfold readPair at h; cases h
  | succ fuel ih =>
    obtain ⟨ih1, ih2, ih3, ih4⟩ := ih
    refine ⟨?_, ?_, ?_, ?_⟩ <;> intro cs v rest h
    · unfold readValue at h
      split at h
      · rw [Option.map_eq_some_iff] at h
        obtain ⟨_, _, e⟩ := h
        cases e; trivial
      · cases h; trivial
      · cases h; trivial
      · cases h; trivial
      · split at h
        · cases h; trivial
        · split at h
          · rename_i hv
            rw [Option.map_eq_some_iff] at h
            obtain ⟨⟨l, r⟩, hl, e⟩ := h
            cases e
            rw [ok_arr]
            intro w hw
            rcases List.mem_cons.1 hw with rfl | hw
            · exact ih1 _ _ _ hv
            · exact ih2 _ _ _ hl w hw
          · cases h
      · split at h
        · cases h; exact (ok_obj []).2 ⟨List.nodup_nil, fun e he => by cases he⟩
        · split at h
          · rename_i hv
            rw [Option.map_eq_some_iff] at h
            obtain ⟨⟨l, r⟩, hl, e⟩ := h
            cases e
            refine ok_ofPairs _ fun w hw => ?_
            rcases List.mem_cons.1 hw with rfl | hw
            · exact ih4 _ _ _ hv
            · exact ih3 _ _ _ hl w hw
          · cases h
      · exact readNumber_ok h
    · unfold readElems at h
      split at h
      · cases h; intro v hv; cases hv
      · split at h
        · rename_i v' rest' hv
          rw [Option.map_eq_some_iff] at h
          obtain ⟨⟨l, r⟩, hl, e⟩ := h
          cases e
          intro w hw
          rcases List.mem_cons.1 hw with rfl | hw
          · exact ih1 _ _ _ hv
          · exact ih2 _ _ _ hl w hw
        · cases h
      · cases h
    · unfold readPairs at h
      split at h
      · cases h; intro v hv; cases hv
      · split at h
        · rename_i v' rest' hv
          rw [Option.map_eq_some_iff] at h
          obtain ⟨⟨l, r⟩, hl, e⟩ := h
          cases e
          intro w hw
          rcases List.mem_cons.1 hw with rfl | hw
          · exact ih4 _ _ _ hv
          · exact ih3 _ _ _ hl w hw
        · cases h
      · cases h
    · unfold readPair at h
      split at h
      · split at h
        · split at h
          · rw [Option.map_eq_some_iff] at h
            obtain ⟨⟨l, r⟩, hl, e⟩ := h
            cases e
            exact ih1 _ _ _ hl
          · cases h
        · cases h
      · cases h

theorem loads_ok {text : List Char} {v : Json} (h : loads text = .ok v) : v.Ok := by
  unfold loads at h
  split at h
  · rename_i w rest hw
    split at h
    · cases h; exact (read_ok _).1 _ _ _ hw
    · cases h
  · cases h

end FSat.Json
