import Verif.Spec.Search
import Verif.Lemmas.Sat
import Mathlib.Data.Nat.Digits.Lemmas
import Mathlib.Data.Fintype.Card
import Mathlib.Data.Fintype.Pi
import Mathlib.Data.Fintype.BigOperators

set_option linter.unusedSimpArgs false

namespace FSat

theorem mappingOf_mem {m : List Lit} (h : (m.map Lit.var).Nodup) {l : Lit} (hl : l ∈ m) : mappingOf m l.var = some l.pos := by
  have hinj : ∀ a ∈ m, ∀ b ∈ m, a.var = b.var → a = b := fun a ha b hb hab => List.inj_on_of_nodup_map h ha hb hab
  unfold mappingOf
  cases hf : m.reverse.find? (fun l' => l'.var == l.var) with
  | none =>
    have := List.find?_eq_none.1 hf l (List.mem_reverse.2 hl)
    simp at this
  | some l' =>
    have h1 := List.mem_reverse.1 (List.mem_of_find?_eq_some hf)
    have h2 := List.find?_some hf
    have : l' = l := hinj l' h1 l hl (by simpa using h2)
    rw [this]; rfl

theorem asgOf_mem {m : List Lit} (h : (m.map Lit.var).Nodup) {l : Lit} (hl : l ∈ m) : ev (asgOf m) l = true := by
  simp [ev, asgOf, mappingOf_mem h hl]

theorem IsModel.asg {cs : Cnf} {m : List Lit} (h : IsModel cs m) : Sat (asgOf m) cs := h.sat _ fun _ hl => asgOf_mem h.nodup hl

variable {solver : Oracle} {imp : List Nat}

theorem SatC_blocking {v : Asg} {m : List Lit} : SatC v (blockingClause imp m) ↔ ∃ l ∈ m, l.var ∈ imp ∧ ev v l = false := by
  simp only [blockingClause, SatC, List.mem_map, List.mem_filter]
  constructor
  · rintro ⟨l, ⟨a, ⟨h1, h2⟩, rfl⟩, h3⟩
    exact ⟨a, h1, by simpa using h2, by simpa using h3⟩
  · rintro ⟨l, h1, h2, h3⟩
    exact ⟨-l, ⟨l, ⟨h1, by simpa using h2⟩, rfl⟩, by simpa using h3⟩

theorem iter_mem (hs : CorrectSolver solver) (fuel : Nat) : ∀ (n : Nat) (cs : Cnf) (m : List Lit),
    m ∈ (itersolveFrom solver imp fuel n cs).1 → IsModel cs m := by
  induction fuel with
  | zero => intro n cs m h; simp [itersolveFrom] at h
  | succ fuel ih =>
    intro n cs m h
    unfold itersolveFrom at h
    cases hq : solver n cs with
    | none => rw [hq] at h; simp at h
    | some m' =>
      rw [hq] at h
      simp only [List.mem_cons] at h
      rcases h with rfl | h
      · exact hs.model n cs m hq
      · have := ih (n + 1) _ m h
        refine ⟨this.nodup, fun c hc => this.covers c (List.mem_append_left _ hc), fun v hv => ?_⟩
        exact ((Sat_append _ _ _).1 (this.sat v hv)).1

theorem iter_distinct (hs : CorrectSolver solver) (fuel : Nat) : ∀ (n : Nat) (cs : Cnf),
    (itersolveFrom solver imp fuel n cs).1.Pairwise fun m m' => ∃ x ∈ imp, asgOf m x ≠ asgOf m' x := by
  induction fuel with
  | zero => intro n cs; simp [itersolveFrom]
  | succ fuel ih =>
    intro n cs
    unfold itersolveFrom
    cases hq : solver n cs with
    | none => simp
    | some m =>
      simp only
      refine List.pairwise_cons.2 ⟨fun m' hm' => ?_, ih _ _⟩
      have h1 := (iter_mem hs fuel _ _ m' hm').asg
      have h2 : SatC (asgOf m') (blockingClause imp m) := by
        have := ((Sat_append _ _ _).1 h1).2
        simpa using this
      obtain ⟨l, hl, hx, he⟩ := SatC_blocking.1 h2
      refine ⟨l.var, hx, fun he' => ?_⟩
      have h3 := asgOf_mem (hs.model n cs m hq).nodup hl
      simp only [ev] at h3 he
      rw [he'] at h3
      rw [h3] at he; cases he

theorem iter_length (hs : CorrectSolver solver) (fuel n : Nat) (cs : Cnf) :
    (itersolveFrom solver imp fuel n cs).1.length ≤ 2 ^ imp.length := by
  have hp := iter_distinct (imp := imp) hs fuel n cs
  generalize (itersolveFrom solver imp fuel n cs).1 = ms at hp
  let f : List Lit → (Fin imp.length → Bool) := fun m i => asgOf m (imp[i])
  have hn : (ms.map f).Nodup := by
    rw [List.Nodup, List.pairwise_map]
    refine hp.imp fun {m m'} ⟨x, hx, hne⟩ he => ?_
    obtain ⟨i, hi, rfl⟩ := List.getElem_of_mem hx
    exact hne (congrFun he ⟨i, hi⟩)
  have := hn.length_le_card
  simpa using this

theorem iter_done (fuel : Nat) : ∀ (n : Nat) (cs : Cnf), (itersolveFrom solver imp fuel n cs).2 = true ∨
    (itersolveFrom solver imp fuel n cs).1.length = fuel := by
  induction fuel with
  | zero => intro n cs; right; rfl
  | succ fuel ih =>
    intro n cs
    unfold itersolveFrom
    cases solver n cs with
    | none => left; rfl
    | some m =>
      simp only [List.length_cons]
      rcases ih (n + 1) (cs ++ [blockingClause imp m]) with h | h
      · exact .inl h
      · right; rw [h]

theorem iter_complete (hs : CorrectSolver solver) (fuel : Nat) : ∀ (n : Nat) (cs : Cnf)
    (_ : ∀ x ∈ imp, ∃ c ∈ cs, ∃ l ∈ c, l.var = x) (_ : (itersolveFrom solver imp fuel n cs).2 = true) (v : Asg) (_ : Sat v cs),
    ∃ m ∈ (itersolveFrom solver imp fuel n cs).1, ∀ x ∈ imp, v x = asgOf m x := by
  induction fuel with
  | zero => intro n cs _ h; simp [itersolveFrom] at h
  | succ fuel ih =>
    intro n cs hcov hdone v hv
    unfold itersolveFrom at hdone ⊢
    cases hq : solver n cs with
    | none => exact absurd ⟨v, hv⟩ (hs.unsat n cs hq)
    | some m =>
      rw [hq] at hdone
      simp only at hdone ⊢
      have hm := hs.model n cs m hq
      by_cases hb : SatC v (blockingClause imp m)
      · obtain ⟨m', h1, h2⟩ := ih (n + 1) _ (fun x hx => by
          obtain ⟨c, hc, l⟩ := hcov x hx
          exact ⟨c, List.mem_append_left _ hc, l⟩) hdone v ((Sat_append _ _ _).2 ⟨hv, by simpa using hb⟩)
        exact ⟨m', List.mem_cons_of_mem _ h1, h2⟩
      · refine ⟨m, List.mem_cons_self, fun x hx => ?_⟩
        obtain ⟨c, hc, l, hl, rfl⟩ := hcov x hx
        obtain ⟨l', hl', he⟩ := hm.covers c hc l hl
        rw [← he]
        have h1 := asgOf_mem hm.nodup hl'
        have h2 : ev v l' = true := by
          by_contra hf
          exact hb (SatC_blocking.2 ⟨l', hl', he ▸ hx, by simpa using hf⟩)
        simp only [ev, beq_iff_eq] at h1 h2
        rw [h1, h2]

/-- There is a correct solver. -/
theorem exists_solver : ∃ solver : Oracle, CorrectSolver solver := by
  classical
  refine ⟨fun _ cs => if h : ∃ v, Sat v cs then some ((cs.flatten.map Lit.var).dedup.map fun x => ⟨x, h.choose x⟩) else none, ?_, ?_⟩
  · intro n cs m h
    split at h
    · rename_i hv
      cases h
      refine ⟨?_, fun c hc l hl => ?_, fun v hv' => ?_⟩
      · rw [List.map_map]
        simpa [Function.comp_def] using List.nodup_dedup _
      · refine ⟨⟨l.var, hv.choose l.var⟩, List.mem_map.2 ⟨l.var, ?_, rfl⟩, rfl⟩
        exact List.mem_dedup.2 (List.mem_map.2 ⟨l, List.mem_flatten.2 ⟨c, hc, hl⟩, rfl⟩)
      · intro c hc
        obtain ⟨l, hl, he⟩ := hv.choose_spec c hc
        refine ⟨l, hl, ?_⟩
        have := hv' ⟨l.var, hv.choose l.var⟩ (List.mem_map.2 ⟨l.var,
          List.mem_dedup.2 (List.mem_map.2 ⟨l, List.mem_flatten.2 ⟨c, hc, hl⟩, rfl⟩), rfl⟩)
        simp only [ev, beq_iff_eq] at this he ⊢
        rw [this, he]
    · cases h
  · intro n cs h
    split at h
    · cases h
    · assumption

/-! ### Numbers as text -/

theorem digitVal_digit {d : Nat} (h : d < 10) : digitVal (Char.ofNat ('0'.toNat + d)) = some d := by
  revert h; revert d; decide

theorem natOf_digits (ds : List Nat) (h : ∀ d ∈ ds, d < 10) (acc : Nat) :
    natOf acc (ds.map fun d => Char.ofNat ('0'.toNat + d)) = some (ds.foldl (fun a d => 10 * a + d) acc) := by
  induction ds generalizing acc with
  | nil => rfl
  | cons d ds ih =>
    rw [List.map_cons, natOf, digitVal_digit (h d (by simp))]
    simp only [List.foldl_cons]
    exact ih (fun x hx => h x (by simp [hx])) _

theorem foldl_reverse_digits (ds : List Nat) : ds.reverse.foldl (fun a d => 10 * a + d) 0 = Nat.ofDigits 10 ds := by
  rw [List.foldl_reverse]
  induction ds with
  | nil => rfl
  | cons d ds ih => rw [List.foldr_cons, ih, Nat.ofDigits_cons]; simp [Nat.add_comm]

theorem natOf_showNat (n : Nat) : natOf 0 (showNat n) = some n := by
  unfold showNat
  split
  · rename_i h; subst h; decide
  · rw [natOf_digits _ (fun d hd => Nat.digits_lt_base (by decide) (List.mem_reverse.1 hd)), foldl_reverse_digits,
      Nat.ofDigits_digits]

theorem digitChar_props {d : Nat} (h : d < 10) : (Char.ofNat ('0'.toNat + d)).isWhitespace = false ∧
    Char.ofNat ('0'.toNat + d) ≠ '-' ∧ Char.ofNat ('0'.toNat + d) ≠ '+' := by
  revert h; revert d; decide

theorem showNat_spec (n : Nat) : ∃ c cs, showNat n = c :: cs ∧ c ≠ '-' ∧ c ≠ '+' ∧
    ∀ d ∈ showNat n, d.isWhitespace = false := by
  unfold showNat
  split
  · exact ⟨'0', [], rfl, by decide, by decide, by decide⟩
  · rename_i h
    have hl : ∀ d ∈ (Nat.digits 10 n).reverse, d < 10 := fun d hd => Nat.digits_lt_base (by decide) (List.mem_reverse.1 hd)
    have hne : (Nat.digits 10 n).reverse ≠ [] := by simpa [Nat.digits_eq_nil_iff_eq_zero] using h
    generalize (Nat.digits 10 n).reverse = ds at hl hne
    cases ds with
    | nil => exact absurd rfl hne
    | cons d ds =>
      have := digitChar_props (hl d (by simp))
      refine ⟨_, _, rfl, this.2.1, this.2.2, ?_⟩
      intro c hc
      obtain ⟨d', hd', rfl⟩ := List.mem_map.1 hc
      exact (digitChar_props (hl d' hd')).1

theorem intOf_showInt (n : Int) : intOf (showInt n) = .ok n := by
  obtain ⟨c, cs, hc, h1, h2, _⟩ := showNat_spec n.natAbs
  have hn := natOf_showNat n.natAbs
  unfold showInt
  split
  · rename_i hneg
    rw [hc] at hn ⊢
    simp only [intOf, hn]
    congr 1; omega
  · rw [hc] at hn ⊢
    rw [intOf.eq_def]
    split
    · rename_i h; simp at h
    · rename_i h; simp at h; exact absurd h.1 h1
    · rename_i h; simp at h; exact absurd h.1 h2
    · rename_i a as _ _ h
      simp only [List.cons.injEq] at h
      obtain ⟨rfl, rfl⟩ := h
      rw [hn]
      simp only
      congr 1; omega

theorem intsOf_show (ns : List Int) : intsOf (ns.map showInt) = .ok ns := by
  induction ns with
  | nil => rfl
  | cons n ns ih => simp only [List.map_cons, intsOf, intOf_showInt, ih]

theorem showInt_ne (n : Int) : showInt n ≠ [] ∧ ∀ c ∈ showInt n, c.isWhitespace = false := by
  obtain ⟨c, cs, hc, _, _, h⟩ := showNat_spec n.natAbs
  unfold showInt
  split
  · refine ⟨by simp, fun d hd => ?_⟩
    rcases List.mem_cons.1 hd with rfl | hd
    · decide
    · exact h d hd
  · exact ⟨by rw [hc]; simp, h⟩

theorem splitWs_ws (w l : List Char) (hw : ∀ c ∈ w, c.isWhitespace = true) : splitWs (w ++ l) = splitWs l := by
  induction w with
  | nil => rfl
  | cons c w ih =>
    rw [List.cons_append, splitWs, if_pos (hw c (by simp))]
    exact ih fun d hd => hw d (by simp [hd])

theorem splitWs_word (t l : List Char) (hne : t ≠ []) (ht : ∀ c ∈ t, c.isWhitespace = false)
    (hl : l = [] ∨ ∃ c cs, l = c :: cs ∧ c.isWhitespace = true) : splitWs (t ++ l) = t :: splitWs l := by
  induction t with
  | nil => exact absurd rfl hne
  | cons c t ih =>
    rw [List.cons_append, splitWs, if_neg (by rw [ht c (by simp)]; simp)]
    cases t with
    | nil =>
      simp only [List.nil_append]
      rcases hl with rfl | ⟨d, ds, rfl, hd⟩
      · rfl
      · cases hs : splitWs (d :: ds) with
        | nil => rfl
        | cons w ws => simp [glue, hd]
    | cons d t =>
      rw [ih (by simp) fun x hx => ht x (by simp [hx])]
      have := ht d (by simp)
      simp [glue, this]

theorem splitWs_spaced {ts : List (List Char)} {l : List Char} (h : Spaced ts l)
    (ht : ∀ t ∈ ts, t ≠ [] ∧ ∀ c ∈ t, c.isWhitespace = false) :
    splitWs l = ts ∧ (l = [] ∨ ∃ c cs, l = c :: cs ∧ c.isWhitespace = true) := by
  induction h with
  | nil w hw =>
    constructor
    · have := splitWs_ws w [] hw
      simpa [splitWs] using this
    · cases w with
      | nil => exact .inl rfl
      | cons c cs => exact .inr ⟨c, cs, rfl, hw c (by simp)⟩
  | cons w t l ts hw hws _ ih =>
    obtain ⟨i1, i2⟩ := ih fun t' ht' => ht t' (by simp [ht'])
    obtain ⟨h1, h2⟩ := ht t (by simp)
    constructor
    · rw [List.append_assoc, splitWs_ws w _ hws, splitWs_word t l h1 h2 i2, i1]
    · cases w with
      | nil => exact absurd rfl hw
      | cons c cs => exact .inr ⟨c, _, rfl, hws c (by simp)⟩

theorem splitWs_valueLine {ns : List Int} {line : List Char} (h : ValueLine ns line) :
    splitWs line = ['v'] :: ns.map showInt ∧ line.head? = some 'v' := by
  obtain ⟨l, h1, rfl⟩ := h
  obtain ⟨h2, h3⟩ := splitWs_spaced h1 (by
    intro t ht
    obtain ⟨n, _, rfl⟩ := List.mem_map.1 ht
    exact showInt_ne n)
  refine ⟨?_, rfl⟩
  have := splitWs_word ['v'] l (by simp) (by decide) h3
  rw [List.singleton_append] at this
  rw [this, h2]

theorem readModel_spec {ns : List Int} {ls : List (List Char)} (h : ModelLines ns ls) (hz : ∀ n ∈ ns, n ≠ 0) (m : List Int) :
    readModel ls m = .ok (m ++ ns) := by
  induction h generalizing m with
  | comment ns line ls hc _ ih =>
    rw [readModel, if_pos hc]
    exact ih hz m
  | some ns ms line ls hne hl _ ih =>
    obtain ⟨h1, h2⟩ := splitWs_valueLine hl
    rw [readModel, if_neg (by rw [h2]; decide), h1]
    simp only [ne_eq, not_true_eq_false, if_false, intsOf_show]
    obtain ⟨a, as, rfl⟩ : ∃ a as, ns = as ++ [a] := by
      cases List.eq_nil_or_concat ns with
      | inl h => exact absurd h hne
      | inr h => obtain ⟨as, a, h⟩ := h; exact ⟨a, as, by simpa using h⟩
    have ha : a ≠ 0 := hz a (by simp)
    rw [← List.append_assoc, List.getLast?_concat]
    simp only
    rw [ih fun n hn => hz n (by simp [hn])]
    simp
  | last ns line rest hl =>
    obtain ⟨h1, h2⟩ := splitWs_valueLine hl
    rw [readModel, if_neg (by rw [h2]; decide), h1]
    simp only [ne_eq, not_true_eq_false, if_false, intsOf_show]
    rw [← List.append_assoc, List.getLast?_concat, List.dropLast_concat]
    rfl

theorem interpret_skip (pre : List (List Char)) (hp : ∀ l ∈ pre, l.head? ≠ some 's') (ls : List (List Char)) :
    interpretAnswer (pre ++ ls) = interpretAnswer ls := by
  induction pre with
  | nil => rfl
  | cons l pre ih =>
    rw [List.cons_append, interpretAnswer, if_neg (hp l (by simp))]
    exact ih fun x hx => hp x (by simp [hx])

theorem interpret_none (pre : List (List Char)) (hp : ∀ l ∈ pre, l.head? ≠ some 's') :
    interpretAnswer pre = .error .runtimeError := by
  have := interpret_skip pre hp []
  rwa [List.append_nil] at this

theorem exists_status (ls : List (List Char)) : (∀ l ∈ ls, l.head? ≠ some 's') ∨
    ∃ pre l rest, ls = pre ++ l :: rest ∧ (∀ x ∈ pre, x.head? ≠ some 's') ∧ l.head? = some 's' := by
  induction ls with
  | nil => left; simp
  | cons l ls ih =>
    by_cases h : l.head? = some 's'
    · exact .inr ⟨[], l, ls, rfl, by simp, h⟩
    · rcases ih with ih | ⟨pre, l', rest, rfl, h1, h2⟩
      · exact .inl fun x hx => by rcases List.mem_cons.1 hx with rfl | hx <;> [exact h; exact ih x hx]
      · refine .inr ⟨l :: pre, l', rest, rfl, fun x hx => ?_, h2⟩
        rcases List.mem_cons.1 hx with rfl | hx
        · exact h
        · exact h1 x hx

/-! ### IPASIR streams -/

theorem decodeStream_append (a b : List Int) (h : (decodeStream a).2 = []) :
    decodeStream (a ++ b) = ((decodeStream a).1 ++ (decodeStream b).1, (decodeStream b).2) := by
  induction a with
  | nil => simp [decodeStream]
  | cons l a ih =>
    rw [List.cons_append, decodeStream, decodeStream]
    by_cases hl : l = 0
    · simp only [hl, if_true]
      rw [decodeStream] at h
      simp only [hl, if_true] at h
      rw [ih h]; simp
    · simp only [hl, if_false]
      rw [decodeStream] at h
      simp only [hl, if_false] at h
      cases hr : (decodeStream a).1 with
      | nil => rw [hr] at h; simp at h
      | cons c cs =>
        rw [hr] at h
        simp only at h
        rw [ih h, hr]
        simp

theorem decodeStream_clause (c : List Int) (hc : ∀ l ∈ c, l ≠ 0) : decodeStream (c ++ [0]) = ([c], []) := by
  induction c with
  | nil => rfl
  | cons l c ih =>
    rw [List.cons_append, decodeStream, ih fun x hx => hc x (by simp [hx])]
    simp [hc l (by simp)]

namespace Ipasir

theorem sendClause_spec (s : Ipasir) (c : List Int) : (s.sendClause c).sent = s.sent ++ c ++ [0] ∧
    (s.sendClause c).closed = s.closed ∧
    (∀ x, x ∈ (s.sendClause c).variables ↔ x ∈ s.variables ∨ ∃ l ∈ c, l.natAbs = x) ∧
    (s.variables.Nodup → (s.sendClause c).variables.Nodup) := by
  induction c generalizing s with
  | nil => simp [sendClause]
  | cons l c ih =>
    rw [sendClause]
    obtain ⟨h1, h2, h3, h4⟩ := ih { (s.addVar l.natAbs) with sent := s.sent ++ [l] }
    have hv : ∀ x, x ∈ (s.addVar l.natAbs).variables ↔ x ∈ s.variables ∨ l.natAbs = x := by
      intro x
      simp only [addVar]
      split
      · rename_i h
        have h' : l.natAbs ∈ s.variables := by simpa using h
        constructor
        · exact .inl
        · rintro (h | rfl)
          · exact h
          · exact h'
      · simp [eq_comm]
    refine ⟨by rw [h1]; simp, h2, fun x => ?_, fun hn => h4 ?_⟩
    · rw [h3, hv]; simp [or_assoc]
    · simp only [addVar]
      split
      · exact hn
      · rename_i h
        have h' : l.natAbs ∉ s.variables := by simpa using h
        refine List.nodup_append.2 ⟨hn, by simp, ?_⟩
        intro a ha b hb; simp at hb; subst hb; rintro rfl; exact h' ha

theorem addClauses_spec (s : Ipasir) (cs : List (List Int)) :
    (cs.foldl sendClause s).sent = s.sent ++ cs.flatMap (· ++ [0]) ∧ (cs.foldl sendClause s).closed = s.closed ∧
    (∀ x, x ∈ (cs.foldl sendClause s).variables ↔ x ∈ s.variables ∨ ∃ c ∈ cs, ∃ l ∈ c, l.natAbs = x) ∧
    (s.variables.Nodup → (cs.foldl sendClause s).variables.Nodup) := by
  induction cs generalizing s with
  | nil => simp
  | cons c cs ih =>
    obtain ⟨h1, h2, h3, h4⟩ := ih (s.sendClause c)
    obtain ⟨g1, g2, g3, g4⟩ := sendClause_spec s c
    refine ⟨by rw [List.foldl_cons, h1, g1]; simp, by rw [List.foldl_cons, h2, g2], fun x => ?_, fun hn => h4 (g4 hn)⟩
    rw [List.foldl_cons, h3, g3]; simp [or_assoc]

end Ipasir

theorem decodeStream_clauses (cs : List (List Int)) (hc : ∀ c ∈ cs, ∀ l ∈ c, l ≠ 0) :
    decodeStream (cs.flatMap (· ++ [0])) = (cs, []) := by
  induction cs with
  | nil => rfl
  | cons c cs ih =>
    have h1 := decodeStream_clause c (hc c (by simp))
    rw [List.flatMap_cons, decodeStream_append _ _ (by rw [h1]), h1, ih fun c' hc' => hc c' (by simp [hc'])]
    simp

end FSat
