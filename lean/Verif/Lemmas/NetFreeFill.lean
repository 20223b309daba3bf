import Verif.Lemmas.NetFreeMix
import Verif.Lemmas.Complete
import Verif.Lemmas.Free
/-!
Assignments for the clauses of the net-free balancers: how to choose the bits of the flows, the carries and the marks of the positions at
which the inputs of a splitter differ.
-/

set_option linter.unusedSimpArgs false

namespace FSat

/-! ### Adding with given carries -/

/-- The carries out of all positions of a sum. -/
def carries : List Bool → List Bool → Bool → List Bool
  | a :: as, b :: bs, c => ((a && b) || (a && c) || (b && c)) :: carries as bs ((a && b) || (a && c) || (b && c))
  | _, _, _ => []

/-- The bits of a sum. -/
def sumBits : List Bool → List Bool → Bool → List Bool
  | a :: as, b :: bs, c => (a ^^ b ^^ c) :: sumBits as bs ((a && b) || (a && c) || (b && c))
  | _, _, _ => []

/-- The carry out of the last position. -/
def lastCarry : List Bool → List Bool → Bool → Bool
  | a :: as, b :: bs, c => lastCarry as bs ((a && b) || (a && c) || (b && c))
  | _, _, c => c

theorem carries_length : ∀ (a b : List Bool) (c : Bool), a.length = b.length → (carries a b c).length = a.length
  | [], [], _, _ => rfl
  | [], _ :: _, _, h => by simp at h
  | _ :: _, [], _, h => by simp at h
  | _ :: as, _ :: bs, _, h => by
    simp only [carries, List.length_cons]
    rw [carries_length as bs _ (by simpa using h)]

theorem sumBits_length : ∀ (a b : List Bool) (c : Bool), a.length = b.length → (sumBits a b c).length = a.length
  | [], [], _, _ => rfl
  | [], _ :: _, _, h => by simp at h
  | _ :: _, [], _, h => by simp at h
  | _ :: as, _ :: bs, _, h => by
    simp only [sumBits, List.length_cons]
    rw [sumBits_length as bs _ (by simpa using h)]

theorem sumBits_val : ∀ (a b : List Bool) (c : Bool), a.length = b.length →
    binVal (sumBits a b c) + 2 ^ a.length * bit (lastCarry a b c) = binVal a + binVal b + bit c
  | [], [], c, _ => by simp [sumBits, lastCarry, binVal]
  | [], _ :: _, _, h => by simp at h
  | _ :: _, [], _, h => by simp at h
  | a :: as, b :: bs, c, h => by
    have ih := sumBits_val as bs ((a && b) || (a && c) || (b && c)) (by simpa using h)
    simp only [sumBits, lastCarry, binVal_cons, List.length_cons, pow_succ]
    generalize binVal (sumBits as bs ((a && b) || (a && c) || (b && c))) = s at *
    generalize lastCarry as bs ((a && b) || (a && c) || (b && c)) = l at *
    generalize hP : 2 ^ as.length = P at *
    have e : P * 2 * bit l = 2 * (P * bit l) := by ring
    rw [e]
    generalize P * bit l = q at *
    revert ih
    cases a <;> cases b <;> cases c <;> simp [bit] <;> omega

/-- The value of a carry literal that may be absent. -/
def cinVal (v : Asg) : Option Lit → Bool
  | none => false
  | some l => ev v l

theorem addBit_fill {v : Asg} {a b out cout : Lit} {cin : Option Lit}
    (hc : ev v cout = ((ev v a && ev v b) || (ev v a && cinVal v cin) || (ev v b && cinVal v cin)))
    (ho : ev v out = (ev v a ^^ ev v b ^^ cinVal v cin)) : Sat v (addBit a b out cin cout) := by
  cases cin with
  | none =>
    simp only [cinVal] at hc ho
    simp only [addBit, Sat_cons, Sat_nil, SatC_cons, SatC_nil, ev_neg, hc, ho]
    cases ev v a <;> cases ev v b <;> simp
  | some c =>
    simp only [cinVal] at hc ho
    simp only [addBit, Sat_cons, Sat_nil, SatC_cons, SatC_nil, ev_neg, hc, ho]
    cases ev v a <;> cases ev v b <;> cases ev v c <;> simp

theorem addLoop_fill {v : Asg} : ∀ {a b out : List Lit} {cin : Option Lit} {s : List Lit} {cls : Cnf} {cf : Option Lit} {s2 : List Lit},
    addLoop fixedAlloc a b out cin s = .ok (cls, cf, s2) → a.length = b.length → a.length ≤ out.length →
    (s.map (ev v)).take a.length = carries (a.map (ev v)) (b.map (ev v)) (cinVal v cin) →
    (out.map (ev v)).take a.length = sumBits (a.map (ev v)) (b.map (ev v)) (cinVal v cin) →
    Sat v cls ∧ cinVal v cf = lastCarry (a.map (ev v)) (b.map (ev v)) (cinVal v cin)
  | [], [], out, cin, s, cls, cf, s2, h, _, _, _, _ => by
    simp only [addLoop, Except.ok.injEq, Prod.mk.injEq] at h
    obtain ⟨rfl, rfl, rfl⟩ := h
    exact ⟨(Sat_nil v).2 trivial, rfl⟩
  | [], _ :: _, _, _, _, _, _, _, _, hl, _, _, _ => by simp at hl
  | _ :: _, [], _, _, _, _, _, _, _, hl, _, _, _ => by simp at hl
  | _ :: _, _ :: _, [], _, _, _, _, _, _, _, hl, _, _ => by simp at hl
  | a :: as, b :: bs, o :: os, cin, [], cls, cf, s2, h, _, _, _, _ => by
    simp only [addLoop, fixedAlloc] at h
    cases h
  | a :: as, b :: bs, o :: os, cin, co :: s, cls, cf, s2, h, hl, ho, h1, h2 => by
    simp only [addLoop, fixedAlloc] at h
    cases e : addLoop fixedAlloc as bs os (some co) s with
    | error e' => rw [e] at h; cases h
    | ok r =>
      obtain ⟨cls', cf', s'⟩ := r
      rw [e] at h
      simp only [Except.ok.injEq, Prod.mk.injEq] at h
      obtain ⟨rfl, rfl, rfl⟩ := h
      simp only [List.map_cons, List.length_cons, List.take_succ_cons, carries, sumBits, List.cons.injEq] at h1 h2
      obtain ⟨h1, h1'⟩ := h1
      obtain ⟨h2, h2'⟩ := h2
      have hcv : cinVal v (some co) = ((ev v a && ev v b) || (ev v a && cinVal v cin) || (ev v b && cinVal v cin)) := h1
      obtain ⟨k1, k2⟩ := addLoop_fill e (by simpa using hl) (by simpa using ho) (by rw [hcv]; exact h1') (by rw [hcv]; exact h2')
      refine ⟨(Sat_append v _ _).2 ⟨addBit_fill h1 h2, k1⟩, ?_⟩
      rw [k2, hcv]
      rfl

theorem addNumbers_fill {v : Asg} {a b out s : List Lit} {cin : Option Lit} {cls : Cnf} {s2 : List Lit}
    (h : addNumbers fixedAlloc a b out cin false s = .ok (cls, s2))
    (hc : (s.map (ev v)).take a.length = carries (a.map (ev v)) (b.map (ev v)) (cinVal v cin))
    (hv : value v out = value v a + value v b + bit (cinVal v cin)) : Sat v cls := by
  unfold addNumbers at h
  split at h
  · cases h
  rename_i hab
  split at h
  · cases h
  rename_i hout
  push Not at hab hout
  cases e : addLoop fixedAlloc a b out cin s with
  | error e' => rw [e] at h; cases h
  | ok r =>
    obtain ⟨cls', cf, s'⟩ := r
    rw [e] at h
    simp only at h
    have hval := sumBits_val (a.map (ev v)) (b.map (ev v)) (cinVal v cin) (by simpa using hab)
    have hlen := sumBits_length (a.map (ev v)) (b.map (ev v)) (cinVal v cin) (by simpa using hab)
    rw [List.length_map] at hval hlen
    have hv' : binVal (out.map (ev v)) = binVal (a.map (ev v)) + binVal (b.map (ev v)) + bit (cinVal v cin) := hv
    rw [← hval] at hv'
    rcases hout with hout | hout
    · -- same length
      have hlt := binVal_lt (out.map (ev v))
      rw [List.length_map, hout] at hlt
      have hlast : lastCarry (a.map (ev v)) (b.map (ev v)) (cinVal v cin) = false := by
        cases hh : lastCarry (a.map (ev v)) (b.map (ev v)) (cinVal v cin)
        · rfl
        · rw [hh] at hv'
          simp [bit] at hv'
          omega
      rw [hlast] at hv'
      have hb : out.map (ev v) = sumBits (a.map (ev v)) (b.map (ev v)) (cinVal v cin) :=
        binVal_inj (by simp [hlen, hout]) (by simpa [bit] using hv')
      obtain ⟨k1, k2⟩ := addLoop_fill e hab (by omega) hc (by rw [hb, List.take_of_length_le (by omega)])
      rw [if_neg (by omega)] at h
      simp only [Bool.not_false, if_true] at h
      cases cf with
      | none => cases h
      | some c =>
        simp only [Except.ok.injEq, Prod.mk.injEq] at h
        obtain ⟨rfl, -⟩ := h
        refine (Sat_append v _ _).2 ⟨k1, ?_⟩
        rw [hlast] at k2
        simp only [cinVal] at k2
        simp [Sat_cons, Sat_nil, SatC_cons, SatC_nil, ev_neg, k2]
    · have hb : out.map (ev v) = sumBits (a.map (ev v)) (b.map (ev v)) (cinVal v cin) ++
          [lastCarry (a.map (ev v)) (b.map (ev v)) (cinVal v cin)] := by
        refine binVal_inj (by simp [hlen, hout]) ?_
        rw [hv', binVal_append, hlen]
        simp [binVal_cons]
      obtain ⟨k1, k2⟩ := addLoop_fill e hab (by omega) hc (by rw [hb, List.take_left' (by omega)])
      rw [if_pos (by omega)] at h
      cases cf with
      | none => cases h
      | some c =>
        cases hg : out.getLast? with
        | none => rw [hg] at h; cases h
        | some o =>
          rw [hg] at h
          simp only [Except.ok.injEq, Prod.mk.injEq] at h
          obtain ⟨rfl, -⟩ := h
          refine (Sat_append v _ _).2 ⟨k1, (Sat_literalsSame v _ _).2 ?_⟩
          have : (out.map (ev v)).getLast? = some (ev v o) := by rw [List.getLast?_map, hg]; rfl
          rw [hb, List.getLast?_concat] at this
          simp only [cinVal] at k2
          rw [k2]
          exact Option.some.inj this

/-- The carries of `halveBoth`. -/
def halfCarries (x y : List Bool) : List Bool := carries x.tail y.tail (x.headD false)

theorem halveBoth_fill {v : Asg} {in0 in1 out0 out1 carry : List Lit} {c : Cnf} (h : halveBoth in0 in1 out0 out1 carry = .ok c)
    (hl : out0.length = out1.length)
    (hc : (carry.map (ev v)).take (in0.length - 1) = halfCarries (in0.map (ev v)) (in1.map (ev v)))
    (h0 : value v out0 * 2 = value v in0 + value v in1) (h1 : value v out1 * 2 = value v in0 + value v in1) : Sat v c := by
  unfold halveBoth at h
  cases in0 with
  | nil => cases h
  | cons a as =>
    cases in1 with
    | nil => cases h
    | cons b bs =>
      simp only at h
      cases e1 : addNumbers fixedAlloc as bs out0 (some a) false carry with
      | error e => rw [e1] at h; cases h
      | ok r =>
        obtain ⟨c1, s1⟩ := r
        obtain ⟨c2, e2, hs2⟩ := c07_set_numbers_equal out0 out1 hl
        rw [e1, e2] at h
        simp only [Except.ok.injEq] at h
        subst h
        simp only [Sat_append, Sat_literalsSame]
        rw [value_cons, value_cons] at h0 h1
        have hab : ev v a = ev v b := by
          cases hx : ev v a <;> cases hy : ev v b <;> simp [hx, hy, bit] at h0 ⊢ <;> omega
        refine ⟨⟨addNumbers_fill e1 (by simpa [halfCarries, cinVal] using hc) ?_, hab⟩, (hs2 v).2 (by omega)⟩
        simp only [cinVal]
        rw [← hab] at h0
        omega

theorem splitOne_fill {v : Asg} {inF out0 out1 : List Lit} {c : Cnf} (h : splitOne inF out0 out1 = .ok c) (hl0 : out0.length = inF.length)
    (hl1 : out1.length = inF.length) (h0 : value v out0 * 2 = value v inF) (h1 : value v out1 * 2 = value v inF) : Sat v c := by
  unfold splitOne at h
  cases inF with
  | nil => cases h
  | cons a as =>
    have hne0 : out0 ≠ [] := by intro e; rw [e] at hl0; simp at hl0
    have hne1 : out1 ≠ [] := by intro e; rw [e] at hl1; simp at hl1
    have e0 := List.getLast?_eq_some_getLast hne0
    have e1 := List.getLast?_eq_some_getLast hne1
    rw [e0, e1] at h
    simp only at h
    obtain ⟨c0, f0, s0⟩ := c07_set_numbers_equal as out0.dropLast (by simp at hl0 ⊢; omega)
    obtain ⟨c1, f1, s1⟩ := c07_set_numbers_equal as out1.dropLast (by simp at hl1 ⊢; omega)
    rw [f0, f1] at h
    simp only [Except.ok.injEq] at h
    subst h
    rw [value_cons] at h0 h1
    have ha : ev v a = false := by
      cases hx : ev v a
      · rfl
      · rw [hx] at h0; simp [bit] at h0; omega
    rw [ha] at h0 h1
    simp only [bit, Bool.false_eq_true, if_false, Nat.zero_add] at h0 h1
    have hlt := value_lt v as
    have key : ∀ (out : List Lit) (hne : out ≠ []), out.length = as.length + 1 → value v out * 2 = 2 * value v as →
        value v as = value v out.dropLast ∧ ev v (out.getLast hne) = false := by
      intro out hne hl hv
      have hap : value v out = value v out.dropLast + 2 ^ as.length * value v [out.getLast hne] := by
        conv_lhs => rw [← List.dropLast_append_getLast hne]
        rw [value_append]
        simp [hl]
      rw [value_cons, value_nil] at hap
      cases hx : ev v (out.getLast hne)
      · rw [hx] at hap; simp [bit] at hap; exact ⟨by omega, rfl⟩
      · rw [hx] at hap; simp [bit] at hap; omega
    obtain ⟨k0, k1⟩ := key out0 hne0 (by simpa using hl0) h0
    obtain ⟨k2, k3⟩ := key out1 hne1 (by simpa using hl1) h1
    simp only [Sat_append, Sat_cons, Sat_nil, SatC_cons, SatC_nil, ev_neg, ha, k1, k3, Bool.not_false, or_false, and_true, true_and]
    exact ⟨(s0 v).2 k0, (s1 v).2 k2⟩

theorem mergeOne_fill {v : Asg} {in0 in1 outF carry : List Lit} {c : Cnf} (h : mergeOne in0 in1 outF carry = .ok c)
    (hc : (carry.map (ev v)).take in0.length = carries (in0.map (ev v)) (in1.map (ev v)) false)
    (hv : value v outF = value v in0 + value v in1) : Sat v c := by
  unfold mergeOne at h
  cases e : addNumbers fixedAlloc in0 in1 outF none false carry with
  | error e' => rw [e] at h; cases h
  | ok r =>
    rw [e] at h
    cases h
    exact addNumbers_fill e hc (by simpa [cinVal, bit] using hv)

/-! ### Clause lists -/

theorem concatE_fill {α : Type} {f : α → Except PyErr Cnf} {as : List α} {cs : Cnf} {v : Asg} (h : concatE f as = .ok cs)
    (hv : ∀ a ∈ as, ∀ c, f a = .ok c → Sat v c) : Sat v cs := by
  induction as generalizing cs with
  | nil => cases h; exact (Sat_nil v).2 trivial
  | cons a as ih =>
    unfold concatE at h
    cases e1 : f a with
    | error e => rw [e1] at h; cases h
    | ok c =>
      cases e2 : concatE f as with
      | error e => rw [e1, e2] at h; cases h
      | ok cs' =>
        rw [e1, e2] at h
        cases h
        exact (Sat_append v _ _).2 ⟨hv a (by simp) c e1, ih e2 fun b hb => hv b (by simp [hb])⟩

theorem joinE_fill {l : List (Except PyErr Cnf)} {cs : Cnf} {v : Asg} (h : joinE l = .ok cs) (hv : ∀ e ∈ l, ∀ c, e = .ok c → Sat v c) :
    Sat v cs := concatE_fill h hv

theorem impliesE_fill {cond : List Lit} {e : Except PyErr Cnf} {c : Cnf} {v : Asg} (h : impliesE cond e = .ok c)
    (hv : (∀ l ∈ cond, ev v l = true) → ∀ c', e = .ok c' → Sat v c') : Sat v c := by
  cases e with
  | error e => cases h
  | ok c' =>
    simp only [impliesE, Except.ok.injEq] at h
    subst h
    exact (Sat_implies v cond c').2 fun hc => hv hc c' rfl

theorem mem_zip_comp {β : Type} {n bits : Nat} {l : List (List Lit)} {l' : List β} (h : Arrayed n bits l) {e : List Lit × β}
    (he : e ∈ l.zip l') : ∃ i < n, i < l'.length ∧ e.1 = comp l i ∧ ∀ d, e.2 = l'.getD i d := by
  obtain ⟨i, hi, rfl⟩ := List.mem_iff_getElem.1 he
  have hi' := hi
  rw [List.length_zip] at hi'
  refine ⟨i, by rw [← h.1]; omega, by omega, ?_, fun d => ?_⟩
  · rw [List.getElem_zip, comp, List.getD_eq_getElem?_getD, List.getElem?_eq_getElem (by omega)]; rfl
  · rw [List.getElem_zip, List.getD_eq_getElem?_getD, List.getElem?_eq_getElem (by omega)]; rfl

theorem halveAll_fill {n bits cb : Nat} {pre : List Lit} {in0 in1 out0 out1 carry : List (List Lit)} {c : Cnf} {v : Asg}
    (h : halveAll pre in0 in1 out0 out1 carry = .ok c) (h0 : Arrayed n bits in0) (h1 : Arrayed n bits in1) (h2 : Arrayed n bits out0)
    (h3 : Arrayed n bits out1) (h4 : Arrayed n cb carry)
    (hv : (∀ l ∈ pre, ev v l = true) → ∀ i < n, value v (comp out0 i) * 2 = value v (comp in0 i) + value v (comp in1 i) ∧
      value v (comp out1 i) * 2 = value v (comp in0 i) + value v (comp in1 i) ∧
      ((comp carry i).map (ev v)).take (bits - 1) = halfCarries ((comp in0 i).map (ev v)) ((comp in1 i).map (ev v))) : Sat v c := by
  refine concatE_fill h fun e he c' hc' => impliesE_fill hc' fun hp c'' hc'' => ?_
  obtain ⟨i, hi, _, e0, e1⟩ := mem_zip_comp h0 he
  have e1 := e1 ([], [], [], [])
  rw [zip_getD [] ([], [], []) (by rw [h1.1]; exact hi) (by simp [h2.1, h3.1, h4.1, hi]),
    zip_getD [] ([], []) (by rw [h2.1]; exact hi) (by simp [h3.1, h4.1, hi]),
    zip_getD [] [] (by rw [h3.1]; exact hi) (by rw [h4.1]; exact hi)] at e1
  obtain ⟨k1, k2, k3⟩ := hv hp i hi
  obtain ⟨x0, x1, x2, x3, x4⟩ := e
  simp only [Prod.mk.injEq] at e0 e1
  obtain ⟨rfl, rfl, rfl, rfl⟩ := e1
  subst e0
  refine halveBoth_fill hc'' ((h2.comp_length hi).trans (h3.comp_length hi).symm) ?_ k1 k2
  rw [h0.comp_length hi]
  exact k3

theorem splitAll_fill {n bits : Nat} {pre : List Lit} {inF out0 out1 : List (List Lit)} {c : Cnf} {v : Asg}
    (h : splitAll pre inF out0 out1 = .ok c) (h0 : Arrayed n bits inF) (h1 : Arrayed n bits out0) (h2 : Arrayed n bits out1)
    (hv : (∀ l ∈ pre, ev v l = true) → ∀ i < n, value v (comp out0 i) * 2 = value v (comp inF i) ∧
      value v (comp out1 i) * 2 = value v (comp inF i)) : Sat v c := by
  refine concatE_fill h fun e he c' hc' => impliesE_fill hc' fun hp c'' hc'' => ?_
  obtain ⟨i, hi, _, e0, e1⟩ := mem_zip_comp h0 he
  have e1 := e1 ([], [])
  rw [zip_getD [] [] (by rw [h1.1]; exact hi) (by rw [h2.1]; exact hi)] at e1
  obtain ⟨k1, k2⟩ := hv hp i hi
  obtain ⟨x0, x1, x2⟩ := e
  simp only [Prod.mk.injEq] at e0 e1
  obtain ⟨rfl, rfl⟩ := e1
  subst e0
  exact splitOne_fill hc'' ((h1.comp_length hi).trans (h0.comp_length hi).symm) ((h2.comp_length hi).trans (h0.comp_length hi).symm) k1 k2

theorem mergeAll_fill {n bits cb : Nat} {pre : List Lit} {in0 in1 outF carry : List (List Lit)} {c : Cnf} {v : Asg}
    (h : mergeAll pre in0 in1 outF carry = .ok c) (h0 : Arrayed n bits in0) (h1 : Arrayed n bits in1) (h2 : Arrayed n bits outF)
    (h3 : Arrayed n cb carry)
    (hv : (∀ l ∈ pre, ev v l = true) → ∀ i < n, value v (comp outF i) = value v (comp in0 i) + value v (comp in1 i) ∧
      ((comp carry i).map (ev v)).take bits = carries ((comp in0 i).map (ev v)) ((comp in1 i).map (ev v)) false) : Sat v c := by
  refine concatE_fill h fun e he c' hc' => impliesE_fill hc' fun hp c'' hc'' => ?_
  obtain ⟨i, hi, _, e0, e1⟩ := mem_zip_comp h0 he
  have e1 := e1 ([], [], [])
  rw [zip_getD [] ([], []) (by rw [h1.1]; exact hi) (by simp [h2.1, h3.1, hi]),
    zip_getD [] [] (by rw [h2.1]; exact hi) (by rw [h3.1]; exact hi)] at e1
  obtain ⟨k1, k2⟩ := hv hp i hi
  obtain ⟨x0, x1, x2, x3⟩ := e
  simp only [Prod.mk.injEq] at e0 e1
  obtain ⟨rfl, rfl, rfl⟩ := e1
  subst e0
  refine mergeOne_fill hc'' ?_ k1
  rw [h0.comp_length hi]
  exact k2

theorem diff_fill {pre bits0 bits1 diff : List Lit} {v : Asg} (h1 : bits0.length = diff.length) (h2 : bits1.length = diff.length)
    (hv : (∀ l ∈ pre, ev v l = true) → diff.map (ev v) = List.zipWith xor (bits0.map (ev v)) (bits1.map (ev v)) ∧
      bits0.map (ev v) ≠ bits1.map (ev v)) : Sat v (diffClauses pre bits0 bits1 diff) := by
  unfold diffClauses
  rw [Sat_append, Sat_flatMap, Sat_implies, Sat_cons]
  refine ⟨fun e he => (Sat_implies _ _ _).2 fun hp => ?_, fun hp => ⟨?_, (Sat_nil v).2 trivial⟩⟩
  · obtain ⟨k1, _⟩ := hv hp
    obtain ⟨i, hi, rfl⟩ := List.mem_iff_getElem.1 he
    simp only [List.length_zip] at hi
    have hd : ev v (diff[i]'(by omega)) = (ev v (bits0[i]'(by omega)) ^^ ev v (bits1[i]'(by omega))) := by
      have := congrArg (fun l => l[i]?) k1
      rw [List.getElem?_eq_getElem (by simp; omega), List.getElem?_eq_getElem (by simp; omega)] at this
      simpa using this
    simp only [List.getElem_zip, Sat_cons, Sat_nil, SatC_cons, SatC_nil, ev_neg, hd]
    cases ev v (bits0[i]'(by omega)) <;> cases ev v (bits1[i]'(by omega)) <;> simp
  · obtain ⟨k1, k2⟩ := hv hp
    by_contra hc
    have hz : ∀ l ∈ diff, ev v l = false := by
      intro l hl
      cases hx : ev v l
      · rfl
      · exact absurd ⟨l, hl, hx⟩ hc
    apply k2
    apply List.ext_getElem (by simp; omega)
    intro i hi1 hi2
    simp only [List.length_map] at hi1 hi2
    have hd : ev v (diff[i]'(by omega)) = (ev v (bits0[i]'(by omega)) ^^ ev v (bits1[i]'(by omega))) := by
      have := congrArg (fun l => l[i]?) k1
      rw [List.getElem?_eq_getElem (by simp; omega), List.getElem?_eq_getElem (by simp; omega)] at this
      simpa using this
    rw [hz _ (List.getElem_mem _)] at hd
    simp only [List.getElem_map]
    revert hd
    cases ev v (bits0[i]'(by omega)) <;> cases ev v (bits1[i]'(by omega)) <;> simp

theorem columnFlow_fill {g : Grid} {flow : Nat × Nat → List (List Lit)} {x : Nat} {value' : Nat → Nat → Nat} {c : Cnf}
    (h : columnFlow g flow x value' = .ok c) {n bits : Nat} (hs : ∀ p, Arrayed n bits (flow p)) {v : Asg}
    (hv : ∀ y < g.height, ∀ i < n, value v (comp (flow (x, y)) i) = value' y i) : Sat v c := by
  refine concatE_fill h fun y hy c1 h1 => concatE_fill h1 fun e he c2 h2 => ?_
  rw [List.mem_range] at hy
  rw [List.mem_zipIdx_iff_getElem?] at he
  obtain ⟨hlt, hel⟩ := List.getElem?_eq_some_iff.1 he
  have hlt' : e.2 < n := by rw [← (hs (x, y)).1]; exact hlt
  have he1 : e.1 = comp (flow (x, y)) e.2 := by
    rw [comp, List.getD_eq_getElem?_getD, he]; rfl
  have := hv y hy e.2 hlt'
  obtain ⟨k1, k2⟩ := c06_set_number (value' y e.2) e.1
  have hx : ((value' y e.2 : Nat) : Int) < 2 ^ e.1.length := by
    have h3 := value_lt v e.1
    rw [he1, this] at h3
    rw [he1]
    exact_mod_cast h3
  obtain ⟨c', e', s'⟩ := k1 (by exact_mod_cast hx)
  rw [e'] at h2
  cases h2
  refine (s' v).2 ?_
  rw [he1, this]

theorem setMaximum_fill {x : Nat} {ls : List Lit} {c : Cnf} (h : setMaximum x ls = .ok c) {v : Asg} (hv : value v ls ≤ x) : Sat v c := by
  by_cases hlt : (x : Int) < 2 ^ ls.length
  · obtain ⟨c', e, s⟩ := c05_set_maximum x ls (by omega) hlt
    rw [e] at h; cases h
    exact (s v).2 (by omega)
  · rw [c05_set_maximum_rejects x ls (.inr (by omega))] at h
    cases h

/-! ### The flows below the ground -/

section
variable {g : Grid} {T : Nat × Nat → Tile}
open Classical

/-- The cell whose flow passes below a cell along an axis: the entrance of the underground belt, or the cell itself. -/
noncomputable def underCell (g : Grid) (T : Nat × Nat → Tile) (d : Dir) (r : Nat × Nat) : Nat × Nat :=
  if h : ∃ p0, CoveredBy g T d r p0 then choose h
  else if h : ∃ p0, CoveredBy g T d.opp r p0 then choose h else r

theorem underCell_covered (hg : g.WF) {d e : Dir} {r p0 : Nat × Nat} (h : CoveredBy g T d r p0) (he : d.Parallel e) :
    underCell g T e r = p0 := by
  unfold underCell
  rcases he with rfl | rfl
  · have h1 : ∃ p0, CoveredBy g T d r p0 := ⟨p0, h⟩
    rw [dif_pos h1, ((choose_spec h1).unique hg h (.inl rfl)).2]
  · have h1 : ∃ p0, CoveredBy g T e.opp r p0 := ⟨p0, h⟩
    have h2 : ¬ ∃ p0, CoveredBy g T e r p0 := by
      rintro ⟨p1, hp1⟩
      exact Dir.opp_ne e (hp1.unique hg h (.inr rfl)).1.symm
    rw [dif_neg h2, dif_pos h1, ((choose_spec h1).unique hg h (.inl rfl)).2]

theorem underCell_along {e : Dir} {r : Nat × Nat} (h : (T r).UgAlong e) : underCell g T e r = r := by
  unfold underCell
  rw [dif_neg (fun ⟨p, hp⟩ => hp.not_along h), dif_neg (fun ⟨p, hp⟩ => hp.not_along ((Tile.ugAlong_opp _ _).2 h))]

/-- The direction that stands for an axis. -/
def Dir.axisDir (d : Dir) : Dir := if d.axis = .horizontal then .right else .up

theorem Dir.axisDir_parallel (d : Dir) : d.Parallel d.axisDir := by
  cases d <;> simp [Dir.axisDir, Dir.axis, Dir.value, Dir.Parallel, Dir.opp]

/-- A quantity that belts pass on unchanged can be continued below the ground. -/
theorem transport_fill {C : Nat × Nat → CellVal} {L : Option Nat} (hg : g.WF) (hl : Lays g C T) (hu : PairedUndergrounds g.In g.nb T L)
    (hug : ∀ d p, g.In p → (C p).ug d = true → ∃ p0, CoveredBy g T d p p0) {Q : Nat × Nat → List Bool}
    (hs : ∀ p q d, g.In p → g.nb p d = some q → (C p).out d = true → ¬ (T p).IsSplitter → Q q = Q p)
    (hun : ∀ p q d k, g.In p → UgPair g.nb T p q d k → Q q = Q p) :
    TransportSem g C Q fun d p => Q (underCell g T d.axisDir p) := by
  have v3 : ∀ p d p0, CoveredBy g T d p p0 → Q (underCell g T d.axisDir p) = Q p0 := by
    intro p d p0 h0
    rw [underCell_covered hg h0 d.axisDir_parallel]
  have v4 : ∀ p d, (T p).UgAlong d → Q (underCell g T d.axisDir p) = Q p := by
    intro p d ha
    rw [underCell_along]
    rcases d.axisDir_parallel with h | h
    · rw [← h]; exact ha
    · rw [h] at ha; exact (Tile.ugAlong_opp _ _).1 ha
  constructor
  · intro d p q hp hq ho hsp
    refine (hs p q d hp hq ho ?_).symm
    intro h
    rw [(hl p hp).isSplitter_iff.2 h] at hsp; cases hsp
  · intro d p q hp hq h1
    obtain ⟨p0, h0, r, k, i, hpair, hi0, hik, hw⟩ := hug d p hp h1
    rw [v3 p d p0 ⟨h0, r, k, i, hpair, hi0, hik, hw⟩]
    have hw' := walk_succ_some hw hq
    rcases Nat.eq_or_lt_of_le (Nat.succ_le_of_lt hik) with rfl | hlt
    · have : r = q := by have := hpair.2.1.symm.trans hw'; simpa using this
      subst this
      rw [v4 r d hpair.along_right]
      exact (hun p0 r d _ h0 hpair).symm
    · rw [v3 q d p0 ⟨h0, r, k, i + 1, hpair, by omega, hlt, hw'⟩]
  · intro d p q hp hq hi hs ho
    have ht := (hl p hp).inp_takes hi
    have hTp : T p = .underground d true := by
      have ha := hl p hp
      cases hT : T p with
      | belt i o => rw [hT] at ha; have := (ha.2.2.2.1 o).2 rfl; rw [ho] at this; cases this
      | underground e b => rw [hT] at ht; cases b <;> simp_all [Tile.Takes]
      | splitter e b => rw [hT] at ha; rw [ha.splitter_flags.1] at hs; cases hs
      | _ => rw [hT] at ht; exact ht.elim
    obtain ⟨r, k, hr, hpair⟩ := hu.entrance p d hp hTp
    rw [v3 q d p ⟨hp, r, k, 1, hpair, by omega, by have := hpair.1; omega, hq⟩]
  · intro d p q hp hq ho hs hi
    have hq' := Grid.nb_in hg hq
    have ht := (hl q hq').out_emits ho
    have hTq : T q = .underground d false := by
      have ha := hl q hq'
      cases hT : T q with
      | belt i o => rw [hT] at ha; have := (ha.2.2.1 i).2 rfl; rw [hi] at this; cases this
      | underground e b => rw [hT] at ht; cases b <;> simp_all [Tile.Emits]
      | splitter e b => rw [hT] at ha; rw [ha.splitter_flags.1] at hs; cases hs
      | _ => rw [hT] at ht; exact ht.elim
    obtain ⟨r, k, hr, hpair⟩ := hu.exit q d hq' hTq
    have hk := hpair.1
    obtain ⟨s, hs1, hs2⟩ := walk_le hpair.2.1 (show k - 1 ≤ k by omega)
    rw [show k - (k - 1) = 1 by omega] at hs2
    have hsp : s = p := by
      have hsin := walk_in hg hr hs1
      exact Grid.nb_inj hg hsin hp (d := d) hs2 hq
    subst hsp
    rw [v3 s d r ⟨hr, q, k, k - 1, hpair, by omega, by omega, hs1⟩]
    exact (hun r q d k hr hpair).symm

end

/-! ### The members of a tile -/

/-- The members have these truth values. -/
structure FlowLits.Holds (v : Asg) (F : FlowLits) (fl di ca ux uy : List (List Bool)) : Prop where
  flow : F.flow.map (List.map (ev v)) = fl
  diff : F.diff.map (List.map (ev v)) = di
  carry : F.carry.map (List.map (ev v)) = ca
  ux : F.ux.map (List.map (ev v)) = ux
  uy : F.uy.map (List.map (ev v)) = uy

/-- The literals of the members in their order. -/
def FlowLits.flat (F : FlowLits) : List Lit := F.flow.flatten ++ (F.diff.flatten ++ (F.carry.flatten ++ (F.ux.flatten ++ F.uy.flatten)))

theorem comp_map {v : Asg} {l : List (List Lit)} {m : List (List Bool)} (h : l.map (List.map (ev v)) = m) (i : Nat) :
    (comp l i).map (ev v) = m.getD i [] := by
  subst h
  unfold comp
  simp only [List.getD_eq_getElem?_getD, List.getElem?_map]
  cases l[i]? <;> rfl

theorem flatten_map {v : Asg} {l : List (List Lit)} {m : List (List Bool)} (h : l.map (List.map (ev v)) = m) :
    l.flatten.map (ev v) = m.flatten := by
  subst h
  rw [List.map_flatten]

theorem FlowLits.holds {v : Asg} {F : FlowLits} {n bits cb : Nat} {fl di ca ux uy : List (List Bool)} (hF : F.Shape n bits cb)
    (h1 : Arrayed n bits fl) (h2 : Arrayed n bits di) (h3 : Arrayed n cb ca) (h4 : Arrayed n bits ux) (h5 : Arrayed n bits uy)
    (h : F.flat.map (ev v) = fl.flatten ++ (di.flatten ++ (ca.flatten ++ (ux.flatten ++ uy.flatten)))) : F.Holds v fl di ca ux uy := by
  unfold FlowLits.flat at h
  simp only [List.map_append, List.map_flatten] at h
  have a1 := hF.flow.map (ev v)
  have a2 := hF.diff.map (ev v)
  have a3 := hF.carry.map (ev v)
  have a4 := hF.ux.map (ev v)
  have a5 := hF.uy.map (ev v)
  obtain ⟨e1, h⟩ := List.append_inj h (by rw [a1.flatten_length, h1.flatten_length])
  obtain ⟨e2, h⟩ := List.append_inj h (by rw [a2.flatten_length, h2.flatten_length])
  obtain ⟨e3, h⟩ := List.append_inj h (by rw [a3.flatten_length, h3.flatten_length])
  obtain ⟨e4, e5⟩ := List.append_inj h (by rw [a4.flatten_length, h4.flatten_length])
  exact ⟨a1.flatten_inj h1 e1, a2.flatten_inj h2 e2, a3.flatten_inj h3 e3, a4.flatten_inj h4 e4, a5.flatten_inj h5 e5⟩

theorem flatten_number (n bits : Nat) (i : List (List Lit)) : flattenNested (Tmpl.number bits false).flatten [n] i = i.flatten := by
  show i.flatMap (fun c => c) = i.flatten
  simp [List.flatMap, Function.id_def]

theorem flatten_bool (n bits : Nat) (i : List (List Lit)) : flattenNested Tmpl.bool.flatten [n, bits] i = i.flatten := by
  show i.flatMap (fun c => c.flatMap fun l => [l]) = i.flatten
  have : ∀ c : List Lit, (c.flatMap fun l => [l]) = c := fun c => by simp
  simp only [this]
  simp [List.flatMap]

theorem nToN_flat (n bits : Nat) (i : (nToNFields n bits).Inst) : (nToNFields n bits).flatten i = (nToNLitsOf n bits i).flat := by
  obtain ⟨i1, i2, i3, i4, i5, i6⟩ := i
  exact congrArg₂ (· ++ ·) (flatten_number n bits i1) (congrArg₂ (· ++ ·) (flatten_bool n bits i2)
    (congrArg₂ (· ++ ·) (flatten_bool n (bits - 1) i3) (congrArg₂ (· ++ ·) (flatten_number n bits i4)
      ((List.append_nil _).trans (flatten_number n bits i5)))))

theorem nToM_member_flat (n bits : Nat) (i : (nToMMember n bits).Inst) : (nToMMember n bits).flatten i = (nToMLitsOf n bits i).flat := by
  obtain ⟨i1, i2, i3, i4, i5, i6⟩ := i
  exact congrArg₂ (· ++ ·) (flatten_number n bits i1) (congrArg₂ (· ++ ·) (flatten_bool n bits i2)
    (congrArg₂ (· ++ ·) (flatten_bool n (bits) i3) (congrArg₂ (· ++ ·) (flatten_number n bits i4)
      ((List.append_nil _).trans (flatten_number n bits i5)))))

theorem nToN_count (n bits : Nat) : (nToNFields n bits).variableCount =
    n * bits + (n * bits + (n * (bits - 1) + (n * bits + n * bits))) := by
  simp [nToNFields, TFields.variableCount, Tmpl.variableCount]
  try ring

theorem nToM_count (m n bits : Nat) : (nToMFields m n bits).variableCount =
    (m * bits + (m * bits + (m * bits + (m * bits + m * bits)))) + (n * bits + (n * bits + (n * bits + (n * bits + n * bits)))) := by
  simp [nToMFields, nToMMember, TFields.variableCount, Tmpl.variableCount]
  try ring

theorem flat_length {n bits cb : Nat} {fl di ca ux uy : List (List Bool)}
    (h1 : Arrayed n bits fl) (h2 : Arrayed n bits di) (h3 : Arrayed n cb ca) (h4 : Arrayed n bits ux) (h5 : Arrayed n bits uy) :
    (fl.flatten ++ (di.flatten ++ (ca.flatten ++ (ux.flatten ++ uy.flatten)))).length =
      n * bits + (n * bits + (n * cb + (n * bits + n * bits))) := by
  simp only [List.length_append, h1.flatten_length, h2.flatten_length, h3.flatten_length, h4.flatten_length, h5.flatten_length]

/-- `mkGrid_free` for every assignment that agrees on the variables of the grid. -/
theorem mkGrid_assign (width height : Nat) (edge : EdgeMode) (colours ugLen : Option Nat) (extras : TFields)
    (C : Nat × Nat → CellVal) (E : Nat × Nat → List Bool)
    (hc : ∀ p, (C p).colour.length = ((colours.getD 1) - 1).size)
    (hx : ∀ p, (C p).colourUx.length = ((colours.getD 1) - 1).size)
    (hy : ∀ p, (C p).colourUy.length = ((colours.getD 1) - 1).size) (hE : ∀ p, (E p).length = extras.variableCount) :
    ∃ v0 : Asg, ∀ v, Agree (height * width * (gridFields colours extras).variableCount) v0 v →
      ∀ p, (mkGrid width height edge colours ugLen extras 0).In p →
        (mkGrid width height edge colours ugLen extras 0).vals v p = C p ∧
        (extras.flatten (toExtras colours extras (cellInstance width colours extras 0 p.1 p.2))).map (ev v) = E p := by
  obtain ⟨v0, _, h2⟩ := exists_cells (fun _ => false) width height (gridFields colours extras).variableCount 0
    (fun p => (C p).flat ++ E p) (by
      intro p
      simp only [CellVal.flat, bools, List.length_append, List.length_cons, List.length_nil, hc, hx, hy, hE, gridFields_count]
      omega)
  refine ⟨v0, fun v hv p hp => ?_⟩
  refine evalTile_flat v colours extras _ (C p) (E p) (hc p) (hx p) (hy p) ?_
  rw [← h2 p.1 p.2 hp.1 hp.2, freshLits_map_ev, freshLits_map_ev]
  apply List.map_congr_left
  intro k hk
  rw [List.mem_range] at hk
  apply hv
  have hle : (p.2 * width + p.1) * (gridFields colours extras).variableCount + (gridFields colours extras).variableCount ≤
      height * width * (gridFields colours extras).variableCount := by
    rw [← Nat.succ_mul]
    apply Nat.mul_le_mul_right
    have h1 : p.1 < width := hp.1
    have h3 : p.2 < height := hp.2
    calc p.2 * width + p.1 + 1 ≤ p.2 * width + width := by omega
      _ = (p.2 + 1) * width := by rw [Nat.succ_mul]
      _ ≤ height * width := Nat.mul_le_mul_right _ h3
  omega

/-- Every choice of truth values of the members of all tiles is realised by an assignment. -/
theorem nToN_assign (width height n bits : Nat) (ugLen : Option Nat) (C : Nat × Nat → CellVal)
    (hc : ∀ p, (C p).colour.length = 0 ∧ (C p).colourUx.length = 0 ∧ (C p).colourUy.length = 0)
    {fl di ca ux uy : Nat × Nat → List (List Bool)} (h1 : ∀ p, Arrayed n bits (fl p)) (h2 : ∀ p, Arrayed n bits (di p))
    (h3 : ∀ p, Arrayed n (bits - 1) (ca p)) (h4 : ∀ p, Arrayed n bits (ux p)) (h5 : ∀ p, Arrayed n bits (uy p)) :
    ∃ v0, ∀ v, Agree (height * width * (gridFields none (nToNFields n bits)).variableCount) v0 v →
      ∀ p, (mkGrid width height ⟨false, false⟩ none ugLen (nToNFields n bits) 0).In p →
      (mkGrid width height ⟨false, false⟩ none ugLen (nToNFields n bits) 0).vals v p = C p ∧
      (nToNLits width n bits p).Holds v (fl p) (di p) (ca p) (ux p) (uy p) := by
  obtain ⟨v0, hv⟩ := mkGrid_assign width height ⟨false, false⟩ none ugLen (nToNFields n bits) C
    (fun p => (fl p).flatten ++ ((di p).flatten ++ ((ca p).flatten ++ ((ux p).flatten ++ (uy p).flatten))))
    (fun p => (hc p).1) (fun p => (hc p).2.1) (fun p => (hc p).2.2)
    (fun p => by rw [flat_length (h1 p) (h2 p) (h3 p) (h4 p) (h5 p), nToN_count])
  refine ⟨v0, fun v ha p hp => ⟨(hv v ha p hp).1, ?_⟩⟩
  have := (hv v ha p hp).2
  rw [nToN_flat] at this
  exact FlowLits.holds (nToNLits_shape width n bits p) (h1 p) (h2 p) (h3 p) (h4 p) (h5 p) this

end FSat
