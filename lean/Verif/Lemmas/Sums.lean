import Verif.Lemmas.Numbers

namespace FSat

/-- Sum of the values of several numbers. -/
def sumVal (v : Asg) (ns : List (List Lit)) : Nat := (ns.map (value v)).sum

theorem sumVal_agree {s : Nat} {v w : Asg} (h : Agree s v w) {ns : List (List Lit)} (hl : ∀ n ∈ ns, LBound s n) :
    sumVal w ns = sumVal v ns := by
  simp only [sumVal]
  congr 1
  exact List.map_congr_left fun n hn => value_agree h (hl n hn)

/-- Value relation of `sum_numbers`. -/
def SumRel (ns : List (List Lit)) (out : List Lit) (ovf : Bool) (v : Asg) : Prop :=
  if ovf = true then value v out = sumVal v ns % 2 ^ out.length else value v out = sumVal v ns

theorem SumRel_agree {ns : List (List Lit)} {out : List Lit} {ovf : Bool} {s : Nat} (hn : ∀ n ∈ ns, LBound s n)
    (ho : LBound s out) (v w : Asg) (h : Agree s v w) : SumRel ns out ovf w ↔ SumRel ns out ovf v := by
  simp only [SumRel, value_agree h ho, sumVal_agree h hn]

theorem AddRel_same_len {a b out : List Lit} {cin : Option Lit} {ovf : Bool} (h : out.length = a.length) (v : Asg) :
    AddRel a b out cin ovf v ↔
      if ovf = true then value v out = (value v a + value v b + carryVal v cin) % 2 ^ out.length
      else value v out = value v a + value v b + carryVal v cin := by
  simp only [AddRel, h, true_and]

/-- An output of the right width can be given any value. -/
theorem exists_assign_value (s n : Nat) (v : Asg) (x : Nat) (hx : x < 2 ^ n) :
    ∃ w, Agree s v w ∧ value w (freshLits s n) = x := by
  obtain ⟨bs, hl, hb⟩ := exists_bits n x hx
  obtain ⟨w, hw, hm⟩ := exists_assign_fresh s v bs
  rw [hl] at hm
  exact ⟨w, hw, by rw [value, hm, hb]⟩

theorem sumLoop_pool (size : Nat) (output : List Lit) (ovf : Bool) (n0 : List Lit) (ns : List (List Lit)) (s : Nat)
    (hsz : 0 < size) (h0 : n0.length = size) (hns : ∀ n ∈ ns, n.length = size) (ho : output.length = size)
    (hne : ns ≠ []) (hb0 : LBound s n0) (hbs : ∀ n ∈ ns, LBound s n) (hbo : LBound s output) :
    ∃ cls s', sumLoop poolAlloc size output ovf n0 ns s = .ok (cls, s') ∧
      Encodes s s' cls (SumRel (n0 :: ns) output ovf) := by
  induction ns generalizing n0 s with
  | nil => exact absurd rfl hne
  | cons n1 rest ih =>
    have h1 : n1.length = size := hns n1 (by simp)
    have hn0 : n0 ≠ [] := by intro h; simp [h] at h0; omega
    cases rest with
    | nil =>
      obtain ⟨cls, he, hen⟩ := addNumbers_pool n0 n1 output none ovf s (by omega) (by omega) (Or.inl hn0) hb0
        (hbs n1 (by simp)) hbo (by intro l hl; simp at hl)
      refine ⟨cls, _, by simpa [sumLoop] using he, hen.le, hen.bound, ?_, ?_⟩
      · intro v hs
        have := hen.sound v hs
        rw [AddRel_same_len (by omega)] at this
        simpa [SumRel, sumVal, carryVal] using this
      · intro v hr
        apply hen.complete
        rw [AddRel_same_len (by omega)]
        simpa [SumRel, sumVal, carryVal] using hr
    | cons n2 rest =>
      have hfl := LBound_freshLits s size
      obtain ⟨c1, he1, hen1⟩ := addNumbers_pool n0 n1 (freshLits s size) none ovf (s + size) (by omega) (by simp; omega)
        (Or.inl hn0) (hb0.mono (by omega)) ((hbs n1 (by simp)).mono (by omega)) hfl (by intro l hl; simp at hl)
      obtain ⟨c2, s2, he2, hen2⟩ := ih (freshLits s size) (s + size + n0.length) (by simp)
        (fun n hn => hns n (by simp [hn])) (by simp) (hfl.mono (by omega))
        (fun n hn => (hbs n (by simp [hn])).mono (by omega)) (hbo.mono (by omega))
      have hlt1 := hen1.le
      have hlt2 := hen2.le
      refine ⟨c1 ++ c2, s2, ?_, by omega, ?_, ?_, ?_⟩
      · simp only [sumLoop, allocMany_pool, he1, he2]
      · simp only [CBound_append]; exact ⟨hen1.bound.mono hen2.le, hen2.bound⟩
      · intro v hs
        simp only [Sat_append] at hs
        have r1 := hen1.sound v hs.1
        have r2 := hen2.sound v hs.2
        rw [AddRel_same_len (by simp; omega)] at r1
        simp only [SumRel, sumVal, List.map_cons, List.sum_cons, carryVal, freshLits_length, Nat.add_zero, ho] at r1 r2 ⊢
        cases ovf with
        | true =>
          simp only [if_true] at *
          rw [r2, r1, Nat.mod_add_mod, Nat.add_assoc]
        | false =>
          simp only [Bool.false_eq_true, if_false] at *
          rw [r2, r1]; omega
      · intro v hr
        -- choose the intermediate value
        let x := if ovf = true then (value v n0 + value v n1) % 2 ^ size else value v n0 + value v n1
        have hx : x < 2 ^ size := by
          simp only [x]
          split
          · exact Nat.mod_lt _ (Nat.two_pow_pos _)
          · rename_i ho'
            simp only [SumRel, sumVal, List.map_cons, List.sum_cons] at hr
            rw [if_neg ho'] at hr
            have := value_lt v output
            rw [ho] at this; omega
        obtain ⟨w, hw, hwx⟩ := exists_assign_value s size v x hx
        have hA : AddRel n0 n1 (freshLits s size) none ovf w := by
          rw [AddRel_same_len (by simp; omega), hwx, value_agree hw hb0, value_agree hw (hbs n1 (by simp))]
          simp only [x, carryVal, freshLits_length, Nat.add_zero]
          split <;> rfl
        obtain ⟨u, hu, hsu⟩ := hen1.complete w hA
        have hwu : Agree s v u := Agree.trans (v := v) hw (Agree.mono hu (by omega))
        have hS : SumRel (freshLits s size :: n2 :: rest) output ovf u := by
          have hr' := (SumRel_agree (ns := n0 :: n1 :: n2 :: rest) (ovf := ovf)
            (by intro n hn; rcases List.mem_cons.1 hn with rfl | hn
                · exact hb0
                · exact hbs n hn) hbo v u hwu).2 hr
          have hfu : value u (freshLits s size) = x := by rw [value_agree hu hfl, hwx]
          have e0 := value_agree hwu hb0
          have e1 := value_agree hwu (hbs n1 (by simp))
          simp only [SumRel, sumVal, List.map_cons, List.sum_cons, ho, hfu, e0, e1] at hr' ⊢
          cases ovf with
          | true =>
            simp only [x, if_true] at *
            rw [hr', Nat.mod_add_mod, Nat.add_assoc]
          | false =>
            simp only [x, Bool.false_eq_true, if_false] at *
            rw [hr']; omega
        obtain ⟨t, ht, hst⟩ := hen2.complete u hS
        refine ⟨t, Agree.trans (v := v) hwu (Agree.mono ht (by omega)), ?_⟩
        simp only [Sat_append]
        exact ⟨(Sat_agree ht hen1.bound).2 hsu, hst⟩

theorem sumNumbers_pool (numbers : List (List Lit)) (output : List Lit) (ovf : Bool) (s : Nat)
    (hsz : 0 < output.length) (hn : 2 ≤ numbers.length) (hlen : ∀ n ∈ numbers, n.length = output.length)
    (hbs : ∀ n ∈ numbers, LBound s n) (hbo : LBound s output) :
    ∃ cls s', sumNumbers poolAlloc numbers output ovf s = .ok (cls, s') ∧
      Encodes s s' cls (SumRel numbers output ovf) := by
  match numbers, hn with
  | n0 :: n1 :: rest, _ =>
    have h0 := hlen n0 (by simp)
    obtain ⟨cls, s', he, hen⟩ := sumLoop_pool n0.length output ovf n0 (n1 :: rest) s (by omega) rfl
      (fun n hn => by rw [h0]; exact hlen n (List.mem_cons_of_mem _ hn)) h0.symm (by simp) (hbs n0 (by simp))
      (fun n hn => hbs n (List.mem_cons_of_mem _ hn)) hbo
    refine ⟨cls, s', ?_, hen⟩
    simp only [sumNumbers]
    rw [if_pos]
    · exact he
    · exact ⟨fun n hn => by rw [h0]; exact hlen n hn, h0⟩

/-! ### get_popcount -/

theorem binLength_half (n : Nat) (h : 2 ≤ n) : binLength (n + 1) = binLength (n / 2 + 1) + 1 := by
  simp only [binLength]
  rw [Nat.clog_of_two_le (by omega) (by omega)]
  congr 2
  omega

theorem countTrue_append (v : Asg) (a b : List Lit) : countTrue v (a ++ b) = countTrue v a + countTrue v b := by
  simp [countTrue, trues, List.count_append]
theorem countTrue_cons (v : Asg) (l : Lit) (b : List Lit) : countTrue v (l :: b) = bit (ev v l) + countTrue v b := by
  simp only [countTrue, trues, List.map_cons, List.count_cons]
  cases ev v l <;> simp [Nat.add_comm]
@[simp] theorem countTrue_nil (v : Asg) : countTrue v [] = 0 := by simp [countTrue, trues]
theorem countTrue_le (v : Asg) (ls : List Lit) : countTrue v ls ≤ ls.length := by
  have := List.count_le_length (a := true) (l := ls.map (ev v))
  simpa [countTrue, trues] using this

theorem countTrue_split (v : Asg) (bs : List Lit) :
    countTrue v bs = countTrue v (bs.take (bs.length / 2)) + countTrue v ((bs.take (2 * (bs.length / 2))).drop (bs.length / 2))
      + carryVal v (if bs.length % 2 ≠ 0 then bs.getLast? else none) := by
  have h1 : bs = bs.take (2 * (bs.length / 2)) ++ bs.drop (2 * (bs.length / 2)) := (List.take_append_drop _ _).symm
  have h2 : bs.take (2 * (bs.length / 2)) = bs.take (bs.length / 2) ++ (bs.take (2 * (bs.length / 2))).drop (bs.length / 2) := by
    have := (List.take_append_drop (bs.length / 2) (bs.take (2 * (bs.length / 2)))).symm
    rw [List.take_take] at this
    rwa [Nat.min_eq_left (by omega)] at this
  conv => lhs; rw [h1, countTrue_append, h2, countTrue_append]
  congr 1
  split
  · rename_i hodd
    have hne : bs ≠ [] := by intro h; simp [h] at hodd
    have hd : bs.drop (2 * (bs.length / 2)) = [bs.getLast hne] := by
      conv => lhs; arg 2; rw [← List.dropLast_concat_getLast hne]
      rw [List.drop_append_of_le_length (by simp; omega), List.drop_of_length_le (by simp; omega)]; rfl
    rw [hd, List.getLast?_eq_some_getLast hne, countTrue_cons]; simp [carryVal, bit]
  · rename_i heven
    rw [List.drop_of_length_le (by omega)]; simp [carryVal]

/-- Relation of `get_popcount`. -/
def PopRel (bits out : List Lit) (v : Asg) : Prop := value v out = countTrue v bits

theorem getPopcount_pool_aux (n : Nat) : ∀ (bits output : List Lit) (s : Nat) (_ : bits.length = n)
    (hn : 2 ≤ bits.length) (hlen : output.length = binLength (bits.length + 1)) (hb : LBound s bits) (ho : LBound s output),
    ∃ cls s', getPopcount poolAlloc bits output s = .ok (cls, s') ∧ Encodes s s' cls (PopRel bits output) := by
  induction n using Nat.strong_induction_on with
  | _ n ih =>
  intro bits output s hbn hn hlen hb ho
  match bits, hn with
  | [b0, b1], _ =>
    have hl : output.length = 2 := by rw [hlen]; simp only [List.length_cons, List.length_nil]; decide
    simp only [LBound_cons] at hb
    obtain ⟨cls, he, hen⟩ := addNumbers_pool [b0] [b1] output none false s rfl (by simp [hl]) (Or.inl (by simp))
      (by simp [hb]) (by simp [hb]) ho (by intro l hl; simp at hl)
    have hiff : ∀ v, AddRel [b0] [b1] output none false v ↔ PopRel [b0, b1] output v := by
      intro v; simp [AddRel, PopRel, countTrue_cons, value_cons, carryVal]
    refine ⟨cls, _, ?_, hen.le, hen.bound, fun v hs => (hiff v).1 (hen.sound v hs), fun v hr => hen.complete v ((hiff v).2 hr)⟩
    rw [getPopcount, if_neg (by simp [hlen])]; simpa using he
  | [b0, b1, b2], _ =>
    have hl : output.length = 2 := by rw [hlen]; simp only [List.length_cons, List.length_nil]; decide
    simp only [LBound_cons] at hb
    obtain ⟨cls, he, hen⟩ := addNumbers_pool [b0] [b1] output (some b2) false s rfl (by simp [hl]) (Or.inl (by simp))
      (by simp [hb]) (by simp [hb]) ho (by intro l hl; simp at hl; subst hl; exact hb.2.2.1)
    have hiff : ∀ v, AddRel [b0] [b1] output (some b2) false v ↔ PopRel [b0, b1, b2] output v := by
      intro v
      have e : (carryVal v (some b2)) = bit (ev v b2) := rfl
      simp [AddRel, PopRel, countTrue_cons, value_cons, e]; omega
    refine ⟨cls, _, ?_, hen.le, hen.bound, fun v hs => (hiff v).1 (hen.sound v hs), fun v hr => hen.complete v ((hiff v).2 hr)⟩
    rw [getPopcount, if_neg (by simp [hlen])]; simpa using he
  | b0 :: b1 :: b2 :: b3 :: rest, _ =>
    generalize hbs : b0 :: b1 :: b2 :: b3 :: rest = bs at *
    have hL : 4 ≤ bs.length := by rw [← hbs]; simp
    let sub := bs.length / 2
    let m := output.length - 1
    have hm : m = binLength (sub + 1) := by
      have := binLength_half bs.length (by omega)
      simp only [m, sub]; omega
    have hol : output.length = m + 1 := by
      have := binLength_half bs.length (by omega)
      simp only [m]; omega
    have hm1 : 0 < m := by
      rw [hm, binLength]; exact Nat.clog_pos (by omega) (by omega)
    let tA := bs.take sub
    let tB := (bs.take (2 * sub)).drop sub
    have htA : tA.length = sub := by simp [tA]; omega
    have htB : tB.length = sub := by simp [tB]; omega
    have hbA : LBound s tA := hb.sublist fun _ h => List.mem_of_mem_take h
    have hbB : LBound s tB := hb.sublist fun _ h => List.mem_of_mem_take (List.mem_of_mem_drop h)
    let oA := freshLits s m
    let oB := freshLits (s + m) m
    have hoA : LBound (s + m) oA := LBound_freshLits s m
    have hoB : LBound (s + m + m) oB := LBound_freshLits (s + m) m
    have hlA : oA.length = m := by simp [oA]
    have hlB : oB.length = m := by simp [oB]
    obtain ⟨c1, s3, he1, hen1⟩ := ih tA.length (by omega) tA oA (s + m + m) rfl (by omega) (by rw [htA, hlA]; exact hm)
      (hbA.mono (by omega)) (hoA.mono (by omega))
    obtain ⟨c2, s4, he2, hen2⟩ := ih tB.length (by omega) tB oB s3 rfl (by omega) (by rw [htB, hlB]; exact hm)
      (hbB.mono (by have := hen1.le; omega)) (hoB.mono hen1.le)
    let cin := if bs.length % 2 ≠ 0 then bs.getLast? else none
    have hcin : OBound s cin := by
      intro l hl
      simp only [cin] at hl
      split at hl
      · exact hb l (List.mem_of_getLast? hl)
      · simp at hl
    have l1 := hen1.le
    have l2 := hen2.le
    obtain ⟨c3, he3, hen3⟩ := addNumbers_pool oA oB output cin false s4 (by omega) (by omega)
      (Or.inl (by intro h; rw [h] at hlA; simp at hlA; omega))
      (hoA.mono (by omega)) (hoB.mono (by omega)) (ho.mono (by omega)) (fun l hl => by have := hcin l hl; omega)
    have l3 := hen3.le
    have hrel : ∀ v, AddRel oA oB output cin false v ↔ value v output = value v oA + value v oB + carryVal v cin := by
      intro v; simp [AddRel]
    have hsplit : ∀ v, countTrue v bs = countTrue v tA + countTrue v tB + carryVal v cin := fun v => countTrue_split v bs
    refine ⟨c1 ++ c2 ++ c3, s4 + oA.length, ?_, by omega, ?_, ?_, ?_⟩
    · subst hbs
      rw [getPopcount, if_neg (by simp [hlen])]
      simp only [allocMany_pool]
      simp only [tA, tB, sub, m, oA, oB, cin] at he1 he2 he3
      rw [he1]; dsimp only; rw [he2]; dsimp only; rw [he3]
    · simp only [CBound_append]
      exact ⟨⟨hen1.bound.mono (by omega), hen2.bound.mono (by omega)⟩, hen3.bound⟩
    · intro v hs
      simp only [Sat_append] at hs
      have r1 := hen1.sound v hs.1.1
      have r2 := hen2.sound v hs.1.2
      have r3 := (hrel v).1 (hen3.sound v hs.2)
      simp only [PopRel] at r1 r2 ⊢
      rw [r3, r1, r2, hsplit]
    · intro v hr
      have hlt : ∀ (t : List Lit), t.length = sub → countTrue v t < 2 ^ m := by
        intro t ht
        have h1 := countTrue_le v t
        have h2 : sub + 1 ≤ 2 ^ m := by rw [hm]; exact Nat.le_pow_clog (by omega) _
        omega
      obtain ⟨w1, hw1, hv1⟩ := exists_assign_value s m v (countTrue v tA) (hlt tA htA)
      obtain ⟨w2, hw2, hv2⟩ := exists_assign_value (s + m) m w1 (countTrue v tB) (hlt tB htB)
      have a2 : Agree s v w2 := Agree.trans (v := v) hw1 (Agree.mono hw2 (by omega))
      obtain ⟨w3, hw3, hs3⟩ := hen1.complete w2 (by
        simp only [PopRel]
        rw [value_agree hw2 hoA, countTrue_agree a2 hbA]; exact hv1)
      have a3 : Agree s v w3 := Agree.trans (v := v) a2 (Agree.mono hw3 (by omega))
      obtain ⟨w4, hw4, hs4⟩ := hen2.complete w3 (by
        simp only [PopRel]
        rw [value_agree hw3 hoB, countTrue_agree a3 hbB]; exact hv2)
      have a4 : Agree s v w4 := Agree.trans (v := v) a3 (Agree.mono hw4 (by omega))
      obtain ⟨w5, hw5, hs5⟩ := hen3.complete w4 (by
        rw [hrel, value_agree a4 ho, value_agree hw4 (hoA.mono (by omega)), value_agree hw4 (hoB.mono (by omega)),
          value_agree hw3 (hoA.mono (by omega)), value_agree hw3 hoB, value_agree hw2 hoA, carryVal_agree a4 hcin]
        simp only [PopRel] at hr
        rw [hr, hsplit]
        have e1 : value w1 oA = countTrue v tA := hv1
        have e2 : value w2 oB = countTrue v tB := hv2
        omega)
      refine ⟨w5, Agree.trans (v := v) a4 (Agree.mono hw5 (by omega)), ?_⟩
      simp only [Sat_append]
      have b1 : CBound s4 c1 := hen1.bound.mono (by omega)
      exact ⟨⟨(Sat_agree hw5 b1).2 ((Sat_agree hw4 hen1.bound).2 hs3), (Sat_agree hw5 hen2.bound).2 hs4⟩, hs5⟩

theorem getPopcount_pool (bits output : List Lit) (s : Nat) (hn : 2 ≤ bits.length)
    (hlen : output.length = binLength (bits.length + 1)) (hb : LBound s bits) (ho : LBound s output) :
    ∃ cls s', getPopcount poolAlloc bits output s = .ok (cls, s') ∧ Encodes s s' cls (PopRel bits output) :=
  getPopcount_pool_aux bits.length bits output s rfl hn hlen hb ho

end FSat
