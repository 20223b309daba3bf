import Verif.Props.NetworkFlow
import Mathlib.Algebra.BigOperators.Group.List.Basic
import Mathlib.Algebra.Order.BigOperators.Group.List
import Mathlib.Algebra.Order.Field.Rat
import Mathlib.Algebra.Order.Ring.Abs
import Mathlib.Tactic.Linarith
import Mathlib.Tactic.Ring
/-!
A way of proving that a given network is a balancer.  Nothing here models code: `certified` is a function that the kernel evaluates on a
network and a list of linear combinations, and `certified_balancer` says what its answer means.
-/

namespace FSat

/-- The amounts in a flow, by number: what a splitter sends through each of its outputs, and what arrives at one of its inputs. -/
abbrev FlowVar := Nat

def FlowVar.out (j : Nat) : FlowVar := Nat.mul 3 j

def FlowVar.slot (j : Nat) (second : Bool) : FlowVar := Nat.add (Nat.mul 3 j) (cond second 2 1)

/-- A linear form. -/
abbrev FlowForm := List (Int × FlowVar)

/-- Its value. -/
def FlowForm.eval (X : FlowVar → ℚ) (f : FlowForm) : ℚ := (f.map fun t => (t.1 : ℚ) * X t.2).sum

/-- A coefficient. -/
def FlowForm.coeff : FlowForm → FlowVar → Int
  | [], _ => 0
  | t :: f, v => cond (Nat.beq t.2 v) (Int.add t.1 (FlowForm.coeff f v)) (FlowForm.coeff f v)

/-- A multiple. -/
def FlowForm.scale (k : Int) (f : FlowForm) : FlowForm := f.map fun t => (k * t.1, t.2)

/-- The value with `v` standing for the `v`-th power of a large number. -/
def FlowForm.digits : FlowForm → Int
  | [] => 0
  | t :: f => Int.add (Int.mul t.1 (Int.ofNat (Nat.pow 4294967296 t.2))) (FlowForm.digits f)

/-- The sum of the absolute values of the coefficients. -/
def FlowForm.weight : FlowForm → Nat
  | [] => 0
  | t :: f => Nat.add t.1.natAbs (FlowForm.weight f)

/-- All coefficients are zero. -/
def FlowForm.isZero (f : FlowForm) : Bool := decide (f.digits = 0) && Nat.ble (Nat.succ f.weight) 4294967296

theorem FlowForm.eval_append (X : FlowVar → ℚ) (f g : FlowForm) : FlowForm.eval X (f ++ g) = f.eval X + g.eval X := by
  simp [FlowForm.eval]

theorem FlowForm.eval_cons (X : FlowVar → ℚ) (t : Int × FlowVar) (g : FlowForm) : FlowForm.eval X (t :: g) = (t.1 : ℚ) * X t.2 + g.eval X := by
  simp [FlowForm.eval]

theorem FlowForm.eval_scale (X : FlowVar → ℚ) (k : Int) (f : FlowForm) : (f.scale k).eval X = k * f.eval X := by
  induction f with
  | nil => simp [FlowForm.eval, FlowForm.scale]
  | cons t f ih =>
    have e : FlowForm.scale k (t :: f) = (k * t.1, t.2) :: FlowForm.scale k f := rfl
    rw [e, FlowForm.eval_cons, FlowForm.eval_cons, ih]
    push_cast
    ring

theorem FlowForm.coeff_cons (t : Int × FlowVar) (f : FlowForm) (v : FlowVar) : FlowForm.coeff (t :: f) v = (if t.2 = v then t.1 else 0) + f.coeff v := by
  rw [FlowForm.coeff]
  by_cases h : t.2 = v
  · rw [if_pos h, h, Nat.beq_refl, cond_true]; rfl
  · rw [if_neg h, Bool.eq_false_iff.2 (fun e => h (Nat.eq_of_beq_eq_true e)), cond_false, zero_add]

theorem FlowForm.eval_split (X : FlowVar → ℚ) (v : FlowVar) (f : FlowForm) :
    f.eval X = (f.coeff v : ℚ) * X v + FlowForm.eval X (f.filter fun t => t.2 ≠ v) := by
  induction f with
  | nil => simp [FlowForm.eval, FlowForm.coeff]
  | cons t f ih =>
    rw [FlowForm.eval_cons, ih, FlowForm.coeff_cons, List.filter_cons]
    by_cases h : t.2 = v
    · subst h
      simp only [if_true, ne_eq, not_true_eq_false, decide_false, Bool.false_eq_true, if_false]
      push_cast
      ring
    · rw [if_neg h, if_pos (by simpa using h), FlowForm.eval_cons]
      push_cast
      ring

theorem FlowForm.coeff_filter {f : FlowForm} {v w : FlowVar} (h : w ≠ v) : FlowForm.coeff (f.filter fun t => t.2 ≠ v) w = f.coeff w := by
  induction f with
  | nil => rfl
  | cons t f ih =>
    rw [List.filter_cons, FlowForm.coeff_cons]
    by_cases ht : t.2 = v
    · rw [if_neg (by simpa using ht), ih, if_neg (by rw [ht]; exact fun e => h e.symm), zero_add]
    · rw [if_pos (by simpa using ht), FlowForm.coeff_cons, ih]

theorem FlowForm.eval_zero (X : FlowVar → ℚ) : ∀ (n : Nat) (f : FlowForm), f.length ≤ n → (∀ t ∈ f, f.coeff t.2 = 0) → f.eval X = 0
  | _, [], _, _ => rfl
  | n + 1, t :: f, hn, h => by
    rw [FlowForm.eval_split X t.2, h t List.mem_cons_self]
    rw [FlowForm.eval_zero X n]
    · simp
    · rw [List.filter_cons, if_neg (by simp)]
      exact (List.length_filter_le _ _).trans (by simpa using hn)
    · intro u hu
      rw [List.mem_filter] at hu
      rw [FlowForm.coeff_filter (by simpa using hu.2)]
      exact h u hu.1

theorem FlowForm.coeff_weight (f : FlowForm) (v : FlowVar) : (f.coeff v).natAbs ≤ f.weight := by
  induction f with
  | nil => exact Nat.le_refl _
  | cons t f ih =>
    rw [FlowForm.coeff_cons, FlowForm.weight]
    show _ ≤ t.1.natAbs + FlowForm.weight f
    split <;> omega

theorem FlowForm.digits_cons (t : Int × FlowVar) (f : FlowForm) :
    FlowForm.digits (t :: f) = t.1 * (4294967296 : Int) ^ t.2 + FlowForm.digits f := by
  show t.1 * ((4294967296 ^ t.2 : Nat) : Int) + FlowForm.digits f = _
  push_cast
  rfl

/-- The digits without one of them. -/
theorem FlowForm.digits_split (v : FlowVar) (f : FlowForm) :
    f.digits = f.coeff v * (4294967296 : Int) ^ v + FlowForm.digits (f.filter fun t => t.2 ≠ v) := by
  induction f with
  | nil => simp [FlowForm.digits, FlowForm.coeff]
  | cons t f ih =>
    rw [FlowForm.digits_cons, ih, FlowForm.coeff_cons, List.filter_cons]
    by_cases h : t.2 = v
    · subst h
      simp only [if_true, ne_eq, not_true_eq_false, decide_false, Bool.false_eq_true, if_false]
      ring
    · rw [if_neg h, if_pos (by simpa using h), FlowForm.digits_cons]
      ring

theorem FlowForm.digits_dvd (m : Nat) (f : FlowForm) (h : ∀ t ∈ f, m ≤ t.2) : (4294967296 : Int) ^ m ∣ f.digits := by
  induction f with
  | nil => exact dvd_zero _
  | cons t f ih =>
    rw [FlowForm.digits_cons]
    exact dvd_add (Dvd.dvd.mul_left (pow_dvd_pow _ (h t List.mem_cons_self)) _) (ih fun u hu => h u (List.mem_cons_of_mem _ hu))

theorem FlowForm.coeff_high (m : Nat) (f : FlowForm) : FlowForm.coeff (f.filter fun t => decide (m ≤ t.2)) m = f.coeff m := by
  induction f with
  | nil => rfl
  | cons t f ih =>
    rw [List.filter_cons, FlowForm.coeff_cons]
    by_cases ht : m ≤ t.2
    · rw [if_pos (by simpa using ht), FlowForm.coeff_cons, ih]
    · rw [if_neg (by simpa using ht), ih, if_neg (fun e => ht (Nat.le_of_eq e.symm)), zero_add]

theorem FlowForm.digits_small : ∀ (m : Nat) (f : FlowForm), (∀ v, v < m → f.coeff v = 0) →
    f.digits = FlowForm.digits (f.filter fun t => decide (m ≤ t.2))
  | 0, f, _ => by
    rw [List.filter_eq_self.2 fun t _ => by simp]
  | m + 1, f, h => by
    rw [FlowForm.digits_small m f fun v hv => h v (by omega), FlowForm.digits_split m]
    have e := FlowForm.coeff_high m f
    rw [e, h m (by omega), zero_mul, zero_add, List.filter_filter]
    congr 2
    funext t
    rw [Bool.eq_iff_iff, Bool.and_eq_true, decide_eq_true_eq, decide_eq_true_eq, decide_eq_true_eq]
    exact ⟨fun k => Nat.lt_of_le_of_ne k.2 fun e => k.1 e.symm, fun k => ⟨fun e => Nat.lt_irrefl _ (e ▸ k), Nat.le_of_lt k⟩⟩

theorem FlowForm.coeff_of_isZero {f : FlowForm} (h : f.isZero = true) (v : FlowVar) : f.coeff v = 0 := by
  unfold FlowForm.isZero at h
  rw [Bool.and_eq_true, decide_eq_true_eq] at h
  have hw : f.weight < 4294967296 := Nat.le_of_ble_eq_true h.2
  induction v using Nat.strong_induction_on with
  | _ m ih =>
    have h1 := FlowForm.digits_small m f ih
    rw [h.1, FlowForm.digits_split m] at h1
    have e := FlowForm.coeff_high m f
    rw [e] at h1
    obtain ⟨k, hk⟩ := FlowForm.digits_dvd (m + 1) ((f.filter fun t => decide (m ≤ t.2)).filter fun t => t.2 ≠ m) fun t ht => by
      rw [List.mem_filter, List.mem_filter] at ht
      have h1 := ht.1.2
      have h2 := ht.2
      rw [decide_eq_true_eq] at h1 h2
      exact Nat.lt_of_le_of_ne h1 fun e => h2 e.symm
    rw [hk, pow_succ] at h1
    have hb : (4294967296 : Int) ^ m ≠ 0 := pow_ne_zero _ (by decide)
    have h2 : f.coeff m + 4294967296 * k = 0 := by
      have : (4294967296 : Int) ^ m * (f.coeff m + 4294967296 * k) = 0 := by rw [h1]; ring
      exact (mul_eq_zero.1 this).resolve_left hb
    have h3 := f.coeff_weight m
    omega

theorem FlowForm.eval_of_isZero {f : FlowForm} (h : f.isZero = true) (X : FlowVar → ℚ) : f.eval X = 0 :=
  FlowForm.eval_zero X _ f (Nat.le_refl _) fun t _ => FlowForm.coeff_of_isZero h t.2

/-- The colour of an input of a splitter. -/
def Network.slotColour (n : Network) (j : Nat) (second : Bool) : Colour :=
  match n[j]? with
  | none => none
  | some k => if second then k.1.2 else k.1.1

/-- The splitter has an output of the colour. -/
def Network.makes (n : Network) (j : Nat) (c : Int) : Bool :=
  match n[j]? with
  | none => false
  | some k => k.2.1 == some c || k.2.2 == some c

/-- What is known of the amounts: what a splitter does, that a colour is neither made nor lost, and that belts of a colour that was dealt
with carry the same. -/
inductive FlowFact where
  | node (j : Nat)
  | colour (c : Int)
  | made (c : Int) (j k : Nat)
  | used (c : Int) (j : Nat) (second : Bool) (k : Nat)

/-- The form that is zero. -/
def FlowFact.form (n : Network) : FlowFact → FlowForm
  | .node j =>
    match n[j]? with
    | none => []
    | some k => ((k.outputs : Int), .out j) :: ((if k.1.1 = none then [] else [(-1, .slot j false)]) ++ (if k.1.2 = none then [] else [(-1, .slot j true)]))
  | .colour c => n.zipIdx.flatMap fun e =>
      (if e.1.2.1 = some c then [(1, .out e.2)] else []) ++ (if e.1.2.2 = some c then [(1, .out e.2)] else []) ++
      (if e.1.1.1 = some c then [(-1, .slot e.2 false)] else []) ++ (if e.1.1.2 = some c then [(-1, .slot e.2 true)] else [])
  | .made _ j k => [(1, .out j), (-1, .out k)]
  | .used _ j s k => [(1, .slot j s), (-1, .out k)]

/-- The fact may be used, if the belts of each of the colours `known` carry the same. -/
def FlowFact.usable (n : Network) (a b : Int) (known : List Int) : FlowFact → Bool
  | .node j => match n[j]? with
    | none => false
    | some k => k.outputs != 0
  | .colour c => c != a && c != b
  | .made c j k => known.contains c && n.makes j c && n.makes k c
  | .used c j s k => known.contains c && n.slotColour j s == some c && n.makes k c

/-- A proof that two splitters send almost the same through their outputs: `scale` times the difference is a combination of facts and of
differences of belts of the same colour, with a total weight below `scale`. -/
structure PairProof where
  first : Nat
  second : Nat
  scale : Nat
  facts : List (Int × FlowFact)
  swaps : List (Nat × (Nat × Bool) × (Nat × Bool))

/-- The combination. -/
def PairProof.form (n : Network) (p : PairProof) : FlowForm :=
  [((p.scale : Int), .out p.first), (-(p.scale : Int), .out p.second)] ++ (p.facts.flatMap fun e => (e.2.form n).scale (-e.1)) ++
    p.swaps.flatMap fun e => [(-(e.1 : Int), .slot e.2.1.1 e.2.1.2), ((e.1 : Int), .slot e.2.2.1 e.2.2.2)]

/-- It is one. -/
def PairProof.correct (n : Network) (a b : Int) (known stage : List Int) (p : PairProof) : Bool :=
  (p.facts.all fun e => e.2.usable n a b known) &&
  (p.swaps.all fun e => stage.any fun c => n.slotColour e.2.1.1 e.2.1.2 == some c && n.slotColour e.2.2.1 e.2.2.2 == some c) &&
  decide ((p.swaps.map fun e => e.1).sum < p.scale) && (p.form n).isZero

/-- The colours are dealt with: for any two splitters with outputs of one of the colours there is a proof. -/
def stageCorrect (n : Network) (a b : Int) (known stage : List Int) (proofs : List PairProof) : Bool :=
  stage.all fun c => c != a && (List.range n.length).all fun j => (List.range j).all fun i =>
    !(n.makes i c && n.makes j c) || proofs.any fun p => p.first == i && p.second == j && p.correct n a b known stage

/-- The stages, one after the other, deal with the colour `b`. -/
def certified (n : Network) (a b : Int) : List Int → List (List Int × List PairProof) → Bool
  | known, [] => known.contains b
  | known, s :: rest => stageCorrect n a b known s.1 s.2 && certified n a b (known ++ s.1) rest

section
variable {n : Network} {a b : Int} {flow : List (Node × Amounts)} {inputs outputs : Multiset ℚ}

/-- The amounts of a flow. -/
def amountOf (flow : List (Node × Amounts)) (v : FlowVar) : ℚ :=
  match flow[v / 3]? with
  | none => 0
  | some x => if v % 3 = 0 then (x.2.1.1 + x.2.1.2) / x.1.outputs else if v % 3 = 1 then x.2.1.1 else x.2.1.2

theorem amountOf_out {j : Nat} {x : Node × Amounts} (h : flow[j]? = some x) :
    amountOf flow (.out j) = (x.2.1.1 + x.2.1.2) / x.1.outputs := by
  have e1 : Nat.mul 3 j / 3 = j := by show 3 * j / 3 = j; omega
  have e2 : Nat.mul 3 j % 3 = 0 := by show 3 * j % 3 = 0; omega
  simp only [amountOf, FlowVar.out, e1, e2, h, if_true]

theorem amountOf_slot {j : Nat} {x : Node × Amounts} (h : flow[j]? = some x) (s : Bool) :
    amountOf flow (.slot j s) = if s then x.2.1.2 else x.2.1.1 := by
  have e1 : Nat.add (Nat.mul 3 j) (cond s 2 1) / 3 = j := by
    show (3 * j + cond s 2 1) / 3 = j
    cases s
    · show (3 * j + 1) / 3 = j; omega
    · show (3 * j + 2) / 3 = j; omega
  have e2 : Nat.add (Nat.mul 3 j) (cond s 2 1) % 3 = cond s 2 1 := by
    show (3 * j + cond s 2 1) % 3 = cond s 2 1
    cases s
    · show (3 * j + 1) % 3 = 1; omega
    · show (3 * j + 2) % 3 = 2; omega
  simp only [amountOf, FlowVar.slot, e1, e2, h]
  cases s <;> simp

theorem Node.outputs_pos {k : Node} (h : k.2.1 ≠ none ∨ k.2.2 ≠ none) : (k.outputs : ℚ) ≠ 0 := by
  have : 0 < k.outputs := by
    unfold Node.outputs
    rw [List.countP_pos_iff]
    rcases h with h | h
    · exact ⟨_, by simp, Option.isSome_iff_ne_none.2 h⟩
    · exact ⟨k.2.2, by simp, Option.isSome_iff_ne_none.2 h⟩
  exact_mod_cast this.ne'

theorem mem_arriving {c : Colour} {x : ℚ} : x ∈ arriving flow c ↔ ∃ e ∈ flow, (e.1.1.1 = c ∧ e.2.1.1 = x) ∨ (e.1.1.2 = c ∧ e.2.1.2 = x) := by
  unfold arriving
  rw [Multiset.mem_coe, List.mem_filterMap]
  constructor
  · rintro ⟨p, hp, h⟩
    obtain ⟨e, he, hp⟩ := List.mem_flatMap.1 hp
    simp only [List.mem_cons, List.not_mem_nil, or_false] at hp
    split at h
    · rename_i hc
      rcases hp with rfl | rfl
      · exact ⟨e, he, .inl ⟨hc, Option.some.inj h⟩⟩
      · exact ⟨e, he, .inr ⟨hc, Option.some.inj h⟩⟩
    · cases h
  · rintro ⟨e, he, ⟨h1, h2⟩ | ⟨h1, h2⟩⟩
    · exact ⟨(e.1.1.1, e.2.1.1), List.mem_flatMap.2 ⟨e, he, by simp⟩, by rw [if_pos h1, h2]⟩
    · exact ⟨(e.1.1.2, e.2.1.2), List.mem_flatMap.2 ⟨e, he, by simp⟩, by rw [if_pos h1, h2]⟩

theorem mem_leaving {c : Colour} {x : ℚ} : x ∈ leaving flow c ↔ ∃ e ∈ flow, (e.1.2.1 = c ∧ e.2.2.1 = x) ∨ (e.1.2.2 = c ∧ e.2.2.2 = x) := by
  unfold leaving
  rw [Multiset.mem_coe, List.mem_filterMap]
  constructor
  · rintro ⟨p, hp, h⟩
    obtain ⟨e, he, hp⟩ := List.mem_flatMap.1 hp
    simp only [List.mem_cons, List.not_mem_nil, or_false] at hp
    split at h
    · rename_i hc
      rcases hp with rfl | rfl
      · exact ⟨e, he, .inl ⟨hc, Option.some.inj h⟩⟩
      · exact ⟨e, he, .inr ⟨hc, Option.some.inj h⟩⟩
    · cases h
  · rintro ⟨e, he, ⟨h1, h2⟩ | ⟨h1, h2⟩⟩
    · exact ⟨(e.1.2.1, e.2.2.1), List.mem_flatMap.2 ⟨e, he, by simp⟩, by rw [if_pos h1, h2]⟩
    · exact ⟨(e.1.2.2, e.2.2.2), List.mem_flatMap.2 ⟨e, he, by simp⟩, by rw [if_pos h1, h2]⟩

theorem Shares.out_eq {k : Node} {x : Amounts} (h : Shares k x) :
    (k.2.1 ≠ none → x.2.1 = (x.1.1 + x.1.2) / k.outputs) ∧ (k.2.2 ≠ none → x.2.2 = (x.1.1 + x.1.2) / k.outputs) := by
  refine ⟨fun hk => ?_, fun hk => ?_⟩
  · have := h.out1
    rw [if_neg hk] at this
    rw [eq_div_iff (Node.outputs_pos (.inl hk)), this]
  · have := h.out2
    rw [if_neg hk] at this
    rw [eq_div_iff (Node.outputs_pos (.inr hk)), this]

/-- A steady flow whose splitters are listed as in the network. -/
structure OrderedFlow (n : Network) (a b : Int) (flow : List (Node × Amounts)) (inputs outputs : Multiset ℚ) : Prop where
  nodes : flow.map Prod.fst = n
  shares : ∀ x ∈ flow, Shares x.1 x.2
  connected : ∀ c : Int, leaving flow (some c) + (if c = a then inputs else 0) = arriving flow (some c) + (if c = b then outputs else 0)

theorem OrderedFlow.getElem (h : OrderedFlow n a b flow inputs outputs) {j : Nat} {k : Node} (hj : n[j]? = some k) :
    ∃ x, flow[j]? = some (k, x) ∧ Shares k x := by
  rw [← h.nodes, List.getElem?_map] at hj
  cases e : flow[j]? with
  | none => rw [e] at hj; cases hj
  | some x =>
    rw [e] at hj
    obtain rfl := Option.some.inj hj
    exact ⟨x.2, rfl, h.shares x (List.mem_of_getElem? e)⟩

/-- What leaves a splitter is the amount of its outputs. -/
theorem OrderedFlow.leaves (h : OrderedFlow n a b flow inputs outputs) {c : Int} {x : ℚ} (hx : x ∈ leaving flow (some c)) :
    ∃ j, n.makes j c = true ∧ amountOf flow (.out j) = x := by
  obtain ⟨e, he, hx⟩ := mem_leaving.1 hx
  obtain ⟨j, hj⟩ := List.mem_iff_getElem?.1 he
  have hn : n[j]? = some e.1 := by rw [← h.nodes, List.getElem?_map, hj]; rfl
  have hs := (h.shares e he).out_eq
  refine ⟨j, ?_, ?_⟩
  · unfold Network.makes
    rw [hn]
    rcases hx with ⟨h1, _⟩ | ⟨h1, _⟩ <;> simp [h1]
  · rw [amountOf_out hj]
    rcases hx with ⟨h1, rfl⟩ | ⟨h1, rfl⟩
    · exact (hs.1 (by rw [h1]; exact Option.some_ne_none _)).symm
    · exact (hs.2 (by rw [h1]; exact Option.some_ne_none _)).symm

/-- What arrives at a splitter input that is not of the colour of the inputs comes from a splitter. -/
theorem OrderedFlow.arrives (h : OrderedFlow n a b flow inputs outputs) {c : Int} (hc : c ≠ a) {j : Nat} {s : Bool}
    (hj : n.slotColour j s = some c) : ∃ k, n.makes k c = true ∧ amountOf flow (.out k) = amountOf flow (.slot j s) := by
  unfold Network.slotColour at hj
  split at hj
  · cases hj
  · rename_i k hk
    obtain ⟨x, hx, _⟩ := h.getElem hk
    refine h.leaves ?_
    have e := h.connected c
    rw [if_neg hc, add_zero] at e
    rw [e, Multiset.mem_add]
    refine .inl (mem_arriving.2 ⟨_, List.mem_of_getElem? hx, ?_⟩)
    rw [amountOf_slot hx]
    cases s
    · exact .inl ⟨by simpa using hj, rfl⟩
    · exact .inr ⟨by simpa using hj, rfl⟩

/-- The belts of the colour carry the same. -/
def Same (n : Network) (X : FlowVar → ℚ) (c : Int) : Prop := ∀ j k, n.makes j c = true → n.makes k c = true → X (.out j) = X (.out k)

theorem sum_arriving (flow : List (Node × Amounts)) (c : Colour) :
    (arriving flow c).sum = (flow.map fun e => (if e.1.1.1 = c then e.2.1.1 else 0) + (if e.1.1.2 = c then e.2.1.2 else 0)).sum := by
  unfold arriving
  rw [Multiset.sum_coe]
  induction flow with
  | nil => rfl
  | cons e f ih =>
    rw [List.flatMap_cons, List.filterMap_append, List.sum_append, ih, List.map_cons, List.sum_cons]
    congr 1
    simp only [List.filterMap_cons, List.filterMap_nil]
    split <;> split <;> simp_all

theorem sum_leaving (flow : List (Node × Amounts)) (c : Colour) :
    (leaving flow c).sum = (flow.map fun e => (if e.1.2.1 = c then e.2.2.1 else 0) + (if e.1.2.2 = c then e.2.2.2 else 0)).sum := by
  unfold leaving
  rw [Multiset.sum_coe]
  induction flow with
  | nil => rfl
  | cons e f ih =>
    rw [List.flatMap_cons, List.filterMap_append, List.sum_append, ih, List.map_cons, List.sum_cons]
    congr 1
    simp only [List.filterMap_cons, List.filterMap_nil]
    split <;> split <;> simp_all

theorem eval_colour (X : FlowVar → ℚ) (c : Int) : ∀ (f : List (Node × Amounts)) (off : Nat),
    (∀ i x, f[i]? = some x → (x.1.2.1 = some c → X (.out (off + i)) = x.2.2.1) ∧ (x.1.2.2 = some c → X (.out (off + i)) = x.2.2.2) ∧
      X (.slot (off + i) false) = x.2.1.1 ∧ X (.slot (off + i) true) = x.2.1.2) →
    FlowForm.eval X (((f.map Prod.fst).zipIdx off).flatMap fun e =>
      (if e.1.2.1 = some c then [(1, .out e.2)] else []) ++ (if e.1.2.2 = some c then [(1, .out e.2)] else []) ++
      (if e.1.1.1 = some c then [(-1, .slot e.2 false)] else []) ++ (if e.1.1.2 = some c then [(-1, .slot e.2 true)] else [])) =
    (leaving f (some c)).sum - (arriving f (some c)).sum
  | [], _, _ => by simp [FlowForm.eval, leaving, arriving]
  | x :: f, off, h => by
    have ih := eval_colour X c f (off + 1) fun i y hy => by
      have := h (i + 1) y (by simpa using hy)
      rw [show off + 1 + i = off + (i + 1) by omega]
      exact this
    rw [sum_leaving, sum_arriving] at ih ⊢
    rw [List.map_cons, List.zipIdx_cons, List.flatMap_cons, FlowForm.eval_append, ih, List.map_cons, List.map_cons, List.sum_cons, List.sum_cons]
    obtain ⟨h1, h2, h3, h4⟩ := h 0 x rfl
    rw [Nat.add_zero] at h1 h2 h3 h4
    simp only [FlowForm.eval_append]
    have e1 : FlowForm.eval X (if x.1.2.1 = some c then [(1, .out off)] else []) = if x.1.2.1 = some c then x.2.2.1 else 0 := by
      split
      · rename_i k; simp [FlowForm.eval, h1 k]
      · rfl
    have e2 : FlowForm.eval X (if x.1.2.2 = some c then [(1, .out off)] else []) = if x.1.2.2 = some c then x.2.2.2 else 0 := by
      split
      · rename_i k; simp [FlowForm.eval, h2 k]
      · rfl
    have e3 : FlowForm.eval X (if x.1.1.1 = some c then [(-1, .slot off false)] else []) = - if x.1.1.1 = some c then x.2.1.1 else 0 := by
      split
      · simp [FlowForm.eval, h3]
      · simp [FlowForm.eval]
    have e4 : FlowForm.eval X (if x.1.1.2 = some c then [(-1, .slot off true)] else []) = - if x.1.1.2 = some c then x.2.1.2 else 0 := by
      split
      · simp [FlowForm.eval, h4]
      · simp [FlowForm.eval]
    rw [e1, e2, e3, e4]
    ring

/-- A fact that may be used is true. -/
theorem OrderedFlow.fact (h : OrderedFlow n a b flow inputs outputs) {known : List Int} (hk : ∀ c ∈ known, c ≠ a ∧ Same n (amountOf flow) c)
    {e : FlowFact} (he : e.usable n a b known = true) : (e.form n).eval (amountOf flow) = 0 := by
  cases e with
  | node j =>
    simp only [FlowFact.usable] at he
    split at he
    · cases he
    · rename_i k hj
      obtain ⟨x, hx, hs⟩ := h.getElem hj
      have hne : (k.outputs : ℚ) ≠ 0 := by
        have : k.outputs ≠ 0 := by simpa using he
        exact_mod_cast this
      simp only [FlowFact.form, hj, FlowForm.eval_cons, FlowForm.eval_append]
      have e1 : FlowForm.eval (amountOf flow) (if k.1.1 = none then [] else [(-1, .slot j false)]) = - x.1.1 := by
        split
        · rename_i hn; simp [FlowForm.eval, hs.in1 hn]
        · simp [FlowForm.eval, amountOf_slot hx]
      have e2 : FlowForm.eval (amountOf flow) (if k.1.2 = none then [] else [(-1, .slot j true)]) = - x.1.2 := by
        split
        · rename_i hn; simp [FlowForm.eval, hs.in2 hn]
        · simp [FlowForm.eval, amountOf_slot hx]
      rw [e1, e2, amountOf_out hx]
      simp only [Int.cast_natCast]
      rw [mul_div_cancel₀ _ hne]
      ring
  | colour c =>
    simp only [FlowFact.usable, Bool.and_eq_true, bne_iff_ne, ne_eq] at he
    have hc := h.connected c
    rw [if_neg he.1, if_neg he.2, add_zero, add_zero] at hc
    simp only [FlowFact.form]
    rw [← h.nodes, eval_colour, hc, sub_self]
    intro i x hi
    rw [Nat.zero_add]
    have hs := (h.shares x (List.mem_of_getElem? hi)).out_eq
    exact ⟨fun k => by rw [amountOf_out hi]; exact (hs.1 (by rw [k]; exact Option.some_ne_none _)).symm,
      fun k => by rw [amountOf_out hi]; exact (hs.2 (by rw [k]; exact Option.some_ne_none _)).symm,
      by rw [amountOf_slot hi]; rfl, by rw [amountOf_slot hi]; rfl⟩
  | made c j k =>
    simp only [FlowFact.usable, Bool.and_eq_true, List.contains_iff_mem] at he
    have := (hk c he.1.1).2 j k he.1.2 he.2
    simp [FlowFact.form, FlowForm.eval, this]
  | used c j s k =>
    simp only [FlowFact.usable, Bool.and_eq_true, List.contains_iff_mem, beq_iff_eq] at he
    obtain ⟨hca, hsame⟩ := hk c he.1.1
    obtain ⟨k', hk', e'⟩ := h.arrives hca he.1.2
    have := hsame k' k hk' he.2
    simp [FlowFact.form, FlowForm.eval, ← e', this]

theorem eval_facts {X : FlowVar → ℚ} : ∀ l : List (Int × FlowFact), (∀ e ∈ l, (e.2.form n).eval X = 0) →
    FlowForm.eval X (l.flatMap fun e => (e.2.form n).scale (-e.1)) = 0
  | [], _ => rfl
  | e :: l, h => by
    rw [List.flatMap_cons, FlowForm.eval_append, FlowForm.eval_scale, h e List.mem_cons_self,
      eval_facts l fun e he => h e (List.mem_cons_of_mem _ he)]
    simp

theorem eval_swaps {X : FlowVar → ℚ} {D : ℚ} : ∀ l : List (Nat × (Nat × Bool) × (Nat × Bool)),
    (∀ e ∈ l, |X (.slot e.2.1.1 e.2.1.2) - X (.slot e.2.2.1 e.2.2.2)| ≤ D) →
    |FlowForm.eval X (l.flatMap fun e => [(-(e.1 : Int), .slot e.2.1.1 e.2.1.2), ((e.1 : Int), .slot e.2.2.1 e.2.2.2)])| ≤
      ((l.map fun e => e.1).sum : Nat) * D
  | [], _ => by simp [FlowForm.eval]
  | e :: l, h => by
    rw [List.flatMap_cons, FlowForm.eval_append, List.map_cons, List.sum_cons]
    have ih := eval_swaps l fun e he => h e (List.mem_cons_of_mem _ he)
    have h0 := h e List.mem_cons_self
    have e1 : FlowForm.eval X [(-(e.1 : Int), .slot e.2.1.1 e.2.1.2), ((e.1 : Int), .slot e.2.2.1 e.2.2.2)] =
        (e.1 : ℚ) * (X (.slot e.2.2.1 e.2.2.2) - X (.slot e.2.1.1 e.2.1.2)) := by
      simp only [FlowForm.eval, List.map_cons, List.map_nil, List.sum_cons, List.sum_nil]
      push_cast
      ring
    have hm : (0 : ℚ) ≤ (e.1 : ℚ) := Nat.cast_nonneg _
    have e2 : |(e.1 : ℚ) * (X (.slot e.2.2.1 e.2.2.2) - X (.slot e.2.1.1 e.2.1.2))| ≤ (e.1 : ℚ) * D := by
      rw [abs_mul, abs_of_nonneg hm, abs_sub_comm]
      exact mul_le_mul_of_nonneg_left h0 hm
    rw [e1]
    push_cast
    calc _ ≤ _ := abs_add_le _ _
      _ ≤ (e.1 : ℚ) * D + ((l.map fun e => e.1).sum : Nat) * D := add_le_add e2 ih
      _ = _ := by push_cast; ring

/-- A proof for two splitters bounds their difference. -/
theorem OrderedFlow.pair (h : OrderedFlow n a b flow inputs outputs) {known stage : List Int}
    (hk : ∀ c ∈ known, c ≠ a ∧ Same n (amountOf flow) c) (hst : ∀ c ∈ stage, c ≠ a) {D : ℚ}
    (hD : ∀ c ∈ stage, ∀ i j, n.makes i c = true → n.makes j c = true → |amountOf flow (.out i) - amountOf flow (.out j)| ≤ D)
    {p : PairProof} (hp : p.correct n a b known stage = true) :
    ∃ w : Nat, w < p.scale ∧ (p.scale : ℚ) * |amountOf flow (.out p.first) - amountOf flow (.out p.second)| ≤ w * D := by
  simp only [PairProof.correct, Bool.and_eq_true, decide_eq_true_eq] at hp
  obtain ⟨⟨⟨h1, h2⟩, h3⟩, h4⟩ := hp
  refine ⟨_, h3, ?_⟩
  have h4 := FlowForm.eval_of_isZero h4 (amountOf flow)
  unfold PairProof.form at h4
  rw [FlowForm.eval_append, FlowForm.eval_append, eval_facts _ fun e he => h.fact hk (List.all_eq_true.1 h1 e he)] at h4
  have h5 := eval_swaps (X := amountOf flow) (D := D) p.swaps fun e he => by
    have := List.all_eq_true.1 h2 e he
    obtain ⟨c, hc, h6⟩ := List.any_eq_true.1 this
    simp only [Bool.and_eq_true, beq_iff_eq] at h6
    obtain ⟨i, hi, ei⟩ := h.arrives (hst c hc) h6.1
    obtain ⟨j, hj, ej⟩ := h.arrives (hst c hc) h6.2
    rw [← ei, ← ej]
    exact hD c hc i j hi hj
  have e1 : FlowForm.eval (amountOf flow) [((p.scale : Int), .out p.first), (-(p.scale : Int), .out p.second)] =
      (p.scale : ℚ) * (amountOf flow (.out p.first) - amountOf flow (.out p.second)) := by
    simp only [FlowForm.eval, List.map_cons, List.map_nil, List.sum_cons, List.sum_nil]
    push_cast
    ring
  rw [e1] at h4
  have hm : (0 : ℚ) ≤ (p.scale : ℚ) := Nat.cast_nonneg _
  rw [← abs_of_nonneg hm, ← abs_mul, show (p.scale : ℚ) * (amountOf flow (.out p.first) - amountOf flow (.out p.second)) =
    -FlowForm.eval (amountOf flow) (p.swaps.flatMap fun e => [(-(e.1 : Int), .slot e.2.1.1 e.2.1.2), ((e.1 : Int), .slot e.2.2.1 e.2.2.2)])
    by linarith, abs_neg]
  exact h5

theorem Network.makes_lt {j : Nat} {c : Int} (h : n.makes j c = true) : j < n.length := by
  unfold Network.makes at h
  split at h
  · cases h
  · rename_i k hk
    exact (List.getElem?_eq_some_iff.1 hk).1

/-- After a stage the belts of each of its colours carry the same. -/
theorem OrderedFlow.stage (h : OrderedFlow n a b flow inputs outputs) {known stage : List Int} {proofs : List PairProof}
    (hk : ∀ c ∈ known, c ≠ a ∧ Same n (amountOf flow) c) (hs : stageCorrect n a b known stage proofs = true) :
    ∀ c ∈ stage, c ≠ a ∧ Same n (amountOf flow) c := by
  have hst : ∀ c ∈ stage, c ≠ a := fun c hc => by
    have := List.all_eq_true.1 hs c hc
    simp only [Bool.and_eq_true, bne_iff_ne, ne_eq] at this
    exact this.1
  -- the largest difference
  let all : Finset (Int × Nat × Nat) := (stage.toFinset ×ˢ (Finset.range n.length ×ˢ Finset.range n.length)).filter
    fun e => n.makes e.2.1 e.1 = true ∧ n.makes e.2.2 e.1 = true
  have hmem : ∀ c i j, (c, i, j) ∈ all ↔ c ∈ stage ∧ n.makes i c = true ∧ n.makes j c = true := by
    intro c i j
    simp only [all, Finset.mem_filter, Finset.mem_product, List.mem_toFinset, Finset.mem_range]
    exact ⟨fun h => ⟨h.1.1, h.2⟩, fun h => ⟨⟨h.1, n.makes_lt h.2.1, n.makes_lt h.2.2⟩, h.2⟩⟩
  rcases all.eq_empty_or_nonempty with he | hne
  · exact fun c hc => ⟨hst c hc, fun i j hi hj => by
      have := (hmem c i j).2 ⟨hc, hi, hj⟩
      rw [he] at this
      simp at this⟩
  · obtain ⟨⟨c0, i0, j0⟩, h0, hmax⟩ := all.exists_max_image
      (fun e => |amountOf flow (.out e.2.1) - amountOf flow (.out e.2.2)|) hne
    obtain ⟨hc0, hi0, hj0⟩ := (hmem _ _ _).1 h0
    have hD : ∀ c ∈ stage, ∀ i j, n.makes i c = true → n.makes j c = true →
        |amountOf flow (.out i) - amountOf flow (.out j)| ≤ |amountOf flow (.out i0) - amountOf flow (.out j0)| :=
      fun c hc i j hi hj => hmax (c, i, j) ((hmem _ _ _).2 ⟨hc, hi, hj⟩)
    have key : ∀ i j, n.makes i c0 = true → n.makes j c0 = true → i < j →
        |amountOf flow (.out i) - amountOf flow (.out j)| = |amountOf flow (.out i0) - amountOf flow (.out j0)| →
        |amountOf flow (.out i0) - amountOf flow (.out j0)| ≤ 0 := by
      intro i j hi hj hij hd
      have := List.all_eq_true.1 hs c0 hc0
      simp only [Bool.and_eq_true] at this
      have := List.all_eq_true.1 (List.all_eq_true.1 this.2 j (List.mem_range.2 (n.makes_lt hj))) i (List.mem_range.2 hij)
      rw [hi, hj] at this
      simp only [Bool.and_self, Bool.not_true, Bool.false_or] at this
      obtain ⟨p, _, hp⟩ := List.any_eq_true.1 this
      simp only [Bool.and_eq_true, beq_iff_eq] at hp
      obtain ⟨w, hw, hle⟩ := h.pair hk hst hD hp.2
      rw [hp.1.1, hp.1.2, hd] at hle
      have hw' : (w : ℚ) + 1 ≤ p.scale := by exact_mod_cast hw
      nlinarith [abs_nonneg (amountOf flow (.out i0) - amountOf flow (.out j0))]
    have hzero : |amountOf flow (.out i0) - amountOf flow (.out j0)| ≤ 0 := by
      rcases Nat.lt_trichotomy i0 j0 with h | h | h
      · exact key i0 j0 hi0 hj0 h rfl
      · rw [h, sub_self, abs_zero]
      · exact key j0 i0 hj0 hi0 h (abs_sub_comm _ _)
    exact fun c hc => ⟨hst c hc, fun i j hi hj => by
      have := (hD c hc i j hi hj).trans hzero
      exact sub_eq_zero.1 (abs_nonpos_iff.1 this)⟩

theorem OrderedFlow.certified (h : OrderedFlow n a b flow inputs outputs) : ∀ (stages : List (List Int × List PairProof)) (known : List Int),
    (∀ c ∈ known, c ≠ a ∧ Same n (amountOf flow) c) → FSat.certified n a b known stages = true → b ≠ a ∧ Same n (amountOf flow) b
  | [], known, hk, hc => hk b (by simpa [FSat.certified] using hc)
  | s :: rest, known, hk, hc => by
    simp only [FSat.certified, Bool.and_eq_true] at hc
    refine OrderedFlow.certified h rest (known ++ s.1) (fun c hc' => ?_) hc.2
    rcases List.mem_append.1 hc' with hc' | hc'
    · exact hk c hc'
    · exact h.stage hk hc.1 c hc'

end

/-- A network with a certificate is a balancer. -/
theorem certified_balancer {n : Network} {a b : Int} {stages : List (List Int × List PairProof)} (h : certified n a b [] stages = true) :
    IsBalancer n a b := by
  intro flow inputs outputs hf x hx y hy
  obtain ⟨flow', h1, h2⟩ := perm_of_map hf.nodes
  have hf' : OrderedFlow n a b flow' inputs outputs := ⟨h2, fun x hx => hf.shares x (h1.mem_iff.1 hx), fun c => by
    rw [leaving_perm h1, arriving_perm h1]; exact hf.connected c⟩
  obtain ⟨hne, hsame⟩ := hf'.certified stages [] (by simp) h
  have e := hf'.connected b
  rw [if_neg hne, if_pos rfl, add_zero] at e
  have key : ∀ x ∈ outputs, ∃ j, n.makes j b = true ∧ amountOf flow' (.out j) = x := fun x hx =>
    hf'.leaves (by rw [e]; exact Multiset.mem_add.2 (.inr hx))
  obtain ⟨i, hi, rfl⟩ := key x hx
  obtain ⟨j, hj, rfl⟩ := key y hy
  exact hsame i j hi hj

end FSat
