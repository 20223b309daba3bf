import Verif.Spec.Template
import Verif.Lemmas.Constants

set_option linter.unusedSimpArgs false

namespace FSat

theorem freshLits_add (s a b : Nat) : freshLits s (a + b) = freshLits s a ++ freshLits (s + a) b := by
  induction a generalizing s with
  | zero => simp [freshLits]
  | succ a ih =>
    rw [Nat.succ_add]; simp only [freshLits, List.cons_append, ih]
    congr 3; omega

theorem mem_freshLits {s n : Nat} {l : Lit} : l ∈ freshLits s n ↔ l.pos = true ∧ s < l.var ∧ l.var ≤ s + n := by
  induction n generalizing s with
  | zero => simp only [freshLits, List.not_mem_nil, false_iff]; omega
  | succ n ih =>
    simp only [freshLits, List.mem_cons, ih]
    obtain ⟨x, b⟩ := l
    simp only [Lit.mk.injEq]
    constructor
    · rintro (⟨rfl, rfl⟩ | ⟨h1, h2, h3⟩)
      · exact ⟨rfl, by omega, by omega⟩
      · exact ⟨h1, by omega, by omega⟩
    · rintro ⟨h1, h2, h3⟩
      by_cases h : x = s + 1
      · exact Or.inl ⟨h, h1⟩
      · exact Or.inr ⟨h1, by omega, by omega⟩

theorem freshLits_nodup (s n : Nat) : (freshLits s n).Nodup := by
  induction n generalizing s with
  | zero => simp [freshLits]
  | succ n ih =>
    simp only [freshLits, List.nodup_cons, ih, and_true]
    intro h; rw [mem_freshLits] at h; simp at h

theorem nextMany_eq (n s : Nat) : nextMany n s = (freshLits s n, s + n) := by
  induction n generalizing s with
  | zero => rfl
  | succ n ih => simp only [nextMany, ih, freshLits]; rw [Nat.add_assoc, Nat.add_comm 1 n]

theorem repeatInst_spec {α : Type} (f : Nat → α × Nat) (flat : α → List Lit) (n : Nat)
    (hf : ∀ s, (f s).2 = s + n ∧ flat (f s).1 = freshLits s n) (k s : Nat) :
    (repeatInst f k s).2 = s + k * n ∧ (repeatInst f k s).1.flatMap flat = freshLits s (k * n) ∧
      (repeatInst f k s).1.length = k := by
  induction k generalizing s with
  | zero => simp [repeatInst, freshLits]
  | succ k ih =>
    simp only [repeatInst, List.flatMap_cons, List.length_cons]
    obtain ⟨h1, h2⟩ := hf s
    rw [h1]
    obtain ⟨i1, i2, i3⟩ := ih (s + n)
    rw [i1, i2, i3, h2]
    have : (k + 1) * n = n + k * n := by rw [Nat.succ_mul, Nat.add_comm]
    rw [this, freshLits_add]
    exact ⟨by omega, rfl, rfl⟩

theorem repeatInst_getElem? {α : Type} (f : Nat → α × Nat) (n : Nat)
    (hf : ∀ s, (f s).2 = s + n) (k s i : Nat) (hi : i < k) :
    (repeatInst f k s).1[i]? = some (f (s + i * n)).1 := by
  induction k generalizing s i with
  | zero => omega
  | succ k ih =>
    simp only [repeatInst]
    cases i with
    | zero => simp
    | succ i =>
      simp only [List.getElem?_cons_succ]
      rw [hf s, ih (s + n) i (by omega)]
      rw [Nat.succ_mul, Nat.add_assoc, Nat.add_comm n]

theorem nestedInst_spec {α : Type} (f : Nat → α × Nat) (flat : α → List Lit) (n : Nat)
    (hf : ∀ s, (f s).2 = s + n ∧ flat (f s).1 = freshLits s n) (shape : List Nat) (s : Nat) :
    (nestedInst f shape s).2 = s + shape.prod * n ∧
      flattenNested flat shape (nestedInst f shape s).1 = freshLits s (shape.prod * n) := by
  induction shape generalizing s with
  | nil => simpa [nestedInst, flattenNested] using hf s
  | cons k shape ih =>
    have := repeatInst_spec (nestedInst f shape) (flattenNested flat shape) (shape.prod * n) ih k s
    simp only [nestedInst, List.prod_cons, Nat.mul_assoc]
    exact ⟨this.1, this.2.1⟩

mutual
theorem Tmpl.instantiate_spec : (t : Tmpl) → (s : Nat) →
    (t.instantiate s).2 = s + t.variableCount ∧ t.flatten (t.instantiate s).1 = freshLits s t.variableCount
  | .bool, s => ⟨rfl, rfl⟩
  | .array c shape, s => nestedInst_spec c.instantiate c.flatten c.variableCount (fun s => c.instantiate_spec s) shape s
  | .manyHot n, s => by
    simp only [Tmpl.instantiate, Tmpl.flatten, Tmpl.variableCount, nextMany_eq, and_self]
  | .oneHot n, s => by
    simp only [Tmpl.instantiate, Tmpl.flatten, Tmpl.variableCount, nextMany_eq, and_self]
  | .number n _, s => by
    simp only [Tmpl.instantiate, Tmpl.flatten, Tmpl.variableCount, nextMany_eq, and_self]
  | .composite fs, s => fs.instantiate_spec s
theorem TFields.instantiate_spec : (fs : TFields) → (s : Nat) →
    (fs.instantiate s).2 = s + fs.variableCount ∧ fs.flatten (fs.instantiate s).1 = freshLits s fs.variableCount
  | .nil, s => ⟨rfl, rfl⟩
  | .cons _ t rest, s => by
    have h1 := t.instantiate_spec s
    have h2 := rest.instantiate_spec (t.instantiate s).2
    simp only [TFields.instantiate, TFields.flatten, TFields.variableCount]
    rw [h1.1] at h2 ⊢
    rw [h2.1, h2.2, h1.2, freshLits_add]
    exact ⟨by omega, rfl⟩
end

/-! ### Parsing -/

/-- `m` agrees with `v` on the variables `lo < x ≤ hi`. -/
def Covers (m : Mapping) (v : Asg) (lo hi : Nat) : Prop := ∀ x, lo < x → x ≤ hi → m x = some (v x)

theorem Covers.mono {m : Mapping} {v : Asg} {lo hi lo' hi' : Nat} (h : Covers m v lo hi) (h1 : lo ≤ lo') (h2 : hi' ≤ hi) :
    Covers m v lo' hi' := fun x a b => h x (by omega) (by omega)

theorem Covers.get {m : Mapping} {v : Asg} {s n : Nat} (h : Covers m v s (s + n)) {l : Lit} (hl : l ∈ freshLits s n) :
    m.get l = .ok (ev v l) := by
  rw [mem_freshLits] at hl
  unfold Mapping.get
  rw [h l.var hl.2.1 hl.2.2]
  simp [ev, hl.1]

theorem getAll_eq {m : Mapping} {v : Asg} {ls : List Lit} (h : ∀ l ∈ ls, m.get l = .ok (ev v l)) :
    m.getAll ls = .ok (ls.map (ev v)) := by
  induction ls with
  | nil => rfl
  | cons l ls ih => simp [Mapping.getAll, h l (by simp), ih (fun l hl => h l (by simp [hl]))]

theorem FirstTrue_unique {v : Asg} {ls : List Lit} {x y : Option Nat} (hx : FirstTrue v ls x) (hy : FirstTrue v ls y) : y = x := by
  cases x with
  | none =>
    cases y with
    | none => rfl
    | some j =>
      obtain ⟨⟨l, hl, he⟩, _⟩ := hy
      have := hx l (List.mem_of_getElem? hl)
      simp [he] at this
  | some k =>
    obtain ⟨⟨l, hl, he⟩, hk⟩ := hx
    cases y with
    | none => have := hy l (List.mem_of_getElem? hl); simp [he] at this
    | some j =>
      obtain ⟨⟨l', hl', he'⟩, hj⟩ := hy
      rcases Nat.lt_trichotomy k j with h | h | h
      · have := hj k l h hl; simp [he] at this
      · rw [h]
      · have := hk j l' h hl'; simp [he'] at this

theorem TrueIndices_unique {v : Asg} {ls : List Lit} {x y : List Nat} (hx : TrueIndices v ls x) (hy : TrueIndices v ls y) : y = x := by
  apply List.Perm.eq_of_pairwise (le := (· < ·)) ?_ hy.1 hx.1
  · rw [List.perm_ext_iff_of_nodup]
    · intro a; rw [hx.2, hy.2]
    · exact hy.1.imp (fun h => Nat.ne_of_lt h)
    · exact hx.1.imp (fun h => Nat.ne_of_lt h)
  · intro a b _ _ h1 h2; omega

theorem parseOneHot_spec {m : Mapping} {v : Asg} {ls : List Lit} (h : ∀ l ∈ ls, m.get l = .ok (ev v l)) (i : Nat) :
    ∃ x, parseOneHot m i ls = .ok (x.map (· + i)) ∧ FirstTrue v ls x := by
  induction ls generalizing i with
  | nil => exact ⟨none, rfl, by simp [FirstTrue]⟩
  | cons l ls ih =>
    simp only [parseOneHot, h l (by simp)]
    cases hv : ev v l with
    | true =>
      refine ⟨some 0, by simp, ⟨l, by simp, hv⟩, ?_⟩
      intro j l' hj; omega
    | false =>
      obtain ⟨x, hx, hf⟩ := ih (fun l hl => h l (by simp [hl])) (i + 1)
      refine ⟨x.map (· + 1), ?_, ?_⟩
      · rw [hx]; cases x <;> simp; omega
      · cases x with
        | none => simp only [FirstTrue, Option.map_none, List.mem_cons, forall_eq_or_imp, hv, true_and]; exact hf
        | some k =>
          obtain ⟨⟨l', hl', he⟩, hk⟩ := hf
          refine ⟨⟨l', by simpa using hl', he⟩, ?_⟩
          intro j l'' hj hl''
          cases j with
          | zero => simp at hl''; subst hl''; exact hv
          | succ j => exact hk j l'' (by simpa using hj) (by simpa using hl'')

theorem parseManyHot_spec {m : Mapping} {v : Asg} {ls : List Lit} (h : ∀ l ∈ ls, m.get l = .ok (ev v l)) (i : Nat) :
    ∃ xs, parseManyHot m i ls = .ok (xs.map (· + i)) ∧ TrueIndices v ls xs := by
  induction ls generalizing i with
  | nil => exact ⟨[], rfl, by simp [TrueIndices]⟩
  | cons l ls ih =>
    simp only [parseManyHot, h l (by simp)]
    obtain ⟨xs, hx, hp, hm⟩ := ih (fun l hl => h l (by simp [hl])) (i + 1)
    rw [hx]
    have hp' : (xs.map (· + 1)).Pairwise (· < ·) := by
      rw [List.pairwise_map]; exact hp.imp (by intros; omega)
    have hms : ∀ k, k + 1 ∈ xs.map (· + 1) ↔ ∃ l', (l :: ls)[k + 1]? = some l' ∧ ev v l' = true := by
      intro k; simp [hm]
    have hi : List.map (· + (i + 1)) xs = List.map (· + i) (xs.map (· + 1)) := by
      simp [List.map_map]; intro a _; omega
    cases hv : ev v l with
    | true =>
      refine ⟨0 :: xs.map (· + 1), by simp [hi], ?_, ?_⟩
      · simp only [List.pairwise_cons, hp', and_true]
        intro a ha; simp only [List.mem_map] at ha; obtain ⟨b, _, rfl⟩ := ha; omega
      · intro k
        cases k with
        | zero => simp [hv]
        | succ k => rw [← hms]; simp
    | false =>
      refine ⟨xs.map (· + 1), by simp [hi], hp', ?_⟩
      intro k
      cases k with
      | zero => simp [hv]
      | succ k => exact hms k

/-- What the parse theorem says for one instance. -/
def ParseOK {α β : Type} (p : α → Except PyErr β) (R : α → β → Prop) (a : α) : Prop :=
  ∃ x, p a = .ok x ∧ R a x ∧ ∀ y, R a y → y = x

theorem parseAll_ok {α β : Type} (p : α → Except PyErr β) (R : α → β → Prop) (as : List α)
    (h : ∀ a ∈ as, ParseOK p R a) : ParseOK (parseAll p) (List.Forall₂ R) as := by
  induction as with
  | nil => exact ⟨[], rfl, .nil, fun y hy => by cases hy; rfl⟩
  | cons a as ih =>
    obtain ⟨x, h1, h2, h3⟩ := h a (by simp)
    obtain ⟨xs, g1, g2, g3⟩ := ih (fun a ha => h a (by simp [ha]))
    refine ⟨x :: xs, by simp [parseAll, h1, g1], .cons h2 g2, ?_⟩
    intro y hy
    cases hy with
    | cons ha hb => rw [h3 _ ha, g3 _ hb]

theorem repeatInst_forall {α : Type} (f : Nat → α × Nat) (n : Nat) (hf : ∀ s, (f s).2 = s + n) (Q : α → Prop) (k s : Nat)
    (hQ : ∀ s', s ≤ s' → s' + n ≤ s + k * n → Q (f s').1) : ∀ a ∈ (repeatInst f k s).1, Q a := by
  induction k generalizing s with
  | zero => simp [repeatInst]
  | succ k ih =>
    have e : (k + 1) * n = n + k * n := by rw [Nat.succ_mul, Nat.add_comm]
    intro a ha
    simp only [repeatInst, List.mem_cons] at ha
    rcases ha with rfl | ha
    · exact hQ s (Nat.le_refl _) (by rw [e]; omega)
    · rw [hf s] at ha
      exact ih (s + n) (fun s' h1 h2 => hQ s' (by omega) (by rw [e]; omega)) a ha

theorem repeatInst_snd {α : Type} (f : Nat → α × Nat) (n : Nat) (hf : ∀ s, (f s).2 = s + n) (k s : Nat) :
    (repeatInst f k s).2 = s + k * n := by
  induction k generalizing s with
  | zero => simp [repeatInst]
  | succ k ih => simp only [repeatInst]; rw [ih, hf, Nat.succ_mul]; omega

theorem nestedInst_snd {α : Type} (f : Nat → α × Nat) (n : Nat) (hf : ∀ s, (f s).2 = s + n) (shape : List Nat) (s : Nat) :
    (nestedInst f shape s).2 = s + shape.prod * n := by
  induction shape generalizing s with
  | nil => simpa [nestedInst] using hf s
  | cons k shape ih =>
    simp only [nestedInst, List.prod_cons, Nat.mul_assoc]
    exact repeatInst_snd _ _ ih k s

theorem parseNested_ok {α β : Type} (f : Nat → α × Nat) (n : Nat) (hf : ∀ s, (f s).2 = s + n)
    (p : α → Except PyErr β) (R : α → β → Prop) (m : Mapping) (v : Asg)
    (h : ∀ s, Covers m v s (s + n) → ParseOK p R (f s).1) (shape : List Nat) (s : Nat)
    (hc : Covers m v s (s + shape.prod * n)) :
    ParseOK (parseNested p shape) (NestedRel R shape) (nestedInst f shape s).1 := by
  induction shape generalizing s with
  | nil => exact h s (by simpa using hc)
  | cons k shape ih =>
    have hn := nestedInst_snd f n hf shape
    apply parseAll_ok
    apply repeatInst_forall _ _ hn
    intro s' h1 h2
    apply ih
    apply hc.mono h1
    rw [List.prod_cons, Nat.mul_assoc]; exact h2

mutual
theorem Tmpl.parse_ok (m : Mapping) (v : Asg) : (t : Tmpl) → t.Proper → (s : Nat) → Covers m v s (s + t.variableCount) →
    ParseOK (t.parse m) (t.Means v) (t.instantiate s).1
  | .bool, _, s, hc => by
    refine ⟨v (s + 1), ?_, ?_, ?_⟩
    · simp [Tmpl.parse, Tmpl.instantiate, Mapping.get, hc (s + 1) (by omega) (by simp [Tmpl.variableCount])]
      rfl
    · simp [Tmpl.Means, Tmpl.instantiate]; rfl
    · intro y hy; simp only [Tmpl.Means, Tmpl.instantiate, ev_mk_true] at hy; exact hy
  | .array c shape, hp, s, hc =>
    parseNested_ok c.instantiate c.variableCount (fun s => (c.instantiate_spec s).1) (c.parse m) (c.Means v) m v
      (fun s => c.parse_ok m v (by simpa [Tmpl.Proper] using hp) s) shape s hc
  | .manyHot n, _, s, hc => by
    obtain ⟨x, h1, h2⟩ := parseManyHot_spec (fun l hl => Covers.get (n := n) hc hl) 0
    refine ⟨x, ?_, ?_, ?_⟩
    · simp only [Tmpl.parse, Tmpl.instantiate, nextMany_eq, h1]; simp; rfl
    · simp only [Tmpl.Means, Tmpl.instantiate, nextMany_eq]; exact h2
    · intro y hy; simp only [Tmpl.Means, Tmpl.instantiate, nextMany_eq] at hy; exact TrueIndices_unique h2 hy
  | .oneHot n, _, s, hc => by
    obtain ⟨x, h1, h2⟩ := parseOneHot_spec (fun l hl => Covers.get (n := n) hc hl) 0
    refine ⟨x, ?_, ?_, ?_⟩
    · simp only [Tmpl.parse, Tmpl.instantiate, nextMany_eq, h1]; cases x <;> simp <;> rfl
    · simp only [Tmpl.Means, Tmpl.instantiate, nextMany_eq]; exact h2
    · intro y hy; simp only [Tmpl.Means, Tmpl.instantiate, nextMany_eq] at hy; exact FirstTrue_unique h2 hy
  | .number n sg, hp, s, hc => by
    have hg := getAll_eq (fun l hl => Covers.get (n := n) hc hl)
    refine ⟨if sg then svalue v (freshLits s n) else (value v (freshLits s n) : Int), ?_, ?_, ?_⟩
    · simp only [Tmpl.parse, Tmpl.instantiate, nextMany_eq, hg]
      cases sg with
      | false => rw [readNumber_unsigned]; rfl
      | true =>
        simp only [Tmpl.Proper] at hp
        rw [readNumber_signed _ (by simp; omega)]; rfl
    · simp only [Tmpl.Means, Tmpl.instantiate, nextMany_eq]; rfl
    · intro y hy; simp only [Tmpl.Means, Tmpl.instantiate, nextMany_eq] at hy; exact hy
  | .composite fs, hp, s, hc => fs.parse_ok m v (by simpa [Tmpl.Proper] using hp) s hc
theorem TFields.parse_ok (m : Mapping) (v : Asg) : (fs : TFields) → fs.Proper → (s : Nat) →
    Covers m v s (s + fs.variableCount) → ParseOK (fs.parse m) (fs.Means v) (fs.instantiate s).1
  | .nil, _, s, _ => ⟨(), rfl, trivial, fun _ _ => rfl⟩
  | .cons _ t rest, hp, s, hc => by
    simp only [TFields.Proper] at hp
    simp only [TFields.variableCount] at hc
    obtain ⟨x, h1, h2, h3⟩ := t.parse_ok m v hp.1 s (hc.mono (Nat.le_refl _) (by omega))
    obtain ⟨xs, g1, g2, g3⟩ := rest.parse_ok m v hp.2 (t.instantiate s).2
      (by rw [(t.instantiate_spec s).1]; exact hc.mono (by omega) (by omega))
    refine ⟨(x, xs), ?_, ?_, ?_⟩
    · simp only [TFields.parse, TFields.instantiate, h1, g1]
    · exact ⟨h2, g2⟩
    · rintro ⟨y, ys⟩ ⟨hy, hys⟩
      rw [h3 y hy, g3 ys hys]
end

/-- The variables occurring in a clause list. -/
def cnfVars (cs : Cnf) : List Nat := cs.flatMap fun c => c.map (·.var)

end FSat
