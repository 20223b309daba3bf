import Verif.Spec.Optimal
import Verif.Lemmas.JsonPrefix
import Verif.Lemmas.Network
import Mathlib.Tactic.Linarith
import Mathlib.Tactic.Ring
/-!
# Lemmas about the store of results
-/

namespace FSat

theorem Size.LE.refl (a : Size) : Size.LE a a := ⟨le_refl _, le_refl _, le_refl _⟩
theorem Size.LE.trans {a b c : Size} (h : Size.LE a b) (h' : Size.LE b c) : Size.LE a c :=
  ⟨h.1.trans h'.1, h.2.1.trans h'.2.1, h.2.2.trans h'.2.2⟩

theorem sizeGe_iff (a b : Size) : sizeGe a b = true ↔ Size.LE b a := by
  simp [sizeGe, Size.LE, and_assoc]

theorem sizeLe_iff (a b : Size) : sizeLe a b = true ↔ Size.LE a b := by
  simp [sizeLe, Size.LE, and_assoc]

/-! ### `does_balancer_exist` -/

theorem doesExist_cons (o : Size) (b : Bool) (d : PyDict Size Bool) (size : Size) :
    doesExist ((o, b) :: d) size = if b = true ∧ Size.LE o size then some true
      else if b = false ∧ Size.LE size o then some false else doesExist d size := by
  cases b
  · simp only [doesExist, sizeLe_iff, Bool.false_eq_true, false_and, if_false, true_and]
  · simp only [doesExist, sizeGe_iff, Bool.true_eq_false, false_and, if_false, true_and]

theorem doesExist_true {d : PyDict Size Bool} {size : Size} (h : doesExist d size = some true) : KnownYes d size := by
  induction d with
  | nil => simp [doesExist] at h
  | cons e d ih =>
    obtain ⟨o, b⟩ := e
    rw [doesExist_cons] at h
    split at h
    · rename_i hb; exact ⟨o, by simp [hb.1], hb.2⟩
    split at h
    · simp at h
    · obtain ⟨o', h1, h2⟩ := ih h
      exact ⟨o', List.mem_cons_of_mem _ h1, h2⟩

theorem doesExist_false {d : PyDict Size Bool} {size : Size} (h : doesExist d size = some false) : KnownNo d size := by
  induction d with
  | nil => simp [doesExist] at h
  | cons e d ih =>
    obtain ⟨o, b⟩ := e
    rw [doesExist_cons] at h
    split at h
    · simp at h
    split at h
    · rename_i hb; exact ⟨o, by simp [hb.1], hb.2⟩
    · obtain ⟨o', h1, h2⟩ := ih h
      exact ⟨o', List.mem_cons_of_mem _ h1, h2⟩

theorem doesExist_none {d : PyDict Size Bool} {size : Size} : doesExist d size = none ↔ ¬ KnownYes d size ∧ ¬ KnownNo d size := by
  induction d with
  | nil => simp [doesExist, KnownYes, KnownNo]
  | cons e d ih =>
    obtain ⟨o, b⟩ := e
    rw [doesExist_cons]
    have h1 : KnownYes ((o, b) :: d) size ↔ (b = true ∧ Size.LE o size) ∨ KnownYes d size := by
      constructor
      · rintro ⟨o', h, h'⟩
        rcases List.mem_cons.1 h with h | h
        · simp only [Prod.mk.injEq] at h
          exact Or.inl ⟨h.2.symm, h.1 ▸ h'⟩
        · exact Or.inr ⟨o', h, h'⟩
      · rintro (⟨rfl, h⟩ | ⟨o', h, h'⟩)
        · exact ⟨o, by simp, h⟩
        · exact ⟨o', List.mem_cons_of_mem _ h, h'⟩
    have h2 : KnownNo ((o, b) :: d) size ↔ (b = false ∧ Size.LE size o) ∨ KnownNo d size := by
      constructor
      · rintro ⟨o', h, h'⟩
        rcases List.mem_cons.1 h with h | h
        · simp only [Prod.mk.injEq] at h
          exact Or.inl ⟨h.2.symm, h.1 ▸ h'⟩
        · exact Or.inr ⟨o', h, h'⟩
      · rintro (⟨rfl, h⟩ | ⟨o', h, h'⟩)
        · exact ⟨o, by simp, h⟩
        · exact ⟨o', List.mem_cons_of_mem _ h, h'⟩
    rw [h1, h2]
    split
    · rename_i h; simp [h]
    split
    · rename_i h; simp [h]
    · rw [ih]; tauto

theorem not_both {d : PyDict Size Bool} (hc : Consistent d) {size : Size} (h1 : KnownYes d size) (h2 : KnownNo d size) : False := by
  obtain ⟨o, ho, hl⟩ := h1
  obtain ⟨o', ho', hl'⟩ := h2
  exact hc _ _ ho ho' (hl.trans hl')

theorem doesExist_eq {d : PyDict Size Bool} (hc : Consistent d) (size : Size) :
    (doesExist d size = some true ↔ KnownYes d size) ∧ (doesExist d size = some false ↔ KnownNo d size) := by
  have h0 := doesExist_none (d := d) (size := size)
  have h1 := doesExist_true (d := d) (size := size)
  have h2 := doesExist_false (d := d) (size := size)
  have h3 := not_both (d := d) hc (size := size)
  cases h : doesExist d size with
  | none => simp [h] at *; tauto
  | some b => cases b <;> simp [h] at * <;> tauto

theorem Truthful.consistent {fits : Size → Prop} {d : PyDict Size Bool} (ht : Truthful fits d) (hu : UpClosed fits) : Consistent d := by
  intro a b ha hb hl
  have h1 := (ht _ _ ha).1 rfl
  have h2 := (ht _ _ hb).2 (hu _ _ hl h1)
  cases h2

theorem Truthful.yes {fits : Size → Prop} {d : PyDict Size Bool} (ht : Truthful fits d) (hu : UpClosed fits) {size : Size}
    (h : KnownYes d size) : fits size := by
  obtain ⟨o, ho, hl⟩ := h
  exact hu _ _ hl ((ht _ _ ho).1 rfl)

theorem Truthful.no {fits : Size → Prop} {d : PyDict Size Bool} (ht : Truthful fits d) (hu : UpClosed fits) {size : Size}
    (h : KnownNo d size) : ¬ fits size := by
  obtain ⟨o, ho, hl⟩ := h
  intro hf
  have := (ht _ _ ho).2 (hu _ _ hl hf)
  cases this

theorem mem_set_iff {β : Type} {d : PyDict Size β} (hd : d.Valid) (k : Size) (v : β) (k' : Size) (v' : β) :
    (k', v') ∈ d.set k v ↔ (k = k' ∧ v = v') ∨ (k ≠ k' ∧ (k', v') ∈ d) := by
  rw [PyDict.mem_iff (hd.set k v), PyDict.get_set, PyDict.mem_iff hd]
  split <;> simp_all

theorem mem_erase_iff {β : Type} {d : PyDict Size β} (hd : d.Valid) (k : Size) (k' : Size) (v' : β) :
    (k', v') ∈ d.erase k ↔ k ≠ k' ∧ (k', v') ∈ d := by
  rw [PyDict.mem_iff (hd.erase k), PyDict.get_erase, PyDict.mem_iff hd]
  split <;> simp_all

/-! ### `clean` -/

/-- What a turn of the loop does to a record that is there. -/
theorem cleanStep_spec {d : PyDict Size Bool} (hd : d.Valid) (e : Size × Bool) (he : e ∈ d) :
    (cleanStep d e).Valid ∧
    (cleanStep d e = d ∧ e.2 = true ∨
      (∀ x, x ∈ cleanStep d e ↔ x ∈ d) ∧ e.2 = false ∧ doesExist (d.erase e.1) e.1 ≠ some false ∨
      cleanStep d e = d.erase e.1 ∧ e.2 = false ∧ KnownNo (d.erase e.1) e.1) := by
  obtain ⟨k, b⟩ := e
  cases b with
  | true => exact ⟨by simpa [cleanStep] using hd, Or.inl ⟨by simp [cleanStep], rfl⟩⟩
  | false =>
    by_cases h : doesExist (d.erase k) k = some false
    · have e1 : cleanStep d (k, false) = d.erase k := by simp [cleanStep, h]
      exact ⟨by rw [e1]; exact hd.erase _, Or.inr (Or.inr ⟨e1, rfl, doesExist_false h⟩)⟩
    · have e1 : cleanStep d (k, false) = (d.erase k).set k false := by simp [cleanStep, h]
      refine ⟨by rw [e1]; exact (hd.erase _).set _ _, Or.inr (Or.inl ⟨fun x => ?_, rfl, h⟩)⟩
      obtain ⟨k', v'⟩ := x
      rw [e1, mem_set_iff (hd.erase _), mem_erase_iff hd]
      constructor
      · rintro (⟨rfl, rfl⟩ | ⟨-, -, h⟩)
        · exact he
        · exact h
      · intro hx
        by_cases hk : k = k'
        · subst hk
          have h1 := PyDict.get_of_mem hd hx
          rw [PyDict.get_of_mem hd he] at h1
          simp only [Option.some.injEq] at h1
          exact Or.inl ⟨rfl, h1⟩
        · exact Or.inr ⟨hk, hk, hx⟩

theorem clean_fold (d0 : PyDict Size Bool) (hc : Consistent d0) : ∀ (l : List (Size × Bool)) (d : PyDict Size Bool), d.Valid →
    (l.map Prod.fst).Nodup → (∀ e ∈ l, e ∈ d) → (∀ x ∈ d, x ∈ d0) →
    (∀ a, (a, false) ∈ d → (∀ e ∈ l, e.1 ≠ a) → ∀ b, (b, false) ∈ d → Size.LE a b → a = b) →
    (l.foldl cleanStep d).Valid ∧ (∀ x ∈ l.foldl cleanStep d, x ∈ d) ∧
    (∀ a, (a, true) ∈ d → (a, true) ∈ l.foldl cleanStep d) ∧
    (∀ a, KnownNo d a → KnownNo (l.foldl cleanStep d) a) ∧
    (∀ a b, (a, false) ∈ l.foldl cleanStep d → (b, false) ∈ l.foldl cleanStep d → Size.LE a b → a = b) := by
  intro l
  induction l with
  | nil =>
    intro d hd _ _ _ hp
    exact ⟨hd, fun _ h => h, fun _ h => h, fun _ h => h, fun a b ha hb hl => hp a ha (by simp) b hb hl⟩
  | cons e l ih =>
    intro d hd hn hm hs hp
    rw [List.map_cons, List.nodup_cons] at hn
    have hsub : ∀ x, x ∈ d.erase e.1 → x ∈ d := fun x hx => ((mem_erase_iff hd e.1 x.1 x.2).1 hx).2
    have hel : ∀ x ∈ l, x.1 ≠ e.1 := fun x hx h => hn.1 (h ▸ List.mem_map_of_mem hx)
    obtain ⟨hv, hstep⟩ := cleanStep_spec hd e (hm e (by simp))
    obtain ⟨k, b⟩ := e
    rw [List.foldl_cons]
    rcases hstep with ⟨h1, h2⟩ | ⟨h1, h2, h3⟩ | ⟨h1, h2, h3⟩
    · simp only at h2
      subst h2
      rw [h1]
      refine ih d hd hn.2 (fun x hx => hm x (List.mem_cons_of_mem _ hx)) hs ?_
      intro a ha hal b hb hl
      refine hp a ha ?_ b hb hl
      intro x hx
      rcases List.mem_cons.1 hx with rfl | hx
      · rintro rfl
        have e1 := PyDict.get_of_mem hd (hm (k, true) (by simp))
        rw [PyDict.get_of_mem hd ha] at e1
        cases e1
      · exact hal x hx
    · simp only at h2
      subst h2
      obtain ⟨i1, i2, i3, i4, i5⟩ := ih (cleanStep d (k, false)) hv hn.2
        (fun x hx => (h1 x).2 (hm x (List.mem_cons_of_mem _ hx))) (fun x hx => hs x ((h1 x).1 hx)) (by
        intro a ha hal b hb hl
        rw [h1] at ha hb
        by_cases hak : a = k
        · subst hak
          by_contra hab
          have hcons : Consistent (d.erase a) := fun x y hx hy => hc x y (hs _ (hsub _ hx)) (hs _ (hsub _ hy))
          exact h3 ((doesExist_eq hcons a).2.2 ⟨b, (mem_erase_iff hd a b false).2 ⟨hab, hb⟩, hl⟩)
        · refine hp a ha ?_ b hb hl
          intro x hx
          rcases List.mem_cons.1 hx with rfl | hx
          · exact fun h => hak h.symm
          · exact hal x hx)
      refine ⟨i1, fun x hx => (h1 x).1 (i2 x hx), fun a ha => i3 a ((h1 _).2 ha), fun a ha => i4 a ?_, i5⟩
      obtain ⟨o, ho, hl⟩ := ha
      exact ⟨o, (h1 _).2 ho, hl⟩
    · simp only at h2
      subst h2
      rw [h1]
      obtain ⟨i1, i2, i3, i4, i5⟩ := ih (d.erase k) (hd.erase _) hn.2
        (fun x hx => (mem_erase_iff hd k x.1 x.2).2 ⟨fun h => hel x hx h.symm, hm x (List.mem_cons_of_mem _ hx)⟩)
        (fun x hx => hs x (hsub x hx)) (by
        intro a ha hal b hb hl
        have ha' := (mem_erase_iff hd k a false).1 ha
        refine hp a ha'.2 ?_ b (hsub _ hb) hl
        intro x hx
        rcases List.mem_cons.1 hx with rfl | hx
        · exact ha'.1
        · exact hal x hx)
      refine ⟨i1, fun x hx => hsub x (i2 x hx), fun a ha => i3 a ((mem_erase_iff hd k a true).2 ⟨?_, ha⟩), fun a ha => i4 a ?_, i5⟩
      · rintro rfl
        have e1 := PyDict.get_of_mem hd (hm (k, false) (by simp))
        rw [PyDict.get_of_mem hd ha] at e1
        cases e1
      · obtain ⟨o, ho, hl⟩ := ha
        by_cases hok : k = o
        · subst hok
          obtain ⟨o', ho', hl'⟩ := h3
          exact ⟨o', ho', hl.trans hl'⟩
        · exact ⟨o, (mem_erase_iff hd k o false).2 ⟨hok, ho⟩, hl⟩

theorem clean_spec {d : PyDict Size Bool} (hd : d.Valid) (hc : Consistent d) :
    (cleanExist d).Valid ∧ (∀ x ∈ cleanExist d, x ∈ d) ∧ (∀ a, (a, true) ∈ d → (a, true) ∈ cleanExist d) ∧
    (∀ a, KnownNo d a → KnownNo (cleanExist d) a) ∧
    (∀ a b, (a, false) ∈ cleanExist d → (b, false) ∈ cleanExist d → Size.LE a b → a = b) := by
  refine clean_fold d hc d d hd hd (fun _ h => h) (fun _ h => h) ?_
  intro a ha hal
  exact absurd rfl (hal _ ha)

/-! ### Keys -/

theorem comma_not_mem (n : Int) : ',' ∉ showInt n := by
  intro h
  obtain ⟨c, t, e, hc⟩ := Json.num_head_int n
  unfold showInt at h
  split at h
  · rcases List.mem_cons.1 h with h | h
    · exact absurd h (by decide)
    · exact absurd (Json.showNat_dig _ _ h) (by decide)
  · exact absurd (Json.showNat_dig _ _ h) (by decide)

theorem splitComma_word (w rest : List Char) (h : ',' ∉ w) : splitComma (w ++ ',' :: rest) = w :: splitComma rest := by
  induction w with
  | nil => simp [splitComma]
  | cons c w ih =>
    simp only [List.mem_cons, not_or] at h
    simp only [List.cons_append, splitComma]
    rw [if_neg (fun e => h.1 e.symm), ih h.2]

theorem splitComma_last (w : List Char) (h : ',' ∉ w) : splitComma w = [w] := by
  induction w with
  | nil => rfl
  | cons c w ih =>
    simp only [List.mem_cons, not_or] at h
    simp only [splitComma]
    rw [if_neg (fun e => h.1 e.symm), ih h.2]

theorem readKey_keyText (k : Size) : readKey (keyText k) = .ok k := by
  obtain ⟨a, b, c⟩ := k
  unfold readKey keyText
  simp only
  rw [List.append_assoc, List.cons_append, splitComma_word _ _ (comma_not_mem _), splitComma_word _ _ (comma_not_mem _),
    splitComma_last _ (comma_not_mem _)]
  rw [show [showInt a, showInt b, showInt c] = [a, b, c].map showInt from rfl, intsOf_show]

theorem keyText_inj {a b : Size} (h : keyText a = keyText b) : a = b := by
  have h1 := readKey_keyText a
  rw [h, readKey_keyText b] at h1
  simpa using h1.symm

theorem valid_keyText {β γ : Type} (d : PyDict Size β) (hd : d.Valid) (f : β → γ) :
    PyDict.Valid (d.map fun e => (keyText e.1, f e.2)) := by
  unfold PyDict.Valid at *
  rw [List.map_map]
  rw [show (Prod.fst ∘ fun e : Size × β => (keyText e.1, f e.2)) = keyText ∘ Prod.fst from rfl, ← List.map_map]
  exact hd.map fun a b h => keyText_inj h

theorem readExist_map (d acc : PyDict Size Bool) (h : (acc.map Prod.fst ++ d.map Prod.fst).Nodup) :
    readExist (d.map fun e => (keyText e.1, Json.bool e.2)) acc = .ok (acc ++ d) := by
  induction d generalizing acc with
  | nil => simp [readExist]
  | cons e d ih =>
    have hk : e.1 ∉ acc.map Prod.fst := by
      intro hm
      rw [List.nodup_append] at h
      exact h.2.2 _ hm _ (by simp) rfl
    simp only [List.map_cons, readExist]
    rw [readKey_keyText]
    simp only
    rw [PyDict.set_new _ _ _ hk, ih]
    · simp
    · simpa [List.append_assoc] using h

theorem readSolutions_map (d acc : PyDict Size Json) (h : (acc.map Prod.fst ++ d.map Prod.fst).Nodup) :
    readSolutions (d.map fun e => (keyText e.1, e.2)) acc = .ok (acc ++ d) := by
  induction d generalizing acc with
  | nil => simp [readSolutions]
  | cons e d ih =>
    have hk : e.1 ∉ acc.map Prod.fst := by
      intro hm
      rw [List.nodup_append] at h
      exact h.2.2 _ hm _ (by simp) rfl
    simp only [List.map_cons, readSolutions]
    rw [readKey_keyText]
    simp only
    rw [PyDict.set_new _ _ _ hk, ih]
    · simp
    · simpa [List.append_assoc] using h

theorem fromJson_toJson (s t : Store) (h1 : s.exist.Valid) (h2 : s.solutions.Valid) :
    t.fromJson s.toJson = .ok { t with exist := s.exist, solutions := s.solutions } := by
  have e1 : PyDict.ofPairs (s.exist.map fun e => (keyText e.1, Json.bool e.2)) = s.exist.map fun e => (keyText e.1, Json.bool e.2) :=
    PyDict.ofPairs_valid _ (valid_keyText _ h1 _)
  have e2 : PyDict.ofPairs (s.solutions.map fun e => (keyText e.1, e.2)) = s.solutions.map fun e => (keyText e.1, e.2) :=
    PyDict.ofPairs_valid _ (valid_keyText _ h2 id)
  have i1 : itemsOf s.toJson existKey = .ok (s.exist.map fun e => (keyText e.1, Json.bool e.2)) := by
    unfold Store.toJson itemsOf
    simp only
    rw [PyDict.get, if_pos rfl, e1]
  have i2 : itemsOf s.toJson solutionsKey = .ok (s.solutions.map fun e => (keyText e.1, e.2)) := by
    unfold Store.toJson itemsOf
    simp only
    rw [PyDict.get, if_neg (by decide), PyDict.get, if_pos rfl, e2]
  unfold Store.fromJson
  rw [i1]
  simp only
  rw [readExist_map _ _ (by simpa [PyDict.Valid] using h1)]
  simp only
  rw [i2]
  simp only
  rw [readSolutions_map _ _ (by simpa [PyDict.Valid] using h2)]
  rfl

/-! ### `factors` -/

theorem mem_factors (n : Nat) (hn : 0 < n) (a b : Nat) : (a, b) ∈ factors n ↔ a * b = n := by
  unfold factors
  simp only [List.mem_flatMap, List.mem_reverse, List.mem_range'_1]
  constructor
  · rintro ⟨t, ⟨h1, h2⟩, h⟩
    split at h
    · rename_i hm
      have hd : t * (n / t) = n := Nat.mul_div_cancel' (Nat.dvd_of_mod_eq_zero hm)
      split at h
      · simp only [List.mem_cons, Prod.mk.injEq, List.not_mem_nil, or_false] at h
        rcases h with ⟨rfl, rfl⟩ | ⟨rfl, rfl⟩
        · exact hd
        · rw [mul_comm]; exact hd
      · simp only [List.mem_cons, Prod.mk.injEq, List.not_mem_nil, or_false] at h
        obtain ⟨rfl, rfl⟩ := h
        exact hd
    · simp at h
  · intro h
    have ha : 0 < a := Nat.pos_of_ne_zero (by rintro rfl; simp at h; omega)
    have hb : 0 < b := Nat.pos_of_ne_zero (by rintro rfl; simp at h; omega)
    by_cases hab : a ≤ b
    · refine ⟨a, ⟨ha, ?_⟩, ?_⟩
      · have : a ≤ Nat.sqrt n := Nat.le_sqrt.2 (by rw [← h]; exact Nat.mul_le_mul_left _ hab)
        omega
      · have hdiv : n / a = b := by rw [← h]; exact Nat.mul_div_cancel_left _ ha
        rw [if_pos (by rw [← h]; exact Nat.mul_mod_right _ _)]
        simp only [hdiv]
        split <;> simp
    · refine ⟨b, ⟨hb, ?_⟩, ?_⟩
      · have : b ≤ Nat.sqrt n := Nat.le_sqrt.2 (by rw [← h]; exact Nat.mul_le_mul_right _ (by omega))
        omega
      · have hdiv : n / b = a := by rw [← h]; exact Nat.mul_div_cancel _ hb
        rw [if_pos (by rw [← h]; exact Nat.mul_mod_left _ _)]
        simp only [hdiv]
        rw [if_pos (by omega)]
        simp

theorem factors_nodup (n : Nat) : (factors n).Nodup := by
  unfold factors
  have hle : ∀ t ∈ List.range' 1 (Nat.sqrt n), 0 < t ∧ t * t ≤ n := by
    intro t ht
    rw [List.mem_range'_1] at ht
    exact ⟨ht.1, Nat.le_sqrt.1 (by omega)⟩
  rw [List.nodup_flatMap]
  constructor
  · intro t _
    split
    · simp only
      split
      · rename_i h; simp [h]
      · simp
    · simp
  · have hp : (List.range' 1 (Nat.sqrt n)).reverse.Pairwise (· ≠ ·) := List.nodup_reverse.2 (List.nodup_range' (step := 1))
    refine (List.Pairwise.and_mem.1 hp).imp ?_
    rintro t u ⟨ht, hu, htu⟩
    have h1 := hle t (List.mem_reverse.1 ht)
    have h2 := hle u (List.mem_reverse.1 hu)
    simp only [Function.onFun]
    rw [List.disjoint_iff_ne]
    have key : ∀ (t : Nat), 0 < t → t * t ≤ n → ∀ a b, (a, b) ∈ (if n % t = 0 then
        (if t ≠ n / t then [(t, n / t), (n / t, t)] else [(t, n / t)]) else []) → min a b = t := by
      intro t h0 h1 a b h
      split at h
      · have : t ≤ n / t := (Nat.le_div_iff_mul_le h0).2 h1
        split at h
        · simp only [List.mem_cons, Prod.mk.injEq, List.not_mem_nil, or_false] at h
          rcases h with ⟨rfl, rfl⟩ | ⟨rfl, rfl⟩ <;> omega
        · simp only [List.mem_cons, Prod.mk.injEq, List.not_mem_nil, or_false] at h
          obtain ⟨rfl, rfl⟩ := h
          omega
      · simp at h
    rintro ⟨a, b⟩ hab ⟨a', b'⟩ hab' heq
    simp only [Prod.mk.injEq] at heq
    obtain ⟨rfl, rfl⟩ := heq
    exact htu ((key t h1.1 h1.2 a b hab).symm.trans (key u h2.1 h2.2 a b hab'))

end FSat
