import Verif.Spec.Plot
import Verif.Lemmas.Dict
import Verif.Lemmas.Json
import Verif.Lemmas.Network
/-!
# C99: the picture of a network
-/

namespace FSat

/-! ### Names -/

theorem showInt_inj {x y : Int} (h : showInt x = showInt y) : x = y := by
  have h1 := intOf_showInt x
  rw [h, intOf_showInt] at h1
  exact (Except.ok.inj h1).symm

theorem splitterName_inj {i j : Nat} (h : splitterName i = splitterName j) : i = j := by
  have := showInt_inj h
  omega

theorem colourName_inj {x y : Int} (h : colourName x = colourName y) : x = y := showInt_inj (List.cons.inj h).2

theorem splitter_ne {i : Nat} {c : Char} {t : List Char} (hc : Json.isDig c = false) (hm : c ≠ '-') : splitterName i ≠ c :: t := by
  intro h
  obtain ⟨c', t', e, h1⟩ := Json.num_head_int i
  unfold splitterName at h
  rw [e] at h
  rw [(List.cons.inj h).1] at h1
  rcases h1 with h1 | h1
  · rw [hc] at h1; cases h1
  · exact hm h1

theorem splitter_ne_colour {i : Nat} {c : Int} : splitterName i ≠ colourName c := splitter_ne (by decide) (by decide)
theorem splitter_ne_start {i : Nat} : splitterName i ≠ startName := splitter_ne (by decide) (by decide)
theorem splitter_ne_end {i : Nat} : splitterName i ≠ endName := splitter_ne (by decide) (by decide)
theorem colour_ne_start {c : Int} : colourName c ≠ startName := fun h => absurd (List.cons.inj h).1 (by decide)
theorem colour_ne_end {c : Int} : colourName c ≠ endName := fun h => absurd (List.cons.inj h).1 (by decide)

/-! ### The occurrences of the colours -/

/-- What the dictionary holds for the pairs added so far. -/
structure OccOf (d : PyDict Int (List (Bool × Nat))) (R : Int → Bool × Nat → Prop) : Prop where
  valid : d.Valid
  nodup : ∀ c l, d.get c = some l → l.Nodup
  mem : ∀ c x, x ∈ (d.get c).getD [] ↔ R c x
  used : ∀ c l, d.get c = some l → l ≠ []

theorem OccOf.add {d : PyDict Int (List (Bool × Nat))} {R : Int → Bool × Nat → Prop} (h : OccOf d R) (c : Colour) (x : Bool × Nat) :
    OccOf (addOccurrence d c x) fun c' y => R c' y ∨ (c = some c' ∧ y = x) := by
  unfold addOccurrence
  cases c with
  | none => exact ⟨h.valid, h.nodup, fun c' y => by rw [h.mem]; simp, h.used⟩
  | some c =>
    dsimp only
    have nod : ((d.get c).getD []).Nodup := by
      cases e : d.get c with
      | none => exact List.nodup_nil
      | some l => exact h.nodup c l e
    split
    · rename_i hx
      refine ⟨h.valid.set _ _, fun c' l hl => ?_, fun c' y => ?_, fun c' l hl => ?_⟩
      · rw [PyDict.get_set] at hl
        split at hl
        · cases hl; exact nod
        · exact h.nodup c' l hl
      · rw [PyDict.get_set]
        split
        · rename_i e
          subst e
          simp only [Option.getD_some, h.mem]
          refine ⟨.inl, fun h1 => h1.elim id fun h1 => ?_⟩
          rw [h1.2]
          exact (h.mem _ _).1 hx
        · rename_i e
          rw [h.mem]
          exact ⟨.inl, fun h1 => h1.resolve_right fun h2 => e (Option.some.inj h2.1)⟩
      · rw [PyDict.get_set] at hl
        split at hl
        · cases hl
          exact List.ne_nil_of_mem hx
        · exact h.used c' l hl
    · rename_i hx
      refine ⟨h.valid.set _ _, fun c' l hl => ?_, fun c' y => ?_, fun c' l hl => ?_⟩
      · rw [PyDict.get_set] at hl
        split at hl
        · cases hl
          exact List.nodup_append.2 ⟨nod, by simp, fun a ha b hb => by rintro rfl; simp at hb; exact hx (hb ▸ ha)⟩
        · exact h.nodup c' l hl
      · rw [PyDict.get_set]
        split
        · rename_i e
          subst e
          simp only [Option.getD_some, List.mem_append, List.mem_singleton, h.mem, true_and]
        · rename_i e
          rw [h.mem]
          exact ⟨.inl, fun h1 => h1.resolve_right fun h2 => e (Option.some.inj h2.1)⟩
      · rw [PyDict.get_set] at hl
        split at hl
        · cases hl; simp
        · exact h.used c' l hl

/-- One end of a splitter of the list. -/
def EndIn (l : List (Node × Nat)) (c : Int) (x : Bool × Nat) : Prop :=
  ∃ nd, (nd, x.2) ∈ l ∧ (if x.1 then nd.1.1 = some c ∨ nd.1.2 = some c else nd.2.1 = some c ∨ nd.2.2 = some c)

theorem OccOf.addNode {d : PyDict Int (List (Bool × Nat))} {R : Int → Bool × Nat → Prop} (h : OccOf d R) (e : Node × Nat) :
    OccOf (addNode d e) fun c x => R c x ∨ EndIn [e] c x := by
  have := (((h.add e.1.1.1 (true, e.2)).add e.1.1.2 (true, e.2)).add e.1.2.1 (false, e.2)).add e.1.2.2 (false, e.2)
  refine ⟨this.valid, this.nodup, fun c x => (this.mem c x).trans ?_, this.used⟩
  obtain ⟨nd, i⟩ := e
  obtain ⟨s, j⟩ := x
  simp only [EndIn, List.mem_singleton, Prod.mk.injEq]
  cases s <;> simp <;> tauto

theorem OccOf.fold {l : List (Node × Nat)} {d : PyDict Int (List (Bool × Nat))} {R : Int → Bool × Nat → Prop} (h : OccOf d R) :
    OccOf (l.foldl FSat.addNode d) fun c x => R c x ∨ EndIn l c x := by
  induction l generalizing d R with
  | nil => exact ⟨h.valid, h.nodup, fun c x => (h.mem c x).trans (by simp [EndIn]), h.used⟩
  | cons e l ih =>
    have := ih (h.addNode e)
    refine ⟨this.valid, this.nodup, fun c x => (this.mem c x).trans ?_, this.used⟩
    rw [or_assoc]
    refine or_congr Iff.rfl ?_
    simp only [EndIn, List.mem_cons, List.mem_singleton, or_and_right, exists_or, List.not_mem_nil, or_false]

theorem occOf (n : Network) : OccOf (colourOccurrences n) fun c x => if x.1 then TakesColour n x.2 c else GivesColour n x.2 c := by
  have h0 : OccOf [] fun _ _ => False := ⟨PyDict.valid_nil, nofun, fun c x => by simp [PyDict.get], nofun⟩
  have := h0.fold (l := n.zipIdx)
  refine ⟨this.valid, this.nodup, fun c x => (this.mem c x).trans ?_, this.used⟩
  obtain ⟨s, i⟩ := x
  simp only [false_or, EndIn, List.mem_zipIdx_iff_getElem?]
  cases s <;> simp [TakesColour, GivesColour]

/-! ### One colour -/

theorem countP_one {l : List (Bool × Nat)} (hn : l.Nodup) (s : Bool) : l.countP (fun x => x.1 == s) = 1 ↔ ∃! i, (s, i) ∈ l := by
  rw [List.countP_eq_length_filter]
  constructor
  · intro h
    obtain ⟨⟨s', i⟩, e⟩ := List.length_eq_one_iff.1 h
    have h1 : ∀ y, y ∈ l.filter (fun x => x.1 == s) ↔ y = (s', i) := by simp [e]
    simp only [List.mem_filter, beq_iff_eq] at h1
    obtain ⟨h2, h3⟩ := (h1 (s', i)).2 rfl
    dsimp at h3
    subst h3
    exact ⟨i, h2, fun j hj => by have := (h1 (s', j)).1 ⟨hj, rfl⟩; cases this; rfl⟩
  · rintro ⟨i, h1, h2⟩
    have : l.filter (fun x => x.1 == s) = [(s, i)] := by
      have hp : (l.filter (fun x => x.1 == s)).Perm [(s, i)] := by
        refine (List.perm_ext_iff_of_nodup (hn.filter _) (by simp)).2 fun y => ?_
        simp only [List.mem_filter, beq_iff_eq, List.mem_singleton]
        constructor
        · rintro ⟨h3, h4⟩
          obtain ⟨s', j⟩ := y
          dsimp at h4
          subst h4
          rw [h2 j h3]
        · rintro rfl
          exact ⟨h1, rfl⟩
      exact List.perm_singleton.1 hp
    rw [this]
    rfl

/-- A pair of one giver and one taker, sorted. -/
theorem sorted_pair {l : List (Bool × Nat)} (hn : l.Nodup) {i j : Nat} (hi : (false, i) ∈ l) (hj : (true, j) ∈ l) (ui : ∀ k, (false, k) ∈ l → k = i)
    (uj : ∀ k, (true, k) ∈ l → k = j) : (l.insertionSort fun x y => sideLe x y = true).map Prod.snd = [i, j] := by
  have hp : l.Perm [(false, i), (true, j)] := by
    refine (List.perm_ext_iff_of_nodup hn (by simp)).2 fun y => ?_
    obtain ⟨s, k⟩ := y
    simp only [List.mem_cons, List.not_mem_nil, or_false, Prod.mk.injEq]
    cases s with
    | false => exact ⟨fun h => .inl ⟨rfl, ui k h⟩, by rintro (⟨_, rfl⟩ | ⟨h, _⟩); exacts [hi, absurd h (by simp)]⟩
    | true => exact ⟨fun h => .inr ⟨rfl, uj k h⟩, by rintro (⟨h, _⟩ | ⟨_, rfl⟩); exacts [absurd h (by simp), hj]⟩
  obtain rfl | rfl : l = [(false, i), (true, j)] ∨ l = [(true, j), (false, i)] := by
    have hl := hp.length_eq
    match l, hl with
    | [x, y], _ =>
      have hx := hp.mem_iff.1 (show x ∈ [x, y] by simp)
      have hy := hp.mem_iff.1 (show y ∈ [x, y] by simp)
      simp only [List.mem_cons, List.not_mem_nil, or_false] at hx hy
      simp only [List.nodup_cons, List.mem_singleton] at hn
      rcases hx with rfl | rfl <;> rcases hy with rfl | rfl
      · exact absurd rfl hn.1
      · exact .inl rfl
      · exact .inr rfl
      · exact absurd rfl hn.1
  · simp [List.orderedInsert, sideLe]
  · simp [List.orderedInsert, sideLe]

/-- What is drawn for one colour. -/
theorem drawColour_ok {ord : List (Bool × Nat) → List (Bool × Nat)} (ho : ∀ l, (ord l).Perm l) {n : Network} {c : Int} {occ : List (Bool × Nat)}
    (h : (colourOccurrences n).get c = some occ) : ∃ pic, drawColour ord c occ = .ok pic ∧
      (∀ v, v ∈ pic.nodes ↔ ¬ OneToOne n c ∧ v = ⟨colourName c, some (showInt c), false⟩) ∧
      ∀ e, e ∈ pic.arrows ↔
        (OneToOne n c ∧ ∃ i j, GivesColour n i c ∧ TakesColour n j c ∧ e = ⟨splitterName i, splitterName j, some (showInt c), false⟩) ∨
        (¬ OneToOne n c ∧ ((∃ i, GivesColour n i c ∧ e.tail = splitterName i ∧ e.head = colourName c ∧ e.label = none ∧
            (e.headless = true ↔ ∃ j, TakesColour n j c)) ∨
          ∃ j, TakesColour n j c ∧ e = ⟨colourName c, splitterName j, none, false⟩)) := by
  have hO := occOf n
  have hn := hO.nodup c occ h
  have hm : ∀ x, x ∈ occ ↔ if x.1 then TakesColour n x.2 c else GivesColour n x.2 c := by
    intro x
    rw [← hO.mem c x, h]
    rfl
  have hg : ∀ i, (false, i) ∈ occ ↔ GivesColour n i c := fun i => by simpa using hm (false, i)
  have ht : ∀ i, (true, i) ∈ occ ↔ TakesColour n i c := fun i => by simpa using hm (true, i)
  have c1 : (occ.countP (fun x => !x.1) = 1) ↔ ∃! i, GivesColour n i c := by
    have : (fun x : Bool × Nat => !x.1) = fun x => x.1 == false := by funext x; cases x.1 <;> rfl
    rw [this, countP_one hn]
    exact existsUnique_congr fun i => hg i
  have c2 : (occ.countP (fun x => x.1) = 1) ↔ ∃! i, TakesColour n i c := by
    have : (fun x : Bool × Nat => x.1) = fun x => x.1 == true := by funext x; cases x.1 <;> rfl
    rw [this, countP_one hn]
    exact existsUnique_congr fun i => ht i
  have c0 : (occ.countP (fun x => x.1) ≠ 0) ↔ ∃ j, TakesColour n j c := by
    rw [← Nat.pos_iff_ne_zero, List.countP_pos_iff]
    constructor
    · rintro ⟨⟨s, j⟩, h1, h2⟩
      dsimp at h2
      subst h2
      exact ⟨j, (ht j).1 h1⟩
    · rintro ⟨j, hj⟩
      exact ⟨(true, j), (ht j).2 hj, rfl⟩
  unfold drawColour
  dsimp only
  by_cases hone : OneToOne n c
  · rw [if_pos ⟨c1.2 hone.1, c2.2 hone.2⟩]
    obtain ⟨⟨i, hi, ui⟩, j, hj, uj⟩ := hone
    dsimp only at ui uj
    rw [sorted_pair hn ((hg i).2 hi) ((ht j).2 hj) (fun k hk => ui k ((hg k).1 hk)) fun k hk => uj k ((ht k).1 hk)]
    refine ⟨_, rfl, fun v => ?_, fun e => ?_⟩
    · simp only [List.not_mem_nil, false_iff]
      exact fun hx => hx.1 ⟨⟨i, hi, ui⟩, j, hj, uj⟩
    · simp only [List.mem_singleton]
      constructor
      · rintro rfl
        exact .inl ⟨⟨⟨i, hi, ui⟩, j, hj, uj⟩, i, j, hi, hj, rfl⟩
      · rintro (⟨_, i', j', hi', hj', rfl⟩ | ⟨hx, _⟩)
        · rw [ui i' hi', uj j' hj']
        · exact absurd ⟨⟨i, hi, ui⟩, j, hj, uj⟩ hx
  · rw [if_neg fun hx => hone ⟨c1.1 hx.1, c2.1 hx.2⟩]
    refine ⟨_, rfl, fun v => ?_, fun e => ?_⟩
    · simp only [List.mem_singleton]
      exact ⟨fun hv => ⟨hone, hv⟩, fun hv => hv.2⟩
    · simp only [List.mem_map, (ho occ).mem_iff]
      constructor
      · rintro ⟨⟨s, k⟩, hk, rfl⟩
        refine .inr ⟨hone, ?_⟩
        cases s with
        | true => exact .inr ⟨k, (ht k).1 hk, by simp⟩
        | false =>
          refine .inl ⟨k, (hg k).1 hk, ?_⟩
          by_cases hz : occ.countP (fun x => x.1) = 0
          · have hno : ¬ ∃ j, TakesColour n j c := fun hx => c0.2 hx hz
            simp [hz, hno]
          · have hyes := c0.1 hz
            simp [hz, hyes]
      · rintro (⟨hx, _⟩ | ⟨_, ⟨i, hi, h1, h2, h3, h4⟩ | ⟨j, hj, rfl⟩⟩)
        · exact absurd hx hone
        · refine ⟨(false, i), (hg i).2 hi, ?_⟩
          obtain ⟨x, y, l, b⟩ := e
          dsimp only at h1 h2 h3 h4
          subst h1 h2 h3
          by_cases hz : occ.countP (fun x => x.1) = 0
          · have hno : ¬ ∃ j, TakesColour n j c := fun hx => c0.2 hx hz
            have : b = false := by
              rw [Bool.eq_false_iff]
              exact fun hb => hno (h4.1 hb)
            simp [hz, this]
          · have : b = true := h4.2 (c0.1 hz)
            simp [hz, this]
        · exact ⟨(true, j), (ht j).2 hj, by simp⟩

theorem mapM_ok {α β : Type} {f : α → Except PyErr β} : ∀ (l : List α), (∀ x ∈ l, ∃ y, f x = .ok y) →
    ∃ ys, l.mapM f = .ok ys ∧ ∀ y, y ∈ ys ↔ ∃ x ∈ l, f x = .ok y
  | [], _ => ⟨[], rfl, by simp⟩
  | x :: l, h => by
    obtain ⟨y, hy⟩ := h x (by simp)
    obtain ⟨ys, h1, h2⟩ := mapM_ok l fun z hz => h z (by simp [hz])
    refine ⟨y :: ys, ?_, fun z => ?_⟩
    · rw [List.mapM_cons, hy, h1]
      rfl
    · simp only [List.mem_cons, h2, exists_eq_or_imp, hy, Except.ok.injEq]
      exact or_congr eq_comm Iff.rfl

/-- The whole picture. -/
theorem plot_ok {ord : List (Bool × Nat) → List (Bool × Nat)} (ho : ∀ l, (ord l).Perm l) {n : Network} {a p b q : Int}
    (h : getInputOutputColours n = .ok ((a, p), (b, q))) : ∃ pic, plot ord n = .ok pic ∧
      (∀ v, v ∈ pic.nodes ↔ v = ⟨startName, none, true⟩ ∨ v = ⟨endName, none, true⟩ ∨ (∃ i < n.length, v = ⟨splitterName i, some [], false⟩) ∨
        ∃ c, ((∃ i, GivesColour n i c) ∨ ∃ j, TakesColour n j c) ∧ ¬ OneToOne n c ∧ v = ⟨colourName c, some (showInt c), false⟩) ∧
      ∀ e, e ∈ pic.arrows ↔ e = ⟨startName, colourName a, none, false⟩ ∨ e = ⟨colourName b, endName, none, false⟩ ∨ ∃ c,
        (OneToOne n c ∧ ∃ i j, GivesColour n i c ∧ TakesColour n j c ∧ e = ⟨splitterName i, splitterName j, some (showInt c), false⟩) ∨
        (¬ OneToOne n c ∧ ((∃ i, GivesColour n i c ∧ e.tail = splitterName i ∧ e.head = colourName c ∧ e.label = none ∧
            (e.headless = true ↔ ∃ j, TakesColour n j c)) ∨
          ∃ j, TakesColour n j c ∧ e = ⟨colourName c, splitterName j, none, false⟩)) := by
  have hO := occOf n
  have get : ∀ e ∈ colourOccurrences n, (colourOccurrences n).get e.1 = some e.2 := fun e he => PyDict.get_of_mem hO.valid he
  obtain ⟨parts, h1, h2⟩ := mapM_ok (f := fun e : Int × List (Bool × Nat) => drawColour ord e.1 e.2) (colourOccurrences n) fun e he => by
    obtain ⟨pic, hp, _⟩ := drawColour_ok ho (get e he)
    exact ⟨pic, hp⟩
  have has : ∀ c, ((∃ i, GivesColour n i c) ∨ ∃ j, TakesColour n j c) → ∃ occ, (colourOccurrences n).get c = some occ := by
    intro c hc
    have hmem : ∃ x, x ∈ ((colourOccurrences n).get c).getD [] := by
      rcases hc with ⟨i, hi⟩ | ⟨i, hi⟩
      · exact ⟨(false, i), (hO.mem c _).2 (by simpa using hi)⟩
      · exact ⟨(true, i), (hO.mem c _).2 (by simpa using hi)⟩
    obtain ⟨x, hx⟩ := hmem
    cases e : (colourOccurrences n).get c with
    | none => rw [e] at hx; simp at hx
    | some occ => exact ⟨occ, rfl⟩
  have used : ∀ c occ, (colourOccurrences n).get c = some occ → (∃ i, GivesColour n i c) ∨ ∃ j, TakesColour n j c := by
    intro c occ hc
    obtain ⟨⟨s, i⟩, hx⟩ := List.exists_mem_of_ne_nil _ (hO.used c occ hc)
    have := (hO.mem c (s, i)).1 (by rw [hc]; exact hx)
    cases s with
    | true => exact .inr ⟨i, by simpa using this⟩
    | false => exact .inl ⟨i, by simpa using this⟩
  unfold plot
  rw [h]
  dsimp only
  rw [h1]
  refine ⟨_, rfl, fun v => ?_, fun e => ?_⟩
  · simp only [List.cons_append, List.mem_cons, List.mem_append, List.mem_map, List.mem_range, List.mem_flatMap, h2]
    refine or_congr Iff.rfl (or_congr Iff.rfl (or_congr (exists_congr fun i => and_congr_right fun _ => eq_comm) ?_))
    constructor
    · rintro ⟨pic, ⟨⟨c, occ⟩, hx, hd⟩, hv⟩
      obtain ⟨pic', hp, h3, _⟩ := drawColour_ok ho (get _ hx)
      rw [hd] at hp
      obtain rfl := Except.ok.inj hp
      exact ⟨c, used c occ (get _ hx), (h3 v).1 hv⟩
    · rintro ⟨c, hc, hv⟩
      obtain ⟨occ, hx⟩ := has c hc
      obtain ⟨pic', hp, h3, _⟩ := drawColour_ok ho hx
      exact ⟨pic', ⟨(c, occ), PyDict.mem_of_get hx, hp⟩, (h3 v).2 hv⟩
  · simp only [List.mem_cons, List.mem_flatMap, h2]
    refine or_congr Iff.rfl (or_congr Iff.rfl ?_)
    constructor
    · rintro ⟨pic, ⟨⟨c, occ⟩, hx, hd⟩, hv⟩
      obtain ⟨pic', hp, _, h3⟩ := drawColour_ok ho (get _ hx)
      rw [hd] at hp
      obtain rfl := Except.ok.inj hp
      exact ⟨c, (h3 e).1 hv⟩
    · rintro ⟨c, hv⟩
      have hc : (∃ i, GivesColour n i c) ∨ ∃ j, TakesColour n j c := by
        rcases hv with ⟨_, i, _, hi, _⟩ | ⟨_, ⟨i, hi, _⟩ | ⟨j, hj, _⟩⟩
        · exact .inl ⟨i, hi⟩
        · exact .inl ⟨i, hi⟩
        · exact .inr ⟨j, hj⟩
      obtain ⟨occ, hx⟩ := has c hc
      obtain ⟨pic', hp, _, h3⟩ := drawColour_ok ho hx
      exact ⟨pic', ⟨(c, occ), PyDict.mem_of_get hx, hp⟩, (h3 e).2 hv⟩

/-! ### C99 -/

variable {ord : List (Bool × Nat) → List (Bool × Nat)} {n : Network} {pic : NetPicture}

/-- C99: `network render` draws a picture of every network with inputs and outputs. -/
theorem c99_draws (ho : ∀ l, (ord l).Perm l) : (∃ pic, plot ord n = .ok pic) ↔ ∃ a p b q, Ends n a p b q := by
  constructor
  · rintro ⟨pic, h⟩
    unfold plot at h
    generalize e : getInputOutputColours n = io at h
    rcases io with _ | ⟨⟨a, p⟩, b, q⟩
    · cases h
    · exact ⟨a, p, b, q, (gio_iff _ _ _ _ _).1 e⟩
  · rintro ⟨a, p, b, q, h⟩
    obtain ⟨pic, hp, _⟩ := plot_ok ho ((gio_iff _ _ _ _ _).2 h)
    exact ⟨pic, hp⟩

theorem ends_of_plot (h : plot ord n = .ok pic) : ∃ a p b q, getInputOutputColours n = .ok ((a, p), (b, q)) := by
  unfold plot at h
  generalize e : getInputOutputColours n = io at h
  rcases io with _ | ⟨⟨a, p⟩, b, q⟩
  · cases h
  · exact ⟨a, p, b, q, rfl⟩

/-- C99: the picture has a box for every splitter, and no other boxes than these and the dots of the colours. -/
theorem c99_boxes (ho : ∀ l, (ord l).Perm l) (h : plot ord n = .ok pic) (v : PlotNode) : v ∈ pic.nodes ∧ v.hidden = false ↔
    (∃ i < n.length, v = ⟨splitterName i, some [], false⟩) ∨
      ∃ c, ((∃ i, GivesColour n i c) ∨ ∃ j, TakesColour n j c) ∧ ¬ OneToOne n c ∧ v = ⟨colourName c, some (showInt c), false⟩ := by
  obtain ⟨a, p, b, q, hE⟩ := ends_of_plot h
  obtain ⟨pic', hp, h1, _⟩ := plot_ok ho hE
  rw [h] at hp
  obtain rfl := Except.ok.inj hp
  rw [h1]
  constructor
  · rintro ⟨rfl | rfl | hv, h2⟩
    · cases h2
    · cases h2
    · exact hv
  · intro hv
    refine ⟨.inr (.inr hv), ?_⟩
    rcases hv with ⟨i, _, rfl⟩ | ⟨c, _, _, rfl⟩ <;> rfl

/-- C99: the picture shows a belt of a colour from a splitter to a splitter exactly if an output of the one and an input of the other have
this colour. -/
theorem c99_belts (ho : ∀ l, (ord l).Perm l) (h : plot ord n = .ok pic) (i : Nat) (c : Int) (j : Nat) :
    pic.ShowsBelt i c j ↔ GivesColour n i c ∧ TakesColour n j c := by
  obtain ⟨a, p, b, q, hE⟩ := ends_of_plot h
  obtain ⟨pic', hp, _, h1⟩ := plot_ok ho hE
  rw [h] at hp
  obtain rfl := Except.ok.inj hp
  unfold NetPicture.ShowsBelt NetPicture.Arrow
  constructor
  · rintro (⟨e, he, e1, e2, e3⟩ | ⟨⟨e, he, e1, e2⟩, e', he', e1', e2'⟩)
    · rcases (h1 e).1 he with rfl | rfl | ⟨c', ⟨_, i', j', hi, hj, rfl⟩ | ⟨_, ⟨i', hi, _, _, h3, _⟩ | ⟨j', hj, rfl⟩⟩⟩
      · cases e3
      · cases e3
      · obtain rfl := splitterName_inj e1
        obtain rfl := splitterName_inj e2
        obtain rfl := showInt_inj (Option.some.inj e3)
        exact ⟨hi, hj⟩
      · rw [h3] at e3; cases e3
      · cases e3
    · constructor
      · rcases (h1 e).1 he with rfl | rfl | ⟨c', ⟨_, i', j', hi, hj, rfl⟩ | ⟨_, ⟨i', hi, h3, h4, _, _⟩ | ⟨j', hj, rfl⟩⟩⟩
        · exact absurd e1.symm splitter_ne_start
        · exact absurd e1.symm splitter_ne_colour
        · exact absurd e2 splitter_ne_colour
        · obtain rfl := splitterName_inj (h3.symm.trans e1)
          obtain rfl := colourName_inj (h4.symm.trans e2)
          exact hi
        · exact absurd e1.symm splitter_ne_colour
      · rcases (h1 e').1 he' with rfl | rfl | ⟨c', ⟨_, i', j', hi, hj, rfl⟩ | ⟨_, ⟨i', hi, h3, h4, _, _⟩ | ⟨j', hj, rfl⟩⟩⟩
        · exact absurd e2'.symm splitter_ne_colour
        · exact absurd e2'.symm splitter_ne_end
        · exact absurd e1' splitter_ne_colour
        · exact absurd (h3.symm.trans e1') splitter_ne_colour
        · obtain rfl := colourName_inj e1'
          obtain rfl := splitterName_inj e2'
          exact hj
  · rintro ⟨hi, hj⟩
    by_cases hone : OneToOne n c
    · exact .inl ⟨_, (h1 _).2 (.inr (.inr ⟨c, .inl ⟨hone, i, j, hi, hj, rfl⟩⟩)), rfl, rfl, rfl⟩
    · refine .inr ⟨⟨⟨splitterName i, colourName c, none, true⟩, (h1 _).2 (.inr (.inr ⟨c, .inr ⟨hone, .inl ⟨i, hi, rfl, rfl, rfl, ?_⟩⟩⟩)), rfl, rfl⟩,
        ⟨colourName c, splitterName j, none, false⟩, (h1 _).2 (.inr (.inr ⟨c, .inr ⟨hone, .inr ⟨j, hj, rfl⟩⟩⟩)), rfl, rfl⟩
      exact ⟨fun _ => ⟨j, hj⟩, fun _ => rfl⟩

/-- C99, partial: the picture shows a belt from outside to a splitter exactly if the splitter takes the input colour of the network, provided
that this is not a colour that one splitter gives and one takes.  `c99_input_refuted`: this cannot be dropped. -/
theorem c99_inputs_partial (ho : ∀ l, (ord l).Perm l) (h : plot ord n = .ok pic) {a p b q : Int} (hE : Ends n a p b q)
    (hone : ¬ OneToOne n a) (j : Nat) : pic.ShowsInput j ↔ TakesColour n j a := by
  obtain ⟨pic', hp, _, h1⟩ := plot_ok ho ((gio_iff _ _ _ _ _).2 hE)
  rw [h] at hp
  obtain rfl := Except.ok.inj hp
  unfold NetPicture.ShowsInput NetPicture.Arrow
  constructor
  · rintro ⟨x, ⟨e, he, e1, e2⟩, e', he', e1', e2'⟩
    have hx : x = colourName a := by
      rcases (h1 e).1 he with rfl | rfl | ⟨c', ⟨_, i', j', hi, hj, rfl⟩ | ⟨_, ⟨i', hi, h3, h4, _, _⟩ | ⟨j', hj, rfl⟩⟩⟩
      · exact e2.symm
      · exact absurd e1 colour_ne_start
      · exact absurd e1 splitter_ne_start
      · exact absurd (h3.symm.trans e1) splitter_ne_start
      · exact absurd e1 colour_ne_start
    subst hx
    rcases (h1 e').1 he' with rfl | rfl | ⟨c', ⟨_, i', j', hi, hj, rfl⟩ | ⟨_, ⟨i', hi, h3, h4, _, _⟩ | ⟨j', hj, rfl⟩⟩⟩
    · exact absurd e2'.symm splitter_ne_colour
    · exact absurd e2'.symm splitter_ne_end
    · exact absurd e1' splitter_ne_colour
    · exact absurd (h3.symm.trans e1') splitter_ne_colour
    · obtain rfl := colourName_inj e1'
      obtain rfl := splitterName_inj e2'
      exact hj
  · intro hj
    exact ⟨colourName a, ⟨_, (h1 _).2 (.inl rfl), rfl, rfl⟩,
      ⟨colourName a, splitterName j, none, false⟩, (h1 _).2 (.inr (.inr ⟨a, .inr ⟨hone, .inr ⟨j, hj, rfl⟩⟩⟩)), rfl, rfl⟩

/-- C99, partial: likewise for the output colour. -/
theorem c99_outputs_partial (ho : ∀ l, (ord l).Perm l) (h : plot ord n = .ok pic) {a p b q : Int} (hE : Ends n a p b q)
    (hone : ¬ OneToOne n b) (i : Nat) : pic.ShowsOutput i ↔ GivesColour n i b := by
  obtain ⟨pic', hp, _, h1⟩ := plot_ok ho ((gio_iff _ _ _ _ _).2 hE)
  rw [h] at hp
  obtain rfl := Except.ok.inj hp
  unfold NetPicture.ShowsOutput NetPicture.Arrow
  constructor
  · rintro ⟨x, ⟨e', he', e1', e2'⟩, e, he, e1, e2⟩
    have hx : x = colourName b := by
      rcases (h1 e).1 he with rfl | rfl | ⟨c', ⟨_, i', j', hi, hj, rfl⟩ | ⟨_, ⟨i', hi, h3, h4, _, _⟩ | ⟨j', hj, rfl⟩⟩⟩
      · exact absurd e2 colour_ne_end
      · exact e1.symm
      · exact absurd e2 splitter_ne_end
      · exact absurd (h4.symm.trans e2) colour_ne_end
      · exact absurd e2 splitter_ne_end
    subst hx
    rcases (h1 e').1 he' with rfl | rfl | ⟨c', ⟨_, i', j', hi, hj, rfl⟩ | ⟨_, ⟨i', hi, h3, h4, _, _⟩ | ⟨j', hj, rfl⟩⟩⟩
    · exact absurd e1'.symm splitter_ne_start
    · exact absurd e1'.symm splitter_ne_colour
    · exact absurd e2' splitter_ne_colour
    · obtain rfl := splitterName_inj (h3.symm.trans e1')
      obtain rfl := colourName_inj (h4.symm.trans e2')
      exact hi
    · exact absurd e1'.symm splitter_ne_colour
  · intro hi
    refine ⟨colourName b, ?_, _, (h1 _).2 (.inr (.inl rfl)), rfl, rfl⟩
    by_cases hj : ∃ j, TakesColour n j b
    · exact ⟨⟨splitterName i, colourName b, none, true⟩,
        (h1 _).2 (.inr (.inr ⟨b, .inr ⟨hone, .inl ⟨i, hi, rfl, rfl, rfl, ⟨fun _ => hj, fun _ => rfl⟩⟩⟩⟩)), rfl, rfl⟩
    · exact ⟨⟨splitterName i, colourName b, none, false⟩,
        (h1 _).2 (.inr (.inr ⟨b, .inr ⟨hone, .inl ⟨i, hi, rfl, rfl, rfl, ⟨nofun, fun h => absurd h hj⟩⟩⟩⟩)), rfl, rfl⟩

/-- The condition of `c99_inputs_partial` holds if no splitter gives the input colour, as in all networks of `network create` and
`network parse`. -/
theorem not_oneToOne_of_fresh {c : Int} (h : ∀ i, ¬ GivesColour n i c) : ¬ OneToOne n c := fun ⟨⟨i, hi, _⟩, _⟩ => h i hi

theorem not_oneToOne_of_last {c : Int} (h : ∀ j, ¬ TakesColour n j c) : ¬ OneToOne n c := fun ⟨_, j, hj, _⟩ => h j hj

/-- C99: if the input colour is fed back from one splitter to one splitter, the picture shows no input at all. -/
theorem c99_input_refuted : ∃ (n : Network) (pic : NetPicture), plot id n = .ok pic ∧ Ends n 0 1 1 1 ∧ TakesColour n 0 0 ∧ ∀ j, ¬ pic.ShowsInput j := by
  refine ⟨[((some 0, some 0), (some 0, some 1))],
    ⟨[⟨startName, none, true⟩, ⟨endName, none, true⟩, ⟨splitterName 0, some [], false⟩, ⟨colourName 1, some (showInt 1), false⟩],
      [⟨startName, colourName 0, none, false⟩, ⟨colourName 1, endName, none, false⟩, ⟨splitterName 0, splitterName 0, some (showInt 0), false⟩,
       ⟨splitterName 0, colourName 1, none, false⟩]⟩, by decide +kernel, (gio_iff _ _ _ _ _).1 (by decide +kernel), ⟨_, rfl, .inl rfl⟩, fun j => ?_⟩
  rintro ⟨x, ⟨e, he, e1, e2⟩, e', he', e1', e2'⟩
  simp only [List.mem_cons, List.not_mem_nil, or_false] at he he'
  rcases he with rfl | rfl | rfl | rfl
  · subst e2
    rcases he' with rfl | rfl | rfl | rfl
    · exact colour_ne_start e1'.symm
    · have := colourName_inj e1'; omega
    · exact splitter_ne_colour (i := 0) (c := 0) e1'
    · exact splitter_ne_colour (i := 0) (c := 0) e1'
  · exact colour_ne_start e1
  · exact splitter_ne_start (i := 0) e1
  · exact splitter_ne_start (i := 0) e1

/-- C99: the picture does not tell how many belts there are: a splitter with one input belt and a splitter with two have the same picture. -/
theorem c99_counts_refuted : ∃ (n n' : Network) (pic : NetPicture), plot id n = .ok pic ∧ plot id n' = .ok pic ∧
    Ends n 0 2 1 2 ∧ Ends n' 0 1 1 2 := by
  refine ⟨[((some 0, some 0), (some 1, some 1))], [((some 0, none), (some 1, some 1))],
    ⟨[⟨startName, none, true⟩, ⟨endName, none, true⟩, ⟨splitterName 0, some [], false⟩, ⟨colourName 0, some (showInt 0), false⟩,
      ⟨colourName 1, some (showInt 1), false⟩],
      [⟨startName, colourName 0, none, false⟩, ⟨colourName 1, endName, none, false⟩, ⟨colourName 0, splitterName 0, none, false⟩,
       ⟨splitterName 0, colourName 1, none, false⟩]⟩, by decide +kernel, by decide +kernel, (gio_iff _ _ _ _ _).1 (by decide +kernel),
    (gio_iff _ _ _ _ _).1 (by decide +kernel)⟩

/-- The hypotheses can be met: the picture of a network of two splitters. -/
example : ∃ pic, plot id [((some 0, some 0), (some 1, some 1)), ((some 1, some 1), (some 3, some 3))] = .ok pic ∧ pic.ShowsBelt 0 1 1 ∧
    pic.ShowsInput 0 ∧ ¬ pic.ShowsInput 1 ∧ pic.ShowsOutput 1 := by
  have hE : Ends [((some 0, some 0), (some 1, some 1)), ((some 1, some 1), (some 3, some 3))] 0 2 3 2 := (gio_iff _ _ _ _ _).1 (by decide +kernel)
  obtain ⟨pic, h⟩ := (c99_draws (ord := id) fun _ => .refl _).2 ⟨0, 2, 3, 2, hE⟩
  have i0 : ¬ OneToOne [((some 0, some 0), (some 1, some 1)), ((some 1, some 1), (some 3, some 3))] 0 := by
    refine not_oneToOne_of_fresh fun i => ?_
    rintro ⟨nd, h1, h2⟩
    match i, h1 with
    | 0, h1 => cases h1; simp at h2
    | 1, h1 => cases h1; simp at h2
  have i3 : ¬ OneToOne [((some 0, some 0), (some 1, some 1)), ((some 1, some 1), (some 3, some 3))] 3 := by
    refine not_oneToOne_of_last fun i => ?_
    rintro ⟨nd, h1, h2⟩
    match i, h1 with
    | 0, h1 => cases h1; simp at h2
    | 1, h1 => cases h1; simp at h2
  refine ⟨pic, h, (c99_belts (fun _ => .refl _) h 0 1 1).2 ⟨⟨_, rfl, .inl rfl⟩, _, rfl, .inl rfl⟩,
    (c99_inputs_partial (fun _ => .refl _) h hE i0 0).2 ⟨_, rfl, .inl rfl⟩, fun hx => ?_,
    (c99_outputs_partial (fun _ => .refl _) h hE i3 1).2 ⟨_, rfl, .inl rfl⟩⟩
  obtain ⟨nd, h1, h2⟩ := (c99_inputs_partial (fun _ => .refl _) h hE i0 1).1 hx
  cases h1
  simp at h2

end FSat
