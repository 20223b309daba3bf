import Verif.Lemmas.InterchangeMain
import Verif.Lemmas.MakeBlockLoop
/-!
# Where the belts of an interchange lead
-/

set_option linter.unusedSimpArgs false

namespace FSat

open Relation

/-! ### Chains of steps -/

/-- From a place that no step leads to, one comes to a place that no step leaves. -/
theorem exists_end {α : Type} [DecidableEq α] (R : α → α → Prop) (n : Nat) : ∀ (S : Finset α), S.card ≤ n → ∀ x ∈ S,
    (∀ a b, a ∈ S → R a b → b ∈ S) → (∀ a a' b, a ∈ S → a' ∈ S → R a b → R a' b → a = a') → (∀ a ∈ S, ¬ R a x) →
    ∃ y ∈ S, ReflTransGen R x y ∧ ∀ z, ¬ R y z := by
  induction n with
  | zero =>
    intro S hS x hx
    rw [Nat.le_zero, Finset.card_eq_zero] at hS
    rw [hS] at hx
    simp at hx
  | succ n ih =>
    intro S hS x hx hin hinj hno
    by_cases h : ∃ y, R x y
    · obtain ⟨y, hy⟩ := h
      have hyx : y ≠ x := by rintro rfl; exact hno y hx hy
      obtain ⟨z, hz, h1, h2⟩ := ih (S.erase x) (by rw [Finset.card_erase_of_mem hx]; omega) y
        (Finset.mem_erase.2 ⟨hyx, hin x y hx hy⟩)
        (fun a b ha hab => by
          rw [Finset.mem_erase] at ha ⊢
          refine ⟨?_, hin a b ha.2 hab⟩
          rintro rfl
          exact hno a ha.2 hab)
        (fun a a' b ha ha' => hinj a a' b (Finset.mem_of_mem_erase ha) (Finset.mem_of_mem_erase ha'))
        (fun a ha hay => by
          rw [Finset.mem_erase] at ha
          exact ha.1 (hinj a x y ha.2 hx hay hy))
      exact ⟨z, Finset.mem_of_mem_erase hz, .head hy h1, h2⟩
    · exact ⟨x, hx, .refl, fun z hz => h ⟨z, hz⟩⟩

/-- Two chains to the same place begin at the same place, if no step leads to where they begin. -/
theorem same_start {α : Type} {R : α → α → Prop} (hinj : ∀ a a' b, R a b → R a' b → a = a') {x y z : α} (hx : ∀ a, ¬ R a x)
    (hy : ∀ a, ¬ R a y) (h1 : ReflTransGen R x z) (h2 : ReflTransGen R y z) : x = y := by
  induction h1 with
  | refl =>
    rcases h2.cases_tail with h | ⟨c, _, h⟩
    · exact h
    · exact absurd h (hx c)
  | tail h h' ih =>
    rcases h2.cases_tail with e | ⟨c, hc, hc'⟩
    · rw [e] at h'; exact absurd h' (hy _)
    · exact ih (hinj _ _ _ h' hc' ▸ hc)

/-- Two chains from the same place end at the same place, if no step leads on from where they end. -/
theorem same_end {α : Type} {R : α → α → Prop} (hfun : ∀ a b b', R a b → R a b' → b = b') {x y z : α} (hx : ∀ a, ¬ R x a)
    (hy : ∀ a, ¬ R y a) (h1 : ReflTransGen R z x) (h2 : ReflTransGen R z y) : x = y :=
  same_start (R := Function.swap R) (fun a a' b => hfun b a a') hx hy (reflTransGen_swap.2 h1) (reflTransGen_swap.2 h2)

section
variable {g : Grid} {T : Nat × Nat → Tile} {col : Nat × Nat → Nat} {L : Nat} {alt rot : Bool}

/-! ### Steps of belts -/

theorem takes_unique {t : Tile} (hns : ¬ t.IsSplitter) {d d' : Dir} (h1 : t.Takes d) (h2 : t.Takes d') : d = d' := by
  cases t with
  | belt i o => exact h1.symm.trans h2
  | underground e b =>
    cases b with
    | true => exact h1.symm.trans h2
    | false => exact h1.elim
  | splitter d b => exact absurd ⟨d, b, rfl⟩ hns
  | _ => exact h1.elim

theorem emits_unique {t : Tile} (hns : ¬ t.IsSplitter) {d d' : Dir} (h1 : t.Emits d) (h2 : t.Emits d') : d = d' := by
  cases t with
  | belt i o => exact h1.symm.trans h2
  | underground e b =>
    cases b with
    | false => exact h1.symm.trans h2
    | true => exact h1.elim
  | splitter d b => exact absurd ⟨d, b, rfl⟩ hns
  | _ => exact h1.elim

/-- A step within the grid. -/
def Step (g : Grid) (T : Nat × Nat → Tile) (p q : Nat × Nat) : Prop := g.In p ∧ Follows g.nb T p q

theorem Step.in (hg : g.WF) {p q : Nat × Nat} (h : Step g T p q) : g.In q := by
  rcases h.2 with ⟨d, h1, _⟩ | ⟨d, k, hpair⟩
  · exact Grid.nb_in hg h1
  · exact walk_in hg h.1 hpair.2.1

theorem Step.inj (hg : g.WF) (hns : ∀ p, g.In p → ¬ (T p).IsSplitter) {p p' q : Nat × Nat} (hf : Step g T p q) (hf' : Step g T p' q) :
    p = p' := by
  have hq := hf.in hg
  obtain ⟨hp, hf⟩ := hf
  obtain ⟨hp', hf'⟩ := hf'
  have hmix : ∀ (d d' : Dir) (k : Nat) (r : Nat × Nat), (T q).Takes d → ¬ UgPair g.nb T r q d' k := by
    intro d d' k r h1 hpair
    rw [hpair.2.2.2.1] at h1
    exact h1
  rcases hf with ⟨d, h1, h2, h3⟩ | ⟨d, k, hpair⟩ <;> rcases hf' with ⟨d', h1', h2', h3'⟩ | ⟨d', k', hpair'⟩
  · rw [← takes_unique (hns q hq) h3 h3'] at h1'
    exact Grid.nb_inj hg hp hp' h1 h1'
  · exact absurd hpair' (hmix d d' k' p' h3)
  · exact absurd hpair (hmix d' d k p h3')
  · have hd : d = d' := by
      have := hpair.2.2.2.1.symm.trans hpair'.2.2.2.1
      simpa using this
    subst hd
    exact ((hpair.back hg hp).unique (hpair'.back hg hp')).2

theorem Step.fun (hns : ∀ p, g.In p → ¬ (T p).IsSplitter) {p q q' : Nat × Nat} (hf : Step g T p q) (hf' : Step g T p q') :
    q = q' := by
  obtain ⟨hp, hf⟩ := hf
  have hf' := hf'.2
  have hmix : ∀ (d d' : Dir) (k : Nat) (r : Nat × Nat), (T p).Emits d → ¬ UgPair g.nb T p r d' k := by
    intro d d' k r h1 hpair
    rw [hpair.2.2.1] at h1
    exact h1
  rcases hf with ⟨d, h1, h2, h3⟩ | ⟨d, k, hpair⟩ <;> rcases hf' with ⟨d', h1', h2', h3'⟩ | ⟨d', k', hpair'⟩
  · rw [← emits_unique (hns p hp) h2 h2', h1] at h1'
    exact Option.some.inj h1'
  · exact absurd hpair' (hmix d d' k' q' h2)
  · exact absurd hpair (hmix d' d k q h2')
  · exact (hpair.unique hpair').2.2

theorem steps_of (hg : g.WF) {p q : Nat × Nat} (hp : g.In p) : ReflTransGen (Follows g.nb T) p q ↔ ReflTransGen (Step g T) p q := by
  refine ⟨fun h => ?_, fun h => ReflTransGen.mono (fun a b h => h.2) _ _ h⟩
  have : g.In q ∧ ReflTransGen (Step g T) p q := by
    induction h with
    | refl => exact ⟨hp, .refl⟩
    | tail h h' ih => exact ⟨Step.in hg ⟨ih.1, h'⟩, ih.2.tail ⟨ih.1, h'⟩⟩
  exact this.2

/-! ### The routes -/

theorem interchange_routes (hg : g.WF) (hf : Flat g)
    (hI : IsInterchange g.nb g.In (g.shut (.ofPair false true)) (g.shut (.ofBool true)) g.width g.height L alt rot T col) :
    ∃ π, Routed g.nb T g.width g.height alt π ∧
      ∀ π' : Equiv.Perm (Fin g.height), (∀ y : Fin g.height, ReflTransGen (Follows g.nb T) (0, y.1) (g.width - 1, (π' y).1)) → π' = π := by
  have hns := hI.noSplitter
  have hw := hg.w
  have in0 : ∀ y : Fin g.height, g.In (0, y.1) := fun y => ⟨hw, y.2⟩
  have inw : ∀ y : Fin g.height, g.In (g.width - 1, y.1) := fun y => ⟨by show g.width - 1 < g.width; omega, y.2⟩
  have nopred : ∀ (y : Fin g.height) a, ¬ Step g T a (0, y.1) := by
    rintro y a ⟨ha, ⟨d, h1, _, h3⟩ | ⟨d, k, hpair⟩⟩
    · have hd := takes_unique (hns _ (in0 y)) h3 (hI.entry y.1 y.2)
      subst hd
      have := ((nb_flat hg hf ha .right (0, y.1)).1 h1).2.1
      simp only [Dir.dx, Nat.cast_zero] at this
      omega
    · have := hI.entry y.1 y.2
      rw [hpair.2.2.2.1] at this
      exact this
  have nosucc : ∀ (y : Fin g.height) a, ¬ Step g T (g.width - 1, y.1) a := by
    rintro y a ⟨ha, ⟨d, h1, h2, _⟩ | ⟨d, k, hpair⟩⟩
    · have hd := emits_unique (hns _ (inw y)) h2 (hI.exit y.1 y.2)
      subst hd
      obtain ⟨i1, i2, _⟩ := (nb_flat hg hf ha .right a).1 h1
      have := i1.1
      simp only [Dir.dx] at i2
      omega
    · have := hI.exit y.1 y.2
      rw [hpair.2.2.1] at this
      exact this
  have colour : ∀ {p q : Nat × Nat}, ReflTransGen (Step g T) p q → col p = col q := by
    intro p q h
    induction h with
    | refl => rfl
    | tail h h' ih =>
      rw [ih]
      obtain ⟨hin, ⟨d, h1, h2, _⟩ | ⟨d, k, hpair⟩⟩ := h'
      · exact hI.colours.surface _ _ d hin h1 h2 (hns _ hin)
      · exact hI.colours.under _ _ d k hin hpair
  have key : ∀ y : Fin g.height, ∃ z : Fin g.height, ReflTransGen (Step g T) (0, y.1) (g.width - 1, z.1) := by
    intro y
    obtain ⟨e, he, h1, h2⟩ := exists_end (Step g T) _ g.cells.toFinset le_rfl (0, y.1) (by simpa [Grid.mem_cells] using in0 y)
      (fun a b _ hab => by simpa [Grid.mem_cells] using hab.in hg)
      (fun a a' b _ _ h h' => h.inj hg hns h') (fun a _ => nopred y a)
    have he : g.In e := by simpa [Grid.mem_cells] using he
    have hne : T e ≠ .empty := by
      rcases h1.cases_tail with h | ⟨c, _, _, ⟨d, _, _, h⟩ | ⟨d, k, hpair⟩⟩
      · rw [h]; exact Tile.takes_ne (hI.entry y.1 y.2)
      · exact Tile.takes_ne h
      · rw [hpair.2.2.2.1]; simp
    have hem : ∃ d, (T e).Emits d := by
      have hb := hI.rules.basic e he
      cases ht : T e with
      | empty => exact absurd ht hne
      | belt i o => exact ⟨o, rfl⟩
      | underground d b =>
        cases b with
        | false => exact ⟨d, rfl⟩
        | true =>
          obtain ⟨q, k, _, hpair⟩ := hI.rules.undergrounds.entrance e d he ht
          exact absurd ⟨he, .inr ⟨d, k, hpair⟩⟩ (h2 q)
      | splitter d b => exact absurd ⟨d, b, ht⟩ (hns e he)
      | _ => rw [ht] at hb; exact hb.elim
    obtain ⟨d, hd⟩ := hem
    have hnb : g.nb e d = none := by
      cases hn : g.nb e d with
      | none => rfl
      | some q => exact absurd ⟨he, .inl ⟨d, hn, hd, hI.rules.joined.out e q d he hn hd (hns e he)⟩⟩ (h2 q)
    have hE : g.Sealed (.ofBool true) := fun d _ => by cases d <;> rfl
    have hon := (Grid.sealed_nb hg hE he hnb).2
    cases d with
    | up => exact absurd hd (hI.rules.surface e .up he ⟨rfl, hon⟩).1
    | down => exact absurd hd (hI.rules.surface e .down he ⟨rfl, hon⟩).1
    | left =>
      have h0 : e.1 = 0 := hon
      have ht : (T e).Takes .right := by
        have := hI.entry e.2 he.2
        rwa [← h0] at this
      have hb := hI.rules.basic e he
      exfalso
      revert ht hd hb
      cases T e with
      | belt i o => intro h1 h2 h3; cases h1; cases h2; exact h3 rfl
      | underground d b => cases b <;> simp [Tile.Takes, Tile.Emits]
      | splitter d b => intro h1 h2 _; cases h1; cases h2
      | _ => exact fun h => h.elim
    | right =>
      have h0 : e.1 = g.width - 1 := hon
      refine ⟨⟨e.2, he.2⟩, ?_⟩
      rw [← h0]
      exact h1
  choose f hf' using key
  have hinj : Function.Injective f := by
    intro a b hab
    have := same_start (R := Step g T) (fun a a' b h h' => Step.inj hg hns h h') (nopred a) (nopred b) (hf' a) (hab ▸ hf' b)
    exact Fin.ext (congrArg Prod.snd this)
  have hbij : Function.Bijective f := (Finite.injective_iff_bijective).1 hinj
  refine ⟨Equiv.ofBijective f hbij, ⟨fun y => ReflTransGen.mono (fun _ _ h => h.2) _ _ (hf' y), ?_⟩, fun π' h => ?_⟩
  · have hc : ∀ y : Fin g.height, inputKind g.height y = col (g.width - 1, (f y).1) := fun y =>
      (hI.inputs y.1 y.2).symm.trans (colour (hf' y))
    have := hI.outputs
    split
    · rw [if_pos ‹_›] at this
      intro y
      rw [hc y]
      exact (this _ (f y).2).symm
    · rw [if_neg ‹_›] at this
      intro a b h1 h2
      rw [hc a, hc b]
      have h1 : (f a).1 % 2 = 0 := h1
      have h2 : (f b).1 = (f a).1 + 1 := h2
      have hb := (f b).2
      have := this ((f a).1 / 2) (by omega)
      rw [show 2 * ((f a).1 / 2) = (f a).1 by omega] at this
      rw [h2]
      exact this
  · refine Equiv.ext fun y => ?_
    have := same_end (R := Step g T) (fun a b b' h h' => Step.fun hns h h') (nosucc (π' y)) (nosucc (f y)) ((steps_of hg (in0 y)).1 (h y)) (hf' y)
    exact Fin.ext (congrArg Prod.snd this)

end

end FSat
