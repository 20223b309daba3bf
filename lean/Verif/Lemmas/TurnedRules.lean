import Verif.Lemmas.TurnedFlow
import Verif.Spec.Rules
/-!
# The rules of the game hold on a turned or mirrored layout
-/

namespace FSat

variable {P Q : Type} {In : P → Prop} {nb : P → Dir → Option P} {T : P → Tile} {In' : Q → Prop} {nb' : Q → Dir → Option Q} {T' : Q → Tile} {e : P → Q}
  {op : Operation}

/-- The layout `T'` is the layout `T`, moved by `e` and turned as the operation says. -/
structure Turning (op : Operation) (In : P → Prop) (nb : P → Dir → Option P) (T : P → Tile) (In' : Q → Prop) (nb' : Q → Dir → Option Q)
    (T' : Q → Tile) (e : P → Q) : Prop where
  maps : ∀ p, In p → In' (e p)
  onto : ∀ q, In' q → ∃ p, In p ∧ e p = q
  inj : ∀ p q, In p → In q → e p = e q → p = q
  nbs : ∀ p d, In p → nb' (e p) (op.dir d) = (nb p d).map e
  nbIn : ∀ p q d, In p → nb p d = some q → In q
  back : ∀ p q d, In p → nb p d = some q → nb q d.opp = some p
  tile : ∀ p, In p → T' (e p) = op.tileMap (T p)

/-- The basic rules, with nothing shut and no limit on lengths. -/
abbrev PlainRules (In : P → Prop) (nb : P → Dir → Option P) (T : P → Tile) : Prop :=
  BasicRules In nb T (fun _ _ => False) (fun _ _ => False) none

namespace Turning

variable (C : Turning op In nb T In' nb' T' e)
include C

theorem nb_some {p q : P} {d : Dir} (hp : In p) (hq : In q) : nb' (e p) (op.dir d) = some (e q) ↔ nb p d = some q := by
  rw [C.nbs p d hp]
  constructor
  · intro h
    obtain ⟨r, hr, he⟩ := Option.map_eq_some_iff.1 h
    rw [hr, C.inj r q (C.nbIn p r d hp hr) hq he]
  · intro h
    rw [h]
    rfl

theorem walks {p : P} (hp : In p) (d : Dir) (k : Nat) :
    walk nb' (e p) (op.dir d) k = (walk nb p d k).map e ∧ ∀ q, walk nb p d k = some q → In q := by
  induction k with
  | zero => exact ⟨rfl, fun q h => by cases h; exact hp⟩
  | succ k ih =>
    simp only [walk, ih.1]
    cases hw : walk nb p d k with
    | none => exact ⟨rfl, nofun⟩
    | some r => exact ⟨C.nbs r d (ih.2 r hw), fun q hq => C.nbIn r q d (ih.2 r hw) hq⟩

theorem isSplitter {p : P} (hp : In p) : (T' (e p)).IsSplitter ↔ (T p).IsSplitter := by
  rw [C.tile p hp]
  cases T p <;> simp [Tile.IsSplitter, Operation.tileMap]

theorem ugPair {p q : P} {d : Dir} {k : Nat} (hp : In p) (hq : In q) (h : UgPair nb T p q d k) : UgPair nb' T' (e p) (e q) (op.dir d) k := by
  obtain ⟨h1, h2, h3, h4, h5⟩ := h
  refine ⟨h1, by rw [(C.walks hp d k).1, h2]; rfl, by rw [C.tile p hp, op.tileMap_ug]; exact h3, by rw [C.tile q hq, op.tileMap_ug]; exact h4,
    fun i hi hk r hr => ?_⟩
  rw [(C.walks hp d i).1] at hr
  obtain ⟨r, hr', rfl⟩ := Option.map_eq_some_iff.1 hr
  rw [C.tile r ((C.walks hp d i).2 r hr'), op.ugAlong]
  exact h5 i hi hk r hr'

theorem pair {p q : P} {d : Dir} (hp : In p) (hq : In q) (h : SplitterPair nb T p q d) :
    if op.mirrors then SplitterPair nb' T' (e q) (e p) (op.dir d) else SplitterPair nb' T' (e p) (e q) (op.dir d) := by
  obtain ⟨h1, h2, h3⟩ := h
  have hc := op.dir_ccw d
  cases hm : op.mirrors
  · rw [hm] at hc
    simp only [Bool.false_eq_true, if_false] at hc ⊢
    exact ⟨by rw [C.tile p hp, op.tileMap_splitter, hm]; exact h1, by rw [hc, C.nb_some hp hq]; exact h2,
      by rw [C.tile q hq, op.tileMap_splitter, hm]; exact h3⟩
  · rw [hm] at hc
    simp only [if_true] at hc ⊢
    exact ⟨by rw [C.tile q hq, op.tileMap_splitter, hm]; exact h3, by rw [hc, C.nb_some hq hp]; exact C.back p q _ hp h2,
      by rw [C.tile p hp, op.tileMap_splitter, hm]; exact h1⟩

/-- The rules hold on the turned layout. -/
theorem rules (h : PlainRules In nb T) : PlainRules In' nb' T' := by
  have nbr : ∀ p d r, In p → nb' (e p) (op.dir d) = some r → ∃ q, In q ∧ e q = r ∧ nb p d = some q := by
    intro p d r hp hr
    rw [C.nbs p d hp] at hr
    obtain ⟨q, hq, rfl⟩ := Option.map_eq_some_iff.1 hr
    exact ⟨q, C.nbIn p q d hp hq, rfl, hq⟩
  have basic : ∀ t : Tile, t.Basic → (op.tileMap t).Basic := by
    intro t ht
    cases t with
    | belt i o =>
      intro h
      exact ht (op.dir_inj (by rw [op.dir_opp]; exact h))
    | _ => exact ht
  refine ⟨fun q hq => ?_, ⟨fun q d hq ht => ?_, fun q d hq ht => ?_⟩, ⟨fun p r d hp hn he hs => ?_, fun p r d hp hn he hs => ?_⟩,
    ⟨fun p d b hp ht => ?_, fun p r d b hp ht hn i o hr => ?_⟩, ⟨fun q d hq ht => ?_, fun q d hq ht => ?_, nofun⟩, fun _ _ _ => False.elim,
    fun _ _ _ => False.elim, by
      intros
      exact ⟨id, id⟩⟩
  · obtain ⟨p, hp, rfl⟩ := C.onto q hq
    rw [C.tile p hp]
    exact basic _ (h.basic p hp)
  · obtain ⟨p, hp, rfl⟩ := C.onto q hq
    obtain ⟨d, rfl⟩ := op.dir_surj d
    rw [C.tile p hp, op.tileMap_splitter] at ht
    cases hm : op.mirrors
    · rw [hm] at ht
      obtain ⟨q, hq, hpr⟩ := h.splitters.head p d hp ht
      exact ⟨e q, C.maps q hq, by simpa [hm] using C.pair hp hq hpr⟩
    · rw [hm] at ht
      obtain ⟨q, hq, hpr⟩ := h.splitters.tail p d hp ht
      exact ⟨e q, C.maps q hq, by simpa [hm] using C.pair hq hp hpr⟩
  · obtain ⟨p, hp, rfl⟩ := C.onto q hq
    obtain ⟨d, rfl⟩ := op.dir_surj d
    rw [C.tile p hp, op.tileMap_splitter] at ht
    cases hm : op.mirrors
    · rw [hm] at ht
      obtain ⟨q, hq, hpr⟩ := h.splitters.tail p d hp ht
      exact ⟨e q, C.maps q hq, by simpa [hm] using C.pair hq hp hpr⟩
    · rw [hm] at ht
      obtain ⟨q, hq, hpr⟩ := h.splitters.head p d hp ht
      exact ⟨e q, C.maps q hq, by simpa [hm] using C.pair hp hq hpr⟩
  · obtain ⟨p, hp', rfl⟩ := C.onto p hp
    replace hp := hp'
    obtain ⟨d, rfl⟩ := op.dir_surj d
    obtain ⟨q, hq, rfl, hn'⟩ := nbr p d r hp hn
    rw [C.tile p hp, op.emits] at he
    rw [C.tile q hq, op.takes]
    exact h.joined.out p q d hp hn' he fun hs' => hs ((C.isSplitter hp).2 hs')
  · obtain ⟨p, hp', rfl⟩ := C.onto p hp
    replace hp := hp'
    obtain ⟨d, rfl⟩ := op.dir_surj d
    obtain ⟨q, hq, rfl, hn'⟩ := nbr p d r hp hn
    rw [C.tile q hq, op.takes] at he
    rw [C.tile p hp, op.emits]
    exact h.joined.inp p q d hp hn' he fun hs' => hs ((C.isSplitter hq).2 hs')
  · obtain ⟨p, hp', rfl⟩ := C.onto p hp
    replace hp := hp'
    obtain ⟨d, rfl⟩ := op.dir_surj d
    rw [C.tile p hp, op.tileMap_splitter] at ht
    refine (h.ends.used p d _ hp ht).imp (fun h r hr => ?_) fun h r hr => ?_
    · obtain ⟨q, hq, rfl, hn⟩ := nbr p d r hp hr
      rw [C.tile q hq, op.takes]
      exact h q hn
    · rw [← op.dir_opp] at hr
      obtain ⟨q, hq, rfl, hn⟩ := nbr p _ r hp hr
      rw [C.tile q hq, op.emits]
      exact h q hn
  · obtain ⟨p, hp', rfl⟩ := C.onto p hp
    replace hp := hp'
    obtain ⟨d, rfl⟩ := op.dir_surj d
    obtain ⟨q, hq, rfl, hn'⟩ := nbr p d r hp hn
    rw [C.tile p hp, op.tileMap_splitter] at ht
    rw [C.tile q hq] at hr
    cases ht' : T q with
    | belt i' o' =>
      rw [ht'] at hr
      simp only [Operation.tileMap, Tile.belt.injEq] at hr
      rw [← hr.1, h.ends.noLeak p q d _ hp ht hn' i' o' ht']
    | _ =>
      rw [ht'] at hr
      cases hr
  · obtain ⟨p, hp, rfl⟩ := C.onto q hq
    obtain ⟨d, rfl⟩ := op.dir_surj d
    rw [C.tile p hp, op.tileMap_ug] at ht
    obtain ⟨q, k, hq, hu⟩ := h.undergrounds.entrance p d hp ht
    exact ⟨e q, k, C.maps q hq, C.ugPair hp hq hu⟩
  · obtain ⟨p, hp, rfl⟩ := C.onto q hq
    obtain ⟨d, rfl⟩ := op.dir_surj d
    rw [C.tile p hp, op.tileMap_ug] at ht
    obtain ⟨q, k, hq, hu⟩ := h.undergrounds.exit p d hp ht
    exact ⟨e q, k, C.maps q hq, C.ugPair hq hp hu⟩

end Turning

end FSat
