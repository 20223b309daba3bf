import Verif.Model.ParseNetwork
import Verif.Spec.Parse
import Mathlib.Logic.Relation
import Mathlib.Data.List.Count
/-!
# Tracing belt lines

`F` is the cell that follows a cell of a belt line on the line, `B` the one before it.
-/

set_option linter.unusedSimpArgs false

namespace FSat

/-- A belt or an underground end. -/
def Tile.IsLine (t : Tile) : Prop := (∃ i o, t = .belt i o) ∨ ∃ d b, t = .underground d b

/-- A cell of a belt line. -/
def Arr.OnLine (a : Arr Tile) (p : Int × Int) : Prop := a.inside p ∧ (a.board p).IsLine

/-- Where a belt line stops. -/
def Arr.Stops (a : Arr Tile) (p : Int × Int) : Prop := ¬ a.inside p ∨ a.board p = .empty ∨ (a.board p).IsSplitter

theorem mem_columns (a : Arr Tile) (p : Int × Int) : p ∈ a.columns ↔ a.inside p := by
  obtain ⟨x, y⟩ := p
  unfold Arr.columns Arr.inside
  simp only [List.mem_flatMap, List.mem_map, List.mem_range, Prod.mk.injEq]
  constructor
  · rintro ⟨i, hi, j, hj, rfl, rfl⟩
    omega
  · rintro ⟨h1, h2, h3, h4⟩
    exact ⟨x.toNat, by omega, y.toNat, by omega, by omega, by omega⟩

theorem columns_length (a : Arr Tile) : a.columns.length = a.rows * a.cols := by
  simp [Arr.columns, List.length_flatMap, Nat.mul_comm]

theorem columns_nodup (a : Arr Tile) : a.columns.Nodup := by
  unfold Arr.columns
  rw [List.nodup_flatMap]
  refine ⟨fun x _ => (List.nodup_range).map fun i j h => by simpa using h, ?_⟩
  refine List.nodup_range.imp ?_
  intro i j hij
  simp only [Function.onFun, List.disjoint_left, List.mem_map]
  rintro p ⟨y, _, rfl⟩ ⟨y', _, h⟩
  simp only [Prod.mk.injEq] at h
  omega

/-- Cells without a colour. -/
def uncoloured (a : Arr Tile) (m : ColourMap) : Nat := a.columns.countP fun p => (m p).isNone

theorem uncoloured_le (a : Arr Tile) (m : ColourMap) : uncoloured a m ≤ a.rows * a.cols := by
  rw [← columns_length]
  exact List.countP_le_length

theorem countP_lt_of {α : Type} {l : List α} {f g : α → Bool} (h : ∀ x, g x = true → f x = true) {x : α} (hx : x ∈ l) (h1 : f x = true)
    (h2 : g x = false) : l.countP g < l.countP f := by
  induction l with
  | nil => cases hx
  | cons y l ih =>
    have hle : l.countP g ≤ l.countP f := List.countP_mono_left fun z _ => h z
    rw [List.countP_cons, List.countP_cons]
    rcases List.mem_cons.1 hx with rfl | hx
    · simp only [h1, h2, if_true, Bool.false_eq_true, if_false]
      omega
    · have := ih hx
      have hy := h y
      by_cases hg : g y = true
      · simp only [hg, hy hg, if_true]; omega
      · simp only [hg, if_false, Bool.false_eq_true]
        split <;> omega

theorem uncoloured_set {a : Arr Tile} {m : ColourMap} {p : Int × Int} (hp : a.inside p) (hm : m p = none) (c : Int) :
    uncoloured a (m.set p c) < uncoloured a m := by
  refine countP_lt_of (fun x hx => ?_) ((mem_columns a p).2 hp) (by simp [hm]) (by simp [ColourMap.set])
  by_cases hxp : x = p
  · subst hxp; simp [hm]
  · simpa [ColourMap.set, hxp] using hx

variable {a : Arr Tile} {F : Int × Int → Option (Int × Int)} {k : Int} {b : Bool}

/-- What a step of `trace` does: it goes on along the line or to where the line stops. -/
def StepOk (a : Arr Tile) (b : Bool) (F : Int × Int → Option (Int × Int)) (p : Int × Int) : Prop :=
  ∀ q, nextTile a p b = .ok q → (a.OnLine q ∧ F p = some q) ∨ (a.Stops q ∧ F p = none)

/-- `next_tile` fails for a cell of a belt line. -/
def StepFails (a : Arr Tile) (b : Bool) (e : PyErr) : Prop := ∃ p, a.OnLine p ∧ nextTile a p b = .error e

theorem OnLine.not_stops {p : Int × Int} (h : a.OnLine p) : ¬ a.Stops p := by
  obtain ⟨h1, h2⟩ := h
  rintro (h | h | ⟨d, e, h⟩)
  · exact h h1
  · rcases h2 with ⟨i, o, h2⟩ | ⟨d, e, h2⟩ <;> rw [h] at h2 <;> cases h2
  · rcases h2 with ⟨i, o, h2⟩ | ⟨d, e, h2⟩ <;> rw [h] at h2 <;> cases h2

theorem trace_stops {p : Int × Int} (h : a.Stops p) (fuel : Nat) (m : ColourMap) : trace a k b (fuel + 1) p m = .ok m := by
  unfold trace
  by_cases hi : a.inside p
  · rw [if_neg (by simpa using hi)]
    rcases h with h | h | ⟨d, e, h⟩
    · exact absurd hi h
    · rw [h]
    · rw [h]
  · rw [if_pos hi]

theorem trace_line {p : Int × Int} (h : a.OnLine p) (fuel : Nat) (m : ColourMap) : trace a k b (fuel + 1) p m =
    match m p with
    | some c => if c = k then .ok m else .error .assertion
    | none =>
      match nextTile a p b with
      | .error e => .error e
      | .ok q => trace a k b fuel q (m.set p k) := by
  conv_lhs => unfold trace
  rw [if_neg (by simpa using h.1)]
  rcases h.2 with ⟨i, o, h2⟩ | ⟨d, e, h2⟩ <;> rw [h2] <;> rfl

/-- What `trace` does: `m0` is the colouring before the line was given its colour. -/
structure Traced (a : Arr Tile) (k : Int) (F : Int × Int → Option (Int × Int)) (m0 : ColourMap) (p : Int × Int) (m m' : ColourMap) : Prop where
  ext : ∀ x, m' x = m0 x ∨ (m0 x = none ∧ m' x = some k)
  mono : ∀ x c, m x = some c → m' x = some c
  here : a.OnLine p → m' p = some k
  line : ∀ x, m' x ≠ m x → a.OnLine x
  next : ∀ x, m' x ≠ m x → ∀ y, F x = some y → m' y = some k
  prev : ∀ x, m' x ≠ m x → x = p ∨ ∃ w, F w = some x ∧ m' w = some k
  chain : ∀ x, m' x ≠ m x → Relation.ReflTransGen (fun x y => F x = some y) p x

theorem trace_spec (hF : ∀ p, a.OnLine p → StepOk a b F p) {m0 : ColourMap} (h0 : ∀ x y, F x = some y → m0 x = m0 y) (fuel : Nat) :
    ∀ (p : Int × Int) (m : ColourMap), (∀ x, m x = m0 x ∨ (m0 x = none ∧ m x = some k)) → (a.OnLine p → m0 p = none) →
      (a.OnLine p ∨ a.Stops p) → uncoloured a m < fuel →
        (∃ m', trace a k b fuel p m = .ok m' ∧ Traced a k F m0 p m m') ∨ ∃ e, trace a k b fuel p m = .error e ∧ StepFails a b e := by
  induction fuel with
  | zero => intro p m _ _ _ h; omega
  | succ fuel ih =>
    intro p m hext hp0 hp hfuel
    rcases hp with hp | hp
    · rw [trace_line hp]
      cases hm : m p with
      | some c =>
        have hc : c = k := by
          rcases hext p with h | ⟨_, h⟩
          · rw [hp0 hp, hm] at h; cases h
          · rw [hm] at h; cases h; rfl
        subst hc
        simp only [if_true]
        exact .inl ⟨m, rfl, ⟨hext, fun _ _ h => h, fun _ => hm, fun x h => absurd rfl h, fun x h => absurd rfl h, fun x h => absurd rfl h,
          fun x h => absurd rfl h⟩⟩
      | none =>
        cases hnext : nextTile a p b with
        | error e => exact .inr ⟨e, rfl, p, hp, hnext⟩
        | ok q =>
        have hcont := hF p hp q hnext
        have hext1 : ∀ x, (m.set p k) x = m0 x ∨ (m0 x = none ∧ (m.set p k) x = some k) := by
          intro x
          by_cases hx : x = p
          · subst hx
            exact .inr ⟨hp0 hp, by simp [ColourMap.set]⟩
          · simpa [ColourMap.set, hx] using hext x
        rcases ih q (m.set p k) hext1 (by
          intro hq
          rcases hcont with ⟨_, h⟩ | ⟨h, _⟩
          · rw [← h0 p q h]; exact hp0 hp
          · exact absurd h (OnLine.not_stops hq)) (hcont.imp And.left And.left)
          (by have := uncoloured_set hp.1 hm k; omega) with ⟨m', h1, h2⟩ | h
        swap
        · exact .inr h
        have hpk : m' p = some k := h2.mono p k (by simp [ColourMap.set])
        have hnew : ∀ x, m' x ≠ m x → x = p ∨ m' x ≠ (m.set p k) x := by
          intro x hx
          by_cases hxp : x = p
          · exact .inl hxp
          · exact .inr (by simpa [ColourMap.set, hxp] using hx)
        refine .inl ⟨m', h1, ⟨h2.ext, fun x c hx => ?_, fun _ => hpk, fun x hx => ?_, fun x hx y hy => ?_, fun x hx => ?_, fun x hx => ?_⟩⟩
        · refine h2.mono x c ?_
          have : x ≠ p := by rintro rfl; rw [hm] at hx; cases hx
          simpa [ColourMap.set, this] using hx
        · rcases hnew x hx with rfl | hx
          · exact hp
          · exact h2.line x hx
        · rcases hnew x hx with rfl | hx
          · rcases hcont with ⟨hq, h⟩ | ⟨_, h⟩
            · rw [hy] at h; cases h
              exact h2.here hq
            · rw [hy] at h; cases h
          · exact h2.next x hx y hy
        · rcases hnew x hx with rfl | hx
          · exact .inl rfl
          · rcases h2.prev x hx with rfl | h
            · rcases hcont with ⟨_, h⟩ | ⟨hs, _⟩
              · exact .inr ⟨p, h, hpk⟩
              · exact absurd hs (OnLine.not_stops (h2.line _ hx))
            · exact .inr h
        · rcases hnew x hx with rfl | hx
          · exact .refl
          · rcases hcont with ⟨_, h⟩ | ⟨hs, _⟩
            · exact Relation.ReflTransGen.head h (h2.chain x hx)
            · exfalso
              obtain rfl | ⟨w, hw⟩ := (Relation.ReflTransGen.cases_head_iff.1 (h2.chain x hx))
              · exact OnLine.not_stops (h2.line _ hx) hs
              · cases fuel with
                | zero => unfold trace at h1; cases h1
                | succ fuel =>
                  rw [trace_stops hs] at h1
                  cases h1
                  exact hx rfl
    · rw [trace_stops hp]
      exact .inl ⟨m, rfl, ⟨hext, fun _ _ h => h, fun h => absurd hp (OnLine.not_stops h), fun x h => absurd rfl h, fun x h => absurd rfl h,
        fun x h => absurd rfl h, fun x h => absurd rfl h⟩⟩

end FSat
