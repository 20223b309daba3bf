import Verif.Spec.Render
import Mathlib.Tactic.Linarith
import Mathlib.Data.List.Nodup
/-!
# Lemmas about render.py
-/

namespace FSat

/-- The result, or nothing after an exception. -/
def got {α β : Type} (f : α → Except PyErr (List β)) (a : α) : List β :=
  match f a with
  | .ok b => b
  | .error _ => []

theorem gather_iff {α β : Type} {f : α → Except PyErr (List β)} {l : List α} {bs : List β} :
    gather f l = .ok bs ↔ (∀ a ∈ l, f a = .ok (got f a)) ∧ bs = l.flatMap (got f) := by
  induction l generalizing bs with
  | nil => simp [gather, eq_comm]
  | cons a as ih =>
    unfold gather
    cases h : f a with
    | error e => simp [h]
    | ok b =>
      cases h2 : gather f as with
      | error e =>
        have : ¬ ∀ a ∈ as, f a = .ok (got f a) := by
          intro h3
          have := ih.2 ⟨h3, rfl⟩
          rw [h2] at this; cases this
        simp only [List.mem_cons, forall_eq_or_imp, h, reduceCtorEq, false_iff, not_and]
        intro h3; exact absurd h3.2 this
      | ok bs' =>
        have h3 := ih.1 h2
        have h4 : got f a = b := by simp [got, h]
        simp only [List.mem_cons, forall_eq_or_imp, h, h4, true_and, List.flatMap_cons, ← h3.2]
        constructor
        · intro h5; cases h5; exact ⟨h3.1, rfl⟩
        · rintro ⟨_, rfl⟩; rfl

/-- The number and place of what is drawn. -/
theorem renderSolution_iff {s : Picture} {a : Nat} {col : Bool} {cc : Option Int} {ug : Bool} {ms : List Mark} :
    renderSolution s a col cc ug = .ok ms ↔ ∃ pal, (if col then (palette s cc).map some else .ok none) = .ok pal ∧
      (∀ l, ∀ p ∈ drawOrder s, onCell s (renderCell pal a l) p = .ok (got (onCell s (renderCell pal a l)) p)) ∧
      (ug = true → ∀ p ∈ rowOrder s, onCell s (renderUnderground pal) p = .ok (got (onCell s (renderUnderground pal)) p)) ∧
      ms = (drawOrder s).flatMap (got (onCell s (renderCell pal a .bottom))) ++
        ((drawOrder s).flatMap (got (onCell s (renderCell pal a .top))) ++
        (if ug then (rowOrder s).flatMap (got (onCell s (renderUnderground pal))) else [])) := by
  unfold renderSolution
  cases h : (if col then (palette s cc).map some else .ok none) with
  | error e => simp
  | ok pal =>
    simp only [Except.ok.injEq, exists_eq_left']
    cases h1 : gather (onCell s (renderCell pal a .bottom)) (drawOrder s) with
    | error e =>
      have : ¬ ∀ l, ∀ p ∈ drawOrder s, onCell s (renderCell pal a l) p = .ok (got (onCell s (renderCell pal a l)) p) := fun h3 => by
        have := gather_iff.2 ⟨h3 .bottom, rfl⟩; rw [h1] at this; cases this
      simp [-Prod.forall, gather, h1, this]
    | ok b1 =>
      cases h2 : gather (onCell s (renderCell pal a .top)) (drawOrder s) with
      | error e =>
        have : ¬ ∀ l, ∀ p ∈ drawOrder s, onCell s (renderCell pal a l) p = .ok (got (onCell s (renderCell pal a l)) p) := fun h3 => by
          have := gather_iff.2 ⟨h3 .top, rfl⟩; rw [h2] at this; cases this
        simp [-Prod.forall, gather, h1, h2, this]
      | ok b2 =>
        have e1 := gather_iff.1 h1
        have e2 := gather_iff.1 h2
        have hl : ∀ l, ∀ p ∈ drawOrder s, onCell s (renderCell pal a l) p = .ok (got (onCell s (renderCell pal a l)) p) := fun l => by
          cases l
          · exact e1.1
          · exact e2.1
        rw [← e1.2, ← e2.2]
        cases ug with
        | false =>
          simp only [gather, List.map_cons, List.map_nil, id, h1, h2, Bool.false_eq_true, if_false, List.append_nil, Except.ok.injEq,
            false_imp_iff, true_and, List.cons_append, List.nil_append]
          exact ⟨fun h => ⟨hl, h.symm⟩, fun h => h.2.symm⟩
        | true =>
          cases h3 : gather (onCell s (renderUnderground pal)) (rowOrder s) with
          | error e =>
            have : ¬ ∀ p ∈ rowOrder s, onCell s (renderUnderground pal) p = .ok (got (onCell s (renderUnderground pal)) p) := fun h4 => by
              have := gather_iff.2 ⟨h4, rfl⟩; rw [h3] at this; cases this
            simp [-Prod.forall, gather, h1, h2, h3, this]
          | ok b3 =>
            have e3 := gather_iff.1 h3
            simp only [if_true, ← e3.2, gather, List.map_cons, List.map_nil, id, h1, h2, h3, List.append_nil, Except.ok.injEq,
              true_imp_iff, List.cons_append, List.nil_append]
            exact ⟨fun h => ⟨hl, e3.1, h.symm⟩, fun h => h.2.2.symm⟩

theorem mem_drawOrder {s : Picture} {x y : Nat} : (x, y) ∈ drawOrder s ↔ x < s.width ∧ y < s.length := by
  simp [drawOrder]

theorem mem_rowOrder {s : Picture} {x y : Nat} : (x, y) ∈ rowOrder s ↔ x < s.width ∧ y < s.length := by
  simp [rowOrder, and_comm]

theorem drawOrder_nodup (s : Picture) : (drawOrder s).Nodup := by
  unfold drawOrder
  rw [List.nodup_flatMap]
  refine ⟨fun x _ => (List.nodup_range.map fun a b h => by simpa using h), ?_⟩
  refine (List.nodup_reverse.2 List.nodup_range).imp ?_
  intro a b h
  simp only [Function.onFun, List.disjoint_left, List.mem_map, List.mem_range, not_exists, not_and]
  rintro p ⟨y, _, rfl⟩ y' _ h'
  exact h (congrArg Prod.fst h').symm

theorem at_some {s : Picture} (hr : s.Rect) {x y : Nat} (hx : x < s.width) (hy : y < s.length) : ∃ i, s.at x y = some i := by
  have := hr _ (List.getElem_mem hy)
  exact ⟨(s[y])[x]'(by omega), by simp [Picture.at, hy, this, hx]⟩

theorem at_lt {s : Picture} (hr : s.Rect) {x y : Nat} {i : Item} (h : s.at x y = some i) : x < s.width ∧ y < s.length := by
  unfold Picture.at at h
  cases h1 : s[y]? with
  | none => simp [h1] at h
  | some r =>
    rw [h1] at h
    obtain ⟨hy, rfl⟩ := List.getElem?_eq_some_iff.1 h1
    obtain ⟨hx, _⟩ := List.getElem?_eq_some_iff.1 h
    exact ⟨by rw [← hr _ (List.getElem_mem hy)]; exact hx, hy⟩

theorem at_mem {s : Picture} {x y : Nat} {i : Item} (h : s.at x y = some i) : ∃ r ∈ s, i ∈ r := by
  unfold Picture.at at h
  cases h1 : s[y]? with
  | none => simp [h1] at h
  | some r =>
    rw [h1] at h
    exact ⟨r, List.mem_of_getElem? h1, List.mem_of_getElem? h⟩

theorem mem_at {s : Picture} {r : List Item} {i : Item} (hr : r ∈ s) (hi : i ∈ r) : ∃ x y, s.at x y = some i := by
  obtain ⟨y, hy, rfl⟩ := List.getElem_of_mem hr
  obtain ⟨x, hx, rfl⟩ := List.getElem_of_mem hi
  exact ⟨x, y, by simp [Picture.at, hx, hy]⟩

/-- Looking up one key in a list gathered over different keys. -/
theorem filterMap_flatMap_key {α β γ : Type} [DecidableEq α] (key : β → α) (g : α → List β) (f : β → Option γ) (p : α)
    (hk : ∀ a, ∀ b ∈ g a, key b = a) (hf : ∀ b, key b ≠ p → f b = none) (l : List α) (hn : l.Nodup) :
    (l.flatMap g).filterMap f = if p ∈ l then (g p).filterMap f else [] := by
  induction l with
  | nil => simp
  | cons a as ih =>
    rw [List.flatMap_cons, List.filterMap_append, ih (List.nodup_cons.1 hn).2]
    by_cases h : a = p
    · subst h; simp [(List.nodup_cons.1 hn).1]
    · have : (g a).filterMap f = [] := by
        rw [List.filterMap_eq_nil_iff]
        intro b hb
        exact hf b (by rw [hk a b hb]; exact h)
      simp [this, List.mem_cons, Ne.symm h]

/-- What a mark drawn in a cell looks like. -/
theorem renderCell_mem {pal : Option (Int → Except PyErr Rgb)} {a : Nat} {l : Layer} {x y : Nat} {i : Item} {bs : List Mark}
    (h : renderCell pal a l x y i = .ok bs) {m : Mark} (hm : m ∈ bs) :
    m.x = x ∧ m.y = y ∧ (∃ s, m.what = .sprite l s) ∧ ∃ c, i.colour.shown = .ok c ∧ paint pal c = .ok m.colour := by
  unfold renderCell at h
  split at h
  · cases h; cases hm
  · split at h
    · cases h
    · rename_i c hc
      split at h
      · cases h
      · rename_i rgb hrgb
        split at h
        · cases h
        · cases h
          obtain ⟨s, _, rfl⟩ := List.mem_map.1 hm
          exact ⟨rfl, rfl, ⟨s, rfl⟩, c, hc, hrgb⟩

/-- The sprites of a cell. -/
theorem renderCell_sprites {pal : Option (Int → Except PyErr Rgb)} {a : Nat} {l : Layer} {x y : Nat} {i : Item} {bs : List Mark}
    (h : renderCell pal a l x y i = .ok bs) :
    (i.tile.Blank ∧ bs = []) ∨ (¬ i.tile.Blank ∧ ∃ sp, renderTile i.tile a l = .ok sp ∧ ∃ c, bs = sp.map fun s => ⟨x, y, c, .sprite l s⟩) := by
  unfold renderCell at h
  split at h
  · rename_i hb; cases h; exact .inl ⟨hb, rfl⟩
  · rename_i hb
    split at h
    · cases h
    · split at h
      · cases h
      · rename_i rgb hrgb
        split at h
        · cases h
        · rename_i sp hsp
          cases h
          exact .inr ⟨hb, sp, hsp, rgb, rfl⟩

theorem renderLine_mem {pal : Option (Int → Except PyErr Rgb)} {x y : Nat} {ax : Axis} {fl : List Bool} {cv : ColourVal} {bs : List Mark}
    (h : renderLine pal x y ax fl cv = .ok bs) {m : Mark} : m ∈ bs ↔
      (true ∈ fl ∧ m.x = x ∧ m.y = y ∧ m.what = .line ax ∧ ∃ c, cv.shown = .ok c ∧ paint pal c = .ok m.colour) := by
  unfold renderLine at h
  split at h
  · rename_i hf
    have hf : true ∈ fl := by simpa using hf
    split at h
    · cases h
    · rename_i c hc
      split at h
      · cases h
      · rename_i rgb hrgb
        cases h
        obtain ⟨mx, my, mc, mw⟩ := m
        simp only [List.mem_singleton, Mark.mk.injEq, hf, true_and, hc, Except.ok.injEq, exists_eq_left', hrgb]
        constructor
        · rintro ⟨rfl, rfl, rfl, rfl⟩; exact ⟨rfl, rfl, rfl, rfl⟩
        · rintro ⟨rfl, rfl, rfl, rfl⟩; exact ⟨rfl, rfl, rfl, rfl⟩
  · rename_i hf
    have hf : ¬ true ∈ fl := by simpa using hf
    cases h
    simp [hf]

theorem renderUnderground_mem {pal : Option (Int → Except PyErr Rgb)} {x y : Nat} {i : Item} {bs : List Mark}
    (h : renderUnderground pal x y i = .ok bs) {m : Mark} : m ∈ bs ↔
      ∃ u ax, i.underground = some u ∧ true ∈ (match ax with | .horizontal => evens u | .vertical => odds u) ∧ m.x = x ∧ m.y = y ∧
        m.what = .line ax ∧ ∃ c, (i.colourOf m.what).shown = .ok c ∧ paint pal c = .ok m.colour := by
  unfold renderUnderground at h
  cases hu : i.underground with
  | none => rw [hu] at h; cases h; simp
  | some u =>
    rw [hu] at h
    obtain ⟨h1, rfl⟩ := gather_iff.1 h
    have e1 := h1 _ (.head _)
    have e2 := h1 _ (.tail _ (.head _))
    simp only [id] at e1 e2
    simp only [List.flatMap_cons, List.flatMap_nil, List.append_nil, List.mem_append]
    rw [renderLine_mem (m := m) e1, renderLine_mem (m := m) e2]
    constructor
    · rintro (⟨h3, hx, hy, hw, hc⟩ | ⟨h3, hx, hy, hw, hc⟩)
      · exact ⟨u, .horizontal, rfl, h3, hx, hy, hw, by rw [hw]; exact hc⟩
      · exact ⟨u, .vertical, rfl, h3, hx, hy, hw, by rw [hw]; exact hc⟩
    · rintro ⟨u', ax, hu', h3, hx, hy, hw, hc⟩
      cases hu'
      cases ax
      · left; exact ⟨h3, hx, hy, hw, by rw [hw] at hc; exact hc⟩
      · right; exact ⟨h3, hx, hy, hw, by rw [hw] at hc; exact hc⟩

theorem got_onCell {s : Picture} {f : Nat → Nat → Item → Except PyErr (List Mark)} {x y : Nat}
    (h : onCell s f (x, y) = .ok (got (onCell s f) (x, y))) : ∃ i, s.at x y = some i ∧ f x y i = .ok (got (onCell s f) (x, y)) := by
  cases hi : s.at x y with
  | none =>
    have : onCell s f (x, y) = .error .indexError := by simp [onCell, hi]
    rw [this] at h; cases h
  | some i =>
    have : onCell s f (x, y) = f x y i := by simp [onCell, hi]
    exact ⟨i, rfl, this.symm.trans h⟩

theorem got_onCell_key {s : Picture} {f : Nat → Nat → Item → Except PyErr (List Mark)}
    (hf : ∀ x y i bs, f x y i = .ok bs → ∀ m ∈ bs, m.x = x ∧ m.y = y) (p : Nat × Nat) : ∀ m ∈ got (onCell s f) p, (m.x, m.y) = p := by
  intro m hm
  unfold got at hm
  split at hm
  · rename_i b hb
    unfold onCell at hb
    split at hb
    · have := hf _ _ _ _ hb m hm
      exact Prod.ext this.1 this.2
    · cases hb
  · cases hm

/-- Every mark belongs to a cell, and has the colour of its number. -/
theorem mark_of {s : Picture} {a : Nat} {ug : Bool} {pal : Option (Int → Except PyErr Rgb)}
    (hl : ∀ l, ∀ p ∈ drawOrder s, onCell s (renderCell pal a l) p = .ok (got (onCell s (renderCell pal a l)) p))
    (hu : ug = true → ∀ p ∈ rowOrder s, onCell s (renderUnderground pal) p = .ok (got (onCell s (renderUnderground pal)) p))
    {m : Mark} (hm : m ∈ (drawOrder s).flatMap (got (onCell s (renderCell pal a .bottom))) ++
        ((drawOrder s).flatMap (got (onCell s (renderCell pal a .top))) ++
        (if ug then (rowOrder s).flatMap (got (onCell s (renderUnderground pal))) else []))) :
    ∃ i, s.at m.x m.y = some i ∧ ∃ c, (i.colourOf m.what).shown = .ok c ∧ paint pal c = .ok m.colour := by
  have key : ∀ l, m ∈ (drawOrder s).flatMap (got (onCell s (renderCell pal a l))) →
      ∃ i, s.at m.x m.y = some i ∧ ∃ c, (i.colourOf m.what).shown = .ok c ∧ paint pal c = .ok m.colour := by
    intro l hm
    obtain ⟨⟨x, y⟩, hp, hm⟩ := List.mem_flatMap.1 hm
    obtain ⟨i, hi, hc⟩ := got_onCell (hl l _ hp)
    obtain ⟨rfl, rfl, ⟨sp, hw⟩, c, hc⟩ := renderCell_mem hc hm
    exact ⟨i, hi, c, by rw [hw]; exact hc⟩
  rcases List.mem_append.1 hm with hm | hm
  · exact key _ hm
  · rcases List.mem_append.1 hm with hm | hm
    · exact key _ hm
    · cases ug with
      | false => cases hm
      | true =>
        simp only [if_true] at hm
        obtain ⟨⟨x, y⟩, hp, hm⟩ := List.mem_flatMap.1 hm
        obtain ⟨i, hi, hc⟩ := got_onCell (hu rfl _ hp)
        obtain ⟨u, ax, _, _, rfl, rfl, _, h⟩ := (renderUnderground_mem hc).1 hm
        exact ⟨i, hi, h⟩

/-- The sprite of a mark. -/
def anySprite (m : Mark) : Option Sprite :=
  match m.what with
  | .sprite _ s => some s
  | .line _ => none

/-- The sprites that a cell shows are those of its tile. -/
theorem spritesAt_eq {s : Picture} (hr : s.Rect) {a : Nat} {col : Bool} {cc : Option Int} {ug : Bool} {ms : List Mark}
    (h : renderSolution s a col cc ug = .ok ms) {x y : Nat} {i : Item} (hi : s.at x y = some i) (l : Layer) :
    (i.tile.Blank ∧ spritesAt ms x y l = []) ∨ (¬ i.tile.Blank ∧ renderTile i.tile a l = .ok (spritesAt ms x y l)) := by
  obtain ⟨pal, _, hl, hu, rfl⟩ := renderSolution_iff.1 h
  have hp := mem_drawOrder.2 (at_lt hr hi)
  -- the part of the sprite layers
  have part : ∀ l', ((drawOrder s).flatMap (got (onCell s (renderCell pal a l')))).filterMap (spriteIn x y l') = (got (onCell s (renderCell pal a l')) (x, y)).filterMap anySprite := by
    intro l'
    rw [filterMap_flatMap_key (fun m => (m.x, m.y)) _ _ (x, y) (got_onCell_key fun x y i bs h m hm =>
      ⟨(renderCell_mem h hm).1, (renderCell_mem h hm).2.1⟩) (fun b hb => by
        simp only [ne_eq, Prod.mk.injEq] at hb; simp [spriteIn, hb]) _ (drawOrder_nodup s), if_pos hp]
    refine List.filterMap_congr fun m hm => ?_
    obtain ⟨i', hi', hc⟩ := got_onCell (hl l' _ hp)
    obtain ⟨h1, h2, ⟨sp, h3⟩, _⟩ := renderCell_mem hc hm
    simp [spriteIn, anySprite, h1, h2, h3]
  have other : ∀ l', l' ≠ l → ((drawOrder s).flatMap (got (onCell s (renderCell pal a l')))).filterMap
      (spriteIn x y l) = [] := by
    intro l' hne
    rw [List.filterMap_eq_nil_iff]
    intro m hm
    obtain ⟨⟨x', y'⟩, hp', hm⟩ := List.mem_flatMap.1 hm
    obtain ⟨i', hi', hc⟩ := got_onCell (hl l' _ hp')
    obtain ⟨h1, h2, ⟨sp, h3⟩, _⟩ := renderCell_mem hc hm
    simp [spriteIn, h3, hne]
  have lines : (if ug then (rowOrder s).flatMap (got (onCell s (renderUnderground pal))) else []).filterMap
      (spriteIn x y l) = [] := by
    rw [List.filterMap_eq_nil_iff]
    intro m hm
    cases ug with
    | false => cases hm
    | true =>
      simp only [if_true] at hm
      obtain ⟨⟨x', y'⟩, hp', hm⟩ := List.mem_flatMap.1 hm
      obtain ⟨i', hi', hc⟩ := got_onCell (hu rfl _ hp')
      obtain ⟨u, ax, _, _, _, _, h3, _⟩ := (renderUnderground_mem hc).1 hm
      simp [spriteIn, h3]
  have main : spritesAt ((drawOrder s).flatMap (got (onCell s (renderCell pal a .bottom))) ++
        ((drawOrder s).flatMap (got (onCell s (renderCell pal a .top))) ++
        (if ug then (rowOrder s).flatMap (got (onCell s (renderUnderground pal))) else []))) x y l =
      (got (onCell s (renderCell pal a l)) (x, y)).filterMap anySprite := by
    unfold spritesAt
    rw [List.filterMap_append, List.filterMap_append, lines, List.append_nil, ← part l]
    cases l with
    | bottom => rw [other .top (by decide), List.append_nil]
    | top => rw [other .bottom (by decide), List.nil_append]
  rw [main]
  obtain ⟨i', hi', hc⟩ := got_onCell (hl l _ hp)
  have := hi.symm.trans hi'
  cases this
  rcases renderCell_sprites hc with ⟨hb, h0⟩ | ⟨hb, sp, hsp, c, h0⟩
  · exact .inl ⟨hb, by rw [h0]; rfl⟩
  · refine .inr ⟨hb, ?_⟩
    rw [hsp, h0, List.filterMap_map]
    congr 1
    exact (List.filterMap_some (l := sp)).symm

end FSat
