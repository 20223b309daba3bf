import Verif.Lemmas.RenderText
/-!
# C89: the attributes written over the tiles
-/

namespace FSat

/-- A name without numbers shows the value it leads to; if it leads to none, the program stops with an `AttributeError`. -/
theorem c89_value_partial {toInt : List Char → Option Int} {item : List (List Char × Json)} (hok : (Json.obj item).Ok)
    {pieces : List (List Char)} (hp : ∀ p ∈ pieces, toInt p = none) :
    (∀ v, attributeValue toInt item pieces = .ok v ↔ Reached (.obj item) pieces v) ∧
      ((¬ ∃ v, Reached (.obj item) pieces v) → attributeValue toInt item pieces = .error .attributeError) := by
  have main : ∀ (pieces : List (List Char)) (sub : Json), sub.Ok → (∀ p ∈ pieces, toInt p = none) →
      (∃ v, attributePieces toInt item sub pieces = .ok v ∧ ∀ w, Reached sub pieces w ↔ v = w) ∨
        (attributePieces toInt item sub pieces = .error .attributeError ∧ ∀ w, ¬ Reached sub pieces w) := by
    intro pieces
    induction pieces with
    | nil =>
      intro sub _ _
      refine .inl ⟨sub, rfl, fun w => ⟨fun h => by cases h; rfl, fun h => h ▸ .here _⟩⟩
    | cons p rest ih =>
      intro sub hs hp
      unfold attributePieces
      rw [hp p (.head _)]
      cases sub with
      | obj fields =>
        simp only
        simp only [Json.Ok] at hs
        rcases objGet_mem (fields := fields) (k := p) with hm | ⟨hm, hnull⟩
        · have step : ∀ w, Reached (.obj fields) (p :: rest) w ↔ Reached (objGet fields p) rest w := by
            intro w
            constructor
            · intro h
              cases h with
              | step h1 h2 => rw [objGet_eq hs.1 h1]; exact h2
              | missing h1 => exact absurd hm (h1 _)
            · exact fun h => .step hm h
          rcases ih (objGet fields p) (okPairs_mem hs.2 hm) (fun q hq => hp q (.tail _ hq)) with ⟨v, h1, h2⟩ | ⟨h1, h2⟩
          · exact .inl ⟨v, h1, fun w => (step w).trans (h2 w)⟩
          · exact .inr ⟨h1, fun w h => h2 w ((step w).1 h)⟩
        · rw [hnull]
          cases rest with
          | nil =>
            refine .inl ⟨.null, rfl, fun w => ⟨fun h => ?_, fun h => h ▸ .missing hm⟩⟩
            cases h with
            | step h1 _ => exact absurd h1 (hm _)
            | missing _ => rfl
          | cons q rest =>
            refine .inr ⟨?_, fun w h => ?_⟩
            · unfold attributePieces
              rw [hp q (.tail _ (.head _))]
            · cases h with
              | step h1 _ => exact absurd h1 (hm _)
      | _ => exact .inr ⟨rfl, fun w h => by cases h⟩
  rcases main pieces (.obj item) hok hp with ⟨v, h1, h2⟩ | ⟨h1, h2⟩
  · refine ⟨fun w => ?_, fun h => absurd ⟨v, (h2 v).2 rfl⟩ h⟩
    rw [h2 w]
    unfold attributeValue
    rw [h1]
    exact ⟨fun h => Except.ok.inj h, fun h => by rw [h]⟩
  · refine ⟨fun w => ?_, fun _ => h1⟩
    unfold attributeValue
    rw [h1]
    exact ⟨fun h => (by cases h), fun h => absurd h (h2 w)⟩

/-- A name with a number never shows anything: the number is looked up in the tile itself and not in the value before it. -/
theorem c89_number_refuted {toInt : List Char → Option Int} {item : List (List Char × Json)} {pieces : List (List Char)} {p : List Char}
    {n : Int} (hp : p ∈ pieces) (hn : toInt p = some n) : ∃ e, attributeValue toInt item pieces = .error e := by
  have main : ∀ (pieces : List (List Char)) (sub : Json), p ∈ pieces → ∃ e, attributePieces toInt item sub pieces = .error e := by
    intro pieces
    induction pieces with
    | nil => intro sub h; cases h
    | cons q rest ih =>
      intro sub h
      unfold attributePieces
      cases hq : toInt q with
      | some m => exact ⟨_, rfl⟩
      | none =>
        simp only
        have : p ∈ rest := by
          rcases List.mem_cons.1 h with rfl | h
          · rw [hn] at hq; cases hq
          · exact h
        cases sub with
        | obj fields => exact ih _ this
        | _ => exact ⟨_, rfl⟩
  exact main pieces _ hp

/-- `--show-raw underground.0` for a tile with a list `underground`. -/
example : ∃ (toInt : List Char → Option Int) (item : List (List Char × Json)), (Json.obj item).Ok ∧
    attributeValue toInt item ["underground".toList] = .ok (.arr [.bool true, .bool false]) ∧
    attributeValue toInt item ["underground".toList, "0".toList] = .error .keyError :=
  ⟨fun p => if p = ['0'] then some 0 else none, [("underground".toList, .arr [.bool true, .bool false])],
    by simp [Json.Ok, Json.OkPairs, Json.OkPair, Json.OkElems], rfl, rfl⟩

/-- A name that leads into an object. -/
example : Reached (.obj [("tile".toList, .obj [("type".toList, .str "belt".toList)])]) ["tile".toList, "type".toList] (.str "belt".toList) :=
  .step (.head _) (.step (.head _) (.here _))

/-! ### The boxes of the text -/

/-- The text of a cell stays inside the cell. -/
theorem c89_fits {cells : List ((Nat × Nat) × List (Nat × Nat))} {c : Nat × Nat} {bs : List Box} (h : (c, bs) ∈ textBoxes cells) :
    ∀ b ∈ bs, b.InCell c := by
  unfold textBoxes at h
  simp only at h
  split at h
  · cases h
  · rename_i hz
    push Not at hz
    obtain ⟨e, he, heq⟩ := List.mem_map.1 h
    cases heq
    intro b hb
    generalize hW : (cells.map fun c => (c.2.map Prod.fst).foldl max 0).foldl max 0 = W at *
    generalize hH : (cells.map fun c => (c.2.map Prod.snd).sum).foldl max 0 = H at *
    have hWp : (0 : Rat) < W := by exact_mod_cast Nat.pos_of_ne_zero hz.1
    have hHp : (0 : Rat) < H := by exact_mod_cast Nat.pos_of_ne_zero hz.2
    have hs0 : (0 : Rat) ≤ min (1 / (W : Rat)) (1 / (H : Rat)) := le_min (by positivity) (by positivity)
    obtain ⟨s, hs, h1, h2, h3, h4, h5⟩ := lineBoxes_in hs0 hb
    have hw : (s.1 : Rat) ≤ W := by
      have a1 := (le_foldl_max (e.2.map Prod.fst) 0).2 s.1 (List.mem_map_of_mem hs)
      have a2 := (le_foldl_max (cells.map fun c => (c.2.map Prod.fst).foldl max 0) 0).2 _ (List.mem_map_of_mem he)
      rw [hW] at a2
      exact_mod_cast le_trans a1 a2
    have hh : (((e.2.map Prod.snd).sum : Nat) : Rat) ≤ H := by
      have a2 := (le_foldl_max (cells.map fun c => (c.2.map Prod.snd).sum) 0).2 _ (List.mem_map_of_mem he)
      rw [hH] at a2
      exact_mod_cast a2
    have b1 : min (1 / (W : Rat)) (1 / (H : Rat)) * s.1 ≤ 1 := by
      calc min (1 / (W : Rat)) (1 / (H : Rat)) * s.1 ≤ 1 / (W : Rat) * W := mul_le_mul (min_le_left _ _) hw (Nat.cast_nonneg _) (by positivity)
        _ = 1 := by rw [one_div, inv_mul_cancel₀ hWp.ne']
    have b2 : min (1 / (W : Rat)) (1 / (H : Rat)) * (((e.2.map Prod.snd).sum : Nat) : Rat) ≤ 1 := by
      calc min (1 / (W : Rat)) (1 / (H : Rat)) * (((e.2.map Prod.snd).sum : Nat) : Rat) ≤ 1 / (H : Rat) * H :=
            mul_le_mul (min_le_right _ _) hh (Nat.cast_nonneg _) (by positivity)
        _ = 1 := by rw [one_div, inv_mul_cancel₀ hHp.ne']
    have w0 : 0 ≤ b.width := by rw [h1]; positivity
    have p0 : 0 ≤ b.height := by rw [h2]; positivity
    exact ⟨w0, p0, by rw [h3], by rw [h3, h1]; linarith, h4, by linarith⟩

/-- The lines of a cell lie one below the other, with nothing between them. -/
theorem c89_stacked {cells : List ((Nat × Nat) × List (Nat × Nat))} {c : Nat × Nat} {bs : List Box} (h : (c, bs) ∈ textBoxes cells)
    {k : Nat} {b b' : Box} (hb : bs[k]? = some b) (hb' : bs[k + 1]? = some b') : b'.y = b.y + b.height ∧ b'.x = b.x := by
  have main : ∀ (sizes : List (Nat × Nat)) (scale x y : Rat) (k : Nat) (b b' : Box), (lineBoxes scale x y sizes)[k]? = some b →
      (lineBoxes scale x y sizes)[k + 1]? = some b' → b'.y = b.y + b.height ∧ b'.x = b.x := by
    intro sizes
    induction sizes with
    | nil => intro scale x y k b b' h; cases h
    | cons s rest ih =>
      intro scale x y k b b' h h'
      cases k with
      | zero =>
        cases h
        cases rest with
        | nil => cases h'
        | cons s' rest => cases h'; exact ⟨rfl, rfl⟩
      | succ k => exact ih scale x _ k b b' h h'
  unfold textBoxes at h
  simp only at h
  split at h
  · cases h
  · obtain ⟨e, he, heq⟩ := List.mem_map.1 h
    cases heq
    exact main _ _ _ _ k b b' hb hb'

/-- Text is drawn in every cell if some cell has text that can be seen. -/
theorem c89_drawn {cells : List ((Nat × Nat) × List (Nat × Nat))} (h : ∃ c ∈ cells, ∃ s ∈ c.2, 0 < s.1 ∧ 0 < s.2) :
    (textBoxes cells).map (fun e => (e.1, e.2.length)) = cells.map fun e => (e.1, e.2.length) := by
  have hlen : ∀ (sizes : List (Nat × Nat)) (scale x y : Rat), (lineBoxes scale x y sizes).length = sizes.length := by
    intro sizes
    induction sizes with
    | nil => intros; rfl
    | cons s rest ih => intro scale x y; simp [lineBoxes, ih]
  obtain ⟨c, hc, s, hs, h1, h2⟩ := h
  unfold textBoxes
  simp only
  rw [if_neg]
  · rw [List.map_map]
    refine List.map_congr_left fun e _ => ?_
    simp [hlen]
  · rintro (h | h)
    · have a1 := (le_foldl_max (c.2.map Prod.fst) 0).2 s.1 (List.mem_map_of_mem hs)
      have a2 := (le_foldl_max (cells.map fun c => (c.2.map Prod.fst).foldl max 0) 0).2 _ (List.mem_map_of_mem hc)
      omega
    · have a1 : s.2 ≤ (c.2.map Prod.snd).sum := List.single_le_sum (by intros; omega) _ (List.mem_map_of_mem hs)
      have a2 := (le_foldl_max (cells.map fun c => (c.2.map Prod.snd).sum) 0).2 _ (List.mem_map_of_mem hc)
      omega

example : textBoxes [((2, 3), [(4, 1), (2, 1)])] = [((2, 3), [⟨2, 3, 1, 1/4⟩, ⟨2, 13/4, 1/2, 1/4⟩])] := by decide +kernel

end FSat
