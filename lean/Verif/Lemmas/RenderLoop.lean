import Verif.Spec.RenderLoop
import Mathlib.Tactic.Linarith
import Mathlib.Data.List.Basic
/-!
# Lemmas about the main loop of render.py
-/

namespace FSat

variable {α β γ : Type} {cfg : ViewCfg α β γ} {all : List (Except PyErr α)}

theorem readUntil_spec {index : Int} {sols sols' : List α} {inp inp' : List (Except PyErr α)} {c : Bool}
    (h : readUntil index sols inp = .ok (sols', inp', c)) :
    sols'.map Except.ok ++ inp' = sols.map Except.ok ++ inp ∧ sols <+: sols' ∧ (c = true → inp' = []) ∧
      (index ≥ sols'.length → inp' = [] ∧ c = true) ∧ (index < sols.length → sols' = sols ∧ inp' = inp ∧ c = false) := by
  induction inp generalizing sols with
  | nil =>
    simp only [readUntil, Except.ok.injEq, Prod.mk.injEq] at h
    obtain ⟨rfl, rfl, rfl⟩ := h
    exact ⟨rfl, List.prefix_refl _, fun _ => rfl, fun h => ⟨rfl, decide_eq_true h⟩, fun h => ⟨rfl, rfl, decide_eq_false (by omega)⟩⟩
  | cons line rest ih =>
    unfold readUntil at h
    split at h
    · rename_i hge
      cases line with
      | error e => cases h
      | ok g =>
        obtain ⟨h1, h2, h3, h4, h5⟩ := ih h
        exact ⟨by rw [h1]; simp, (List.prefix_append _ _).trans h2, h3, h4, fun h => by omega⟩
    · rename_i hlt
      simp only [Except.ok.injEq, Prod.mk.injEq] at h
      obtain ⟨rfl, rfl, rfl⟩ := h
      exact ⟨rfl, List.prefix_refl _, fun h => (by cases h), fun h => absurd h hlt, fun _ => ⟨rfl, rfl, rfl⟩⟩

theorem incr_spec {v v' : Viewer α β γ} {a : Int} (hi : ViewInv cfg all v) (h : incrementSolution v a = .ok v') :
    ViewInv cfg all v' ∧ v.solutions <+: v'.solutions ∧ v'.running = v.running ∧ v'.saved = v.saved ∧ v'.t = v.t ∧ v'.waiting = v.waiting ∧
      v'.printed = v.printed ∧ v'.shown = v.shown ∧ (∀ i, v'.frames i = none) ∧
      v'.index = (((v.index : Int) + a) % v'.solutions.length).toNat ∧
      (((v.index : Int) + a) ≥ v'.solutions.length → v'.input = []) ∧ ((v.index : Int) + a < v.solutions.length → v'.solutions = v.solutions) := by
  have hne : 0 < v.solutions.length := lt_of_le_of_lt (Nat.zero_le _) hi.index
  have mk : ∀ (sols : List α) (rest : List (Except PyErr α)) (c : Bool), sols.map Except.ok ++ rest = all → v.solutions <+: sols →
      (c = true → rest = []) → ViewInv cfg all { v with
        index := (((v.index : Int) + a) % sols.length).toNat
        solutions := sols
        input := rest
        closed := c
        frames := fun _ => none } := by
    intro sols rest c h1 h2 h3
    have hl : 0 < sols.length := lt_of_lt_of_le hne h2.length_le
    refine ⟨?_, h1, h3, fun i b h => (by cases h), ?_⟩
    · have h0 := Int.emod_nonneg ((v.index : Int) + a) (b := (sols.length : Int)) (by omega)
      have h1 := Int.emod_lt_of_pos ((v.index : Int) + a) (b := (sols.length : Int)) (by omega)
      show (((v.index : Int) + a) % sols.length).toNat < sols.length
      omega
    · intro e he
      obtain ⟨g, hg, ha⟩ := hi.saved e he
      obtain ⟨t, rfl⟩ := h2
      refine ⟨g, ?_, ha⟩
      show (v.solutions ++ t)[e.1]? = some g
      rw [List.getElem?_append_left (List.getElem?_eq_some_iff.1 hg).1, hg]
  unfold incrementSolution at h
  simp only at h
  by_cases hc : v.closed = true
  · rw [if_pos hc] at h
    cases h
    have := mk v.solutions v.input true hi.lines (List.prefix_refl _) (fun _ => hi.closed hc)
    exact ⟨this, List.prefix_refl _, rfl, rfl, rfl, rfl, rfl, rfl, fun _ => rfl, rfl, fun _ => hi.closed hc, fun _ => rfl⟩
  · rw [if_neg hc] at h
    cases hr : readUntil ((v.index : Int) + a) v.solutions v.input with
    | error e => rw [hr] at h; cases h
    | ok r =>
      obtain ⟨sols, rest, c⟩ := r
      rw [hr] at h
      cases h
      obtain ⟨h1, h2, h3, h4, h5⟩ := readUntil_spec hr
      exact ⟨mk sols rest c (h1.trans hi.lines) h2 h3, h2, rfl, rfl, rfl, rfl, rfl, rfl, fun _ => rfl, rfl, fun h => (h4 h).1, fun h => (h5 h).1⟩

theorem viewEvent_spec {v v' : Viewer α β γ} {e : ViewEvent} (hi : ViewInv cfg all v) (h : viewEvent cfg v e = .ok v') :
    ViewInv cfg all v' ∧ v.solutions <+: v'.solutions ∧ v'.saved = v.saved ∧ v'.t = v.t ∧ v'.shown = v.shown ∧
      (v'.running = true ↔ v.running = true ∧ e ≠ .quit) := by
  have same : ∀ r w p, ViewInv cfg all { v with running := r, waiting := w, printed := p } := fun r w p =>
    ⟨hi.index, hi.lines, hi.closed, hi.frames, hi.saved⟩
  unfold viewEvent at h
  by_cases hq : e = .quit
  · rw [if_pos hq] at h
    cases h
    exact ⟨same false v.waiting v.printed, List.prefix_refl _, rfl, rfl, rfl, by simp [hq]⟩
  · rw [if_neg hq] at h
    by_cases hx : cfg.exportAll = true
    · rw [if_pos hx] at h
      cases h
      exact ⟨hi, List.prefix_refl _, rfl, rfl, rfl, by simp [hq]⟩
    · rw [if_neg hx] at h
      split at h
      · obtain ⟨h1, h2, h3, h4, h5, h6, h7, h8, _⟩ := incr_spec hi h
        exact ⟨h1, h2, h4, h5, h8, by rw [h3]; simp⟩
      · obtain ⟨h1, h2, h3, h4, h5, h6, h7, h8, _⟩ := incr_spec hi h
        exact ⟨h1, h2, h4, h5, h8, by rw [h3]; simp⟩
      · cases h
        exact ⟨same v.running true v.printed, List.prefix_refl _, rfl, rfl, rfl, by simp⟩
      · split at h
        · cases h
        · split at h
          · cases h
          · cases h
            exact ⟨same v.running v.waiting _, List.prefix_refl _, rfl, rfl, rfl, by simp⟩
      · cases h
        exact ⟨hi, List.prefix_refl _, rfl, rfl, rfl, by simp [hq]⟩

theorem viewEvents_spec {v v' : Viewer α β γ} {es : List ViewEvent} (hi : ViewInv cfg all v) (h : viewEvents cfg v es = .ok v') :
    ViewInv cfg all v' ∧ v.solutions <+: v'.solutions ∧ v'.saved = v.saved ∧ v'.t = v.t ∧ v'.shown = v.shown ∧
      (v'.running = true ↔ v.running = true ∧ .quit ∉ es) := by
  induction es generalizing v with
  | nil => cases h; exact ⟨hi, List.prefix_refl _, rfl, rfl, rfl, by simp⟩
  | cons e es ih =>
    unfold viewEvents at h
    split at h
    · cases h
    · rename_i v1 h1
      obtain ⟨a1, a2, a3, a4, a5, a6⟩ := viewEvent_spec hi h1
      obtain ⟨b1, b2, b3, b4, b5, b6⟩ := ih a1 h
      refine ⟨b1, a2.trans b2, b3.trans a3, b4.trans a4, b5.trans a5, ?_⟩
      rw [b6, a6, List.mem_cons, not_or, and_assoc]
      constructor
      · rintro ⟨x, y, z⟩; exact ⟨x, fun h => y h.symm, z⟩
      · rintro ⟨x, y, z⟩; exact ⟨x, fun h => y h.symm, z⟩

theorem filterMap_animation {v : Viewer α β γ} {g : α} (hg : v.solutions[v.index]? = some g)
    (hf : ∀ i b, v.frames i = some b → ∃ g, v.solutions[v.index]? = some g ∧ cfg.draw g i = .ok b) {n : Nat}
    (ha : (List.range n).all (fun i => (v.frames i).isSome) = true) :
    (List.range n).map (cfg.draw g) = ((List.range n).filterMap v.frames).map Except.ok := by
  rw [List.all_eq_true] at ha
  have : ∀ l : List Nat, (∀ i ∈ l, (v.frames i).isSome = true) → l.map (cfg.draw g) = (l.filterMap v.frames).map Except.ok := by
    intro l hl
    induction l with
    | nil => rfl
    | cons i l ih =>
      obtain ⟨b, hb⟩ := Option.isSome_iff_exists.1 (hl i (.head _))
      obtain ⟨g', hg', hd⟩ := hf i b hb
      rw [hg] at hg'; cases hg'
      rw [List.map_cons, List.filterMap_cons_some hb, List.map_cons, hd, ih fun j hj => hl j (.tail _ hj)]
  exact this _ ha

theorem maybeSave_spec {v v' : Viewer α β γ} {g : α} (hi : ViewInv cfg all v) (hg : v.solutions[v.index]? = some g)
    (h : maybeSave cfg v (cfg.len g) = .ok v') :
    ViewInv cfg all v' ∧ v.solutions <+: v'.solutions ∧ v.saved <+: v'.saved ∧ v'.t = v.t ∧ v'.shown = v.shown ∧
      (v'.running = true → v.running = true) ∧ (cfg.exportAll = false → v'.running = v.running) := by
  unfold maybeSave at h
  split at h
  · rename_i hc
    rw [Bool.and_eq_true] at hc
    have hs : ViewInv cfg all { v with waiting := false, saved := v.saved ++ [(v.index, (List.range (cfg.len g)).filterMap v.frames)] } := by
      refine ⟨hi.index, hi.lines, hi.closed, hi.frames, ?_⟩
      intro e he
      rcases List.mem_append.1 he with he | he
      · exact hi.saved e he
      · cases List.mem_singleton.1 he
        exact ⟨g, hg, filterMap_animation hg hi.frames hc.2⟩
    simp only at h
    split at h
    · rename_i hx
      split at h
      · cases h
      · rename_i v1 h1
        obtain ⟨a1, a2, a3, a4, a5, a6, a7, a8, _⟩ := incr_spec hs h1
        cases h
        split
        · refine ⟨⟨a1.index, a1.lines, a1.closed, a1.frames, a1.saved⟩, a2, by rw [a4]; exact List.prefix_append _ _, a5, a8,
            fun h => by (cases h), fun h => by (rw [hx] at h; cases h)⟩
        · exact ⟨a1, a2, by rw [a4]; exact List.prefix_append _ _, a5, a8, fun h => by rw [a3] at h; exact h, fun _ => a3⟩
    · cases h
      exact ⟨hs, List.prefix_refl _, List.prefix_append _ _, rfl, rfl, fun h => h, fun _ => rfl⟩
  · cases h
    exact ⟨hi, List.prefix_refl _, List.prefix_refl _, rfl, rfl, fun h => h, fun _ => rfl⟩

/-- One round. -/
theorem viewStep_spec {v v' : Viewer α β γ} {es : List ViewEvent} (hi : ViewInv cfg all v) (h : viewStep cfg v es = .ok v') :
    ViewInv cfg all v' ∧ v.solutions <+: v'.solutions ∧ v.saved <+: v'.saved ∧ v'.t = v.t + 1 ∧
      (v'.running = true → v.running = true ∧ .quit ∉ es) ∧ (cfg.exportAll = false → .quit ∉ es → v'.running = v.running) ∧
      ∃ k b g, v'.shown = some (k, b) ∧ v'.solutions[k]? = some g ∧ cfg.draw g (v.t / 2 % cfg.len g) = .ok b := by
  unfold viewStep at h
  split at h
  · cases h
  · rename_i v1 h1
    obtain ⟨a1, a2, a3, a4, a5, a6⟩ := viewEvents_spec hi h1
    split at h
    · cases h
    · rename_i g hg
      simp only at h
      split at h
      · cases h
      · rename_i b hb
        have hd : cfg.draw g (v1.t / 2 % cfg.len g) = .ok b := by
          unfold frameOf at hb
          split at hb
          · rename_i b' hb'
            cases hb
            obtain ⟨g', hg', hd⟩ := a1.frames _ _ hb'
            rw [hg] at hg'; cases hg'
            exact hd
          · exact hb
        split at h
        · cases h
        · rename_i v2 h2
          have i2 : ViewInv cfg all { v1 with
              frames := fun i => if i = v1.t / 2 % cfg.len g then some b else v1.frames i
              shown := some (v1.index, b) } := by
            refine ⟨a1.index, a1.lines, a1.closed, ?_, a1.saved⟩
            intro i b' hb'
            simp only at hb'
            split at hb'
            · rename_i e; cases hb'; exact ⟨g, hg, by rw [e]; exact hd⟩
            · exact a1.frames i b' hb'
          obtain ⟨b1, b2, b3, b4, b5, b6, b7⟩ := maybeSave_spec i2 hg h2
          cases h
          refine ⟨⟨b1.index, b1.lines, b1.closed, b1.frames, b1.saved⟩, a2.trans b2, ?_, ?_, ?_, ?_, v1.index, b, g, b5, ?_, ?_⟩
          · rw [← a3]; exact b3
          · show v2.t + 1 = v.t + 1
            rw [b4]; exact congrArg (· + 1) a4
          · intro h; exact a6.1 (b6 h)
          · intro hx hq
            show v2.running = v.running
            rw [b7 hx]
            show v1.running = v.running
            rw [Bool.eq_iff_iff, a6]
            exact ⟨fun h => h.1, fun h => ⟨h, hq⟩⟩
          · obtain ⟨t, ht⟩ := b2
            show v2.solutions[v1.index]? = some g
            rw [← ht, List.getElem?_append_left (List.getElem?_eq_some_iff.1 hg).1]
            exact hg
          · rw [← a4]; exact hd

theorem viewLoop_spec {v v' : Viewer α β γ} {ess : List (List ViewEvent)} (hi : ViewInv cfg all v) (h : viewLoop cfg v ess = .ok v') :
    ViewInv cfg all v' ∧ v.solutions <+: v'.solutions ∧ v.saved <+: v'.saved := by
  induction ess generalizing v with
  | nil => cases h; exact ⟨hi, List.prefix_refl _, List.prefix_refl _⟩
  | cons es ess ih =>
    unfold viewLoop at h
    split at h
    · split at h
      · cases h
      · rename_i v1 h1
        obtain ⟨a1, a2, a3, _⟩ := viewStep_spec hi h1
        obtain ⟨b1, b2, b3⟩ := ih a1 h
        exact ⟨b1, a2.trans b2, a3.trans b3⟩
    · cases h; exact ⟨hi, List.prefix_refl _, List.prefix_refl _⟩

theorem viewStart_spec {v : Viewer α β γ} (h : viewStart all = .ok (some v)) :
    ViewInv cfg all v ∧ v.index = 0 ∧ v.running = true ∧ v.saved = [] ∧ v.t = 0 ∧ v.waiting = false ∧ (∀ i, v.frames i = none) ∧
      v.solutions.length = 1 := by
  unfold viewStart at h
  split at h
  · cases h
  · cases h
  · cases h
    exact ⟨⟨by simp, by simp, fun h => (by cases h), fun i b h => (by cases h), fun e he => (by cases he)⟩, rfl, rfl, rfl, rfl, rfl,
      fun _ => rfl, rfl⟩

theorem viewLoop_append {v : Viewer α β γ} {e1 e2 : List (List ViewEvent)} :
    viewLoop cfg v (e1 ++ e2) = (viewLoop cfg v e1).bind fun v => viewLoop cfg v e2 := by
  induction e1 generalizing v with
  | nil => rfl
  | cons es e1 ih =>
    simp only [List.cons_append, viewLoop]
    split
    · split
      · rfl
      · exact ih
    · rename_i hr
      have : viewLoop cfg v e2 = .ok v := by
        cases e2 with
        | nil => rfl
        | cons e e2 => simp only [viewLoop]; rw [if_neg hr]
      exact this.symm

theorem viewLoop_stopped {v : Viewer α β γ} (h : v.running = false) (e : List (List ViewEvent)) : viewLoop cfg v e = .ok v := by
  cases e with
  | nil => rfl
  | cons => simp [viewLoop, h]

end FSat
