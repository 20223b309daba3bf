import Verif.Lemmas.RenderRounds
/-!
# C85: the main loop of the renderer
-/

namespace FSat

variable {α β γ : Type} {cfg : ViewCfg α β γ}

/-! ### What holds after every history -/

/-- Whatever the events, the grids are the lines of standard input in order, and a file always has the whole animation of the grid with the
number in its name. -/
theorem c85_files {all : List (Except PyErr α)} {v0 v : Viewer α β γ} {ess : List (List ViewEvent)} (h0 : viewStart all = .ok (some v0))
    (h : viewLoop cfg v0 ess = .ok v) : v.solutions.map Except.ok <+: all ∧ v.index < v.solutions.length ∧
      ∀ e ∈ v.saved, ∃ g, all[e.1]? = some (.ok g) ∧ Animation cfg g e.2 := by
  obtain ⟨hi, -⟩ := viewLoop_spec (viewStart_spec (cfg := cfg) h0).1 h
  refine ⟨⟨v.input, hi.lines⟩, hi.index, ?_⟩
  intro e he
  obtain ⟨g, hg, ha⟩ := hi.saved e he
  refine ⟨g, ?_, ha⟩
  have hlt := (List.getElem?_eq_some_iff.1 hg).1
  rw [← hi.lines, List.getElem?_append_left (by simpa using hlt), List.getElem?_map, hg]
  rfl

/-- Whatever the events, after a round the screen has the frame that is due of the grid whose number is in the caption. -/
theorem c85_screen {all : List (Except PyErr α)} {v0 v v' : Viewer α β γ} {ess : List (List ViewEvent)} {es : List ViewEvent}
    (h0 : viewStart all = .ok (some v0)) (h : viewLoop cfg v0 ess = .ok v) (h' : viewStep cfg v es = .ok v') :
    ∃ k b g, v'.shown = some (k, b) ∧ all[k]? = some (.ok g) ∧ cfg.draw g (v.t / 2 % cfg.len g) = .ok b := by
  obtain ⟨hi, -⟩ := viewLoop_spec (viewStart_spec (cfg := cfg) h0).1 h
  obtain ⟨hi', _, _, _, _, _, k, b, g, h1, h2, h3⟩ := viewStep_spec hi h'
  refine ⟨k, b, g, h1, ?_, h3⟩
  have hlt := (List.getElem?_eq_some_iff.1 h2).1
  rw [← hi'.lines, List.getElem?_append_left (by simpa using hlt), List.getElem?_map, h2]
  rfl

/-- The loop ends with the round in which the window is closed, and without `--export-all` no sooner. -/
theorem c85_quit {all : List (Except PyErr α)} {v0 v v' : Viewer α β γ} {ess : List (List ViewEvent)} {es : List ViewEvent}
    (h0 : viewStart all = .ok (some v0)) (h : viewLoop cfg v0 ess = .ok v) (hr : v.running = true) (h' : viewStep cfg v es = .ok v') :
    (.quit ∈ es → v'.running = false) ∧ (cfg.exportAll = false → .quit ∉ es → v'.running = true) := by
  obtain ⟨hi, -⟩ := viewLoop_spec (viewStart_spec (cfg := cfg) h0).1 h
  obtain ⟨_, _, _, _, h1, h2, _⟩ := viewStep_spec hi h'
  refine ⟨fun hq => ?_, fun hx hq => by rw [h2 hx hq]; exact hr⟩
  cases hv : v'.running with
  | false => rfl
  | true => exact absurd hq (h1 hv).2

/-! ### Keys -/

/-- The key I goes to the next line of standard input, and from the last one to the first. -/
theorem c85_next {gs : List α} {v0 v : Viewer α β γ} {ess : List (List ViewEvent)} (h0 : viewStart (gs.map Except.ok) = .ok (some v0))
    (h : viewLoop cfg v0 ess = .ok v) (hx : cfg.exportAll = false) : ∃ v', viewEvent cfg v .keyI = .ok v' ∧
      v'.index = (v.index + 1) % gs.length ∧ v'.solutions[v'.index]? = gs[v'.index]? := by
  obtain ⟨hi, -⟩ := viewLoop_spec (viewStart_spec (cfg := cfg) h0).1 h
  obtain ⟨v', hv', hidx⟩ := incr_next hi
  refine ⟨v', by simp [viewEvent, hx, hv'], hidx, ?_⟩
  obtain ⟨hi', -⟩ := incr_spec hi hv'
  have := congrArg (·[v'.index]?) hi'.lines
  simp only [List.getElem?_append_left (show v'.index < (v'.solutions.map Except.ok).length by simpa using hi'.index),
    List.getElem?_map] at this
  have inj : Function.Injective (Option.map (Except.ok : α → Except PyErr α)) := Option.map_injective fun a b h => Except.ok.inj h
  exact inj this

/-- The key K goes to the previous grid, and from the first to the last one that was read. -/
theorem c85_back {all : List (Except PyErr α)} {v0 v : Viewer α β γ} {ess : List (List ViewEvent)} (h0 : viewStart all = .ok (some v0))
    (h : viewLoop cfg v0 ess = .ok v) (hx : cfg.exportAll = false) : ∃ v', viewEvent cfg v .keyK = .ok v' ∧ v'.solutions = v.solutions ∧
      v'.input = v.input ∧ v'.index = if v.index = 0 then v.solutions.length - 1 else v.index - 1 := by
  obtain ⟨hi, -⟩ := viewLoop_spec (viewStart_spec (cfg := cfg) h0).1 h
  have hidx := hi.index
  have hval : (((v.index : Int) + -1) % v.solutions.length).toNat = if v.index = 0 then v.solutions.length - 1 else v.index - 1 := by
    split
    · rename_i e
      rw [e, show ((0 : Nat) : Int) + -1 = -1 by rfl, ← Int.add_emod_right, Int.emod_eq_of_lt (by omega) (by omega)]
      omega
    · rw [Int.emod_eq_of_lt (by omega) (by omega)]
      omega
  have : incrementSolution v (-1) = .ok { v with
      index := (((v.index : Int) + -1) % v.solutions.length).toNat
      solutions := v.solutions
      input := v.input
      closed := v.closed
      frames := fun _ => none } := by
    unfold incrementSolution
    simp only
    by_cases hc : v.closed = true
    · rw [if_pos hc, hc]
    · rw [if_neg hc]
      have hr : readUntil ((v.index : Int) + -1) v.solutions v.input = .ok (v.solutions, v.input, v.closed) := by
        have hlt : ¬ ((v.index : Int) + -1 ≥ v.solutions.length) := by omega
        have hc : v.closed = false := by simpa using hc
        rw [hc]
        cases hin : v.input with
        | nil => simp only [readUntil]; rw [decide_eq_false hlt]
        | cons a l => simp only [readUntil]; rw [if_neg hlt]
      rw [hr]
  refine ⟨{ v with
      index := (((v.index : Int) + -1) % v.solutions.length).toNat
      solutions := v.solutions
      input := v.input
      closed := v.closed
      frames := fun _ => none }, ?_, rfl, rfl, hval⟩
  rw [← this]
  simp [viewEvent, hx]

/-! ### Saving -/

/-- With `--export-all` and no closing of the window, the loop ends, and it has written one file for every grid of standard input, in order,
each with all the frames of its grid. -/
theorem c85_export (hx : cfg.exportAll = true) {gs : List α} (hne : gs ≠ []) (hlen : ∀ g ∈ gs, 0 < cfg.len g)
    (hdraw : ∀ g ∈ gs, ∀ i < cfg.len g, ∃ b, cfg.draw g i = .ok b) (ev : Nat → List ViewEvent) (hq : ∀ n, .quit ∉ ev n) :
    ∃ (v0 v : Viewer α β γ) (N : Nat), viewStart (gs.map Except.ok) = .ok (some v0) ∧
      (∀ M ≥ N, viewLoop cfg v0 ((List.range M).map ev) = .ok v) ∧ v.running = false ∧ v.saved.map Prod.fst = List.range gs.length ∧
      ∀ e ∈ v.saved, ∃ g, gs[e.1]? = some g ∧ Animation cfg g e.2 := by
  obtain ⟨g0, gs', rfl⟩ := List.exists_cons_of_ne_nil hne
  obtain ⟨v0, h0⟩ : ∃ v0 : Viewer α β γ, viewStart ((g0 :: gs').map Except.ok) = .ok (some v0) := ⟨_, rfl⟩
  have hs := viewStart_spec (cfg := cfg) h0
  generalize hgs : g0 :: gs' = gs at *
  have idle : ∀ n, Idle cfg (ev n) := fun n => ⟨hq n, fun h => by rw [hx] at h; cases h⟩
  -- from the moment a grid is reached to the end
  have main : ∀ d k M0 (v : Viewer α β γ), gs.length - k = d → k < gs.length → viewLoop cfg v0 ((List.range M0).map ev) = .ok v →
      ViewInv cfg (gs.map Except.ok) v → v.running = true → v.index = k → v.saved.map Prod.fst = List.range k →
      ∃ N v', viewLoop cfg v0 ((List.range N).map ev) = .ok v' ∧ v'.running = false ∧ v'.saved.map Prod.fst = List.range gs.length := by
    intro d
    induction d with
    | zero => intro k M0 v hd hk; omega
    | succ d ih =>
      intro k M0 v hd hk hloop hi hrun hidx hsaved
      obtain ⟨g, hg⟩ : ∃ g, v.solutions[v.index]? = some g := ⟨_, List.getElem?_eq_getElem hi.index⟩
      have hmem : g ∈ gs := by
        have : Except.ok g ∈ gs.map (Except.ok : α → Except PyErr α) := by
          rw [← hi.lines]
          exact List.mem_append_left _ (List.mem_map_of_mem (List.mem_of_getElem? hg))
        obtain ⟨g', hg', e⟩ := List.mem_map.1 this
        cases e; exact hg'
      obtain ⟨m, _, f, sh, f', sh', h1, h2, h3⟩ := until_complete (ev := fun n => ev (M0 + n)) hrun hg (hlen g hmem) (hdraw g hmem)
        (fun n => idle _)
      have hmid : viewLoop cfg v0 ((List.range (M0 + m)).map ev) = .ok { framed v f sh with t := v.t + m } := by
        rw [List.range_add, List.map_append, viewLoop_append, hloop, List.map_map]
        exact h1
      have hi2 := (viewLoop_spec hs.1 hmid).1
      rw [maybeSave_complete (.inr hx) h2, if_pos hx] at h3
      obtain ⟨w, hw, hwidx⟩ := incr_next (v := { framed v f sh with t := v.t + m }) hi2
      have hwidx : w.index = (k + 1) % gs.length := by rw [hwidx, ← hidx]; rfl
      rw [incr_transfer hw (u := { framed { v with t := v.t + m } f' sh' with
          waiting := false
          saved := (framed { v with t := v.t + m } f' sh').saved ++ [((framed { v with t := v.t + m } f' sh').index,
            (List.range (cfg.len g)).filterMap (framed { v with t := v.t + m } f' sh').frames)] }) rfl rfl rfl rfl] at h3
      simp only [Except.map] at h3
      have hnext : ∀ u, viewStep cfg { framed v f sh with t := v.t + m } (ev (M0 + m)) = .ok u →
          viewLoop cfg v0 ((List.range (M0 + m + 1)).map ev) = .ok u := by
        intro u hu
        rw [List.range_succ, List.map_append, viewLoop_append, hmid]
        simp only [Except.bind, List.map_cons, List.map_nil, viewLoop]
        rw [if_pos (show ({ framed v f sh with t := v.t + m } : Viewer α β γ).running = true from hrun), hu]
      have hsave : (v.saved ++ [(v.index, (List.range (cfg.len g)).filterMap f')]).map Prod.fst = List.range (k + 1) := by
        rw [List.map_append, hsaved, List.range_succ]
        simp [hidx]
      by_cases hlast : k + 1 = gs.length
      · rw [hlast, Nat.mod_self] at hwidx
        rw [if_pos hwidx] at h3
        exact ⟨_, _, hnext _ h3, rfl, by rw [← hlast]; exact hsave⟩
      · rw [Nat.mod_eq_of_lt (by omega)] at hwidx
        rw [if_neg (by omega)] at h3
        exact ih (k + 1) _ _ (by omega) (by omega) (hnext _ h3) (viewStep_spec hi2 h3).1 hrun hwidx hsave
  obtain ⟨N, v', h1, h2, h3⟩ := main gs.length 0 0 v0 (by omega) (by rw [← hgs]; simp) rfl hs.1 hs.2.2.1 hs.2.1 (by rw [hs.2.2.2.1]; rfl)
  refine ⟨v0, v', N, h0, ?_, h2, h3, ?_⟩
  · intro M hM
    obtain ⟨r, rfl⟩ := Nat.exists_eq_add_of_le hM
    rw [List.range_add, List.map_append, viewLoop_append, h1]
    exact viewLoop_stopped h2 _
  · intro e he
    obtain ⟨_, _, h⟩ := c85_files h0 h1
    obtain ⟨g, hg, ha⟩ := h e he
    rw [List.getElem?_map] at hg
    cases hgi : gs[e.1]? with
    | none => rw [hgi] at hg; cases hg
    | some g' =>
      rw [hgi] at hg
      have : g' = g := Except.ok.inj (Option.some.inj hg)
      exact ⟨g, by rw [this], ha⟩

/-- The key S saves the grid on the screen, if nothing is pressed until all its frames were shown.  Missing: moving on before that
(`c85_save_refuted`). -/
theorem c85_save_partial {all : List (Except PyErr α)} {v0 v : Viewer α β γ} {ess : List (List ViewEvent)} (h0 : viewStart all = .ok (some v0))
    (h : viewLoop cfg v0 ess = .ok v) (hx : cfg.exportAll = false) (hr : v.running = true) {g : α} (hg : v.solutions[v.index]? = some g)
    (hl : 0 < cfg.len g) (hd : ∀ i < cfg.len g, ∃ b, cfg.draw g i = .ok b) {n : Nat} (hn : 2 * cfg.len g ≤ n) :
    ∃ v' fs, viewLoop cfg v ([.keyS] :: List.replicate n []) = .ok v' ∧ v'.index = v.index ∧ v'.saved = v.saved ++ [(v.index, fs)] ∧
      Animation cfg g fs := by
  obtain ⟨hi, -⟩ := viewLoop_spec (viewStart_spec (cfg := cfg) h0).1 h
  have idle : Idle cfg [] := ⟨by simp, fun _ e he => by cases he⟩
  -- with the key, the round is an idle one of a viewer that waits
  have first : viewStep cfg v [.keyS] = viewStep cfg { v with waiting := true } [] := by
    unfold viewStep
    have : viewEvents cfg v [.keyS] = .ok { v with waiting := true } := by simp [viewEvents, viewEvent, hx]
    rw [this]
    rfl
  have loop0 : viewLoop cfg v ([.keyS] :: List.replicate n []) = viewLoop cfg { v with waiting := true } ((List.range (n + 1)).map fun _ => []) := by
    have : (List.range (n + 1)).map (fun _ => ([] : List ViewEvent)) = [] :: List.replicate n [] := by
      rw [List.map_const', List.length_range, List.replicate_succ]
    rw [this]
    simp only [viewLoop, hr, if_true, first]
  rw [loop0]
  obtain ⟨m, hm, f, sh, f', sh', h1, h2, h3⟩ := until_complete (v := { v with waiting := true }) (ev := fun _ => []) hr hg hl hd (fun _ => idle)
  rw [maybeSave_complete (.inl rfl) h2, if_neg (by simp [hx])] at h3
  -- nothing more is saved in the rounds after that
  have rest : ∀ j (w : Viewer α β γ), w.running = true → w.waiting = false → w.solutions[w.index]? = some g →
      ∃ w', viewLoop cfg w ((List.range j).map fun _ => []) = .ok w' ∧ w'.saved = w.saved ∧ w'.index = w.index := by
    intro j
    induction j with
    | zero => intro w _ _ _; exact ⟨w, rfl, rfl, rfl⟩
    | succ j ih =>
      intro w hw1 hw2 hw3
      obtain ⟨f, sh, _, _, e⟩ := viewStep_idle (v := w) idle hw3 hl hd
      have hnot : maybeSave cfg (framed w f sh) (cfg.len g) = .ok (framed w f sh) := by
        unfold maybeSave
        rw [if_neg]
        rw [Bool.and_eq_true, not_and_or]
        left
        simp [framed, hw2, hx]
      rw [hnot] at e
      obtain ⟨w', h1, h2, h3⟩ := ih { framed w f sh with t := w.t + 1 } hw1 hw2 hw3
      refine ⟨w', ?_, h2, h3⟩
      have : (List.range (j + 1)).map (fun _ => ([] : List ViewEvent)) = [] :: (List.range j).map fun _ => [] := by
        rw [List.map_const', List.map_const', List.length_range, List.length_range, List.replicate_succ]
      rw [this]
      simp only [viewLoop, hw1, if_true, e]
      exact h1
  have hframes : ∀ i b, f' i = some b → ∃ g, v.solutions[v.index]? = some g ∧ cfg.draw g i = .ok b := by
    have hiw : ViewInv cfg all ({ v with waiting := true } : Viewer α β γ) := ⟨hi.index, hi.lines, hi.closed, hi.frames, hi.saved⟩
    have := (viewStep_spec (viewLoop_spec hiw h1).1 h3).1.frames
    exact this
  have hanim := filterMap_animation (cfg := cfg) (v := framed v f' sh') hg hframes (List.all_eq_true.2 fun i hi => h2 i (List.mem_range.1 hi))
  obtain ⟨r, hr'⟩ : ∃ r, n + 1 = m + 1 + r := ⟨n - m, by omega⟩
  rw [hr', List.range_add, List.map_append, viewLoop_append, List.range_succ, List.map_append, viewLoop_append, h1]
  simp only [Except.bind, List.map_cons, List.map_nil, viewLoop]
  rw [if_pos (show ({ framed { v with waiting := true } f sh with t := v.t + m } : Viewer α β γ).running = true from hr), h3]
  simp only [Except.map, List.map_map]
  obtain ⟨w', e1, e2, e3⟩ := rest r { framed { v with waiting := true } f' sh' with
      waiting := false
      saved := v.saved ++ [(v.index, (List.range (cfg.len g)).filterMap f')]
      t := v.t + m + 1 } hr rfl hg
  exact ⟨w', _, e1, e3, e2, hanim⟩

/-! ### Cases -/

/-- Two grids with two frames each. -/
def exView (e : Bool) : ViewCfg Nat (Nat × Nat) Nat := ⟨fun _ => 2, fun g i => .ok (g, i), fun g => .ok g, e⟩

/-- The key S and then the key I: the file that is saved is not of the grid that was on the screen. -/
theorem c85_save_refuted : ∃ (v0 v : Viewer Nat (Nat × Nat) Nat), viewStart [.ok 7, .ok 8] = .ok (some v0) ∧ v0.index = 0 ∧
    viewLoop (exView false) v0 [[.keyS], [.keyI], [], [], [], []] = .ok v ∧ v.saved = [(1, [(8, 0), (8, 1)])] :=
  ⟨_, _, rfl, rfl, rfl, rfl⟩

example : ∃ (v0 v : Viewer Nat (Nat × Nat) Nat), viewStart [.ok 7, .ok 8] = .ok (some v0) ∧
    viewLoop (exView true) v0 (List.replicate 9 [.keyS, .other]) = .ok v ∧ v.running = false ∧
      v.saved = [(0, [(7, 0), (7, 1)]), (1, [(8, 0), (8, 1)])] := ⟨_, _, rfl, rfl, rfl, rfl⟩

example : (exView true).exportAll = true ∧ (∀ g ∈ [7, 8], 0 < (exView true).len g) ∧
    ∀ g ∈ [7, 8], ∀ i < (exView true).len g, ∃ b, (exView true).draw g i = .ok b :=
  ⟨rfl, fun _ _ => Nat.succ_pos _, fun _ _ _ _ => ⟨_, rfl⟩⟩

end FSat
