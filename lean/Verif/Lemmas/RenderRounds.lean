import Verif.Lemmas.RenderLoop
/-!
# Rounds of the main loop of render.py without interference
-/

namespace FSat

variable {α β γ : Type} {cfg : ViewCfg α β γ} {all : List (Except PyErr α)}

theorem viewEvents_idle {v : Viewer α β γ} {es : List ViewEvent} (h : Idle cfg es) : viewEvents cfg v es = .ok v := by
  induction es with
  | nil => rfl
  | cons e es ih =>
    have he : viewEvent cfg v e = .ok v := by
      unfold viewEvent
      rw [if_neg (fun he => h.1 (by rw [he]; exact .head _))]
      split
      · rfl
      · rename_i hx
        have := h.2 (by simpa using hx) e (.head _)
        rw [this]
    unfold viewEvents
    rw [he]
    exact ih ⟨fun hq => h.1 (.tail _ hq), fun hx e' he' => h.2 hx e' (.tail _ he')⟩

/-- All frames are there. -/
def Complete (f : Nat → Option β) (n : Nat) : Prop := ∀ i < n, (f i).isSome = true

/-- What a round does before saving. -/
def framed (v : Viewer α β γ) (f : Nat → Option β) (sh : Option (Nat × β)) : Viewer α β γ := { v with frames := f, shown := sh }

/-- A round without events. -/
theorem viewStep_idle {v : Viewer α β γ} {es : List ViewEvent} (h : Idle cfg es) {g : α} (hg : v.solutions[v.index]? = some g)
    (hl : 0 < cfg.len g) (hd : ∀ i < cfg.len g, ∃ b, cfg.draw g i = .ok b) : ∃ f sh,
      (f (v.t / 2 % cfg.len g)).isSome = true ∧ (∀ i, (v.frames i).isSome = true → (f i).isSome = true) ∧
      viewStep cfg v es = (maybeSave cfg (framed v f sh) (cfg.len g)).map fun v => { v with t := v.t + 1 } := by
  have hb : ∃ b, frameOf cfg v g (v.t / 2 % cfg.len g) = .ok b := by
    unfold frameOf
    cases hf : v.frames (v.t / 2 % cfg.len g) with
    | some b => exact ⟨b, rfl⟩
    | none => exact hd _ (Nat.mod_lt _ hl)
  obtain ⟨b, hb⟩ := hb
  refine ⟨fun i => if i = v.t / 2 % cfg.len g then some b else v.frames i, some (v.index, b), by simp, ?_, ?_⟩
  · intro i hi
    simp only
    split
    · rfl
    · exact hi
  · unfold viewStep
    rw [viewEvents_idle h]
    simp only [hg, hb]
    unfold framed
    split
    · rename_i h1; rw [h1]; rfl
    · rename_i h1; rw [h1]; rfl

/-- In 2 · `n` rounds every frame has its turn. -/
theorem covers (t n : Nat) (i : Nat) (hi : i < n) : ∃ j < 2 * n, (t + j) / 2 % n = i := by
  have hn : 0 < n := by omega
  -- the first multiple of n not before t / 2
  obtain ⟨q, r, hq, hr⟩ : ∃ q r, t / 2 = n * q + r ∧ r < n := ⟨t / 2 / n, t / 2 % n, (Nat.div_add_mod _ _).symm, Nat.mod_lt _ hn⟩
  have key : ∀ d, d < n → (t + 2 * d) / 2 = n * q + (r + d) := fun d _ => by omega
  by_cases h : r ≤ i
  · refine ⟨2 * (i - r), by omega, ?_⟩
    rw [key _ (by omega)]
    rw [show r + (i - r) = i by omega, Nat.mul_add_mod, Nat.mod_eq_of_lt hi]
  · refine ⟨2 * (n + i - r), by omega, ?_⟩
    rw [key _ (by omega)]
    rw [show r + (n + i - r) = n + i by omega, Nat.mul_add_mod, Nat.add_mod_left, Nat.mod_eq_of_lt hi]

/-- Without interference, an animation that is asked for is complete after less than 2 · `n` rounds; until then nothing else changes. -/
theorem until_complete {v : Viewer α β γ} (hrun : v.running = true) {g : α} (hg : v.solutions[v.index]? = some g)
    (hl : 0 < cfg.len g) (hd : ∀ i < cfg.len g, ∃ b, cfg.draw g i = .ok b) {ev : Nat → List ViewEvent} (he : ∀ n, Idle cfg (ev n)) :
    ∃ m < 2 * cfg.len g, ∃ f sh f' sh', viewLoop cfg v ((List.range m).map ev) = .ok { framed v f sh with t := v.t + m } ∧
      Complete f' (cfg.len g) ∧ viewStep cfg { framed v f sh with t := v.t + m } (ev m) =
        (maybeSave cfg (framed { v with t := v.t + m } f' sh') (cfg.len g)).map fun v => { v with t := v.t + 1 } := by
  have main : ∀ j, (∃ m < j, ∃ f sh f' sh', viewLoop cfg v ((List.range m).map ev) = .ok { framed v f sh with t := v.t + m } ∧
      Complete f' (cfg.len g) ∧ viewStep cfg { framed v f sh with t := v.t + m } (ev m) =
        (maybeSave cfg (framed { v with t := v.t + m } f' sh') (cfg.len g)).map fun v => { v with t := v.t + 1 }) ∨
      ∃ f sh, viewLoop cfg v ((List.range j).map ev) = .ok { framed v f sh with t := v.t + j } ∧
        (∀ i < j, (f ((v.t + i) / 2 % cfg.len g)).isSome = true) ∧ (0 < j → ¬ Complete f (cfg.len g)) := by
    intro j
    induction j with
    | zero => exact .inr ⟨v.frames, v.shown, rfl, fun i hi => absurd hi (Nat.not_lt_zero i), fun h => absurd h (lt_irrefl 0)⟩
    | succ j ih =>
      rcases ih with ⟨m, hm, h⟩ | ⟨f, sh, h1, h2, _⟩
      · exact .inl ⟨m, by omega, h⟩
      · obtain ⟨f', sh', a1, a2, a3⟩ := viewStep_idle (v := { framed v f sh with t := v.t + j }) (he j) hg hl hd
        by_cases hc : Complete f' (cfg.len g)
        · exact .inl ⟨j, by omega, f, sh, f', sh', h1, hc, a3⟩
        · refine .inr ⟨f', sh', ?_, ?_, fun _ => hc⟩
          · rw [List.range_succ, List.map_append, viewLoop_append, h1]
            have hnot : maybeSave cfg (framed { framed v f sh with t := v.t + j } f' sh') (cfg.len g) =
                .ok (framed { framed v f sh with t := v.t + j } f' sh') := by
              unfold maybeSave
              rw [if_neg]
              intro hc'
              rw [Bool.and_eq_true] at hc'
              have := List.all_eq_true.1 hc'.2
              exact hc fun i hi => this i (List.mem_range.2 hi)
            rw [hnot] at a3
            simp only [Except.bind, List.map_cons, List.map_nil, viewLoop]
            rw [if_pos (show ({ framed v f sh with t := v.t + j } : Viewer α β γ).running = true from hrun), a3]
            rfl
          · intro i hi
            rcases Nat.lt_succ_iff_lt_or_eq.1 hi with hi | rfl
            · exact a2 _ (h2 i hi)
            · exact a1
  rcases main (2 * cfg.len g) with h | ⟨f, sh, _, h2, h3⟩
  · exact h
  · exfalso
    refine h3 (by omega) fun i hi => ?_
    obtain ⟨j, hj, e⟩ := covers v.t (cfg.len g) i hi
    rw [← e]
    exact h2 j hj

theorem maybeSave_complete {v : Viewer α β γ} {n : Nat} (hw : v.waiting = true ∨ cfg.exportAll = true) (hc : Complete v.frames n) :
    maybeSave cfg v n = (if cfg.exportAll then
      (incrementSolution { v with waiting := false, saved := v.saved ++ [(v.index, (List.range n).filterMap v.frames)] } 1).map fun v' =>
        (if v'.index = 0 then { v' with running := false } else v')
      else .ok { v with waiting := false, saved := v.saved ++ [(v.index, (List.range n).filterMap v.frames)] }) := by
  unfold maybeSave
  rw [if_pos]
  · simp only
    split
    · split
      · rename_i h; rw [h]; rfl
      · rename_i h; rw [h]; rfl
    · rfl
  · rw [Bool.and_eq_true]
    refine ⟨by simpa using hw, List.all_eq_true.2 fun i hi => hc i (List.mem_range.1 hi)⟩

/-- Moving on when all lines are grids. -/
theorem incr_next {v : Viewer α β γ} {gs : List α} (hi : ViewInv cfg (gs.map Except.ok) v) :
    ∃ v', incrementSolution v 1 = .ok v' ∧ v'.index = (v.index + 1) % gs.length := by
  obtain ⟨rest, hrest⟩ : ∃ rest : List α, v.input = rest.map Except.ok ∧ gs = v.solutions ++ rest := by
    have h := hi.lines
    obtain ⟨l1, l2, h1, h2, h3⟩ := List.map_eq_append_iff.1 h.symm
    have : l1 = v.solutions := by
      have : Function.Injective (Except.ok : α → Except PyErr α) := fun a b h => Except.ok.inj h
      exact List.map_injective_iff.2 this h2
    exact ⟨l2, h3.symm, by rw [← this]; exact h1⟩
  have hlen : gs.length = v.solutions.length + rest.length := by rw [hrest.2, List.length_append]
  have hidx := hi.index
  have ok : ∃ v', incrementSolution v 1 = .ok v' := by
    unfold incrementSolution
    simp only
    by_cases hc : v.closed = true
    · rw [if_pos hc]; exact ⟨_, rfl⟩
    · rw [if_neg hc]
      have : ∃ r, readUntil ((v.index : Int) + 1) v.solutions v.input = .ok r := by
        rw [hrest.1]
        generalize v.solutions = sols
        clear hlen hrest hidx hi
        induction rest generalizing sols with
        | nil => exact ⟨_, rfl⟩
        | cons a rest ih =>
          simp only [List.map_cons, readUntil]
          split
          · exact ih _
          · exact ⟨_, rfl⟩
      obtain ⟨r, hr⟩ := this
      rw [hr]
      exact ⟨_, rfl⟩
  obtain ⟨v', hv'⟩ := ok
  obtain ⟨a1, a2, _, _, _, _, _, _, _, a10, a11, a12⟩ := incr_spec hi hv'
  refine ⟨v', hv', ?_⟩
  have l1 := a2.length_le
  have l2 : v'.solutions.length ≤ gs.length := by
    have := congrArg List.length a1.lines
    simp at this
    omega
  rw [a10]
  by_cases h : (v.index : Int) + 1 ≥ v'.solutions.length
  · have e := a11 h
    have l3 : v'.solutions.length = gs.length := by
      have := congrArg List.length a1.lines
      rw [e] at this
      simpa using this
    rw [l3, show ((v.index : Int) + 1) % (gs.length : Int) = (((v.index + 1) % gs.length : Nat) : Int) by push_cast; rfl]
    exact Int.toNat_natCast _
  · rw [Int.emod_eq_of_lt (by omega) (by omega), Nat.mod_eq_of_lt (by omega)]
    omega

/-- Moving on does not look at the frames, the files and the time. -/
theorem incr_transfer {v w u : Viewer α β γ} {a : Int} (h : incrementSolution v a = .ok w) (h1 : u.index = v.index)
    (h2 : u.solutions = v.solutions) (h3 : u.input = v.input) (h4 : u.closed = v.closed) :
    incrementSolution u a = .ok { u with
      index := w.index
      solutions := w.solutions
      input := w.input
      closed := w.closed
      frames := fun _ => none } := by
  unfold incrementSolution at h ⊢
  simp only [h1, h2, h3, h4] at h ⊢
  by_cases hc : v.closed = true
  · rw [if_pos hc] at h ⊢
    cases h
    rfl
  · rw [if_neg hc] at h ⊢
    cases hr : readUntil ((v.index : Int) + a) v.solutions v.input with
    | error e => rw [hr] at h; cases h
    | ok r =>
      rw [hr] at h
      cases h
      rfl

end FSat
