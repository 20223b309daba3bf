import Verif.Lemmas.Sums
import Verif.Lemmas.Constants
import Verif.Model.Cardinality

set_option linter.unusedSimpArgs false

namespace FSat

theorem quadraticLoop_iff (v : Asg) (pre ls : List Lit) (hpre : countTrue v pre ≤ 1) :
    Sat v (quadraticLoop pre ls) ↔ countTrue v (pre ++ ls) ≤ 1 := by
  induction ls generalizing pre with
  | nil => simp [quadraticLoop, hpre]
  | cons l ls ih =>
    simp only [quadraticLoop, Sat_append, Sat_map, SatC_cons, SatC_nil, ev_neg, or_false]
    have happ : pre ++ l :: ls = (pre ++ [l]) ++ ls := by simp
    rw [happ]
    have hc : countTrue v (pre ++ [l]) = countTrue v pre + bit (ev v l) := by
      rw [countTrue_append, countTrue_cons]; simp
    have hz : countTrue v pre = 0 ↔ ∀ x ∈ pre, ev v x = false := by
      simp only [countTrue, trues, List.count_eq_zero, List.mem_map, not_exists, not_and, Bool.not_eq_true]
    by_cases hl : ev v l = true
    · rw [hl] at hc ⊢
      simp only [bit_true] at hc
      simp only [Bool.not_true, Bool.false_eq_true, false_or, Bool.not_eq_true']
      rw [← hz]
      by_cases h0 : countTrue v pre = 0
      · simp only [h0, true_and]
        exact ih (pre ++ [l]) (by omega)
      · simp only [h0, false_and, false_iff]
        rw [countTrue_append]; omega
    · simp only [Bool.not_eq_true] at hl
      rw [hl] at hc ⊢
      simp only [bit_false, Nat.add_zero] at hc
      simp only [Bool.not_false, true_or, implies_true, true_and]
      exact ih (pre ++ [l]) (by omega)

theorem quadraticAmo_iff (v : Asg) (ls : List Lit) : Sat v (quadraticAmo ls) ↔ countTrue v ls ≤ 1 := by
  have := quadraticLoop_iff v [] ls (by simp)
  simpa [quadraticAmo] using this

theorem SatC_iff_countTrue (v : Asg) (ls : List Lit) : SatC v ls ↔ 1 ≤ countTrue v ls := by
  simp only [SatC, countTrue, trues, Nat.succ_le_iff, List.count_pos_iff, List.mem_map]

theorem CBound_quadraticLoop {s : Nat} (pre ls : List Lit) (hp : LBound s pre) (hl : LBound s ls) :
    CBound s (quadraticLoop pre ls) := by
  induction ls generalizing pre with
  | nil => simp [quadraticLoop]
  | cons l ls ih =>
    simp only [LBound_cons] at hl
    simp only [quadraticLoop, CBound_append]
    refine ⟨?_, ih _ (by simp [hp, hl.1]) hl.2⟩
    intro c hc
    simp only [List.mem_map] at hc
    obtain ⟨b, hb, rfl⟩ := hc
    simp [hl.1, hp b hb]

theorem CBound_quadraticAmo {s : Nat} (ls : List Lit) (hl : LBound s ls) : CBound s (quadraticAmo ls) :=
  CBound_quadraticLoop [] ls (by simp) hl

theorem countTrue_take_drop (v : Asg) (ls : List Lit) (n : Nat) :
    countTrue v ls = countTrue v (ls.take n) + countTrue v (ls.drop n) := by
  rw [← countTrue_append, List.take_append_drop]

theorem heuleAmo_sound_aux {σ : Type} (al : Alloc σ) (cutoff : Nat) (n : Nat) : ∀ (ls : List Lit), ls.length = n →
    ∀ (s : σ) (cls : Cnf) (s' : σ), heuleAmo al ls cutoff s = .ok (cls, s') → ∀ v, Sat v cls → countTrue v ls ≤ 1 := by
  induction n using Nat.strong_induction_on with
  | _ n ih =>
    intro ls hn s cls s' h v hs
    rw [heuleAmo] at h
    by_cases h3 : cutoff < 3
    · simp [h3] at h
    rw [dif_neg h3] at h
    by_cases hl : ls.length ≤ cutoff
    · rw [dif_pos hl] at h
      simp only [Except.ok.injEq, Prod.mk.injEq] at h
      rw [← h.1, quadraticAmo_iff] at hs
      exact hs
    · rw [dif_neg hl] at h
      cases h1 : al s with
      | error e => simp [h1] at h
      | ok p =>
        obtain ⟨aux, s1⟩ := p
        simp only [h1] at h
        cases h2 : heuleAmo al (ls.take (ls.length / 2) ++ [aux]) cutoff s1 with
        | error e => simp [h2] at h
        | ok q =>
          obtain ⟨c1, s2⟩ := q
          simp only [h2] at h
          cases h4 : heuleAmo al (ls.drop (ls.length / 2) ++ [-aux]) cutoff s2 with
          | error e => simp [h4] at h
          | ok r =>
            obtain ⟨c2, s3⟩ := r
            simp only [h4, Except.ok.injEq, Prod.mk.injEq] at h
            rw [← h.1] at hs
            simp only [Sat_append] at hs
            have a1 := ih _ (by simp; omega) _ rfl _ _ _ h2 v hs.1
            have a2 := ih _ (by simp; omega) _ rfl _ _ _ h4 v hs.2
            rw [countTrue_append, countTrue_cons, countTrue_nil] at a1 a2
            rw [countTrue_take_drop v ls (ls.length / 2)]
            rw [ev_neg] at a2
            revert a1 a2; cases ev v aux <;> simp only [Bool.not_true, Bool.not_false, bit_true, bit_false] <;> omega

theorem heuleAmo_pool_aux (cutoff : Nat) (hcut : 3 ≤ cutoff) (n : Nat) : ∀ (ls : List Lit), ls.length = n →
    ∀ (s : Nat), LBound s ls → ∃ cls s', heuleAmo poolAlloc ls cutoff s = .ok (cls, s') ∧
      Encodes s s' cls (fun v => countTrue v ls ≤ 1) := by
  induction n using Nat.strong_induction_on with
  | _ n ih =>
    intro ls hn s hb
    rw [heuleAmo, dif_neg (by omega)]
    by_cases hl : ls.length ≤ cutoff
    · rw [dif_pos hl]
      refine ⟨_, _, rfl, Nat.le_refl _, CBound_quadraticAmo ls hb, fun v hs => (quadraticAmo_iff v ls).1 hs,
        fun v hv => ⟨v, fun _ _ => rfl, (quadraticAmo_iff v ls).2 hv⟩⟩
    · rw [dif_neg hl]
      let m := ls.length / 2
      let aux : Lit := ⟨s + 1, true⟩
      have hbt : LBound s (ls.take m) := hb.sublist fun _ h => List.mem_of_mem_take h
      have hbd : LBound s (ls.drop m) := hb.sublist fun _ h => List.mem_of_mem_drop h
      obtain ⟨c1, s2, he1, hen1⟩ := ih (ls.take m ++ [aux]).length (by simp [m]; omega) _ rfl (s + 1) (by
        simp only [LBound_append]; exact ⟨hbt.mono (by omega), by simp [aux]⟩)
      obtain ⟨c2, s3, he2, hen2⟩ := ih (ls.drop m ++ [-aux]).length (by simp [m]; omega) _ rfl s2 (by
        simp only [LBound_append]
        exact ⟨hbd.mono (by have := hen1.le; omega), by have := hen1.le; simpa [aux] using this⟩)
      have l1 := hen1.le
      have l2 := hen2.le
      refine ⟨c1 ++ c2, s3, ?_, by omega, ?_, ?_, ?_⟩
      · simp only [poolAlloc] at he1 he2 ⊢
        rw [he1]; dsimp only; rw [he2]
      · simp only [CBound_append]; exact ⟨hen1.bound.mono l2, hen2.bound⟩
      · intro v hs
        simp only [Sat_append] at hs
        have a1 := hen1.sound v hs.1
        have a2 := hen2.sound v hs.2
        rw [countTrue_append, countTrue_cons, countTrue_nil] at a1 a2
        rw [countTrue_take_drop v ls m]
        rw [ev_neg] at a2
        revert a1 a2; cases ev v aux <;> simp only [Bool.not_true, Bool.not_false, bit_true, bit_false] <;> omega
      · intro v hv
        rw [countTrue_take_drop v ls m] at hv
        let b := decide (countTrue v (ls.take m) = 0)
        let v1 := upd v (s + 1) b
        have hag : Agree s v v1 := agree_upd v b (Nat.lt_succ_self s)
        have hbv : ev v1 aux = b := by simp [aux, v1]
        obtain ⟨w, hw, hsw⟩ := hen1.complete v1 (by
          rw [countTrue_append, countTrue_cons, countTrue_nil, countTrue_agree hag hbt, hbv]
          simp only [b, bit_decide]; split <;> omega)
        have hag2 : Agree s v w := hag.trans (Agree.mono hw (Nat.le_succ s))
        obtain ⟨u, hu, hsu⟩ := hen2.complete w (by
          rw [countTrue_append, countTrue_cons, countTrue_nil, countTrue_agree hag2 hbd, ev_neg,
            ev_agree hw (by simp [aux]), hbv]
          by_cases h0 : countTrue v (ls.take m) = 0
          · simp [b, h0]; omega
          · simp [b, h0]; omega)
        refine ⟨u, Agree.trans (v := v) hag2 (Agree.mono hu (by omega)), ?_⟩
        simp only [Sat_append]
        exact ⟨(Sat_agree hu hen1.bound).2 hsw, hsu⟩

theorem Encodes_one {s s' : Nat} {cls : Cnf} {ls : List Lit} (hb : LBound s ls)
    (h : Encodes s s' cls (fun v => countTrue v ls ≤ 1)) : Encodes s s' (cls ++ [ls]) (fun v => countTrue v ls = 1) where
  le := h.le
  bound := by simp only [CBound_append, CBound_cons, CBound_nil, and_true]; exact ⟨h.bound, hb.mono h.le⟩
  sound v hs := by
    simp only [Sat_append, Sat_cons, Sat_nil, and_true, SatC_iff_countTrue] at hs
    have := h.sound v hs.1
    omega
  complete v hv := by
    obtain ⟨w, hw, hsw⟩ := h.complete v (by omega)
    refine ⟨w, hw, ?_⟩
    simp only [Sat_append, Sat_cons, Sat_nil, and_true, SatC_iff_countTrue]
    exact ⟨hsw, by rw [countTrue_agree hw hb]; omega⟩

/-! ### logarithmic -/

theorem logarithmicLoop_iff (locs : List Lit) (i : Nat) (ls : List Lit) (h : i + ls.length ≤ 2 ^ locs.length) :
    ∃ cls, logarithmicLoop locs i ls = .ok cls ∧
      (∀ v, Sat v cls ↔ ∀ (k : Nat) (hk : k < ls.length), ev v ls[k] = true → value v locs = i + k) ∧
      (∀ s, LBound s ls → LBound s locs → CBound s cls) := by
  induction ls generalizing i with
  | nil => exact ⟨[], rfl, by simp, by simp⟩
  | cons l ls ih =>
    simp only [List.length_cons] at h
    obtain ⟨cls, he, hs, hbd⟩ := ih (i + 1) (by omega)
    refine ⟨implies [l] (numberClauses i locs) ++ cls, ?_, ?_, ?_⟩
    · simp only [logarithmicLoop, setNumber]
      rw [if_pos (by exact_mod_cast (show i < 2 ^ locs.length by omega))]
      simp [he]
    · intro v
      rw [Sat_append, Sat_implies, hs, Sat_numberClauses v i locs (by omega)]
      constructor
      · rintro ⟨h1, h2⟩ k hk hkt
        cases k with
        | zero => exact h1 (by simpa using hkt)
        | succ k =>
          have := h2 k (by simpa using hk) (by simpa using hkt)
          omega
      · intro hh
        refine ⟨fun h1 => hh 0 (by simp) (by simpa using h1), fun k hk hkt => ?_⟩
        have := hh (k + 1) (by simpa using hk) (by simpa using hkt)
        omega
    · intro s hls hlocs
      simp only [LBound_cons] at hls
      simp only [CBound_append]
      refine ⟨CBound_implies (by simpa using hls.1) ?_, hbd s hls.2 hlocs⟩
      intro c hc
      simp only [numberClauses, List.mem_map] at hc
      obtain ⟨p, hp, rfl⟩ := hc
      have := hlocs p.1 (List.of_mem_zip hp).1
      simp only [LBound_cons, LBound_nil, and_true, setLiteral]
      split <;> simpa using this

theorem countTrue_le_one_of_index (v : Asg) (ls : List Lit) (x : Nat)
    (h : ∀ (k : Nat) (hk : k < ls.length), ev v ls[k] = true → x = k) : countTrue v ls ≤ 1 := by
  induction ls generalizing x with
  | nil => simp
  | cons l ls ih =>
    rw [countTrue_cons]
    by_cases hl : ev v l = true
    · have hx := h 0 (by simp) (by simpa using hl)
      have : countTrue v ls = 0 := by
        by_contra hne
        have : SatC v ls := (SatC_iff_countTrue v ls).2 (by omega)
        obtain ⟨y, hy, hye⟩ := this
        obtain ⟨k, hk, rfl⟩ := List.getElem_of_mem hy
        have := h (k + 1) (by simpa using hk) (by simpa using hye)
        omega
      rw [this]; exact bit_le _
    · simp only [Bool.not_eq_true] at hl
      rw [hl]
      simp only [bit_false, Nat.zero_add]
      by_cases h0 : countTrue v ls = 0
      · omega
      · obtain ⟨y, hy, hye⟩ := (SatC_iff_countTrue v ls).2 (show 1 ≤ countTrue v ls by omega)
        obtain ⟨k, hk, rfl⟩ := List.getElem_of_mem hy
        have hx := h (k + 1) (by simpa using hk) (by simpa using hye)
        apply ih (x - 1)
        intro k' hk' he'
        have := h (k' + 1) (by simpa using hk') (by simpa using he')
        omega

theorem index_of_countTrue_one (v : Asg) (ls : List Lit) (h : countTrue v ls = 1) :
    ∃ x, x < ls.length ∧ ∀ (k : Nat) (hk : k < ls.length), ev v ls[k] = true → x = k := by
  induction ls with
  | nil => simp at h
  | cons l ls ih =>
    rw [countTrue_cons] at h
    by_cases hl : ev v l = true
    · rw [hl] at h
      simp only [bit_true] at h
      have h0 : countTrue v ls = 0 := by omega
      refine ⟨0, by simp, ?_⟩
      intro k hk he
      cases k with
      | zero => rfl
      | succ k =>
        have hk' : k < ls.length := by simpa using hk
        have : SatC v ls := ⟨ls[k], List.getElem_mem hk', by simpa using he⟩
        rw [SatC_iff_countTrue] at this
        omega
    · simp only [Bool.not_eq_true] at hl
      rw [hl] at h
      simp only [bit_false, Nat.zero_add] at h
      obtain ⟨x, hx, hh⟩ := ih h
      refine ⟨x + 1, by simpa using hx, ?_⟩
      intro k hk he
      cases k with
      | zero => simp [hl] at he
      | succ k => rw [hh k (by simpa using hk) (by simpa using he)]

theorem logarithmicAmo_pool (ls : List Lit) (s : Nat) (hne : ls ≠ []) (hb : LBound s ls) :
    ∃ cls s', logarithmicAmo poolAlloc ls s = .ok (cls, s') ∧ Encodes s s' cls (fun v => countTrue v ls = 1) := by
  have hlen : ls.length ≠ 0 := by simpa using hne
  let n := binLength ls.length
  have hn : ls.length ≤ 2 ^ n := Nat.le_pow_clog (by omega) _
  let locs := freshLits s n
  have hlocs : LBound (s + n) locs := LBound_freshLits s n
  obtain ⟨cls, he, hs, hbd⟩ := logarithmicLoop_iff locs 0 ls (by simpa [locs] using hn)
  refine ⟨ls :: cls, s + n, ?_, by omega, ?_, ?_, ?_⟩
  · simp only [logarithmicAmo, hlen, if_false, allocMany_pool]
    rw [show logarithmicLoop (freshLits s (binLength ls.length)) 0 ls = .ok cls from he]
  · simp only [CBound_cons]
    exact ⟨hb.mono (by omega), hbd _ (hb.mono (by omega)) hlocs⟩
  · intro v h
    simp only [Sat_cons, hs, SatC_iff_countTrue] at h
    have := countTrue_le_one_of_index v ls (value v locs) (fun k hk he => by have := h.2 k hk he; omega)
    omega
  · intro v hv
    obtain ⟨x, hx, hh⟩ := index_of_countTrue_one v ls hv
    obtain ⟨w, hw, hwx⟩ := exists_assign_value s n v x (by omega)
    refine ⟨w, hw, ?_⟩
    simp only [Sat_cons, hs, SatC_iff_countTrue, countTrue_agree hw hb]
    refine ⟨by omega, fun k hk he => ?_⟩
    have e : value w locs = x := hwx
    rw [e, Nat.zero_add]
    exact hh k hk (by rw [← ev_agree hw (hb _ (List.getElem_mem hk))]; exact he)

end FSat
