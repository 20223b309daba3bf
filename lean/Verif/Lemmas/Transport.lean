import Verif.Model.InterchangeMain
import Verif.Lemmas.Conserve
import Verif.Lemmas.GridLits
import Verif.Lemmas.Ends
import Verif.Props.Numbers
import Verif.Props.Interchange
/-!
# What `require_correct_transport_through_edges` says
-/

set_option linter.unusedSimpArgs false
set_option linter.unusedVariables false

namespace FSat

theorem Enc.weaken {s s' : Nat} {cs : Cnf} {P Q : Asg → Prop} (h : Enc s s' cs P) (e : ∀ v, P v ↔ Q v) : Enc s s' cs Q :=
  ⟨h.le, h.stable, fun v hv => (e v).1 (h.sound v hv), fun v hv => h.complete v ((e v).2 hv)⟩

theorem GenEnc.bind {α : Type} {s0 : Nat} {f : GenV α} {k : α → Gen} {P Q : Asg → Prop} (hP : Local s0 P) (hQ : Local s0 Q)
    (h : ∀ s, s0 ≤ s → ∀ a c s1, f s = .ok (a, c, s1) → Enc s s1 c P ∧
      ∃ Q' : Asg → Prop, GenEnc s1 (k a) Q' ∧ ∀ v, Sat v c → (Q' v ↔ Q v)) : GenEnc s0 (f.bind k) fun v => P v ∧ Q v := by
  refine ⟨hP.and hQ, fun s hs cs s' hf => ?_⟩
  unfold GenV.bind at hf
  split at hf
  · cases hf
  · rename_i a c s1 h1
    split at hf
    · cases hf
    · rename_i c2 s2 h2
      cases hf
      obtain ⟨he, Q', hk, hq⟩ := h s hs a c s1 h1
      have hk := hk.enc s1 le_rfl c2 _ h2
      refine ⟨le_trans he.le hk.le, fun v w ha hv => ?_, fun v hv => ?_, fun v hv => ?_⟩
      · rw [Sat_append] at hv ⊢
        exact ⟨he.stable v w (fun x hx => ha x (le_trans hx hk.le)) hv.1, hk.stable v w ha hv.2⟩
      · rw [Sat_append] at hv
        exact ⟨he.sound v hv.1, (hq v hv.1).1 (hk.sound v hv.2)⟩
      · obtain ⟨w, hw, hsw⟩ := he.complete v hv.1
        obtain ⟨u, hu, hsu⟩ := hk.complete w ((hq w hsw).2 (((hQ.mono hs) v w hw).2 hv.2))
        refine ⟨u, fun x hx => (hu x (le_trans hx he.le)).trans (hw x hx), ?_⟩
        rw [Sat_append]
        exact ⟨he.stable w u hu hsw, hsu⟩

/-! ### create_edge -/

/-- How many of the belts are there and have a colour in `f`. -/
def edgeCount (v : Asg) (f : Nat → Bool) (edge : List EdgeLits) : Int :=
  (edge.map fun e => tally (ev v e.present && f (value v e.colour))).sum

/-- How much crosses from the cells of a line into their neighbours in direction `d`. -/
def lineCrossing (g : Grid) (C : Nat × Nat → CellVal) (f : Nat → Bool) (d : Dir) (line : List (Nat × Nat)) : Int :=
  (line.map fun p => match g.nb p d with
    | some q => crossing C f d p q
    | none => 0).sum

/-- The colours under both sides of the line are the same. -/
def LineOk (g : Grid) (C : Nat × Nat → CellVal) (d : Dir) (line : List (Nat × Nat)) : Prop :=
  ∀ p ∈ line, ∀ q, g.nb p d = some q → (C p).ug d = true → (C q).ug d = true → binVal ((C p).colourU d) = binVal ((C q).colourU d)

theorem colourU_vals (g : Grid) (v : Asg) (p : Nat × Nat) (d : Dir) : (g.vals v p).colourU d = ((g.at' p).colourU d).map (ev v) := by
  unfold CellVal.colourU TileInst.colourU
  split <;> rfl

/-- What one knows about the belts that `create_edge` returns. -/
structure EdgeEnc (g : Grid) (d : Dir) (line : List (Nat × Nat)) (s : Nat) (a : List EdgeLits) (c : Cnf) (s1 : Nat) : Prop where
  enc : Enc s s1 c fun v => LineOk g (g.vals v) d line
  bound : ∀ e ∈ a, e.present.var ≤ s1 ∧ LBound s1 e.colour
  bits : ∀ e ∈ a, e.colour.length = g.bits
  len : a.length = 2 * line.length
  count : ∀ v, Sat v c → ∀ f, edgeCount v f a = lineCrossing g (g.vals v) f d line

theorem map_allocVars (v : Asg) (s n : Nat) : (allocVars s n).map (ev v) = (List.range n).map fun i => v (s + 1 + i) := by
  simp [allocVars, ev, Function.comp_def]

theorem edgeTile_enc {g : Grid} (hg : g.WF) {V : Nat} (hb : g.LitsLe V) {d : Dir} {p : Nat × Nat} (hp : g.In p) {s : Nat} (hs : V ≤ s)
    {a : List EdgeLits} {c : Cnf} {s1 : Nat} (h : edgeTile g d p s = .ok (a, c, s1)) : EdgeEnc g d [p] s a c s1 := by
  unfold edgeTile at h
  cases hq : g.nb p d with
  | none => rw [hq] at h; cases h
  | some q =>
    have hq' := g.nb_in hg hq
    have hlen : ∀ r, ((g.at' r).colourU d).length = g.bits := by
      intro r; unfold TileInst.colourU; split
      · exact hg.cx r
      · exact hg.cy r
    have hbp : ∀ r, g.In r → ((g.at' r).out d).var ≤ V ∧ ((g.at' r).ug d).var ≤ V ∧ LBound V (g.at' r).colour ∧ LBound V ((g.at' r).colourU d) := by
      intro r hr
      have := hb r hr
      refine ⟨this _ (by simp [TileInst.lits, mem_dirs]), this _ (by simp [TileInst.lits, mem_dirs]),
        fun l hl => this l (by simp [TileInst.lits, hl]), fun l hl => this l ?_⟩
      unfold TileInst.colourU at hl
      split at hl <;> simp [TileInst.lits, hl]
    rw [hq] at h
    simp only at h
    have e1 : setNumbersEqual ((g.at' p).colourU d) (allocVars (s + 1) ((g.at' p).colourU d).length) =
        .ok (equalClauses ((g.at' p).colourU d) (allocVars (s + 1) ((g.at' p).colourU d).length)) := by
      simp [setNumbersEqual, allocVars_length]
    have e2 : setNumbersEqual ((g.at' q).colourU d) (allocVars (s + 1) ((g.at' p).colourU d).length) =
        .ok (equalClauses ((g.at' q).colourU d) (allocVars (s + 1) ((g.at' p).colourU d).length)) := by
      simp [setNumbersEqual, allocVars_length, hlen]
    rw [e1, e2] at h
    simp only [joinE, concatE, impliesE, id_eq, Except.ok.injEq, Prod.mk.injEq] at h
    obtain ⟨rfl, rfl, rfl⟩ := h
    have sem : ∀ v, Sat v (implies [⟨s + 1, true⟩] [[(g.at' p).ug d, (g.at' q).ug d]] ++
        (implies [-⟨s + 1, true⟩] (setAllFalse [(g.at' p).ug d, (g.at' q).ug d]) ++
          (implies [(g.at' p).ug d] (equalClauses ((g.at' p).colourU d) (allocVars (s + 1) ((g.at' p).colourU d).length)) ++
            (implies [(g.at' q).ug d] (equalClauses ((g.at' q).colourU d) (allocVars (s + 1) ((g.at' p).colourU d).length)) ++ [])))) ↔
        v (s + 1) = (ev v ((g.at' p).ug d) || ev v ((g.at' q).ug d)) ∧
        (ev v ((g.at' p).ug d) = true → value v ((g.at' p).colourU d) = value v (allocVars (s + 1) ((g.at' p).colourU d).length)) ∧
        (ev v ((g.at' q).ug d) = true → value v ((g.at' q).colourU d) = value v (allocVars (s + 1) ((g.at' p).colourU d).length)) := by
      intro v
      rw [Sat_append, Sat_append, Sat_append, Sat_append, Sat_implies, Sat_implies, Sat_implies, Sat_implies,
        Sat_equalClauses_value v _ _ (by rw [allocVars_length]), Sat_equalClauses_value v _ _ (by rw [allocVars_length, hlen, hlen])]
      simp only [List.mem_singleton, forall_eq, Sat_cons, Sat_nil, SatC_cons, SatC_nil, or_false, and_true, Sat_setAllFalse,
        List.mem_cons, List.not_mem_nil, forall_eq_or_imp, ev_neg, ← and_assoc]
      refine and_congr (and_congr ?_ Iff.rfl) Iff.rfl
      have : ev v ⟨s + 1, true⟩ = v (s + 1) := by simp [ev]
      rw [this]
      cases v (s + 1) <;> cases ev v ((g.at' p).ug d) <;> cases ev v ((g.at' q).ug d) <;> simp
    have loc : ∀ v w, Agree s v w → (∀ r, g.In r → ev w ((g.at' r).ug d) = ev v ((g.at' r).ug d) ∧
        value w ((g.at' r).colourU d) = value v ((g.at' r).colourU d)) := by
      intro v w ha r hr
      obtain ⟨_, h2, _, h4⟩ := hbp r hr
      refine ⟨ev_agree' ha (le_trans h2 hs), ?_⟩
      unfold value
      rw [map_ev_agree ha (h4.mono hs)]
    refine ⟨⟨by omega, ?_, ?_, ?_⟩, ?_, ?_, rfl, ?_⟩
    · intro v w ha hv
      rw [sem] at hv ⊢
      have l := loc v w (fun x hx => ha x (by omega))
      have hu : value w (allocVars (s + 1) ((g.at' p).colourU d).length) = value v (allocVars (s + 1) ((g.at' p).colourU d).length) := by
        unfold value
        rw [map_ev_agree ha (allocVars_bound _ _)]
      rw [ha (s + 1) (by omega), (l p hp).1, (l p hp).2, (l q hq').1, (l q hq').2, hu]
      exact hv
    · intro v hv p' hp' q' hq'' h1 h2
      rw [List.mem_singleton] at hp'
      subst hp'
      rw [hq] at hq''
      cases hq''
      rw [sem] at hv
      rw [colourU_vals, colourU_vals]
      exact (hv.2.1 h1).trans (hv.2.2 h2).symm
    · intro v hv
      have hl := hv p (by simp) q hq
      rw [colourU_vals, colourU_vals] at hl
      let bs := if ev v ((g.at' p).ug d) then ((g.at' p).colourU d).map (ev v) else ((g.at' q).colourU d).map (ev v)
      have hbs : bs.length = ((g.at' p).colourU d).length := by
        show (if _ then _ else _ : List Bool).length = _
        split
        · simp
        · simp [hlen]
      let w : Asg := fun x => if x ≤ s then v x else if x = s + 1 then ev v ((g.at' p).ug d) || ev v ((g.at' q).ug d)
        else bs.getD (x - (s + 2)) false
      have ha : Agree s v w := fun x hx => if_pos hx
      refine ⟨w, ha, ?_⟩
      rw [sem]
      have l := loc v w ha
      have hw1 : w (s + 1) = (ev v ((g.at' p).ug d) || ev v ((g.at' q).ug d)) := by
        show (if _ then _ else _) = _
        rw [if_neg (by omega), if_pos rfl]
      have hw2 : (allocVars (s + 1) ((g.at' p).colourU d).length).map (ev w) = bs := by
        rw [map_allocVars, ← hbs]
        apply List.ext_getElem
        · simp
        · intro i h1 h2
          simp only [List.getElem_map, List.getElem_range]
          show (if _ then _ else _) = _
          rw [if_neg (by omega), if_neg (by omega), show s + 1 + 1 + i - (s + 2) = i by omega,
            List.getD_eq_getElem?_getD, List.getElem?_eq_getElem h2, Option.getD_some]
      have hw3 : value w (allocVars (s + 1) ((g.at' p).colourU d).length) = binVal bs := by unfold value; rw [hw2]
      rw [hw1, (l p hp).1, (l p hp).2, (l q hq').1, (l q hq').2, hw3]
      refine ⟨rfl, fun h1 => ?_, fun h1 => ?_⟩
      · show _ = binVal (if _ then _ else _)
        rw [if_pos h1]; rfl
      · show _ = binVal (if _ then _ else _)
        split
        · rename_i h2; exact (hl h2 h1).symm
        · rfl
    · intro e he
      simp only [List.mem_cons, List.not_mem_nil, or_false] at he
      rcases he with rfl | rfl
      · exact ⟨by have := (hbp p hp).1; simp only; omega, (hbp q hq').2.2.1.mono (by omega)⟩
      · exact ⟨by simp only; omega, allocVars_bound _ _⟩
    · intro e he
      simp only [List.mem_cons, List.not_mem_nil, or_false] at he
      rcases he with rfl | rfl
      · exact hg.c q
      · simp only [allocVars_length]; exact hlen p
    · intro v hv f
      rw [sem] at hv
      simp only [edgeCount, lineCrossing, List.map_cons, List.map_nil, List.sum_cons, List.sum_nil, add_zero, hq, crossing]
      have e3 : ev v ⟨s + 1, true⟩ = v (s + 1) := by simp [ev]
      rw [e3, hv.1, colourU_vals, colourU_vals]
      congr 1
      have hp1 : (g.vals v p).ug d = ev v ((g.at' p).ug d) := rfl
      have hq1 : (g.vals v q).ug d = ev v ((g.at' q).ug d) := rfl
      rw [hp1, hq1]
      cases h1 : ev v ((g.at' p).ug d) with
      | true => rw [if_pos rfl]; simp only [Bool.true_or, Bool.true_and]; rw [← hv.2.1 h1]; rfl
      | false =>
        rw [if_neg (by simp)]
        cases h2 : ev v ((g.at' q).ug d) with
        | true => simp only [Bool.or_true, Bool.true_and]; rw [← hv.2.2 h2]; rfl
        | false => rfl

theorem edgeTiles_enc {g : Grid} (hg : g.WF) {V : Nat} (hb : g.LitsLe V) {d : Dir} {line : List (Nat × Nat)} (hp : ∀ p ∈ line, g.In p) {s : Nat}
    (hs : V ≤ s) {a : List EdgeLits} {c : Cnf} {s1 : Nat} (h : edgeTiles g d line s = .ok (a, c, s1)) : EdgeEnc g d line s a c s1 := by
  induction line generalizing s a c s1 with
  | nil =>
    cases h
    exact ⟨⟨le_rfl, fun _ _ _ _ => by simp, fun _ _ _ h => by simp at h, fun v _ => ⟨v, fun _ _ => rfl, by simp⟩⟩, by simp, by simp, rfl,
      fun _ _ _ => rfl⟩
  | cons p ps ih =>
    unfold edgeTiles at h
    split at h
    · cases h
    · rename_i a1 c1 t1 h1
      split at h
      · cases h
      · rename_i as cs t2 h2
        cases h
        have k1 := edgeTile_enc hg hb (hp p (by simp)) hs h1
        have k2 := ih (fun q hq => hp q (by simp [hq])) (le_trans hs k1.enc.le) h2
        have hloc : Local s fun v => LineOk g (g.vals v) d ps := by
          intro v w ha
          refine forall_congr' fun r => forall_congr' fun hr => forall_congr' fun q => forall_congr' fun hq => ?_
          have := g.vals_agree (fun p hp => (hb p hp).mono hs) ha (hp r (by simp [hr]))
          have h' := g.vals_agree (fun p hp => (hb p hp).mono hs) ha (g.nb_in hg hq)
          rw [this, h']
        refine ⟨(k1.enc.append k2.enc hloc).weaken fun v => ?_, fun e he => ?_, fun e he => ?_, ?_, fun v hv f => ?_⟩
        · exact ⟨fun h r hr => (List.mem_cons.1 hr).elim (fun e => h.1 r (by simp [e])) (fun e => h.2 r e),
            fun h => ⟨fun r hr => h r (by simp_all), fun r hr => h r (by simp [hr])⟩⟩
        · rcases List.mem_append.1 he with he | he
          · exact ⟨le_trans (k1.bound e he).1 k2.enc.le, (k1.bound e he).2.mono k2.enc.le⟩
          · exact k2.bound e he
        · rcases List.mem_append.1 he with he | he
          · exact k1.bits e he
          · exact k2.bits e he
        · rw [List.length_append, k1.len, k2.len]; simp; omega
        · rw [Sat_append] at hv
          have e1 := k1.count v hv.1 f
          have e2 := k2.count v hv.2 f
          unfold edgeCount lineCrossing at e1 e2 ⊢
          rw [List.map_append, List.sum_append, e1, e2]
          simp

/-! ### The flow of a colour -/

/-- What one knows about the literals of lines 140-143. -/
structure FlowEnc (c : Nat) (edge : List EdgeLits) (s : Nat) (flow : List Lit) (cs : Cnf) (s1 : Nat) : Prop where
  enc : Enc s s1 cs fun _ => True
  bound : LBound s1 flow
  len : flow.length = edge.length
  count : ∀ v, Sat v cs → (countTrue v flow : Int) = edgeCount v (· == c) edge

theorem flowClause_sem {c : Nat} {ls : List Lit} (hc : c < 2 ^ ls.length) {l pr : Lit} {c1 : Cnf} {c2 : Clause}
    (h1 : setNumber c ls = .ok c1) (h2 : setNotNumber c ls = .ok c2) (v : Asg) :
    Sat v (implies [l] ([[pr]] ++ c1) ++ implies [-l] [-pr :: c2]) ↔ ev v l = (ev v pr && (value v ls == c)) := by
  obtain ⟨cls, h3, h4⟩ := (c06_set_number c ls).1 hc
  rw [h1] at h3; cases h3
  rw [setNotNumber_eq, if_pos (by exact_mod_cast hc)] at h2
  cases h2
  rw [Sat_append, Sat_implies, Sat_implies, Sat_append, h4]
  simp only [List.mem_singleton, forall_eq, Sat_cons, Sat_nil, SatC_cons, SatC_nil, or_false, and_true, SatC_notNumberClause v c ls hc, ev_neg]
  have : (value v ls == c) = decide (value v ls = c) := rfl
  rw [this]
  by_cases h : value v ls = c <;> cases ev v l <;> cases ev v pr <;> simp [h]

theorem edgeFlow_enc {c : Nat} {edge : List EdgeLits} {s : Nat} (hb : ∀ e ∈ edge, e.present.var ≤ s ∧ LBound s e.colour)
    (hc : ∀ e ∈ edge, c < 2 ^ e.colour.length) {flow : List Lit} {cs : Cnf} {s1 : Nat} (h : edgeFlow c edge s = .ok (flow, cs, s1)) :
    FlowEnc c edge s flow cs s1 := by
  unfold edgeFlow at h
  simp only at h
  split at h
  · cases h
  · rename_i c0 hcs
    cases h
    have sem : ∀ v, Sat v cs ↔ ∀ e ∈ edge.zip (allocVars s edge.length), ev v e.2 = (ev v e.1.present && (value v e.1.colour == c)) := by
      obtain ⟨cc, h1, h2⟩ := concatE_iff (fun e : EdgeLits × Lit =>
        match setNumber (c : Nat) e.1.colour, setNotNumber (c : Nat) e.1.colour with
        | .ok c1, .ok c2 => .ok (implies [e.2] ([[e.1.present]] ++ c1) ++ implies [-e.2] [-e.1.present :: c2])
        | .error e, _ => .error e
        | _, .error e => .error e) (fun v e => ev v e.2 = (ev v e.1.present && (value v e.1.colour == c)))
        (edge.zip (allocVars s edge.length)) (by
          intro e he
          have hm := hc e.1 (List.of_mem_zip he).1
          obtain ⟨c1, h3, h4⟩ := (c06_set_number c e.1.colour).1 hm
          have h5 := setNotNumber_eq (c : Nat) e.1.colour
          rw [if_pos (by exact_mod_cast hm)] at h5
          exact ⟨_, by simp only [h3, h5], fun v => flowClause_sem hm h3 h5 v⟩)
      have : cs = cc := Except.ok.inj (hcs.symm.trans h1)
      rw [← this] at h2
      exact h2
    have lookup : ∀ (v w : Asg), Agree s v w → ∀ e ∈ edge, (ev w e.present && (value w e.colour == c)) = (ev v e.present && (value v e.colour == c)) := by
      intro v w ha e he
      rw [ev_agree' ha (hb e he).1]
      unfold value
      rw [map_ev_agree ha (hb e he).2]
    refine ⟨⟨by omega, fun v w ha hv => ?_, fun _ _ => trivial, fun v _ => ?_⟩, allocVars_bound _ _, allocVars_length _ _, fun v hv => ?_⟩
    · rw [sem] at hv ⊢
      intro e he
      rw [lookup v w (fun x hx => ha x (by omega)) e.1 (List.of_mem_zip he).1,
        ev_agree' ha (allocVars_bound _ _ _ (List.of_mem_zip he).2)]
      exact hv e he
    · let w : Asg := fun x => if x ≤ s then v x else
        (edge.map fun e => (ev v e.present && (value v e.colour == c))).getD (x - (s + 1)) false
      have ha : Agree s v w := fun x hx => if_pos hx
      refine ⟨w, ha, ?_⟩
      rw [sem]
      intro e he
      rw [lookup v w ha e.1 (List.of_mem_zip he).1]
      obtain ⟨i, hi, rfl⟩ := List.mem_iff_getElem.1 he
      rw [List.getElem_zip]
      rw [List.length_zip, allocVars_length, Nat.min_self] at hi
      simp only [allocVars, List.getElem_map, List.getElem_range]
      have hx : ∀ n, ev w ⟨n, true⟩ = w n := fun n => by simp [ev]
      rw [hx]
      show (if s + 1 + i ≤ s then _ else _) = _
      rw [if_neg (by omega), show s + 1 + i - (s + 1) = i by omega, List.getD_eq_getElem?_getD, List.getElem?_map,
        List.getElem?_eq_getElem hi, Option.map_some, Option.getD_some]
    · rw [sem] at hv
      have hz : (allocVars s edge.length).map (ev v) = edge.map fun e => (ev v e.present && (value v e.colour == c)) := by
        apply List.ext_getElem
        · simp [allocVars_length]
        · intro i h1 h2
          have hi : i < edge.length := by simpa using h2
          have hm : (edge[i], (allocVars s edge.length)[i]'(by rw [allocVars_length]; exact hi)) ∈ edge.zip (allocVars s edge.length) := by
            rw [List.mem_iff_getElem]
            exact ⟨i, by rw [List.length_zip, allocVars_length, Nat.min_self]; exact hi, by rw [List.getElem_zip]⟩
          have := hv _ hm
          simp only [List.getElem_map]
          exact this
      have hcount : ∀ l : List Bool, ((l.count true : Nat) : Int) = (l.map tally).sum := by
        intro l
        induction l with
        | nil => rfl
        | cons b l ih =>
          rw [List.map_cons, List.sum_cons, ← ih]
          cases b <;> simp [tally]
          omega
      have : (countTrue v (allocVars s edge.length) : Int) = (((allocVars s edge.length).map (ev v)).map tally).sum := hcount _
      rw [this, hz, List.map_map]
      rfl

/-! ### The cuts -/

theorem edgeCount_agree {s : Nat} {a : List EdgeLits} (hb : ∀ e ∈ a, e.present.var ≤ s ∧ LBound s e.colour) {v w : Asg} (ha : Agree s v w)
    (f : Nat → Bool) : edgeCount w f a = edgeCount v f a := by
  unfold edgeCount
  congr 1
  refine List.map_congr_left fun e he => ?_
  rw [ev_agree' ha (hb e he).1]
  unfold value
  rw [map_ev_agree ha (hb e he).2]

theorem countTrue_invert (v : Asg) (a : List Lit) : (countTrue v (invertComponents a) : Int) = a.length - countTrue v a := by
  induction a with
  | nil => rfl
  | cons l a ih =>
    have e : invertComponents (l :: a) = [-l] ++ invertComponents a := rfl
    have e' : l :: a = [l] ++ a := rfl
    rw [e, countTrue_append, e', countTrue_append, List.length_append]
    push_cast
    rw [ih]
    have : (countTrue v [-l] : Int) = 1 - countTrue v [l] := by
      simp only [countTrue, List.map_cons, List.map_nil, ev_neg]
      cases ev v l <;> rfl
    rw [this]
    simp only [List.length_cons, List.length_nil]
    push_cast
    omega

theorem LBound.invert {s : Nat} {a : List Lit} (h : LBound s a) : LBound s (invertComponents a) := by
  intro l hl
  have := h (-l) ((mem_invertComponents a l).1 hl)
  exact this

theorem LBound.app {s : Nat} {a b : List Lit} (h : LBound s a) (h' : LBound s b) : LBound s (a ++ b) := by
  intro l hl
  rcases List.mem_append.1 hl with hl | hl
  · exact h l hl
  · exact h' l hl

theorem edgeCount_present (v : Asg) (a : List EdgeLits) : (countTrue v (a.map (·.present)) : Int) = edgeCount v (fun _ => true) a := by
  induction a with
  | nil => rfl
  | cons e a ih =>
    have h1 : (e :: a).map (·.present) = [e.present] ++ a.map (·.present) := rfl
    rw [h1, countTrue_append]
    push_cast
    rw [ih]
    simp only [edgeCount, List.map_cons, List.sum_cons, Bool.and_true]
    congr 1
    simp only [countTrue, List.map_cons, List.map_nil]
    cases ev v e.present <;> rfl

section cuts
variable {g : Grid} {V : Nat}

theorem LineOk.loc (hg : g.WF) (hb : g.LitsLe V) {d : Dir} {line : List (Nat × Nat)} (hp : ∀ p ∈ line, g.In p) {s : Nat} (hs : V ≤ s) :
    Local s fun v => LineOk g (g.vals v) d line := by
  intro v w ha
  refine forall_congr' fun r => forall_congr' fun hr => forall_congr' fun q => forall_congr' fun hq => ?_
  have := g.vals_agree (fun p hp => (hb p hp).mono hs) ha (hp r hr)
  have h' := g.vals_agree (fun p hp => (hb p hp).mono hs) ha (g.nb_in hg hq)
  rw [this, h']

theorem lineCrossing_agree (hg : g.WF) (hb : g.LitsLe V) {d : Dir} {line : List (Nat × Nat)} (hp : ∀ p ∈ line, g.In p) {s : Nat} (hs : V ≤ s)
    {v w : Asg} (ha : Agree s v w) (f : Nat → Bool) : lineCrossing g (g.vals w) f d line = lineCrossing g (g.vals v) f d line := by
  unfold lineCrossing
  congr 1
  refine List.map_congr_left fun r hr => ?_
  cases hq : g.nb r d with
  | none => rfl
  | some q =>
    have := g.vals_agree (fun p hp => (hb p hp).mono hs) ha (hp r hr)
    have h' := g.vals_agree (fun p hp => (hb p hp).mono hs) ha (g.nb_in hg hq)
    simp only [crossing, this, h']

/-- What the clauses of one horizontal cut say. -/
def RowCutSem (g : Grid) (C : Nat × Nat → CellVal) (y : Nat) (count : Int) : Prop :=
  LineOk g C .up (edgeLine g .up (y + 1)) ∧ LineOk g C .down (edgeLine g .down y) ∧
  count ≤ lineCrossing g C (· == 1) .up (edgeLine g .up (y + 1)) - lineCrossing g C (· == 1) .down (edgeLine g .down y) ∧
  lineCrossing g C (· == 0) .down (edgeLine g .down y) - lineCrossing g C (· == 0) .up (edgeLine g .up (y + 1)) = count

/-- What the clauses of one vertical cut say. -/
def ColumnCutSem (g : Grid) (C : Nat × Nat → CellVal) (x : Nat) : Prop :=
  LineOk g C .right (edgeLine g .right x) ∧ LineOk g C .left (edgeLine g .left (x + 1)) ∧
  lineCrossing g C (fun _ => true) .right (edgeLine g .right x) - lineCrossing g C (fun _ => true) .left (edgeLine g .left (x + 1)) = g.height

theorem rowCut_enc {lib : CardLib} (hl : lib.Correct) (hg : g.WF) (hb : g.LitsLe V) (hbits : 1 < 2 ^ g.bits) {y : Nat} (hy : y + 1 < g.height)
    (count : Int) : GenEnc V (rowCut lib g y count) fun v => RowCutSem g (g.vals v) y count := by
  have hup : ∀ p ∈ edgeLine g .up (y + 1), g.In p := by
    intro p hp
    obtain ⟨x, hx, rfl⟩ := List.mem_map.1 hp
    replace hx := List.mem_range.1 hx
    exact ⟨hx, hy⟩
  have hdn : ∀ p ∈ edgeLine g .down y, g.In p := by
    intro p hp
    obtain ⟨x, hx, rfl⟩ := List.mem_map.1 hp
    replace hx := List.mem_range.1 hx
    exact ⟨hx, Nat.lt_of_succ_lt hy⟩
  refine (GenEnc.bind (P := fun v => LineOk g (g.vals v) .up (edgeLine g .up (y + 1)))
    (Q := fun v => LineOk g (g.vals v) .down (edgeLine g .down y) ∧
      count ≤ lineCrossing g (g.vals v) (· == 1) .up (edgeLine g .up (y + 1)) - lineCrossing g (g.vals v) (· == 1) .down (edgeLine g .down y) ∧
      lineCrossing g (g.vals v) (· == 0) .down (edgeLine g .down y) - lineCrossing g (g.vals v) (· == 0) .up (edgeLine g .up (y + 1)) = count)
    (LineOk.loc hg hb hup le_rfl) ?_ ?_)
  · refine (LineOk.loc hg hb hdn le_rfl).and fun v w ha => ?_
    simp only [lineCrossing_agree hg hb hup le_rfl ha, lineCrossing_agree hg hb hdn le_rfl ha]
  · intro s hs up c s1 h1
    have k1 := edgeTiles_enc hg hb hup hs h1
    refine ⟨k1.enc, fun v => LineOk g (g.vals v) .down (edgeLine g .down y) ∧
      (count ≤ edgeCount v (· == 1) up - lineCrossing g (g.vals v) (· == 1) .down (edgeLine g .down y) ∧
      lineCrossing g (g.vals v) (· == 0) .down (edgeLine g .down y) - edgeCount v (· == 0) up = count), ?_, fun v hv => by
        simp only [k1.count v hv]⟩
    have hs1 : V ≤ s1 := le_trans hs k1.enc.le
    refine GenEnc.bind (LineOk.loc hg hb hdn hs1) (fun v w ha => by
      simp only [lineCrossing_agree hg hb hdn hs1 ha, edgeCount_agree k1.bound ha]) ?_
    intro t ht down c2 s2 h2
    have k2 := edgeTiles_enc hg hb hdn (le_trans hs1 ht) h2
    have hb1 : ∀ e ∈ up, e.present.var ≤ s2 ∧ LBound s2 e.colour := fun e he =>
      ⟨le_trans (k1.bound e he).1 (le_trans ht k2.enc.le), (k1.bound e he).2.mono (le_trans ht k2.enc.le)⟩
    refine ⟨k2.enc, fun v => True ∧ (count ≤ edgeCount v (· == 1) up - edgeCount v (· == 1) down ∧
      edgeCount v (· == 0) down - edgeCount v (· == 0) up = count), ?_, fun v hv => by simp only [k2.count v hv, true_and]⟩
    refine GenEnc.bind (fun _ _ _ => Iff.rfl) (fun v w ha => by simp only [edgeCount_agree hb1 ha, edgeCount_agree k2.bound ha]) ?_
    intro t3 ht3 upFlow c3 s3 h3
    have k3 := edgeFlow_enc (s := t3) (fun e he => ⟨le_trans (hb1 e he).1 ht3, (hb1 e he).2.mono ht3⟩)
      (fun e he => by rw [k1.bits e he]; exact hbits) h3
    have hb3 : ∀ e ∈ up, e.present.var ≤ s3 ∧ LBound s3 e.colour := fun e he =>
      ⟨le_trans (hb1 e he).1 (le_trans ht3 k3.enc.le), (hb1 e he).2.mono (le_trans ht3 k3.enc.le)⟩
    have hb3' : ∀ e ∈ down, e.present.var ≤ s3 ∧ LBound s3 e.colour := fun e he =>
      ⟨le_trans (k2.bound e he).1 (le_trans ht3 k3.enc.le), (k2.bound e he).2.mono (le_trans ht3 k3.enc.le)⟩
    refine ⟨k3.enc, fun v => True ∧ (count ≤ (countTrue v upFlow : Int) - edgeCount v (· == 1) down ∧
      edgeCount v (· == 0) down - edgeCount v (· == 0) up = count), ?_, fun v hv => by simp only [k3.count v hv, true_and]⟩
    refine GenEnc.bind (fun _ _ _ => Iff.rfl) (fun v w ha => by
      simp only [edgeCount_agree hb3 ha, edgeCount_agree hb3' ha, countTrue, map_ev_agree ha k3.bound]) ?_
    intro t4 ht4 upInv c4 s4 h4
    have k4 := edgeFlow_enc (s := t4) (fun e he => ⟨le_trans (hb3' e he).1 ht4, (hb3' e he).2.mono ht4⟩)
      (fun e he => by rw [k2.bits e he]; exact hbits) h4
    have h34 : s3 ≤ s4 := le_trans ht4 k4.enc.le
    have hb4 : ∀ e ∈ up, e.present.var ≤ s4 ∧ LBound s4 e.colour := fun e he =>
      ⟨le_trans (hb3 e he).1 h34, (hb3 e he).2.mono h34⟩
    have hb4' : ∀ e ∈ down, e.present.var ≤ s4 ∧ LBound s4 e.colour := fun e he =>
      ⟨le_trans (hb3' e he).1 h34, (hb3' e he).2.mono h34⟩
    refine ⟨k4.enc, fun v => (count + upInv.length ≤ (countTrue v (upFlow ++ invertComponents upInv) : Int)) ∧
      (True ∧ edgeCount v (· == 0) down - edgeCount v (· == 0) up = count) ∧ True, ?_, fun v hv => ?_⟩
    · refine GenEnc.cons (GenEnc.atleast hl ((k3.bound.mono h34).app k4.bound.invert) _) (GenEnc.cons ?_ (GenEnc.nil _))
      refine GenEnc.bind (fun _ _ _ => Iff.rfl) (fun v w ha => by simp only [edgeCount_agree hb4 ha, edgeCount_agree hb4' ha]) ?_
      intro t5 ht5 downFlow c5 s5 h5
      have k5 := edgeFlow_enc (s := t5) (fun e he => ⟨le_trans (hb4' e he).1 ht5, (hb4' e he).2.mono ht5⟩)
        (fun e he => by rw [k2.bits e he]; exact lt_trans Nat.zero_lt_one hbits) h5
      have h45 : s4 ≤ s5 := le_trans ht5 k5.enc.le
      have hb5 : ∀ e ∈ up, e.present.var ≤ s5 ∧ LBound s5 e.colour := fun e he =>
        ⟨le_trans (hb4 e he).1 h45, (hb4 e he).2.mono h45⟩
      refine ⟨k5.enc, fun v => True ∧ (countTrue v downFlow : Int) - edgeCount v (· == 0) up = count, ?_, fun v hv => by
        simp only [k5.count v hv, true_and]⟩
      refine GenEnc.bind (fun _ _ _ => Iff.rfl) (fun v w ha => by
        simp only [edgeCount_agree hb5 ha, countTrue, map_ev_agree ha k5.bound]) ?_
      intro t6 ht6 downInv c6 s6 h6
      have k6 := edgeFlow_enc (s := t6) (fun e he => ⟨le_trans (hb5 e he).1 ht6, (hb5 e he).2.mono ht6⟩)
        (fun e he => by rw [k1.bits e he]; exact lt_trans Nat.zero_lt_one hbits) h6
      refine ⟨k6.enc, _, GenEnc.equals hl ((k5.bound.mono (le_trans ht6 k6.enc.le)).app k6.bound.invert) _, fun v hv => ?_⟩
      rw [countTrue_append]
      push_cast
      rw [countTrue_invert, k6.count v hv]
      omega
    · simp only [countTrue_append]
      push_cast
      rw [countTrue_invert, k4.count v hv]
      simp only [true_and, and_true]
      exact and_congr (by omega) Iff.rfl

theorem columnCut_enc {lib : CardLib} (hl : lib.Correct) (hg : g.WF) (hb : g.LitsLe V) {x : Nat} (hx : x + 1 < g.width) :
    GenEnc V (columnCut lib g x) fun v => ColumnCutSem g (g.vals v) x := by
  have hup : ∀ p ∈ edgeLine g .right x, g.In p := by
    intro p hp
    obtain ⟨y, hy, rfl⟩ := List.mem_map.1 hp
    replace hy := List.mem_range.1 hy
    exact ⟨Nat.lt_of_succ_lt hx, hy⟩
  have hdn : ∀ p ∈ edgeLine g .left (x + 1), g.In p := by
    intro p hp
    obtain ⟨y, hy, rfl⟩ := List.mem_map.1 hp
    replace hy := List.mem_range.1 hy
    exact ⟨hx, hy⟩
  refine (GenEnc.bind (P := fun v => LineOk g (g.vals v) .right (edgeLine g .right x))
    (Q := fun v => LineOk g (g.vals v) .left (edgeLine g .left (x + 1)) ∧
      lineCrossing g (g.vals v) (fun _ => true) .right (edgeLine g .right x) -
        lineCrossing g (g.vals v) (fun _ => true) .left (edgeLine g .left (x + 1)) = g.height)
    (LineOk.loc hg hb hup le_rfl) ?_ ?_)
  · refine (LineOk.loc hg hb hdn le_rfl).and fun v w ha => ?_
    simp only [lineCrossing_agree hg hb hup le_rfl ha, lineCrossing_agree hg hb hdn le_rfl ha]
  · intro s hs fwd c s1 h1
    have k1 := edgeTiles_enc hg hb hup hs h1
    refine ⟨k1.enc, fun v => LineOk g (g.vals v) .left (edgeLine g .left (x + 1)) ∧
      (edgeCount v (fun _ => true) fwd - lineCrossing g (g.vals v) (fun _ => true) .left (edgeLine g .left (x + 1)) = g.height), ?_, fun v hv => by
        simp only [k1.count v hv]⟩
    have hs1 : V ≤ s1 := le_trans hs k1.enc.le
    refine GenEnc.bind (LineOk.loc hg hb hdn hs1) (fun v w ha => by
      simp only [lineCrossing_agree hg hb hdn hs1 ha, edgeCount_agree k1.bound ha]) ?_
    intro t ht bwd c2 s2 h2
    have k2 := edgeTiles_enc hg hb hdn (le_trans hs1 ht) h2
    have hf : LBound s2 (fwd.map (·.present)) := by
      intro l hl
      obtain ⟨e, he, rfl⟩ := List.mem_map.1 hl
      exact le_trans (k1.bound e he).1 (le_trans ht k2.enc.le)
    have hw : LBound s2 (bwd.map (·.present)) := by
      intro l hl
      obtain ⟨e, he, rfl⟩ := List.mem_map.1 hl
      exact (k2.bound e he).1
    refine ⟨k2.enc, _, GenEnc.equals hl (hf.app hw.invert) _, fun v hv => ?_⟩
    rw [countTrue_append]
    push_cast
    rw [countTrue_invert, edgeCount_present, edgeCount_present, k2.count v hv, List.length_map]
    omega

/-- What all clauses of `require_correct_transport_through_edges` say. -/
def CutsSem (g : Grid) (C : Nat × Nat → CellVal) : Prop :=
  (∀ e ∈ flowCuts g.height, RowCutSem g C e.1 e.2) ∧ ∀ x ∈ List.range (g.width - 1), ColumnCutSem g C x

theorem requireTransport_enc {lib : CardLib} (hl : lib.Correct) (hg : g.WF) (hb : g.LitsLe V) (hbits : 1 < 2 ^ g.bits) {n : Nat}
    (hn : g.height = 2 * n) : GenEnc V (requireTransport lib g) fun v => CutsSem g (g.vals v) := by
  refine (GenEnc.cons (GenEnc.map _ fun e he => ?_) (GenEnc.cons (GenEnc.map (List.range (g.width - 1)) fun x hx => ?_) (GenEnc.nil V))).congr
    (P := fun v => (∀ e ∈ flowCuts g.height, RowCutSem g (g.vals v) e.1 e.2) ∧ (∀ x ∈ List.range (g.width - 1), ColumnCutSem g (g.vals v) x) ∧ True)
    fun v => by simp only [and_true, CutsSem]
  · refine rowCut_enc hl hg hb hbits ?_ e.2
    obtain ⟨h1, h2⟩ := c32_cuts n
    rw [hn] at he
    obtain ⟨i, hi, rfl⟩ := List.mem_iff_getElem.1 he
    rw [h1] at hi
    obtain ⟨c, h3, _⟩ := h2 i hi
    rw [List.getElem?_eq_getElem (by omega)] at h3
    rw [Option.some.inj h3, hn]
    simp only
    omega
  · exact columnCut_enc hl hg hb (by have := List.mem_range.1 hx; omega)

/-! ### They follow from the other clauses -/

theorem lineOk_of {C : Nat × Nat → CellVal} (h : ColourSem g C) (d : Dir) {line : List (Nat × Nat)} (hp : ∀ p ∈ line, g.In p) :
    LineOk g C d line := fun p hpm q hq h1 _ => h.under d p q (hp p hpm) hq h1

theorem sum_range_map (n : Nat) (f : Nat → Int) : ((List.range n).map f).sum = ∑ x ∈ Finset.range n, f x := by
  induction n with
  | zero => rfl
  | succ n ih => rw [List.range_succ, List.map_append, List.sum_append, ih, Finset.sum_range_succ]; simp

variable {C : Nat × Nat → CellVal} {T : Nat × Nat → Tile} {f : Nat → Bool}

theorem downward_cut (h : FlowSem g C T) (he : Flat g) {y : Nat} (hy : y + 1 < g.height) :
    lineCrossing g C f .down (edgeLine g .down y) - lineCrossing g C f .up (edgeLine g .up (y + 1)) =
      ∑ x ∈ Finset.range g.width, downward C f x (y + 1) := by
  have e1 : lineCrossing g C f .down (edgeLine g .down y) = ∑ x ∈ Finset.range g.width, crossing C f .down (x, y) (x, y + 1) := by
    rw [← sum_range_map]
    unfold lineCrossing
    show (List.map _ (List.map _ _)).sum = _
    rw [List.map_map]
    congr 1
    refine List.map_congr_left fun x hx => ?_
    simp only [Function.comp, he.down h.wf (List.mem_range.1 hx) hy]
  have e2 : lineCrossing g C f .up (edgeLine g .up (y + 1)) = ∑ x ∈ Finset.range g.width, crossing C f .up (x, y + 1) (x, y) := by
    rw [← sum_range_map]
    unfold lineCrossing
    show (List.map _ (List.map _ _)).sum = _
    rw [List.map_map]
    congr 1
    refine List.map_congr_left fun x hx => ?_
    simp only [Function.comp, he.up h.wf (List.mem_range.1 hx) hy]
  rw [e1, e2, ← Finset.sum_sub_distrib]
  exact Finset.sum_congr rfl fun x hx => (h.downward he (Finset.mem_range.1 hx) hy).1.symm

theorem rightward_cut (h : FlowSem g C T) (he : Flat g) {x : Nat} (hx : x + 1 < g.width) :
    lineCrossing g C f .right (edgeLine g .right x) - lineCrossing g C f .left (edgeLine g .left (x + 1)) =
      ∑ y ∈ Finset.range g.height, rightward C f (x + 1) y := by
  have e1 : lineCrossing g C f .right (edgeLine g .right x) = ∑ y ∈ Finset.range g.height, crossing C f .right (x, y) (x + 1, y) := by
    rw [← sum_range_map]
    unfold lineCrossing
    show (List.map _ (List.map _ _)).sum = _
    rw [List.map_map]
    congr 1
    refine List.map_congr_left fun y hy => ?_
    simp only [Function.comp, he.right h.wf hx (List.mem_range.1 hy)]
  have e2 : lineCrossing g C f .left (edgeLine g .left (x + 1)) = ∑ y ∈ Finset.range g.height, crossing C f .left (x + 1, y) (x, y) := by
    rw [← sum_range_map]
    unfold lineCrossing
    show (List.map _ (List.map _ _)).sum = _
    rw [List.map_map]
    congr 1
    refine List.map_congr_left fun y hy => ?_
    simp only [Function.comp, he.left h.wf hx (List.mem_range.1 hy)]
  rw [e1, e2, ← Finset.sum_sub_distrib]
  exact Finset.sum_congr rfl fun y hy => (h.rightward he hx (Finset.mem_range.1 hy)).1.symm

theorem rowsWith_sum (k : Nat) (f : Nat → Bool) : ∑ y ∈ Finset.range k, tally (f y) = (rowsWith k f : Int) := by
  induction k with
  | zero => rfl
  | succ k ih =>
    rw [Finset.sum_range_succ, ih, rowsWith_succ]
    cases f k <;> simp [tally]

theorem cuts_of (h : FlowSem g C T) (he : Flat g) (hE : Enclosed g C)
    (hin : ∀ y < g.height, (C (0, y)).inp .right = true) (hout : ∀ y < g.height, (C (g.width - 1, y)).out .right = true)
    {n : Nat} (hn : g.height = 2 * n) (hci : ∀ y < g.height, binVal (C (0, y)).colour = if y < n then 0 else 1)
    (hco : ∀ i < n, (binVal (C (g.width - 1, 2 * i)).colour = 0 ∧ binVal (C (g.width - 1, 2 * i + 1)).colour = 1) ∨
      (binVal (C (g.width - 1, 2 * i)).colour = 1 ∧ binVal (C (g.width - 1, 2 * i + 1)).colour = 0)) : CutsSem g C := by
  refine ⟨fun e hem => ?_, fun x hx => ?_⟩
  · let o : Nat → Bool := fun y => binVal (C (g.width - 1, y)).colour == 1
    obtain ⟨h1, h2⟩ := c32_cuts n
    obtain ⟨_, h3⟩ := c32_flow_counts n o (by
      intro i hi
      show (_ == 1) ≠ (_ == 1)
      rcases hco i hi with ⟨a, b⟩ | ⟨a, b⟩ <;> rw [a, b] <;> decide)
    rw [hn] at hem
    obtain ⟨k, hk, rfl⟩ := List.mem_iff_getElem.1 hem
    rw [h1] at hk
    obtain ⟨c, h4, h5⟩ := h2 k hk
    obtain ⟨c', h6, h7, h8⟩ := h3 k hk
    rw [h5] at h6
    cases h6
    rw [List.getElem?_eq_getElem (by omega)] at h4
    rw [Option.some.inj h4]
    simp only
    have hy : 2 * k + 1 + 1 < g.height := by omega
    have r : ∀ f, _ := fun f => h.throughRow (f := f) he hE hin hout (k := 2 * k + 1 + 1) (by omega)
    have c1 : ∀ f, _ := fun f => downward_cut (f := f) h he hy
    have ine : ∀ f : Nat → Bool, ∑ y ∈ Finset.range (2 * k + 1 + 1), tally (f (binVal (C (0, y)).colour)) =
        ∑ y ∈ Finset.range (2 * k + 1 + 1), tally (f (if y < n then 0 else 1)) := fun f =>
      Finset.sum_congr rfl fun y hy' => by rw [hci y (by have := Finset.mem_range.1 hy'; omega)]
    have i1 : ∑ y ∈ Finset.range (2 * k + 1 + 1), tally ((· == 1) (if y < n then 0 else 1)) = (rowsWith (2 * k + 2) (lowerIn n) : Int) := by
      rw [← rowsWith_sum]
      refine Finset.sum_congr rfl fun y _ => ?_
      unfold lowerIn
      by_cases hy : y < n
      · rw [if_pos hy, decide_eq_false (by omega)]; rfl
      · rw [if_neg hy, decide_eq_true (by omega)]; rfl
    have i0 : ∑ y ∈ Finset.range (2 * k + 1 + 1), tally ((· == 0) (if y < n then 0 else 1)) =
        (rowsWith (2 * k + 2) (fun y => !lowerIn n y) : Int) := by
      rw [← rowsWith_sum]
      refine Finset.sum_congr rfl fun y _ => ?_
      unfold lowerIn
      by_cases hy : y < n
      · rw [if_pos hy, decide_eq_false (by omega)]; rfl
      · rw [if_neg hy, decide_eq_true (by omega)]; rfl
    have o1 : ∑ y ∈ Finset.range (2 * k + 1 + 1), tally ((· == 1) (binVal (C (g.width - 1, y)).colour)) = (rowsWith (2 * k + 2) o : Int) := by
      rw [← rowsWith_sum]
    have o0 : ∑ y ∈ Finset.range (2 * k + 1 + 1), tally ((· == 0) (binVal (C (g.width - 1, y)).colour)) =
        (rowsWith (2 * k + 2) (fun y => !o y) : Int) := by
      rw [← rowsWith_sum]
      refine Finset.sum_congr rfl fun y hy' => ?_
      have hy' := Finset.mem_range.1 hy'
      have : binVal (C (g.width - 1, y)).colour = 0 ∨ binVal (C (g.width - 1, y)).colour = 1 := by
        have := hco (y / 2) (by omega)
        rcases Nat.mod_two_eq_zero_or_one y with e | e
        · rw [show 2 * (y / 2) = y by omega] at this
          rcases this with a | a
          · exact Or.inl a.1
          · exact Or.inr a.1
        · rw [show 2 * (y / 2) + 1 = y by omega] at this
          rcases this with a | a
          · exact Or.inr a.2
          · exact Or.inl a.2
      show tally (_ == 0) = tally (!(_ == 1))
      rcases this with e | e <;> rw [e] <;> rfl
    have r1 := r (· == 1)
    rw [ine (· == 1), i1, o1] at r1
    have r0 := r (· == 0)
    rw [ine (· == 0), i0, o0] at r0
    refine ⟨lineOk_of h.colour _ ?_, lineOk_of h.colour _ ?_, ?_, ?_⟩
    · intro p hp
      obtain ⟨x, hx, rfl⟩ := List.mem_map.1 hp
      exact ⟨List.mem_range.1 hx, hy⟩
    · intro p hp
      obtain ⟨x, hx, rfl⟩ := List.mem_map.1 hp
      exact ⟨List.mem_range.1 hx, Nat.lt_of_succ_lt hy⟩
    · have := c1 (· == 1)
      rw [r1] at this
      omega
    · rw [c1, r0, h8]
  · have hx : x + 1 < g.width := by have := List.mem_range.1 hx; omega
    refine ⟨lineOk_of h.colour _ ?_, lineOk_of h.colour _ ?_, ?_⟩
    · intro p hp
      obtain ⟨y, hy, rfl⟩ := List.mem_map.1 hp
      exact ⟨Nat.lt_of_succ_lt hx, List.mem_range.1 hy⟩
    · intro p hp
      obtain ⟨y, hy, rfl⟩ := List.mem_map.1 hp
      exact ⟨hx, List.mem_range.1 hy⟩
    · rw [rightward_cut h he hx, h.throughColumn he hE hin (by omega)]
      simp [tally]

end cuts

end FSat
