import Verif.Lemmas.NetFreeMixExact
import Verif.Props.NetFreeMix
import Verif.Spec.NetFreeMix
/-!
Layouts with given connections, and the assignments that realise them.
-/

set_option linter.unusedSimpArgs false

namespace FSat

/-! ### Flows that agree on the cells that are not empty -/

section
variable {g : Grid} {T : Nat × Nat → Tile} {conn : Nat × Nat → Nat × Nat → Dir → Prop} {F F' : Nat × Nat → Rat}

theorem conn_nonempty (hg : g.WF) (hc : ∀ p q d, g.In p → conn p q d → Connected g.nb T p q d) {p q : Nat × Nat} {d : Dir} (hp : g.In p)
    (h : conn p q d) : g.In q ∧ T p ≠ .empty ∧ T q ≠ .empty :=
  have k := hc p q d hp h
  ⟨Grid.nb_in hg k.1, emits_ne_empty k.2.1, takes_ne_empty k.2.2⟩

theorem Steady.congr_on (hg : g.WF) (hc : ∀ p q d, g.In p → conn p q d → Connected g.nb T p q d)
    (he : ∀ p, g.In p → T p ≠ .empty → F' p = F p) (h : Steady g.In g.nb T conn F) : Steady g.In g.nb T conn F' := by
  have ha : ∀ p d, g.In p → T p ≠ .empty → arrives g.In conn F' p d = arrives g.In conn F p d := by
    intro p d hp ht
    unfold arrives
    rw [he p hp ht]
  refine ⟨fun p q d hp hq hns => ?_, fun p q d k hp hpair => ?_, fun p q d hp hq hpair r hr => ?_⟩
  · obtain ⟨k1, k2, k3⟩ := conn_nonempty hg hc hp hq
    rw [he q k1 k3, he p hp k2]
    exact h.surface p q d hp hq hns
  · rw [he p hp (by rw [hpair.2.2.1]; simp), he q (walk_in hg hp hpair.2.1) (by rw [hpair.2.2.2.1]; simp)]
    exact h.under p q d k hp hpair
  · have hr' : g.In r ∧ T r ≠ .empty := by
      rcases hr with hr | hr
      · exact ⟨(conn_nonempty hg hc hp hr).1, (conn_nonempty hg hc hp hr).2.2⟩
      · exact ⟨(conn_nonempty hg hc hq hr).1, (conn_nonempty hg hc hq hr).2.2⟩
    rw [he r hr'.1 hr'.2, ha p d hp (by rw [hpair.1]; simp), ha q d hq (by rw [hpair.2.2]; simp)]
    exact h.splitter p q d hp hq hpair r hr

theorem Drawn.congr_on (hg : g.WF) (hc : ∀ p q d, g.In p → conn p q d → Connected g.nb T p q d)
    (he : ∀ p, g.In p → T p ≠ .empty → F' p = F p) (h : Drawn g.In g.nb T conn F) : Drawn g.In g.nb T conn F' := by
  have hd : ∀ p q d, g.In p → departs conn F' p q d = departs conn F p q d := by
    intro p q d hp
    unfold departs
    by_cases hh : conn p q d
    · obtain ⟨k1, k2, k3⟩ := conn_nonempty hg hc hp hh
      rw [if_pos hh, if_pos hh, he q k1 k3]
    · rw [if_neg hh, if_neg hh]
  refine ⟨fun p q d hp hq hns => ?_, fun p q d k hp hpair => ?_, fun p q d p' q' hp hq hpair hp' hq' r hr hfed => ?_⟩
  · obtain ⟨k1, k2, k3⟩ := conn_nonempty hg hc hp hq
    rw [he q k1 k3, he p hp k2]
    exact h.surface p q d hp hq hns
  · rw [he p hp (by rw [hpair.2.2.1]; simp), he q (walk_in hg hp hpair.2.1) (by rw [hpair.2.2.2.1]; simp)]
    exact h.under p q d k hp hpair
  · have hr' : g.In r ∧ T r ≠ .empty := by
      rcases hr with rfl | rfl
      · exact ⟨hp, by rw [hpair.1]; simp⟩
      · exact ⟨hq, by rw [hpair.2.2]; simp⟩
    rw [he r hr'.1 hr'.2, hd p p' d hp, hd q q' d hq]
    exact h.splitter p q d p' q' hp hq hpair hp' hq' r hr hfed

open Classical in
/-- The flags of a layout with given connections. -/
noncomputable def connFlow (g : Grid) (T : Nat × Nat → Tile) (conn : Nat × Nat → Nat × Nat → Dir → Prop) : Flow (Nat × Nat) where
  inp := fun p d => decide (EntryUsed g.nb T conn p d)
  out := fun p d => decide (ExitUsed g.nb T conn p d)
  col := fun _ => 0

theorem connFlow_inp {p : Nat × Nat} {d : Dir} : (connFlow g T conn).inp p d = true ↔ EntryUsed g.nb T conn p d := by simp [connFlow]
theorem connFlow_out {p : Nat × Nat} {d : Dir} : (connFlow g T conn).out p d = true ↔ ExitUsed g.nb T conn p d := by simp [connFlow]

theorem exitUsed_iff (hc : SplitterChoice g.In g.nb T conn) {p q : Nat × Nat} {d : Dir} (hp : g.In p) (hq : g.nb p d = some q) :
    ExitUsed g.nb T conn p d ↔ conn p q d :=
  ⟨fun h => h.2 q hq, fun h => ⟨(hc.1 p q d hp h).2.1, fun r hr => by rw [hq] at hr; cases hr; exact h⟩⟩

theorem entryUsed_iff (hg : g.WF) (hc : SplitterChoice g.In g.nb T conn) {p q : Nat × Nat} {d : Dir} (hp : g.In p) (hq : g.nb p d = some q) :
    EntryUsed g.nb T conn q d ↔ conn p q d := by
  have hb := Grid.nb_opp hg hp hq
  exact ⟨fun h => h.2 p hb, fun h => ⟨(hc.1 p q d hp h).2.2, fun r hr => by rw [hb] at hr; cases hr; exact h⟩⟩

theorem connFlow_fits (hg : g.WF) (hc : SplitterChoice g.In g.nb T conn) (ha : AlmostFull g.In g.nb T conn) (hj : Joined g.In g.nb T)
    (hs : PairedSplitters g.In g.nb T) (hin : InnerSplitters g T) : FlowFits g.In g.nb T (connFlow g T conn) := by
  refine ⟨fun p q d hp hq => ?_, fun p d hp h => (connFlow_inp.1 h).1, fun p d hp h => (connFlow_out.1 h).1, fun p d hp hns ht => ?_,
    fun p d hp hns ht => ?_, fun p d h hp ht => ?_⟩
  · rw [Bool.eq_iff_iff, connFlow_inp, connFlow_out, exitUsed_iff hc hp hq, entryUsed_iff hg hc hp hq]
  · refine connFlow_inp.2 ⟨ht, fun r hr => ?_⟩
    have hr' := Grid.nb_in hg hr
    have hn := Grid.nb_opp hg hp hr
    rw [Dir.opp_opp] at hn
    exact hc.2 r p d hr' ⟨hn, hj.inp r p d hr' hn ht hns, ht⟩ fun hh => hns hh.2
  · exact connFlow_out.2 ⟨ht, fun q hq => hc.2 p q d hp ⟨hq, ht, hj.out p q d hp hq ht hns⟩ fun hh => hns hh.1⟩
  · by_contra hcon
    push Not at hcon
    obtain ⟨c1, c2⟩ := hcon
    obtain ⟨f, hf⟩ := Option.ne_none_iff_exists'.1 (hin p d h hp ht).1
    obtain ⟨b, hb⟩ := Option.ne_none_iff_exists'.1 (hin p d h hp ht).2
    have hb' := Grid.nb_in hg hb
    have hbn := Grid.nb_opp hg hp hb
    rw [Dir.opp_opp] at hbn
    rw [ne_eq, connFlow_inp, entryUsed_iff hg hc hb' hbn] at c1
    rw [ne_eq, connFlow_out, exitUsed_iff hc hp hf] at c2
    have i0 : inlets g.In conn p d = 0 := by
      unfold inlets
      refine if_neg ?_
      rintro ⟨r, hr, hcn⟩
      have := Grid.nb_inj hg hr hb' (hc.1 r p d hr hcn).1 hbn
      subst this
      exact c1 hcn
    have o0 : outlets conn p d = 0 := by
      unfold outlets
      refine if_neg ?_
      rintro ⟨r, hcn⟩
      have := (hc.1 p r d hp hcn).1
      rw [hf] at this
      cases this
      exact c2 hcn
    have le1 : ∀ r, inlets g.In conn r d ≤ 1 ∧ outlets conn r d ≤ 1 := by
      intro r
      unfold inlets outlets
      constructor <;> split <;> norm_num
    cases h
    · obtain ⟨q, hq, hpair⟩ := hs.tail p d hp ht
      have := ha q p d hq hp hpair
      have := le1 q
      rw [i0, o0] at *
      linarith
    · obtain ⟨q, hq, hpair⟩ := hs.head p d hp ht
      have := ha p q d hp hq hpair
      have := le1 q
      rw [i0, o0] at *
      linarith

end

/-- Steady flows make the numbers of a splitter fit. -/
theorem mix_of {ip iq op oq : Bool} {fp fq fp' fq' bp bq bp' bq' : Nat → Nat} {m n : Nat}
    (h3 : 3 ≤ gate ip 1 + gate iq 1 + gate op 1 + gate oq 1)
    (hF : ∀ i < m, (op = true → (fp' i : Rat) * (gate op 1 + gate oq 1) = gate ip (fp i) + gate iq (fq i)) ∧
      (oq = true → (fq' i : Rat) * (gate op 1 + gate oq 1) = gate ip (fp i) + gate iq (fq i)))
    (hB : ∀ i < n, (ip = true → (bp i : Rat) * (gate ip 1 + gate iq 1) = gate op (bp' i) + gate oq (bq' i)) ∧
      (iq = true → (bq i : Rat) * (gate ip 1 + gate iq 1) = gate op (bp' i) + gate oq (bq' i))) :
    MixSem ip iq op oq fp fq fp' fq' bp bq bp' bq' m n := by
  have two : (1 : Rat) + 1 = 2 := by norm_num
  cases ip <;> cases iq <;> cases op <;> cases oq <;> simp only [gate, if_true, if_false, Bool.false_eq_true] at h3 hF hB <;>
    norm_num at h3 <;> simp only [add_zero, zero_add, mul_one, forall_const, IsEmpty.forall_iff, true_and, and_true, two] at hF hB <;>
    refine ⟨by simp, ?_, ?_, ?_, ?_, ?_⟩ <;> simp only [Bool.false_eq_true, Bool.true_eq_false, forall_const, IsEmpty.forall_iff] <;>
    refine ⟨fun i hi => ?_, fun i hi => ?_⟩
  all_goals first
    | (have a := hF i hi
       first
         | (obtain ⟨a, b⟩ := a
            exact ⟨by exact_mod_cast a, by exact_mod_cast b⟩)
         | (obtain ⟨a, b⟩ := a
            exact ⟨by exact_mod_cast a.symm, by exact_mod_cast b.symm⟩)
         | exact_mod_cast a)
    | (have a := hB i hi
       first
         | (obtain ⟨a, b⟩ := a
            exact ⟨by exact_mod_cast a, by exact_mod_cast b⟩)
         | (obtain ⟨a, b⟩ := a
            exact ⟨by exact_mod_cast a.symm, by exact_mod_cast b.symm⟩)
         | exact_mod_cast a)

/-- The members of both kinds as a list of variables. -/
theorem nToM_flat (m n bits : Nat) (i : (nToMFields m n bits).Inst) : (nToMFields m n bits).flatten i =
    (nToMLitsOf m bits i.1).flat ++ (nToMLitsOf n bits i.2.1).flat := by
  obtain ⟨i1, i2, i3⟩ := i
  exact congrArg₂ (· ++ ·) (nToM_member_flat m bits i1) ((List.append_nil _).trans (nToM_member_flat n bits i2))

/-- Every choice of truth values of the members of all tiles is realised by an assignment. -/
theorem nToM_assign (width height m n bits : Nat) (ugLen : Option Nat) (C : Nat × Nat → CellVal)
    (hc : ∀ p, (C p).colour.length = 0 ∧ (C p).colourUx.length = 0 ∧ (C p).colourUy.length = 0)
    {fl di ca ux uy fl' di' ca' ux' uy' : Nat × Nat → List (List Bool)} (h1 : ∀ p, Arrayed m bits (fl p)) (h2 : ∀ p, Arrayed m bits (di p))
    (h3 : ∀ p, Arrayed m bits (ca p)) (h4 : ∀ p, Arrayed m bits (ux p)) (h5 : ∀ p, Arrayed m bits (uy p))
    (k1 : ∀ p, Arrayed n bits (fl' p)) (k2 : ∀ p, Arrayed n bits (di' p))
    (k3 : ∀ p, Arrayed n bits (ca' p)) (k4 : ∀ p, Arrayed n bits (ux' p)) (k5 : ∀ p, Arrayed n bits (uy' p)) :
    ∃ v0, ∀ v, Agree (height * width * (gridFields none (nToMFields m n bits)).variableCount) v0 v →
      ∀ p, (mkGrid width height ⟨false, false⟩ none ugLen (nToMFields m n bits) 0).In p →
      (mkGrid width height ⟨false, false⟩ none ugLen (nToMFields m n bits) 0).vals v p = C p ∧
      (nToMLits width m n bits p).1.Holds v (fl p) (di p) (ca p) (ux p) (uy p) ∧
      (nToMLits width m n bits p).2.Holds v (fl' p) (di' p) (ca' p) (ux' p) (uy' p) := by
  obtain ⟨v0, hv⟩ := mkGrid_assign width height ⟨false, false⟩ none ugLen (nToMFields m n bits) C
    (fun p => ((fl p).flatten ++ ((di p).flatten ++ ((ca p).flatten ++ ((ux p).flatten ++ (uy p).flatten)))) ++
      ((fl' p).flatten ++ ((di' p).flatten ++ ((ca' p).flatten ++ ((ux' p).flatten ++ (uy' p).flatten)))))
    (fun p => (hc p).1) (fun p => (hc p).2.1) (fun p => (hc p).2.2)
    (fun p => by rw [List.length_append, flat_length (h1 p) (h2 p) (h3 p) (h4 p) (h5 p), flat_length (k1 p) (k2 p) (k3 p) (k4 p) (k5 p), nToM_count])
  refine ⟨v0, fun v ha p hp => ⟨(hv v ha p hp).1, ?_⟩⟩
  have := (hv v ha p hp).2
  rw [nToM_flat, List.map_append] at this
  obtain ⟨s1, s2⟩ := nToMLits_shape width m n bits p
  have hlen : ((nToMLits width m n bits p).1.flat.map (ev v)).length =
      ((fl p).flatten ++ ((di p).flatten ++ ((ca p).flatten ++ ((ux p).flatten ++ (uy p).flatten)))).length := by
    rw [flat_length (h1 p) (h2 p) (h3 p) (h4 p) (h5 p)]
    simp only [FlowLits.flat, List.length_map, List.length_append, s1.flow.flatten_length, s1.diff.flatten_length, s1.carry.flatten_length,
      s1.ux.flatten_length, s1.uy.flatten_length]
  obtain ⟨a1, a2⟩ := List.append_inj this hlen
  exact ⟨FlowLits.holds s1 (h1 p) (h2 p) (h3 p) (h4 p) (h5 p) a1, FlowLits.holds s2 (k1 p) (k2 p) (k3 p) (k4 p) (k5 p) a2⟩

theorem size_log {x : Nat} (hx : 0 < x) : x.size - 1 = Nat.log 2 x := by
  have hs : 0 < x.size := Nat.size_pos.2 hx
  symm
  rw [Nat.log_eq_iff (.inr ⟨by norm_num, hx.ne'⟩)]
  constructor
  · have := Nat.lt_size (m := x.size - 1) (n := x)
    exact this.1 (by omega)
  · rw [Nat.sub_add_cancel hs]
    exact Nat.lt_size_self x

end FSat
