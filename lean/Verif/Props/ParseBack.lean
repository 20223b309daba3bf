import Verif.Lemmas.ParseBack
/-!
# C104: the network read from a layout does what the layout does
-/

set_option linter.unusedVariables false

namespace FSat

variable {a : Arr Tile} {net : Network}

open Classical in
/-- C104: let `network parse` read a network from a sound layout.  Whatever flows through a machine built from the network, the layout can
carry the same: the same amounts on the belts that bring items to its splitters and on those that take items from them out of the layout. -/
theorem c104_realised (hs : SoundLayout a.In a.nb a.board) {ord : List (Int × Int) → List (Int × Int)} (ho : ∀ l, (ord l).Perm l)
    (h : parseNetwork ord a false = .ok net) {flow : List (Node × Amounts)} {inputs outputs : Multiset ℚ}
    (hf : NetworkFlow net 0 (net.length + 1) flow inputs outputs) :
    ∃ F, Steady a.In a.nb a.board (Connected a.nb a.board) F ∧
      inputs = ((a.columns.filter fun p => BringsIn a.nb a.board p).map F : List ℚ) ∧
      outputs = ((a.columns.filter fun p => TakesOut a.nb a.board p).map F : List ℚ) := by
  obtain ⟨heads, hn, hm, hN⟩ := c62_network hs ho h
  obtain ⟨fl, hperm, hfst⟩ := perm_of_map hf.nodes
  have hconn : ∀ c : Int, leaving fl (some c) + (if c = 0 then inputs else 0) =
      arriving fl (some c) + (if c = net.length + 1 then outputs else 0) := fun c => by
    rw [arriving_perm hperm, leaving_perm hperm]
    exact hf.connected c
  have R : ReadFlow a heads net fl := by
    refine ⟨hs, hn, hm, hN, hfst, fun x hx => hf.shares x (hperm.mem_iff.1 hx), fun j hj => ?_⟩
    have := hconn ((j : Int) + 1)
    rw [if_neg (by omega), if_neg (by rw [hN.length]; omega), add_zero, add_zero] at this
    exact this
  refine ⟨amountAt a heads fl, R.steady, ?_⟩
  have hidx : ∀ p d, a.board p = .splitter d true → ∃ (i : Nat) (x : Node × Amounts), heads[i]? = some p ∧ fl[i]? = some x ∧
      heads.idxOf p = i := by
    intro p d hd
    obtain ⟨i, hi⟩ := List.mem_iff_getElem?.1 ((hm p).2 ⟨d, hd⟩)
    obtain ⟨x, hx⟩ := R.at_index hi
    obtain ⟨hl, rfl⟩ := List.getElem?_eq_some_iff.1 hi
    exact ⟨i, x, hi, hx, hn.idxOf_getElem _ _⟩
  have hR := read_flow hs hn hm hN R.steady
    (fun p => (fl[heads.idxOf p]?).getD (((none, none), (none, none)), ((0, 0), (0, 0)))) (by
      intro p hp d hd
      obtain ⟨i, x, hi, hx, hxi⟩ := hidx p d hd
      simp only [hxi, hx, Option.getD_some]
      obtain ⟨q, _, hpair⟩ := hs.splitters.head p d (inside_of_board (by rw [hd]; simp)) hd
      obtain ⟨i1, i2⟩ := hN.inputs i p x.1 hi (R.node hx) q d hpair
      obtain ⟨o1, o2⟩ := hN.outputs i p x.1 hi (R.node hx) q d hpair
      have et : tailOf a.nb a.board p = q := tailOf_eq hd hpair.2.1
      have hsh := R.shares x (List.mem_of_getElem? hx)
      refine ⟨by rw [nodeRead_at hn hi]; exact R.node hx, hsh, fun c => ?_, fun c => ?_⟩
      · rw [et]
        have key : ∀ {s : Int × Int} {b : Bool} {k : Colour} {v : ℚ}, a.board s = .splitter d b →
            InputColour a.In a.nb a.board false heads s d k → Slot a heads fl s v →
            part k v c = if HasInp (lineFlow a heads) s then cellPart (lineFlow a heads) (amountAt a heads fl) c s else 0 := by
          intro s b k v hb hk hv
          have hc := input_colour hs hn hm hb hk
          have hi : HasInp (lineFlow a heads) s ↔ (lineFlow a heads).inp s d = true := by
            refine ⟨fun ⟨e, he⟩ => ?_, fun he => ⟨d, he⟩⟩
            have := (inp_iff.1 he).1
            rw [hb] at this
            exact (show d = e from this) ▸ he
          rw [hc]
          unfold part colourIf cellPart
          by_cases hx : (lineFlow a heads).inp s d = true
          · rw [if_pos hx, if_pos (hi.2 hx), R.amount_half hb hv]
            simp only [Option.some.injEq]
          · rw [if_neg hx, if_neg fun h => hx (hi.1 h), if_neg (by nofun)]
        rw [key hpair.1 i1 ⟨i, p, q, d, x, hi, hx, hpair, .inl ⟨rfl, rfl⟩⟩, key hpair.2.2 i2 ⟨i, p, q, d, x, hi, hx, hpair, .inr ⟨rfl, rfl⟩⟩]
      · rw [et]
        have key : ∀ {s : Int × Int} {b : Bool} {k : Colour} {v : ℚ}, a.board s = .splitter d b → HalfOf a.nb a.board p s →
            OutputColour a.nb a.board false heads i s d k → (k ≠ none → v = share x) →
            part k v c = if HasOut (lineFlow a heads) s then cellPart (lineFlow a heads) (amountAt a heads fl) c (frontOf a.nb a.board s) else 0 := by
          intro s b k v hb hh hk hv
          have hc := output_colour hs hn hm hb hi hh hk
          have ho : HasOut (lineFlow a heads) s ↔ (lineFlow a heads).out s d = true := by
            refine ⟨fun ⟨e, he⟩ => ?_, fun he => ⟨d, he⟩⟩
            have := (out_iff.1 he).1
            rw [hb] at this
            exact (show d = e from this) ▸ he
          by_cases hy : (lineFlow a heads).out s d = true
          · obtain ⟨r, hr⟩ := (out_iff.1 hy).2 ⟨d, b, hb⟩
            have hk' : k ≠ none := by rw [hc, hy]; nofun
            rw [hv hk', hc, if_pos (ho.2 hy)]
            unfold part colourIf cellPart
            rw [if_pos hy, frontOf_eq hb hr.1, R.amount_from hx ⟨p, s, hi, hh, .step (.inl ⟨d, hr⟩)⟩]
            simp only [Option.some.injEq]
          · rw [hc, if_neg fun h => hy (ho.1 h)]
            unfold part colourIf
            rw [if_neg hy, if_neg (by nofun)]
        rw [key hpair.1 ⟨q, d, hpair, .inl rfl⟩ o1 hsh.share1, key hpair.2.2 ⟨q, d, hpair, .inr rfl⟩ o2 hsh.share2])
  have hfl : (((a.columns.filter fun p => (nodeRead heads net p).isSome).map
      (fun p => (fl[heads.idxOf p]?).getD (((none, none), (none, none)), ((0, 0), (0, 0))))) : List (Node × Amounts)).Perm fl := by
    have h1 : (a.columns.filter fun p => (nodeRead heads net p).isSome).Perm heads := by
      refine (List.perm_ext_iff_of_nodup ((columns_nodup a).filter _) hn).2 fun p => ?_
      rw [List.mem_filter, mem_columns]
      constructor
      · rintro ⟨_, h2⟩
        by_contra hx
        unfold nodeRead at h2
        rw [if_neg hx] at h2
        cases h2
      · intro hp
        obtain ⟨d, hd⟩ := (hm p).1 hp
        obtain ⟨k, hk, _⟩ := read_wired hs hn hm hN hd
        exact ⟨inside_of_board (by rw [hd]; simp), by rw [hk]; rfl⟩
    refine (h1.map _).trans (List.Perm.of_eq ?_)
    refine List.ext_getElem (by rw [List.length_map, R.length]) fun i l1 l2 => ?_
    rw [List.getElem_map, hn.idxOf_getElem, List.getElem?_eq_getElem l2, Option.getD_some]
  constructor
  · have h1 := hR.connected 0
    have h2 := hconn 0
    rw [if_pos rfl, if_neg (by omega), add_zero] at h1 h2
    rw [arriving_perm hfl, leaving_perm hfl, ← h2] at h1
    exact (add_left_cancel h1).symm
  · have h1 := hR.connected (net.length + 1)
    have h2 := hconn (net.length + 1)
    rw [if_pos rfl, if_neg (by omega), add_zero] at h1 h2
    rw [arriving_perm hfl, leaving_perm hfl, h2] at h1
    exact add_left_cancel h1

theorem takesOut_in {q : Int × Int} (hq : TakesOut a.nb a.board q) : a.In q := by
  obtain ⟨d, hd, _⟩ := hq.2.1
  exact inside_of_board (Emits.ne_empty hd)

section
variable (hs : SoundLayout a.In a.nb a.board) {ord : List (Int × Int) → List (Int × Int)} (ho : ∀ l, (ord l).Perm l)
  (h : parseNetwork ord a false = .ok net)
include hs ho h

open Classical in
/-- C104: the network read from a sound layout does exactly what the layout does: the amounts that a machine built from the network can
have on its inputs and outputs are those that the layout can have on the belts that bring items to its splitters and on those that take
items from them out of the layout. -/
theorem c104_same (inputs outputs : Multiset ℚ) :
    (∃ flow, NetworkFlow net 0 (net.length + 1) flow inputs outputs) ↔
      ∃ F, Steady a.In a.nb a.board (Connected a.nb a.board) F ∧
        inputs = ((a.columns.filter fun p => BringsIn a.nb a.board p).map F : List ℚ) ∧
        outputs = ((a.columns.filter fun p => TakesOut a.nb a.board p).map F : List ℚ) := by
  constructor
  · rintro ⟨flow, hf⟩
    exact c104_realised hs ho h hf
  · rintro ⟨F, hF, rfl, rfl⟩
    exact c98_flow hs ho h hF

/-- C104: the network read from a sound layout is a balancer exactly if the layout is one, that is, if the belts which take items from its
splitters out of the layout always carry the same. -/
theorem c104_balancer : IsBalancer net 0 (net.length + 1) ↔ ∀ F, Steady a.In a.nb a.board (Connected a.nb a.board) F →
    ∀ p q, TakesOut a.nb a.board p → TakesOut a.nb a.board q → F p = F q := by
  classical
  constructor
  · intro hb F hF p q hp hq
    obtain ⟨flow, hf⟩ := c98_flow hs ho h hF
    have mem : ∀ r, TakesOut a.nb a.board r → F r ∈ (((a.columns.filter fun p => TakesOut a.nb a.board p).map F : List ℚ) : Multiset ℚ) :=
      fun r hr => Multiset.mem_coe.2 (List.mem_map.2 ⟨r, List.mem_filter.2 ⟨(mem_columns a r).2 (takesOut_in hr), by simpa using hr⟩, rfl⟩)
    exact hb _ _ _ hf _ (mem p hp) _ (mem q hq)
  · intro hF flow inputs outputs hf x hx y hy
    obtain ⟨F, h1, _, rfl⟩ := c104_realised hs ho h hf
    obtain ⟨p, hp, rfl⟩ := List.mem_map.1 (Multiset.mem_coe.1 hx)
    obtain ⟨q, hq, rfl⟩ := List.mem_map.1 (Multiset.mem_coe.1 hy)
    exact hF F h1 p q (by simpa using (List.mem_filter.1 hp).2) (by simpa using (List.mem_filter.1 hq).2)

open Classical in
/-- C104: the network read from a sound layout divides `m` belts evenly among `n` exactly if the layout does. -/
theorem c104_divides (m n : Nat) : DividesEvenly net 0 m (net.length + 1) n ↔
    (a.columns.countP fun p => BringsIn a.nb a.board p) = m ∧ (a.columns.countP fun p => TakesOut a.nb a.board p) = n ∧
      ∀ F, Steady a.In a.nb a.board (Connected a.nb a.board) F → ∀ q, TakesOut a.nb a.board q →
        F q * n = ((a.columns.filter fun p => BringsIn a.nb a.board p).map F).sum := by
  constructor
  · intro hd
    obtain ⟨h1, h2, _⟩ := c98_divides hs ho h hd steady_zero
    exact ⟨h1, h2, fun F hF => (c98_divides hs ho h hd hF).2.2⟩
  · rintro ⟨h1, h2, h3⟩ flow inputs outputs hf
    obtain ⟨F, k1, rfl, rfl⟩ := c104_realised hs ho h hf
    rw [Multiset.coe_card, List.length_map, ← List.countP_eq_length_filter, Multiset.coe_card, List.length_map, ← List.countP_eq_length_filter]
    refine ⟨h1, h2, fun x hx => ?_⟩
    obtain ⟨q, hq, rfl⟩ := List.mem_map.1 (Multiset.mem_coe.1 hx)
    rw [Multiset.sum_coe]
    exact h3 F k1 q (by simpa using (List.mem_filter.1 hq).2)

end

/-- C104 is not vacuous: two splitters in a row are a balancer, because the network read from them is one. -/
example : ∀ F, Steady twoSplitters.In twoSplitters.nb twoSplitters.board (Connected twoSplitters.nb twoSplitters.board) F →
    ∀ p q, TakesOut twoSplitters.nb twoSplitters.board p → TakesOut twoSplitters.nb twoSplitters.board q → F p = F q :=
  (c104_balancer (net := [((some 0, some 0), (some 1, some 1)), ((some 1, some 1), (some 3, some 3))]) (ord := id) twoSplitters_sound
    (fun _ => List.Perm.refl _) (by rfl)).1 fun flow i o hf x hx y hy => by
    obtain ⟨_, _, h⟩ := twoSplitters_divides flow i o hf
    have := (h x hx).trans (h y hy).symm
    push_cast at this
    linarith

/-- A flow on two splitters in a row, which gives a flow through the network read from them. -/
example : ∃ flow inputs outputs, NetworkFlow [((some 0, some 0), (some 1, some 1)), ((some 1, some 1), (some 3, some 3))] 0 3 flow inputs outputs ∧
    ∃ F, Steady twoSplitters.In twoSplitters.nb twoSplitters.board (Connected twoSplitters.nb twoSplitters.board) F ∧
      F = threeAndOne ∧ inputs.card = 2 ∧ outputs.card = 2 := by
  classical
  obtain ⟨flow, hf⟩ := c98_flow (net := [((some 0, some 0), (some 1, some 1)), ((some 1, some 1), (some 3, some 3))]) (ord := id) twoSplitters_sound
    (fun _ => List.Perm.refl _) (by rfl) threeAndOne_steady
  obtain ⟨h1, h2, _⟩ := twoSplitters_divides flow _ _ hf
  exact ⟨flow, _, _, hf, threeAndOne, threeAndOne_steady, rfl, h1, h2⟩

end FSat
