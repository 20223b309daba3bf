import Verif.Spec.ParseFlow
import Verif.Spec.DividesEvenly
import Verif.Lemmas.ParseFlow
import Verif.Lemmas.NetworkTotal
import Verif.Props.ShippedNetworks
import Verif.Props.ParseNetwork
/-!
# C98: a layout does what the network read from it does
-/

set_option linter.unusedVariables false

namespace FSat

variable {a : Arr Tile} {heads : List (Int × Int)} {net : Network}

theorem Steady.carries {P : Type} {In : P → Prop} {nb : P → Dir → Option P} {T : P → Tile} {conn : P → P → Dir → Prop} {F : P → ℚ}
    (h : Steady In nb T conn F) : Carries In nb T conn (fun _ => False) F :=
  ⟨h.surface, h.under, fun p q d hp hq hpair r hr => by
    have := h.splitter p q d hp hq hpair r hr
    unfold arrives at this
    have e : ∀ x, FedAt In nb conn (fun _ => False) x d = ∃ r, In r ∧ conn r x d := fun x =>
      propext ⟨fun h => h.resolve_right fun h => h.2, .inl⟩
    unfold gets
    rw [this]
    congr 1 <;> congr 1 <;> exact (e _).symm⟩

/-- The node read for the splitter at `p`. -/
def nodeRead (heads : List (Int × Int)) (net : Network) (p : Int × Int) : Option Node := if p ∈ heads then net[heads.idxOf p]? else none

theorem nodeRead_at (hn : heads.Nodup) {i : Nat} {h : Int × Int} (hi : heads[i]? = some h) : nodeRead heads net h = net[i]? := by
  obtain ⟨hl, rfl⟩ := List.getElem?_eq_some_iff.1 hi
  unfold nodeRead
  rw [if_pos (List.getElem_mem hl), hn.idxOf_getElem]

theorem nodeRead_count (hn : heads.Nodup) (hl : net.length = heads.length) {cells : List (Int × Int)} (hc : cells.Nodup) (hsub : ∀ p ∈ heads, p ∈ cells)
    (k : Node) : cells.countP (fun p => nodeRead heads net p = some k) = net.count k := by
  have hperm : (cells.filter (· ∈ heads)).Perm heads := by
    refine (List.perm_ext_iff_of_nodup (hc.filter _) hn).2 fun p => ?_
    rw [List.mem_filter]
    simp only [decide_eq_true_eq]
    exact ⟨fun h => h.2, fun h => ⟨hsub p h, h⟩⟩
  have h1 : cells.countP (fun p => nodeRead heads net p = some k) = heads.countP (fun p => nodeRead heads net p = some k) := by
    rw [← hperm.countP_eq, List.countP_filter]
    refine List.countP_congr fun p _ => ?_
    simp only [decide_eq_true_eq, Bool.and_eq_true]
    refine ⟨fun h => ⟨h, ?_⟩, fun h => h.1⟩
    by_contra hx
    unfold nodeRead at h
    rw [if_neg hx] at h
    cases h
  have h2 : heads.map (nodeRead heads net) = net.map some := by
    refine List.ext_getElem? fun i => ?_
    rw [List.getElem?_map, List.getElem?_map]
    cases hi : heads[i]? with
    | none =>
      have : net[i]? = none := by
        rw [List.getElem?_eq_none_iff] at hi ⊢
        omega
      rw [this]
      rfl
    | some h =>
      have hlt : i < net.length := by
        have := (List.getElem?_eq_some_iff.1 hi).1
        omega
      rw [Option.map_some, nodeRead_at hn hi, List.getElem?_eq_getElem hlt]
      rfl
  rw [h1]
  have h3 : heads.countP (fun p => nodeRead heads net p = some k) = (heads.map (nodeRead heads net)).count (some k) := by
    rw [List.count, List.countP_map]
    refine List.countP_congr fun p _ => ?_
    simp
  rw [h3, h2, List.count, List.countP_map, List.count]
  refine List.countP_congr fun p _ => ?_
  simp

/-- The node of a splitter has the colours that the layout has there. -/
theorem read_wired (hs : SoundLayout a.In a.nb a.board) (hn : heads.Nodup) (hm : ∀ p, p ∈ heads ↔ ∃ d, a.board p = .splitter d true)
    (hN : NetworkOf a.In a.nb a.board false heads net) {p : Int × Int} {d : Dir} (hd : a.board p = .splitter d true) :
    ∃ k, nodeRead heads net p = some k ∧ WiredAt a.nb a.board (lineFlow a heads) k p d := by
  obtain ⟨i, hi⟩ := List.mem_iff_getElem?.1 ((hm p).2 ⟨d, hd⟩)
  have hlt : i < net.length := by
    have := (List.getElem?_eq_some_iff.1 hi).1
    rw [hN.length]
    exact this
  have hi' : net[i]? = some net[i] := List.getElem?_eq_getElem hlt
  obtain ⟨q, _, hpair⟩ := hs.splitters.head p d (inside_of_board (by rw [hd]; simp)) hd
  obtain ⟨h1, h2⟩ := hN.inputs i p _ hi hi' q d hpair
  obtain ⟨h3, h4⟩ := hN.outputs i p _ hi hi' q d hpair
  refine ⟨_, by rw [nodeRead_at hn hi, hi'], q, hpair, .inl ?_, .inl ?_⟩
  · rw [← input_colour hs hn hm hpair.1 h1, ← input_colour hs hn hm hpair.2.2 h2]
  · rw [← output_colour hs hn hm hpair.1 hi ⟨q, d, hpair, .inl rfl⟩ h3, ← output_colour hs hn hm hpair.2.2 hi ⟨q, d, hpair, .inr rfl⟩ h4]

open Classical in
theorem read_flow (hs : SoundLayout a.In a.nb a.board) (hn : heads.Nodup) (hm : ∀ p, p ∈ heads ↔ ∃ d, a.board p = .splitter d true)
    (hN : NetworkOf a.In a.nb a.board false heads net) {F : Int × Int → ℚ} (hF : Steady a.In a.nb a.board (Connected a.nb a.board) F)
    (φ : Int × Int → Node × Amounts)
    (hφ : ∀ p ∈ a.columns, ∀ d, a.board p = .splitter d true →
      nodeRead heads net p = some (φ p).1 ∧ Shares (φ p).1 (φ p).2 ∧
      (∀ c, part (φ p).1.1.1 (φ p).2.1.1 c + part (φ p).1.1.2 (φ p).2.1.2 c = (if HasInp (lineFlow a heads) p then cellPart (lineFlow a heads) F c p else 0) +
        if HasInp (lineFlow a heads) (tailOf a.nb a.board p) then cellPart (lineFlow a heads) F c (tailOf a.nb a.board p) else 0) ∧
      ∀ c, part (φ p).1.2.1 (φ p).2.2.1 c + part (φ p).1.2.2 (φ p).2.2.2 c =
        (if HasOut (lineFlow a heads) p then cellPart (lineFlow a heads) F c (frontOf a.nb a.board p) else 0) +
        if HasOut (lineFlow a heads) (tailOf a.nb a.board p) then cellPart (lineFlow a heads) F c (frontOf a.nb a.board (tailOf a.nb a.board p)) else 0) :
    NetworkFlow net 0 (net.length + 1) ((a.columns.filter fun p => (nodeRead heads net p).isSome).map φ)
      ((a.columns.filter fun p => BringsIn a.nb a.board p).map F : List ℚ)
      ((a.columns.filter fun p => TakesOut a.nb a.board p).map F : List ℚ) := by
  have mem : ∀ p, p ∈ a.columns → a.In p := fun p h => (mem_columns a p).1 h
  have hcol : (fun p => p ∈ a.columns) = a.In := funext fun p => propext (mem_columns a p)
  have hT := parse_tracks hs hn hm
  have node : ∀ p d, a.board p = .splitter d true → ∃ (i : Nat) (k : Node), heads[i]? = some p ∧ net[i]? = some k ∧ nodeRead heads net p = some k := by
    intro p d hd
    obtain ⟨i, hi⟩ := List.mem_iff_getElem?.1 ((hm p).2 ⟨d, hd⟩)
    have hlt : i < net.length := by
      have := (List.getElem?_eq_some_iff.1 hi).1
      rw [hN.length]
      exact this
    exact ⟨i, net[i], hi, List.getElem?_eq_getElem hlt, by rw [nodeRead_at hn hi, List.getElem?_eq_getElem hlt]⟩
  have half : ∀ x ∈ insOf net, ∀ z : Int, x = some z → z ≤ heads.length := by
    intro x hx z hz
    obtain ⟨k, hk, hx⟩ := List.mem_flatMap.1 hx
    obtain ⟨i, hi⟩ := List.mem_iff_getElem?.1 hk
    have hlt : i < heads.length := hN.length ▸ (List.getElem?_eq_some_iff.1 hi).1
    obtain ⟨d, hd⟩ := (hm heads[i]).1 (List.getElem_mem hlt)
    obtain ⟨q, _, hpair⟩ := hs.splitters.head heads[i] d (inside_of_board (by rw [hd]; simp)) hd
    obtain ⟨h1, h2⟩ := hN.inputs i heads[i] k (List.getElem?_eq_getElem hlt) hi q d hpair
    have bound : ∀ (p : Int × Int), (lineFlow a heads).col p ≤ heads.length ∨ ¬ EndsOn a heads p := by
      intro p
      by_cases he : EndsOn a heads p
      · left
        by_cases hx : ∃ i, FromNo a heads p i
        · obtain ⟨i, hi⟩ := hx
          rw [col_from hs hn hm hi he]
          obtain ⟨_, _, h, _⟩ := hi
          have := (List.getElem?_eq_some_iff.1 h).1
          omega
        · rw [col_in hs hn hm hx he]
          omega
      · exact .inr he
    simp only [List.mem_cons, List.not_mem_nil, or_false] at hx
    have key : ∀ p b, a.board p = .splitter d b → ∀ c, c = colourIf ((lineFlow a heads).inp p d) ((lineFlow a heads).col p) → c = some z →
        z ≤ heads.length := by
      intro p b hp c hc hz
      rw [hc] at hz
      unfold colourIf at hz
      split at hz
      · simp only [Option.some.injEq] at hz
        have := (bound p).resolve_right fun h => h (.inl ⟨d, b, hp⟩)
        omega
      · cases hz
    rcases hx with rfl | rfl
    · exact key _ _ hpair.1 _ (input_colour hs hn hm hpair.1 h1) hz
    · exact key _ _ hpair.2.2 _ (input_colour hs hn hm hpair.2.2 h2) hz
  have halfOut : ∀ x ∈ outsOf net, ∀ z : Int, x = some z → z ≤ heads.length + 1 := by
    intro x hx z hz
    obtain ⟨k, hk, hx⟩ := List.mem_flatMap.1 hx
    obtain ⟨i, hi⟩ := List.mem_iff_getElem?.1 hk
    have hlt : i < heads.length := hN.length ▸ (List.getElem?_eq_some_iff.1 hi).1
    obtain ⟨d, hd⟩ := (hm heads[i]).1 (List.getElem_mem hlt)
    obtain ⟨q, _, hpair⟩ := hs.splitters.head heads[i] d (inside_of_board (by rw [hd]; simp)) hd
    obtain ⟨h1, h2⟩ := hN.outputs i heads[i] k (List.getElem?_eq_getElem hlt) hi q d hpair
    have key : ∀ (p : Int × Int) (c : Option Int), OutputColour a.nb a.board false heads i p d c → c = some z → z ≤ heads.length + 1 := by
      intro p c hc hz
      by_cases h3 : DrainsTo a.nb a.board false p d
      · by_cases h4 : ∃ h r, h ∈ heads ∧ HalfOf a.nb a.board h r ∧ Reaches a.nb a.board p r
        · rw [hc.inner.2 h4, Option.some.injEq] at hz
          omega
        · rw [hc.outside.2 ⟨h3, fun h r x y w => h4 ⟨h, r, x, y, w⟩⟩, Option.some.injEq] at hz
          omega
      · rw [hc.none.2 h3] at hz
        cases hz
    simp only [List.mem_cons, List.not_mem_nil, or_false] at hx
    rcases hx with rfl | rfl
    · exact key _ _ h1 hz
    · exact key _ _ h2 hz
  have entry : ∀ p, EntryAt a.nb (lineFlow a heads) p →
      ((lineFlow a heads).col p = 0 ↔ LeadsOn a heads p) ∧ ((lineFlow a heads).col p = 0 ∨ (lineFlow a heads).col p = heads.length + 2) := by
    intro p h1
    obtain ⟨h2, h3⟩ := (entry_iff hs hn hm).1 h1
    have h4 := entry_col hs hn hm h2 h3
    by_cases h5 : LeadsOn a heads p
    · exact ⟨⟨fun _ => h5, h4.1⟩, .inl (h4.1 h5)⟩
    · refine ⟨⟨fun h6 => ?_, h4.1⟩, .inr (h4.2 h5)⟩
      rw [h4.2 h5] at h6
      omega
  have exit : ∀ p, ExitAt a.nb (lineFlow a heads) p → ((lineFlow a heads).col p = heads.length + 1 ↔ ∃ i, FromNo a heads p i) ∧
      ((lineFlow a heads).col p = heads.length + 1 ∨ (lineFlow a heads).col p = heads.length + 2) := by
    intro p h1
    obtain ⟨h2, h3⟩ := (exit_iff hs hn hm).1 h1
    have h4 := exit_col hs hn hm h2 h3
    by_cases h5 : ∃ i, FromNo a heads p i
    · exact ⟨⟨fun _ => h5, h4.1⟩, .inl (h4.1 h5)⟩
    · refine ⟨⟨fun h6 => ?_, h4.1⟩, .inr (h4.2 h5)⟩
      rw [h4.2 h5] at h6
      omega
  have fromNo : ∀ p, (∃ i, FromNo a heads p i) ↔ ∃ r, (a.board r).IsSplitter ∧ Reaches a.nb a.board r p := by
    intro p
    constructor
    · rintro ⟨i, h, r, _, h2, h3⟩
      exact ⟨r, h2.splitter, h3⟩
    · rintro ⟨r, h1, h2⟩
      obtain ⟨h, h3, h4⟩ := half_of hs hn hm h1
      obtain ⟨i, hi⟩ := List.mem_iff_getElem?.1 h3
      exact ⟨i, h, r, hi, h4, h2⟩
  have hflow := hT.networkFlow_of (hcol ▸ hs.splitters) (n := net) (lab := nodeRead heads net)
    (fun p hp => by
      rw [← hm p]
      constructor
      · rintro ⟨k, hk⟩
        by_contra hx
        unfold nodeRead at hk
        rw [if_neg hx] at hk
        cases hk
      · intro h
        obtain ⟨d, hd⟩ := (hm p).1 h
        obtain ⟨_, k, _, _, hk⟩ := node p d hd
        exact ⟨k, hk⟩)
    (nodeRead_count hn hN.length (columns_nodup a) fun p hp => by
      obtain ⟨d, hd⟩ := (hm p).1 hp
      exact (mem_columns a p).2 (inside_of_board (by rw [hd]; simp)))
    (a := 0) (b := net.length + 1) (z := heads.length + 2)
    (fun p _ h1 => (entry p h1).2.imp (fun h => by rw [h]; rfl) (fun h => by rw [h]; push_cast; rfl))
    (fun p _ h1 => (exit p h1).2.imp (fun h => by rw [h, hN.length]; push_cast; rfl) (fun h => by rw [h]; push_cast; rfl))
    (by omega) (by rw [hN.length]; omega)
    ⟨fun h => by have := half _ h _ rfl; omega, fun h => by have := halfOut _ h _ rfl; omega⟩
    (carries_lines hs hn hm hF.carries) φ hφ
  have e1 : (a.columns.filter fun p => EntryAt a.nb (lineFlow a heads) p ∧ ((lineFlow a heads).col p : Int) = 0) =
      a.columns.filter fun p => BringsIn a.nb a.board p := by
    refine List.filter_congr fun p _ => ?_
    rw [decide_eq_decide]
    constructor
    · rintro ⟨h1, h2⟩
      obtain ⟨h3, h4⟩ := (entry_iff hs hn hm).1 h1
      exact ⟨h4, h3, (leadsOn_iff hs hn hm).1 ((entry p h1).1.1 (by exact_mod_cast h2))⟩
    · rintro ⟨h1, h2, h3⟩
      have h4 := (entry_iff (heads := heads) hs hn hm).2 ⟨h2, h1⟩
      exact ⟨h4, by exact_mod_cast (entry p h4).1.2 ((leadsOn_iff hs hn hm).2 h3)⟩
  have e2 : (a.columns.filter fun p => ExitAt a.nb (lineFlow a heads) p ∧ ((lineFlow a heads).col p : Int) = net.length + 1) =
      a.columns.filter fun p => TakesOut a.nb a.board p := by
    refine List.filter_congr fun p _ => ?_
    rw [decide_eq_decide, hN.length]
    constructor
    · rintro ⟨h1, h2⟩
      obtain ⟨h3, h4⟩ := (exit_iff hs hn hm).1 h1
      exact ⟨h4, h3, (fromNo p).1 ((exit p h1).1.1 (by exact_mod_cast h2))⟩
    · rintro ⟨h1, h2, h3⟩
      have h4 := (exit_iff (heads := heads) hs hn hm).2 ⟨h2, h1⟩
      exact ⟨h4, by exact_mod_cast (exit p h4).1.2 ((fromNo p).2 h3)⟩
  rw [e1, e2] at hflow
  exact hflow

open Classical in
/-- C98: let `network parse` read a network from a sound layout, and let items flow through the layout: then the amounts on the belts that
bring items to splitters and on those that take items from splitters out of the layout are those of a flow through the network. -/
theorem c98_flow (hs : SoundLayout a.In a.nb a.board) {ord : List (Int × Int) → List (Int × Int)} (ho : ∀ l, (ord l).Perm l)
    (h : parseNetwork ord a false = .ok net) {F : Int × Int → ℚ}
    (hF : Steady a.In a.nb a.board (Connected a.nb a.board) F) :
    ∃ flow, NetworkFlow net 0 (net.length + 1) flow ((a.columns.filter fun p => BringsIn a.nb a.board p).map F : List ℚ)
      ((a.columns.filter fun p => TakesOut a.nb a.board p).map F : List ℚ) := by
  obtain ⟨heads, hn, hm, hN⟩ := c62_network hs ho h
  have mem : ∀ p, p ∈ a.columns → a.In p := fun p h => (mem_columns a p).1 h
  have hT := parse_tracks hs hn hm
  have : ∀ p, ∃ y : Node × Amounts, p ∈ a.columns → ∀ d, a.board p = .splitter d true →
      nodeRead heads net p = some y.1 ∧ Shares y.1 y.2 ∧
      (∀ c, part y.1.1.1 y.2.1.1 c + part y.1.1.2 y.2.1.2 c = (if HasInp (lineFlow a heads) p then cellPart (lineFlow a heads) F c p else 0) +
        if HasInp (lineFlow a heads) (tailOf a.nb a.board p) then cellPart (lineFlow a heads) F c (tailOf a.nb a.board p) else 0) ∧
      ∀ c, part y.1.2.1 y.2.2.1 c + part y.1.2.2 y.2.2.2 c =
        (if HasOut (lineFlow a heads) p then cellPart (lineFlow a heads) F c (frontOf a.nb a.board p) else 0) +
        if HasOut (lineFlow a heads) (tailOf a.nb a.board p) then cellPart (lineFlow a heads) F c (frontOf a.nb a.board (tailOf a.nb a.board p)) else 0 := by
    intro p
    by_cases hp : p ∈ a.columns ∧ ∃ d, a.board p = .splitter d true
    · obtain ⟨hp, d, hd⟩ := hp
      obtain ⟨k, hk, hW⟩ := read_wired hs hn hm hN hd
      obtain ⟨x, h1, h2, h3⟩ := hT.node (carries_lines hs hn hm hF.carries) hp hd hW
      exact ⟨(k, x), fun _ _ _ => ⟨hk, h1, h2, h3⟩⟩
    · exact ⟨((((none, none), (none, none)) : Node), ((0, 0), (0, 0))), fun h1 d h2 => absurd ⟨h1, d, h2⟩ hp⟩
  exact ⟨_, read_flow hs hn hm hN hF (fun p => (this p).choose) fun p hp => (this p).choose_spec hp⟩

theorem steady_zero {P : Type} {In : P → Prop} {nb : P → Dir → Option P} {T : P → Tile} {conn : P → P → Dir → Prop} :
    Steady In nb T conn fun _ => 0 :=
  ⟨fun _ _ _ _ _ _ => rfl, fun _ _ _ _ _ _ => rfl, fun _ _ _ _ _ _ _ _ => by unfold arrives; simp⟩

open Classical in
/-- C98: the network has the colour zero for the belts that bring items in and the last colour for those that take them out, as often as
the layout has such belts.  `get_input_output_colours` accepts it exactly if there are belts of both kinds. -/
theorem c98_ends (hs : SoundLayout a.In a.nb a.board) {ord : List (Int × Int) → List (Int × Int)} (ho : ∀ l, (ord l).Perm l)
    (h : parseNetwork ord a false = .ok net) (hin : ∃ p, BringsIn a.nb a.board p) (hout : ∃ p, TakesOut a.nb a.board p) :
    getInputOutputColours net = .ok ((0, (a.columns.countP fun p => BringsIn a.nb a.board p : Nat)),
      ((net.length : Int) + 1, (a.columns.countP fun p => TakesOut a.nb a.board p : Nat))) := by
  obtain ⟨flow, hf⟩ := c98_flow hs ho h steady_zero
  have key : ∀ c : Int, surplus net (some c) = (if c = 0 then ((a.columns.countP fun p => BringsIn a.nb a.board p : Nat) : Int) else 0) -
      if c = net.length + 1 then ((a.columns.countP fun p => TakesOut a.nb a.board p : Nat) : Int) else 0 := by
    intro c
    have h1 := congrArg Multiset.card (hf.connected c)
    rw [Multiset.card_add, Multiset.card_add, leaving_card, arriving_card] at h1
    have h2 : (insOf (flow.map Prod.fst)).Perm (insOf net) := List.Perm.flatMap_right _ hf.nodes
    have h3 : (outsOf (flow.map Prod.fst)).Perm (outsOf net) := List.Perm.flatMap_right _ hf.nodes
    rw [h2.count_eq, h3.count_eq] at h1
    unfold surplus
    simp only [List.countP_eq_length_filter]
    split at h1 <;> split at h1 <;> simp only [Multiset.card_zero, Multiset.coe_card, List.length_map] at h1 <;>
      simp_all <;> omega
  have hlen : (0 : Int) ≠ net.length + 1 := by omega
  refine (gio_iff _ _ _ _ _).2 ⟨?_, ?_, ?_, ?_, fun c h1 h2 => ?_⟩
  · obtain ⟨p, hp⟩ := hin
    have hi : a.In p := by
      obtain ⟨d, hd, _⟩ := hp.2.1
      exact inside_of_board (Takes.ne_empty hd)
    exact_mod_cast List.countP_pos_iff.2 ⟨p, (mem_columns a p).2 hi, by simpa using hp⟩
  · obtain ⟨p, hp⟩ := hout
    have hi : a.In p := by
      obtain ⟨d, hd, _⟩ := hp.2.1
      exact inside_of_board (Emits.ne_empty hd)
    exact_mod_cast List.countP_pos_iff.2 ⟨p, (mem_columns a p).2 hi, by simpa using hp⟩
  · rw [key, if_pos rfl, if_neg hlen, sub_zero]
  · rw [key, if_neg hlen.symm, if_pos rfl, zero_sub]
  · rw [key, if_neg h1, if_neg h2, sub_zero]

open Classical in
/-- C98: if the network read from a layout divides `m` belts evenly among `n`, then the layout has `m` belts that bring items to its splitters
and `n` that take items away from them, and each of the latter carries the `n`-th part of what the former bring. -/
theorem c98_divides (hs : SoundLayout a.In a.nb a.board) {ord : List (Int × Int) → List (Int × Int)} (ho : ∀ l, (ord l).Perm l)
    (h : parseNetwork ord a false = .ok net) {m n : Nat} (hd : DividesEvenly net 0 m (net.length + 1) n) {F : Int × Int → ℚ}
    (hF : Steady a.In a.nb a.board (Connected a.nb a.board) F) :
    (a.columns.countP fun p => BringsIn a.nb a.board p) = m ∧ (a.columns.countP fun p => TakesOut a.nb a.board p) = n ∧
      ∀ q, TakesOut a.nb a.board q → F q * n = ((a.columns.filter fun p => BringsIn a.nb a.board p).map F).sum := by
  obtain ⟨flow, hf⟩ := c98_flow hs ho h hF
  obtain ⟨h1, h2, h3⟩ := hd _ _ _ hf
  rw [Multiset.coe_card, List.length_map, ← List.countP_eq_length_filter] at h1 h2
  refine ⟨h1, h2, fun q hq => ?_⟩
  have hi : a.In q := by
    obtain ⟨d, hd, _⟩ := hq.2.1
    exact inside_of_board (Emits.ne_empty hd)
  have := h3 (F q) (Multiset.mem_coe.2 (List.mem_map.2 ⟨q, List.mem_filter.2 ⟨(mem_columns a q).2 hi, by simpa using hq⟩, rfl⟩))
  rw [Multiset.sum_coe] at this
  exact this

/-! ### A layout -/

/-- Three items enter the layout of two splitters in its top row and one in its bottom row. -/
def threeAndOne (p : Int × Int) : ℚ := if p.1 ≤ 1 then (if p.2 = 0 then 3 else 1) else 2

theorem steady_of_full {P : Type} {In : P → Prop} {nb : P → Dir → Option P} {T : P → Tile} {conn : P → P → Dir → Prop} {F : P → ℚ}
    (hf : FullSplitters In T conn) (h1 : ∀ p q d, In p → conn p q d → ¬ (T p).IsSplitter → F q = F p)
    (h2 : ∀ p q d k, In p → UgPair nb T p q d k → F q = F p)
    (h3 : ∀ p q d, In p → In q → SplitterPair nb T p q d → ∀ r, conn p r d ∨ conn q r d → F r * 2 = F p + F q) : Steady In nb T conn F := by
  refine ⟨h1, h2, fun p q d hp hq hpair r hr => ?_⟩
  have := h3 p q d hp hq hpair r hr
  obtain ⟨a1, b1⟩ := hf p d true hp hpair.1
  obtain ⟨a2, b2⟩ := hf q d false hq hpair.2.2
  unfold outlets arrives
  rw [if_pos a1, if_pos a2, if_pos b1, if_pos b2, ← this]
  norm_num

theorem threeAndOne_steady : Steady twoSplitters.In twoSplitters.nb twoSplitters.board (Connected twoSplitters.nb twoSplitters.board) threeAndOne := by
  have col : ∀ {p : Int × Int}, twoSplitters.In p → p ∈ twoSplitters.columns := fun h => (mem_columns _ _).2 h
  refine steady_of_full ?_ ?_ ?_ ?_
  · intro p d h hp hd
    have : ∀ p ∈ twoSplitters.columns, ∀ d ∈ Dir.list, ∀ h ∈ [true, false], twoSplitters.board p = .splitter d h →
        (∃ q ∈ twoSplitters.columns, twoSplitters.nb p d = some q ∧ (twoSplitters.board p).Emits d ∧ (twoSplitters.board q).Takes d) ∧
        ∃ q ∈ twoSplitters.columns, twoSplitters.nb q d = some p ∧ (twoSplitters.board q).Emits d ∧ (twoSplitters.board p).Takes d := by
      decide +kernel
    obtain ⟨⟨q, _, h1⟩, r, h2, h3⟩ := this p (col hp) d (Dir.mem_list d) h (by cases h <;> simp) hd
    exact ⟨⟨q, h1⟩, r, (mem_columns _ _).1 h2, h3⟩
  · intro p q d hp hc hns
    have : ∀ p ∈ twoSplitters.columns, ∀ d ∈ Dir.list, ∀ q ∈ twoSplitters.columns, twoSplitters.nb p d = some q → (twoSplitters.board p).Emits d →
        (∀ e ∈ Dir.list, ∀ b ∈ [true, false], twoSplitters.board p ≠ .splitter e b) → threeAndOne q = threeAndOne p := by decide +kernel
    exact this p (col hp) d (Dir.mem_list d) q (col (connected_in hc).2) hc.1 hc.2.1 fun e _ b _ he => hns ⟨e, b, he⟩
  · intro p q d k hp hu
    have : ∀ p ∈ twoSplitters.columns, ∀ d ∈ Dir.list, ∀ q ∈ twoSplitters.columns, twoSplitters.board p = .underground d true →
        twoSplitters.board q = .underground d false → threeAndOne q = threeAndOne p := by decide +kernel
    exact this p (col hp) d (Dir.mem_list d) q (col (inside_of_board (by rw [hu.2.2.2.1]; simp))) hu.2.2.1 hu.2.2.2.1
  · intro p q d hp hq hpair r hr
    have : ∀ p ∈ twoSplitters.columns, ∀ d ∈ Dir.list, ∀ q ∈ twoSplitters.columns, ∀ r ∈ twoSplitters.columns, twoSplitters.board p = .splitter d true →
        twoSplitters.nb p d.ccw = some q → twoSplitters.nb p d = some r ∨ twoSplitters.nb q d = some r →
        threeAndOne r * 2 = threeAndOne p + threeAndOne q := by decide +kernel
    refine this p (col hp) d (Dir.mem_list d) q (col hq) r (col ?_) hpair.1 hpair.2.1 (hr.imp (·.1) (·.1))
    exact hr.elim (fun h => (connected_in h).2) fun h => (connected_in h).2

theorem twoSplitters_divides : DividesEvenly [((some 0, some 0), (some 1, some 1)), ((some 1, some 1), (some 3, some 3))] 0 2 3 2 :=
  divides_of_certified (stages := [([3], [])]) ((gio_iff _ _ _ _ _).1 (by decide +kernel)) (by decide +kernel) (by decide +kernel)

open Classical in
/-- C98 is not vacuous: the network read from two splitters in a row divides evenly, so the belts at their end carry two items each if
three and one enter. -/
example : (twoSplitters.columns.countP fun p => BringsIn twoSplitters.nb twoSplitters.board p) = 2 ∧
    ∀ q, TakesOut twoSplitters.nb twoSplitters.board q → threeAndOne q * 2 =
      ((twoSplitters.columns.filter fun p => BringsIn twoSplitters.nb twoSplitters.board p).map threeAndOne).sum := by
  obtain ⟨h1, _, h2⟩ := c98_divides twoSplitters_sound (ord := id) (fun _ => .refl _)
    (net := [((some 0, some 0), (some 1, some 1)), ((some 1, some 1), (some 3, some 3))]) (by decide +kernel) twoSplitters_divides threeAndOne_steady
  exact ⟨h1, h2⟩

/-- The hypotheses of `c98_ends` can be met. -/
example : (∃ p, BringsIn twoSplitters.nb twoSplitters.board p) ∧ ∃ p, TakesOut twoSplitters.nb twoSplitters.board p := by
  classical
  obtain ⟨h1, h2, _⟩ := c98_divides twoSplitters_sound (ord := id) (fun _ => .refl _)
    (net := [((some 0, some 0), (some 1, some 1)), ((some 1, some 1), (some 3, some 3))]) (by decide +kernel) twoSplitters_divides threeAndOne_steady
  have e1 := List.countP_pos_iff.1 (show 0 < List.countP (fun p => decide (BringsIn twoSplitters.nb twoSplitters.board p)) twoSplitters.columns by rw [h1]; omega)
  have e2 := List.countP_pos_iff.1 (show 0 < List.countP (fun p => decide (TakesOut twoSplitters.nb twoSplitters.board p)) twoSplitters.columns by rw [h2]; omega)
  obtain ⟨p, _, hp⟩ := e1
  obtain ⟨q, _, hq⟩ := e2
  exact ⟨⟨p, by simpa using hp⟩, q, by simpa using hq⟩

end FSat
