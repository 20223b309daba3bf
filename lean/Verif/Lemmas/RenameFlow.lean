import Verif.Props.ReverseFlow
/-!
# Networks with renamed colours, reordered splitters or exchanged sides do the same
-/

namespace FSat

/-- The splitter with its colours renamed. -/
def renameNode (f : Int → Int) (k : Node) : Node := ((k.1.1.map f, k.1.2.map f), (k.2.1.map f, k.2.2.map f))

theorem rename_eq (f : Int → Int) (n : Network) : rename f n = n.map (renameNode f) := rfl

theorem shares_rename (f : Int → Int) {k : Node} {x : Amounts} (h : Shares k x) : Shares (renameNode f k) x := by
  have e : (renameNode f k).outputs = k.outputs := by
    simp [renameNode, Node.outputs, List.countP_cons]
  refine ⟨fun hn => h.in1 (by simpa [renameNode] using hn), fun hn => h.in2 (by simpa [renameNode] using hn), ?_, ?_⟩
  · rw [e]
    have := h.out1
    by_cases hn : k.2.1 = none
    · rw [if_pos hn] at this
      rw [if_pos (by simp [renameNode, hn])]
      exact this
    · rw [if_neg hn] at this
      rw [if_neg (by simpa [renameNode] using hn)]
      exact this
  · rw [e]
    have := h.out2
    by_cases hn : k.2.2 = none
    · rw [if_pos hn] at this
      rw [if_pos (by simp [renameNode, hn])]
      exact this
    · rw [if_neg hn] at this
      rw [if_neg (by simpa [renameNode] using hn)]
      exact this

theorem picked_rename {f : Int → Int} {d : Int} (l : List (Colour × ℚ)) (hf : ∀ x ∈ l, ∀ c, x.1 = some c → f c = f d → c = d) :
    (l.map fun x => (x.1.map f, x.2)).filterMap (fun p => if p.1 = some (f d) then some p.2 else none) =
      l.filterMap fun p => if p.1 = some d then some p.2 else none := by
  rw [List.filterMap_map]
  refine List.filterMap_congr fun x hx => ?_
  have : x.1.map f = some (f d) ↔ x.1 = some d := by
    constructor
    · intro h
      obtain ⟨c, hc, e⟩ := Option.map_eq_some_iff.1 h
      rw [hc, hf x hx c hc e]
    · intro h
      rw [h]
      rfl
  simp only [Function.comp, this]

theorem picked_none {f : Int → Int} {c : Int} (l : List (Colour × ℚ)) (hf : ∀ x ∈ l, ∀ d, x.1 = some d → f d ≠ c) :
    (l.map fun x => (x.1.map f, x.2)).filterMap (fun p => if p.1 = some c then some p.2 else none) = [] := by
  rw [List.filterMap_map, List.filterMap_eq_nil_iff]
  intro x hx
  simp only [Function.comp]
  rw [if_neg]
  intro h
  obtain ⟨d, hd, e⟩ := Option.map_eq_some_iff.1 h
  exact hf x hx d hd e

/-- A flow, with the colours renamed. -/
def renameFlow (f : Int → Int) (flow : List (Node × Amounts)) : List (Node × Amounts) := flow.map fun x => (renameNode f x.1, x.2)

theorem arriving_rename (f : Int → Int) (flow : List (Node × Amounts)) (c : Colour) : arriving (renameFlow f flow) c =
    (((flow.flatMap fun x => [(x.1.1.1, x.2.1.1), (x.1.1.2, x.2.1.2)]).map fun x => (x.1.map f, x.2)).filterMap
      fun p => if p.1 = c then some p.2 else none : List ℚ) := by
  unfold arriving renameFlow
  rw [List.flatMap_map, List.map_flatMap]
  rfl

theorem leaving_rename (f : Int → Int) (flow : List (Node × Amounts)) (c : Colour) : leaving (renameFlow f flow) c =
    (((flow.flatMap fun x => [(x.1.2.1, x.2.2.1), (x.1.2.2, x.2.2.2)]).map fun x => (x.1.map f, x.2)).filterMap
      fun p => if p.1 = c then some p.2 else none : List ℚ) := by
  unfold leaving renameFlow
  rw [List.flatMap_map, List.map_flatMap]
  rfl

/-- Renaming the colours in use, each to another one, keeps a flow. -/
theorem flow_rename {n : Network} {a b : Int} {flow : List (Node × Amounts)} {I O : Multiset ℚ} (h : NetworkFlow n a b flow I O) {f : Int → Int}
    (hf : ∀ c d, some c ∈ some a :: some b :: (insOf n ++ outsOf n) → some d ∈ some a :: some b :: (insOf n ++ outsOf n) → f c = f d → c = d) :
    NetworkFlow (rename f n) (f a) (f b) (renameFlow f flow) I O := by
  have hin : ∀ x ∈ flow.flatMap (fun x => [(x.1.1.1, x.2.1.1), (x.1.1.2, x.2.1.2)]), x.1 ∈ some a :: some b :: (insOf n ++ outsOf n) := by
    intro x hx
    obtain ⟨y, hy, hx⟩ := List.mem_flatMap.1 hx
    have hn : y.1 ∈ n := h.nodes.subset (List.mem_map_of_mem hy)
    simp only [List.mem_cons, List.mem_append, insOf, outsOf, List.mem_flatMap]
    simp only [List.mem_cons, List.not_mem_nil, or_false] at hx
    rcases hx with rfl | rfl
    · exact .inr (.inr (.inl ⟨y.1, hn, by simp⟩))
    · exact .inr (.inr (.inl ⟨y.1, hn, by simp⟩))
  have hout : ∀ x ∈ flow.flatMap (fun x => [(x.1.2.1, x.2.2.1), (x.1.2.2, x.2.2.2)]), x.1 ∈ some a :: some b :: (insOf n ++ outsOf n) := by
    intro x hx
    obtain ⟨y, hy, hx⟩ := List.mem_flatMap.1 hx
    have hn : y.1 ∈ n := h.nodes.subset (List.mem_map_of_mem hy)
    simp only [List.mem_cons, List.mem_append, insOf, outsOf, List.mem_flatMap]
    simp only [List.mem_cons, List.not_mem_nil, or_false] at hx
    rcases hx with rfl | rfl
    · exact .inr (.inr (.inr ⟨y.1, hn, by simp⟩))
    · exact .inr (.inr (.inr ⟨y.1, hn, by simp⟩))
  refine ⟨?_, fun x hx => ?_, fun c => ?_⟩
  · rw [rename_eq, renameFlow, List.map_map]
    have := h.nodes.map (renameNode f)
    rwa [List.map_map] at this
  · obtain ⟨y, hy, rfl⟩ := List.mem_map.1 hx
    exact shares_rename f (h.shares y hy)
  · by_cases hc : ∃ d, some d ∈ some a :: some b :: (insOf n ++ outsOf n) ∧ f d = c
    · obtain ⟨d, hd, rfl⟩ := hc
      rw [leaving_rename, arriving_rename, picked_rename _ fun x hx c hc e => hf c d (hc ▸ hout x hx) hd e,
        picked_rename _ fun x hx c hc e => hf c d (hc ▸ hin x hx) hd e]
      have ha : f d = f a ↔ d = a := ⟨fun e => hf d a hd (.head _) e, fun e => e ▸ rfl⟩
      have hb : f d = f b ↔ d = b := ⟨fun e => hf d b hd (.tail _ (.head _)) e, fun e => e ▸ rfl⟩
      simp only [ha, hb]
      exact h.connected d
    · push Not at hc
      rw [leaving_rename, arriving_rename, picked_none _ fun x hx d hd => hc d (hd ▸ hout x hx), picked_none _ fun x hx d hd => hc d (hd ▸ hin x hx),
        if_neg fun e => hc a (.head _) e.symm, if_neg fun e => hc b (.tail _ (.head _)) e.symm]

/-- And nothing else flows through the renamed network. -/
theorem flow_rename_iff {n : Network} {a b : Int} {f : Int → Int}
    (hf : ∀ c d, some c ∈ some a :: some b :: (insOf n ++ outsOf n) → some d ∈ some a :: some b :: (insOf n ++ outsOf n) → f c = f d → c = d)
    (I O : Multiset ℚ) : (∃ flow, NetworkFlow (rename f n) (f a) (f b) flow I O) ↔ ∃ flow, NetworkFlow n a b flow I O := by
  constructor
  · rintro ⟨flow, h⟩
    classical
    let g : Int → Int := fun c => if hc : ∃ d, some d ∈ some a :: some b :: (insOf n ++ outsOf n) ∧ f d = c then hc.choose else 0
    have hg : ∀ d, some d ∈ some a :: some b :: (insOf n ++ outsOf n) → g (f d) = d := by
      intro d hd
      have hc : ∃ d', some d' ∈ some a :: some b :: (insOf n ++ outsOf n) ∧ f d' = f d := ⟨d, hd, rfl⟩
      show (if hc : _ then _ else _) = d
      rw [dif_pos hc]
      exact hf _ _ hc.choose_spec.1 hd hc.choose_spec.2
    have himg : ∀ c, some c ∈ some (f a) :: some (f b) :: (insOf (rename f n) ++ outsOf (rename f n)) →
        ∃ d, some d ∈ some a :: some b :: (insOf n ++ outsOf n) ∧ f d = c := by
      intro c hc
      have e : some (f a) :: some (f b) :: (insOf (rename f n) ++ outsOf (rename f n)) =
          (some a :: some b :: (insOf n ++ outsOf n)).map (Option.map f) := by
        simp [insOf_rename, outsOf_rename]
      rw [e] at hc
      obtain ⟨o, ho, e'⟩ := List.mem_map.1 hc
      obtain ⟨d, rfl, e2⟩ := Option.map_eq_some_iff.1 e'
      exact ⟨d, ho, e2⟩
    have hback : rename g (rename f n) = n := by
      rw [rename_eq, rename_eq, List.map_map]
      conv_rhs => rw [← List.map_id n]
      refine List.map_congr_left fun k hk => ?_
      have hk1 : ∀ o : Colour, o ∈ insOf n ++ outsOf n → (o.map f).map g = o := by
        intro o ho
        cases o with
        | none => rfl
        | some d => simp only [Option.map_some, hg d (.tail _ (.tail _ ho))]
      have m1 : k.1.1 ∈ insOf n ++ outsOf n := List.mem_append_left _ (List.mem_flatMap.2 ⟨k, hk, by simp⟩)
      have m2 : k.1.2 ∈ insOf n ++ outsOf n := List.mem_append_left _ (List.mem_flatMap.2 ⟨k, hk, by simp⟩)
      have m3 : k.2.1 ∈ insOf n ++ outsOf n := List.mem_append_right _ (List.mem_flatMap.2 ⟨k, hk, by simp⟩)
      have m4 : k.2.2 ∈ insOf n ++ outsOf n := List.mem_append_right _ (List.mem_flatMap.2 ⟨k, hk, by simp⟩)
      show ((_, _), (_, _)) = k
      rw [renameNode]
      simp only
      rw [hk1 _ m1, hk1 _ m2, hk1 _ m3, hk1 _ m4]
    have := flow_rename h (f := g) fun c d hc hd e => by
      obtain ⟨c, hc', rfl⟩ := himg c hc
      obtain ⟨d, hd', rfl⟩ := himg d hd
      rw [hg c hc', hg d hd'] at e
      rw [e]
    rw [hback, hg a (.head _), hg b (.tail _ (.head _))] at this
    exact ⟨_, this⟩
  · rintro ⟨flow, h⟩
    exact ⟨_, flow_rename h hf⟩

/-- Exchanging the sides of splitters keeps what flows. -/
theorem flow_sides : ∀ {m m' : Network}, List.Forall₂ SameNode m m' → ∀ flow : List (Node × Amounts), flow.map Prod.fst = m →
    (∀ x ∈ flow, Shares x.1 x.2) → ∃ flow' : List (Node × Amounts), flow'.map Prod.fst = m' ∧ (∀ x ∈ flow', Shares x.1 x.2) ∧
      (∀ c, leaving flow' c = leaving flow c) ∧ ∀ c, arriving flow' c = arriving flow c
  | [], [], _, flow, h, _ => ⟨[], rfl, by simp, by
      have : flow = [] := by simpa using h
      subst this
      exact ⟨fun _ => rfl, fun _ => rfl⟩⟩
  | k :: m, k' :: m', hs, [], h, _ => by simp at h
  | k :: m, k' :: m', .cons hk hr, e :: flow, h, hs => by
    simp only [List.map_cons, List.cons.injEq] at h
    obtain ⟨flow', h1, h2, h3, h4⟩ := flow_sides hr flow h.2 fun x hx => hs x (.tail _ hx)
    have h0 := hs e (.head _)
    obtain ⟨⟨⟨i1, i2⟩, o1, o2⟩, ⟨x1, x2⟩, x3, x4⟩ := e
    obtain rfl := h.1
    obtain ⟨⟨j1, j2⟩, p1, p2⟩ := k'
    obtain ⟨s1, s2⟩ := hk
    obtain ⟨y, k1, k2, k3⟩ : ∃ y : Amounts, Shares ((j1, j2), p1, p2) y ∧ List.Perm [(j1, y.1.1), (j2, y.1.2)] [(i1, x1), (i2, x2)] ∧
        List.Perm [(p1, y.2.1), (p2, y.2.2)] [(o1, x3), (o2, x4)] := by
      unfold SameSide at s1 s2
      simp only [Prod.mk.injEq] at s1 s2
      rcases s1 with ⟨rfl, rfl⟩ | ⟨rfl, rfl⟩ <;> rcases s2 with ⟨rfl, rfl⟩ | ⟨rfl, rfl⟩
      · exact ⟨_, h0, .refl _, .refl _⟩
      · exact ⟨_, shares_swap_out h0, .refl _, .swap _ _ _⟩
      · exact ⟨_, shares_swap_in h0, .swap _ _ _, .refl _⟩
      · exact ⟨_, shares_swap_in (shares_swap_out h0), .swap _ _ _, .swap _ _ _⟩
    refine ⟨(((j1, j2), p1, p2), y) :: flow', by rw [List.map_cons, h1], fun x hx => ?_, fun c => ?_, fun c => ?_⟩
    · rcases List.mem_cons.1 hx with rfl | hx
      · exact k1
      · exact h2 x hx
    · have := h3 c
      unfold leaving at this ⊢
      rw [Multiset.coe_eq_coe] at this ⊢
      rw [List.flatMap_cons, List.flatMap_cons, List.filterMap_append, List.filterMap_append]
      exact List.Perm.append (k3.filterMap _) this
    · have := h4 c
      unfold arriving at this ⊢
      rw [Multiset.coe_eq_coe] at this ⊢
      rw [List.flatMap_cons, List.flatMap_cons, List.filterMap_append, List.filterMap_append]
      exact List.Perm.append (k2.filterMap _) this

theorem flow_sides_iff {m m' : Network} (hs : List.Forall₂ SameNode m m') (a b : Int) (I O : Multiset ℚ) :
    (∃ flow, NetworkFlow m a b flow I O) ↔ ∃ flow, NetworkFlow m' a b flow I O := by
  have go : ∀ {m m' : Network}, List.Forall₂ SameNode m m' → (∃ flow, NetworkFlow m a b flow I O) → ∃ flow, NetworkFlow m' a b flow I O := by
    rintro m m' hs ⟨flow, h⟩
    obtain ⟨flow1, p1, e1⟩ := perm_of_map h.nodes
    obtain ⟨flow', h1, h2, h3, h4⟩ := flow_sides hs flow1 e1 fun x hx => h.shares x (p1.subset hx)
    exact ⟨flow', h1 ▸ .refl _, h2, fun c => by rw [h3, h4, leaving_perm p1, arriving_perm p1]; exact h.connected c⟩
  have sym : ∀ {s t : Colour × Colour}, SameSide s t → SameSide t s := by
    rintro s t (rfl | rfl)
    · exact .inl rfl
    · exact .inr rfl
  refine ⟨go hs, go ?_⟩
  exact (List.Forall₂.flip hs).imp fun _ _ h => ⟨sym h.1, sym h.2⟩

end FSat
