import Verif.Lemmas.Benes
import Mathlib.Data.List.Perm.Basic
/-!
# Lemmas about renaming, deduplication and tidying of networks
-/

namespace FSat

/-! ### `fix_colours` -/

theorem get_zip_range (X : List Colour) (s m : Nat) (hm : X.length ≤ m) (c : Colour) :
    PyDict.get ((X.zip (List.range' s m)).map fun p => ((p.1, some (p.2 : Int)) : Colour × Colour)) c =
      if c ∈ X then some (some ((s : Int) + (X.idxOf c : Int))) else none := by
  induction X generalizing s m with
  | nil => simp [PyDict.get]
  | cons x X ih =>
    cases m with
    | zero => simp at hm
    | succ m =>
      rw [List.range'_succ, List.zip_cons_cons, List.map_cons, PyDict.get, ih _ _ (by simpa using hm)]
      by_cases hx : x = c
      · subst hx
        simp
      · simp only [hx, if_false, List.mem_cons, Ne.symm hx, false_or, List.idxOf_cons_ne _ hx]
        split
        · congr 2
          push_cast
          ring
        · rfl

theorem keys_zip_range (X : List Colour) (L : List Nat) (hm : X.length ≤ L.length) :
    ((X.zip L).map fun p => ((p.1, some (p.2 : Int)) : Colour × Colour)).map Prod.fst = X := by
  rw [List.map_map]
  have : (Prod.fst ∘ fun p : Colour × Nat => ((p.1, some (p.2 : Int)) : Colour × Colour)) = Prod.fst := rfl
  rw [this, List.map_fst_zip hm]

theorem mem_colourSet (l : List Colour) (c : Colour) : c ∈ colourSet l ↔ c ∈ l ∧ c ≠ none := by
  simp [colourSet]

theorem nodup_colourSet (l : List Colour) : (colourSet l).Nodup := List.nodup_dedup _

/-- What `fix_colours` computes. -/
theorem fixColours_spec (ord : List Colour → List Colour) (hord : SetOrder ord) (n : Network) :
    ∃ (f : Int → Int) (total : Nat), fixColours ord n = .ok (rename f n) ∧
      (∀ c d, some c ∈ insOf n ++ outsOf n → some d ∈ insOf n ++ outsOf n → f c = f d → c = d) ∧
      (∀ c, some c ∈ insOf n ++ outsOf n → 0 ≤ f c ∧ f c < total) ∧
      (∀ k : Int, 0 ≤ k → k < total → ∃ c, some c ∈ insOf n ++ outsOf n ∧ f c = k) ∧
      (∀ c d, some c ∈ insOf n → some c ∉ outsOf n → some d ∈ outsOf n → f c < f d) ∧
      (∀ c d, some c ∈ outsOf n → some c ∉ insOf n → some d ∈ insOf n → f d < f c) := by
  set inC := colourSet (insOf n) with hinC
  set outC := colourSet (outsOf n) with houtC
  set all := (inC ++ outC).dedup with hall
  set rem := inC.filter (· ∈ outC) with hrem
  set inO := inC.filter (· ∉ outC) with hinO
  set outO := outC.filter (· ∉ inC) with houtO
  have hI : ∀ c, c ∈ inO ↔ c ∈ insOf n ∧ c ∉ outsOf n ∧ c ≠ none := by
    intro c
    rw [hinO, List.mem_filter, decide_eq_true_iff, hinC, houtC, mem_colourSet, mem_colourSet]
    tauto
  have hR : ∀ c, c ∈ rem ↔ c ∈ insOf n ∧ c ∈ outsOf n ∧ c ≠ none := by
    intro c
    rw [hrem, List.mem_filter, decide_eq_true_iff, hinC, houtC, mem_colourSet, mem_colourSet]
    tauto
  have hO : ∀ c, c ∈ outO ↔ c ∈ outsOf n ∧ c ∉ insOf n ∧ c ≠ none := by
    intro c
    rw [houtO, List.mem_filter, decide_eq_true_iff, hinC, houtC, mem_colourSet, mem_colourSet]
    tauto
  have nI : inO.Nodup := (nodup_colourSet _).filter _
  have nR : rem.Nodup := (nodup_colourSet _).filter _
  have nO : outO.Nodup := (nodup_colourSet _).filter _
  have hnd : (inO ++ outO ++ rem).Nodup := by
    rw [List.nodup_append, List.nodup_append]
    refine ⟨⟨nI, nO, fun a ha b hb => ?_⟩, nR, fun a ha b hb => ?_⟩
    · rintro rfl
      rw [hI] at ha; rw [hO] at hb
      exact hb.2.1 ha.1
    · rintro rfl
      rw [hR] at hb
      rcases List.mem_append.1 ha with ha | ha
      · rw [hI] at ha; exact ha.2.1 hb.2.1
      · rw [hO] at ha; exact ha.2.1 hb.1
  have hperm : all.Perm (inO ++ outO ++ rem) := by
    rw [List.perm_ext_iff_of_nodup (List.nodup_dedup _) hnd]
    intro c
    rw [List.mem_dedup, List.mem_append, List.mem_append, List.mem_append, hI, hO, hR, hinC, houtC, mem_colourSet,
      mem_colourSet]
    tauto
  have hlen : all.length = inO.length + outO.length + rem.length := by
    rw [hperm.length_eq, List.length_append, List.length_append]
  have lI := (hord inO).length_eq
  have lR := (hord rem).length_eq
  have lO := (hord outO).length_eq
  have mI : ∀ c, c ∈ ord inO ↔ c ∈ inO := fun c => (hord inO).mem_iff
  have mR : ∀ c, c ∈ ord rem ↔ c ∈ rem := fun c => (hord rem).mem_iff
  have mO : ∀ c, c ∈ ord outO ↔ c ∈ outO := fun c => (hord outO).mem_iff
  have hnd' : (ord inO ++ ord outO ++ ord rem).Nodup :=
    (((hord inO).append (hord outO)).append (hord rem)).nodup_iff.2 hnd
  set p1 := ((ord inO).zip (List.range' 0 all.length)).map fun p => ((p.1, some (p.2 : Int)) : Colour × Colour) with hp1
  set p2 := ((ord outO).zip (List.range' (inO.length + rem.length) (all.length - (inO.length + rem.length)))).map
    fun p => ((p.1, some (p.2 : Int)) : Colour × Colour) with hp2
  set p3 := ((ord rem).zip (List.range' inO.length rem.length)).map fun p => ((p.1, some (p.2 : Int)) : Colour × Colour) with hp3
  have k1 : p1.map Prod.fst = ord inO := keys_zip_range _ _ (by simp; omega)
  have k2 : p2.map Prod.fst = ord outO := keys_zip_range _ _ (by simp; omega)
  have k3 : p3.map Prod.fst = ord rem := keys_zip_range _ _ (by simp; omega)
  set m3 : PyDict Colour Colour := p1 ++ p2 ++ p3 with hm3
  have g : ∀ c, m3.get c = if c ∈ inO then some (some ((ord inO).idxOf c : Int)) else
      if c ∈ outO then some (some ((inO.length : Int) + rem.length + (ord outO).idxOf c)) else
      if c ∈ rem then some (some ((inO.length : Int) + (ord rem).idxOf c)) else none := by
    intro c
    rw [hm3, PyDict.get_append, PyDict.get_append, hp1, hp2, hp3, get_zip_range _ _ _ (by omega), get_zip_range _ _ _ (by omega),
      get_zip_range _ _ _ (by omega)]
    simp only [mI, mR, mO]
    by_cases h1 : c ∈ inO
    · simp [h1]
    · by_cases h2 : c ∈ outO
      · simp [h1, h2]
      · simp [h1, h2]
  have hfix : fixColours ord n = remapColours n m3 := by
    have e1 : ((ord inO).zip (List.range all.length)).foldl (fun (d : PyDict Colour Colour) p => d.set p.1 (some (p.2 : Int))) [] = p1 := by
      rw [List.range_eq_range']
      have := PyDict.foldl_set_new p1 [] (by
        rw [k1]
        simpa using (List.nodup_append.1 (List.nodup_append.1 hnd').1).1)
      rw [hp1, List.foldl_map] at this
      rw [this, hp1]
      rfl
    have e2 : ((ord outO).zip (List.range' (inO.length + rem.length) (all.length - (inO.length + rem.length)))).foldl
        (fun (d : PyDict Colour Colour) p => d.set p.1 (some (p.2 : Int))) p1 = p1 ++ p2 := by
      have := PyDict.foldl_set_new p2 p1 (by
        rw [k1, k2]
        exact (List.nodup_append.1 hnd').1)
      rw [hp2, List.foldl_map] at this
      rw [this, hp2]
    have e3 : ((ord rem).zip (List.range' inO.length rem.length)).foldl
        (fun (d : PyDict Colour Colour) p => d.set p.1 (some (p.2 : Int))) (p1 ++ p2) = p1 ++ p2 ++ p3 := by
      have := PyDict.foldl_set_new p3 (p1 ++ p2) (by
        rw [List.map_append, k1, k2, k3]
        exact hnd')
      rw [hp3, List.foldl_map] at this
      rw [this, hp3]
    unfold fixColours
    simp only
    rw [← hinC, ← houtC, ← hall, ← hrem, ← hinO, ← houtO, e1, e2, e3, if_pos]
    have l1 := congrArg List.length k1
    have l2 := congrArg List.length k2
    have l3 := congrArg List.length k3
    simp only [List.length_map] at l1 l2 l3
    simp only [List.length_append, l1, l2, l3]
    omega
  have gn : m3.get none = none := by
    rw [g, if_neg, if_neg, if_neg]
    · rw [hR]; simp
    · rw [hO]; simp
    · rw [hI]; simp
  set f : Int → Int := fun x => (mapColour m3 (some x)).getD x with hf
  have hmap : ∀ c, mapColour m3 c = c.map f := by
    intro c
    cases c with
    | none => simp [mapColour, gn]
    | some x =>
      simp only [hf, Option.map_some, mapColour]
      rw [g]
      by_cases h1 : some x ∈ inO
      · simp [h1]
      · by_cases h2 : some x ∈ outO
        · simp [h1, h2]
        · by_cases h3 : some x ∈ rem
          · simp [h1, h2, h3]
          · simp [h1, h2, h3]
  have fI : ∀ c, some c ∈ inO → f c = (ord inO).idxOf (some c) := by
    intro c hc
    simp only [hf, mapColour]
    rw [g, if_pos hc]
    rfl
  have fO : ∀ c, some c ∈ outO → f c = (inO.length : Int) + rem.length + (ord outO).idxOf (some c) := by
    intro c hc
    have h1 : some c ∉ inO := fun h => by rw [hI] at h; rw [hO] at hc; exact hc.2.1 h.1
    simp only [hf, mapColour]
    rw [g, if_neg h1, if_pos hc]
    rfl
  have fR : ∀ c, some c ∈ rem → f c = (inO.length : Int) + (ord rem).idxOf (some c) := by
    intro c hc
    have h1 : some c ∉ inO := fun h => by rw [hI] at h; rw [hR] at hc; exact h.2.1 hc.2.1
    have h2 : some c ∉ outO := fun h => by rw [hO] at h; rw [hR] at hc; exact h.2.1 hc.1
    simp only [hf, mapColour]
    rw [g, if_neg h1, if_neg h2, if_pos hc]
    rfl
  have bI : ∀ c, c ∈ inO → (ord inO).idxOf c < inO.length := fun c hc => by
    rw [← lI]; exact List.idxOf_lt_length_of_mem ((mI c).2 hc)
  have bO : ∀ c, c ∈ outO → (ord outO).idxOf c < outO.length := fun c hc => by
    rw [← lO]; exact List.idxOf_lt_length_of_mem ((mO c).2 hc)
  have bR : ∀ c, c ∈ rem → (ord rem).idxOf c < rem.length := fun c hc => by
    rw [← lR]; exact List.idxOf_lt_length_of_mem ((mR c).2 hc)
  have idx : ∀ (l : List Colour) (c d : Colour), c ∈ l → d ∈ l → l.idxOf c = l.idxOf d → c = d := by
    intro l c d hc hd e
    have h1 := List.getElem_idxOf (List.idxOf_lt_length_of_mem hc)
    have h2 := List.getElem_idxOf (List.idxOf_lt_length_of_mem hd)
    rw [← h1, ← h2]
    simp only [e]
  have cls : ∀ c : Int, some c ∈ insOf n ++ outsOf n → some c ∈ inO ∨ some c ∈ outO ∨ some c ∈ rem := by
    intro c hc
    rw [hI, hO, hR]
    have hs : (some c : Colour) ≠ none := by simp
    have hm := List.mem_append.1 hc
    clear_value f m3 p1 p2 p3 all inO outO rem inC outC
    tauto
  refine ⟨f, all.length, ?_, ?_, ?_, ?_, ?_, ?_⟩
  · rw [hfix]
    unfold remapColours rename
    rw [gn]
    simp only [Option.isSome_none, Bool.false_eq_true, if_false, hmap]
  · intro c d hc hd e
    rcases cls c hc with h | h | h <;> rcases cls d hd with h' | h' | h'
    · rw [fI c h, fI d h'] at e
      simpa using idx _ _ _ ((mI _).2 h) ((mI _).2 h') (by omega)
    · rw [fI c h, fO d h'] at e
      have := bI _ h
      omega
    · rw [fI c h, fR d h'] at e
      have := bI _ h
      omega
    · rw [fO c h, fI d h'] at e
      have := bI _ h'
      omega
    · rw [fO c h, fO d h'] at e
      simpa using idx _ _ _ ((mO _).2 h) ((mO _).2 h') (by omega)
    · rw [fO c h, fR d h'] at e
      have := bR _ h'
      omega
    · rw [fR c h, fI d h'] at e
      have := bI _ h'
      omega
    · rw [fR c h, fO d h'] at e
      have := bR _ h
      omega
    · rw [fR c h, fR d h'] at e
      simpa using idx _ _ _ ((mR _).2 h) ((mR _).2 h') (by omega)
  · intro c hc
    rcases cls c hc with h | h | h
    · rw [fI c h]; have := bI _ h; omega
    · rw [fO c h]; have := bO _ h; omega
    · rw [fR c h]; have := bR _ h; omega
  · have inv : ∀ (l : List Colour), l.Nodup → ∀ i, (hi : i < l.length) → ∃ c ∈ l, l.idxOf c = i := by
      intro l hl i hi
      exact ⟨l[i], List.getElem_mem hi, hl.idxOf_getElem i hi⟩
    intro k h0 hk
    by_cases h1 : k < inO.length
    · obtain ⟨c, hc, e⟩ := inv (ord inO) ((hord _).nodup_iff.2 nI) k.toNat (by omega)
      rw [mI] at hc
      have hc' := (hI c).1 hc
      cases c with
      | none => exact absurd rfl hc'.2.2
      | some c =>
        refine ⟨c, List.mem_append_left _ hc'.1, ?_⟩
        rw [fI c hc, e]; omega
    · by_cases h2 : k < inO.length + rem.length
      · obtain ⟨c, hc, e⟩ := inv (ord rem) ((hord _).nodup_iff.2 nR) (k - inO.length).toNat (by omega)
        rw [mR] at hc
        have hc' := (hR c).1 hc
        cases c with
        | none => exact absurd rfl hc'.2.2
        | some c =>
          refine ⟨c, List.mem_append_left _ hc'.1, ?_⟩
          rw [fR c hc, e]; omega
      · obtain ⟨c, hc, e⟩ := inv (ord outO) ((hord _).nodup_iff.2 nO) (k - inO.length - rem.length).toNat (by omega)
        rw [mO] at hc
        have hc' := (hO c).1 hc
        cases c with
        | none => exact absurd rfl hc'.2.2
        | some c =>
          refine ⟨c, List.mem_append_right _ hc'.1, ?_⟩
          rw [fO c hc, e]; omega
  · intro c d h1 h2 h3
    have hc := (hI (some c)).2 ⟨h1, h2, by simp⟩
    rw [fI c hc]
    have := bI _ hc
    rcases cls d (List.mem_append_right _ h3) with h | h | h
    · exact absurd h3 ((hI _).1 h).2.1
    · rw [fO d h]; omega
    · rw [fR d h]; omega
  · intro c d h1 h2 h3
    have hc := (hO (some c)).2 ⟨h1, h2, by simp⟩
    rw [fO c hc]
    rcases cls d (List.mem_append_left _ h3) with h | h | h
    · rw [fI d h]; have := bI _ h; omega
    · exact absurd h3 ((hO _).1 h).2.1
    · rw [fR d h]; have := bR _ h; omega

theorem insOf_rename (f : Int → Int) (n : Network) : insOf (rename f n) = (insOf n).map (Option.map f) :=
  insOf_map (Option.map f) n

theorem outsOf_rename (f : Int → Int) (n : Network) : outsOf (rename f n) = (outsOf n).map (Option.map f) :=
  outsOf_map (Option.map f) n

/-- The ends of a renamed network. -/
theorem Ends.rename {n : Network} {a p b q : Int} (h : Ends n a p b q) (f : Int → Int)
    (hf : ∀ c d, some c ∈ insOf n ++ outsOf n → some d ∈ insOf n ++ outsOf n → f c = f d → c = d) :
    Ends (rename f n) (f a) p (f b) q := by
  have hma := List.mem_append_left (outsOf n) h.mem_in
  have hmb := List.mem_append_right (insOf n) h.mem_out
  have hs : ∀ c, some c ∈ insOf n ++ outsOf n → surplus (FSat.rename f n) (some (f c)) = surplus n (some c) := by
    intro c hc
    have key : ∀ l : List Colour, (∀ x ∈ l, x ∈ insOf n ++ outsOf n) →
        (l.map (Option.map f)).count (some (f c)) = l.count (some c) := by
      intro l hl
      have := count_map_on (Option.map f) l (some c) (by
        intro x hx e
        cases x with
        | none => simp at e
        | some x => exact congrArg some (hf x c (hl _ hx) hc (by simpa using e)))
      simpa using this
    unfold surplus
    rw [insOf_rename, outsOf_rename, key _ fun x hx => List.mem_append_left _ hx, key _ fun x hx => List.mem_append_right _ hx]
  refine ⟨h.pos, h.neg, by rw [hs a hma, h.input], by rw [hs b hmb, h.output], fun c hca hcb => ?_⟩
  by_cases hm : some c ∈ insOf (FSat.rename f n) ++ outsOf (FSat.rename f n)
  · rw [insOf_rename, outsOf_rename, ← List.map_append, List.mem_map] at hm
    obtain ⟨y, hy, e⟩ := hm
    cases y with
    | none => simp at e
    | some y =>
      simp only [Option.map_some, Option.some.injEq] at e
      subst e
      rw [hs y hy]
      exact h.rest y (fun e => hca (by rw [e])) (fun e => hcb (by rw [e]))
  · rw [List.mem_append, not_or] at hm
    rw [surplus, List.count_eq_zero_of_not_mem hm.1, List.count_eq_zero_of_not_mem hm.2]
    rfl

/-! ### Equal up to order -/

theorem surplus_perm {m n : Network} (h : m.Perm n) (c : Colour) : surplus m c = surplus n c := by
  unfold surplus insOf outsOf
  rw [(h.flatMap_right _).count_eq, (h.flatMap_right _).count_eq]

theorem Ends.congr {m n : Network} (h : ∀ c, surplus m c = surplus n c) (a p b q : Int) : Ends m a p b q ↔ Ends n a p b q := by
  constructor
  · rintro ⟨h1, h2, h3, h4, h5⟩
    exact ⟨h1, h2, by rw [← h, h3], by rw [← h, h4], fun c hc hd => by rw [← h, h5 c hc hd]⟩
  · rintro ⟨h1, h2, h3, h4, h5⟩
    exact ⟨h1, h2, by rw [h, h3], by rw [h, h4], fun c hc hd => by rw [h, h5 c hc hd]⟩

theorem surplus_flip (n : Network) (c : Colour) : surplus (flipNetwork n) c = -surplus n c := by
  have h1 : insOf (flipNetwork n) = outsOf n := by
    induction n with
    | nil => rfl
    | cons x n ih => simp only [flipNetwork, List.map_cons, insOf_cons, outsOf_cons] at *; rw [ih]
  have h2 : outsOf (flipNetwork n) = insOf n := by
    clear h1
    induction n with
    | nil => rfl
    | cons x n ih => simp only [flipNetwork, List.map_cons, insOf_cons, outsOf_cons] at *; rw [ih]
  unfold surplus
  rw [h1, h2]
  ring

theorem Ends.flip {n : Network} {a p b q : Int} (h : Ends n a p b q) : Ends (flipNetwork n) b q a p :=
  ⟨h.neg, h.pos, by rw [surplus_flip, h.output]; ring, by rw [surplus_flip, h.input],
    fun c hc hd => by rw [surplus_flip, h.rest c hd hc]; rfl⟩

theorem flip_flip (n : Network) : flipNetwork (flipNetwork n) = n := by
  simp [flipNetwork, Function.comp_def]

theorem surplus_sameNode {n : Network} (g : Node → Node) (hg : ∀ nd, SameNode (g nd) nd) (c : Colour) :
    surplus (n.map g) c = surplus n c := by
  induction n with
  | nil => rfl
  | cons x n ih =>
    rw [List.map_cons, surplus_cons, surplus_cons, ih]
    obtain ⟨h1, h2⟩ := hg x
    unfold SameSide at h1 h2
    rcases h1 with h1 | h1 <;> rcases h2 with h2 | h2 <;> rw [h1, h2] <;> ring

/-! ### `deduplicate_network` -/

theorem colourLt_asymm (a b : Colour) : colourLt a b = true → colourLt b a = false := by
  cases a <;> cases b <;> simp [colourLt]
  omega

theorem colourLt_total (a b : Colour) : colourLt a b = false → colourLt b a = false → a = b := by
  cases a <;> cases b <;> simp [colourLt]
  omega

theorem sortSide_same (s : Colour × Colour) : SameSide (sortSide s) s := by
  unfold sortSide SameSide
  split
  · exact Or.inr rfl
  · exact Or.inl rfl

theorem sortSide_iff (s t : Colour × Colour) : sortSide s = sortSide t ↔ SameSide s t := by
  obtain ⟨a, b⟩ := s
  obtain ⟨c, d⟩ := t
  constructor
  · intro h
    unfold sortSide at h
    unfold SameSide
    split at h <;> split at h <;> simp_all
  · intro h
    unfold SameSide at h
    rcases h with h | h
    · rw [h]
    · simp only [Prod.mk.injEq] at h
      obtain ⟨rfl, rfl⟩ := h
      unfold sortSide
      simp only
      cases h1 : colourLt b a
      · cases h2 : colourLt a b
        · have := colourLt_total _ _ h1 h2
          subst this
          rfl
        · simp
      · rw [colourLt_asymm _ _ h1]
        simp

theorem sortNode_iff (x y : Node) : sortNode x = sortNode y ↔ SameNode x y := by
  unfold sortNode SameNode
  rw [Prod.mk.injEq, sortSide_iff, sortSide_iff]

theorem sortNode_same (x : Node) : SameNode (sortNode x) x := ⟨sortSide_same _, sortSide_same _⟩

theorem counter_spec (l : List Node) (d : PyDict Node Nat) (hd : d.Valid) :
    let r := l.foldl (fun (d : PyDict Node Nat) x => d.set x ((d.get x).getD 0 + 1)) d
    PyDict.Valid r ∧ (∀ x, (PyDict.get r x).getD 0 = (d.get x).getD 0 + l.count x) ∧
      ∀ x, (PyDict.get r x).isSome = true ↔ ((d.get x).isSome = true ∨ x ∈ l) := by
  induction l generalizing d with
  | nil => exact ⟨hd, fun x => by simp, fun x => by simp⟩
  | cons y l ih =>
    obtain ⟨h1, h2, h3⟩ := ih (d.set y ((d.get y).getD 0 + 1)) (hd.set _ _)
    refine ⟨h1, fun x => ?_, fun x => ?_⟩
    · rw [List.foldl_cons, h2, PyDict.get_set, List.count_cons]
      by_cases hx : y = x
      · subst hx; simp; omega
      · simp [hx]
    · rw [List.foldl_cons, h3, PyDict.get_set, List.mem_cons]
      by_cases hx : y = x
      · subst hx; simp
      · simp [hx, Ne.symm hx]

theorem counter_get (l : List Node) (x : Node) : (counter l).get x = if x ∈ l then some (l.count x) else none := by
  obtain ⟨h1, h2, h3⟩ := counter_spec l [] PyDict.valid_nil
  have h2 := h2 x
  have h3 := h3 x
  change ((counter l).get x).getD 0 = _ at h2
  change ((counter l).get x).isSome = true ↔ _ at h3
  simp only [PyDict.get, Option.getD_none, zero_add, Option.isSome_none, Bool.false_eq_true, false_or] at h2 h3
  cases hg : (counter l).get x with
  | none =>
    rw [hg] at h3
    simp only [Option.isSome_none, Bool.false_eq_true, false_iff] at h3
    rw [if_neg h3]
  | some k =>
    rw [hg] at h2 h3
    simp only [Option.isSome_some, true_iff] at h3
    simp only [Option.getD_some] at h2
    rw [if_pos h3, h2]

theorem count_elements (d : PyDict Node Nat) (hd : d.Valid) (x : Node) : (elements d).count x = (d.get x).getD 0 := by
  induction d with
  | nil => rfl
  | cons e d ih =>
    obtain ⟨y, k⟩ := e
    unfold PyDict.Valid at hd
    simp only [List.map_cons, List.nodup_cons] at hd
    unfold elements at *
    rw [List.flatMap_cons, List.count_append, ih hd.2, PyDict.get, List.count_replicate]
    by_cases hx : y = x
    · subst hx
      have : PyDict.get d y = none := PyDict.get_eq_none.2 hd.1
      simp [this]
    · simp [hx]

theorem elements_perm (l : List Node) : (elements (counter l)).Perm l := by
  rw [List.perm_iff_count]
  intro x
  rw [count_elements (counter l) (counter_spec l [] PyDict.valid_nil).1, counter_get]
  split
  · rfl
  · rename_i h
    simp [List.count_eq_zero_of_not_mem h]

theorem elements_length (d : PyDict Node Nat) : (elements d).length = (d.map Prod.snd).sum := by
  induction d with
  | nil => rfl
  | cons e d ih =>
    unfold elements at *
    rw [List.flatMap_cons, List.length_append, ih]
    simp

/-! ### `tidy_network` -/

theorem tidySide_same (s : Colour × Colour) : SameSide (tidySide s) s := by
  unfold tidySide SameSide
  split
  · exact Or.inr rfl
  · exact Or.inl rfl

theorem tidySide_sorted (s : Colour × Colour) : noneKey (tidySide s).1 ≤ noneKey (tidySide s).2 := by
  unfold tidySide
  split
  · simp only; omega
  · omega


theorem sortBy_lex (key : Node → Int) (R : Node → Node → Prop) (l : Network) (h : l.Pairwise R) :
    (sortBy key l).Pairwise fun x y => key x < key y ∨ key x = key y ∧ R x y := by
  unfold sortBy
  induction l with
  | nil => exact List.Pairwise.nil
  | cons a l ih =>
    rw [List.pairwise_cons] at h
    rw [List.insertionSort_cons]
    have hp := List.perm_insertionSort (fun a b => key a ≤ key b) l
    have h1 : ∀ y ∈ l.insertionSort (fun a b => key a ≤ key b), R a y := fun y hy => h.1 y (hp.subset hy)
    have h2 := ih h.2
    revert h1 h2
    generalize l.insertionSort (fun a b => key a ≤ key b) = m
    intro h1 h2
    clear hp h ih
    induction m with
    | nil => simp
    | cons b m ih =>
      rw [List.pairwise_cons] at h2
      rw [List.orderedInsert_cons]
      by_cases hk : key a ≤ key b
      · rw [if_pos hk, List.pairwise_cons]
        refine ⟨fun y hy => ?_, List.pairwise_cons.2 h2⟩
        have hr := h1 y hy
        rcases List.mem_cons.1 hy with rfl | hy
        · rcases hk.lt_or_eq with h | h
          · exact Or.inl h
          · exact Or.inr ⟨h, hr⟩
        · have : key b ≤ key y := by rcases h2.1 y hy with h | h <;> omega
          rcases (hk.trans this).lt_or_eq with h | h
          · exact Or.inl h
          · exact Or.inr ⟨h, hr⟩
      · rw [if_neg hk, List.pairwise_cons]
        refine ⟨fun y hy => ?_, ih (fun y hy => h1 y (List.mem_cons_of_mem _ hy)) h2.2⟩
        rcases List.mem_cons.1 ((List.perm_orderedInsert _ a m).subset hy) with rfl | hy
        · exact Or.inl (by omega)
        · exact h2.1 y hy

theorem mem_colourSet' (l : List Colour) (c : Colour) : c ∈ colourSet l ↔ c ≠ none ∧ c ∈ l := by
  simp [colourSet, and_comm]

theorem mem_exterior (n : Network) (c : Colour) :
    (c ∈ (getExteriorColours n).1 ↔ Enters n c) ∧ (c ∈ (getExteriorColours n).2 ↔ Leaves n c) := by
  unfold getExteriorColours Enters Leaves
  simp only [List.mem_filter, mem_colourSet', decide_eq_true_eq]
  tauto

theorem edgeKey_rank {n m : Network} (h1 : ∀ c, c ∈ insOf n ↔ c ∈ insOf m) (h2 : ∀ c, c ∈ outsOf n ↔ c ∈ outsOf m) (nd : Node) :
    edgeKey (getExteriorColours n).1 (getExteriorColours n).2 nd = rank m nd := by
  unfold edgeKey rank
  congr 3
  · funext c; rw [decide_eq_decide, (mem_exterior n c).2]; unfold Leaves; rw [h1, h2]
  · funext c; rw [decide_eq_decide, (mem_exterior n c).1]; unfold Enters; rw [h1, h2]

theorem mem_sides_same {n m : Network} (h : List.Forall₂ SameNode m n) (c : Colour) :
    (c ∈ insOf n ↔ c ∈ insOf m) ∧ (c ∈ outsOf n ↔ c ∈ outsOf m) := by
  induction h with
  | nil => simp [insOf, outsOf]
  | @cons x y l r hxy _ ih =>
    obtain ⟨⟨a, b⟩, ⟨d, e⟩⟩ := x
    obtain ⟨⟨a', b'⟩, ⟨d', e'⟩⟩ := y
    unfold insOf outsOf at *
    simp only [List.flatMap_cons, List.mem_append]
    rw [ih.1, ih.2]
    rcases hxy with ⟨h1 | h1, h2 | h2⟩ <;> simp only [Prod.mk.injEq] at h1 h2 <;> obtain ⟨rfl, rfl⟩ := h1 <;>
      obtain ⟨rfl, rfl⟩ := h2 <;> simp [or_comm, or_left_comm]

end FSat
