import Verif.Spec.Network
import Verif.Lemmas.Dict
import Verif.Lemmas.Search
import Mathlib.Data.List.Basic
import Mathlib.Tactic.Linarith
import Mathlib.Tactic.Ring
/-!
# Lemmas about networks
-/

namespace FSat

@[simp] theorem insOf_nil : insOf [] = [] := rfl
@[simp] theorem outsOf_nil : outsOf [] = [] := rfl
theorem insOf_cons (x : Node) (n : Network) : insOf (x :: n) = x.1.1 :: x.1.2 :: insOf n := rfl
theorem outsOf_cons (x : Node) (n : Network) : outsOf (x :: n) = x.2.1 :: x.2.2 :: outsOf n := rfl
theorem insOf_append (m n : Network) : insOf (m ++ n) = insOf m ++ insOf n := by simp [insOf]
theorem outsOf_append (m n : Network) : outsOf (m ++ n) = outsOf m ++ outsOf n := by simp [outsOf]

theorem surplus_nil (c : Colour) : surplus [] c = 0 := rfl

theorem surplus_cons (x : Node) (n : Network) (c : Colour) : surplus (x :: n) c =
    (if x.1.1 = c then 1 else 0) + (if x.1.2 = c then 1 else 0) + (if x.2.1 = c then -1 else 0) + (if x.2.2 = c then -1 else 0)
      + surplus n c := by
  simp only [surplus, insOf_cons, outsOf_cons, List.count_cons, beq_iff_eq]
  split <;> split <;> split <;> split <;> push_cast <;> ring

theorem surplus_append (m n : Network) (c : Colour) : surplus (m ++ n) c = surplus m c + surplus n c := by
  simp only [surplus, insOf_append, outsOf_append, List.count_append]
  push_cast
  ring

/-! ### `get_input_output_colours` -/

theorem bump_get (d : PyDict Colour Int) (c c' : Colour) (k : Int) :
    ((bump d c k).get c').getD 0 = (d.get c').getD 0 + if c = c' then k else 0 := by
  unfold bump
  rw [PyDict.get_set]
  by_cases h : c = c'
  · subst h
    simp
  · simp [h]

theorem occurrences_spec (n : Network) (d : PyDict Colour Int) (hd : d.Valid) :
    let r := n.foldl (fun d nd => bump (bump (bump (bump d nd.1.1 1) nd.1.2 1) nd.2.1 (-1)) nd.2.2 (-1)) d
    PyDict.Valid r ∧ ∀ c, (PyDict.get r c).getD 0 = (d.get c).getD 0 + surplus n c := by
  induction n generalizing d with
  | nil => exact ⟨hd, fun c => by simp [surplus_nil]⟩
  | cons x n ih =>
    have hb := ih (bump (bump (bump (bump d x.1.1 1) x.1.2 1) x.2.1 (-1)) x.2.2 (-1))
      ((((hd.set _ _).set _ _).set _ _).set _ _)
    refine ⟨hb.1, fun c => ?_⟩
    rw [List.foldl_cons, hb.2 c]
    simp only [bump_get, surplus_cons]
    ring

theorem pickEnds_iff (L : List (Int × Int)) (inp out i o : Option (Int × Int)) :
    pickEnds L inp out = .ok (i, o) ↔ inp.toList ++ L.filter (fun e => 0 < e.2) = i.toList ∧
      out.toList ++ (L.filter (fun e => e.2 < 0)).map (fun e => (e.1, -e.2)) = o.toList := by
  induction L generalizing inp out with
  | nil =>
    simp only [pickEnds, List.filter_nil, List.map_nil, List.append_nil]
    cases inp <;> cases out <;> cases i <;> cases o <;> simp
  | cons e L ih =>
    obtain ⟨c, k⟩ := e
    simp only [pickEnds]
    by_cases hp : 0 < k
    · have hn : ¬ k < 0 := by omega
      simp only [gt_iff_lt, hp, if_true, hn, List.filter_cons, decide_true, decide_false, Bool.false_eq_true, if_false]
      cases inp with
      | none => simpa using ih (some (c, k)) out
      | some x => cases i <;> simp
    · by_cases hn : k < 0
      · simp only [gt_iff_lt, hp, if_false, hn, if_true, List.filter_cons, decide_true, decide_false, Bool.false_eq_true,
          List.map_cons]
        cases out with
        | none => simpa using ih inp (some (c, -k))
        | some x => cases o <;> simp
      · simp only [gt_iff_lt, hp, if_false, hn, List.filter_cons, decide_false, Bool.false_eq_true]
        exact ih inp out

theorem filter_eq_singleton {α : Type} (L : List α) (hL : L.Nodup) (p : α → Bool) (a : α) :
    L.filter p = [a] ↔ a ∈ L ∧ p a = true ∧ ∀ b ∈ L, p b = true → b = a := by
  constructor
  · intro h
    have ha : a ∈ L.filter p := by rw [h]; simp
    rw [List.mem_filter] at ha
    refine ⟨ha.1, ha.2, fun b hb hp => ?_⟩
    have : b ∈ L.filter p := List.mem_filter.2 ⟨hb, hp⟩
    rw [h] at this
    simpa using this
  · rintro ⟨h1, h2, h3⟩
    have hn : (L.filter p).Nodup := hL.filter _
    have hm : a ∈ L.filter p := List.mem_filter.2 ⟨h1, h2⟩
    have hall : ∀ b ∈ L.filter p, b = a := fun b hb => h3 b (List.mem_filter.1 hb).1 (List.mem_filter.1 hb).2
    generalize L.filter p = M at hn hm hall
    cases M with
    | nil => simp at hm
    | cons x M =>
      have hx := hall x (by simp)
      subst hx
      cases M with
      | nil => rfl
      | cons y M =>
        have := hall y (by simp)
        subst this
        simp at hn

theorem gio_iff (n : Network) (a p b q : Int) : getInputOutputColours n = .ok ((a, p), (b, q)) ↔ Ends n a p b q := by
  have hs := occurrences_spec n [] PyDict.valid_nil
  change PyDict.Valid (occurrences n) ∧ ∀ c, (PyDict.get (occurrences n) c).getD 0 = _ at hs
  obtain ⟨hv, hg⟩ := hs
  simp only [PyDict.get, Option.getD_none, zero_add] at hg
  have step : getInputOutputColours n = .ok ((a, p), (b, q)) ↔
      pickEnds ((occurrences n).filterMap fun e => e.1.map fun c => (c, e.2)) none none = .ok (some (a, p), some (b, q)) := by
    unfold getInputOutputColours
    cases pickEnds ((occurrences n).filterMap fun e => e.1.map fun c => (c, e.2)) none none with
    | error e => simp
    | ok r =>
      obtain ⟨_ | i, _ | o⟩ := r <;> simp
  generalize occurrences n = d at hv hg step
  set L := d.filterMap fun e => e.1.map fun c => (c, e.2) with hL
  have hmem : ∀ c k, (c, k) ∈ L ↔ (some c, k) ∈ d := by
    intro c k
    simp only [hL, List.mem_filterMap, Option.map_eq_some_iff, Prod.exists, Prod.mk.injEq]
    constructor
    · rintro ⟨x, y, hxy, c', rfl, rfl, rfl⟩
      exact hxy
    · intro h
      exact ⟨some c, k, h, c, rfl, rfl, rfl⟩
  have hnd : L.Nodup := by
    rw [hL]
    apply List.Nodup.filterMap
    · rintro ⟨x, k⟩ ⟨y, k'⟩ e
      simp only [Option.mem_def, Option.map_eq_some_iff]
      rintro ⟨c, rfl, rfl⟩ ⟨c', rfl, h⟩
      simpa using h.symm
    · exact hv.of_map
  have hsur : ∀ c k, k ≠ 0 → ((c, k) ∈ L ↔ surplus n (some c) = k) := by
    intro c k hk
    rw [hmem, PyDict.mem_iff hv, ← hg]
    constructor
    · intro h; rw [h]; rfl
    · intro h
      cases hx : PyDict.get d (some c) with
      | none => rw [hx] at h; simp at h; omega
      | some y => rw [hx] at h; simp at h; rw [h]
  rw [step, pickEnds_iff]
  simp only [Option.toList_none, List.nil_append, Option.toList_some]
  rw [filter_eq_singleton _ hnd]
  have hneg : (L.filter (fun e => e.2 < 0)).map (fun e => (e.1, -e.2)) = [(b, q)] ↔ L.filter (fun e => e.2 < 0) = [(b, -q)] := by
    constructor
    · intro h
      have := congrArg (List.map fun e : Int × Int => (e.1, -e.2)) h
      simpa [Function.comp_def] using this
    · intro h
      rw [h]
      simp
  rw [hneg, filter_eq_singleton _ hnd]
  simp only [decide_eq_true_eq, Prod.forall, Prod.mk.injEq]
  constructor
  · rintro ⟨⟨h1, h2, h3⟩, ⟨h4, h5, h6⟩⟩
    refine ⟨h2, by omega, (hsur _ _ (by omega)).1 h1, (hsur _ _ (by omega)).1 h4, fun c hca hcb => ?_⟩
    by_contra h0
    have hm := (hsur c _ h0).2 rfl
    rcases lt_or_gt_of_ne h0 with hlt | hgt
    · exact hcb (h6 _ _ hm hlt).1
    · exact hca (h3 _ _ hm hgt).1
  · rintro ⟨h1, h2, h3, h4, h5⟩
    refine ⟨⟨(hsur _ _ (by omega)).2 h3, h1, fun c k hm hk => ?_⟩, ⟨(hsur _ _ (by omega)).2 h4, by omega, fun c k hm hk => ?_⟩⟩
    · have hs := (hsur c k (by omega)).1 hm
      by_cases hca : c = a
      · subst hca; exact ⟨rfl, by omega⟩
      · by_cases hcb : c = b
        · subst hcb; omega
        · have := h5 c hca hcb; omega
    · have hs := (hsur c k (by omega)).1 hm
      by_cases hcb : c = b
      · subst hcb; exact ⟨rfl, by omega⟩
      · by_cases hca : c = a
        · subst hca; omega
        · have := h5 c hca hcb; omega

end FSat
