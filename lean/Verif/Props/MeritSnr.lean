import Verif.Props.MeritProps
import Verif.Props.SpcModelResidual

set_option linter.unusedVariables false
set_option linter.unusedSectionVars false

/-! # Cumulated signal to noise ratio and continuum under a line (C85) -/

namespace Amazed
namespace Merit
open EltList

variable {K : Type} [Field K] [LinearOrder K] [IsStrictOrderedRing K]

/-- Sample `z` is in the support. -/
def Sup.Mem (s : Sup) (z : ℤ) : Prop := s.b ≤ z ∧ z ≤ s.e

/-- The support `t` is inside `r`. -/
def Sup.Inside (t r : Sup) : Prop := r.b ≤ t.b ∧ t.e ≤ r.e

theorem absorb_spec (l : List Sup) : ∀ s : Sup, s.b ≤ s.e → (∀ t ∈ l, t.b ≤ t.e) →
    let r := (absorb s l).1
    r.b ≤ r.e ∧ s.Inside r ∧ (absorb s l).2.length ≤ l.length ∧ (∀ t ∈ (absorb s l).2, t ∈ l) ∧ (∀ t ∈ l, t ∈ (absorb s l).2 ∨ (t.Inside r ∧ (t.strong = true → r.strong = true))) ∧
      (s.strong = true → r.strong = true) ∧ (r.strong = true → s.strong = true ∨ ∃ t ∈ l, t.strong = true ∧ t.Inside r) ∧
      (∀ z, r.Mem z → s.Mem z ∨ ∃ t ∈ l, t.Mem z) := by
  induction l with
  | nil =>
    intro s hs _
    simp only [absorb]
    exact ⟨hs, ⟨le_refl _, le_refl _⟩, le_refl _, fun t h => h, fun t h => absurd h (by simp), fun h => h, fun h => Or.inl h, fun z h => Or.inl h⟩
  | cons t l ih =>
    intro s hs hl
    have ht := hl t (by simp)
    by_cases ho : max s.b t.b - min s.e t.e < 0
    · have e : absorb s (t :: l) = absorb ⟨min s.b t.b, max s.e t.e, s.strong || t.strong⟩ l := by rw [absorb, if_pos ho]
      rw [e]
      obtain ⟨h1, h2, h3, h4, h5, h6, h7, h8⟩ := ih ⟨min s.b t.b, max s.e t.e, s.strong || t.strong⟩ (by simp only; omega) fun q hq => hl q (by simp [hq])
      refine ⟨h1, ?_, by simp only [List.length_cons]; omega, fun q hq => by simp [h4 q hq], ?_, ?_, ?_, ?_⟩
      · unfold Sup.Inside at *
        simp only at h2
        omega
      · intro q hq
        rcases List.mem_cons.1 hq with rfl | hq
        · right
          refine ⟨?_, fun h => h6 (by simp [h])⟩
          unfold Sup.Inside at *
          simp only at h2
          omega
        · exact h5 q hq
      · intro h; exact h6 (by simp [h])
      · intro h
        rcases h7 h with h | ⟨q, hq, h⟩
        · simp only [Bool.or_eq_true] at h
          rcases h with h | h
          · exact Or.inl h
          · right
            refine ⟨t, by simp, h, ?_⟩
            unfold Sup.Inside at *
            simp only at h2
            omega
        · exact Or.inr ⟨q, by simp [hq], h⟩
      · intro z hz
        rcases h8 z hz with h | ⟨q, hq, h⟩
        · unfold Sup.Mem at *
          simp only at h
          by_cases hzs : s.b ≤ z ∧ z ≤ s.e
          · exact Or.inl hzs
          · right
            exact ⟨t, by simp, by omega⟩
        · exact Or.inr ⟨q, by simp [hq], h⟩
    · have e : absorb s (t :: l) = ((absorb s l).1, t :: (absorb s l).2) := by rw [absorb, if_neg ho]
      rw [e]
      obtain ⟨h1, h2, h3, h4, h5, h6, h7, h8⟩ := ih s hs fun q hq => hl q (by simp [hq])
      refine ⟨h1, h2, by simp only [List.length_cons]; omega, ?_, ?_, h6, ?_, ?_⟩
      · intro q hq
        rcases List.mem_cons.1 hq with rfl | hq
        · simp
        · simp [h4 q hq]
      · intro q hq
        rcases List.mem_cons.1 hq with rfl | hq
        · left; simp
        · rcases h5 q hq with h | h
          · left; simp [h]
          · exact Or.inr h
      · intro h
        rcases h7 h with h | ⟨q, hq, h⟩
        · exact Or.inl h
        · exact Or.inr ⟨q, by simp [hq], h⟩
      · intro z hz
        rcases h8 z hz with h | ⟨q, hq, h⟩
        · exact Or.inl h
        · exact Or.inr ⟨q, by simp [hq], h⟩

theorem mergeN_spec (n : Nat) : ∀ l : List Sup, l.length ≤ n → (∀ t ∈ l, t.b ≤ t.e) →
    (∀ z, (∃ r ∈ mergeN n l, r.Mem z) ↔ ∃ t ∈ l, t.Mem z) ∧ (∀ t ∈ l, ∃ r ∈ mergeN n l, t.Inside r ∧ (t.strong = true → r.strong = true)) ∧
      (∀ r ∈ mergeN n l, r.b ≤ r.e ∧ (r.strong = true → ∃ t ∈ l, t.strong = true ∧ t.Inside r)) := by
  induction n with
  | zero =>
    intro l hl _
    have : l = [] := List.length_eq_zero_iff.1 (by omega)
    subst this
    simp [mergeN]
  | succ n ih =>
    intro l hl hv
    cases l with
    | nil => simp [mergeN]
    | cons s l =>
      simp only [List.length_cons] at hl
      obtain ⟨h1, h2, h3, h4, h5, h6, h7, h8⟩ := absorb_spec l s (hv s (by simp)) fun q hq => hv q (by simp [hq])
      obtain ⟨g1, g2, g3⟩ := ih (absorb s l).2 (by omega) fun q hq => hv q (by simp [h4 q hq])
      have e : mergeN (n + 1) (s :: l) = (absorb s l).1 :: mergeN n (absorb s l).2 := rfl
      rw [e]
      refine ⟨fun z => ⟨?_, ?_⟩, ?_, ?_⟩
      · rintro ⟨r, hr, hz⟩
        rcases List.mem_cons.1 hr with rfl | hr
        · rcases h8 z hz with h | ⟨t, ht, h⟩
          · exact ⟨s, by simp, h⟩
          · exact ⟨t, by simp [ht], h⟩
        · obtain ⟨t, ht, h⟩ := (g1 z).1 ⟨r, hr, hz⟩
          exact ⟨t, by simp [h4 t ht], h⟩
      · rintro ⟨t, ht, hz⟩
        rcases List.mem_cons.1 ht with rfl | ht
        · exact ⟨(absorb t l).1, List.mem_cons_self .., by unfold Sup.Mem Sup.Inside at *; omega⟩
        · rcases h5 t ht with h | ⟨h, _⟩
          · obtain ⟨r, hr, h⟩ := (g1 z).2 ⟨t, h, hz⟩
            exact ⟨r, by simp [hr], h⟩
          · exact ⟨(absorb s l).1, List.mem_cons_self .., by unfold Sup.Mem Sup.Inside at *; omega⟩
      · intro t ht
        rcases List.mem_cons.1 ht with rfl | ht
        · exact ⟨_, by simp, h2, h6⟩
        · rcases h5 t ht with h | h
          · obtain ⟨r, hr, h⟩ := g2 t h
            exact ⟨r, by simp [hr], h⟩
          · exact ⟨_, by simp, h⟩
      · intro r hr
        rcases List.mem_cons.1 hr with rfl | hr
        · refine ⟨h1, fun h => ?_⟩
          rcases h7 h with h | ⟨t, ht, h⟩
          · exact ⟨s, by simp, h, h2⟩
          · exact ⟨t, by simp [ht], h⟩
        · obtain ⟨a, b⟩ := g3 r hr
          refine ⟨a, fun h => ?_⟩
          obtain ⟨t, ht, h⟩ := b h
          exact ⟨t, by simp [h4 t ht], h⟩

/-- **C85, merged supports.** The merged supports cover exactly the samples of the supports of the lines; each support is inside one of them, which is strong if the line is; and a merged support
is strong only if a strong line is inside it. -/
theorem C85_merge (l : List Sup) (hv : ∀ t ∈ l, t.b ≤ t.e) :
    (∀ z, (∃ r ∈ merge l, r.Mem z) ↔ ∃ t ∈ l, t.Mem z) ∧ (∀ t ∈ l, ∃ r ∈ merge l, t.Inside r ∧ (t.strong = true → r.strong = true)) ∧
      (∀ r ∈ merge l, r.b ≤ r.e ∧ (r.strong = true → ∃ t ∈ l, t.strong = true ∧ t.Inside r)) := mergeN_spec l.length l (le_refl _) hv

theorem absorb_none (l : List Sup) (s : Sup) (h : ∀ t ∈ l, s.e ≤ t.b) : absorb s l = (s, l) := by
  induction l with
  | nil => rfl
  | cons t l ih =>
    have := h t (by simp)
    rw [absorb, if_neg (by omega), ih fun q hq => h q (by simp [hq])]

theorem absorb_sorted (l : List Sup) : ∀ s : Sup, (∀ t ∈ l, t.b < t.e) → (s :: l).Pairwise (fun a b => a.b ≤ b.b) →
    (∀ t ∈ (absorb s l).2, (absorb s l).1.e ≤ t.b) ∧ (absorb s l).2.Sublist l := by
  induction l with
  | nil => intro s _ _; simp [absorb]
  | cons t l ih =>
    intro s hv hp
    rw [List.pairwise_cons] at hp
    have hst := hp.1 t (by simp)
    have ht := hv t (by simp)
    by_cases ho : max s.b t.b - min s.e t.e < 0
    · have e : absorb s (t :: l) = absorb ⟨min s.b t.b, max s.e t.e, s.strong || t.strong⟩ l := by rw [absorb, if_pos ho]
      rw [e]
      obtain ⟨h1, h2⟩ := ih ⟨min s.b t.b, max s.e t.e, s.strong || t.strong⟩ (fun q hq => hv q (by simp [hq])) (by
        rw [List.pairwise_cons]
        refine ⟨fun q hq => ?_, (List.pairwise_cons.1 hp.2).2⟩
        have := hp.1 q (by simp [hq])
        simp only
        omega)
      exact ⟨h1, h2.trans (List.sublist_cons_self _ _)⟩
    · have hle : s.e ≤ t.b := by omega
      have : absorb s (t :: l) = (s, t :: l) := by
        apply absorb_none
        intro q hq
        rcases List.mem_cons.1 hq with rfl | hq
        · exact hle
        · exact hle.trans ((List.pairwise_cons.1 hp.2).1 q hq)
      rw [this]
      refine ⟨fun q hq => ?_, List.Sublist.refl _⟩
      rcases List.mem_cons.1 hq with rfl | hq
      · exact hle
      · exact hle.trans ((List.pairwise_cons.1 hp.2).1 q hq)

theorem mergeN_sorted (n : Nat) : ∀ l : List Sup, l.length ≤ n → (∀ t ∈ l, t.b < t.e) → l.Pairwise (fun a b => a.b ≤ b.b) →
    (mergeN n l).Pairwise (fun a b => a.e ≤ b.b) := by
  induction n with
  | zero => intro l _ _ _; simp [mergeN]
  | succ n ih =>
    intro l hl hv hp
    cases l with
    | nil => simp [mergeN]
    | cons s l =>
      simp only [List.length_cons] at hl
      have e : mergeN (n + 1) (s :: l) = (absorb s l).1 :: mergeN n (absorb s l).2 := rfl
      rw [e]
      obtain ⟨h1, h2⟩ := absorb_sorted l s (fun q hq => hv q (by simp [hq])) hp
      have hv2 : ∀ t ∈ (absorb s l).2, t.b < t.e := fun q hq => hv q (by simp [h2.subset hq])
      rw [List.pairwise_cons]
      refine ⟨?_, ih _ (by have := h2.length_le; omega) hv2 ((List.pairwise_cons.1 hp).2.sublist h2)⟩
      intro r hr
      obtain ⟨g1, _, g3⟩ := mergeN_spec n (absorb s l).2 (by have := h2.length_le; omega) fun q hq => (hv2 q hq).le
      obtain ⟨t, ht, hz⟩ := (g1 r.b).1 ⟨r, hr, ⟨le_refl _, (g3 r hr).1⟩⟩
      exact (h1 t ht).trans hz.1

/-- **C85, merged supports in order.** If the lines are in the order of the begin of their supports (of two samples at least) two merged supports share at most one sample. -/
theorem C85_merge_sorted (l : List Sup) (hv : ∀ t ∈ l, t.b < t.e) (hp : l.Pairwise (fun a b => a.b ≤ b.b)) : (merge l).Pairwise (fun a b => a.e ≤ b.b) :=
  mergeN_sorted l.length l (le_refl _) hv hp

example : (∀ t ∈ [(⟨0, 4, false⟩ : Sup), ⟨3, 6, true⟩, ⟨6, 9, false⟩], t.b < t.e) ∧ [(⟨0, 4, false⟩ : Sup), ⟨3, 6, true⟩, ⟨6, 9, false⟩].Pairwise (fun a b => a.b ≤ b.b) ∧
    merge [⟨0, 4, false⟩, ⟨3, 6, true⟩, ⟨6, 9, false⟩] = [⟨0, 6, true⟩, ⟨6, 9, false⟩] := by decide +kernel

/-- Lines in another order leave merged supports that overlap: the samples 5 and 6 are in both. -/
theorem C85_merge_counterexample : (∀ t ∈ [(⟨0, 2, false⟩ : Sup), ⟨5, 8, false⟩, ⟨1, 6, false⟩], t.b < t.e) ∧
    merge [⟨0, 2, false⟩, ⟨5, 8, false⟩, ⟨1, 6, false⟩] = [⟨0, 6, false⟩, ⟨5, 8, false⟩] := by decide +kernel

/-- **C85, one range.** For a range of at least two samples of the spectrum, the sums are the absolute value of the sum of the model without its continuum and the sum of the squared
errors; a range of one sample counts for nothing. -/
theorem C85_snr_range (o : Obs K) (hw : WF o) (s : Sup) (h0 : 0 ≤ s.b) (h1 : s.e < o.axis.length) :
    (s.b = s.e → snrOnRange o s = .ok (0, 0)) ∧
    (s.b < s.e → snrOnRange o s = .ok (|((List.range' s.b.toNat (s.e - s.b + 1).toNat).map fun p => o.model.getD p 0 - o.cont.getD p 0).sum|,
      ((List.range' s.b.toNat (s.e - s.b + 1).toNat).map fun p => o.err.getD p 0 ^ 2).sum)) := by
  constructor
  · intro h
    unfold snrOnRange
    rw [if_pos (by omega)]
  · intro h
    unfold snrOnRange
    rw [if_neg (by omega)]
    have hz : zrange (s.b, s.e) = (List.range' s.b.toNat (s.e - s.b + 1).toNat).map fun (p : Nat) => (p : ℤ) := by
      unfold zrange
      simp only
      rw [List.range'_eq_map_range, List.map_map]
      apply List.map_congr_left
      intro k _
      simp only [Function.comp_def]
      omega
    rw [hz]
    have key : ∀ (l : List Nat) (st : K × K), (∀ p ∈ l, p < o.axis.length) →
        foldL (fun z st => Res.atZ o.model z >>= fun m => Res.atZ o.cont z >>= fun c => Res.atZ o.err z >>= fun e =>
          .ok (st.1 + (m - c), st.2 + e * e)) (l.map fun (p : Nat) => (p : ℤ)) st =
        .ok (st.1 + (l.map fun p => o.model.getD p 0 - o.cont.getD p 0).sum, st.2 + (l.map fun p => o.err.getD p 0 ^ 2).sum) := by
      intro l
      induction l with
      | nil => intro st _; simp [foldL]
      | cons p l ih =>
        intro st hl
        have hp := hl p (by simp)
        rw [List.map_cons, foldL, SpcModel.atZ_getD _ _ (by omega) (by rw [hw.model]; omega), Res.bind_ok, SpcModel.atZ_getD _ _ (by omega) (by rw [hw.cont]; omega), Res.bind_ok,
          SpcModel.atZ_getD _ _ (by omega) (by rw [hw.err]; omega), Res.bind_ok, Res.bind_ok, ih _ fun q hq => hl q (by simp [hq])]
        simp only [Int.toNat_natCast, List.map_cons, List.sum_cons]
        congr 2 <;> ring
    rw [key _ _ (by
      intro p hp
      rw [List.mem_range'_1] at hp
      omega), Res.bind_ok]
    simp

/-- **C85, cumulated ratios.** The cumulated signal to noise ratio is the sum over the merged supports of the absolute summed fluxes over the square root of the summed variances; the
one of the strong lines is that of the merged supports that hold a strong line. -/
theorem C85_cumul (sq : K → K) (o : Obs K) (l : List Sup) (q : Sup → K × K) (hq : ∀ s ∈ merge l, snrOnRange o s = .ok (q s)) :
    cumulSNR sq o l = .ok (
      if sq ((merge l).map fun s => (q s).2).sum = 0 then none else some (((merge l).map fun s => (q s).1).sum / sq ((merge l).map fun s => (q s).2).sum),
      if sq (((merge l).filter fun s => s.strong).map fun s => (q s).2).sum = 0 then none
        else some ((((merge l).filter fun s => s.strong).map fun s => (q s).1).sum / sq (((merge l).filter fun s => s.strong).map fun s => (q s).2).sum)) := by
  unfold cumulSNR cumulSums
  have key : ∀ (m : List Sup) (st : (K × K) × (K × K)), (∀ s ∈ m, snrOnRange o s = .ok (q s)) →
      foldL (fun s st => snrOnRange o s >>= fun q =>
        .ok ((st.1.1 + q.1, st.1.2 + q.2), if s.strong then (st.2.1 + q.1, st.2.2 + q.2) else st.2)) m st =
      .ok ((st.1.1 + (m.map fun s => (q s).1).sum, st.1.2 + (m.map fun s => (q s).2).sum),
        (st.2.1 + ((m.filter fun s => s.strong).map fun s => (q s).1).sum, st.2.2 + ((m.filter fun s => s.strong).map fun s => (q s).2).sum)) := by
    intro m
    induction m with
    | nil => intro st _; simp [foldL]
    | cons s m ih =>
      intro st hm
      rw [foldL, hm s (by simp), Res.bind_ok, Res.bind_ok, ih _ fun t ht => hm t (by simp [ht])]
      by_cases hs : s.strong = true
      · rw [if_pos hs, List.filter_cons_of_pos (by simpa using hs)]
        simp [add_assoc]
      · rw [if_neg hs, List.filter_cons_of_neg (by simpa using hs)]
        simp [add_assoc]
  rw [key _ _ hq, Res.bind_ok]
  simp

/-- Overlapping merged supports count their common samples twice: for lines in this order of supports on nine samples of flux 1 over the continuum and of errors 1, 11 samples are summed. -/
theorem C85_double_count_counterexample : ∃ o : Obs ℚ, WF o ∧ o.axis.length = 9 ∧
    cumulSums o (merge [⟨0, 2, true⟩, ⟨5, 8, false⟩, ⟨1, 6, false⟩]) = .ok ((11, 11), (7, 7)) := by
  refine ⟨⟨[0, 1, 2, 3, 4, 5, 6, 7, 8], ⟨0, 8⟩, List.replicate 9 1, List.replicate 9 1, List.replicate 9 0, List.replicate 9 1, List.replicate 9 1⟩, ?_, rfl, by decide +kernel⟩
  exact ⟨by unfold SAxis.Increasing; decide +kernel, by decide, rfl, rfl, rfl, rfl, rfl, by decide +kernel⟩

/-- The weighted sums of a list of (weight, continuum) pairs. -/
def sumsOf (l : List (K × K)) (res : K) (n : Nat) : LineSums K := ⟨(l.map fun q => q.1 * q.2).sum, (l.map (·.1)).sum, (l.map fun q => q.1 ^ 2).sum, res, n⟩

/-- **C85, weighted sums in a range.** The sums run over the samples of the range, both ends included. -/
theorem C85_weighted_sum (cont : List K) (poly : ℤ → K) (b : Nat) (e : Nat) (hbe : b ≤ e) (he : e < cont.length) (ws : List K) (hws : ws.length = e - b + 1) :
    weightedSum cont poly (b, e) ws = .ok (
      ((List.range (e - b + 1)).map fun i => ws.getD i 0 * (cont.getD (b + i) 0 + poly (b + i))).sum,
      ((List.range (e - b + 1)).map fun i => ws.getD i 0).sum,
      ((List.range (e - b + 1)).map fun i => ws.getD i 0 ^ 2).sum) := by
  unfold weightedSum
  simp only
  have hn : ((e : ℤ) - b + 1).toNat = e - b + 1 := by omega
  rw [hn]
  obtain ⟨st, h1, h2⟩ := Res.foldN_inv (fun k (st : K × K × K) => st = (
      ((List.range k).map fun i => ws.getD i 0 * (cont.getD (b + i) 0 + poly (b + i))).sum,
      ((List.range k).map fun i => ws.getD i 0).sum,
      ((List.range k).map fun i => ws.getD i 0 ^ 2).sum)) (e - b + 1) 0 ((0 : K), 0, 0) (by simp)
    (f := fun i st => Res.atZ cont ((b : ℤ) + i) >>= fun c => Res.at_ ws i >>= fun w =>
      .ok (st.1 + w * (c + poly ((b : ℤ) + i)), st.2.1 + w, st.2.2 + w * w))
    (by
      intro i st hi0 hi hst
      have hil : i < ws.length := by omega
      refine ⟨_, by rw [SpcModel.atZ_getD _ _ (by omega) (by omega), Res.bind_ok, Res.at_of_lt hil, Res.bind_ok], ?_⟩
      rw [hst]
      have ht : ((b : ℤ) + i).toNat = b + i := by omega
      rw [ht]
      simp only [List.range_succ, List.map_append, List.sum_append, List.map_cons, List.map_nil, List.sum_cons, List.sum_nil, add_zero]
      simp only [List.getD_eq_getElem?_getD, List.getElem?_eq_getElem hil, Option.getD_some]
      refine Prod.ext (by simp) (Prod.ext (by simp) ?_)
      simp [pow_two])
  rw [h1, h2, Nat.zero_add]

/-- **C85, continuum under a line.** With weights at least 0 and not all 0, the mean continuum under the line is between the bounds of the continuum; with no weight, or a line outside of all
the spectra, it is NaN; and the uncertainty needs the minimal number of samples. -/
theorem C85_mean_continuum (sq : K → K) (minN : Nat) (ls : List (List (K × K) × K × Nat)) (lo hi : K)
    (hw : ∀ l ∈ ls, ∀ q ∈ l.1, 0 ≤ q.1 ∧ lo ≤ q.2 ∧ q.2 ≤ hi) (hpos : ∃ l ∈ ls, ∃ q ∈ l.1, 0 < q.1) :
    ∃ c, (meanContinuum sq minN (ls.map fun l => some (sumsOf l.1 l.2.1 l.2.2))).1 = some c ∧ lo ≤ c ∧ c ≤ hi ∧
      ((ls.map fun l => l.2.2).sum < minN → (meanContinuum sq minN (ls.map fun l => some (sumsOf l.1 l.2.1 l.2.2))).2 = none) := by
  have hf : (ls.map fun l => some (sumsOf l.1 l.2.1 l.2.2)).filterMap id = ls.map fun l => sumsOf l.1 l.2.1 l.2.2 := by
    rw [List.filterMap_map]
    simp [Function.comp_def]
  let all : List (K × K) := ls.flatMap (·.1)
  have hall : ∀ q ∈ all, 0 ≤ q.1 ∧ lo ≤ q.2 ∧ q.2 ≤ hi := by
    intro q hq
    obtain ⟨l, hl, hq⟩ := List.mem_flatMap.1 hq
    exact hw l hl q hq
  have hsum : ∀ g : K × K → K, (ls.map fun l => (l.1.map g).sum).sum = (all.map g).sum := by
    intro g
    simp only [all]
    clear hw hpos hf hall all
    induction ls with
    | nil => simp
    | cons l ls ih => simp [ih, List.flatMap_cons]
  have hb : ∀ l : List (K × K), (∀ q ∈ l, 0 ≤ q.1 ∧ lo ≤ q.2 ∧ q.2 ≤ hi) →
      lo * (l.map (·.1)).sum ≤ (l.map fun q => q.1 * q.2).sum ∧ (l.map fun q => q.1 * q.2).sum ≤ hi * (l.map (·.1)).sum := by
    intro l
    induction l with
    | nil => intro _; simp
    | cons q l ih =>
      intro h
      obtain ⟨a, b, c⟩ := h q (by simp)
      obtain ⟨d, e⟩ := ih fun r hr => h r (by simp [hr])
      simp only [List.map_cons, List.sum_cons]
      constructor
      · nlinarith [mul_le_mul_of_nonneg_left b a]
      · nlinarith [mul_le_mul_of_nonneg_left c a]
  have hp : 0 < (all.map (·.1)).sum := by
    obtain ⟨l, hl, q, hq, h0⟩ := hpos
    have hqa : q ∈ all := List.mem_flatMap.2 ⟨l, hl, hq⟩
    have hle : q.1 ≤ (all.map (·.1)).sum := List.single_le_sum (by
      intro x hx
      obtain ⟨r, hr, rfl⟩ := List.mem_map.1 hx
      exact (hall r hr).1) _ (List.mem_map.2 ⟨q, hqa, rfl⟩)
    exact h0.trans_le hle
  obtain ⟨b1, b2⟩ := hb all hall
  have e1 : ((ls.map fun l => sumsOf l.1 l.2.1 l.2.2).map (·.w)).sum = (all.map (·.1)).sum := by
    rw [List.map_map, ← hsum]; rfl
  have e2 : ((ls.map fun l => sumsOf l.1 l.2.1 l.2.2).map (·.cont)).sum = (all.map fun q => q.1 * q.2).sum := by
    rw [List.map_map, ← hsum]; rfl
  have e3 : ((ls.map fun l => sumsOf l.1 l.2.1 l.2.2).map (·.n)).sum = (ls.map fun l => l.2.2).sum := by
    rw [List.map_map]; rfl
  refine ⟨(all.map fun q => q.1 * q.2).sum / (all.map (·.1)).sum, ?_, ?_, ?_, ?_⟩
  · unfold meanContinuum
    simp only [hf, e1, e2]
    rw [if_neg hp.ne']
  · rw [le_div_iff₀ hp]; exact b1
  · rw [div_le_iff₀ hp]; exact b2
  · intro hn
    unfold meanContinuum
    simp only [hf, e1, e3]
    rw [if_neg hp.ne', if_neg (by omega)]

/-- A line outside of all the spectra has no continuum. -/
theorem C85_mean_continuum_outside (sq : K → K) (minN : Nat) (n : Nat) : meanContinuum (K := K) sq minN (List.replicate n none) = (none, none) := by
  unfold meanContinuum
  have : (List.replicate n (none : Option (LineSums K))).filterMap id = [] := by
    apply List.filterMap_eq_nil_iff.2
    intro a ha
    rw [List.eq_of_mem_replicate ha]
    rfl
  simp [this]

example : meanContinuum (K := ℚ) id 2 [some (sumsOf [(1, 2), (3, 4)] 8 2), none] = (some (7 / 2), some 10) := by decide +kernel

end Merit
end Amazed
