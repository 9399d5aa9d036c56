import Mathlib.Algebra.BigOperators.Intervals
import Verif.Props.CandidatesProps
import Verif.Props.DeltazProps

/-! # C46: integrated probability of the candidates -/

namespace Amazed
namespace Candidates
open Finset
open Pdfz (Grid Trapz at_getD getD_map)

/-! ## Specification -/

/-- Trapezoid integral of the samples `f` on the grid `z`, between the samples `i` and `j`. -/
noncomputable def TrapzBetween (z f : List ℝ) (i j : Nat) : ℝ :=
  ∑ k ∈ Ico i j, (f.getD k 0 + f.getD (k + 1) 0) / 2 * (z.getD (k + 1) 0 - z.getD k 0)

/-! ## Lemmas -/

theorem getD_slice (l : List ℝ) (i n k : Nat) (hk : k < n) : ((l.drop i).take n).getD k 0 = l.getD (i + k) 0 := by
  simp [List.getD_eq_getElem?_getD, List.getElem?_take, hk]

theorem Trapz_slice {z f : List ℝ} {i j : Nat} (hij : i ≤ j) (hj : j < z.length) :
    Trapz ((z.drop i).take (j + 1 - i)) ((f.drop i).take (j + 1 - i)) = TrapzBetween z f i j := by
  unfold Trapz TrapzBetween
  rw [Finset.sum_Ico_eq_sum_range]
  have hl : ((z.drop i).take (j + 1 - i)).length - 1 = j - i := by simp; omega
  rw [hl]
  apply Finset.sum_congr rfl
  intro k hk
  rw [Finset.mem_range] at hk
  rw [getD_slice _ _ _ _ (by omega), getD_slice _ _ _ _ (by omega), getD_slice _ _ _ _ (by omega),
    getD_slice _ _ _ _ (by omega)]
  rfl

theorem Grid.slice {z : List ℝ} (h : Grid z) {i j : Nat} (hij : i < j) (hj : j < z.length) :
    Grid ((z.drop i).take (j + 1 - i)) :=
  ⟨by simp; omega, h.incr.sublist ((List.take_sublist _ _).trans (List.drop_sublist _ _))⟩

theorem getD_eq {l : List ℝ} {i : Nat} (h : i < l.length) : l.getD i 0 = l[i] := by
  rw [List.getD_eq_getElem?_getD, List.getElem?_eq_getElem h, Option.getD_some]

/-- **C46**: the probability of a candidate is the integral of the PDF between the two grid points that enclose its range most
tightly; for a normalised PDF it is positive and at most one. -/
theorem C46_integral (zs logp : List ℝ) (r : Range ℝ) (z : ℝ) (hz : Grid zs) (hl : logp.length = zs.length)
    (hr : r.b < r.e) (hm : r.Mem z) (hb : zs.getD 0 0 ≤ r.b) (he : r.e ≤ zs.getD (zs.length - 1) 0) :
    ∃ i j, i < j ∧ j < zs.length ∧
      (∀ k, k < zs.length → (zs.getD k 0 ≤ r.b ↔ k ≤ i)) ∧ (∀ k, k < zs.length → (r.e ≤ zs.getD k 0 ↔ j ≤ k)) ∧
      sumTrapez zs logp r z = .ok (zs.getD i 0, zs.getD j 0, TrapzBetween zs (logp.map Real.exp) i j) ∧
      0 < TrapzBetween zs (logp.map Real.exp) i j ∧
      TrapzBetween zs (logp.map Real.exp) i j ≤ Trapz zs (logp.map Real.exp) := by
  have h2 := hz.two
  have hn : 0 < zs.length := by omega
  obtain ⟨i, j, e1, hi, hj, e2, e3⟩ := C04_enclosing_strict r zs hz.incr hr.le hn
    (by rw [← getD_eq hn]; exact hb) (by rw [← getD_eq (show zs.length - 1 < zs.length by omega)]; exact he)
  have hij : i < j := by
    by_contra hc
    have h3 := (e3 j hj).2 (le_refl _)
    have h4 := (e2 j hj).2 (by omega)
    linarith
  have hterm : ∀ k, k < zs.length - 1 → 0 < ((logp.map Real.exp).getD k 0 + (logp.map Real.exp).getD (k + 1) 0) / 2 *
      (zs.getD (k + 1) 0 - zs.getD k 0) := by
    intro k hk
    rw [getD_map (by omega), getD_map (by omega)]
    have := hz.step (show k < k + 1 by omega) (by omega)
    have h5 := Real.exp_pos (logp.getD k 0)
    have h6 := Real.exp_pos (logp.getD (k + 1) 0)
    apply mul_pos <;> linarith
  have hpos : 0 < TrapzBetween zs (logp.map Real.exp) i j := by
    unfold TrapzBetween
    apply Finset.sum_pos
    · intro k hk
      rw [Finset.mem_Ico] at hk
      exact hterm k (by omega)
    · exact ⟨i, by rw [Finset.mem_Ico]; omega⟩
  refine ⟨i, j, hij, hj, ?_, ?_, ?_, hpos, ?_⟩
  · intro k hk; rw [getD_eq hk]; exact e2 k hk
  · intro k hk; rw [getD_eq hk]; exact e3 k hk
  · unfold sumTrapez
    rw [if_neg (not_not.2 (pairwise_le_of_lt hz.incr)), ((C04_enclosing_at r zs z (pairwise_le_of_lt hz.incr)).2 hm).1, e1,
      Res.bind_ok]
    simp only
    have hg := Grid.slice hz hij hj
    have hlen : ((zs.drop i).take (j + 1 - i)).length = j + 1 - i := by simp; omega
    have hlen' : ((logp.drop i).take (j + 1 - i)).length = j + 1 - i := by simp; omega
    rw [at_getD (by omega), Res.bind_ok, at_getD (by omega), Res.bind_ok, Pdfz.logSumExp_eq hg (by omega), Res.bind_ok,
      Real.exp_log (Pdfz.Trapz_exp_pos hg (by omega)), List.map_take, List.map_drop, Trapz_slice hij.le hj,
      getD_slice _ _ _ _ (by omega), hlen, getD_slice _ _ _ _ (by omega), Nat.add_zero,
      show i + (j + 1 - i - 1) = j by omega]
  · unfold TrapzBetween Trapz
    rw [Finset.range_eq_Ico]
    apply Finset.sum_le_sum_of_subset_of_nonneg
    · intro k hk
      rw [Finset.mem_Ico] at hk ⊢
      omega
    · intro k hk _
      rw [Finset.mem_Ico] at hk
      exact (hterm k (by omega)).le

/-! ## The whole computation -/

theorem withDeltaz_ok {zs logp : List ℝ} (hz : Grid zs) (hl : zs.length ≤ logp.length) :
    ∀ (cands : List (String × ℝ × ℝ)), (∀ c ∈ cands, c.2.1 ∈ zs) →
    ∃ cs, withDeltaz zs logp cands = .ok cs ∧ cs.map (fun c => (c.id, c.z, c.valProba)) = cands ∧ ∀ c ∈ cs, 0 < c.dz := by
  intro cands
  induction cands with
  | nil => intro _; exact ⟨[], rfl, rfl, by simp⟩
  | cons c cs ih =>
    intro h
    obtain ⟨r, h1, h2, h3⟩ := ih (fun x hx => h x (by simp [hx]))
    obtain ⟨k, hk, hkz⟩ := List.getElem_of_mem (h c (by simp))
    obtain ⟨dz, d1, d2, -⟩ := Deltaz.C28_total zs logp k hz.incr hk hl
    rw [getD_eq hk, hkz] at d1
    refine ⟨⟨c.1, c.2.1, dz, c.2.2⟩ :: r, ?_, by simp [h2], ?_⟩
    · unfold withDeltaz
      rw [d1, Res.bind_ok, h1, Res.bind_ok]
    · intro x hx
      rcases List.mem_cons.1 hx with rfl | hx
      · exact d2
      · exact h3 x hx

theorem probaLoop_ok {zs logp : List ℝ} {slots : List (Slot ℝ)} (P : Slot ℝ → ℝ → Prop)
    (hs : ∀ s ∈ slots, ∃ p, slotProba zs logp s = .ok p ∧ P s p) :
    ∀ cs : List (Cand ℝ), (∀ c ∈ cs, ∃ s ∈ slots, s.cand.id = c.id) →
    ∃ ps, probaLoop zs logp slots cs = .ok ps ∧ ps.map Prod.fst = cs.map Cand.id ∧
      ∀ c ∈ cs, ∃ s ∈ slots, ∃ p, s.cand.id = c.id ∧ (c.id, p) ∈ ps ∧ P s p := by
  intro cs
  induction cs with
  | nil => intro _; exact ⟨[], rfl, rfl, by simp⟩
  | cons c cs ih =>
    intro h
    obtain ⟨r, h1, h2, h3⟩ := ih (fun x hx => h x (by simp [hx]))
    obtain ⟨s, hs1, hs2⟩ := h c (by simp)
    unfold probaLoop
    cases hf : slots.find? (fun s => s.cand.id == c.id) with
    | none =>
      have := List.find?_eq_none.1 hf s hs1
      simp [hs2] at this
    | some t =>
      have ht := List.mem_of_find?_eq_some hf
      have hti : t.cand.id = c.id := by simpa using List.find?_some hf
      obtain ⟨p, hp1, hp2⟩ := hs t ht
      simp only
      rw [hp1, Res.bind_ok, h1, Res.bind_ok]
      refine ⟨_, rfl, by simp [h2], ?_⟩
      intro x hx
      rcases List.mem_cons.1 hx with rfl | hx
      · exact ⟨t, ht, p, hti, by simp, hp2⟩
      · obtain ⟨s', a1, p', a2, a3, a4⟩ := h3 x hx
        exact ⟨s', a1, p', a2, by simp [a3], a4⟩

theorem trapz_nonneg {zs logp : List ℝ} (hz : Grid zs) (hl : logp.length = zs.length) : 0 ≤ Trapz zs (logp.map Real.exp) := by
  unfold Trapz
  apply Finset.sum_nonneg
  intro j hj
  have hj' := Finset.mem_range.1 hj
  have h1 := hz.step (show j < j + 1 by omega) (by omega)
  rw [getD_map (by omega), getD_map (by omega)]
  have := Real.exp_pos (logp.getD j 0)
  have := Real.exp_pos (logp.getD (j + 1) 0)
  apply mul_nonneg <;> linarith

/-- **C46** without the normalisation of the PDF: the probabilities are at most the integral of the PDF. -/
theorem C46_candidates_any (sorter : List (Cand ℝ) → List (Cand ℝ)) (m : Int) (zs logp : List ℝ)
    (cands : List (String × ℝ × ℝ)) (hsort : ∀ l, (sorter l).Perm l) (hz : Grid zs) (hl : logp.length = zs.length)
    (hne : cands ≠ []) (hid : (cands.map Prod.fst).Nodup)
    (hgrid : ∀ c ∈ cands, c.2.1 ∈ zs) (hm : m ≠ 0) :
    ∃ r, compute sorter m zs logp cands = .ok r ∧
      r.length = (if m < 0 then cands.length else min m.toNat cands.length) ∧
      (r.map (fun x => x.1.1)).Nodup ∧ (∀ x ∈ r, x.1.1 ∈ cands.map Prod.fst) ∧
      r.map Prod.snd = List.range r.length ∧ r.Pairwise (fun a b => b.1.2 ≤ a.1.2) ∧
      (∀ x ∈ r, 0 ≤ x.1.2 ∧ x.1.2 ≤ Trapz zs (logp.map Real.exp)) ∧ ∃ x, r.head? = some x ∧ 0 < x.1.2 := by
  have h2 := hz.two
  obtain ⟨cs, e1, e2, e3⟩ := withDeltaz_ok (logp := logp) hz (by omega) cands hgrid
  have hcne : cs ≠ [] := by rintro rfl; simp at e2; exact hne e2
  have hsne : sorter cs ≠ [] := by
    intro h; have := (hsort cs).length_eq; rw [h] at this; simp only [List.length_nil] at this; exact hcne (List.eq_nil_of_length_eq_zero this.symm)
  have hids : cs.map Cand.id = cands.map Prod.fst := by rw [← e2, List.map_map]; rfl
  have hzmem : ∀ c ∈ cs, c.z ∈ zs := by
    intro c hc
    have : (c.id, c.z, c.valProba) ∈ cands := by rw [← e2]; exact List.mem_map_of_mem (f := fun c => (c.id, c.z, c.valProba)) hc
    exact hgrid _ this
  have hle : ∀ x ∈ zs, zs.getD 0 0 ≤ x ∧ x ≤ zs.getD (zs.length - 1) 0 := by
    intro x hx
    obtain ⟨k, hk, rfl⟩ := List.getElem_of_mem hx
    have hs := pairwise_le_of_lt hz.incr
    exact ⟨by rw [getD_eq (by omega)]; exact getElem_le_of_le hs (by omega) hk,
      by rw [getD_eq (by omega)]; exact getElem_le_of_le hs (by omega) (by omega)⟩
  have hgood : ∀ c ∈ sorter cs, Good (⟨zs.getD 0 0, zs.getD (zs.length - 1) 0⟩ : Range ℝ) c := by
    intro c hc
    have hc' := (hsort cs).mem_iff.1 hc
    exact ⟨(hle _ (hzmem c hc')).1, (hle _ (hzmem c hc')).2, hz.step (by omega) (by omega), Or.inl (e3 c hc')⟩
  obtain ⟨slots, f1, f2, f3⟩ := C29_ranges _ (sorter cs) hsne hgood
  obtain ⟨ps, g1, g2, g3⟩ := probaLoop_ok (zs := zs) (logp := logp) (slots := slots)
    (fun s p => 0 ≤ p ∧ p ≤ Trapz zs (logp.map Real.exp) ∧ (s.dup = false → 0 < p)) (by
      intro s hs
      obtain ⟨a1, a2, a3, a4, -, -⟩ := f3 s hs
      unfold slotProba
      by_cases hd : s.dup = true
      · rw [if_pos hd]
        exact ⟨0, rfl, le_refl _, trapz_nonneg hz hl, by rw [hd]; simp⟩
      · rw [if_neg hd]
        obtain ⟨i, j, -, -, -, -, b1, b2, b3⟩ := C46_integral zs logp s.rng s.cand.z hz hl a2 a1 a3 a4
        rw [b1, Res.bind_ok]
        exact ⟨_, rfl, b2.le, b3, fun _ => b2⟩) cs (by
      intro c hc
      have hc' := (hsort cs).mem_iff.2 hc
      rw [← f2] at hc'
      obtain ⟨s, hs, rfl⟩ := List.mem_map.1 hc'
      exact ⟨s, hs, rfl⟩)
  have hpl : ps.length = cands.length := by
    have := congrArg List.length g2
    have h3 := congrArg List.length hids
    simp only [List.length_map] at this h3
    omega
  have hnd : (ps.map Prod.fst).Nodup := by rw [g2, hids]; exact hid
  have hbound : ∀ x ∈ ps, 0 ≤ x.2 ∧ x.2 ≤ Trapz zs (logp.map Real.exp) := by
    intro x hx
    have hx1 : x.1 ∈ cs.map Cand.id := by rw [← g2]; exact List.mem_map_of_mem hx
    obtain ⟨c, hc, hcx⟩ := List.mem_map.1 hx1
    obtain ⟨s, -, p, -, hp1, hp2⟩ := g3 c hc
    have : (c.id, p) = x := List.inj_on_of_nodup_map hnd hp1 hx hcx
    rw [← this]; exact ⟨hp2.1, hp2.2.1⟩
  have hposex : ∃ x ∈ ps, 0 < x.2 := by
    obtain ⟨c, hc, hcb⟩ : ∃ c ∈ sorter cs, ∀ c' ∈ sorter cs, c'.valProba ≤ c.valProba := by
      have : ∀ l : List (Cand ℝ), l ≠ [] → ∃ c ∈ l, ∀ c' ∈ l, c'.valProba ≤ c.valProba := by
        intro l
        induction l with
        | nil => intro h; exact absurd rfl h
        | cons a as ih =>
          intro _
          by_cases has : as = []
          · subst has; exact ⟨a, by simp, by simp⟩
          · obtain ⟨c, hc, hb⟩ := ih has
            rcases le_total a.valProba c.valProba with h | h
            · exact ⟨c, by simp [hc], by
                intro c' hc'
                rcases List.mem_cons.1 hc' with rfl | h'
                · exact h
                · exact hb c' h'⟩
            · exact ⟨a, by simp, by
                intro c' hc'
                rcases List.mem_cons.1 hc' with rfl | h'
                · exact le_refl _
                · exact le_trans (hb c' h') h⟩
      exact this _ hsne
    obtain ⟨s, hs, hs1, -⟩ := C29_best_kept _ (sorter cs) slots f1 c hc hcb
    have hsc : s.cand ∈ cs := by
      apply (hsort cs).mem_iff.1
      rw [← f2]; exact List.mem_map_of_mem hs
    obtain ⟨t, ht, p, hti, hp1, hp2⟩ := g3 s.cand hsc
    have hts : t.cand = s.cand := by
      have htc : t.cand ∈ cs := by
        apply (hsort cs).mem_iff.1
        rw [← f2]; exact List.mem_map_of_mem ht
      exact List.inj_on_of_nodup_map (by rw [hids]; exact hid) htc hsc hti
    have hcsn : (slots.map Slot.cand).Nodup := by
      rw [f2]
      exact (hsort cs).nodup_iff.2 (List.Nodup.of_map _ (by rw [hids]; exact hid))
    have hst : t = s := List.inj_on_of_nodup_map hcsn ht hs hts
    subst hst
    exact ⟨_, hp1, hp2.2.2 hs1⟩
  obtain ⟨r1, r2, r3, dropped, r4, r5⟩ := C30_rank m ps
  refine ⟨rank m ps, ?_, by rw [r3, hpl], ?_, ?_, r1, r2, ?_, ?_⟩
  · unfold compute
    rw [e1, Res.bind_ok, at_getD (show 0 < zs.length by omega), Res.bind_ok,
      at_getD (show zs.length - 1 < zs.length by omega), Res.bind_ok, f1, Res.bind_ok, g1, Res.bind_ok]
  · have h5 : (((rank m ps).map Prod.fst ++ dropped).map Prod.fst).Nodup := (r4.map _).nodup_iff.2 hnd
    rw [List.map_append, List.map_map] at h5
    exact (List.nodup_append.1 h5).1
  · intro x hx
    have : x.1 ∈ ps := r4.mem_iff.1 (List.mem_append.2 (Or.inl (List.mem_map_of_mem hx)))
    rw [← hids, ← g2]; exact List.mem_map_of_mem this
  · intro x hx
    exact hbound x.1 (r4.mem_iff.1 (List.mem_append.2 (Or.inl (List.mem_map_of_mem hx))))
  · have hlen : 0 < (rank m ps).length := by
      rw [r3, hpl]
      have : 0 < cands.length := List.length_pos_iff.2 hne
      split_ifs
      · exact this
      · omega
    cases hr : rank m ps with
    | nil => rw [hr] at hlen; simp at hlen
    | cons x xs =>
      refine ⟨x, rfl, ?_⟩
      obtain ⟨y, hy, hy1⟩ := hposex
      have := r4.mem_iff.2 hy
      rw [hr] at this r2 r5
      rcases List.mem_append.1 this with h6 | h6
      · obtain ⟨w, hw, hwy⟩ := List.mem_map.1 h6
        rcases List.mem_cons.1 hw with rfl | hw
        · rw [hwy]; exact hy1
        · have := (List.pairwise_cons.1 r2).1 w hw
          rw [hwy] at this
          linarith
      · have := r5 x (by simp) y h6
        linarith

/-- **C46**: for a normalised PDF on a grid of at least two redshifts and any non empty set of peaks of distinct identifiers on
grid points, the computation of the candidates ends without error, whatever order the sort gives to candidates of equal
redshift, and returns a non empty list of the given candidates: ranks 0, 1, ..., probabilities between 0 and 1 in decreasing
order; and the first one has a positive probability. -/
theorem C46_candidates (sorter : List (Cand ℝ) → List (Cand ℝ)) (m : Int) (zs logp : List ℝ)
    (cands : List (String × ℝ × ℝ)) (hsort : ∀ l, (sorter l).Perm l) (hz : Grid zs) (hl : logp.length = zs.length)
    (hnorm : Trapz zs (logp.map Real.exp) = 1) (hne : cands ≠ []) (hid : (cands.map Prod.fst).Nodup)
    (hgrid : ∀ c ∈ cands, c.2.1 ∈ zs) (hm : m ≠ 0) :
    ∃ r, compute sorter m zs logp cands = .ok r ∧
      r.length = (if m < 0 then cands.length else min m.toNat cands.length) ∧
      (r.map (fun x => x.1.1)).Nodup ∧ (∀ x ∈ r, x.1.1 ∈ cands.map Prod.fst) ∧
      r.map Prod.snd = List.range r.length ∧ r.Pairwise (fun a b => b.1.2 ≤ a.1.2) ∧
      (∀ x ∈ r, 0 ≤ x.1.2 ∧ x.1.2 ≤ 1) ∧ ∃ x, r.head? = some x ∧ 0 < x.1.2 := by
  obtain ⟨r, h1, h2, h3, h4, h5, h6, h7, h8⟩ := C46_candidates_any sorter m zs logp cands hsort hz hl hne hid hgrid hm
  exact ⟨r, h1, h2, h3, h4, h5, h6, by rw [hnorm] at h7; exact h7, h8⟩

/-- Non vacuity: a normalised PDF on an irregular grid, with two candidates. -/
example : ∃ r, compute id 5 [0, 1, 3] [0, Real.log (1 / 6), Real.log (1 / 4)]
    [("EXT0", 0, 0), ("EXT1", 3, Real.log (1 / 4))] = .ok r ∧ r.length = 2 := by
  have h : Trapz [0, 1, 3] ([0, Real.log (1 / 6), Real.log (1 / 4)].map Real.exp) = 1 := by
    unfold Trapz
    simp only [List.map_cons, List.map_nil, Real.exp_zero, Real.exp_log (show (0 : ℝ) < 1 / 6 by norm_num),
      Real.exp_log (show (0 : ℝ) < 1 / 4 by norm_num)]
    simp [Finset.sum_range_succ]
    norm_num
  obtain ⟨r, hr, hl, -⟩ := C46_candidates id 5 [0, 1, 3] [0, Real.log (1 / 6), Real.log (1 / 4)]
    [("EXT0", 0, 0), ("EXT1", 3, Real.log (1 / 4))] (fun l => List.Perm.refl _)
    ⟨by simp, by simp [List.pairwise_cons]⟩ rfl h (by simp) (by simp) (by simp) (by simp)
  exact ⟨r, hr, hl⟩

end Candidates
end Amazed
