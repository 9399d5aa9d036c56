import Mathlib.Data.List.Perm.Basic
import Verif.Props.PdfzProps

/-! # C26, C27, C44, C45: combination of the PDFs of several templates, priors -/

namespace Amazed
namespace Pdfz
open Finset

/-! ## Linearity of the trapezoid rule -/

/-- Trapezoid rule on a function of the index. -/
noncomputable def TrapzF (z : List ℝ) (F : Nat → ℝ) : ℝ :=
  ∑ j ∈ range (z.length - 1), (F j + F (j + 1)) / 2 * (z.getD (j + 1) 0 - z.getD j 0)

theorem Trapz_eq_F {z f : List ℝ} {F : Nat → ℝ} (h : ∀ k, k < z.length → f.getD k 0 = F k) : Trapz z f = TrapzF z F := by
  unfold Trapz TrapzF
  apply Finset.sum_congr rfl
  intro j hj
  rw [Finset.mem_range] at hj
  rw [h j (by omega), h (j + 1) (by omega)]

theorem TrapzF_add (z : List ℝ) (F G : Nat → ℝ) : TrapzF z (fun k => F k + G k) = TrapzF z F + TrapzF z G := by
  unfold TrapzF
  rw [← Finset.sum_add_distrib]
  apply Finset.sum_congr rfl
  intro j _; ring

theorem TrapzF_mul (z : List ℝ) (c : ℝ) (F : Nat → ℝ) : TrapzF z (fun k => c * F k) = c * TrapzF z F := by
  unfold TrapzF
  rw [Finset.mul_sum]
  apply Finset.sum_congr rfl
  intro j _; ring

theorem TrapzF_const (z : List ℝ) (c : ℝ) : TrapzF z (fun _ => c) = c * (z.getD (z.length - 1) 0 - z.getD 0 0) := by
  unfold TrapzF
  have key : ∀ (Z : Nat → ℝ) m, ∑ j ∈ range m, (c + c) / 2 * (Z (j + 1) - Z j) = c * (Z m - Z 0) := by
    intro Z m
    induction m with
    | zero => simp
    | succ m ih => rw [Finset.sum_range_succ, ih]; ring
  exact key (fun j => z.getD j 0) _

theorem TrapzF_listSum {α : Type} (z : List ℝ) (ms : List α) (g : α → Nat → ℝ) :
    TrapzF z (fun k => (ms.map (fun t => g t k)).sum) = (ms.map (fun t => TrapzF z (g t))).sum := by
  induction ms with
  | nil => simp [TrapzF]
  | cons a as ih =>
    simp only [List.map_cons, List.sum_cons]
    rw [TrapzF_add, ih]

/-! ## C26 -/

theorem Tpl.pdf_integral {z : List ℝ} {t : Tpl} (hz : Grid z) (h1 : t.chi2.length = z.length)
    (h2 : t.zprior.length = z.length) : TrapzF z (t.pdf z) = 1 := by
  have hlp := logPost_length (m := t.chi2) (p := t.zprior) (by omega)
  have hT : 0 < Trapz z ((logPost t.chi2 t.zprior).map Real.exp) := Trapz_exp_pos hz (by omega)
  have e : t.pdf z = fun k => (Trapz z ((logPost t.chi2 t.zprior).map Real.exp))⁻¹ *
      Real.exp ((logPost t.chi2 t.zprior).getD k 0) := by
    funext k; unfold Tpl.pdf; rw [div_eq_inv_mul]
  rw [e, TrapzF_mul, ← Trapz_eq_F (f := (logPost t.chi2 t.zprior).map Real.exp)]
  · exact inv_mul_cancel₀ (ne_of_gt hT)
  · intro k hk
    rw [getD_map (by omega)]

theorem totalEvidence_pos {z : List ℝ} {cst : ℝ} {ms : List Tpl} (hz : Grid z) (h : ValidTpls z ms) :
    0 < totalEvidence z cst ms :=
  list_sum_pos (by simpa using h.ne) (by
    intro x hx
    obtain ⟨t, ht, rfl⟩ := List.mem_map.1 hx
    exact mul_pos (h.pos t ht) (Tpl.evidence_pos hz (h.chi2 t ht) (h.zprior t ht)))

theorem list_sum_map_mulR {α : Type} (l : List α) (f : α → ℝ) (c : ℝ) :
    (l.map (fun x => f x / c)).sum = (l.map f).sum / c := by
  induction l with
  | nil => simp
  | cons a as ih => simp only [List.map_cons, List.sum_cons, ih]; ring

/-- **C26**: the combined PDF integrates to one, up to `exp(-DBL_MAX)` times the length of the grid. -/
theorem C26_normalised (z : List ℝ) (cst : ℝ) (ms : List Tpl) (hz : Grid z) (h : ValidTpls z ms) :
    ∃ v ev, marginalize (arrayOf z cst ms) = .ok (v, ev) ∧
      Trapz z (v.map Real.exp) = 1 + Real.exp (-dblMax) * (z.getD (z.length - 1) 0 - z.getD 0 0) := by
  obtain ⟨v, h1, h2, h3⟩ := C26_mixture z cst ms hz h
  refine ⟨v, _, h1, ?_⟩
  rw [Trapz_eq_F (F := fun k => Real.exp (-dblMax) +
    (ms.map (fun t => t.prior * t.evidence z cst / totalEvidence z cst ms * t.pdf z k)).sum)]
  · rw [TrapzF_add, TrapzF_const, TrapzF_listSum z ms
      (fun t k => t.prior * t.evidence z cst / totalEvidence z cst ms * t.pdf z k)]
    have e : (ms.map (fun t => TrapzF z (fun k => t.prior * t.evidence z cst / totalEvidence z cst ms * t.pdf z k))) =
        ms.map (fun t => t.prior * t.evidence z cst / totalEvidence z cst ms) := by
      apply List.map_congr_left
      intro t ht
      rw [TrapzF_mul, Tpl.pdf_integral hz (h.chi2 t ht) (h.zprior t ht), mul_one]
    rw [e, list_sum_map_mulR]
    have := totalEvidence_pos (cst := cst) hz h
    have e2 : (ms.map (fun t => t.prior * t.evidence z cst)).sum / totalEvidence z cst ms = 1 := by
      rw [show (ms.map (fun t => t.prior * t.evidence z cst)).sum = totalEvidence z cst ms from rfl]
      exact div_self (ne_of_gt this)
    rw [e2]; ring
  · intro k hk
    rw [getD_map (by omega), h3 k hk]

theorem exp_neg_dblMax_le : Real.exp (-dblMax) ≤ 1e-11 := by
  have h1 : (1e11 : ℝ) ≤ dblMax + 1 := by
    unfold dblMax
    have h : (1 : ℝ) ≤ (2 : ℝ) ^ 971 := one_le_pow₀ (by norm_num)
    have h' : (2 ^ 53 - 1 : ℝ) * 1 ≤ (2 ^ 53 - 1) * 2 ^ 971 := mul_le_mul_of_nonneg_left h (by norm_num)
    have h'' : (1e11 : ℝ) ≤ (2 ^ 53 - 1 : ℝ) * 1 := by norm_num
    exact le_trans h'' (le_trans h' (le_add_of_nonneg_right zero_le_one))
  have h2 : (1e11 : ℝ) ≤ Real.exp dblMax := le_trans h1 (Real.add_one_le_exp _)
  rw [Real.exp_neg]
  have : (Real.exp dblMax)⁻¹ ≤ (1e11 : ℝ)⁻¹ := inv_anti₀ (by norm_num) h2
  refine le_trans this (by norm_num)

/-- **C26**: the combined PDF passes the check of its normalisation; the only refusal is a flat PDF. (The grid is required to be
shorter than 10^9, which every redshift grid is.) -/
theorem C26_passes_check (z : List ℝ) (cst : ℝ) (ms : List Tpl) (hz : Grid z) (h : ValidTpls z ms)
    (hspan : z.getD (z.length - 1) 0 - z.getD 0 0 ≤ 1e9) :
    (∃ v, combinePdf "marg" (arrayOf z cst ms) = .ok v) ∨ combinePdf "marg" (arrayOf z cst ms) = .throw .FLAT_ZPDF := by
  obtain ⟨v, e1, e2, -⟩ := C26_mixture z cst ms hz h
  obtain ⟨v', ev, e3, e4⟩ := C26_normalised z cst ms hz h
  rw [e1] at e3
  cases e3
  have hlen : ms.length ≠ 0 := by simpa using h.ne
  unfold combinePdf
  rw [if_neg (by simpa [arrayOf] using h.ne), if_pos rfl, e1]
  simp only [Res.bind_ok]
  rw [show (arrayOf z cst ms).redshifts = z from rfl]
  have h2 := hz.two
  have hpos : 0 < z.getD (z.length - 1) 0 - z.getD 0 0 := by
    have := hz.step (show 0 < z.length - 1 by omega) (by omega); linarith
  have hsmall : Real.exp (-dblMax) * (z.getD (z.length - 1) 0 - z.getD 0 0) ≤ 1e-2 := by
    calc _ ≤ 1e-11 * (1e9 : ℝ) := by
          apply mul_le_mul exp_neg_dblMax_le hspan hpos.le (by norm_num)
      _ ≤ 1e-2 := by norm_num
  have hge : 0 < Real.exp (-dblMax) * (z.getD (z.length - 1) 0 - z.getD 0 0) := mul_pos (Real.exp_pos _) hpos
  rcases isPdfValid_eq hz e2 with h4 | ⟨h4, -⟩ | ⟨-, h4⟩
  · right; rw [h4, Res.bind_throw]
  · left; exact ⟨v, by rw [h4, Res.bind_ok]⟩
  · exfalso
    rw [e4, add_sub_cancel_left, abs_of_pos hge] at h4
    have := lt_of_lt_of_le h4 hsmall
    norm_num at this

theorem ext_exp {v w : List ℝ} (h : v.length = w.length)
    (h2 : ∀ k, k < v.length → Real.exp (v.getD k 0) = Real.exp (w.getD k 0)) : v = w := by
  apply List.ext_getElem h
  intro k h3 h4
  have := Real.exp_injective (h2 k h3)
  simpa [List.getD_eq_getElem?_getD, List.getElem?_eq_getElem h3, List.getElem?_eq_getElem h4] using this

theorem ValidTpls.perm {z : List ℝ} {ms ms' : List Tpl} (h : ValidTpls z ms) (hp : ms.Perm ms') : ValidTpls z ms' where
  ne := by rintro rfl; exact h.ne hp.eq_nil
  chi2 := fun t ht => h.chi2 t (hp.mem_iff.2 ht)
  zprior := fun t ht => h.zprior t (hp.mem_iff.2 ht)
  pos := fun t ht => h.pos t (hp.mem_iff.2 ht)
  sum := by rw [← (hp.map _).sum_eq]; exact h.sum

/-- **C26**: the combined PDF and evidence do not depend on the order in which the templates are given. -/
theorem C26_order (z : List ℝ) (cst : ℝ) (ms ms' : List Tpl) (hz : Grid z) (h : ValidTpls z ms) (hp : ms.Perm ms') :
    marginalize (arrayOf z cst ms) = marginalize (arrayOf z cst ms') := by
  obtain ⟨v, e1, e2, e3⟩ := C26_mixture z cst ms hz h
  obtain ⟨w, f1, f2, f3⟩ := C26_mixture z cst ms' hz (h.perm hp)
  have ht : totalEvidence z cst ms = totalEvidence z cst ms' := (hp.map _).sum_eq
  rw [e1, f1, ht]
  congr 2
  apply ext_exp (by omega)
  intro k hk
  rw [e3 k (by omega), f3 k (by omega), ht, (hp.map _).sum_eq]

/-- **C26**: no template prior means equal priors. -/
theorem C26_default_prior (z : List ℝ) (cst : ℝ) (ms : List Tpl) (hne : ms ≠ []) :
    marginalize { arrayOf z cst ms with modelpriors := [] } =
      marginalize (arrayOf z cst (ms.map (fun t => { t with prior := 1 / (ms.length : ℝ) }))) := by
  have hl : ms.length ≠ 0 := by simpa using hne
  have hpos : 0 < (1 : ℝ) / ms.length := by positivity
  have e : logPriorModel { arrayOf z cst ms with modelpriors := [] } =
      logPriorModel (arrayOf z cst (ms.map (fun t => { t with prior := 1 / (ms.length : ℝ) }))) := by
    unfold logPriorModel arrayOf
    simp only [List.length_map]
    rw [if_pos trivial, if_neg (by simpa using hne), if_neg (by simp)]
    rw [tab_map ms (fun _ => Real.log (1 / (ms.length : ℝ))) rfl (fun i hi => logR_pos hpos),
      tab_map ms (fun _ => Real.log (1 / (ms.length : ℝ))) rfl (fun i hi => by
        rw [Res.at_of_lt (by simpa using hi)]
        simp only [Res.bind_ok, List.getElem_map]
        exact logR_pos hpos)]
    simp only [Res.bind_ok, List.map_map]
    have hs : (ms.map (Real.exp ∘ fun _ => Real.log (1 / (ms.length : ℝ)))).sum = 1 := by
      rw [show (Real.exp ∘ fun _ : Tpl => Real.log (1 / (ms.length : ℝ))) = fun _ => (1 / (ms.length : ℝ)) from
        funext (fun _ => Real.exp_log hpos)]
      simp
      field_simp
    rw [hs, if_neg (by norm_num)]
  unfold marginalize computeAllPdfs
  rw [e]
  simp [arrayOf, validate, List.map_map, Function.comp_def]

/-! Non vacuity of the hypotheses of C23 - C26. -/

example : Grid [0, 1, 3] := ⟨by simp, by simp [List.pairwise_cons]⟩

example : ValidTpls [0, 1, 3] [⟨[10, 2, 30], [0, 0, 0], 0.7⟩, ⟨[11, 4, 3], [0, -1, 0], 0.3⟩] where
  ne := by simp
  chi2 := by simp
  zprior := by simp
  pos := by simp; norm_num
  sum := by norm_num

/-! ## C44: best chi2 -/

/-- Smallest χ² over the templates at a grid point, capped at `DBL_MAX`. -/
noncomputable def minChi2 (ms : List Tpl) (k : Nat) : ℝ := ms.foldr (fun t c => min (t.chi2.getD k 0) c) dblMax

theorem foldr_min_snoc (l : List Tpl) (k : Nat) (x : Tpl) :
    minChi2 (l ++ [x]) k = min (minChi2 l k) (x.chi2.getD k 0) := by
  unfold minChi2
  induction l with
  | nil => simp [min_comm]
  | cons a as ih =>
    simp only [List.cons_append, List.foldr_cons]
    rw [ih, min_assoc]

theorem chi2Min_eq {z : List ℝ} {cst : ℝ} {ms : List Tpl} (h : ∀ t ∈ ms, t.chi2.length = z.length) :
    chi2Min (arrayOf z cst ms) = .ok ((List.range z.length).map (minChi2 ms)) := by
  unfold chi2Min
  simp only [arrayOf, List.length_map]
  obtain ⟨v, e1, e2⟩ := Res.foldN_inv
    (f := fun km acc => Res.at_ (ms.map (·.chi2)) km >>= fun m =>
      Res.tab (fun k => Res.at_ m k >>= fun x => Res.at_ acc k >>= fun c =>
        .ok (open Classical in if x < c then x else c)) z.length)
    (P := fun km acc => acc = (List.range z.length).map (minChi2 (ms.take km)))
    ms.length 0 (List.replicate z.length dblMax) (by
      apply List.ext_getElem
      · simp
      · intro k h1 h2; simp [minChi2]) (by
      rintro km acc - hkm rfl
      rw [Nat.zero_add] at hkm
      refine ⟨_, ?_, rfl⟩
      rw [Res.at_of_lt (by simpa using hkm), Res.bind_ok, List.getElem_map]
      apply Res.tab_ok
      intro i hi
      rw [at_getD (by rw [h _ (List.getElem_mem _)]; exact hi), Res.at_of_lt (by simpa using hi)]
      simp only [Res.bind_ok, List.getElem_map, List.getElem_range]
      have : ms.take (km + 1) = ms.take km ++ [ms[km]] := by
        rw [List.take_add_one, List.getElem?_eq_getElem hkm]; rfl
      rw [this, foldr_min_snoc, min_comm, min_def]
      congr 1
      split_ifs <;> first | rfl | linarith)
  rw [Nat.zero_add, List.take_length] at e2
  rw [e1, e2]

/-- **C44**: the best χ² combination is the PDF of the smallest χ² over the templates with a flat prior; it integrates to one,
and passes the check unless flat. -/
theorem C44_best_chi2 (z : List ℝ) (cst : ℝ) (ms : List Tpl) (hz : Grid z) (h : ValidTpls z ms) :
    ∃ v, bestChi2 (arrayOf z cst ms) = .ok v ∧
      computePdf ((List.range z.length).map (minChi2 ms)) z cst (List.replicate z.length 0) = .ok v ∧
      v.1.length = z.length ∧ Trapz z (v.1.map Real.exp) = 1 ∧
      (combinePdf "bestChi2" (arrayOf z cst ms) = .ok v.1 ∨
        combinePdf "bestChi2" (arrayOf z cst ms) = .throw .FLAT_ZPDF) := by
  obtain ⟨pdf, ev, e1, e2, e3⟩ := C24_normalised ((List.range z.length).map (minChi2 ms)) z (List.replicate z.length 0) cst
    hz (by simp) (by simp)
  have hb : bestChi2 (arrayOf z cst ms) = .ok (pdf, ev) := by
    unfold bestChi2
    rw [computeAllPdfs_eq hz h, Res.bind_ok, chi2Min_eq h.chi2, Res.bind_ok]
    exact e1
  refine ⟨(pdf, ev), hb, e1, e2, e3, ?_⟩
  unfold combinePdf
  rw [if_neg (by simpa [arrayOf] using h.ne), if_neg (by decide), if_pos rfl, hb]
  simp only [Res.bind_ok]
  rcases C24_passes_check _ z _ cst pdf ev hz (by simp) (by simp) e1 with h4 | h4
  · left; rw [show (arrayOf z cst ms).redshifts = z from rfl, h4, Res.bind_ok]
  · right; rw [show (arrayOf z cst ms).redshifts = z from rfl, h4, Res.bind_throw]

/-- What `minChi2` is: a lower bound of the χ² of the templates, attained unless all exceed `DBL_MAX`. -/
theorem C44_min (ms : List Tpl) (k : Nat) :
    (∀ t ∈ ms, minChi2 ms k ≤ t.chi2.getD k 0) ∧ (minChi2 ms k = dblMax ∨ ∃ t ∈ ms, minChi2 ms k = t.chi2.getD k 0) := by
  induction ms with
  | nil => simp [minChi2]
  | cons a as ih =>
    have e : minChi2 (a :: as) k = min (a.chi2.getD k 0) (minChi2 as k) := rfl
    rw [e]
    constructor
    · intro t ht
      rcases List.mem_cons.1 ht with rfl | ht
      · exact min_le_left _ _
      · exact le_trans (min_le_right _ _) (ih.1 t ht)
    · rcases min_choice (a.chi2.getD k 0) (minChi2 as k) with h | h
      · exact Or.inr ⟨a, by simp, h⟩
      · rw [h]
        rcases ih.2 with h2 | ⟨t, ht, h2⟩
        · exact Or.inl h2
        · exact Or.inr ⟨t, by simp [ht], h2⟩

/-- **C44**: the result depends only on the pointwise smallest χ²: neither on the order of the templates nor on the χ² of a
template that is nowhere the best. -/
theorem C44_only_min (z : List ℝ) (cst : ℝ) (ms ms' : List Tpl) (hz : Grid z) (h : ValidTpls z ms) (h' : ValidTpls z ms')
    (heq : ∀ k, k < z.length → minChi2 ms k = minChi2 ms' k) :
    bestChi2 (arrayOf z cst ms) = bestChi2 (arrayOf z cst ms') := by
  unfold bestChi2
  rw [computeAllPdfs_eq hz h, computeAllPdfs_eq hz h', Res.bind_ok, Res.bind_ok, chi2Min_eq h.chi2, chi2Min_eq h'.chi2,
    Res.bind_ok, Res.bind_ok]
  have : (List.range z.length).map (minChi2 ms) = (List.range z.length).map (minChi2 ms') := by
    apply List.map_congr_left
    intro k hk
    exact heq k (List.mem_range.1 hk)
  rw [this]
  rfl

/-- An unknown combination method is an error, and so is an empty array. -/
theorem C44_unknown_method (opt : String) (a : ChisquareArray) (h : opt ≠ "marg") (h1 : opt ≠ "bestChi2")
    (h2 : opt ≠ "bestproba") : combinePdf opt a = .throw .INTERNAL_ERROR := by
  unfold combinePdf
  split_ifs <;> rfl

/-! ## C45: best probability -/

theorem stepBounds_eq {z : List ℝ} (hz : Grid z) (hM : ∀ j, j + 1 < z.length → z.getD (j + 1) 0 - z.getD j 0 ≤ dblMax) :
    ∃ lo hi, stepBounds z = .ok (lo, hi) ∧ 0 < lo ∧ lo ≤ hi ∧
      (∀ j, j + 1 < z.length → lo ≤ z.getD (j + 1) 0 - z.getD j 0 ∧ z.getD (j + 1) 0 - z.getD j 0 ≤ hi) ∧
      (∃ j, j + 1 < z.length ∧ lo = z.getD (j + 1) 0 - z.getD j 0) ∧
      (∃ j, j + 1 < z.length ∧ hi = z.getD (j + 1) 0 - z.getD j 0) := by
  have h2 := hz.two
  unfold stepBounds
  have hd : 0 < dblMax := by unfold dblMax; positivity
  obtain ⟨s, e1, -, e2, e3, e4⟩ := Res.foldN_inv
    (f := fun k (s : ℝ × ℝ) => Res.at_ z k >>= fun zk => Res.at_ z (k - 1) >>= fun zp =>
      .ok (min s.1 (zk - zp), max s.2 (zk - zp)))
    (P := fun k s => 1 ≤ k ∧
      (∀ j, j + 1 < k → s.1 ≤ z.getD (j + 1) 0 - z.getD j 0 ∧ z.getD (j + 1) 0 - z.getD j 0 ≤ s.2) ∧
      (s.1 = dblMax ∧ k = 1 ∨ ∃ j, j + 1 < k ∧ s.1 = z.getD (j + 1) 0 - z.getD j 0) ∧
      (s.2 = -dblMax ∧ k = 1 ∨ ∃ j, j + 1 < k ∧ s.2 = z.getD (j + 1) 0 - z.getD j 0))
    (z.length - 1) 1 (dblMax, -dblMax)
    ⟨le_refl _, by intro j hj; omega, Or.inl ⟨rfl, rfl⟩, Or.inl ⟨rfl, rfl⟩⟩ (by
      rintro k s hk1 hk2 ⟨-, h3, h4, h5⟩
      obtain ⟨m, rfl⟩ : ∃ m, k = m + 1 := ⟨k - 1, by omega⟩
      rw [at_getD (show m + 1 < z.length by omega), at_getD (show m + 1 - 1 < z.length by omega)]
      simp only [Res.bind_ok, Nat.add_sub_cancel]
      refine ⟨_, rfl, by omega, ?_, ?_, ?_⟩
      · intro j hj
        rcases Nat.lt_or_eq_of_le (Nat.le_of_lt_succ hj) with h6 | h6
        · exact ⟨le_trans (min_le_left _ _) (h3 j h6).1, le_trans (h3 j h6).2 (le_max_left _ _)⟩
        · obtain rfl : j = m := by omega
          exact ⟨min_le_right _ _, le_max_right _ _⟩
      · right
        rcases h4 with ⟨h4, -⟩ | ⟨j, hj, h4⟩
        · exact ⟨m, by omega, by simp only [h4]; exact min_eq_right (hM m (by omega))⟩
        · rcases min_choice s.1 (z.getD (m + 1) 0 - z.getD m 0) with h | h
          · exact ⟨j, by omega, h.trans h4⟩
          · exact ⟨m, by omega, h⟩
      · right
        rcases h5 with ⟨h5, -⟩ | ⟨j, hj, h5⟩
        · refine ⟨m, by omega, ?_⟩
          simp only [h5]
          have := hz.step (show m < m + 1 by omega) (by omega)
          exact max_eq_right (by linarith)
        · rcases max_choice s.2 (z.getD (m + 1) 0 - z.getD m 0) with h | h
          · exact ⟨j, by omega, h.trans h5⟩
          · exact ⟨m, by omega, h⟩)
  rw [show 1 + (z.length - 1) = z.length by omega] at e2 e3 e4
  have e3' : ∃ j, j + 1 < z.length ∧ s.1 = z.getD (j + 1) 0 - z.getD j 0 := by
    rcases e3 with ⟨-, e3⟩ | e3
    · omega
    · exact e3
  have e4' : ∃ j, j + 1 < z.length ∧ s.2 = z.getD (j + 1) 0 - z.getD j 0 := by
    rcases e4 with ⟨-, e4⟩ | e4
    · omega
    · exact e4
  refine ⟨s.1, s.2, e1, ?_, ?_, e2, e3', e4'⟩
  · obtain ⟨j, hj, h⟩ := e3'
    rw [h]
    have := hz.step (show j < j + 1 by omega) hj
    linarith
  · exact le_trans (e2 0 (by omega)).1 (e2 0 (by omega)).2

/-- Largest log PDF over the templates at a grid point, at least `-DBL_MAX`. -/
noncomputable def maxLogPdf (z : List ℝ) (ms : List Tpl) (k : Nat) : ℝ :=
  ms.foldr (fun t c => max ((t.logPdf z).getD k 0) c) (-dblMax)

theorem foldr_max_snoc (z : List ℝ) (l : List Tpl) (k : Nat) (x : Tpl) :
    maxLogPdf z (l ++ [x]) k = max (maxLogPdf z l k) ((x.logPdf z).getD k 0) := by
  unfold maxLogPdf
  induction l with
  | nil => simp [max_comm]
  | cons a as ih =>
    simp only [List.cons_append, List.foldr_cons]
    rw [ih, max_assoc]

theorem maxProba_eq {z : List ℝ} {cst : ℝ} {ms : List Tpl} (hz : Grid z) (h : ∀ t ∈ ms, t.chi2.length = z.length)
    (h' : ∀ t ∈ ms, t.zprior.length = z.length) :
    maxProba (arrayOf z cst ms) = .ok ((List.range z.length).map (maxLogPdf z ms)) := by
  unfold maxProba
  simp only [arrayOf, List.length_map]
  obtain ⟨v, e1, e2⟩ := Res.foldN_inv
    (f := fun km acc => Res.at_ (ms.map (·.chi2)) km >>= fun m => Res.at_ (ms.map (·.zprior)) km >>= fun p =>
      computePdf m z cst p >>= fun r =>
      Res.tab (fun k => Res.at_ r.1 k >>= fun x => Res.at_ acc k >>= fun c => .ok (max x c)) z.length)
    (P := fun km acc => acc = (List.range z.length).map (maxLogPdf z (ms.take km)))
    ms.length 0 (List.replicate z.length (-dblMax)) (by
      apply List.ext_getElem
      · simp
      · intro k h1 h2; simp [maxLogPdf]) (by
      rintro km acc - hkm rfl
      rw [Nat.zero_add] at hkm
      have hmem : ms[km] ∈ ms := List.getElem_mem _
      have hlp := logPost_length (m := ms[km].chi2) (p := ms[km].zprior) (by rw [h _ hmem, h' _ hmem])
      have hc := h _ hmem
      refine ⟨_, ?_, rfl⟩
      rw [Res.at_of_lt (by simpa using hkm), Res.at_of_lt (by simpa using hkm)]
      simp only [Res.bind_ok, List.getElem_map]
      rw [C25_formula _ _ _ _ hz (h _ hmem) (h' _ hmem), Res.bind_ok]
      apply Res.tab_ok
      intro i hi
      rw [at_getD (by simp; omega), Res.at_of_lt (by simpa using hi)]
      simp only [Res.bind_ok, List.getElem_map, List.getElem_range]
      have : ms.take (km + 1) = ms.take km ++ [ms[km]] := by
        rw [List.take_add_one, List.getElem?_eq_getElem hkm]; rfl
      rw [this, foldr_max_snoc, max_comm]
      rfl)
  rw [Nat.zero_add, List.take_length] at e2
  rw [e1, e2]

theorem validate_ok {z : List ℝ} {cst : ℝ} {ms : List Tpl} (hz : Grid z) (hne : ms ≠ []) :
    validate (arrayOf z cst ms) = .ok () := by
  have h2 := hz.two
  have hlen : 0 < ms.length := List.length_pos_iff.2 hne
  unfold validate arrayOf
  rw [if_neg (by simp), if_neg (by simp only [List.length_map]; omega)]

/-- Step `j` of a grid. -/
noncomputable def gridStep (z : List ℝ) (j : Nat) : ℝ := z.getD (j + 1) 0 - z.getD j 0

/-- **C45**: on a grid any two steps of which differ by at most 5 % of their mean, the best probability combination is the pointwise largest PDF of the
templates, divided by one common number that makes the rectangle sum with the mean of the extreme steps equal to one. -/
theorem C45_best_proba (z : List ℝ) (cst : ℝ) (ms : List Tpl) (hz : Grid z) (hne : ms ≠ [])
    (h : ∀ t ∈ ms, t.chi2.length = z.length) (h' : ∀ t ∈ ms, t.zprior.length = z.length)
    (hM : ∀ j, j + 1 < z.length → gridStep z j ≤ dblMax)
    (hstep : ∀ i j, i + 1 < z.length → j + 1 < z.length →
      gridStep z j - gridStep z i ≤ 0.05 * ((gridStep z j + gridStep z i) / 2)) :
    ∃ v c st, bestProba (arrayOf z cst ms) = .ok v ∧ v.length = z.length ∧
      (∀ k, k < z.length → v.getD k 0 = maxLogPdf z ms k - c) ∧
      (∃ i j, i + 1 < z.length ∧ j + 1 < z.length ∧ gridStep z i ≤ st ∧ st ≤ gridStep z j) ∧
      (v.map (fun x => Real.exp x * st)).sum = 1 := by
  have h2 := hz.two
  obtain ⟨lo, hi, e1, e2, e3, e4, ⟨j1, hj1, e5⟩, ⟨j2, hj2, e6⟩⟩ := stepBounds_eq hz hM
  have b1 := hstep j1 j2 hj1 hj2
  have e5' : gridStep z j1 = lo := e5.symm
  have e6' : gridStep z j2 = hi := e6.symm
  rw [e5', e6'] at b1
  unfold bestProba
  rw [validate_ok hz hne, Res.bind_ok, maxProba_eq hz h h', Res.bind_ok]
  rw [show (arrayOf z cst ms).redshifts = z from rfl, e1, Res.bind_ok]
  have hst : 0 < (hi + lo) / 2 := by linarith
  have hsum : 0 < ((((List.range z.length).map (maxLogPdf z ms)).map (fun x =>
      Real.exp (x - ((List.range z.length).map (maxLogPdf z ms)).foldl max (-dblMax)))).sum) := by
    apply list_sum_pos
    · intro h0
      rw [List.map_eq_nil_iff, List.map_eq_nil_iff, List.range_eq_nil] at h0
      omega
    · intro x hx
      obtain ⟨y, -, rfl⟩ := List.mem_map.1 hx
      exact Real.exp_pos _
  generalize hV : (List.range z.length).map (maxLogPdf z ms) = V at hsum ⊢
  generalize hmx : V.foldl max (-dblMax) = mx at hsum ⊢
  have hr : ¬ (|hi - lo| / ((hi + lo) / 2) > 0.05) := by
    rw [gt_iff_lt, not_lt, div_le_iff₀ hst, abs_of_nonneg (by linarith)]
    linarith
  simp only
  rw [if_neg hr, logR_pos hsum, Res.bind_ok, logR_pos hst, Res.bind_ok]
  have hVl : V.length = z.length := by rw [← hV]; simp
  refine ⟨_, mx + Real.log ((V.map (fun x => Real.exp (x - mx))).sum) + Real.log ((hi + lo) / 2), (hi + lo) / 2, rfl,
    by simp [hVl], ?_, ?_, ?_⟩
  · intro k hk
    rw [getD_map (by omega), ← hV]
    simp [List.getD_eq_getElem?_getD, hk]
  · exact ⟨j1, j2, hj1, hj2, by rw [e5']; linarith, by rw [e6']; linarith⟩
  · rw [List.map_map]
    have e : (V.map ((fun x => Real.exp x * ((hi + lo) / 2)) ∘ fun x =>
        x - (mx + Real.log ((V.map (fun x => Real.exp (x - mx))).sum) + Real.log ((hi + lo) / 2)))) =
        (V.map (fun x => Real.exp (x - mx))).map (fun y => ((V.map (fun x => Real.exp (x - mx))).sum)⁻¹ * y) := by
      rw [List.map_map]
      apply List.map_congr_left
      intro x _
      simp only [Function.comp]
      rw [show x - (mx + Real.log ((V.map (fun x => Real.exp (x - mx))).sum) + Real.log ((hi + lo) / 2)) =
        (x - mx) + (-Real.log ((V.map (fun x => Real.exp (x - mx))).sum)) + (-Real.log ((hi + lo) / 2)) by ring,
        Real.exp_add, Real.exp_add, Real.exp_neg, Real.exp_neg, Real.exp_log hsum, Real.exp_log hst]
      rw [mul_assoc, inv_mul_cancel₀ (ne_of_gt hst), mul_one, mul_comm]
    rw [e, list_sum_map_mul]
    exact inv_mul_cancel₀ (ne_of_gt hsum)

/-- **C45**: a grid with two steps that differ by more than 5 % of their mean is refused. -/
theorem C45_refuses (z : List ℝ) (cst : ℝ) (ms : List Tpl) (hz : Grid z) (hne : ms ≠ [])
    (h : ∀ t ∈ ms, t.chi2.length = z.length) (h' : ∀ t ∈ ms, t.zprior.length = z.length)
    (hM : ∀ j, j + 1 < z.length → gridStep z j ≤ dblMax) (i j : Nat) (hi : i + 1 < z.length)
    (hj : j + 1 < z.length) (hd : 0.05 * ((gridStep z j + gridStep z i) / 2) < gridStep z j - gridStep z i) :
    bestProba (arrayOf z cst ms) = .throw .INTERNAL_ERROR := by
  obtain ⟨lo, hi', e1, e2, e3, e4, -, -⟩ := stepBounds_eq hz hM
  unfold bestProba
  rw [validate_ok hz hne, Res.bind_ok, maxProba_eq hz h h', Res.bind_ok]
  rw [show (arrayOf z cst ms).redshifts = z from rfl, e1, Res.bind_ok]
  have a1 : lo ≤ gridStep z i := (e4 i hi).1
  have a2 : gridStep z j ≤ hi' := (e4 j hj).2
  simp only
  rw [if_pos]
  rw [gt_iff_lt, lt_div_iff₀ (by linarith), abs_of_nonneg (by linarith)]
  linarith

/-! ## C27: priors -/

/-- **C27**: normalising subtracts one constant and makes the prior integrate to one. -/
theorem C27_normalised (z p : List ℝ) (hz : Grid z) (hl : p.length = z.length) :
    ∃ q c, normalizePrior z p = .ok q ∧ q = p.map (fun x => x - c) ∧ Trapz z (q.map Real.exp) = 1 := by
  refine ⟨_, Real.log (Trapz z (p.map Real.exp)), ?_, rfl, ?_⟩
  · unfold normalizePrior
    rw [logSumExp_eq hz (by omega), Res.bind_ok]
  · have hT : 0 < Trapz z (p.map Real.exp) := Trapz_exp_pos hz (by omega)
    rw [List.map_map, show Real.exp ∘ (fun x => x - Real.log (Trapz z (p.map Real.exp))) =
      (fun x => Real.exp (x - Real.log (Trapz z (p.map Real.exp)))) from rfl, Trapz_exp_sub (by omega), Real.exp_neg,
      Real.exp_log hT]
    exact inv_mul_cancel₀ (ne_of_gt hT)

/-- What each builder returns: its raw values when it was built not to normalise; else the raw values minus a constant,
integrating to one. -/
def PriorSpec (norm : Bool) (z raw : List ℝ) (r : Res (List ℝ)) : Prop :=
  if norm then ∃ q c, r = .ok q ∧ q = raw.map (fun x => x - c) ∧ Trapz z (q.map Real.exp) = 1 else r = .ok raw

theorem maybeNormalize_spec (norm : Bool) (z p : List ℝ) (hz : Grid z) (hl : p.length = z.length) :
    PriorSpec norm z p (maybeNormalize norm z p) := by
  unfold PriorSpec maybeNormalize
  cases norm
  · simp
  · simp only [if_true]; exact C27_normalised z p hz hl

/-- **C27**: the constant prior. -/
theorem C27_constant (norm : Bool) (z : List ℝ) (hz : Grid z) :
    PriorSpec norm z (List.replicate z.length 0) (constantPrior norm z z.length) :=
  maybeNormalize_spec norm z _ hz (by simp)

/-- **C27**: the line presence prior is 0 where a strong line is present and `log pen` elsewhere. -/
theorem C27_line_presence (norm : Bool) (z : List ℝ) (b : List Bool) (pen : ℝ) (hz : Grid z) (hb : b.length = z.length)
    (hpen : 0 < pen) :
    PriorSpec norm z (b.map (fun x => if x then 0 else Real.log pen)) (linePresencePrior norm z b pen) := by
  unfold linePresencePrior
  rw [logR_pos hpen, Res.bind_ok]
  exact maybeNormalize_spec norm z _ hz (by simpa using hb)

/-- **C27**: the prior on the number of lines is 0 where at least two lines are above the cut and `log pen` elsewhere. -/
theorem C27_nlines (norm : Bool) (z : List ℝ) (n : List Int) (pen : ℝ) (hz : Grid z) (hn : n.length = z.length)
    (hpen : 0 < pen) :
    PriorSpec norm z (n.map (fun x => if x ≥ 2 then 0 else Real.log pen)) (nLinesPrior norm z n pen) := by
  unfold nLinesPrior
  rw [logR_pos hpen, Res.bind_ok]
  exact maybeNormalize_spec norm z _ hz (by simpa using hn)

/-- **C27**: with a penalty of at most 1, normalised or not, a redshift with a line is never less probable than one without. -/
theorem C27_no_penalty (norm : Bool) (z : List ℝ) (b : List Bool) (pen : ℝ) (q : List ℝ) (hz : Grid z)
    (hb : b.length = z.length) (hpen : 0 < pen) (h1 : pen ≤ 1) (hq : linePresencePrior norm z b pen = .ok q)
    (i j : Nat) (hj : j < z.length) (hbi : b[i]? = some true) : q.getD j 0 ≤ q.getD i 0 := by
  have hi : i < b.length := (List.getElem?_eq_some_iff.1 hbi).1
  have hlog : Real.log pen ≤ 0 := Real.log_nonpos hpen.le h1
  have hraw : (b.map (fun x => if x then 0 else Real.log pen)).getD j 0 ≤
      (b.map (fun x => if x then 0 else Real.log pen)).getD i 0 := by
    simp only [List.getD_eq_getElem?_getD, List.getElem?_map, hbi, List.getElem?_eq_getElem (show j < b.length by omega),
      Option.map_some, Option.getD_some, if_true]
    split_ifs
    · exact le_refl _
    · exact hlog
  have := C27_line_presence norm z b pen hz hb hpen
  unfold PriorSpec at this
  rw [hq] at this
  cases norm
  · simp only [Bool.false_eq_true, if_false, Res.ok.injEq] at this
    rw [this]; exact hraw
  · simp only [if_true, Res.ok.injEq] at this
    obtain ⟨q', c, h2, h3, -⟩ := this
    subst h2
    rw [h3, getD_map (by simp; omega), getD_map (by simpa using hi)]
    linarith

/-- **C27**: combining adds the log priors, then normalises on request; different sizes are refused. -/
theorem C27_combine (norm : Bool) (z p q : List ℝ) (hz : Grid z) (hp : p.length = z.length) (hq : q.length = z.length) :
    PriorSpec norm z (List.zipWith (· + ·) p q) (combinePrior norm z p q) := by
  unfold combinePrior
  rw [if_neg (by omega), Res.tab_ok (h := fun k => p.getD k 0 + q.getD k 0)]
  · rw [Res.bind_ok]
    have e : (List.range p.length).map (fun k => p.getD k 0 + q.getD k 0) = List.zipWith (· + ·) p q := by
      apply List.ext_getElem
      · simp; omega
      · intro k h1 h2
        have h3 : k < p.length := by simpa using h1
        have h4 : k < q.length := by omega
        simp [List.getD_eq_getElem?_getD, h3, h4]
    rw [e]
    exact maybeNormalize_spec norm z _ hz (by simp; omega)
  · intro i hi
    rw [at_getD hi, at_getD (show i < q.length by omega)]
    rfl

theorem C27_combine_sizes (norm : Bool) (z p q : List ℝ) (h : p.length ≠ q.length) :
    combinePrior norm z p q = .throw .INTERNAL_ERROR := by
  unfold combinePrior; rw [if_pos h]

theorem le_foldl_max (l : List ℝ) : ∀ a : ℝ, a ≤ l.foldl max a ∧ ∀ x ∈ l, x ≤ l.foldl max a := by
  induction l with
  | nil => intro a; simp
  | cons b bs ih =>
    intro a
    simp only [List.foldl_cons]
    refine ⟨le_trans (le_max_left _ _) (ih (max a b)).1, ?_⟩
    intro x hx
    rcases List.mem_cons.1 hx with rfl | hx
    · exact le_trans (le_max_right _ _) (ih (max a x)).1
    · exact (ih (max a b)).2 x hx

theorem nhaValue_pos {z : ℝ} (h : nhaPoly z ≠ 0) : 0 < nhaValue z := by
  unfold nhaValue
  split_ifs with h1
  · positivity
  · exact lt_of_le_of_ne (not_lt.1 h1) (Ne.symm h)

/-- **C27**: the H-alpha density prior is, before normalisation, between `-log 1e12` and 0, and follows the order of the density
model. (Redshifts at an exact zero of the polynomial, where the code takes the log of 0, are excluded.) -/
theorem C27_nha (norm : Bool) (z zs : List ℝ) (a : ℝ) (hz : Grid z) (hl : zs.length = z.length) (ha : 0 < a)
    (h0 : ∀ x ∈ zs, nhaPoly x ≠ 0) :
    ∃ raw, PriorSpec norm z raw (nhaPrior norm z zs a) ∧ raw.length = zs.length ∧
      (∀ k, k < zs.length → -Real.log 1e12 ≤ raw.getD k 0 ∧ raw.getD k 0 ≤ 0) ∧
      (∀ i j, i < zs.length → j < zs.length → nhaValue (zs.getD i 0) ≤ nhaValue (zs.getD j 0) →
        raw.getD i 0 ≤ raw.getD j 0) := by
  have hpos : ∀ k, k < zs.length → 0 < nhaValue (zs.getD k 0) := by
    intro k hk
    apply nhaValue_pos
    apply h0
    rw [List.getD_eq_getElem?_getD, List.getElem?_eq_getElem hk, Option.getD_some]
    exact List.getElem_mem _
  unfold nhaPrior
  rw [if_neg (not_le.2 ha), Res.tab_ok (h := fun k => Real.log (nhaValue (zs.getD k 0)) * a)]
  · rw [Res.bind_ok]
    generalize hlp : (List.range zs.length).map (fun k => Real.log (nhaValue (zs.getD k 0)) * a) = lp
    have hll : lp.length = zs.length := by rw [← hlp]; simp
    have hget : ∀ k, k < zs.length → lp.getD k 0 = Real.log (nhaValue (zs.getD k 0)) * a := by
      intro k hk
      rw [← hlp]
      simp [List.getD_eq_getElem?_getD, hk]
    refine ⟨_, maybeNormalize_spec norm z _ hz (by simp; omega), by simp [hll], ?_, ?_⟩
    · intro k hk
      rw [getD_map (by omega)]
      refine ⟨le_max_right _ _, max_le ?_ ?_⟩
      · have : lp.getD k 0 ≤ lp.foldl max (-dblMax) := by
          apply (le_foldl_max lp (-dblMax)).2
          rw [List.getD_eq_getElem?_getD, List.getElem?_eq_getElem (show k < lp.length by omega), Option.getD_some]
          exact List.getElem_mem _
        linarith
      · have : 0 ≤ Real.log 1e12 := Real.log_nonneg (by norm_num)
        linarith
    · intro i j hi hj hij
      rw [getD_map (by omega), getD_map (by omega), hget i hi, hget j hj]
      apply max_le_max _ (le_refl _)
      have := Real.log_le_log (hpos i hi) hij
      have := mul_le_mul_of_nonneg_right this ha.le
      linarith
  · intro i hi
    rw [at_getD hi, Res.bind_ok, logR_pos (hpos i hi), Res.bind_ok]

theorem C27_nha_bad_coefficient (norm : Bool) (z zs : List ℝ) (a : ℝ) (ha : a ≤ 0) :
    nhaPrior norm z zs a = .throw .INTERNAL_ERROR := by
  unfold nhaPrior; rw [if_pos ha]

/-! Non vacuity of the hypotheses of C45 and C27. -/

theorem dblMax_large : (1e11 : ℝ) ≤ dblMax := by
  unfold dblMax
  have h : (1 : ℝ) ≤ (2 : ℝ) ^ 971 := one_le_pow₀ (by norm_num)
  have h' : (2 ^ 53 - 1 : ℝ) * 1 ≤ (2 ^ 53 - 1) * 2 ^ 971 := mul_le_mul_of_nonneg_left h (by norm_num)
  have h'' : (1e11 : ℝ) ≤ (2 ^ 53 - 1 : ℝ) * 1 := by norm_num
  exact le_trans h'' h'

example : (∃ v, bestProba (arrayOf [0, 1, 2.01] 5 [⟨[10, 2, 30], [0, 0, 0], 0.7⟩, ⟨[11, 4, 3], [0, -1, 0], 0.3⟩]) = .ok v) := by
  obtain ⟨v, -, -, h, -⟩ := C45_best_proba [0, 1, 2.01] 5 [⟨[10, 2, 30], [0, 0, 0], 0.7⟩, ⟨[11, 4, 3], [0, -1, 0], 0.3⟩]
    ⟨by simp, by simp [List.pairwise_cons]; norm_num⟩ (by simp) (by simp) (by simp)
    (by
      intro j hj
      have : j = 0 ∨ j = 1 := by simp at hj; omega
      rcases this with rfl | rfl
      · exact le_trans (by norm_num [gridStep]) dblMax_large
      · exact le_trans (by norm_num [gridStep]) dblMax_large) (by
      intro i j hi hj
      have h1 : i = 0 ∨ i = 1 := by simp at hi; omega
      have h2 : j = 0 ∨ j = 1 := by simp at hj; omega
      rcases h1 with rfl | rfl <;> rcases h2 with rfl | rfl <;> norm_num [gridStep])
  exact ⟨v, h⟩

example : bestProba (arrayOf [0, 1, 3] 5 [⟨[10, 2, 30], [0, 0, 0], 1⟩]) = .throw .INTERNAL_ERROR :=
  C45_refuses [0, 1, 3] 5 [⟨[10, 2, 30], [0, 0, 0], 1⟩] ⟨by simp, by simp [List.pairwise_cons]⟩ (by simp) (by simp)
    (by simp) (by
      intro j hj
      have : j = 0 ∨ j = 1 := by simp at hj; omega
      rcases this with rfl | rfl
      · exact le_trans (by norm_num [gridStep]) dblMax_large
      · exact le_trans (by norm_num [gridStep]) dblMax_large) 0 1 (by simp) (by simp) (by norm_num [gridStep])

example : nhaPoly 1 ≠ 0 ∧ nhaPoly 2 ≠ 0 := by unfold nhaPoly; constructor <;> norm_num

example : PriorSpec true [0, 1, 3] [0, Real.log 0.1, 0] (linePresencePrior true [0, 1, 3] [true, false, true] 0.1) := by
  simpa using C27_line_presence true [0, 1, 3] [true, false, true] 0.1 ⟨by simp, by simp [List.pairwise_cons]⟩ rfl
    (by norm_num)

end Pdfz
end Amazed
