import Mathlib.Algebra.BigOperators.Group.List.Basic
import Mathlib.Tactic.Positivity
import Verif.Props.PdfzLemmas

/-! # C23 - C27: integration, normalisation and combination of the redshift PDF -/

namespace Amazed
namespace Pdfz
open Finset

/-! ## C23 -/

/-- **C23**: on every strictly increasing grid of at least two points, for all log values (at least as many as grid points),
`logSumExpTrick` returns the log of the trapezoid integral of the exponentials: no error, no log of a non positive number, no
read outside the vectors. -/
theorem C23_log_sum_exp (v z : List ℝ) (hz : Grid z) (hl : z.length ≤ v.length) :
    logSumExp v z = .ok (Real.log (Trapz z (v.map Real.exp))) := logSumExp_eq hz hl

/-- **C23** (why it does not overflow): with the offset chosen by the code every weighted exponential is at most 1, and, unless
all of them are below the smallest number, one of them is exactly 1, so that the sum the code takes the log of is between 1
and the number of grid points. -/
theorem C23_terms_bounded (v z : List ℝ) (hz : Grid z) (hl : z.length ≤ v.length) :
    ∃ lf s, logFactor v z = .ok lf ∧ expSum v z lf = .ok s ∧
      (∀ k, k < z.length → weight z k * Real.exp (v.getD k 0 - lf) ≤ 1) ∧ s ≤ z.length ∧
      ((∃ k, k < z.length ∧ -dblMax ≤ v.getD k 0 + Real.log (weight z k)) → 1 ≤ s) := by
  have h2 := hz.two
  obtain ⟨lf, h3, h4, h5, h6⟩ := logFactor_spec hz hl
  have hw : ∀ k, k < z.length → weight z k * Real.exp (v.getD k 0 - lf) =
      Real.exp (v.getD k 0 + Real.log (weight z k) - lf) := by
    intro k hk
    have := (halfStep_eq hz hk).2
    rw [show v.getD k 0 + Real.log (weight z k) - lf = Real.log (weight z k) + (v.getD k 0 - lf) by ring,
      Real.exp_add, Real.exp_log this]
  have hle : ∀ k, k < z.length → weight z k * Real.exp (v.getD k 0 - lf) ≤ 1 := by
    intro k hk
    rw [hw k hk, Real.exp_le_one_iff]
    linarith [h5 k hk]
  have hterm : ∀ k ∈ range z.length, weight z k * (v.map (fun x => Real.exp (x - lf))).getD k 0 =
      weight z k * Real.exp (v.getD k 0 - lf) := by
    intro k hk
    rw [Finset.mem_range] at hk
    rw [getD_map (by omega)]
  refine ⟨lf, _, h3, expSum_eq lf (by omega) hl, hle, ?_, ?_⟩
  · rw [Trapz_eq_weights hz, Finset.sum_congr rfl hterm]
    calc ∑ k ∈ range z.length, weight z k * Real.exp (v.getD k 0 - lf)
        ≤ ∑ _k ∈ range z.length, (1 : ℝ) := by
          apply Finset.sum_le_sum
          intro k hk
          exact hle k (Finset.mem_range.1 hk)
      _ = z.length := by simp
  · rintro ⟨k, hk, hkM⟩
    rw [Trapz_eq_weights hz, Finset.sum_congr rfl hterm]
    obtain ⟨j, hj, hlf⟩ : ∃ j, j < z.length ∧ lf = v.getD j 0 + Real.log (weight z j) := by
      rcases h6 with h6 | h6
      · exact ⟨k, hk, by linarith [h5 k hk]⟩
      · exact h6
    have h1 : weight z j * Real.exp (v.getD j 0 - lf) = 1 := by
      rw [hw j hj, Real.exp_eq_one_iff]; linarith
    calc (1 : ℝ) = weight z j * Real.exp (v.getD j 0 - lf) := h1.symm
      _ ≤ _ := Finset.single_le_sum
        (f := fun k => weight z k * Real.exp (v.getD k 0 - lf))
        (fun k hk => le_of_lt (mul_pos (halfStep_eq hz (Finset.mem_range.1 hk)).2 (Real.exp_pos _)))
        (Finset.mem_range.2 hj)

/-- A grid of less than two points is refused. -/
theorem C23_small_grid (v z : List ℝ) (h : z.length < 2) : logSumExp v z = .throw .INTERNAL_ERROR := by
  unfold logSumExp; rw [if_pos h]

/-! ## C24, C25 -/

/-- Log of the likelihood times the prior, up to a constant: `-χ²/2 + log prior`. -/
noncomputable def logPost (m p : List ℝ) : List ℝ := List.zipWith (fun a b => -a / 2 + b) m p

theorem logPost_length {m p : List ℝ} (h : m.length = p.length) : (logPost m p).length = m.length := by
  unfold logPost; simp [h]

theorem map_range_getD' (l : List ℝ) : (List.range l.length).map (fun i => l.getD i 0) = l := by
  apply List.ext_getElem
  · simp
  · intro k h1 h2
    simp [List.getD_eq_getElem?_getD, List.getElem?_eq_getElem h2]

theorem getD_logPost {m p : List ℝ} (h : m.length = p.length) {i : Nat} (hi : i < m.length) :
    (logPost m p).getD i 0 = -m.getD i 0 / 2 + p.getD i 0 := by
  unfold logPost
  have hp : i < p.length := by omega
  simp [List.getD_eq_getElem?_getD, List.getElem?_zipWith, List.getElem?_eq_getElem hi, List.getElem?_eq_getElem hp]

theorem map_range_sub (l : List ℝ) (c : ℝ) : (List.range l.length).map (fun i => l.getD i 0 - c) = l.map (fun x => x - c) := by
  conv_rhs => rw [← map_range_getD' l]
  rw [List.map_map]; rfl

/-- **C25** (formula, from which the other statements follow): for a grid of at least two points, and a χ² and a prior of the size
of the grid, the log PDF is `-χ²/2 + log prior` minus the log of its trapezoid integral, and the log evidence is the constant
plus the log of the ratio of the integrals of likelihood times prior and of the prior. -/
theorem C25_formula (m z p : List ℝ) (cst : ℝ) (hz : Grid z) (hm : m.length = z.length) (hp : p.length = z.length) :
    computePdf m z cst p = .ok
      ((logPost m p).map (fun x => x - Real.log (Trapz z ((logPost m p).map Real.exp))),
        cst + Real.log (Trapz z ((logPost m p).map Real.exp)) - Real.log (Trapz z (p.map Real.exp))) := by
  have h2 := hz.two
  have hmp : m.length = p.length := by omega
  have hlp := logPost_length hmp
  unfold computePdf
  rw [if_neg (by omega), if_neg (by omega), if_neg (by simpa using hp), logSumExp_eq hz (by omega)]
  simp only [Res.bind_ok]
  have hw : withPrior m p (Real.log (Trapz z (p.map Real.exp))) =
      .ok ((logPost m p).map (fun x => x - Real.log (Trapz z (p.map Real.exp)))) := by
    unfold withPrior
    rw [Res.tab_ok (h := fun i => (logPost m p).getD i 0 - Real.log (Trapz z (p.map Real.exp)))]
    · rw [← hlp, map_range_sub]
    · intro i hi
      rw [at_getD hi, at_getD (show i < p.length by omega), getD_logPost hmp hi]
      simp only [Res.bind_ok, Res.ok.injEq]; ring
  rw [hw]
  simp only [Res.bind_ok]
  rw [logSumExp_eq hz (by simp; omega)]
  simp only [Res.bind_ok]
  have hT : 0 < Trapz z ((logPost m p).map Real.exp) := Trapz_exp_pos hz (by omega)
  have hlog : Real.log (Trapz z (((logPost m p).map (fun x => x - Real.log (Trapz z (p.map Real.exp)))).map Real.exp)) =
      Real.log (Trapz z ((logPost m p).map Real.exp)) - Real.log (Trapz z (p.map Real.exp)) := by
    rw [List.map_map]
    rw [show Real.exp ∘ (fun x => x - Real.log (Trapz z (p.map Real.exp))) =
      (fun x => Real.exp (x - Real.log (Trapz z (p.map Real.exp)))) from rfl,
      Trapz_exp_sub (by omega), Real.log_mul (Real.exp_ne_zero _) (ne_of_gt hT), Real.log_exp]
    ring
  rw [hlog, Res.tab_ok (h := fun i => (logPost m p).getD i 0 - Real.log (Trapz z ((logPost m p).map Real.exp)))]
  · simp only [Res.bind_ok, Res.ok.injEq, Prod.mk.injEq]
    refine ⟨?_, by ring⟩
    rw [← hm, ← hlp, map_range_sub]
  · intro i hi
    rw [at_getD (by simp; omega), getD_map (by omega)]
    simp only [Res.bind_ok, Res.ok.injEq]; ring

/-- **C24**: the PDF integrates to one by the trapezoid rule. -/
theorem C24_normalised (m z p : List ℝ) (cst : ℝ) (hz : Grid z) (hm : m.length = z.length) (hp : p.length = z.length) :
    ∃ pdf ev, computePdf m z cst p = .ok (pdf, ev) ∧ pdf.length = z.length ∧ Trapz z (pdf.map Real.exp) = 1 := by
  have hlp := logPost_length (m := m) (p := p) (by omega)
  refine ⟨_, _, C25_formula m z p cst hz hm hp, by simp; omega, ?_⟩
  have hT : 0 < Trapz z ((logPost m p).map Real.exp) := Trapz_exp_pos hz (by omega)
  rw [List.map_map]
  rw [show Real.exp ∘ (fun x => x - Real.log (Trapz z ((logPost m p).map Real.exp))) =
      (fun x => Real.exp (x - Real.log (Trapz z ((logPost m p).map Real.exp)))) from rfl,
    Trapz_exp_sub (by omega), Real.exp_neg, Real.exp_log hT]
  exact inv_mul_cancel₀ (ne_of_gt hT)

/-- What the validity check does on log values of the size of a grid. -/
theorem isPdfValid_eq {v z : List ℝ} (hz : Grid z) (hl : v.length = z.length) :
    isPdfValid v z = .throw .FLAT_ZPDF ∨
    (isPdfValid v z = .ok () ∧ |Trapz z (v.map Real.exp) - 1| ≤ 1e-1) ∨
    (isPdfValid v z = .throw .PDF_NORMALIZATION_FAILED ∧ 1e-1 < |Trapz z (v.map Real.exp) - 1|) := by
  have h2 := hz.two
  unfold isPdfValid
  rw [if_neg (by omega)]
  cases v with
  | nil => simp at hl; omega
  | cons a as =>
    simp only
    split_ifs with h
    · exact Or.inl rfl
    · right
      unfold sumTrapez
      rw [if_neg (by simpa using hl), if_neg (by omega), logSumExp_eq hz (by omega)]
      simp only [Res.bind_ok]
      rw [Real.exp_log (Trapz_exp_pos hz (by omega))]
      by_cases h3 : |Trapz z ((a :: as).map Real.exp) - 1| > 1e-1
      · rw [if_pos h3]; exact Or.inr ⟨rfl, h3⟩
      · rw [if_neg h3]; exact Or.inl ⟨rfl, not_lt.1 h3⟩

theorem foldl_min_max_bounds (l : List ℝ) : ∀ a b : ℝ, (∀ x ∈ a :: l, l.foldl min a ≤ x) ∧ (∀ x ∈ b :: l, x ≤ l.foldl max b) := by
  induction l with
  | nil => intro a b; simp
  | cons c l ih =>
    intro a b
    obtain ⟨h1, h2⟩ := ih (min a c) (max b c)
    simp only [List.foldl_cons, List.mem_cons, forall_eq_or_imp] at *
    exact ⟨⟨h1.1.trans (min_le_left _ _), h1.1.trans (min_le_right _ _), h1.2⟩,
      (le_max_left _ _).trans h2.1, (le_max_right _ _).trans h2.1, h2.2⟩

theorem foldl_min_max_const (l : List ℝ) (a : ℝ) (h : ∀ x ∈ l, x = a) : l.foldl min a = a ∧ l.foldl max a = a := by
  induction l with
  | nil => simp
  | cons c l ih =>
    have hc := h c (by simp)
    subst hc
    simpa using ih (fun x hx => h x (by simp [hx]))

/-- **C24, the check.** On log values of the size of a grid, the check of the PDF refuses exactly a flat PDF (all log values
equal), and otherwise exactly those whose trapezium integral differs from one by more than a tenth. -/
theorem C24_check (v z : List ℝ) (hz : Grid z) (hl : v.length = z.length) :
    (isPdfValid v z = .throw .FLAT_ZPDF ↔ ∀ x ∈ v, ∀ y ∈ v, x = y) ∧
    (isPdfValid v z = .ok () ↔ (∃ x ∈ v, ∃ y ∈ v, x ≠ y) ∧ |Trapz z (v.map Real.exp) - 1| ≤ 1e-1) := by
  have hcore : isPdfValid v z = .throw .FLAT_ZPDF ↔ ∀ x ∈ v, ∀ y ∈ v, x = y := by
    have h2 := hz.two
    cases v with
    | nil => simp at hl; omega
    | cons a as =>
      have hb := foldl_min_max_bounds as a a
      constructor
      · intro h x hx y hy
        unfold isPdfValid at h
        rw [if_neg (by omega)] at h
        simp only at h
        split_ifs at h with h3
        · have q1 := hb.1 x hx
          have q2 := hb.2 x hx
          have q3 := hb.1 y hy
          have q4 := hb.2 y hy
          rw [h3] at q1 q3
          linarith
        · exfalso
          obtain ⟨s, _, h5⟩ | h5 | h5 : (∃ s, sumTrapez (a :: as) z = .ok s ∧
              (if |s - 1| > 1e-1 then Res.throw Err.PDF_NORMALIZATION_FAILED else Res.ok ()) = .throw .FLAT_ZPDF) ∨
              (∃ e, sumTrapez (a :: as) z = .throw e ∧ e = .FLAT_ZPDF) ∨ False := by
            cases hs : sumTrapez (a :: as) z with
            | ok s => rw [hs, Res.bind_ok] at h; exact Or.inl ⟨s, rfl, h⟩
            | throw e => rw [hs] at h; cases h; exact Or.inr (Or.inl ⟨_, rfl, rfl⟩)
            | ub => rw [hs] at h; cases h
          · split_ifs at h5; cases h5
          · obtain ⟨e, h6, rfl⟩ := h5
            unfold sumTrapez at h6
            rw [if_neg (by simpa using hl), if_neg (by omega), logSumExp_eq hz (by omega)] at h6
            cases h6
          · exact h5
      · intro h
        unfold isPdfValid
        rw [if_neg (by omega)]
        simp only
        obtain ⟨e1, e2⟩ := foldl_min_max_const as a (fun x hx => h x (by simp [hx]) a (by simp))
        rw [if_pos (by rw [e1, e2])]
  refine ⟨hcore, ?_⟩
  rcases isPdfValid_eq hz hl with h | ⟨h, h'⟩ | ⟨h, h'⟩
  · rw [h]
    have := hcore.1 h
    constructor
    · intro hc; cases hc
    · rintro ⟨⟨x, hx, y, hy, hxy⟩, _⟩; exact absurd (this x hx y hy) hxy
  · refine ⟨fun _ => ⟨?_, h'⟩, fun _ => h⟩
    by_contra hc
    push Not at hc
    rw [hcore.2 hc] at h
    cases h
  · rw [h]
    constructor
    · intro hc; cases hc
    · rintro ⟨_, hc⟩; exact absurd hc (not_le.2 h')

/-- **C24**: a PDF built by the library passes the check of its own normalisation; the only possible refusal is a flat PDF. -/
theorem C24_passes_check (m z p : List ℝ) (cst : ℝ) (pdf : List ℝ) (ev : ℝ) (hz : Grid z) (hm : m.length = z.length)
    (hp : p.length = z.length) (h : computePdf m z cst p = .ok (pdf, ev)) :
    isPdfValid pdf z = .ok () ∨ isPdfValid pdf z = .throw .FLAT_ZPDF := by
  obtain ⟨pdf', ev', h1, h2, h3⟩ := C24_normalised m z p cst hz hm hp
  rw [h1] at h
  cases h
  rcases isPdfValid_eq hz h2 with h4 | ⟨h4, -⟩ | ⟨-, h4⟩
  · exact Or.inr h4
  · exact Or.inl h4
  · rw [h3] at h4
    norm_num at h4

/-- **C24**: on a grid with a single redshift the "log PDF" is 1, and the check refuses such a PDF. -/
theorem C24_single_point (m p : List ℝ) (z0 cst : ℝ) :
    computePdf m [z0] cst p = .ok ([1], 1) ∧ isPdfValid [1] [z0] = .throw .INTERNAL_ERROR := by
  constructor
  · unfold computePdf; simp
  · unfold isPdfValid; simp

/-- **C25**: the constant of the log likelihood only shifts the evidence. -/
theorem C25_constant (m z p : List ℝ) (c c' : ℝ) (hz : Grid z) (hm : m.length = z.length) (hp : p.length = z.length) :
    ∃ pdf ev, computePdf m z c p = .ok (pdf, ev) ∧ computePdf m z c' p = .ok (pdf, ev + (c' - c)) := by
  refine ⟨_, _, C25_formula m z p c hz hm hp, ?_⟩
  rw [C25_formula m z p c' hz hm hp]
  simp only [Res.ok.injEq, Prod.mk.injEq, true_and]; ring

theorem logPost_shift_m (m p : List ℝ) (c : ℝ) :
    logPost (m.map (fun x => x + c)) p = (logPost m p).map (fun x => x - c / 2) := by
  unfold logPost
  rw [List.zipWith_map_left, List.map_zipWith]
  congr 1
  funext a b; ring

theorem logPost_shift_p (m p : List ℝ) (c : ℝ) :
    logPost m (p.map (fun x => x + c)) = (logPost m p).map (fun x => x - (-c)) := by
  unfold logPost
  rw [List.zipWith_map_right, List.map_zipWith]
  congr 1
  funext a b; ring

theorem shift_lemma {z v : List ℝ} (hz : Grid z) (hl : z.length ≤ v.length) (c : ℝ) :
    Real.log (Trapz z ((v.map (fun x => x - c)).map Real.exp)) = Real.log (Trapz z (v.map Real.exp)) - c := by
  rw [List.map_map, show Real.exp ∘ (fun x : ℝ => x - c) = (fun x => Real.exp (x - c)) from rfl, Trapz_exp_sub hl,
    Real.log_mul (Real.exp_ne_zero _) (ne_of_gt (Trapz_exp_pos hz hl)), Real.log_exp]
  ring

/-- **C25**: adding a constant to all χ² values leaves the PDF unchanged and lowers the log evidence by half of it. -/
theorem C25_chi2_shift (m z p : List ℝ) (cst c : ℝ) (hz : Grid z) (hm : m.length = z.length) (hp : p.length = z.length) :
    ∃ pdf ev, computePdf m z cst p = .ok (pdf, ev) ∧
      computePdf (m.map (fun x => x + c)) z cst p = .ok (pdf, ev - c / 2) := by
  have hlp := logPost_length (m := m) (p := p) (by omega)
  refine ⟨_, _, C25_formula m z p cst hz hm hp, ?_⟩
  rw [C25_formula _ z p cst hz (by simpa using hm) hp, logPost_shift_m, shift_lemma hz (by omega), List.map_map]
  simp only [Res.ok.injEq, Prod.mk.injEq]
  refine ⟨?_, by ring⟩
  apply List.map_congr_left
  intro x _
  simp only [Function.comp]; ring

/-- **C25**: adding a constant to all log prior values (an unnormalised prior) changes neither the PDF nor the evidence. -/
theorem C25_prior_shift (m z p : List ℝ) (cst c : ℝ) (hz : Grid z) (hm : m.length = z.length) (hp : p.length = z.length) :
    computePdf m z cst (p.map (fun x => x + c)) = computePdf m z cst p := by
  have hlp := logPost_length (m := m) (p := p) (by omega)
  rw [C25_formula m z p cst hz hm hp, C25_formula _ z _ cst hz hm (by simpa using hp), logPost_shift_p,
    shift_lemma hz (by omega), List.map_map]
  simp only [Res.ok.injEq, Prod.mk.injEq]
  constructor
  · apply List.map_congr_left
    intro x _
    simp only [Function.comp]; ring
  · rw [show (p.map (fun x => x + c)) = p.map (fun x => x - (-c)) by
      apply List.map_congr_left; intro x _; ring, shift_lemma hz (by omega)]
    ring

/-- **C25**: at equal prior, a lower χ² gives a larger PDF value, and the PDF values decide the order of the χ² values. -/
theorem C25_order (m z p : List ℝ) (cst : ℝ) (pdf : List ℝ) (ev : ℝ) (hz : Grid z) (hm : m.length = z.length)
    (hp : p.length = z.length) (h : computePdf m z cst p = .ok (pdf, ev)) (i j : Nat) (hi : i < z.length)
    (hj : j < z.length) (hpr : p.getD i 0 = p.getD j 0) :
    m.getD i 0 < m.getD j 0 ↔ pdf.getD j 0 < pdf.getD i 0 := by
  have hlp := logPost_length (m := m) (p := p) (by omega)
  rw [C25_formula m z p cst hz hm hp] at h
  cases h
  rw [getD_map (by omega), getD_map (by omega), getD_logPost (by omega) (by omega),
    getD_logPost (by omega) (by omega), hpr]
  constructor <;> intro h <;> linarith

/-! ## C26 -/

/-- A template: χ², log prior on the redshift, prior of the template. -/
structure Tpl where
  chi2 : List ℝ
  zprior : List ℝ
  prior : ℝ

/-- The array given to the combination for a list of templates. -/
def arrayOf (z : List ℝ) (cst : ℝ) (ms : List Tpl) : ChisquareArray :=
  ⟨z, ms.map (·.chi2), ms.map (·.zprior), ms.map (·.prior), cst⟩

/-- Evidence of a template: integral of likelihood times prior over integral of the prior, times the constant. -/
noncomputable def Tpl.evidence (z : List ℝ) (cst : ℝ) (t : Tpl) : ℝ :=
  Real.exp cst * Trapz z ((logPost t.chi2 t.zprior).map Real.exp) / Trapz z (t.zprior.map Real.exp)

/-- PDF of a template at grid point `k`. -/
noncomputable def Tpl.pdf (z : List ℝ) (t : Tpl) (k : Nat) : ℝ :=
  Real.exp ((logPost t.chi2 t.zprior).getD k 0) / Trapz z ((logPost t.chi2 t.zprior).map Real.exp)

/-- Templates with data of the size of the grid and positive priors that sum to one within 10 %. -/
structure ValidTpls (z : List ℝ) (ms : List Tpl) : Prop where
  ne : ms ≠ []
  chi2 : ∀ t ∈ ms, t.chi2.length = z.length
  zprior : ∀ t ∈ ms, t.zprior.length = z.length
  pos : ∀ t ∈ ms, 0 < t.prior
  sum : 0.9 ≤ (ms.map (·.prior)).sum ∧ (ms.map (·.prior)).sum ≤ 1.1

theorem tab_map {β : Type} (ms : List Tpl) (h : Tpl → β) {g : Nat → Res β} {n : Nat} (hn : n = ms.length)
    (hg : ∀ i (hi : i < ms.length), g i = .ok (h ms[i])) : Res.tab g n = .ok (ms.map h) := by
  subst hn
  cases ms with
  | nil => rfl
  | cons d tl =>
    rw [Res.tab_ok (h := fun i => h ((d :: tl).getD i d))]
    · congr 1
      apply List.ext_getElem
      · simp
      · intro k h1 h2
        have h3 : k < (d :: tl).length := by simpa using h2
        rw [List.getElem_map, List.getElem_map, List.getElem_range, List.getD_eq_getElem?_getD,
          List.getElem?_eq_getElem h3, Option.getD_some]
    · intro i hi
      rw [hg i hi]
      simp [List.getD_eq_getElem?_getD, List.getElem?_eq_getElem hi]

/-- Log PDF of a template. -/
noncomputable def Tpl.logPdf (z : List ℝ) (t : Tpl) : List ℝ :=
  (logPost t.chi2 t.zprior).map (fun x => x - Real.log (Trapz z ((logPost t.chi2 t.zprior).map Real.exp)))

theorem Tpl.evidence_pos {z : List ℝ} {cst : ℝ} {t : Tpl} (hz : Grid z) (h1 : t.chi2.length = z.length)
    (h2 : t.zprior.length = z.length) : 0 < t.evidence z cst := by
  have hlp := logPost_length (m := t.chi2) (p := t.zprior) (by omega)
  unfold Tpl.evidence
  have := Trapz_exp_pos (v := logPost t.chi2 t.zprior) hz (by omega)
  have := Trapz_exp_pos (v := t.zprior) hz (by omega)
  positivity

theorem Tpl.log_evidence {z : List ℝ} {cst : ℝ} {t : Tpl} (hz : Grid z) (h1 : t.chi2.length = z.length)
    (h2 : t.zprior.length = z.length) : Real.log (t.evidence z cst) =
      cst + Real.log (Trapz z ((logPost t.chi2 t.zprior).map Real.exp)) - Real.log (Trapz z (t.zprior.map Real.exp)) := by
  have hlp := logPost_length (m := t.chi2) (p := t.zprior) (by omega)
  have e1 := Trapz_exp_pos (v := logPost t.chi2 t.zprior) hz (by omega)
  have e2 := Trapz_exp_pos (v := t.zprior) hz (by omega)
  unfold Tpl.evidence
  rw [Real.log_div (by positivity) (ne_of_gt e2), Real.log_mul (Real.exp_ne_zero _) (ne_of_gt e1), Real.log_exp]

theorem maxElement_ok {l : List ℝ} (h : l ≠ []) : ∃ m, maxElement l = .ok m := by
  cases l with
  | nil => exact absurd rfl h
  | cons a as => exact ⟨_, rfl⟩

theorem list_sum_pos {l : List ℝ} (h : l ≠ []) (hp : ∀ x ∈ l, 0 < x) : 0 < l.sum := by
  induction l with
  | nil => exact absurd rfl h
  | cons a as ih =>
    rw [List.sum_cons]
    by_cases has : as = []
    · subst has; simpa using hp a (by simp)
    · have := ih has (fun x hx => hp x (by simp [hx]))
      have := hp a (by simp)
      linarith

theorem list_sum_map_mul (l : List ℝ) (c : ℝ) : (l.map (fun x => c * x)).sum = c * l.sum := by
  induction l with
  | nil => simp
  | cons a as ih => simp only [List.map_cons, List.sum_cons, ih]; ring

theorem evidenceAll_eq {l : List ℝ} (h : l ≠ []) : evidenceAll l = .ok (Real.log ((l.map Real.exp).sum)) := by
  obtain ⟨m, hm⟩ := maxElement_ok h
  unfold evidenceAll
  rw [hm, Res.bind_ok]
  have h1 : (l.map (fun e => Real.exp (e - m))).sum = Real.exp (-m) * (l.map Real.exp).sum := by
    rw [← list_sum_map_mul, List.map_map]
    congr 1
    apply List.map_congr_left
    intro x _
    simp only [Function.comp]
    rw [← Real.exp_add]; congr 1; ring
  have h2 : 0 < (l.map Real.exp).sum := list_sum_pos (by simpa using h) (by
    intro x hx
    obtain ⟨y, -, rfl⟩ := List.mem_map.1 hx
    exact Real.exp_pos _)
  rw [h1, logR_pos (by positivity), Res.bind_ok, Real.log_mul (Real.exp_ne_zero _) (ne_of_gt h2), Real.log_exp]
  congr 1; ring

/-- Sum over the templates of prior times evidence. -/
noncomputable def totalEvidence (z : List ℝ) (cst : ℝ) (ms : List Tpl) : ℝ :=
  (ms.map (fun t => t.prior * t.evidence z cst)).sum

theorem computeAllPdfs_eq {z : List ℝ} {cst : ℝ} {ms : List Tpl} (hz : Grid z) (h : ValidTpls z ms) :
    computeAllPdfs (arrayOf z cst ms) = .ok ⟨ms.map (Tpl.logPdf z),
      ms.map (fun t => Real.log (t.evidence z cst) + Real.log t.prior), Real.log (totalEvidence z cst ms)⟩ := by
  have h2 := hz.two
  have hlen : 0 < ms.length := List.length_pos_iff.2 h.ne
  unfold computeAllPdfs
  have hv : validate (arrayOf z cst ms) = .ok () := by
    unfold validate arrayOf
    rw [if_neg (by simp), if_neg (by simp only [List.length_map]; omega)]
  have hp : logPriorModel (arrayOf z cst ms) = .ok (ms.map (fun t => Real.log t.prior)) := by
    unfold logPriorModel arrayOf
    simp only
    rw [if_neg (by simpa using h.ne), if_neg (by simp),
      tab_map ms (fun t => Real.log t.prior) (by simp) (by
        intro i hi
        rw [Res.at_of_lt (by simpa using hi)]
        simp only [Res.bind_ok, List.getElem_map]
        exact logR_pos (h.pos _ (List.getElem_mem _)))]
    simp only [Res.bind_ok]
    have hs : ((ms.map (fun t => Real.log t.prior)).map Real.exp).sum = (ms.map (·.prior)).sum := by
      rw [List.map_map]
      congr 1
      apply List.map_congr_left
      intro t ht
      simp only [Function.comp]
      exact Real.exp_log (h.pos t ht)
    rw [hs, if_neg]
    rintro (h3 | h3)
    · exact absurd h.sum.2 (not_le.2 h3)
    · exact absurd h.sum.1 (not_le.2 h3)
  rw [hv, Res.bind_ok, hp, Res.bind_ok]
  rw [tab_map ms (fun t => (t.logPdf z, Real.log (t.evidence z cst))) (by simp [arrayOf]) (by
    intro i hi
    have hmem : ms[i] ∈ ms := List.getElem_mem _
    unfold arrayOf
    simp only
    rw [Res.at_of_lt (by simpa using hi), Res.at_of_lt (by simpa using hi)]
    simp only [Res.bind_ok, List.getElem_map]
    rw [C25_formula _ _ _ _ hz (h.chi2 _ hmem) (h.zprior _ hmem),
      Tpl.log_evidence hz (h.chi2 _ hmem) (h.zprior _ hmem)]
    rfl)]
  rw [Res.bind_ok]
  rw [tab_map ms (fun t => Real.log (t.evidence z cst) + Real.log t.prior) (by simp) (by
    intro i hi
    rw [Res.at_of_lt (by simpa using hi), Res.at_of_lt (by simpa using hi)]
    simp only [Res.bind_ok, List.getElem_map])]
  rw [Res.bind_ok, evidenceAll_eq (by simpa using h.ne), Res.bind_ok]
  congr 2
  · rw [List.map_map]; rfl
  · unfold totalEvidence
    rw [List.map_map]
    congr 2
    apply List.map_congr_left
    intro t ht
    simp only [Function.comp]
    rw [Real.exp_add, Real.exp_log (h.pos t ht), Real.exp_log (Tpl.evidence_pos hz (h.chi2 t ht) (h.zprior t ht))]
    ring

theorem logAdd_eq (old add : ℝ) : logAdd old add = .ok (Real.log (Real.exp old + Real.exp add)) := by
  unfold logAdd
  have h1 : 0 < Real.exp old + Real.exp add := by positivity
  have h2 : Real.exp (old - max add old) + Real.exp (add - max add old) =
      Real.exp (-(max add old)) * (Real.exp old + Real.exp add) := by
    rw [mul_add, ← Real.exp_add, ← Real.exp_add]
    congr 2 <;> ring
  rw [h2, logR_pos (by positivity), Res.bind_ok, Real.log_mul (Real.exp_ne_zero _) (ne_of_gt h1), Real.log_exp]
  congr 1; ring

theorem sum_range_map {ms : List Tpl} (g : Tpl → ℝ) (G : Nat → ℝ) (hG : ∀ i (hi : i < ms.length), G i = g ms[i]) :
    ∑ i ∈ range ms.length, G i = (ms.map g).sum := by
  induction ms generalizing G with
  | nil => simp
  | cons a as ih =>
    rw [List.length_cons, Finset.sum_range_succ', List.map_cons, List.sum_cons,
      ih (fun i => G (i + 1)) (fun i hi => by
        have := hG (i + 1) (by simpa using hi)
        simpa using this)]
    have := hG 0 (by simp)
    simp only [List.getElem_cons_zero] at this
    rw [this]; ring

/-- **C26**: the combined PDF at each grid point is the mixture of the PDFs of the templates weighted by their share of the
evidence (prior times evidence), plus the seed `exp(-DBL_MAX)`; the combined evidence is the prior weighted sum. -/
theorem C26_mixture (z : List ℝ) (cst : ℝ) (ms : List Tpl) (hz : Grid z) (h : ValidTpls z ms) :
    ∃ v, marginalize (arrayOf z cst ms) = .ok (v, Real.log (totalEvidence z cst ms)) ∧ v.length = z.length ∧
      ∀ k, k < z.length → Real.exp (v.getD k 0) = Real.exp (-dblMax) +
        (ms.map (fun t => t.prior * t.evidence z cst / totalEvidence z cst ms * t.pdf z k)).sum := by
  unfold marginalize
  rw [computeAllPdfs_eq hz h, Res.bind_ok]
  have htot : 0 < totalEvidence z cst ms := list_sum_pos (by simpa using h.ne) (by
    intro x hx
    obtain ⟨t, ht, rfl⟩ := List.mem_map.1 hx
    exact mul_pos (h.pos t ht) (Tpl.evidence_pos hz (h.chi2 t ht) (h.zprior t ht)))
  simp only [arrayOf, List.length_map]
  let G : Nat → Nat → ℝ := fun k i => match ms[i]? with
    | some t => t.prior * t.evidence z cst / totalEvidence z cst ms * t.pdf z k
    | none => 0
  obtain ⟨v, e1, e2, e3⟩ := Res.foldN_inv
    (f := fun km acc => Res.at_ (ms.map (Tpl.logPdf z)) km >>= fun lp =>
      Res.at_ (ms.map (fun t => Real.log (t.evidence z cst) + Real.log t.prior)) km >>= fun e =>
      margStep z.length lp (e - Real.log (totalEvidence z cst ms)) acc)
    (P := fun km acc => acc.length = z.length ∧ ∀ k, k < z.length →
      Real.exp (acc.getD k 0) = Real.exp (-dblMax) + ∑ i ∈ range km, G k i)
    ms.length 0 (List.replicate z.length (-dblMax)) (by
      refine ⟨by simp, ?_⟩
      intro k hk
      simp [List.getD_eq_getElem?_getD, hk]) (by
      rintro km acc - hkm ⟨hal, hacc⟩
      rw [Nat.zero_add] at hkm
      have hmem : ms[km] ∈ ms := List.getElem_mem _
      have hc := h.chi2 _ hmem
      have hzp := h.zprior _ hmem
      have hlp := logPost_length (m := ms[km].chi2) (p := ms[km].zprior) (by omega)
      have hT : 0 < Trapz z ((logPost ms[km].chi2 ms[km].zprior).map Real.exp) := Trapz_exp_pos hz (by omega)
      rw [Res.at_of_lt (by simpa using hkm), Res.at_of_lt (by simpa using hkm)]
      simp only [Res.bind_ok, List.getElem_map]
      unfold margStep
      rw [Res.tab_ok (h := fun k => Real.log (Real.exp (acc.getD k 0) + Real.exp ((ms[km].logPdf z).getD k 0 +
        (Real.log (ms[km].evidence z cst) + Real.log ms[km].prior - Real.log (totalEvidence z cst ms)))))]
      · refine ⟨_, rfl, by simp, ?_⟩
        intro k hk
        rw [List.getD_eq_getElem?_getD, List.getElem?_map, List.getElem?_range hk, Option.map_some, Option.getD_some,
          Real.exp_log (by positivity), hacc k hk, Finset.sum_range_succ, ← add_assoc]
        congr 1
        have hG : G k km = ms[km].prior * ms[km].evidence z cst / totalEvidence z cst ms * ms[km].pdf z k := by
          simp only [G, List.getElem?_eq_getElem hkm]
        rw [hG]
        unfold Tpl.logPdf Tpl.pdf
        rw [getD_map (by omega), Real.exp_add, Real.exp_sub, Real.exp_sub, Real.exp_add,
          Real.exp_log hT, Real.exp_log htot, Real.exp_log (h.pos _ hmem),
          Real.exp_log (Tpl.evidence_pos hz hc hzp)]
        ring
      · intro i hi
        rw [at_getD (show i < acc.length by omega), at_getD (by unfold Tpl.logPdf; simp; omega)]
        simp only [Res.bind_ok]
        exact logAdd_eq _ _)
  rw [e1, Res.bind_ok]
  refine ⟨v, rfl, e2, ?_⟩
  intro k hk
  rw [e3 k hk, Nat.zero_add, sum_range_map (fun t => t.prior * t.evidence z cst / totalEvidence z cst ms * t.pdf z k) (G k)
    (fun i hi => by simp only [G, List.getElem?_eq_getElem hi])]

end Pdfz
end Amazed
