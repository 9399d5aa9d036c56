import Mathlib.Analysis.Complex.ExponentialBounds
import Verif.Model.LogRebin
import Verif.Props.GridProps
import Verif.Props.IndexingProps
import Verif.Props.CalzettiProps
import Verif.Props.SpectralAxisProps
import Verif.Props.SpectralAxisLog
import Verif.Props.RebinProps
import Verif.Props.MeiksinProps

/-! # C60: logarithmic rebinning of spectra and templates -/

set_option linter.unusedSectionVars false
set_option linter.unusedVariables false

namespace Amazed
namespace LogRebin

open Classical

noncomputable section

theorem clog_pos {x : ℝ} (h : 0 < x) : clog x = .ok (Real.log x) := by simp [clog, h]

/-- The geometric axis `b, b·exp d, b·exp (2d), …` with `n` samples. -/
def geom (b d : ℝ) (n : ℕ) : List ℝ := (List.range n).map (fun i : ℕ => b * Real.exp (i * d))

@[simp] theorem geom_length (b d : ℝ) (n : ℕ) : (geom b d n).length = n := by simp [geom]

theorem geom_get (b d : ℝ) (n i : ℕ) (h : i < n) : (geom b d n)[i]? = some (b * Real.exp (i * d)) := by
  simp [geom, h]

theorem geom_getElem (b d : ℝ) (n i : ℕ) (h : i < (geom b d n).length) :
    (geom b d n)[i] = b * Real.exp (i * d) := by simp [geom]

theorem geom_pairwise {b d : ℝ} (hb : 0 < b) (hd : 0 < d) (n : ℕ) : (geom b d n).Pairwise (· < ·) := by
  unfold geom
  rw [List.pairwise_map]
  refine List.Pairwise.imp_of_mem ?_ (List.pairwise_lt_range (n := n))
  intro i j _ _ hij
  have : (i : ℝ) < j := by exact_mod_cast hij
  exact mul_lt_mul_of_pos_left (Real.exp_lt_exp.2 (mul_lt_mul_of_pos_right this hd)) hb

theorem geom_pos {b d : ℝ} (hb : 0 < b) (n : ℕ) : ∀ x ∈ geom b d n, 0 < x := by
  intro x hx
  simp only [geom, List.mem_map, List.mem_range] at hx
  obtain ⟨i, _, rfl⟩ := hx
  positivity

/-- `SpreadOverLogEpsilon` on a range whose ends are `n` steps apart gives the `n + 1` points. -/
theorem spread_geom (b d : ℝ) (n : ℕ) (hb : 0 < b) (hd : 0 < d) (he : eps < b * d) :
    (⟨b, b * Real.exp (n * d)⟩ : Range ℝ).spreadOverLogEps d 0 false eps = .ok (geom b d (n + 1)) := by
  have hexp1 : (1 : ℝ) ≤ Real.exp (n * d) := Real.one_le_exp (by positivity)
  have hbe : b ≤ b * Real.exp (n * d) := by nlinarith
  have h1d : d ≤ Real.exp d - 1 := by have := Real.add_one_le_exp d; linarith
  obtain ⟨v, hv, hpw, hmem, _, hget, hmax⟩ := C06_log_eps_forward ⟨b, b * Real.exp (n * d)⟩ d 0 eps hd
    (by norm_num [eps]) hbe (by simpa using hb)
    (by
      simp only [add_zero]
      calc eps < b * d := he
        _ ≤ b * Real.exp (n * d) * (Real.exp d - 1) := mul_le_mul hbe h1d hd.le (by positivity))
  simp only [add_zero, sub_zero] at hget hmax
  have hlen : v.length = n + 1 := by
    have h1 : (n : ℝ) < v.length := by
      have : b * Real.exp (n * d) < b * Real.exp (v.length * d) := by
        have : (0 : ℝ) < eps := by norm_num [eps]
        linarith
      have := Real.exp_lt_exp.1 (lt_of_mul_lt_mul_left this hb.le)
      exact lt_of_mul_lt_mul_right this hd.le
    have h2 : n < v.length := by exact_mod_cast h1
    by_contra hne
    have h3 : n + 1 < v.length := by omega
    have h4 := getElem_lt_of_lt hpw (Nat.lt_succ_self n) h3
    rw [hget n (by omega), hget (n + 1) h3, min_self] at h4
    exact absurd h4 (not_lt.2 (min_le_right _ _))
  rw [hv]
  congr 1
  apply List.ext_getElem
  · simp [hlen]
  · intro i h1 h2
    rw [hget i h1, geom_getElem]
    apply min_eq_left
    have : (i : ℝ) ≤ n := by
      have : i ≤ n := by omega
      exact_mod_cast this
    exact mul_le_mul_of_nonneg_left (Real.exp_le_exp.2 (mul_le_mul_of_nonneg_right this hd.le)) hb.le

theorem targetAxis_geom (b d : ℝ) (n : ℕ) (hb : 0 < b) (hd : 0 < d) (he : eps < b * d) :
    targetAxis d ⟨b, b * Real.exp (n * d)⟩ ((n : ℤ) + 1) = .ok (geom b d (n + 1)) := by
  unfold targetAxis
  rw [spread_geom b d n hb hd he]
  simp

theorem rebinRange_geom (b d : ℝ) (n : ℕ) :
    rebinRange d (geom b d (n + 1)) ((n : ℤ) + 1) =
      .ok ⟨b - d / 2, b * Real.exp (n * d) + d / 2⟩ := by
  unfold rebinRange
  have h0 : Res.at_ (geom b d (n + 1)) 0 = .ok b := by
    rw [Res.at_eq_ok]; rw [geom_get _ _ _ _ (by omega)]; simp
  have h1 : Res.atZ (geom b d (n + 1)) ((n : ℤ) + 1 - 1) = .ok (b * Real.exp (n * d)) := by
    have : ((n : ℤ) + 1 - 1) = ((n : ℕ) : ℤ) := by ring
    rw [this, Meiksin.atZ_nat, Res.at_eq_ok]
    exact geom_get _ _ _ _ (by omega)
  rw [h0, h1]
  show Res.ok _ = Res.ok _
  congr 2 <;> ring

/-! ## Grid points -/

/-- The `k`-th point of the grid that starts at `b`. -/
def gp (b d : ℝ) (k : ℤ) : ℝ := b * Real.exp (k * d)

theorem gp_pos {b d : ℝ} (hb : 0 < b) (k : ℤ) : 0 < gp b d k := by unfold gp; positivity

theorem gp_log {b d : ℝ} (hb : 0 < b) (k : ℤ) : Real.log (gp b d k) = Real.log b + k * d := by
  unfold gp; rw [Real.log_mul hb.ne' (Real.exp_pos _).ne', Real.log_exp]

theorem gp_exp {b d : ℝ} (hb : 0 < b) (k : ℤ) : Real.exp (Real.log b + k * d) = gp b d k := by
  rw [Real.exp_add, Real.exp_log hb, gp]

theorem gp_zero (b d : ℝ) : gp b d 0 = b := by simp [gp]

theorem gp_add (b d : ℝ) (k j : ℤ) : gp b d (k + j) = gp b d k * Real.exp (j * d) := by
  unfold gp; rw [mul_assoc, ← Real.exp_add]; push_cast; ring_nf

theorem gp_lt {b d : ℝ} (hb : 0 < b) (hd : 0 < d) {k j : ℤ} : gp b d k < gp b d j ↔ k < j := by
  unfold gp
  rw [mul_lt_mul_iff_right₀ hb, Real.exp_lt_exp, mul_lt_mul_iff_left₀ hd]
  norm_cast

theorem gp_le {b d : ℝ} (hb : 0 < b) (hd : 0 < d) {k j : ℤ} : gp b d k ≤ gp b d j ↔ k ≤ j := by
  rw [← not_lt, gp_lt hb hd, not_lt]

theorem le_gp {b d x : ℝ} (hb : 0 < b) (hd : 0 < d) (hx : 0 < x) (k : ℤ) :
    x ≤ gp b d k ↔ ⌈(Real.log x - Real.log b) / d⌉ ≤ k := by
  rw [Int.ceil_le, div_le_iff₀ hd, ← Real.log_le_log_iff hx (gp_pos hb k), gp_log hb]
  constructor <;> intro h <;> linarith

theorem gp_le' {b d x : ℝ} (hb : 0 < b) (hd : 0 < d) (hx : 0 < x) (k : ℤ) :
    gp b d k ≤ x ↔ k ≤ ⌊(Real.log x - Real.log b) / d⌋ := by
  rw [Int.le_floor, le_div_iff₀ hd, ← Real.log_le_log_iff (gp_pos hb k) hx, gp_log hb]
  constructor <;> intro h <;> linarith

/-! ## The reference range -/

theorem refLin_spec (d : ℝ) (lr : Range ℝ) (hd : 0 < d) (hb : 0 < lr.b) (he : 0 < lr.e) :
    ∃ N : ℤ, refLin d lr = .ok ⟨lr.b, gp lr.b d N⟩ ∧ ∀ k : ℤ, k ≤ N ↔ gp lr.b d k ≤ lr.e := by
  refine ⟨⌊(Real.log lr.e - Real.log lr.b) / d⌋, ?_, fun k => (gp_le' hb hd he k).symm⟩
  unfold refLin
  rw [if_neg hd.ne', clog_pos hb, clog_pos he]
  show Res.ok _ = _
  rw [gp_exp hb]

theorem refLog_spec (d : ℝ) (s : ℝ) (M : ℤ) (lr : Range ℝ) (hd : 0 < d) (hs : 0 < s) (hb : 0 < lr.b) (he : 0 < lr.e) :
    ∃ n0 n1 : ℤ, refLog d ⟨s, gp s d M⟩ lr = .ok ⟨gp s d n0, gp s d n1⟩ ∧
      (∀ k : ℤ, n0 ≤ k ↔ lr.b ≤ gp s d k) ∧ (∀ k : ℤ, k ≤ n1 ↔ gp s d k ≤ lr.e) := by
  refine ⟨⌈(Real.log lr.b - Real.log s) / d⌉, M + ⌊(Real.log lr.e - Real.log (gp s d M)) / d⌋, ?_,
    fun k => (le_gp hs hd hb k).symm, fun k => ?_⟩
  · unfold refLog
    simp only
    rw [if_neg hd.ne', clog_pos hb, clog_pos he, clog_pos hs, clog_pos (gp_pos hs M)]
    show Res.ok _ = _
    congr 2
    · rw [gp_exp hs]
    · rw [gp_log hs, add_assoc, ← add_mul, ← Int.cast_add, gp_exp hs]
  · rw [gp_le' hs hd he]
    have : (Real.log lr.e - Real.log (gp s d M)) / d = (Real.log lr.e - Real.log s) / d - M := by
      rw [gp_log hs]; field_simp; ring
    rw [this, Int.floor_sub_intCast]
    constructor <;> intro h <;> linarith

/-! ## The range of a rebinned spectrum -/

theorem spectrumRange_spec (d b : ℝ) (N : ℤ) (xs : List ℝ) (hd : 0 < d) (hb : 0 < b) (h2 : 2 ≤ xs.length)
    (hx0 : (0 : ℝ) < xs[0]'(by omega)) (hne : xs[0] < xs[xs.length - 1]) :
    (∀ m n : ℤ, m < n → 0 ≤ m → n ≤ N → xs[0] ≤ gp b d m → gp b d n ≤ xs[xs.length - 1] →
      ∃ (m' n' : ℤ), spectrumRange d ⟨b, gp b d N⟩ xs = .ok (⟨gp b d m', gp b d n'⟩, n' - m' + 1) ∧ m' < n' ∧
        ∀ k : ℤ, (m' ≤ k ∧ k ≤ n') ↔ (0 ≤ k ∧ k ≤ N ∧ xs[0] ≤ gp b d k ∧ gp b d k ≤ xs[xs.length - 1])) ∧
    ((¬ ∃ m n : ℤ, m < n ∧ 0 ≤ m ∧ n ≤ N ∧ xs[0] ≤ gp b d m ∧ gp b d n ≤ xs[xs.length - 1]) →
      spectrumRange d ⟨b, gp b d N⟩ xs = .throw .INTERNAL_ERROR ∨
      spectrumRange d ⟨b, gp b d N⟩ xs = .throw .INVALID_WAVELENGTH_RANGE) := by
  set f := xs[0] with hf
  set z := xs[xs.length - 1] with hz
  have hzpos : 0 < z := lt_trans hx0 hne
  have hN := gp_pos (d := d) hb N
  -- the clamped range
  have hcl : SAxis.clampLambdaRange xs ⟨b, gp b d N⟩ =
      if max b f < min (gp b d N) z then .ok ⟨max b f, min (gp b d N) z⟩ else .throw .INVALID_WAVELENGTH_RANGE := by
    have heff : SAxis.lambdaRange xs = ⟨f, z⟩ := by unfold SAxis.lambdaRange; rw [dif_neg (by omega)]
    unfold SAxis.clampLambdaRange
    rw [heff]
    simp only
    have h1 : (if b < f then f else b) = max b f := by
      split
      · rename_i h; rw [max_eq_right h.le]
      · rename_i h; rw [max_eq_left (not_lt.1 h)]
    have h3 : (if gp b d N > z then z else gp b d N) = min (gp b d N) z := by
      split
      · rename_i h; rw [min_eq_right h.le]
      · rename_i h; rw [min_eq_left (not_lt.1 h)]
    rw [h1, h3]
    have h4 : (⟨f, z⟩ : Range ℝ).isEmpty = false := by simp [Range.isEmpty, hne.ne]
    rw [h4]
    by_cases hlt : max b f < min (gp b d N) z
    · have h5 : (⟨b, gp b d N⟩ : Range ℝ).isEmpty = false := by
        have : b < gp b d N := lt_of_le_of_lt (le_max_left _ _) (lt_of_lt_of_le hlt (min_le_left _ _))
        simp [Range.isEmpty, this.ne]
      rw [h5, if_pos hlt]
      simp only [Bool.false_eq_true, if_false]
      rw [if_neg (by linarith)]
    · rw [if_neg hlt]
      simp only [Bool.false_eq_true, if_false]
      rw [if_pos (show min (gp b d N) z - max b f ≤ 0 by linarith [not_lt.1 hlt])]
      split <;> rfl
  by_cases hlt : max b f < min (gp b d N) z
  swap
  · constructor
    · intro m n hmn h0 hnN hm hn
      exfalso
      apply hlt
      have h1 : gp b d m < gp b d n := (gp_lt hb hd).2 hmn
      have h3 : b ≤ gp b d m := by have := (gp_le hb hd).2 h0; rwa [gp_zero] at this
      have h4 : gp b d n ≤ gp b d N := (gp_le hb hd).2 hnN
      exact lt_of_le_of_lt (max_le h3 hm) (lt_of_lt_of_le h1 (le_min h4 hn))
    · intro _
      right
      unfold spectrumRange
      rw [hcl, if_neg hlt]; rfl
  -- the aligned ends
  have hbeg : ∃ m' : ℤ, alignBegin d ⟨b, gp b d N⟩ ⟨max b f, min (gp b d N) z⟩ =
      .ok (Real.log b + m' * d, gp b d m') ∧ ∀ k : ℤ, m' ≤ k ↔ 0 ≤ k ∧ f ≤ gp b d k := by
    unfold alignBegin
    simp only
    rw [clog_pos (lt_of_lt_of_le hb (le_max_left b f)), clog_pos hb]
    by_cases h : b < f
    · refine ⟨⌈(Real.log f - Real.log b) / d⌉, ?_, fun k => ?_⟩
      · show (if max b f > b then _ else _) = _
        rw [if_pos (lt_of_lt_of_le h (le_max_right _ _)), max_eq_right h.le]
        simp only [gp_exp hb]
      · rw [← le_gp hb hd hx0]
        refine ⟨fun hk => ⟨?_, hk⟩, fun hk => hk.2⟩
        rw [← gp_le hb hd, gp_zero]
        exact le_trans h.le hk
    · refine ⟨0, ?_, fun k => ?_⟩
      · show (if max b f > b then _ else _) = _
        rw [max_eq_left (not_lt.1 h), if_neg (lt_irrefl b), gp_zero]
        simp
      · refine ⟨fun hk => ⟨hk, ?_⟩, fun hk => hk.1⟩
        have := (gp_le hb hd).2 hk
        rw [gp_zero] at this
        exact le_trans (not_lt.1 h) this
  have hend : ∃ n' : ℤ, alignEnd d ⟨b, gp b d N⟩ ⟨max b f, min (gp b d N) z⟩ =
      .ok (Real.log b + n' * d, gp b d n') ∧ ∀ k : ℤ, k ≤ n' ↔ k ≤ N ∧ gp b d k ≤ z := by
    unfold alignEnd
    simp only
    rw [clog_pos (lt_min hN hzpos), clog_pos hN]
    by_cases h : z < gp b d N
    · refine ⟨N - ⌈(Real.log (gp b d N) - Real.log z) / d⌉, ?_, fun k => ?_⟩
      · show (if min (gp b d N) z < gp b d N then _ else _) = _
        rw [if_pos (lt_of_le_of_lt (min_le_right _ _) h), min_eq_right h.le]
        have : Real.log (gp b d N) - (⌈(Real.log (gp b d N) - Real.log z) / d⌉ : ℝ) * d =
            Real.log b + ((N - ⌈(Real.log (gp b d N) - Real.log z) / d⌉ : ℤ) : ℝ) * d := by
          rw [gp_log hb]; push_cast; ring
        simp only [this, gp_exp hb]
      · rw [le_sub_comm, Int.ceil_le, div_le_iff₀ hd, gp_log hb,
          ← Real.log_le_log_iff (gp_pos hb k) hzpos, gp_log hb]
        push_cast
        constructor
        · intro hk
          have hk' : Real.log b + k * d ≤ Real.log z := by nlinarith
          refine ⟨?_, hk'⟩
          rw [← gp_log hb, Real.log_le_log_iff (gp_pos hb k) hzpos] at hk'
          exact ((gp_lt hb hd).1 (lt_of_le_of_lt hk' h)).le
        · intro hk; nlinarith [hk.2]
    · refine ⟨N, ?_, fun k => ?_⟩
      · show (if min (gp b d N) z < gp b d N then _ else _) = _
        rw [min_eq_left (not_lt.1 h), if_neg (lt_irrefl _), gp_log hb]
      · refine ⟨fun hk => ⟨hk, le_trans ((gp_le hb hd).2 hk) (not_lt.1 h)⟩, fun hk => hk.1⟩
  obtain ⟨m', hm1, hm2⟩ := hbeg
  obtain ⟨n', hn1, hn2⟩ := hend
  have hall : ∀ k : ℤ, (m' ≤ k ∧ k ≤ n') ↔ (0 ≤ k ∧ k ≤ N ∧ f ≤ gp b d k ∧ gp b d k ≤ z) := by
    intro k; rw [hm2, hn2]; tauto
  have hcount : MedCont.cround ((Real.log b + n' * d - (Real.log b + m' * d)) / d) = n' - m' := by
    have : (Real.log b + n' * d - (Real.log b + m' * d)) / d = ((n' - m' : ℤ) : ℝ) := by
      push_cast; field_simp; ring
    rw [this, Calzetti.cround_int]
  have hform : spectrumRange d ⟨b, gp b d N⟩ xs =
      if n' - m' + 1 < 2 then .throw .INTERNAL_ERROR else .ok (⟨gp b d m', gp b d n'⟩, n' - m' + 1) := by
    unfold spectrumRange
    rw [hcl, if_pos hlt]
    show (if d = 0 then _ else _) = _
    rw [if_neg hd.ne', hm1, hn1]
    show (if MedCont.cround ((Real.log b + n' * d - (Real.log b + m' * d)) / d) + 1 < 2 then _ else _) = _
    rw [hcount]
  constructor
  · intro m n hmn h0 hnN hm hn
    have h1 : m' ≤ m := (hm2 m).2 ⟨h0, hm⟩
    have h3 : n ≤ n' := (hn2 n).2 ⟨hnN, hn⟩
    refine ⟨m', n', ?_, by omega, hall⟩
    rw [hform, if_neg (by omega)]
  · intro hno
    left
    rw [hform, if_pos]
    by_contra hge
    have h1 := (hall m').1 ⟨le_refl _, by omega⟩
    have h3 := (hall n').1 ⟨by omega, le_refl _⟩
    exact hno ⟨m', n', by omega, h1.1, h3.2.1, h1.2.2.1, h3.2.2.2⟩

theorem geom_gp (b d : ℝ) (m : ℤ) (n i : ℕ) (h : i < n) :
    (geom (gp b d m) d n)[i]? = some (gp b d (m + i)) := by
  rw [geom_get _ _ _ _ h, gp_add]; push_cast; rfl

theorem setup_notLog (d : ℝ) (xs : List ℝ) (lr : Range ℝ) (hnl : ∃ a, (SAxis.ofList xs).isLogSampled = .ok (false, a)) :
    setup d xs lr = refLin d lr := by
  obtain ⟨a, ha⟩ := hnl
  unfold setup isLogSampledStep
  rw [ha]
  rfl

theorem setup_log (d : ℝ) (xs : List ℝ) (lr : Range ℝ) (hl : ∃ a, (SAxis.ofList xs).isLogSampled = .ok (true, a))
    (hd : |regularStep xs - d| ≤ 1 / 10000000) :
    setup d xs lr = refLog d (SAxis.lambdaRange xs) lr := by
  obtain ⟨a, ha⟩ := hl
  unfold setup isLogSampledStep
  rw [ha]
  have : decide (¬ |regularStep xs - d| > 1 / 10000000) = true := by simpa using hd
  simp only [Res.bind_ok, this]
  simp

/-! ## Rebinning a spectrum -/

/-- The wavelengths a rebinned spectrum may have: the points `lr.b · exp (k · d)`, `k ≥ 0`, inside the requested range and
inside the spectrum. -/
def Fits (d : ℝ) (lr : Range ℝ) (first last : ℝ) (k : ℤ) : Prop :=
  0 ≤ k ∧ lr.b * Real.exp (k * d) ≤ lr.e ∧ first ≤ lr.b * Real.exp (k * d) ∧ lr.b * Real.exp (k * d) ≤ last

/-- The log-rebinning of a spectrum: setup from the requested range, then rebinning. -/
def logRebinSpectrum (m : Rebin.ErrMode) (d : ℝ) (lr : Range ℝ) (xs ys es : List ℝ) : Res Rebinned :=
  setup d xs lr >>= fun ref => rebinSpectrum m d ref xs ys es

theorem logRebin_core (m : Rebin.ErrMode) (d : ℝ) (lr : Range ℝ) (xs ys es : List ℝ) (hd : 0 < d) (hb : 0 < lr.b)
    (he : 0 < lr.e) (hxs : xs.Pairwise (· < ·)) (h2 : 2 ≤ xs.length) (hx0 : (0 : ℝ) < xs[0]'(by omega))
    (hnl : ∃ a, (SAxis.ofList xs).isLogSampled = .ok (false, a)) (heps : eps < lr.b * d)
    (p q : ℤ) (hpq : p < q) (hp : Fits d lr xs[0] xs[xs.length - 1] p) (hq : Fits d lr xs[0] xs[xs.length - 1] q) :
    ∃ (a : ℤ) (n : ℕ), 0 ≤ a ∧ 0 < n ∧
      (∀ k, Fits d lr xs[0] xs[xs.length - 1] k ↔ a ≤ k ∧ k ≤ a + n) ∧
      logRebinSpectrum m d lr xs ys es =
        (Rebin.linear m xs ys es ⟨gp lr.b d a - d / 2, gp lr.b d (a + n) + d / 2⟩ (geom (gp lr.b d a) d (n + 1)) >>=
          fun cells => .ok (geom (gp lr.b d a) d (n + 1), cells)) := by
  obtain ⟨N, hN1, hN2⟩ := refLin_spec d lr hd hb he
  have hne : xs[0] < xs[xs.length - 1] := getElem_lt_of_lt hxs (by omega) (by omega)
  obtain ⟨hok, _⟩ := spectrumRange_spec d lr.b N xs hd hb h2 hx0 hne
  obtain ⟨a, c, h1, hac, hall⟩ := hok p q hpq hp.1 ((hN2 q).2 hq.2.1) hp.2.2.1 hq.2.2.2
  have ha0 : 0 ≤ a := ((hall a).1 ⟨le_refl _, hac.le⟩).1
  obtain ⟨n, hn⟩ : ∃ n : ℕ, c = a + n := ⟨(c - a).toNat, by omega⟩
  subst hn
  refine ⟨a, n, ha0, by omega, ?_, ?_⟩
  · intro k
    rw [hall k, hN2]
    rfl
  · unfold logRebinSpectrum
    rw [setup_notLog d xs lr hnl, hN1]
    simp only [Res.bind_ok]
    unfold rebinSpectrum
    obtain ⟨ax, hax⟩ := hnl
    rw [hax]
    simp only [Res.bind_ok, Bool.false_eq_true, if_false]
    rw [h1]
    simp only [Res.bind_ok]
    have hba : lr.b ≤ gp lr.b d a := by have := (gp_le hb hd).2 ha0; rwa [gp_zero] at this
    have e1 : gp lr.b d (a + n) = gp lr.b d a * Real.exp (n * d) := by rw [gp_add]; push_cast; rfl
    have e2 : a + n - a + 1 = (n : ℤ) + 1 := by ring
    have heps' : eps < gp lr.b d a * d := lt_of_lt_of_le heps (mul_le_mul_of_nonneg_right hba hd.le)
    rw [e1, e2, targetAxis_geom _ d n (gp_pos hb a) hd heps']
    simp only [Res.bind_ok]
    rw [rebinRange_geom]
    simp only [Res.bind_ok]

/-- **C60, spectra.** A spectrum that is not log-sampled, and whose samples go half a step beyond the grid points it
contains, is resampled without error at exactly the grid points `λmin·exp(k·step)` of the requested range that it covers:
all of them have mask 1, the linearly interpolated flux and the specified error. -/
theorem C60_spectrum (m : Rebin.ErrMode) (d : ℝ) (lr : Range ℝ) (xs ys es : List ℝ) (hd : 0 < d) (hb : 0 < lr.b)
    (he : 0 < lr.e) (hxs : xs.Pairwise (· < ·)) (h2 : 2 ≤ xs.length) (hx0 : (0 : ℝ) < xs[0]'(by omega))
    (hys : ys.length = xs.length) (hes : es.length = xs.length)
    (hnl : ∃ a, (SAxis.ofList xs).isLogSampled = .ok (false, a)) (heps : eps < lr.b * d)
    (p q : ℤ) (hpq : p < q) (hp : Fits d lr xs[0] xs[xs.length - 1] p) (hq : Fits d lr xs[0] xs[xs.length - 1] q)
    (hmargin : ∀ k, Fits d lr xs[0] xs[xs.length - 1] k →
      xs[0] + d / 2 ≤ lr.b * Real.exp (k * d) ∧ lr.b * Real.exp (k * d) + d / 2 ≤ xs[xs.length - 1]) :
    ∃ v cells, logRebinSpectrum m d lr xs ys es = .ok (v, cells) ∧
      v.Pairwise (· < ·) ∧
      (∀ x, x ∈ v ↔ ∃ k, Fits d lr xs[0] xs[xs.length - 1] k ∧ x = lr.b * Real.exp (k * d)) ∧
      cells.length = v.length ∧
      ∀ (i : Nat) x cell, v[i]? = some x → cells[i]? = some cell →
        cell.mask = 1 ∧ OnPolyline xs ys x cell.flux ∧ Rebin.ErrSpec m xs es v i x cell.err := by
  obtain ⟨a, n, ha0, hn0, hall, hform⟩ := logRebin_core m d lr xs ys es hd hb he hxs h2 hx0 hnl heps p q hpq hp hq
  have hga := gp_pos (d := d) hb a
  have hF1 := hmargin a ((hall a).2 ⟨le_refl _, by omega⟩)
  have hF2 := hmargin (a + n) ((hall (a + n)).2 ⟨by omega, le_refl _⟩)
  have hpw := geom_pairwise hga hd (n + 1)
  have hr1 : xs[0] ≤ gp lr.b d a - d / 2 := by have := hF1.1; unfold gp; linarith
  have hr2 : gp lr.b d (a + n) + d / 2 ≤ xs[xs.length - 1] := by have := hF2.2; unfold gp; push_cast at this ⊢; linarith
  obtain ⟨cells, hc1, hc2, hc3⟩ := Rebin.C37_linear_partial m xs ys es (geom (gp lr.b d a) d (n + 1))
    ⟨gp lr.b d a - d / 2, gp lr.b d (a + n) + d / 2⟩ hxs hys hes (pairwise_le_of_lt hpw)
    (fun _ => ⟨hpw, by simp; omega⟩) (by omega) hr1 hr2
  refine ⟨_, cells, by rw [hform, hc1]; rfl, hpw, ?_, hc2, ?_⟩
  · intro x
    constructor
    · intro hx
      obtain ⟨i, hi⟩ := List.getElem?_of_mem hx
      have hin : i < n + 1 := by have := (List.getElem?_eq_some_iff.1 hi).1; simpa using this
      rw [geom_gp _ _ _ _ _ hin] at hi
      exact ⟨a + i, (hall _).2 ⟨by omega, by omega⟩, by cases hi; rfl⟩
    · rintro ⟨k, hk, rfl⟩
      obtain ⟨h3, h4⟩ := (hall k).1 hk
      have hi : (k - a).toNat < n + 1 := by omega
      have := geom_gp lr.b d a (n + 1) _ hi
      have e : a + ((k - a).toNat : ℤ) = k := by omega
      rw [e] at this
      exact List.mem_of_getElem? this
  · intro i x cell hx hcell
    refine (hc3 i x cell hx hcell).1 ?_
    refine (Rebin.C37_covered xs _ hxs h2 hr1 hr2 x).1 ?_ ?_
    · have hmem := List.mem_of_getElem? hx
      have hin : i < n + 1 := by have := (List.getElem?_eq_some_iff.1 hx).1; simpa using this
      rw [geom_gp _ _ _ _ _ hin] at hx
      cases hx
      have := (gp_le (b := lr.b) hb hd).2 (show a ≤ a + i by omega)
      show gp lr.b d a - d / 2 ≤ _
      linarith
    · have hin : i < n + 1 := by have := (List.getElem?_eq_some_iff.1 hx).1; simpa using this
      rw [geom_gp _ _ _ _ _ hin] at hx
      cases hx
      have := (gp_le (b := lr.b) hb hd).2 (show a + i ≤ a + (n : ℤ) by omega)
      show _ ≤ gp lr.b d (a + n) + d / 2
      linarith

/-- **C60, the borders (finding).** If a grid point that fits is less than half a step inside the spectrum (for instance when
the first sample of the spectrum is the start of the requested range), the spectrum is refused with an internal error. -/
theorem C60_spectrum_border_refused (m : Rebin.ErrMode) (d : ℝ) (lr : Range ℝ) (xs ys es : List ℝ) (hd : 0 < d) (hb : 0 < lr.b)
    (he : 0 < lr.e) (hxs : xs.Pairwise (· < ·)) (h2 : 2 ≤ xs.length) (hx0 : (0 : ℝ) < xs[0]'(by omega))
    (hnl : ∃ a, (SAxis.ofList xs).isLogSampled = .ok (false, a)) (heps : eps < lr.b * d)
    (p q : ℤ) (hpq : p < q) (hp : Fits d lr xs[0] xs[xs.length - 1] p) (hq : Fits d lr xs[0] xs[xs.length - 1] q)
    (k : ℤ) (hk : Fits d lr xs[0] xs[xs.length - 1] k)
    (hclose : lr.b * Real.exp (k * d) < xs[0] + d / 2 ∨ xs[xs.length - 1] < lr.b * Real.exp (k * d) + d / 2) :
    logRebinSpectrum m d lr xs ys es = .throw .INTERNAL_ERROR := by
  obtain ⟨a, n, ha0, hn0, hall, hform⟩ := logRebin_core m d lr xs ys es hd hb he hxs h2 hx0 hnl heps p q hpq hp hq
  obtain ⟨h3, h4⟩ := (hall k).1 hk
  have h5 := (gp_le (b := lr.b) hb hd).2 h3
  have h6 := (gp_le (b := lr.b) hb hd).2 h4
  rw [hform, Rebin.C37_refuses m xs ys es _ _ (by omega) ?_]
  · rfl
  · change gp lr.b d k < _ ∨ _ < gp lr.b d k + _ at hclose
    rcases hclose with h | h
    · left; show gp lr.b d a - d / 2 < _; linarith
    · right; show _ < gp lr.b d (a + n) + d / 2; linarith

/-- **C60, no overlap.** If less than two grid points fit, the spectrum is refused. -/
theorem C60_spectrum_refused (m : Rebin.ErrMode) (d : ℝ) (lr : Range ℝ) (xs ys es : List ℝ) (hd : 0 < d) (hb : 0 < lr.b)
    (he : 0 < lr.e) (hxs : xs.Pairwise (· < ·)) (h2 : 2 ≤ xs.length) (hx0 : (0 : ℝ) < xs[0]'(by omega))
    (hnl : ∃ a, (SAxis.ofList xs).isLogSampled = .ok (false, a))
    (hno : ¬ ∃ p q : ℤ, p < q ∧ Fits d lr xs[0] xs[xs.length - 1] p ∧ Fits d lr xs[0] xs[xs.length - 1] q) :
    logRebinSpectrum m d lr xs ys es = .throw .INTERNAL_ERROR ∨
    logRebinSpectrum m d lr xs ys es = .throw .INVALID_WAVELENGTH_RANGE := by
  obtain ⟨N, hN1, hN2⟩ := refLin_spec d lr hd hb he
  have hne : xs[0] < xs[xs.length - 1] := getElem_lt_of_lt hxs (by omega) (by omega)
  have hr := (spectrumRange_spec d lr.b N xs hd hb h2 hx0 hne).2 (by
    rintro ⟨p, q, hpq, h0, hqN, h3, h4⟩
    have hlt := (gp_lt (b := lr.b) hb hd).2 hpq
    refine hno ⟨p, q, hpq, ⟨h0, ?_, h3, le_trans hlt.le h4⟩, ⟨by omega, (hN2 q).1 hqN, le_trans h3 hlt.le, h4⟩⟩
    exact (hN2 p).1 (by omega))
  unfold logRebinSpectrum
  rw [setup_notLog d xs lr hnl, hN1]
  simp only [Res.bind_ok]
  unfold rebinSpectrum
  obtain ⟨ax, hax⟩ := hnl
  rw [hax]
  simp only [Res.bind_ok, Bool.false_eq_true, if_false]
  rcases hr with h | h
  · left; rw [h]; rfl
  · right; rw [h]; rfl

/-- **C60.** A log-sampled spectrum is never rebinned. -/
theorem C60_spectrum_log_refused (m : Rebin.ErrMode) (d : ℝ) (ref : Range ℝ) (xs ys es : List ℝ)
    (hl : ∃ a, (SAxis.ofList xs).isLogSampled = .ok (true, a)) :
    rebinSpectrum m d ref xs ys es = .throw .INTERNAL_ERROR := by
  obtain ⟨a, ha⟩ := hl
  unfold rebinSpectrum
  rw [ha]
  rfl

/-- A concrete spectrum: samples 1/2, 1, 5, requested range [1, 4], step `log 2`. -/
theorem example_notLog : ∃ a, (SAxis.ofList ([1 / 2, 1, 5] : List ℝ)).isLogSampled = .ok (false, a) := by
  have hl2 : 0 < Real.log 2 := Real.log_pos (by norm_num)
  have hl5 : 2 * Real.log 2 ≤ Real.log 5 := by
    have : 2 * Real.log 2 = Real.log (2 ^ 2) := by rw [Real.log_pow]; norm_num
    rw [this]; exact Real.log_le_log (by norm_num) (by norm_num)
  have h1 : SAxis.badStep (Real.log 2) (Real.log 2) = false := by
    unfold SAxis.badStep; rw [if_neg hl2.ne']; simp
  have h2 : SAxis.badStep (Real.log 2) (Real.log 5) = true := by
    unfold SAxis.badStep; rw [if_neg hl2.ne']
    simp only [gt_iff_lt, decide_eq_true_eq]
    rw [abs_div, abs_of_pos hl2, lt_div_iff₀ hl2]
    exact lt_of_lt_of_le (by linarith) (le_abs_self _)
  refine ⟨⟨[1 / 2, 1, 5], none, some false⟩, ?_⟩
  unfold SAxis.isLogSampled SAxis.ofList SAxis.checkLog
  simp only
  have e1 : (1 : ℝ) / (1 / 2) = 2 := by norm_num
  rw [e1, if_pos (by norm_num)]
  unfold SAxis.logLoop
  rw [e1, if_pos (by norm_num), h1]
  unfold SAxis.logLoop
  have e2 : (5 : ℝ) / 1 = 5 := by norm_num
  rw [e2]
  simp [h2]

theorem log2_bounds : (0.69 : ℝ) < Real.log 2 ∧ Real.log 2 < 0.7 :=
  ⟨by linarith [Real.log_two_gt_d9], by linarith [Real.log_two_lt_d9]⟩

example : ∃ v cells, logRebinSpectrum .rebinVariance (Real.log 2) ⟨1, 4⟩ [1 / 2, 1, 5] [1, 2, 3] [1, 1, 1] = .ok (v, cells) ∧
    1 ∈ v ∧ 2 ∈ v ∧ 4 ∈ v := by
  obtain ⟨hl, hu⟩ := log2_bounds
  have e : ∀ k : ℤ, (1 : ℝ) * Real.exp (k * Real.log 2) = 2 ^ k := by
    intro k; rw [one_mul, mul_comm, Real.exp_mul, Real.exp_log (by norm_num), Real.rpow_intCast]
  have hfit : ∀ k : ℤ, Fits (Real.log 2) ⟨1, 4⟩ (1 / 2) 5 k ↔ 0 ≤ k ∧ k ≤ 2 := by
    intro k
    unfold Fits
    simp only [e]
    have h4 : (4 : ℝ) = 2 ^ (2 : ℤ) := by norm_num
    constructor
    · rintro ⟨h0, h1, _⟩
      rw [h4, zpow_le_zpow_iff_right₀ (by norm_num)] at h1
      exact ⟨h0, h1⟩
    · rintro ⟨h0, h1⟩
      have ha : (1 : ℝ) ≤ 2 ^ k := by
        have := (zpow_le_zpow_iff_right₀ (show (1 : ℝ) < 2 by norm_num)).2 h0
        simpa using this
      have hb : (2 : ℝ) ^ k ≤ 4 := by rw [h4]; exact (zpow_le_zpow_iff_right₀ (by norm_num)).2 h1
      exact ⟨h0, hb, by linarith, by linarith⟩
  obtain ⟨v, cells, h1, _, h3, _⟩ := C60_spectrum .rebinVariance (Real.log 2) ⟨1, 4⟩ [1 / 2, 1, 5] [1, 2, 3] [1, 1, 1]
    (by linarith) (by norm_num) (by norm_num) (by norm_num) (by simp) (by norm_num) rfl rfl example_notLog
    (by norm_num [eps]; linarith) 0 1 (by norm_num) ((hfit 0).2 (by norm_num)) ((hfit 1).2 (by norm_num))
    (by
      intro k hk
      have := (hfit k).1 hk
      have h4 : (4 : ℝ) = 2 ^ (2 : ℤ) := by norm_num
      simp only [e]
      have ha : (1 : ℝ) ≤ 2 ^ k := by
        have := (zpow_le_zpow_iff_right₀ (show (1 : ℝ) < 2 by norm_num)).2 this.1
        simpa using this
      have hb : (2 : ℝ) ^ k ≤ 4 := by rw [h4]; exact (zpow_le_zpow_iff_right₀ (by norm_num)).2 this.2
      constructor
      · show (1 / 2 : ℝ) + _ ≤ _; linarith
      · show _ ≤ (5 : ℝ); linarith)
  refine ⟨v, cells, h1, ?_, ?_, ?_⟩
  · exact (h3 1).2 ⟨0, (hfit 0).2 (by norm_num), by simp⟩
  · exact (h3 2).2 ⟨1, (hfit 1).2 (by norm_num), by rw [e]; norm_num⟩
  · exact (h3 4).2 ⟨2, (hfit 2).2 (by norm_num), by rw [e]; norm_num⟩

/-! ## The redshift range and the templates -/

/-- **C60, redshift range.** The redshift range of the new grid starts at the requested minimum, has an integer number of
(coarse) steps in `log(1+z)`, contains the requested range and is less than one coarse step longer. -/
theorem C60_zrange (d : ℝ) (ss : ℤ) (z : Range ℝ) (hd : 0 < d) (hss : 0 < ss) (hb : -1 < z.b) (he : z.b ≤ z.e) :
    ∃ nb : ℕ, newZRange d ss z = .ok ⟨z.b, (1 + z.b) * Real.exp (nb * (d * ss)) - 1⟩ ∧
      z.e ≤ (1 + z.b) * Real.exp (nb * (d * ss)) - 1 ∧
      (1 + z.b) * Real.exp (nb * (d * ss)) < (1 + z.e) * Real.exp (d * ss) := by
  have h1 : 0 < z.b + 1 := by linarith
  have h2 : 0 < z.e + 1 := by linarith
  have hssR : (0 : ℝ) < ss := by exact_mod_cast hss
  have hds : 0 < d * ss := mul_pos hd hssR
  have hlog : Real.log (z.b + 1) ≤ Real.log (z.e + 1) := Real.log_le_log h1 (by linarith)
  set q := (Real.log (z.e + 1) - Real.log (z.b + 1)) / d / ss with hq
  have hq0 : 0 ≤ q := div_nonneg (div_nonneg (by linarith) hd.le) hssR.le
  have hqd : q * (d * ss) = Real.log (z.e + 1) - Real.log (z.b + 1) := by rw [hq]; field_simp
  have hn : ((⌈q⌉.toNat : ℕ) : ℤ) = ⌈q⌉ := Int.toNat_of_nonneg (Int.ceil_nonneg hq0)
  have hnR : ((⌈q⌉.toNat : ℕ) : ℝ) = (⌈q⌉ : ℝ) := by rw [← Int.cast_natCast, hn]
  have hexp : ∀ x : ℝ, Real.exp (Real.log (z.b + 1) + x) = (1 + z.b) * Real.exp x := by
    intro x; rw [Real.exp_add, Real.exp_log h1]; ring
  refine ⟨⌈q⌉.toNat, ?_, ?_, ?_⟩
  · unfold newZRange
    rw [if_neg (by push Not; exact ⟨hd.ne', hss.ne'⟩), clog_pos h1, clog_pos h2]
    show Res.ok _ = _
    rw [← hq, hnR, ← hexp, mul_assoc]
  · have h3 : Real.log (z.e + 1) ≤ Real.log (z.b + 1) + ⌈q⌉ * (d * ss) := by
      have := mul_le_mul_of_nonneg_right (Int.le_ceil q) hds.le
      linarith
    have h4 := Real.exp_le_exp.2 h3
    rw [Real.exp_log h2, hexp] at h4
    rw [hnR]; linarith
  · have h3 : Real.log (z.b + 1) + ⌈q⌉ * (d * ss) < Real.log (z.e + 1) + d * ss := by
      have := mul_lt_mul_of_pos_right (Int.ceil_lt_add_one q) hds
      linarith
    have h4 := Real.exp_lt_exp.2 h3
    rw [Real.exp_add (Real.log (z.e + 1)), Real.exp_log h2, hexp] at h4
    rw [hnR]; linarith

/-- The setup of the templates when the reference range has `N` steps and the redshift range `P` steps. -/
theorem templateSetup_spec (d b zb : ℝ) (N : ℤ) (P : ℤ) (hd : 0 < d) (hb : 0 < b) (hz : 0 < 1 + zb) :
    templateSetup d ⟨b, gp b d N⟩ ⟨zb, (1 + zb) * Real.exp (P * d) - 1⟩ =
      .ok (⟨gp (b / (1 + zb)) d (-P), gp (b / (1 + zb)) d N⟩, N + P + 1) := by
  have hc : 0 < b / (1 + zb) := div_pos hb hz
  have e1 : b / (1 + ((1 + zb) * Real.exp (P * d) - 1)) = gp (b / (1 + zb)) d (-P) := by
    unfold gp
    push_cast
    have : Real.exp (-(P : ℝ) * d) = (Real.exp (P * d))⁻¹ := by rw [neg_mul, Real.exp_neg]
    rw [this]
    have hne := (Real.exp_pos (P * d)).ne'
    have : 1 + ((1 + zb) * Real.exp (P * d) - 1) = (1 + zb) * Real.exp (P * d) := by ring
    rw [this]
    field_simp
  have e2 : gp b d N / (1 + zb) = gp (b / (1 + zb)) d N := by unfold gp; ring
  unfold templateSetup
  rw [if_neg hd.ne']
  simp only [e1, e2]
  rw [clog_pos (gp_pos hc _), clog_pos (gp_pos hc _)]
  simp only [Res.bind_ok, gp_log hc]
  have e3 : (Real.log (b / (1 + zb)) + (N : ℝ) * d - (Real.log (b / (1 + zb)) + ((-P : ℤ) : ℝ) * d)) / d = ((N + P : ℤ) : ℝ) := by
    push_cast; field_simp; ring
  rw [e3, Calzetti.cround_int, if_neg]
  · congr 2
    congr 1
    · have : Real.log (b / (1 + zb)) + (N : ℝ) * d - (((N + P + 1 : ℤ) : ℝ) - 1) * d =
          Real.log (b / (1 + zb)) + ((-P : ℤ) : ℝ) * d := by push_cast; ring
      rw [this, gp_exp hc]
    · rw [gp_exp hc]
  · push_cast
    simp only [sub_self, abs_zero]
    norm_num

/-- The whole computation of the template setup of a category: the redshift range, then the range and the number of samples
of its templates. -/
def categorySetup (d : ℝ) (ss : ℤ) (ref z : Range ℝ) : Res (Range ℝ × Range ℝ × ℤ) :=
  newZRange d ss z >>= fun zr => templateSetup d ref zr >>= fun rc => .ok (zr, rc.1, rc.2)

/-- **C60, template setup.** With the reference range of a spectrum that is not log-sampled, the number of template samples is
always an integer number: the internal error "Problem in logrebinning setup" cannot occur. -/
theorem C60_setup_never_fails (d : ℝ) (ss : ℤ) (lr z : Range ℝ) (hd : 0 < d) (hss : 0 < ss) (hb : 0 < lr.b) (he : lr.b ≤ lr.e)
    (hzb : -1 < z.b) (hze : z.b ≤ z.e) (xs : List ℝ) (hnl : ∃ a, (SAxis.ofList xs).isLogSampled = .ok (false, a)) :
    ∃ (N P : ℕ), (setup d xs lr >>= fun ref => categorySetup d ss ref z) =
      .ok (⟨z.b, (1 + z.b) * Real.exp (P * d) - 1⟩,
        ⟨lr.b / (1 + z.b) * Real.exp (-(P * d)), lr.b / (1 + z.b) * Real.exp (N * d)⟩, N + P + 1) := by
  obtain ⟨N, hN1, hN2⟩ := refLin_spec d lr hd hb (lt_of_lt_of_le hb he)
  obtain ⟨nb, hz1, _, _⟩ := C60_zrange d ss z hd hss hzb hze
  have hN0 : 0 ≤ N := (hN2 0).2 (by rw [gp_zero]; exact he)
  lift ss to ℕ using hss.le
  lift N to ℕ using hN0
  refine ⟨N, nb * ss, ?_⟩
  rw [setup_notLog d xs lr hnl, hN1]
  simp only [Res.bind_ok]
  unfold categorySetup
  have e : (nb : ℝ) * (d * ((ss : ℤ) : ℝ)) = (((nb * ss : ℕ) : ℤ) : ℝ) * d := by push_cast; ring
  rw [hz1]
  simp only [Res.bind_ok]
  rw [e, templateSetup_spec d lr.b z.b N ((nb * ss : ℕ) : ℤ) hd hb (by linarith)]
  simp only [Res.bind_ok, gp]
  push_cast
  norm_num

/-! ## Rebinning a template -/

theorem rebinTemplate_form (d c : ℝ) (n : ℕ) (xs ys es : List ℝ) (hd : 0 < d) (hc : 0 < c) (heps : eps < c * d)
    (hne : 0 < xs.length) (h0 : xs[0] ≤ c) (h1 : c * Real.exp (n * d) ≤ xs[xs.length - 1]) :
    rebinTemplate d xs ys es ⟨c, c * Real.exp (n * d)⟩ ((n : ℤ) + 1) =
      (Rebin.linear .no xs ys es ⟨c - d / 2, c * Real.exp (n * d) + d / 2⟩ (geom c d (n + 1)) >>= fun cells =>
        .ok (geom c d (n + 1), cells)) := by
  have e0 : Res.at_ xs 0 = .ok xs[0] := Res.at_of_lt hne
  have e1 : Res.atZ xs ((xs.length : ℤ) - 1) = .ok xs[xs.length - 1] := by
    have : ((xs.length : ℤ) - 1) = ((xs.length - 1 : ℕ) : ℤ) := by omega
    rw [this, Meiksin.atZ_nat]; exact Res.at_of_lt (by omega)
  have e2 : Res.at_ (geom c d (n + 1)) 0 = .ok c := by
    rw [Res.at_eq_ok]; rw [geom_get _ _ _ _ (by omega)]; simp
  have e3 : Res.atZ (geom c d (n + 1)) ((n : ℤ) + 1 - 1) = .ok (c * Real.exp (n * d)) := by
    have : ((n : ℤ) + 1 - 1) = ((n : ℕ) : ℤ) := by ring
    rw [this, Meiksin.atZ_nat, Res.at_eq_ok]
    exact geom_get _ _ _ _ (by omega)
  unfold rebinTemplate
  rw [e0, e1]
  simp only [Res.bind_ok]
  rw [if_neg (by push Not; exact ⟨h0, h1⟩), targetAxis_geom c d n hc hd heps]
  simp only [Res.bind_ok]
  rw [e2, e3]
  simp only [Res.bind_ok]
  have : c ≤ c * Real.exp (n * d) := by
    have := Real.one_le_exp (show 0 ≤ (n : ℝ) * d by positivity)
    nlinarith
  rw [if_neg (not_lt.2 this), rebinRange_geom]
  simp only [Res.bind_ok]

/-- **C60, templates.** A template that covers the required range with half a step more is resampled at exactly the required
samples `c·exp(i·step)`, all with mask 1 and the linearly interpolated flux. -/
theorem C60_template (d c : ℝ) (n : ℕ) (xs ys es : List ℝ) (hd : 0 < d) (hc : 0 < c) (heps : eps < c * d)
    (hxs : xs.Pairwise (· < ·)) (h2 : 2 ≤ xs.length) (hys : ys.length = xs.length) (hes : es.length = xs.length)
    (h0 : xs[0] ≤ c - d / 2) (h1 : c * Real.exp (n * d) + d / 2 ≤ xs[xs.length - 1]) :
    ∃ w cells, rebinTemplate d xs ys es ⟨c, c * Real.exp (n * d)⟩ ((n : ℤ) + 1) = .ok (w, cells) ∧
      w.length = n + 1 ∧ cells.length = n + 1 ∧
      ∀ (i : Nat), i ≤ n → w[i]? = some (c * Real.exp (i * d)) ∧
        ∃ cell, cells[i]? = some cell ∧ cell.mask = 1 ∧ OnPolyline xs ys (c * Real.exp (i * d)) cell.flux := by
  have hpw := geom_pairwise hc hd (n + 1)
  obtain ⟨cells, hc1, hc2, hc3⟩ := Rebin.C37_linear_partial .no xs ys es (geom c d (n + 1))
    ⟨c - d / 2, c * Real.exp (n * d) + d / 2⟩ hxs hys hes (pairwise_le_of_lt hpw)
    (fun h => by cases h) (by omega) h0 h1
  refine ⟨geom c d (n + 1), cells, ?_, geom_length _ _ _, by rw [hc2, geom_length], ?_⟩
  · rw [rebinTemplate_form d c n xs ys es hd hc heps (by omega) (by linarith) (by linarith), hc1]; rfl
  · intro i hi
    have hg := geom_get c d (n + 1) i (by omega)
    have hlen : i < cells.length := by rw [hc2, geom_length]; omega
    refine ⟨hg, cells[i], List.getElem?_eq_getElem hlen, ?_⟩
    have h3 := (hc3 i _ cells[i] hg (List.getElem?_eq_getElem hlen)).1
      ((Rebin.C37_covered xs _ hxs h2 h0 h1 _).1 (by
        have := Real.one_le_exp (show 0 ≤ (i : ℝ) * d by positivity)
        show c - d / 2 ≤ _
        nlinarith) (by
        have hin : (i : ℝ) ≤ n := by exact_mod_cast hi
        have := Real.exp_le_exp.2 (mul_le_mul_of_nonneg_right hin hd.le)
        show _ ≤ c * Real.exp (n * d) + d / 2
        nlinarith))
    exact ⟨h3.1, h3.2.1⟩

/-- **C60, insufficient coverage.** A template that does not cover the required range is refused with
`INSUFFICIENT_TEMPLATE_COVERAGE`; one that covers it by less than half a step is refused with an internal error (finding). -/
theorem C60_template_refused (d c : ℝ) (n : ℕ) (xs ys es : List ℝ) (hd : 0 < d) (hc : 0 < c) (heps : eps < c * d)
    (hne : 0 < xs.length) :
    ((c < xs[0] ∨ xs[xs.length - 1] < c * Real.exp (n * d)) →
      rebinTemplate d xs ys es ⟨c, c * Real.exp (n * d)⟩ ((n : ℤ) + 1) = .throw .INSUFFICIENT_TEMPLATE_COVERAGE) ∧
    ((xs[0] ≤ c ∧ c * Real.exp (n * d) ≤ xs[xs.length - 1]) →
      (c - d / 2 < xs[0] ∨ xs[xs.length - 1] < c * Real.exp (n * d) + d / 2) →
      rebinTemplate d xs ys es ⟨c, c * Real.exp (n * d)⟩ ((n : ℤ) + 1) = .throw .INTERNAL_ERROR) := by
  constructor
  · intro h
    have e0 : Res.at_ xs 0 = .ok xs[0] := Res.at_of_lt hne
    have e1 : Res.atZ xs ((xs.length : ℤ) - 1) = .ok xs[xs.length - 1] := by
      have : ((xs.length : ℤ) - 1) = ((xs.length - 1 : ℕ) : ℤ) := by omega
      rw [this, Meiksin.atZ_nat]; exact Res.at_of_lt (by omega)
    unfold rebinTemplate
    rw [e0, e1]
    simp only [Res.bind_ok]
    rw [if_pos h]
  · rintro ⟨h0, h1⟩ h
    rw [rebinTemplate_form d c n xs ys es hd hc heps hne h0 h1, Rebin.C37_refuses .no xs ys es _ _ hne h]
    rfl

example : ∃ w cells, rebinTemplate (Real.log 2) [1, 3, 20] [1, 2, 3] [1, 1, 1] ⟨2, 2 * Real.exp ((2 : ℕ) * Real.log 2)⟩ ((2 : ℕ) + 1 : ℤ) =
    .ok (w, cells) ∧ w.length = 3 := by
  obtain ⟨hl, hu⟩ := log2_bounds
  have e : Real.exp (((2 : ℕ) : ℝ) * Real.log 2) = 4 := by
    rw [Real.exp_nat_mul, Real.exp_log (by norm_num)]; norm_num
  obtain ⟨w, cells, h, h2, _⟩ := C60_template (Real.log 2) 2 2 [1, 3, 20] [1, 2, 3] [1, 1, 1] (by linarith) (by norm_num)
    (by norm_num [eps]; linarith) (by norm_num) (by simp) rfl rfl (show (1 : ℝ) ≤ _ by linarith)
    (show _ ≤ (20 : ℝ) by rw [e]; linarith)
  exact ⟨w, cells, h, h2⟩

/-! ## Alignment of spectra, redshifts and templates -/

/-- Every sample of the spectrum, brought to rest at every redshift of the grid, is a sample of the template; the index moves
by one per sample and by one per redshift step. -/
def Aligned (v w : List ℝ) (d zmin zmax : ℝ) : Prop :=
  ∃ s : ℕ, ∀ k : ℕ, (1 + zmin) * Real.exp (k * d) - 1 ≤ zmax → ∀ (i : ℕ) (x : ℝ), v[i]? = some x →
    k ≤ s + i ∧ w[s + i - k]? = some (x / ((1 + zmin) * Real.exp (k * d)))

theorem aligned_core (d B zb : ℝ) (N P m : ℤ) (v : List ℝ) (hd : 0 < d) (hB : 0 < B) (hz : 0 < 1 + zb) (hm : 0 ≤ m)
    (hP : 0 ≤ P) (hv : ∀ (i : ℕ) x, v[i]? = some x → x = gp B d (m + i) ∧ m + i ≤ N) (n : ℕ) (hn : (n : ℤ) = N + P) :
    Aligned v (geom (gp (B / (1 + zb)) d (-P)) d (n + 1)) d zb ((1 + zb) * Real.exp (P * d) - 1) := by
  refine ⟨(m + P).toNat, ?_⟩
  intro k hk i x hx
  have hkP : (k : ℤ) ≤ P := by
    have h1 : (1 + zb) * Real.exp (k * d) ≤ (1 + zb) * Real.exp (P * d) := by linarith
    have h2 := Real.exp_le_exp.1 (le_of_mul_le_mul_left h1 hz)
    have h3 := le_of_mul_le_mul_right h2 hd
    exact_mod_cast h3
  obtain ⟨rfl, hle⟩ := hv i x hx
  refine ⟨by omega, ?_⟩
  rw [geom_gp _ _ _ _ _ (by omega)]
  congr 1
  have : -P + (((m + P).toNat + i - k : ℕ) : ℤ) = m + i - k := by omega
  rw [this]
  unfold gp
  push_cast
  rw [show ((m : ℝ) + i - k) * d = (m + i) * d - k * d by ring, Real.exp_sub]
  field_simp

theorem rebinTemplate_axis {d : ℝ} {n : ℕ} {c : ℝ} {xs ys es w : List ℝ} {cells : List (Rebin.Cell ℝ)} (hd : 0 < d) (hc : 0 < c)
    (heps : eps < c * d) (h : rebinTemplate d xs ys es ⟨c, c * Real.exp (n * d)⟩ ((n : ℤ) + 1) = .ok (w, cells)) :
    w = geom c d (n + 1) := by
  by_cases hne : 0 < xs.length
  · by_cases hcov : c < xs[0] ∨ xs[xs.length - 1] < c * Real.exp (n * d)
    · rw [(C60_template_refused d c n xs ys es hd hc heps hne).1 hcov] at h; cases h
    · push Not at hcov
      rw [rebinTemplate_form d c n xs ys es hd hc heps hne hcov.1 hcov.2] at h
      obtain ⟨_, _, h2⟩ := Res.bind_eq_ok.1 h
      cases h2; rfl
  · have : xs = [] := by
      cases xs with
      | nil => rfl
      | cons a l => simp at hne
    subst this
    unfold rebinTemplate at h
    cases h

/-- **C60, alignment.** Whenever a spectrum that is not log-sampled and a template are log-rebinned for the same requested
wavelength range, redshift range and step, every sample of the rebinned spectrum, brought to rest at every redshift of the
grid, is exactly a sample of the rebinned template. -/
theorem C60_alignment (m : Rebin.ErrMode) (d : ℝ) (ss : ℤ) (lr z : Range ℝ) (hd : 0 < d) (hss : 0 < ss) (hb : 0 < lr.b)
    (he : lr.b ≤ lr.e) (hzb : -1 < z.b) (hze : z.b ≤ z.e) (xs ys es txs tys tes : List ℝ) (hxs : xs.Pairwise (· < ·))
    (h2 : 2 ≤ xs.length) (hx0 : (0 : ℝ) < xs[0]'(by omega))
    (hnl : ∃ a, (SAxis.ofList xs).isLogSampled = .ok (false, a))
    (ref zr r : Range ℝ) (c : ℤ) (v w : List ℝ) (cells tcells : List (Rebin.Cell ℝ))
    (href : setup d xs lr = .ok ref) (hspc : rebinSpectrum m d ref xs ys es = .ok (v, cells))
    (hcat : categorySetup d ss ref z = .ok (zr, r, c)) (htpl : rebinTemplate d txs tys tes r c = .ok (w, tcells))
    (heps : eps < lr.b * d) (heps' : eps < r.b * d) :
    Aligned v w d zr.b zr.e := by
  have hepos : 0 < lr.e := lt_of_lt_of_le hb he
  have hrun : logRebinSpectrum m d lr xs ys es = .ok (v, cells) := by
    unfold logRebinSpectrum; rw [href]; exact hspc
  obtain ⟨N, P, hset⟩ := C60_setup_never_fails d ss lr z hd hss hb he hzb hze xs hnl
  rw [href] at hset
  simp only [Res.bind_ok] at hset
  rw [hcat] at hset
  obtain ⟨N', hN1, hN2⟩ := refLin_spec d lr hd hb hepos
  -- two grid points fit, otherwise the spectrum is refused
  have hex : ∃ p q : ℤ, p < q ∧ Fits d lr xs[0] xs[xs.length - 1] p ∧ Fits d lr xs[0] xs[xs.length - 1] q := by
    by_contra hno
    rcases C60_spectrum_refused m d lr xs ys es hd hb hepos hxs h2 hx0 hnl hno with h | h <;>
      (rw [h] at hrun; cases hrun)
  obtain ⟨p, q, hpq, hp, hq⟩ := hex
  obtain ⟨a, n, ha0, _, hall, hform⟩ := logRebin_core m d lr xs ys es hd hb hepos hxs h2 hx0 hnl heps p q hpq hp hq
  rw [hform] at hrun
  obtain ⟨_, _, hv⟩ := Res.bind_eq_ok.1 hrun
  have hv' : v = geom (gp lr.b d a) d (n + 1) := by cases hv; rfl
  -- the number of steps of the reference range
  have href' : ref = ⟨lr.b, gp lr.b d N'⟩ := by
    rw [setup_notLog d xs lr hnl, hN1] at href; cases href; rfl
  have hN0 : 0 ≤ N' := (hN2 0).2 (by rw [gp_zero]; exact he)
  obtain ⟨nb, hz1, _, _⟩ := C60_zrange d ss z hd hss hzb hze
  have e : (nb : ℝ) * (d * (ss : ℝ)) = ((nb * ss : ℤ) : ℝ) * d := by push_cast; ring
  have hcat' := hcat
  unfold categorySetup at hcat'
  rw [hz1] at hcat'
  simp only [Res.bind_ok] at hcat'
  rw [e, href', templateSetup_spec d lr.b z.b N' (nb * ss) hd hb (by linarith)] at hcat'
  cases hcat'
  have hP0 : 0 ≤ (nb : ℤ) * ss := by positivity
  have hc0 : 0 < lr.b / (1 + z.b) := div_pos hb (by linarith)
  obtain ⟨t, ht⟩ : ∃ t : ℕ, (t : ℤ) = N' + nb * ss := ⟨(N' + nb * ss).toNat, by omega⟩
  have hw : w = geom (gp (lr.b / (1 + z.b)) d (-(nb * ss))) d (t + 1) := by
    have e1 : gp (lr.b / (1 + z.b)) d N' = gp (lr.b / (1 + z.b)) d (-(nb * ss)) * Real.exp (t * d) := by
      have : N' = -(nb * ss) + (t : ℤ) := by omega
      rw [this, gp_add]; push_cast; rfl
    rw [e1, ← ht] at htpl
    exact rebinTemplate_axis hd (gp_pos hc0 _) heps' htpl
  rw [hw]
  exact aligned_core d lr.b z.b N' (nb * ss) a v hd hb (by linarith) ha0 hP0 (by
    intro i x hx
    have hin : i < n + 1 := by
      have := (List.getElem?_eq_some_iff.1 hx).1
      rw [hv', geom_length] at this; exact this
    rw [hv', geom_gp _ _ _ _ _ hin] at hx
    refine ⟨by cases hx; rfl, ?_⟩
    have := (hall (a + i)).2 ⟨by omega, by omega⟩
    exact (hN2 _).2 this.2.1) t ht

end
end LogRebin
end Amazed
