import Mathlib.Algebra.Order.Floor.Ring
import Verif.Props.RebinProps

/-! # C50: nearest grid point, fine grid and spline rebinning -/

set_option linter.unusedSectionVars false

namespace Amazed
namespace Rebin

/-- The loop of the three methods that stop at the end of the range. -/
theorem byRange_spec (f : Nat → ℝ → Res (Cell ℝ)) (m : ErrMode) (xs xt : List ℝ) (r : Range ℝ)
    (hxt : xt.Pairwise (· ≤ ·)) (hne : 0 < xs.length) (hb : xs[0] ≤ r.b) (he : r.e ≤ xs[xs.length - 1])
    (body : Nat → List ℝ → Res (List (Cell ℝ) × List ℝ)) (hbody : ∀ c rest, body c rest = whileLe r.e f c rest)
    (hf : ∀ (i : Nat) x, xt[i]? = some x → r.b ≤ x → x ≤ r.e → ∃ cell, f i x = .ok cell) :
    ∃ cells, compute body m xs r xt = .ok cells ∧ cells.length = xt.length ∧
      ∀ (i : Nat) x cell, xt[i]? = some x → cells[i]? = some cell →
        (r.b ≤ x ∧ x ≤ r.e → f i x = .ok cell) ∧ (¬ (r.b ≤ x ∧ x ≤ r.e) → cell = outside m) := by
  obtain ⟨cells, h1, h2⟩ := compute_spec body m xs r xt hne hb he hxt
    (fun i x cell => x ≤ r.e ∧ f i x = .ok cell) (fun x => r.e < x)
    (by
      intro pre rest hsplit hge
      have hrs : rest.Pairwise (· ≤ ·) := by rw [hsplit] at hxt; exact (List.pairwise_append.1 hxt).2.1
      obtain ⟨done, left, cells, e1, e2, e3, e4, e5⟩ := whileLe_spec r.e f rest pre.length hrs (fun j x hx hle =>
        hf (pre.length + j) x (by rw [hsplit, List.getElem?_append_right (by omega)]; simpa using hx)
          (hge x (List.mem_of_getElem? hx)) hle)
      refine ⟨done, left, cells, e1, by rw [hbody]; exact e2, ?_, e4⟩
      exact e5.mono (fun i x cell hx h => ⟨e3 x hx, h⟩))
  refine ⟨cells, h1, h2.1, ?_⟩
  intro i x cell hx hcell
  have h3 := h2.2 i x cell hx hcell
  rw [Nat.zero_add] at h3
  rcases h3 with ⟨hbx, hle, hf'⟩ | ⟨rfl, h⟩
  · exact ⟨fun _ => hf', fun hn => absurd ⟨hbx, hle⟩ hn⟩
  · refine ⟨fun ⟨ha, hb'⟩ => ?_, fun _ => rfl⟩
    rcases h with h | h
    · exact absurd ha (not_le.2 h)
    · exact absurd hb' (not_le.2 h)

/-- Specification of the error of the nearest grid point method: the error of the source sample `k`, with
`rebinVariance` scaled so that variance times target step is variance times source step. -/
def NgpErrSpec (m : ErrMode) (xs es xt : List ℝ) (k i : Nat) (err : ErrVal ℝ) : Prop :=
  match m with
  | .no => err = .fin 1
  | .rebin => ∃ v, err = .fin v ∧ es[k]? = some v
  | .rebinVariance => ∃ v e d s, err = .fin v ∧ es[k]? = some e ∧ TargetStep xt i d ∧ TargetStep xs k s ∧
      0 < d ∧ v ^ 2 * d = e ^ 2 * s

/-- **C50, nearest grid point.** Rebinning a range covered by a source axis of two samples at least, on a
sorted target axis, succeeds. Exactly the targets inside of the closed range get mask 1, with the flux and
error of a source sample at the smallest distance; the others get mask 0 and flux 0. -/
theorem C50_ngp (m : ErrMode) (xs ys es xt : List ℝ) (r : Range ℝ) (hxs : xs.Pairwise (· < ·))
    (hys : ys.length = xs.length) (hes : es.length = xs.length) (hxt : xt.Pairwise (· ≤ ·))
    (hvar : m = .rebinVariance → xt.Pairwise (· < ·) ∧ 2 ≤ xt.length)
    (h2 : 2 ≤ xs.length) (hb : xs[0] ≤ r.b) (he : r.e ≤ xs[xs.length - 1]) :
    ∃ cells, ngp m xs ys es r xt = .ok cells ∧ cells.length = xt.length ∧
      ∀ (i : Nat) x cell, xt[i]? = some x → cells[i]? = some cell →
        (r.b ≤ x ∧ x ≤ r.e → cell.mask = 1 ∧ ∃ (k : Nat) (s : ℝ), xs[k]? = some s ∧ (∀ u ∈ xs, |s - x| ≤ |u - x|) ∧
          ys[k]? = some cell.flux ∧ NgpErrSpec m xs es xt k i cell.err) ∧
        (¬ (r.b ≤ x ∧ x ≤ r.e) → cell.mask = 0 ∧ cell.flux = 0 ∧ cell.err = if m = .no then .fin 1 else .inf) := by
  have hcellspec : ∀ (i : Nat) x, i < xt.length → ∃ cell, ngpCell m xs ys es xt i x = .ok cell ∧
      cell.mask = 1 ∧ ∃ (k : Nat) (s : ℝ), xs[k]? = some s ∧ (∀ u ∈ xs, |s - x| ≤ |u - x|) ∧
          ys[k]? = some cell.flux ∧ NgpErrSpec m xs es xt k i cell.err := by
    intro i x hi
    obtain ⟨k, hk1, hk2, hk3⟩ := C08_closer xs x (pairwise_le_of_lt hxs) (by intro h; simp [h] at h2)
    have hstep : ∃ s, 0 < s ∧ TargetStep xs k s ∧ (if k = xs.length - 1 then
        Res.at_ xs k >>= fun a => Res.atZ xs ((k : Int) - 1) >>= fun b => Res.ok (a - b)
      else Res.at_ xs (k + 1) >>= fun a => Res.at_ xs k >>= fun b => .ok (a - b)) = .ok s := by
      by_cases h : k = xs.length - 1
      · have hz : ((k : Int) - 1) = ((k - 1 : Nat) : Int) := by omega
        refine ⟨xs[k] - xs[k - 1], sub_pos.2 (getElem_lt_of_lt hxs (by omega) hk2), Or.inr ⟨by omega, _, _,
          List.getElem?_eq_getElem (by omega), List.getElem?_eq_getElem hk2, rfl⟩, ?_⟩
        rw [if_pos h, Res.at_of_lt hk2, Res.bind_ok, Res.atZ, if_neg (by omega), hz, Int.toNat_natCast,
          Res.at_of_lt (by omega), Res.bind_ok]
      · refine ⟨xs[k + 1] - xs[k], sub_pos.2 (getElem_lt_of_lt hxs (by omega) (by omega)), Or.inl ⟨_, _,
          List.getElem?_eq_getElem hk2, List.getElem?_eq_getElem (by omega), rfl⟩, ?_⟩
        rw [if_neg h, Res.at_of_lt (by omega), Res.bind_ok, Res.at_of_lt hk2, Res.bind_ok]
    obtain ⟨s, hspos, hs1, hs2⟩ := hstep
    unfold ngpCell
    rw [hk1, Res.bind_ok, hs2, Res.bind_ok, Res.at_of_lt (by omega), Res.bind_ok]
    have hbase : ∀ c : Cell ℝ, c.mask = 1 → c.flux = ys[k] → NgpErrSpec m xs es xt k i c.err →
        c.mask = 1 ∧ ∃ (k : Nat) (s : ℝ), xs[k]? = some s ∧ (∀ u ∈ xs, |s - x| ≤ |u - x|) ∧
          ys[k]? = some c.flux ∧ NgpErrSpec m xs es xt k i c.err := by
      intro c hc1 hc2 hc3
      exact ⟨hc1, k, xs[k], List.getElem?_eq_getElem hk2, hk3, by rw [hc2]; exact List.getElem?_eq_getElem (by omega), hc3⟩
    cases m with
    | no => exact ⟨_, rfl, hbase _ rfl rfl rfl⟩
    | rebin =>
      simp only
      rw [Res.at_of_lt (by omega), Res.bind_ok]
      exact ⟨_, rfl, hbase _ rfl rfl ⟨_, rfl, List.getElem?_eq_getElem (by omega)⟩⟩
    | rebinVariance =>
      simp only
      obtain ⟨hxt', hxt2⟩ := hvar rfl
      obtain ⟨d, hdpos, hd1, hd2⟩ := stepCompensation_spec xt hxt' hxt2 i hi s
      have hpos : 0 < s / d := div_pos hspos hdpos
      rw [Res.at_of_lt (by omega), Res.bind_ok, hd2, Res.bind_ok, if_neg (not_lt.2 hpos.le)]
      refine ⟨_, rfl, hbase _ rfl rfl ⟨_, es[k], d, s, rfl, List.getElem?_eq_getElem (by omega), hd1, hs1, hdpos, ?_⟩⟩
      rw [mul_pow, Real.sq_sqrt hpos.le]
      field_simp
  obtain ⟨cells, h3, h4, h5⟩ := byRange_spec (ngpCell m xs ys es xt) m xs xt r hxt (by omega) hb he
    (fun c rest => whileLe r.e (ngpCell m xs ys es xt) c rest) (fun _ _ => rfl)
    (fun i x hx _ _ => by
      obtain ⟨cell, h, _⟩ := hcellspec i x (List.getElem?_eq_some_iff.1 hx).1
      exact ⟨cell, h⟩)
  refine ⟨cells, h3, h4, ?_⟩
  intro i x cell hx hcell
  obtain ⟨h6, h7⟩ := h5 i x cell hx hcell
  refine ⟨fun hr => ?_, fun hr => ?_⟩
  · obtain ⟨cell', h8, h9⟩ := hcellspec i x (List.getElem?_eq_some_iff.1 hx).1
    rw [h6 hr] at h8; cases h8
    exact h9
  · rw [h7 hr]
    cases m <;> exact ⟨rfl, rfl, rfl⟩

/-- Rebinning a source axis of one sample reads the sample before the first one. -/
theorem C50_ngp_single_source (m : ErrMode) (x y e : ℝ) : ngp m [x] [y] [e] ⟨x, x⟩ [x] = .ub := by
  simp [ngp, compute, Res.at_, Res.atZ, prefixLoop, whileLe, ngpCell, getCloserIndex, lowerBound]

/-- **C50, spline.** Without error interpolation, exactly the targets inside of the range get mask 1, with the
value of the spline. -/
theorem C50_spline (spl : ℝ → ℝ) (xs xt : List ℝ) (r : Range ℝ) (hxt : xt.Pairwise (· ≤ ·))
    (h3 : 3 ≤ xs.length) (hb : xs[0] ≤ r.b) (he : r.e ≤ xs[xs.length - 1]) :
    ∃ cells, spline .no spl xs r xt = .ok cells ∧ cells.length = xt.length ∧
      ∀ (i : Nat) x cell, xt[i]? = some x → cells[i]? = some cell →
        (r.b ≤ x ∧ x ≤ r.e → cell = ⟨1, spl x, .fin 1⟩) ∧ (¬ (r.b ≤ x ∧ x ≤ r.e) → cell = ⟨0, 0, .fin 1⟩) := by
  obtain ⟨cells, h4, h5, h6⟩ := byRange_spec (fun _ x => Res.ok (⟨1, spl x, .fin 1⟩ : Cell ℝ)) .no xs xt r hxt (by omega) hb he
    (fun c rest => if xs.length < 3 then .throw .EXTERNAL_LIB_ERROR
      else whileLe r.e (fun _ x => Res.ok (⟨1, spl x, .fin 1⟩ : Cell ℝ)) c rest)
    (fun _ _ => by rw [if_neg (by omega)]) (fun i x _ _ _ => ⟨_, rfl⟩)
  refine ⟨cells, h4, h5, fun i x cell hx hcell => ?_⟩
  obtain ⟨h7, h8⟩ := h6 i x cell hx hcell
  exact ⟨fun h => (Res.ok.inj (h7 h)).symm, h8⟩

/-- The spline and fine grid methods refuse to interpolate the error as soon as a target is in the range, and
GSL refuses a source of fewer than three samples. -/
theorem C50_spline_refuses (m : ErrMode) (spl : ℝ → ℝ) (xs : List ℝ) (r : Range ℝ) (x : ℝ) (hne : 0 < xs.length)
    (hb : xs[0] ≤ r.b) (he : r.e ≤ xs[xs.length - 1]) (hx : r.b ≤ x) (hx' : x ≤ r.e) (xt : List ℝ) :
    (xs.length < 3 → spline m spl xs r xt = .throw .EXTERNAL_LIB_ERROR) ∧
    (3 ≤ xs.length → m ≠ .no → spline m spl xs r (x :: xt) = .throw .INTERNAL_ERROR) := by
  have hz : ((xs.length : Int) - 1) = ((xs.length - 1 : Nat) : Int) := by omega
  have hc : ¬ (r.b < xs[0] ∨ xs[xs.length - 1] < r.e) := by
    rintro (h | h)
    · exact absurd hb (not_le.2 h)
    · exact absurd he (not_le.2 h)
  constructor
  · intro h3
    unfold spline compute
    rw [Res.at_of_lt hne, Res.bind_ok, Res.atZ, if_neg (by omega), hz, Int.toNat_natCast, Res.at_of_lt (by omega),
      Res.bind_ok, if_neg hc]
    simp only
    rw [if_pos h3]; rfl
  · intro h3 hm
    unfold spline compute
    rw [Res.at_of_lt hne, Res.bind_ok, Res.atZ, if_neg (by omega), hz, Int.toNat_natCast, Res.at_of_lt (by omega),
      Res.bind_ok, if_neg hc]
    simp only
    have : prefixLoop m r.b (x :: xt) = ([], x :: xt) := by
      unfold prefixLoop; rw [if_neg (not_lt.2 hx)]
    rw [if_neg (by omega), this]
    unfold whileLe
    rw [if_pos hx']
    cases m
    · exact absurd rfl hm
    · rfl
    · rfl

/-- **C50, fine grid.** Without error interpolation, exactly the targets inside of the range get mask 1; the
flux is the spline at a fine grid point at half a step (0.05) at most from the target, or 0 when that point
is after the end of the source axis. The table is never read out of bounds. -/
theorem C50_fine (spl : ℝ → ℝ) (xs xt : List ℝ) (r : Range ℝ) (hxt : xt.Pairwise (· ≤ ·)) (hxs : xs.Pairwise (· < ·))
    (h3 : 3 ≤ xs.length) (hb : xs[0] ≤ r.b) (he : r.e ≤ xs[xs.length - 1]) :
    ∃ cells, fine .no spl xs r xt = .ok cells ∧ cells.length = xt.length ∧
      ∀ (i : Nat) x cell, xt[i]? = some x → cells[i]? = some cell →
        (r.b ≤ x ∧ x ≤ r.e → cell.mask = 1 ∧ cell.err = .fin 1 ∧ ∃ (k : Nat) (g : ℝ), g = xs[0] + k / 10 ∧ |g - x| ≤ 1 / 20 ∧
          cell.flux = if g ≤ xs[xs.length - 1] then spl g else 0) ∧
        (¬ (r.b ≤ x ∧ x ≤ r.e) → cell = ⟨0, 0, .fin 1⟩) := by
  set lmin := xs[0] with hlmin
  set lmax := xs[xs.length - 1] with hlmax
  have hmm : lmin ≤ lmax := getElem_le_of_le (pairwise_le_of_lt hxs) (Nat.zero_le _) (by omega)
  set n := ⌊(lmax - lmin) / fineStep + 2 / fineStep⌋₊ with hn
  set g : Nat → ℝ := fun k => if lmin + k * fineStep < lmin ∨ lmax < lmin + k * fineStep then 0 else spl (lmin + k * fineStep) with hg
  set pfg := (List.range n).map g with hpfg
  have hstep : fineStep = 1 / 10 := rfl
  have htab : fineTable spl xs = .ok pfg := by
    unfold fineTable
    rw [if_neg (by omega), if_neg (by omega), Res.at_of_lt (by omega), Res.bind_ok, Res.at_of_lt (by omega), Res.bind_ok]
  have hn20 : 20 ≤ n := by
    rw [hn]
    apply Nat.le_floor
    rw [hstep]
    have : 0 ≤ (lmax - lmin) / (1 / 10) := div_nonneg (sub_nonneg.2 hmm) (by norm_num)
    push_cast
    linarith
  have hcell : ∀ (i : Nat) x, r.b ≤ x → x ≤ r.e → ∃ k : Nat, fineCell .no xs pfg i x = .ok ⟨1, g k, .fin 1⟩ ∧
      |lmin + k * fineStep - x| ≤ 1 / 20 := by
    intro i x hbx hxe
    set q := (x - lmin) / fineStep + 1 / 2 with hq
    have hq10 : q = (x - lmin) * 10 + 1 / 2 := by rw [hq, hstep]; ring
    have hx0 : 0 ≤ x - lmin := by linarith
    have hq0 : 0 ≤ q := by rw [hq10]; linarith
    have hfl := Nat.floor_le hq0
    have hfl2 := Nat.lt_floor_add_one q
    have hlt : ⌊q⌋₊ < n := by
      rw [hn, Nat.floor_lt hq0]
      have h1 := Nat.lt_floor_add_one ((lmax - lmin) / fineStep + 2 / fineStep)
      rw [hstep] at h1
      rw [hstep]
      rw [hq10]
      have : (lmax - lmin) / (1 / 10) = (lmax - lmin) * 10 := by ring
      rw [this] at h1
      rw [this]
      linarith
    refine ⟨⌊q⌋₊, ?_, ?_⟩
    · unfold fineCell
      rw [Res.at_of_lt (by omega), Res.bind_ok]
      simp only
      rw [← hlmin, ← hq, if_neg (by linarith), Res.at_of_lt (by simp [hpfg, hlt]), Res.bind_ok]
      simp [hpfg]
    · rw [hstep, abs_le]
      constructor <;> linarith
  obtain ⟨cells, h4, h5, h6⟩ := byRange_spec (fineCell .no xs pfg) .no xs xt r hxt (by omega) hb he
    (fun c rest => fineTable spl xs >>= fun pfg => if pfg.length = 0 then .throw .INTERNAL_ERROR
      else whileLe r.e (fineCell .no xs pfg) c rest)
    (fun c rest => by rw [htab, Res.bind_ok, if_neg (by simp [hpfg]; omega)])
    (fun i x _ hbx hxe => by obtain ⟨k, h, _⟩ := hcell i x hbx hxe; exact ⟨_, h⟩)
  refine ⟨cells, h4, h5, fun i x cell hx hc => ?_⟩
  obtain ⟨h7, h8⟩ := h6 i x cell hx hc
  refine ⟨fun hr => ?_, h8⟩
  obtain ⟨k, h9, h10⟩ := hcell i x hr.1 hr.2
  rw [h7 hr] at h9
  cases h9
  refine ⟨rfl, rfl, k, lmin + k * fineStep, by rw [hstep]; ring, h10, ?_⟩
  simp only [hg]
  have hk0 : ¬ lmin + (k : ℝ) * fineStep < lmin := by
    rw [hstep]
    have : (0 : ℝ) ≤ k := Nat.cast_nonneg k
    intro h
    linarith
  by_cases hlt : lmin + (k : ℝ) * fineStep ≤ lmax
  · rw [if_pos hlt, if_neg (by rintro (h | h); exact hk0 h; exact absurd hlt (not_le.2 h))]
  · rw [if_neg hlt, if_pos (Or.inr (not_le.1 hlt))]

/-- The fine grid does not contain the end of the source axis: the last sample of an axis can be rebinned on
itself into a zero flux with mask 1. -/
theorem C50_fine_end_counterexample (spl : ℝ → ℝ) : ∃ cells,
    fine .no spl [0, 4 / 100, 8 / 100] ⟨0, 8 / 100⟩ [8 / 100] = .ok cells ∧
    cells[0]? = some ⟨1, 0, .fin 1⟩ := by
  obtain ⟨cells, h1, h2, h3⟩ := C50_fine spl [0, 4 / 100, 8 / 100] [8 / 100] ⟨0, 8 / 100⟩ (by simp)
    (by norm_num) (by simp) (by simp) (by simp)
  have hl : 0 < cells.length := by rw [h2]; simp
  refine ⟨cells, h1, ?_⟩
  obtain ⟨hm, herr, k, g, hg1, hg2, hg3⟩ := (h3 0 (8 / 100) cells[0] rfl (List.getElem?_eq_getElem hl)).1 ⟨by norm_num, by norm_num⟩
  have hk : k = 1 := by
    simp only [List.getElem_cons_zero] at hg1
    rw [hg1, abs_le] at hg2
    have h4 : (k : ℝ) < 2 := by linarith [hg2.2]
    have h5 : (0 : ℝ) < k := by linarith [hg2.1]
    have h6 : k < 2 := by exact_mod_cast h4
    have h7 : 0 < k := by exact_mod_cast h5
    omega
  have hflux : cells[0].flux = 0 := by
    rw [hg3, if_neg]
    rw [hg1, hk]
    norm_num
  rw [List.getElem?_eq_getElem hl]
  congr 1
  cases hcell : cells[0] with
  | mk a b c =>
    rw [hcell] at hm herr hflux
    simp only at hm herr hflux
    rw [hm, herr, hflux]

end Rebin
end Amazed
