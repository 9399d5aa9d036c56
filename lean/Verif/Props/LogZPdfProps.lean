import Verif.Model.LogZPdf
import Verif.Props.GridProps
import Verif.Model.Std

/-! # C32: interpolation and regularisation of a PDF -/

set_option linter.unusedSectionVars false

namespace Amazed

variable {K : Type} [Field K] [LinearOrder K]

theorem strictlyIncreasing_iff {l : List K} : strictlyIncreasing l = true ↔ l.Pairwise (· < ·) := by
  induction l with
  | nil => simp [strictlyIncreasing]
  | cons a l ih =>
    cases l with
    | nil => simp [strictlyIncreasing]
    | cons b l =>
      unfold strictlyIncreasing
      rw [Bool.and_eq_true, decide_eq_true_eq, ih]
      constructor
      · rintro ⟨h1, h2⟩
        rw [List.pairwise_cons]
        refine ⟨?_, h2⟩
        intro c hc
        rcases List.mem_cons.1 hc with rfl | hc
        · exact h1
        · exact lt_trans h1 ((List.pairwise_cons.1 h2).1 c hc)
      · intro h
        obtain ⟨h1, h2⟩ := List.pairwise_cons.1 h
        exact ⟨h1 b (by simp), h2⟩

/-- The search of GSL returns the segment that contains `x`. -/
theorem gslBsearch_spec {xs : List K} {x : K} (n lo hi : Nat) (hn : hi - lo ≤ n) (hlt : lo < hi) (hhi : hi < xs.length)
    (hl : xs[lo]'(by omega) ≤ x) (hr : x ≤ xs[hi]) :
    ∃ i, ∃ h : i + 1 < xs.length, gslBsearch xs x lo hi = .ok i ∧ lo ≤ i ∧ i < hi ∧ xs[i] ≤ x ∧ x ≤ xs[i + 1] ∧
      (x < xs[i + 1] ∨ i + 1 = hi) := by
  induction n generalizing lo hi with
  | zero => omega
  | succ n ih =>
    unfold gslBsearch
    by_cases h : lo + 1 < hi
    · rw [dif_pos h]
      have hm : (hi + lo) / 2 < xs.length := by omega
      rw [Res.at_of_lt hm]
      simp only
      by_cases hv : xs[(hi + lo) / 2] > x
      · rw [if_pos hv]
        obtain ⟨i, hi1, h1, h2, h3, h4, h5, h6⟩ := ih lo ((hi + lo) / 2) (by omega) (by omega) hm hl hv.le
        refine ⟨i, hi1, h1, h2, by omega, h4, h5, ?_⟩
        rcases h6 with h6 | h6
        · exact Or.inl h6
        · left
          have : xs[i + 1] = xs[(hi + lo) / 2] := by congr 1
          rw [this]; exact hv
      · rw [if_neg hv]
        obtain ⟨i, hi1, h1, h2, h3, h4, h5, h6⟩ := ih ((hi + lo) / 2) hi (by omega) (by omega) hhi (not_lt.1 hv) hr
        exact ⟨i, hi1, h1, by omega, h3, h4, h5, h6⟩
    · rw [dif_neg h]
      have : hi = lo + 1 := by omega
      subst this
      exact ⟨lo, hhi, rfl, le_refl _, by omega, hl, hr, Or.inr rfl⟩

variable [IsStrictOrderedRing K]

/-- Specification of linear interpolation at `x` in the polyline `(xs, ys)`: `y` lies on a segment
that contains `x`. -/
def OnPolyline (xs ys : List K) (x y : K) : Prop :=
  ∃ i x0 x1 y0 y1, xs[i]? = some x0 ∧ xs[i + 1]? = some x1 ∧ ys[i]? = some y0 ∧ ys[i + 1]? = some y1 ∧
    x0 ≤ x ∧ x ≤ x1 ∧ (y - y0) * (x1 - x0) = (x - x0) * (y1 - y0)

theorem lerp_between {x a b u v : K} (hab : a < b) (h1 : a ≤ x) (h2 : x ≤ b) :
    min u v ≤ u + (x - a) / (b - a) * (v - u) ∧ u + (x - a) / (b - a) * (v - u) ≤ max u v := by
  have hd : 0 < b - a := sub_pos.2 hab
  set t := (x - a) / (b - a) with ht
  have t0 : 0 ≤ t := div_nonneg (sub_nonneg.2 h1) hd.le
  have t1 : t ≤ 1 := by rw [ht, div_le_one hd]; linarith
  rcases le_total u v with h | h
  · rw [min_eq_left h, max_eq_right h]
    constructor
    · have := mul_nonneg t0 (sub_nonneg.2 h); linarith
    · have := mul_nonneg (sub_nonneg.2 t1) (sub_nonneg.2 h); linarith [this]
  · rw [min_eq_right h, max_eq_left h]
    constructor
    · have := mul_nonneg (sub_nonneg.2 t1) (sub_nonneg.2 h); linarith
    · have := mul_nonneg t0 (sub_nonneg.2 h); linarith

/-- Everything about one interpolated point. -/
theorem LogPdf.interpAt_spec {xs ys : List K} (hs : xs.Pairwise (· < ·)) (hlen : ys.length = xs.length)
    (h2 : 2 ≤ xs.length) (x : K) :
    ((x < xs[0] ∨ xs[xs.length - 1] < x) → interpAt xs (ys.map some) x = .ok none) ∧
    (xs[0] ≤ x → x ≤ xs[xs.length - 1] → ∃ y, interpAt xs (ys.map some) x = .ok (some y) ∧ OnPolyline xs ys x y ∧
      (∃ i u v, ys[i]? = some u ∧ ys[i + 1]? = some v ∧ min u v ≤ y ∧ y ≤ max u v ∧
        (∀ a b, xs[i]? = some a → xs[i + 1]? = some b → a ≤ x ∧ x ≤ b)) ∧
      (∀ k : Nat, xs[k]? = some x → ys[k]? = some y)) := by
  have e0 : xs[0]? = some xs[0] := List.getElem?_eq_getElem _
  have e1 : xs[xs.length - 1]? = some xs[xs.length - 1] := List.getElem?_eq_getElem _
  constructor
  · intro h
    unfold interpAt
    rw [e0, e1]
    simp only
    rw [if_pos (by rcases h with h | h; exact Or.inl h; exact Or.inr h)]
  · intro ha hb
    obtain ⟨i, hi, h3, _, _, h4, h5, h6⟩ :=
      gslBsearch_spec (xs := xs) (x := x) (xs.length - 1) 0 (xs.length - 1) (by omega) (by omega) (by omega) ha hb
    have hlt : xs[i] < xs[i + 1] := getElem_lt_of_lt hs (by omega) _
    have hi' : i < ys.length := by omega
    have hi1' : i + 1 < ys.length := by omega
    let y := ys[i] + (x - xs[i]) / (xs[i + 1] - xs[i]) * (ys[i + 1] - ys[i])
    have hev : interpAt xs (ys.map some) x = .ok (some y) := by
      unfold interpAt
      rw [e0, e1]
      simp only
      rw [if_neg (by rintro (h | h); exact absurd h (not_lt.2 ha); exact absurd h (not_lt.2 hb))]
      unfold gslLinearEval
      rw [h3, Res.bind_ok, Res.at_of_lt (by omega), Res.bind_ok, Res.at_of_lt hi, Res.bind_ok,
        Res.at_of_lt (by simpa using hi'), Res.bind_ok, Res.at_of_lt (by simpa using hi1'), Res.bind_ok,
        if_pos (sub_pos.2 hlt)]
      simp [lerp, y]
    have hd : xs[i + 1] - xs[i] ≠ 0 := (sub_pos.2 hlt).ne'
    refine ⟨y, hev, ⟨i, _, _, _, _, List.getElem?_eq_getElem (by omega), List.getElem?_eq_getElem hi,
      List.getElem?_eq_getElem hi', List.getElem?_eq_getElem hi1', h4, h5, ?_⟩, ?_, ?_⟩
    · simp only [y]; field_simp; ring
    · obtain ⟨b1, b2⟩ := lerp_between (u := ys[i]) (v := ys[i + 1]) hlt h4 h5
      refine ⟨i, _, _, List.getElem?_eq_getElem hi', List.getElem?_eq_getElem hi1', b1, b2, ?_⟩
      intro a b h7 h8
      rw [List.getElem?_eq_getElem (by omega)] at h7
      rw [List.getElem?_eq_getElem hi] at h8
      cases h7; cases h8
      exact ⟨h4, h5⟩
    · intro k hk
      obtain ⟨hk1, hk2⟩ := List.getElem?_eq_some_iff.1 hk
      -- `x` is a grid point inside the segment: it is one of its ends
      have hki : k = i ∨ k = i + 1 := by
        by_contra hne
        rw [not_or] at hne
        rcases Nat.lt_or_gt_of_ne hne.1 with h | h
        · have := getElem_lt_of_lt hs h (by omega)
          rw [hk2] at this
          exact absurd h4 (not_le.2 this)
        · have := getElem_lt_of_lt hs (show i + 1 < k by omega) hk1
          rw [hk2] at this
          exact absurd h5 (not_le.2 this)
      rcases hki with rfl | rfl
      · rw [List.getElem?_eq_getElem hi']
        simp [y, hk2]
      · rw [List.getElem?_eq_getElem hi1']
        have : x - xs[i] = xs[i + 1] - xs[i] := by rw [hk2]
        simp only [y, this]
        rw [div_self hd]
        congr 1; ring

theorem LogPdf.interpLoop_ok {xs : List K} {ys : List (Option K)} {g : K → Option K} :
    ∀ t : List K, (∀ x ∈ t, LogPdf.interpAt xs ys x = .ok (g x)) →
      LogPdf.interpLoop xs ys t = .ok (t.map g)
  | [], _ => rfl
  | x :: t, h => by
    unfold LogPdf.interpLoop
    rw [h x (by simp), Res.bind_ok, LogPdf.interpLoop_ok t (fun a ha => h a (by simp [ha])), Res.bind_ok]
    rfl

/-- Specification: `q` is the PDF `(zs, ys)` resampled on `target`: the new grid is the target; outside
the old grid the value is NaN; inside, it lies on the polyline through the old points, between the two
neighbouring values, and is the old value at old grid points. -/
def Resampled (zs ys target : List K) (h2 : 2 ≤ zs.length) (q : LogPdf K) : Prop :=
  q.zs = target ∧ q.vals.length = target.length ∧
  ∀ (j : Nat) x, target[j]? = some x →
    ((x < zs[0] ∨ zs[zs.length - 1] < x) → q.vals[j]? = some none) ∧
    (zs[0] ≤ x → x ≤ zs[zs.length - 1] → ∃ y, q.vals[j]? = some (some y) ∧ OnPolyline zs ys x y ∧
      (∃ i u v, ys[i]? = some u ∧ ys[i + 1]? = some v ∧ min u v ≤ y ∧ y ≤ max u v ∧
        (∀ a b, zs[i]? = some a → zs[i + 1]? = some b → a ≤ x ∧ x ≤ b)) ∧
      (∀ k : Nat, zs[k]? = some x → ys[k]? = some y))

/-- **C32, interpolation.** Interpolating a PDF (finite values on a strictly increasing grid of at least
two points) on any non empty target grid succeeds and resamples it. -/
theorem C32_interpolateOnGrid (p : LogPdf K) (ys target : List K) (hv : p.vals = ys.map some)
    (hs : p.zs.Pairwise (· < ·)) (hlen : ys.length = p.zs.length) (h2 : 2 ≤ p.zs.length) (ht : target ≠ []) :
    ∃ q, p.interpolateOnGrid target = .ok q ∧ q.params = p.params ∧ Resampled p.zs ys target h2 q := by
  have hall : ∀ x : K, ∃ y, LogPdf.interpAt p.zs p.vals x = .ok y := by
    intro x
    rw [hv]
    obtain ⟨h3, h4⟩ := LogPdf.interpAt_spec hs hlen h2 x
    rcases lt_or_ge x p.zs[0] with h | h
    · exact ⟨_, h3 (Or.inl h)⟩
    · rcases lt_or_ge p.zs[p.zs.length - 1] x with h' | h'
      · exact ⟨_, h3 (Or.inr h')⟩
      · obtain ⟨y, hy, _⟩ := h4 h h'
        exact ⟨_, hy⟩
  choose g hg using hall
  have hloop : LogPdf.interpLoop p.zs p.vals target = .ok (target.map g) :=
    LogPdf.interpLoop_ok target (fun x _ => hg x)
  refine ⟨{ p with zs := target, vals := target.map g }, ?_, rfl, rfl, by simp, ?_⟩
  · unfold LogPdf.interpolateOnGrid
    have hne : p.zs ≠ [] := by intro h; rw [h] at h2; simp at h2
    have hvl : p.vals.length = p.zs.length := by rw [hv]; simp [hlen]
    rw [if_neg (by rintro (h | h); exact hne h; exact ht h), if_neg (by omega), if_neg (by omega),
      if_neg (by rw [strictlyIncreasing_iff.2 hs]; simp), hloop, Res.bind_ok]
    unfold LogPdf.checkSizes
    simp
  · intro j x hj
    have hgx := hg x
    rw [hv] at hgx
    obtain ⟨h3, h4⟩ := LogPdf.interpAt_spec hs hlen h2 x
    have hq : (target.map g)[j]? = some (g x) := by rw [List.getElem?_map, hj]; rfl
    constructor
    · intro h
      have := h3 h
      rw [hgx] at this
      cases this' : g x with
      | none => rw [← this']; exact hq
      | some y => rw [this'] at this; cases this
    · intro h h'
      obtain ⟨y, hy, h5⟩ := h4 h h'
      rw [hgx] at hy
      refine ⟨y, ?_, h5⟩
      have : g x = some y := by injection hy
      rw [← this]; exact hq

/-- **C32.** A PDF grid that is not strictly increasing, or with fewer than two points, is refused (by the
error handler on GSL), not read out of bounds. -/
theorem C32_interpolate_refuses (p : LogPdf K) (target : List K) (hlen : p.vals.length = p.zs.length)
    (hne : p.zs ≠ []) (ht : target ≠ []) (hbad : p.zs.length < 2 ∨ ¬ p.zs.Pairwise (· < ·)) :
    p.interpolateOnGrid target = .throw .EXTERNAL_LIB_ERROR := by
  unfold LogPdf.interpolateOnGrid
  rw [if_neg (by rintro (h | h); exact hne h; exact ht h)]
  by_cases h2 : p.vals.length < 2
  · rw [if_pos h2]
  · rw [if_neg h2, if_neg (by omega)]
    rcases hbad with h | h
    · omega
    · rw [if_pos]
      rw [← strictlyIncreasing_iff] at h
      simpa using h

/-- **C32, regularisation to the coarse grid.** Converting a refined PDF to its main (first pass) grid
succeeds, resamples it on that grid and leaves the main grid parameters only. -/
theorem C32_convertToRegular_coarse (gridOf : ZParam K → Res (List K)) (stale : K → Res K) (p : LogPdf K)
    (p0 p1 : ZParam K) (rest : List (ZParam K)) (hp : p.params = p0 :: p1 :: rest)
    (grid : List K) (hg : gridOf p0 = .ok grid) (hgn : grid ≠ [])
    (ys : List K) (hv : p.vals = ys.map some)
    (hs : p.zs.Pairwise (· < ·)) (hlen : ys.length = p.zs.length) (h2 : 2 ≤ p.zs.length) :
    ∃ q, p.convertToRegular gridOf stale false = .ok q ∧ q.params = [p0] ∧ Resampled p.zs ys grid h2 q := by
  have : p.convertToRegular gridOf stale false = ({ p with params := [p0] } : LogPdf K).interpolateOnGrid grid := by
    unfold LogPdf.convertToRegular LogPdf.isRegular
    rw [hp]
    simp [hg]
  rw [this]
  exact C32_interpolateOnGrid { p with params := [p0] } ys grid hv hs hlen h2 hgn

/-- An already regular PDF is left as it is. -/
theorem C32_convertToRegular_regular (gridOf : ZParam K → Res (List K)) (stale : K → Res K) (p : LogPdf K)
    (fine : Bool) (hp : p.params.length = 1) : p.convertToRegular gridOf stale fine = .ok p := by
  unfold LogPdf.convertToRegular LogPdf.isRegular
  simp [hp]

/-- Refinement windows with different steps are refused. -/
theorem C32_convertToRegular_steps (gridOf : ZParam K → Res (List K)) (stale : K → Res K) (p : LogPdf K)
    (p0 p1 : ZParam K) (rest : List (ZParam K)) (hp : p.params = p0 :: p1 :: rest)
    (hd : ∃ q ∈ rest, q.zstep ≠ p1.zstep) :
    p.convertToRegular gridOf stale true = .throw .INTERNAL_ERROR := by
  unfold LogPdf.convertToRegular LogPdf.isRegular
  rw [hp]
  obtain ⟨q, hq, hne⟩ := hd
  have : LogPdf.sameSubSteps p1.zstep rest = false := by
    unfold LogPdf.sameSubSteps
    rw [List.all_eq_false]
    exact ⟨q, hq, by simpa using hne⟩
  simp [this]

/-- **C32 is false of the fine conversion**: for every PDF with refinement windows of equal steps the
code reads `zstep[1]` after shrinking the vector to one element, which the standard leaves undefined. -/
theorem C32_convertToRegular_fine_ub (gridOf : ZParam K → Res (List K)) (p : LogPdf K)
    (p0 p1 : ZParam K) (rest : List (ZParam K)) (hp : p.params = p0 :: p1 :: rest)
    (hd : ∀ q ∈ rest, q.zstep = p1.zstep) :
    p.convertToRegular gridOf (fun _ => .ub) true = .ub := by
  unfold LogPdf.convertToRegular LogPdf.isRegular
  rw [hp]
  have : LogPdf.sameSubSteps p1.zstep rest = true := by
    unfold LogPdf.sameSubSteps
    rw [List.all_eq_true]
    intro q hq; simpa using hd q hq
  simp [this]

/-- **C32, fine conversion on an implementation that still finds the old element.** The PDF is resampled
on the main range with the step of the refinement windows. Missing: the standard gives no such
guarantee, `C32_convertToRegular_fine_ub`. -/
theorem C32_convertToRegular_fine_partial (gridOf : ZParam K → Res (List K)) (p : LogPdf K)
    (p0 p1 : ZParam K) (rest : List (ZParam K)) (hp : p.params = p0 :: p1 :: rest)
    (hd : ∀ q ∈ rest, q.zstep = p1.zstep)
    (grid : List K) (hg : gridOf { p0 with zstep := p1.zstep } = .ok grid) (hgn : grid ≠ [])
    (ys : List K) (hv : p.vals = ys.map some)
    (hs : p.zs.Pairwise (· < ·)) (hlen : ys.length = p.zs.length) (h2 : 2 ≤ p.zs.length) :
    ∃ q, p.convertToRegular gridOf .ok true = .ok q ∧ q.params = [{ p0 with zstep := p1.zstep }] ∧
      Resampled p.zs ys grid h2 q := by
  have : p.convertToRegular gridOf .ok true =
      ({ p with params := [{ p0 with zstep := p1.zstep }] } : LogPdf K).interpolateOnGrid grid := by
    unfold LogPdf.convertToRegular LogPdf.isRegular
    rw [hp]
    have : LogPdf.sameSubSteps p1.zstep rest = true := by
      unfold LogPdf.sameSubSteps
      rw [List.all_eq_true]
      intro q hq; simpa using hd q hq
    simp [this, hg]
  rw [this]
  exact C32_interpolateOnGrid { p with params := [{ p0 with zstep := p1.zstep }] } ys grid hv hs hlen h2 hgn

/-! ## Extrapolation -/

/-- **C32, extrapolation.** Extending a regular PDF on the right keeps every value at its index and pads
with the last value, provided the extended grid is not shorter. -/
theorem C32_extrapolate (gridOf : ZParam K → Res (List K)) (p : LogPdf K) (q : ZParam K) (hp : p.params = [q])
    (zend : K) (hz : q.zmax < zend) (grid : List K) (hg : gridOf { q with zmax := zend } = .ok grid)
    (hne : p.vals ≠ []) (hlen : p.vals.length ≤ grid.length) :
    ∃ r, p.extrapolateRight gridOf zend = .ok r ∧ r.zs = grid ∧ r.params = [{ q with zmax := zend }] ∧
      r.vals.length = grid.length ∧ (∀ i, i < p.vals.length → r.vals[i]? = p.vals[i]?) ∧
      (∀ i, p.vals.length ≤ i → i < grid.length → r.vals[i]? = p.vals.getLast?) := by
  have hpos : 0 < p.vals.length := List.length_pos_iff.2 hne
  have hlast : p.vals[p.vals.length - 1]? = some (p.vals[p.vals.length - 1]'(by omega)) :=
    List.getElem?_eq_getElem _
  refine ⟨{ zs := grid, vals := p.vals ++ List.replicate (grid.length - p.vals.length) (p.vals[p.vals.length - 1]'(by omega)),
            params := [{ q with zmax := zend }] }, ?_, rfl, rfl, by simp; omega, ?_, ?_⟩
  · unfold LogPdf.extrapolateRight
    rw [hp]
    simp only
    rw [if_neg (not_le.2 hz), hg, Res.bind_ok]
    unfold LogPdf.resizeBack
    rw [hlast]
    simp only [Res.bind_ok]
    rw [List.take_of_length_le hlen]
    unfold LogPdf.checkSizes
    rw [if_neg (by simp; omega)]
  · intro i hi
    simp [List.getElem?_append_left hi]
  · intro i hi1 hi2
    simp only
    rw [List.getElem?_append_right hi1, List.getElem?_replicate, if_pos (by omega),
      List.getLast?_eq_getElem?, hlast]

/-- Nothing happens when the border is already covered. -/
theorem C32_extrapolate_noop (gridOf : ZParam K → Res (List K)) (p : LogPdf K) (q : ZParam K)
    (hp : p.params = [q]) (zend : K) (hz : zend ≤ q.zmax) : p.extrapolateRight gridOf zend = .ok p := by
  unfold LogPdf.extrapolateRight
  rw [hp]
  simp [hz]

/-- `CZGridParam::getZGrid(false)` (zgridparam.cpp:44-55), linear sampling, `eps` being the tolerance of
`SpreadOverEpsilon`. -/
def ZParam.linGrid [FloorRing K] (eps : K) (q : ZParam K) : Res (List K) :=
  match q.zcenter with
  | some c => (⟨q.zmin, q.zmax⟩ : Range K).spanCenteredLin c q.zstep eps
  | none => (⟨q.zmin, q.zmax⟩ : Range K).spreadOverEps q.zstep false eps

theorem spreadOverEps_length [FloorRing K] (r : Range K) (d eps : K) (hd : 0 < d) (he : 0 ≤ eps)
    (hr : r.b ≤ r.e) : ∃ v, r.spreadOverEps d false eps = .ok v ∧ 0 < v.length ∧
      ((v.length : K) - 1) * d ≤ r.e + eps - r.b ∧ r.e + eps - r.b < v.length * d := by
  obtain ⟨n, hn, h1, h2, h3, _⟩ := (r.widen false eps).spreadOver_spec d hd
    (by simp [Range.widen]; linarith)
  obtain ⟨w, hw, hl, hget⟩ := r.clipEnds_spec
    ((List.range n).map (fun i : ℕ => (r.widen false eps).b + d * (i : K))) (by simp; omega)
  simp only [Range.widen, Bool.false_eq_true, if_false, add_zero, List.length_map,
    List.length_range] at h1 h2 h3 hl hw
  refine ⟨w, by simp [Range.spreadOverEps, Range.widen, h3, hw], by omega, ?_, ?_⟩ <;> rw [hl] <;> linarith

/-- The extended linear grid is never shorter, so the condition of `C32_extrapolate` holds for every PDF
on a linear grid. -/
theorem C32_linear_grid_grows [FloorRing K] (q : ZParam K) (eps zend : K) (hd : 0 < q.zstep) (he : 0 ≤ eps)
    (hr : q.zmin ≤ q.zmax) (hz : q.zmax ≤ zend) (hc : q.zcenter = none) :
    ∃ g g', q.linGrid eps = .ok g ∧ ({ q with zmax := zend } : ZParam K).linGrid eps = .ok g' ∧
      g ≠ [] ∧ g.length ≤ g'.length := by
  obtain ⟨g, h1, h2, h3, h4⟩ := spreadOverEps_length (⟨q.zmin, q.zmax⟩ : Range K) q.zstep eps hd he hr
  obtain ⟨g', h5, h6, h7, h8⟩ := spreadOverEps_length (⟨q.zmin, zend⟩ : Range K) q.zstep eps hd he (le_trans hr hz)
  refine ⟨g, g', by simp [ZParam.linGrid, hc, h1], by simp [ZParam.linGrid, hc, h5], List.length_pos_iff.1 h2, ?_⟩
  by_contra hlt
  have : (g'.length : K) + 1 ≤ g.length := by exact_mod_cast (by omega : g'.length + 1 ≤ g.length)
  have h9 := mul_le_mul_of_nonneg_right (by linarith : (g'.length : K) ≤ g.length - 1) hd.le
  simp only at h3 h8
  linarith

/-! ## Examples -/

/-- A PDF on a coarse grid refined by one window. -/
def exPdf : LogPdf ℚ :=
  { zs := [0, 1, 3/2, 2, 3], vals := [2, 4, 6, 4, 0].map some,
    params := [⟨0, 3, 1, none⟩, ⟨1, 2, 1/2, some (3/2)⟩] }

/-- The hypotheses of the theorems above hold for it. -/
example : ∃ q, exPdf.convertToRegular (fun _ => .ok [0, 1, 2, 3]) (fun _ => .ub) false = .ok q ∧
    q.params = [⟨0, 3, 1, none⟩] ∧
    Resampled exPdf.zs [2, 4, 6, 4, 0] [0, 1, 2, 3] (by decide) q :=
  C32_convertToRegular_coarse _ _ exPdf _ _ [] rfl _ rfl (by simp) [2, 4, 6, 4, 0] rfl
    (by unfold exPdf; decide +kernel) rfl (by decide)

example : exPdf.convertToRegular (fun _ => .ok [0, 1, 2, 3]) (fun _ => .ub) true = .ub :=
  C32_convertToRegular_fine_ub _ exPdf _ _ [] rfl (by simp)

end Amazed
