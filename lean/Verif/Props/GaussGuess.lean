import Verif.Props.GaussFitProps
import Mathlib.Analysis.SpecialFunctions.Pow.Real
import Mathlib.Data.List.Sort
import Mathlib.Algebra.Order.Field.Basic

/-!
# C154: the first guess and the result of the Gaussian fit
-/

set_option linter.unusedSectionVars false
set_option linter.unusedVariables false

namespace Amazed
namespace GaussFit

variable {K : Type} [Field K] [LinearOrder K] [IsStrictOrderedRing K]

/-! ## Specification -/

/-- At most one half of the values are above `m`, at most one half below. -/
def IsMedian (m : K) (y : List K) : Prop := 2 * y.countP (fun v => decide (m < v)) ≤ y.length ∧ 2 * y.countP (fun v => decide (v < m)) ≤ y.length

/-! ## Median -/

theorem countP_zero_of {p : K → Bool} {l : List K} (h : ∀ v ∈ l, p v = false) : l.countP p = 0 := by
  rw [List.countP_eq_zero]
  intro v hv
  rw [h v hv]; simp

theorem sortedMedian_spec {v : List K} (hs : v.Pairwise (· ≤ ·)) (hne : v ≠ []) : ∃ m, sortedMedian v = .ok m ∧ IsMedian m v := by
  have hpos : 0 < v.length := List.length_pos_of_ne_nil hne
  have hl : (v.length - 1) / 2 < v.length := by omega
  have hr : v.length / 2 < v.length := by omega
  have hmono : ∀ i j (hi : i < v.length) (hj : j < v.length), i ≤ j → v[i] ≤ v[j] := by
    intro i j hi hj hij
    rcases Nat.lt_or_eq_of_le hij with h | h
    · exact List.pairwise_iff_getElem.1 hs i j hi hj h
    · subst h; exact le_refl _
  have hle : v[(v.length - 1) / 2] ≤ v[v.length / 2] := hmono _ _ hl hr (by omega)
  have key : ∀ m, v[(v.length - 1) / 2] ≤ m → m ≤ v[v.length / 2] → IsMedian m v := by
    intro m h1 h2
    constructor
    · have hc : v.countP (fun w => decide (m < w)) ≤ v.length - ((v.length - 1) / 2 + 1) := by
        conv_lhs => rw [← List.take_append_drop ((v.length - 1) / 2 + 1) v]
        rw [List.countP_append, countP_zero_of, Nat.zero_add]
        · refine (List.countP_le_length).trans ?_
          rw [List.length_drop]
        · intro w hw
          obtain ⟨i, hi, rfl⟩ := List.mem_iff_getElem.1 hw
          rw [List.length_take] at hi
          rw [List.getElem_take]
          have : v[i]'(by omega) ≤ v[(v.length - 1) / 2] := hmono _ _ _ hl (by omega)
          simp only [decide_eq_false_iff_not, not_lt]
          exact this.trans h1
      omega
    · have hc : v.countP (fun w => decide (w < m)) ≤ v.length / 2 := by
        conv_lhs => rw [← List.take_append_drop (v.length / 2) v]
        rw [List.countP_append]
        have h0 : (v.drop (v.length / 2)).countP (fun w => decide (w < m)) = 0 := by
          apply countP_zero_of
          intro w hw
          obtain ⟨i, hi, rfl⟩ := List.mem_iff_getElem.1 hw
          rw [List.length_drop] at hi
          rw [List.getElem_drop]
          simp only [decide_eq_false_iff_not, not_lt]
          exact h2.trans (hmono _ _ hr _ (by omega))
        rw [h0, Nat.add_zero]
        refine (List.countP_le_length).trans ?_
        rw [List.length_take]; omega
      omega
  unfold sortedMedian
  simp only
  rw [Res.at_of_lt hl, Res.bind_ok]
  by_cases he : (v.length - 1) / 2 = v.length / 2
  · rw [if_pos he]
    exact ⟨_, rfl, key _ (le_refl _) hle⟩
  · rw [if_neg he, Res.at_of_lt hr, Res.bind_ok]
    refine ⟨_, rfl, key _ ?_ ?_⟩
    · rw [le_div_iff₀ (by norm_num)]; linarith
    · rw [div_le_iff₀ (by norm_num)]; linarith

theorem median_spec {y : List K} (hne : y ≠ []) : ∃ m, sortedMedian (y.insertionSort (· ≤ ·)) = .ok m ∧ IsMedian m y := by
  have hp : (y.insertionSort (· ≤ ·)).Perm y := List.perm_insertionSort _ y
  obtain ⟨m, h1, h2, h3⟩ := sortedMedian_spec (List.pairwise_insertionSort (· ≤ ·) y) (by
    intro h; apply hne; rw [h] at hp; exact List.Perm.nil_eq hp |>.symm)
  rw [hp.countP_eq, hp.length_eq] at h2 h3
  exact ⟨m, h1, h2, h3⟩

/-! ## Extreme values -/

theorem maxFrom_spec : ∀ (l : List K) (pre : List K) (best : Nat × K),
    pre[best.1]? = some best.2 → (∀ v ∈ pre, v ≤ best.2) →
    let r := maxFrom l pre.length best
    (pre ++ l)[r.1]? = some r.2 ∧ ∀ v ∈ pre ++ l, v ≤ r.2 := by
  intro l
  induction l with
  | nil => intro pre best h1 h2; simpa [maxFrom] using ⟨h1, h2⟩
  | cons a l ih =>
    intro pre best h1 h2
    have hi : best.1 < pre.length := (List.getElem?_eq_some_iff.1 h1).1
    have := ih (pre ++ [a]) (if best.2 < a then (pre.length, a) else best) ?_ ?_
    · simpa [maxFrom, List.append_assoc] using this
    · split
      · simp
      · rw [List.getElem?_append_left hi]; exact h1
    · intro v hv
      rcases List.mem_append.1 hv with hv | hv
      · split
        · rename_i h; exact (h2 v hv).trans h.le
        · exact h2 v hv
      · rw [List.mem_singleton] at hv; subst hv
        split
        · exact le_refl _
        · rename_i h; exact not_lt.1 h

theorem minFrom_spec : ∀ (l : List K) (pre : List K) (best : Nat × K),
    pre[best.1]? = some best.2 → (∀ v ∈ pre, best.2 ≤ v) →
    let r := minFrom l pre.length best
    (pre ++ l)[r.1]? = some r.2 ∧ ∀ v ∈ pre ++ l, r.2 ≤ v := by
  intro l
  induction l with
  | nil => intro pre best h1 h2; simpa [minFrom] using ⟨h1, h2⟩
  | cons a l ih =>
    intro pre best h1 h2
    have hi : best.1 < pre.length := (List.getElem?_eq_some_iff.1 h1).1
    have := ih (pre ++ [a]) (if a < best.2 then (pre.length, a) else best) ?_ ?_
    · simpa [minFrom, List.append_assoc] using this
    · split
      · simp
      · rw [List.getElem?_append_left hi]; exact h1
    · intro v hv
      rcases List.mem_append.1 hv with hv | hv
      · split
        · rename_i h; exact h.le.trans (h2 v hv)
        · exact h2 v hv
      · rw [List.mem_singleton] at hv; subst hv
        split
        · exact le_refl _
        · rename_i h; exact not_lt.1 h

theorem maxFrom_all {a : K} {l : List K} :
    (a :: l)[(maxFrom (a :: l) 0 (0, a)).1]? = some (maxFrom (a :: l) 0 (0, a)).2 ∧ ∀ v ∈ a :: l, v ≤ (maxFrom (a :: l) 0 (0, a)).2 := by
  have := maxFrom_spec l [a] (0, a) (by simp) (by simp)
  simpa [maxFrom] using this

theorem minFrom_all {a : K} {l : List K} :
    (a :: l)[(minFrom (a :: l) 0 (0, a)).1]? = some (minFrom (a :: l) 0 (0, a)).2 ∧ ∀ v ∈ a :: l, (minFrom (a :: l) 0 (0, a)).2 ≤ v := by
  have := minFrom_spec l [a] (0, a) (by simp) (by simp)
  simpa [minFrom] using this

theorem weirdStd_nonneg : ∀ (l : List K) (s : K), 0 ≤ s → 0 ≤ weirdStd l s := by
  intro l
  induction l with
  | nil => intro s h; exact h
  | cons a l ih => intro s h; exact ih _ (add_nonneg h (mul_self_nonneg _))

/-! ## C154 -/

/-- **C154** The first guess on a range of at least three samples with increasing wavelengths: no read out of the range, the centre is the wavelength of a sample of
largest flux, the amplitude is its height above the median and is not negative, and the width is positive, so that the derivatives exist there. -/
theorem C154_guess {x y : List K} (hl : x.length = y.length) (hn : 3 ≤ y.length) (hx : x.Pairwise (· < ·)) :
    ∃ g, firstGuess x y = .ok g ∧ 0 < g.c ∧ 0 ≤ g.amp ∧
      ∃ (i : Nat) (med f : K), x[i]? = some g.mu ∧ y[i]? = some f ∧ (∀ v ∈ y, v ≤ f) ∧ IsMedian med y ∧ g.amp = f - med := by
  have hne : y ≠ [] := by intro h; rw [h] at hn; simp at hn
  obtain ⟨med, hm, hM⟩ := median_spec hne
  have hinc : ∀ i j (hi : i < x.length) (hj : j < x.length), i < j → x[i] < x[j] := fun i j hi hj h => List.pairwise_iff_getElem.1 hx i j hi hj h
  obtain ⟨y0, ys, rfl⟩ : ∃ y0 ys, y = y0 :: ys := by
    cases y with
    | nil => exact absurd rfl hne
    | cons a l => exact ⟨a, l, rfl⟩
  set y := y0 :: ys with hy
  have hv : y.map (· - med) = (y0 - med) :: ys.map (· - med) := rfl
  obtain ⟨a1, a2⟩ := maxFrom_all (a := y0 - med) (l := ys.map (· - med))
  obtain ⟨b1, b2⟩ := minFrom_all (a := y0 - med) (l := ys.map (· - med))
  unfold firstGuess
  simp only
  rw [hm, Res.bind_ok, hv]
  rw [show Res.at_ ((y0 - med) :: ys.map (· - med)) 0 = .ok (y0 - med) from rfl, Res.bind_ok]
  set mx := maxFrom ((y0 - med) :: ys.map (· - med)) 0 (0, y0 - med) with hmx
  set mn := minFrom ((y0 - med) :: ys.map (· - med)) 0 (0, y0 - med) with hmn
  rw [← hv] at a1 a2 b1 b2
  -- the sample of the peak
  have hpk : ∃ f, y[(if mn.2 < mx.2 then mx else mn).1]? = some f ∧ (∀ v ∈ y, v ≤ f) ∧ (if mn.2 < mx.2 then mx else mn).2 = f - med := by
    have hget : ∀ (q : Nat × K), (y.map (· - med))[q.1]? = some q.2 → ∃ f, y[q.1]? = some f ∧ q.2 = f - med := by
      intro q hq
      rw [List.getElem?_map, Option.map_eq_some_iff] at hq
      obtain ⟨f, h1, h2⟩ := hq
      exact ⟨f, h1, h2.symm⟩
    by_cases hc : mn.2 < mx.2
    · rw [if_pos hc]
      obtain ⟨f, h1, h2⟩ := hget mx a1
      refine ⟨f, h1, fun v hv' => ?_, h2⟩
      have := a2 (v - med) (List.mem_map.2 ⟨v, hv', rfl⟩)
      rw [h2] at this
      linarith
    · rw [if_neg hc]
      obtain ⟨f, h1, h2⟩ := hget mn b1
      refine ⟨f, h1, fun v hv' => ?_, h2⟩
      have := a2 (v - med) (List.mem_map.2 ⟨v, hv', rfl⟩)
      have h3 := not_lt.1 hc
      rw [h2] at h3
      linarith
  set pk := if mn.2 < mx.2 then mx else mn with hpkd
  obtain ⟨f, f1, f2, f3⟩ := hpk
  have hi : pk.1 < y.length := (List.getElem?_eq_some_iff.1 f1).1
  rw [Res.at_of_lt (by rw [hl]; exact hi), Res.bind_ok]
  -- the amplitude
  have hamp : 0 ≤ f - med := by
    by_contra hneg
    have hall : y.countP (fun v => decide (v < med)) = y.length := by
      rw [List.countP_eq_length]
      intro v hv'
      have := f2 v hv'
      simp only [decide_eq_true_eq]
      linarith
    have := hM.2
    rw [hall] at this
    omega
  have hstd : (0 : K) ≤ weirdStd y 0 / ((y.length : K) - 1) := by
    refine div_nonneg (weirdStd_nonneg _ _ (le_refl _)) ?_
    have : (1 : K) ≤ (y.length : K) := by exact_mod_cast (show 1 ≤ y.length by omega)
    linarith
  have hcnt : 2 * countAbove y (med + 3 * (weirdStd y 0 / ((y.length : K) - 1))) ≤ y.length := by
    refine le_trans (Nat.mul_le_mul_left 2 ?_) hM.1
    unfold countAbove
    apply List.countP_mono_left
    intro v _ h
    simp only [decide_eq_true_eq] at h ⊢
    linarith
  set cnt := countAbove y (med + 3 * (weirdStd y 0 / ((y.length : K) - 1))) with hcntd
  clear_value cnt
  by_cases h2 : 2 < cnt
  · rw [if_pos h2, Res.at_of_lt (show cnt < x.length by omega), Res.bind_ok, Res.at_of_lt (show 0 < x.length by omega), Res.bind_ok]
    refine ⟨_, rfl, ?_, by rw [f3]; exact hamp, pk.1, med, f, List.getElem?_eq_getElem (by rw [hl]; exact hi), f1, f2, hM, f3⟩
    have := hinc 0 cnt (by omega) (by omega) (by omega)
    refine div_pos ?_ (by norm_num)
    linarith
  · rw [if_neg h2, Res.at_of_lt (show y.length - 1 < x.length by omega), Res.bind_ok, Res.at_of_lt (show 1 < x.length by omega), Res.bind_ok]
    refine ⟨_, rfl, ?_, by rw [f3]; exact hamp, pk.1, med, f, List.getElem?_eq_getElem (by rw [hl]; exact hi), f1, f2, hM, f3⟩
    have := hinc 1 (y.length - 1) (by omega) (by omega) (by omega)
    refine div_pos ?_ (by norm_num)
    linarith

theorem window_spec {l : List K} {b n : Nat} (h : b + n ≤ l.length) : window l b n = .ok ((l.drop b).take n) := by
  unfold window
  induction n with
  | zero => simp [Res.tab]
  | succ n ih =>
    rw [Res.tab, ih (by omega), Res.bind_ok, Res.at_of_lt (by omega), Res.bind_ok, List.take_add_one, List.getElem?_drop, List.getElem?_eq_getElem (by omega)]
    rfl

/-- **C154** A range with less samples than parameters is refused, and only such a range: on any other one inside of the axes, with increasing wavelengths, the fit
is run from the first guess and the status is a success, whatever GSL returns and even if it did not converge. -/
theorem C154_status (sq : K → K) (order : Nat) (solve : List K → List K → List K → Solved K) (xs ys : List K) (b e : Nat) :
    (e < b + order + 4 → compute sq order solve xs ys b e = .ok (.illegalInput, none)) ∧
    (b + order + 4 ≤ e → e ≤ xs.length → e ≤ ys.length → xs.Pairwise (· < ·) →
      ∃ g, firstGuess ((xs.drop b).take (e - b)) ((ys.drop b).take (e - b)) = .ok g ∧
        compute sq order solve xs ys b e = .ok (.success, some (fitted sq (e - b) (order + 4)
          (solve ((xs.drop b).take (e - b)) ((ys.drop b).take (e - b)) ([g.amp, g.mu, g.c] ++ List.replicate (order + 1) 0))))) := by
  unfold compute
  simp only
  constructor
  · intro h
    rw [if_pos (by omega)]
  · intro h h1 h2 h3
    rw [if_neg (by omega), window_spec (by omega), Res.bind_ok, window_spec (by omega), Res.bind_ok]
    obtain ⟨g, hg, _⟩ := C154_guess (x := (xs.drop b).take (e - b)) (y := (ys.drop b).take (e - b)) (by simp; omega) (by simp; omega)
      ((h3.sublist (List.drop_sublist _ _)).sublist (List.take_sublist _ _))
    refine ⟨g, hg, ?_⟩
    rw [hg, Res.bind_ok, show 3 + order + 1 = order + 4 by omega]
    rfl

/-- **C154** The results: amplitude, centre and constant are those of the solution, the width is not negative, and the errors are the square roots of the variances
multiplied by the reduced residual if it exceeds 1; they are not finite when there are as many samples as parameters. -/
theorem C154_result {sq : K → K} (hsq : ∀ v, 0 ≤ v → 0 ≤ sq v ∧ sq v * sq v = v) (n np : Nat) (s : Solved K) :
    (fitted sq n np s).amp = s.x 0 ∧ (fitted sq n np s).mu = s.x 1 ∧ (fitted sq n np s).coeff0 = s.x 3 ∧
    0 ≤ (fitted sq n np s).c ∧ 2 * ((fitted sq n np s).c * (fitted sq n np s).c) = s.x 2 * s.x 2 ∧
    (n ≤ np → (fitted sq n np s).ampErr = none ∧ (fitted sq n np s).muErr = none ∧ (fitted sq n np s).cErr = none) ∧
    (np < n → ∀ i, 0 ≤ s.var i → ∃ er, errorOf sq (n - np) s.chi (s.var i) = some er ∧ 0 ≤ er ∧ s.var i ≤ er * er ∧
      (0 ≤ s.chi → er * er = s.var i * max 1 (s.chi * s.chi / ((n - np : Nat) : K))) ∧
      (i = 0 → (fitted sq n np s).ampErr = some er) ∧ (i = 1 → (fitted sq n np s).muErr = some er) ∧
      (i = 2 → ∃ w, (fitted sq n np s).cErr = some w ∧ 2 * (w * w) = er * er)) := by
  obtain ⟨h2a, h2b⟩ := hsq 2 (by norm_num)
  have h2 : sq (2 : K) ≠ 0 := by intro h; rw [h] at h2b; norm_num at h2b
  refine ⟨rfl, rfl, rfl, div_nonneg (abs_nonneg _) h2a, ?_, ?_, ?_⟩
  · show 2 * (|s.x 2| / sq 2 * (|s.x 2| / sq 2)) = _
    rw [div_mul_div_comm, h2b, abs_mul_abs_self]
    field_simp
  · intro h
    have hd : n - np = 0 := by omega
    simp [fitted, errorOf, hd]
  · intro h i hi
    have hd : n - np ≠ 0 := by omega
    have hdp : (0 : K) < ((n - np : Nat) : K) := by exact_mod_cast Nat.pos_of_ne_zero hd
    obtain ⟨g1, g2⟩ := hsq _ hdp.le
    have g0 : sq ((n - np : Nat) : K) ≠ 0 := by intro h; rw [h] at g2; simp at g2; exact hdp.ne g2
    obtain ⟨v1, v2⟩ := hsq _ hi
    set r := s.chi / sq ((n - np : Nat) : K) with hr
    have he : errorOf sq (n - np) s.chi (s.var i) = some ((if r < 1 then 1 else r) * sq (s.var i)) := by
      unfold errorOf
      rw [if_neg hd, if_neg (not_lt.2 hi)]
    have hge : (1 : K) ≤ if r < 1 then 1 else r := by split; exact le_refl _; rename_i h; exact not_lt.1 h
    refine ⟨_, he, mul_nonneg (by linarith) v1, ?_, ?_, ?_, ?_, ?_⟩
    · have : (if r < 1 then 1 else r) * sq (s.var i) * ((if r < 1 then 1 else r) * sq (s.var i)) =
          ((if r < 1 then 1 else r) * (if r < 1 then 1 else r)) * s.var i := by
        calc _ = ((if r < 1 then 1 else r) * (if r < 1 then 1 else r)) * (sq (s.var i) * sq (s.var i)) := by ring
          _ = _ := by rw [v2]
      rw [this]
      nlinarith [mul_self_nonneg ((if r < 1 then 1 else r) - 1)]
    · intro hchi
      have hrr : r * r = s.chi * s.chi / ((n - np : Nat) : K) := by rw [hr, div_mul_div_comm, g2]
      have hr0 : 0 ≤ r := div_nonneg hchi g1
      have : (if r < 1 then 1 else r) * sq (s.var i) * ((if r < 1 then 1 else r) * sq (s.var i)) =
          s.var i * ((if r < 1 then 1 else r) * (if r < 1 then 1 else r)) := by
        calc _ = (sq (s.var i) * sq (s.var i)) * ((if r < 1 then 1 else r) * (if r < 1 then 1 else r)) := by ring
          _ = _ := by rw [v2]
      rw [this, ← hrr]
      congr 1
      split
      · rename_i h
        rw [max_eq_left (by nlinarith), one_mul]
      · rename_i h
        rw [max_eq_right (by nlinarith [not_lt.1 h])]
    · intro h0; subst h0; exact he
    · intro h0; subst h0; exact he
    · intro h0; subst h0
      refine ⟨_, by show Option.map _ _ = _; beta_reduce; rw [he]; rfl, ?_⟩
      rw [div_mul_div_comm, h2b]
      field_simp

/-- **C154** The width which is returned is the standard deviation of the Gaussian of the solution. -/
theorem C154_sigma (n np : Nat) (s : Solved ℝ) (hc : s.x 2 ≠ 0) (x : ℝ) :
    s.x 0 * Real.exp (-((x - s.x 1) / s.x 2) ^ 2) =
      (fitted Real.sqrt n np s).amp * Real.exp (-(x - (fitted Real.sqrt n np s).mu) ^ 2 / (2 * (fitted Real.sqrt n np s).c ^ 2)) := by
  obtain ⟨h1, h2, _, _, h3, _⟩ := C154_result (sq := Real.sqrt) (fun v hv => ⟨Real.sqrt_nonneg v, Real.mul_self_sqrt hv⟩) n np s
  rw [h1, h2, pow_two (fitted Real.sqrt n np s).c, h3]
  congr 2
  field_simp

/-! ## Examples -/

/-- A line on seven samples. -/
example : firstGuess ([1, 2, 3, 4, 5, 6, 7] : List ℚ) [0, 1, 2, 9, 2, 1, 0] = .ok ⟨8, 4, 5 / 6⟩ := by decide +kernel

/-- A solver which does not converge: the status is nevertheless a success. -/
example : ∃ f, compute (fun v : ℚ => v) 2 (fun _ _ g => ⟨fun i => g.getD i 0, fun _ => 1, 5, -2⟩) [1, 2, 3, 4, 5, 6, 7] [0, 1, 2, 9, 2, 1, 0] 0 7 =
    .ok (.success, some f) := by
  obtain ⟨g, _, h⟩ := (C154_status (fun v : ℚ => v) 2 (fun _ _ g => ⟨fun i => g.getD i 0, fun _ => 1, 5, -2⟩) [1, 2, 3, 4, 5, 6, 7] [0, 1, 2, 9, 2, 1, 0] 0 7).2
    (by norm_num) (by norm_num) (by norm_num) (by decide +kernel)
  exact ⟨_, h⟩

end GaussFit
end Amazed
