import Mathlib.Tactic.Linarith
import Mathlib.Tactic.Ring
import Mathlib.Tactic.FieldSimp
import Mathlib.Tactic.Positivity
import Mathlib.Tactic.NormNum
import Mathlib.Algebra.Order.BigOperators.Group.List
import Verif.Model.ContIdx
import Verif.Props.SpectralAxisProps
import Verif.Props.TplFitTotal

set_option linter.unusedVariables false
set_option linter.unusedSectionVars false

/-! # C168: the continuum indexes -/

namespace Amazed
namespace ContIdx

variable {K : Type} [Field K] [LinearOrder K] [IsStrictOrderedRing K]

/-! ## Specification -/

/-- The samples of a spectrum whose wavelength is in a range. -/
def samplesIn (axis flux err : List K) (r : Range K) : List (Pt K) :=
  ((axis.zip (flux.zip err)).filter fun p => decide (r.b ≤ p.1 ∧ p.1 ≤ r.e)).map fun p => ⟨p.1, p.2.1, p.2.2⟩

/-- The distance of the samples to the line of slope `a` and constant `c`, weighted by the errors. -/
def dist (l : List (Pt K)) (a c : K) : K := (l.map fun p => ((p.y - (a * p.x + c)) / p.e) ^ 2).sum

/-- `m` is the mean flux weighted by the errors: the one constant that is the nearest to the samples. -/
def IsMean (l : List (Pt K)) (m : K) : Prop := (∀ m', dist l 0 m ≤ dist l 0 m') ∧ ∀ m', dist l 0 m' = dist l 0 m → m' = m

/-- `s` is the weighted standard deviation about `m`, with the unbiased normalisation of reliability weights. -/
def IsSDev (l : List (Pt K)) (m s : K) : Prop :=
  0 ≤ s ∧ 0 < (l.map fun p => 1 / p.e ^ 2).sum ^ 2 - (l.map fun p => (1 / p.e ^ 2) ^ 2).sum ∧
    s ^ 2 * ((l.map fun p => 1 / p.e ^ 2).sum ^ 2 - (l.map fun p => (1 / p.e ^ 2) ^ 2).sum) = (l.map fun p => 1 / p.e ^ 2).sum * dist l 0 m

/-- `a`, `c` are the slope and the constant of the line that is the nearest to the samples. -/
def IsReg (l : List (Pt K)) (a c : K) : Prop := (∀ a' c', dist l a c ≤ dist l a' c') ∧ ∀ a' c', dist l a' c' = dist l a c → a' = a ∧ c' = c

/-- `p` is the regression in a range: on the samples from the first one of the range to the first one at or after its end. With two samples or more it is the line nearest to
them, with one there is none. -/
def RegOf (axis flux err : List K) (r : Range K) (p : Option (K × K)) : Prop :=
  ∃ (i j : Nat) (l : List (Pt K)), i ≤ j ∧ j < axis.length ∧ l.length = j + 1 - i ∧
    (∀ (k : Nat), k ≤ j - i → ∃ x y e, axis[i + k]? = some x ∧ flux[i + k]? = some y ∧ err[i + k]? = some e ∧ l[k]? = some ⟨x, y, e⟩) ∧
    (∀ (k : Nat) (x : K), axis[k]? = some x → (k < i → x < r.b) ∧ (k < j → x < r.e)) ∧
    (∀ (x : K), axis[i]? = some x → r.b ≤ x ∨ (i = axis.length - 1 ∧ x < r.b)) ∧ (∀ (x : K), axis[j]? = some x → r.e ≤ x ∨ (j = axis.length - 1 ∧ x < r.e)) ∧
    (i < j → ∃ a c, p = some (a, c) ∧ IsReg l a c) ∧ (i = j → p = none)

/-- `m` is the mean flux in a range: there is none when the range is not in the spectrum or has no sample. -/
def MeanOf (axis flux err : List K) (r : Range K) (m : Option K) : Prop :=
  if outside axis r ∨ samplesIn axis flux err r = [] then m = none else ∃ v, m = some v ∧ IsMean (samplesIn axis flux err r) v

/-- `c` is the magnitude of `u` with respect to `v`: -6 when `v` is not positive, none when `u` is not positive or one of them is not known. -/
def IsMag (lg : K → K) (u v c : Option K) : Prop :=
  (∀ x y, u = some x → v = some y → 0 < x → 0 < y → c = some (-(5 / 2) * lg (x / y))) ∧ (∀ x y, u = some x → v = some y → 0 < x → y ≤ 0 → c = some (-6)) ∧
  (u = none ∨ v = none ∨ (∃ x, u = some x ∧ x ≤ 0) → c = none)

/-- The ranges A and B, of the rest frame, of the six indexes: Lyα, [OII], [OIII], Hα, CIV, CIII. -/
def theBands : List ((K × K) × (K × K)) :=
  [((1043, 1174), (1304, 1369)), ((3200, 3600), (4000, 4200)), ((4290, 4830), (5365, 5635)), ((5632, 6341), (7043, 73976 / 10)), ((1329, 1497), (1663, 1746)),
    ((1637, 1843), (2047, 2150))]

/-! ## Moments -/

/-- The moments of a list of points with the weights `1 / e²`. -/
structure Mom (K : Type) where
  w : K
  x : K
  y : K
  xx : K
  xy : K
  yy : K

def mom (l : List (Pt K)) : Mom K :=
  ⟨(l.map fun p => 1 / (p.e * p.e)).sum, (l.map fun p => 1 / (p.e * p.e) * p.x).sum, (l.map fun p => 1 / (p.e * p.e) * p.y).sum,
    (l.map fun p => 1 / (p.e * p.e) * (p.x * p.x)).sum, (l.map fun p => 1 / (p.e * p.e) * (p.x * p.y)).sum, (l.map fun p => 1 / (p.e * p.e) * (p.y * p.y)).sum⟩

theorem dist_mom (l : List (Pt K)) (he : ∀ p ∈ l, p.e ≠ 0) (a c : K) :
    dist l a c = (mom l).yy - 2 * a * (mom l).xy - 2 * c * (mom l).y + a * a * (mom l).xx + 2 * a * c * (mom l).x + c * c * (mom l).w := by
  induction l with
  | nil => simp [dist, mom]
  | cons p l ih =>
    have ih := ih (fun q hq => he q (by simp [hq]))
    have h0 := he p (by simp)
    simp only [dist, mom, List.map_cons, List.sum_cons] at ih ⊢
    rw [ih]
    field_simp
    ring

theorem sxx_mom (l : List (Pt K)) (u : K) : (l.map fun p => 1 / (p.e * p.e) * ((p.x - u) * (p.x - u))).sum = (mom l).xx - 2 * u * (mom l).x + u * u * (mom l).w := by
  induction l with
  | nil => simp [mom]
  | cons p l ih =>
    simp only [mom, List.map_cons, List.sum_cons] at ih ⊢
    rw [ih]
    ring

theorem sxy_mom (l : List (Pt K)) (u v : K) : (l.map fun p => 1 / (p.e * p.e) * ((p.x - u) * (p.y - v))).sum =
    (mom l).xy - v * (mom l).x - u * (mom l).y + u * v * (mom l).w := by
  induction l with
  | nil => simp [mom]
  | cons p l ih =>
    simp only [mom, List.map_cons, List.sum_cons] at ih ⊢
    rw [ih]
    ring

theorem w_pos {l : List (Pt K)} (he : ∀ p ∈ l, p.e ≠ 0) (hl : l ≠ []) : 0 < (mom l).w := by
  cases l with
  | nil => exact absurd rfl hl
  | cons p l =>
    have h0 := he p (by simp)
    simp only [mom, List.map_cons, List.sum_cons]
    have h1 : 0 < 1 / (p.e * p.e) := one_div_pos.2 (mul_self_pos.2 h0)
    have h2 : 0 ≤ (l.map fun p => 1 / (p.e * p.e)).sum := by
      apply List.sum_nonneg
      intro v hv
      obtain ⟨q, -, rfl⟩ := List.mem_map.1 hv
      exact one_div_nonneg.2 (mul_self_nonneg _)
    linarith

/-- The sum of the squares of positive numbers is less than the square of their sum, as soon as there are two. -/
theorem sq_sum_lt : ∀ (l : List K), (∀ w ∈ l, 0 < w) → 2 ≤ l.length → (l.map fun w => w * w).sum < l.sum * l.sum := by
  have h0 : ∀ (l : List K), (∀ w ∈ l, 0 < w) → (l.map fun w => w * w).sum ≤ l.sum * l.sum ∧ 0 ≤ l.sum := by
    intro l
    induction l with
    | nil => intro _; simp
    | cons w l ih =>
      intro h
      obtain ⟨i1, i2⟩ := ih (fun q hq => h q (by simp [hq]))
      have hw := h w (by simp)
      simp only [List.map_cons, List.sum_cons]
      refine ⟨by nlinarith [mul_nonneg hw.le i2], by linarith⟩
  intro l h hl
  match l, hl with
  | a :: b :: l, _ =>
    have ha := h a (by simp)
    have hb := h b (by simp)
    obtain ⟨i1, i2⟩ := h0 (b :: l) (fun q hq => h q (by simp only [List.mem_cons] at hq ⊢; tauto))
    obtain ⟨-, i4⟩ := h0 l (fun q hq => h q (by simp [hq]))
    have hp : 0 < (b :: l).sum := by simp only [List.sum_cons]; linarith
    rw [List.map_cons, List.sum_cons, List.sum_cons]
    nlinarith [mul_pos ha hp]

/-! ## Mean and deviation -/

/-- The sums of `ComputeMeanAndSDev` for a list of samples. -/
def accOf (l : List (Pt K)) : Acc K :=
  ⟨(mom l).y, (mom l).yy, (mom l).w, (l.map fun p => 1 / (p.e * p.e) * (1 / (p.e * p.e))).sum⟩

theorem samplesIn_take (axis flux err : List K) (r : Range K) (j : Nat) (x y e : K) (hx : axis[j]? = some x) (hy : flux[j]? = some y) (he : err[j]? = some e) :
    samplesIn (axis.take (j + 1)) (flux.take (j + 1)) (err.take (j + 1)) r =
      samplesIn (axis.take j) (flux.take j) (err.take j) r ++ if r.b ≤ x ∧ x ≤ r.e then [⟨x, y, e⟩] else [] := by
  obtain ⟨h1, rfl⟩ := List.getElem?_eq_some_iff.1 hx
  obtain ⟨h2, rfl⟩ := List.getElem?_eq_some_iff.1 hy
  obtain ⟨h3, rfl⟩ := List.getElem?_eq_some_iff.1 he
  unfold samplesIn
  rw [List.take_succ_eq_append_getElem h1, List.take_succ_eq_append_getElem h2, List.take_succ_eq_append_getElem h3,
    List.zip_append (by simp; omega), List.zip_append (by simp; omega)]
  rw [List.filter_append, List.map_append]
  congr 1
  by_cases h : r.b ≤ axis[j] ∧ axis[j] ≤ r.e
  · simp [h]
  · rw [if_neg h]
    simp only [List.zip_cons_cons, List.zip_nil_right, List.filter_cons, decide_eq_true_eq]
    rw [if_neg h]; rfl

theorem fold_acc (axis flux err : List K) (r : Range K) (hf : flux.length = axis.length) (he : err.length = axis.length) (h0 : ∀ e ∈ err, e ≠ 0) :
    Res.foldN (accBody (SAxis.getMask axis r) flux err) 0 flux.length (some ⟨0, 0, 0, 0⟩) = .ok (some (accOf (samplesIn axis flux err r))) := by
  have H := Res.foldN_inv (f := accBody (SAxis.getMask axis r) flux err)
    (fun j st => st = some (accOf (samplesIn (axis.take j) (flux.take j) (err.take j) r))) flux.length 0 (some ⟨0, 0, 0, 0⟩)
    (by simp [accOf, samplesIn, mom]) (by
      intro j st _ hj hst
      have hj1 : j < axis.length := by omega
      have hj2 : j < err.length := by omega
      have hj3 : j < flux.length := by omega
      have hm : (SAxis.getMask axis r)[j]? = some (if r.b ≤ axis[j] ∧ axis[j] ≤ r.e then 1 else 0) := by
        unfold SAxis.getMask
        rw [List.getElem?_map, List.getElem?_eq_getElem hj1]; rfl
      have hej := h0 _ (List.getElem_mem hj2)
      refine ⟨some (accOf (samplesIn (axis.take (j + 1)) (flux.take (j + 1)) (err.take (j + 1)) r)), ?_, rfl⟩
      unfold accBody
      rw [Res.at_of_lt hj2, Res.bind_ok, Res.at_eq_ok.2 hm, Res.bind_ok, Res.at_of_lt hj3, Res.bind_ok, if_neg (by simpa using hej), hst]
      rw [samplesIn_take axis flux err r j _ _ _ (List.getElem?_eq_getElem hj1) (List.getElem?_eq_getElem hj3) (List.getElem?_eq_getElem hj2)]
      simp only [Option.map_some]
      by_cases hr : r.b ≤ axis[j] ∧ axis[j] ≤ r.e
      · simp only [if_pos hr, accOf, mom, List.map_append, List.sum_append, List.map_cons, List.map_nil, List.sum_cons, List.sum_nil]
        congr 3 <;> push_cast <;> ring
      · simp only [if_neg hr, List.append_nil]
        simp [accOf])
  obtain ⟨s, h1, h2⟩ := H
  rw [h1, h2]
  rw [Nat.zero_add, List.take_of_length_le (by omega), List.take_of_length_le (by omega), List.take_of_length_le (by omega)]

theorem fold_null (mask : List Nat) (flux err : List K) (hm : mask.length = flux.length) (he : err.length = flux.length) (h0 : ∃ e ∈ err, e = 0) :
    Res.foldN (accBody mask flux err) 0 flux.length (some ⟨0, 0, 0, 0⟩) = .ok none := by
  obtain ⟨e, h0, rfl⟩ := h0
  obtain ⟨k, hk, hek⟩ := List.getElem_of_mem h0
  have H := Res.foldN_inv (f := accBody mask flux err) (fun j st => k < j → st = none) flux.length 0 (some ⟨0, 0, 0, 0⟩) (by omega) (by
    intro j st _ hj hst
    have hj1 : j < mask.length := by omega
    have hj2 : j < err.length := by omega
    have hj3 : j < flux.length := by omega
    unfold accBody
    rw [Res.at_of_lt hj2, Res.bind_ok, Res.at_of_lt hj1, Res.bind_ok, Res.at_of_lt hj3, Res.bind_ok]
    refine ⟨_, rfl, fun hkj => ?_⟩
    rcases Nat.eq_or_lt_of_le (Nat.lt_succ_iff.1 hkj) with e | e
    · subst e; rw [if_pos (by rw [hek]; ring)]
    · rw [hst e]; split <;> rfl)
  obtain ⟨s, h1, h2⟩ := H
  rw [h1, h2 (by omega)]

theorem samplesIn_err {axis flux err : List K} {r : Range K} (h0 : ∀ e ∈ err, e ≠ 0) : ∀ p ∈ samplesIn axis flux err r, p.e ≠ 0 := by
  intro p hp
  unfold samplesIn at hp
  obtain ⟨q, hq, rfl⟩ := List.mem_map.1 hp
  have := (List.mem_filter.1 hq).1
  exact h0 _ (List.of_mem_zip (List.of_mem_zip this).2).2

theorem accEnd_spec {sq : K → K} (hsq : TplFit.IsSqrt sq) {l : List (Pt K)} (he : ∀ p ∈ l, p.e ≠ 0) :
    (l = [] → accEnd sq (some (accOf l)) = (none, none)) ∧
    (l.length = 1 → ∃ m, IsMean l m ∧ accEnd sq (some (accOf l)) = (some m, none)) ∧
    (2 ≤ l.length → ∃ m s, IsMean l m ∧ IsSDev l m s ∧ accEnd sq (some (accOf l)) = (some m, some s)) := by
  have hmean : l ≠ [] → IsMean l ((mom l).y / (mom l).w) := by
    intro hl
    have hw := w_pos he hl
    have key : ∀ m', dist l 0 m' = dist l 0 ((mom l).y / (mom l).w) + (mom l).w * (m' - (mom l).y / (mom l).w) ^ 2 := by
      intro m'
      rw [dist_mom l he, dist_mom l he]
      field_simp
      ring
    refine ⟨fun m' => ?_, fun m' h => ?_⟩
    · rw [key m']
      have : 0 ≤ (mom l).w * (m' - (mom l).y / (mom l).w) ^ 2 := by positivity
      linarith
    · rw [key m'] at h
      have h1 : (mom l).w * (m' - (mom l).y / (mom l).w) ^ 2 = 0 := by linarith
      rcases mul_eq_zero.1 h1 with h | h
      · exact absurd h hw.ne'
      · have := pow_eq_zero_iff (two_ne_zero) |>.1 h
        linarith
  refine ⟨?_, ?_, ?_⟩
  · rintro rfl
    simp [accEnd, accOf, mom]
  · intro hl
    have hne : l ≠ [] := by rintro rfl; simp at hl
    have hw := w_pos he hne
    refine ⟨_, hmean hne, ?_⟩
    have hw' : 0 < (accOf l).w := hw
    unfold accEnd
    simp only []
    have h0' : (accOf l).w - (accOf l).w2 / (accOf l).w = 0 := ?_
    · rw [if_pos hw', if_pos h0']; rfl
    obtain ⟨p, rfl⟩ := List.length_eq_one_iff.1 hl
    have h0 := he p (by simp)
    simp only [accOf, mom, List.map_cons, List.map_nil, List.sum_cons, List.sum_nil, add_zero]
    field_simp
    ring
  · intro hl
    have hne : l ≠ [] := by rintro rfl; simp at hl
    have hw := w_pos he hne
    have hlt := sq_sum_lt (l.map fun p => 1 / (p.e * p.e)) (by
      intro w hw
      obtain ⟨p, hp, rfl⟩ := List.mem_map.1 hw
      exact one_div_pos.2 (mul_self_pos.2 (he p hp))) (by simpa using hl)
    rw [List.map_map] at hlt
    have hW : (l.map fun p => 1 / p.e ^ 2).sum = (mom l).w := by simp only [mom, pow_two]
    have hW2 : (l.map fun p => (1 / p.e ^ 2) ^ 2).sum = (l.map fun p => 1 / (p.e * p.e) * (1 / (p.e * p.e))).sum := by simp only [pow_two]
    have hlt' : (l.map fun p => 1 / (p.e * p.e) * (1 / (p.e * p.e))).sum < (mom l).w * (mom l).w := hlt
    set w2 := (l.map fun p => 1 / (p.e * p.e) * (1 / (p.e * p.e))).sum with hw2
    have hden : 0 < (mom l).w - w2 / (mom l).w := by
      rw [sub_pos, div_lt_iff₀ hw]; exact hlt'
    have hd := dist_mom l he 0 ((mom l).y / (mom l).w)
    have hd0 : 0 ≤ dist l 0 ((mom l).y / (mom l).w) := by
      unfold dist
      apply List.sum_nonneg
      intro v hv
      obtain ⟨q, -, rfl⟩ := List.mem_map.1 hv
      positivity
    have hnum : (mom l).yy - (mom l).y / (mom l).w * ((mom l).y / (mom l).w) * (mom l).w = dist l 0 ((mom l).y / (mom l).w) := by
      rw [hd]; field_simp; ring
    refine ⟨_, sq (dist l 0 ((mom l).y / (mom l).w) / ((mom l).w - w2 / (mom l).w)), hmean hne, ⟨?_, ?_, ?_⟩, ?_⟩
    · exact (hsq _ (div_nonneg hd0 hden.le)).1
    · rw [hW, hW2, pow_two]; linarith
    · rw [hW, hW2, pow_two, (hsq _ (div_nonneg hd0 hden.le)).2]
      have : (mom l).w ^ 2 - w2 = (mom l).w * ((mom l).w - w2 / (mom l).w) := by field_simp
      rw [this]
      have hd' := hden.ne'
      rw [mul_comm (mom l).w, ← mul_assoc, div_mul_cancel₀ _ hd']
      ring
    · have hw' : 0 < (accOf l).w := hw
      have hd' : ¬ ((accOf l).w - (accOf l).w2 / (accOf l).w = 0) := hden.ne'
      unfold accEnd
      simp only []
      rw [if_pos hw', if_neg hd', ← hnum]
      rfl

/-- **C168** The mean flux in a range of wavelengths that is in the spectrum is the weighted mean of the samples of the range, and the deviation the weighted deviation; with
one sample there is no deviation, without any there is nothing. -/
theorem C168_mean {sq : K → K} (hsq : TplFit.IsSqrt sq) (axis flux err : List K) (r : Range K) (hf : flux.length = axis.length) (he : err.length = axis.length)
    (h0 : ∀ e ∈ err, e ≠ 0) (hin : ¬ outside axis r) :
    ∃ m s, meanStdInRange sq axis flux err r = .ok (some (m, s)) ∧
      (samplesIn axis flux err r = [] → m = none ∧ s = none) ∧
      ((samplesIn axis flux err r).length = 1 → (∃ v, m = some v ∧ IsMean (samplesIn axis flux err r) v) ∧ s = none) ∧
      (2 ≤ (samplesIn axis flux err r).length → ∃ v d, m = some v ∧ s = some d ∧ IsMean (samplesIn axis flux err r) v ∧ IsSDev (samplesIn axis flux err r) v d) := by
  unfold meanStdInRange meanSDev
  rw [if_neg hin, if_neg (by rw [(SAxis.C36_getMask axis r).1]; omega), fold_acc axis flux err r hf he h0]
  obtain ⟨a1, a2, a3⟩ := accEnd_spec hsq (samplesIn_err (axis := axis) (flux := flux) (r := r) h0)
  rw [Res.bind_ok, Res.bind_ok]
  generalize accEnd sq (some (accOf (samplesIn axis flux err r))) = A at *
  refine ⟨A.1, A.2, rfl, fun h => ?_, fun h => ?_, fun h => ?_⟩
  · rw [a1 h]; exact ⟨rfl, rfl⟩
  · obtain ⟨m, m1, m2⟩ := a2 h
    rw [m2]; exact ⟨⟨m, rfl, m1⟩, rfl⟩
  · obtain ⟨m, s, m1, m2, m3⟩ := a3 h
    rw [m3]; exact ⟨m, s, rfl, rfl, m1, m2⟩

/-- **C168** A null error anywhere in the spectrum, also out of the range, makes the mean and the deviation NaN. -/
theorem C168_null_error {sq : K → K} (axis flux err : List K) (r : Range K) (hf : flux.length = axis.length) (he : err.length = axis.length)
    (h0 : ∃ e ∈ err, e = 0) (hin : ¬ outside axis r) : meanStdInRange sq axis flux err r = .ok (some (none, none)) := by
  unfold meanStdInRange meanSDev
  rw [if_neg hin, if_neg (by rw [(SAxis.C36_getMask axis r).1]; omega), fold_null _ flux err (by rw [(SAxis.C36_getMask axis r).1]; omega) (by omega) h0]
  rfl

/-- **C168, sizes.** A flux that has not one value for each wavelength is refused. -/
theorem C168_sizes {sq : K → K} (axis flux err : List K) (r : Range K) (hf : flux.length ≠ axis.length) (hin : ¬ outside axis r) :
    meanStdInRange sq axis flux err r = .throw .INTERNAL_ERROR := by
  unfold meanStdInRange meanSDev
  rw [if_neg hin, if_pos (by rw [(SAxis.C36_getMask axis r).1]; exact fun e => hf e.symm)]
  rfl

/-! ## Regression -/

theorem wlinear_spec {l : List (Pt K)} (he : ∀ p ∈ l, p.e ≠ 0) :
    ((∃ p ∈ l, ∃ q ∈ l, p.x ≠ q.x) → ∃ a c, wlinear l = some (a, c) ∧ IsReg l a c) ∧ ((∀ p ∈ l, ∀ q ∈ l, p.x = q.x) → wlinear l = none) := by
  have hany : l.any (fun p => decide (p.e = 0)) = false := by
    rw [List.any_eq_false]
    intro p hp
    simpa using he p hp
  set u := (mom l).x / (mom l).w with hu
  set v := (mom l).y / (mom l).w with hv
  have hterm : ∀ t ∈ l.map (fun p => 1 / (p.e * p.e) * ((p.x - u) * (p.x - u))), 0 ≤ t := by
    intro t ht
    obtain ⟨q, -, rfl⟩ := List.mem_map.1 ht
    exact mul_nonneg (one_div_nonneg.2 (mul_self_nonneg _)) (mul_self_nonneg _)
  have hform : wlinear l = if (l.map fun p => 1 / (p.e * p.e) * ((p.x - u) * (p.x - u))).sum = 0 then none
      else some ((l.map fun p => 1 / (p.e * p.e) * ((p.x - u) * (p.y - v))).sum / (l.map fun p => 1 / (p.e * p.e) * ((p.x - u) * (p.x - u))).sum,
        v - (l.map fun p => 1 / (p.e * p.e) * ((p.x - u) * (p.y - v))).sum / (l.map fun p => 1 / (p.e * p.e) * ((p.x - u) * (p.x - u))).sum * u) := by
    unfold wlinear
    simp only [hany, Bool.false_eq_true, false_or]
    rfl
  refine ⟨?_, ?_⟩
  · rintro ⟨p, hp, q, hq, hpq⟩
    have hw := w_pos he (List.ne_nil_of_mem hp)
    have hne : (l.map fun p => 1 / (p.e * p.e) * ((p.x - u) * (p.x - u))).sum ≠ 0 := by
      intro hz
      have hall : ∀ p ∈ l, p.x = u := by
        intro p hp
        have h1 := List.single_le_sum hterm _ (List.mem_map.2 ⟨p, hp, rfl⟩)
        rw [hz] at h1
        have h2 := hterm _ (List.mem_map.2 ⟨p, hp, rfl⟩)
        have h3 := le_antisymm h1 h2
        rcases mul_eq_zero.1 h3 with h | h
        · exact absurd h (one_div_pos.2 (mul_self_pos.2 (he p hp))).ne'
        · have := mul_self_eq_zero.1 h
          linarith
      exact hpq (by rw [hall p hp, hall q hq])
    have hpos : 0 < (l.map fun p => 1 / (p.e * p.e) * ((p.x - u) * (p.x - u))).sum := lt_of_le_of_ne (List.sum_nonneg hterm) (Ne.symm hne)
    rw [hform, if_neg hne]
    refine ⟨_, _, rfl, ?_⟩
    rw [sxx_mom] at hpos hne ⊢
    rw [sxy_mom]
    have eu : u * (mom l).w = (mom l).x := by rw [hu]; field_simp
    have ev : v * (mom l).w = (mom l).y := by rw [hv]; field_simp
    set M := mom l with hM
    have e1 : M.xx - 2 * u * M.x + u * u * M.w = M.xx - u * u * M.w := by rw [← eu]; ring
    have e2 : M.xy - v * M.x - u * M.y + u * v * M.w = M.xy - u * v * M.w := by rw [← eu, ← ev]; ring
    rw [e1] at hpos hne ⊢
    rw [e2]
    set sxx := M.xx - u * u * M.w with hsxx
    set a := (M.xy - u * v * M.w) / sxx with ha
    have ea : a * sxx = M.xy - u * v * M.w := by rw [ha]; field_simp
    have key : ∀ a' c', dist l a' c' = dist l a (v - a * u) + sxx * (a' - a) ^ 2 + M.w * ((c' - (v - a * u)) + u * (a' - a)) ^ 2 := by
      intro a' c'
      rw [dist_mom l he, dist_mom l he, ← hM, ← eu, ← ev]
      have e3 : M.xy = a * sxx + u * v * M.w := by linarith
      have e4 : M.xx = sxx + u * u * M.w := by rw [hsxx]; ring
      rw [e3, e4]
      ring
    refine ⟨fun a' c' => ?_, fun a' c' h => ?_⟩
    · rw [key a' c']
      have h1 : 0 ≤ sxx * (a' - a) ^ 2 := mul_nonneg hpos.le (sq_nonneg _)
      have h2 : 0 ≤ M.w * ((c' - (v - a * u)) + u * (a' - a)) ^ 2 := mul_nonneg hw.le (sq_nonneg _)
      linarith
    · rw [key a' c'] at h
      have h1 : 0 ≤ sxx * (a' - a) ^ 2 := mul_nonneg hpos.le (sq_nonneg _)
      have h2 : 0 ≤ M.w * ((c' - (v - a * u)) + u * (a' - a)) ^ 2 := mul_nonneg hw.le (sq_nonneg _)
      have h3 : sxx * (a' - a) ^ 2 = 0 := by linarith
      have h4 : M.w * ((c' - (v - a * u)) + u * (a' - a)) ^ 2 = 0 := by linarith
      have h5 : a' - a = 0 := by
        rcases mul_eq_zero.1 h3 with h | h
        · exact absurd h hne
        · exact pow_eq_zero_iff (two_ne_zero) |>.1 h
      have h6 : (c' - (v - a * u)) + u * (a' - a) = 0 := by
        rcases mul_eq_zero.1 h4 with h | h
        · exact absurd h hw.ne'
        · exact pow_eq_zero_iff (two_ne_zero) |>.1 h
      rw [h5, mul_zero, add_zero] at h6
      exact ⟨by linarith, by linarith⟩
  · intro hall
    rw [hform, if_pos]
    apply List.sum_eq_zero
    intro t ht
    obtain ⟨p, hp, rfl⟩ := List.mem_map.1 ht
    have hw := w_pos he (List.ne_nil_of_mem hp)
    have : u = p.x := by
      rw [hu, div_eq_iff hw.ne']
      simp only [mom]
      rw [← List.sum_map_mul_left]
      congr 1
      apply List.map_congr_left
      intro q hq
      rw [hall q hq p hp]
      ring
    rw [this]; ring

/-- **C168** The regression in a range that is in the spectrum is on consecutive samples: from the first sample of the range to the first one at or after its end, which
may be beyond the range. With two samples or more it is the line nearest to them, with one there is none. -/
theorem C168_regression (axis flux err : List K) (hs : axis.Pairwise (· < ·)) (hne : axis ≠ []) (r : Range K) (hr : r.b ≤ r.e) (hf : flux.length = axis.length)
    (he : err.length = axis.length) (h0 : ∀ e ∈ err, e ≠ 0) (hin : ¬ outside axis r) :
    ∃ p, linReg axis flux err r = .ok (some p) ∧ RegOf axis flux err r p := by
  obtain ⟨i, hi, a1, a2, a3⟩ := SAxis.C36_indexAt axis hs hne r.b
  obtain ⟨j, hj, b1, b2, b3⟩ := SAxis.C36_indexAt axis hs hne r.e
  obtain ⟨i', j', c1, c2, c3⟩ := SAxis.C36_indexesAt axis hs hne r hr
  have hij : i' = i ∧ j' = j := by
    unfold SAxis.indexesAt at c1
    rw [a1, Res.bind_ok, b1, Res.bind_ok] at c1
    cases c1; exact ⟨rfl, rfl⟩
  obtain ⟨rfl, rfl⟩ := hij
  let g : Nat → Pt K := fun k => ⟨axis.getD (k + i') 0, flux.getD (k + i') 0, err.getD (k + i') 0⟩
  have hg : ∀ k : Nat, k < j' - i' + 1 → ∃ x y e, axis[i' + k]? = some x ∧ flux[i' + k]? = some y ∧ err[i' + k]? = some e ∧ g k = ⟨x, y, e⟩ := by
    intro k hk
    have k1 : i' + k < axis.length := by omega
    have k2 : i' + k < flux.length := by omega
    have k3 : i' + k < err.length := by omega
    refine ⟨_, _, _, List.getElem?_eq_getElem k1, List.getElem?_eq_getElem k2, List.getElem?_eq_getElem k3, ?_⟩
    simp only [g, List.getD_eq_getElem?_getD, Nat.add_comm k i', List.getElem?_eq_getElem k1, List.getElem?_eq_getElem k2, List.getElem?_eq_getElem k3, Option.getD_some]
  have htab := Res.tab_ok (g := fun k => Res.at_ err (k + i') >>= fun e => Res.at_ axis (k + i') >>= fun x => Res.at_ flux (k + i') >>= fun y => .ok (⟨x, y, e⟩ : Pt K))
    (h := g) (j' - i' + 1) (by
      intro k hk
      obtain ⟨x, y, e, h1, h2, h3, h4⟩ := hg k hk
      rw [Nat.add_comm] at h1 h2 h3
      rw [Res.at_eq_ok.2 h3, Res.bind_ok, Res.at_eq_ok.2 h1, Res.bind_ok, Res.at_eq_ok.2 h2, Res.bind_ok, h4])
  have hel : ∀ p ∈ (List.range (j' - i' + 1)).map g, p.e ≠ 0 := by
    intro p hp
    obtain ⟨k, hk, rfl⟩ := List.mem_map.1 hp
    obtain ⟨x, y, e, h1, h2, h3, h4⟩ := hg k (List.mem_range.1 hk)
    rw [h4]
    exact h0 e (List.mem_of_getElem? h3)
  obtain ⟨w1, w2⟩ := wlinear_spec hel
  refine ⟨wlinear ((List.range (j' - i' + 1)).map g), ?_, i', j', (List.range (j' - i' + 1)).map g, c2, c3, by simp; omega, ?_, ?_, ?_, ?_, ?_, ?_⟩
  · unfold linReg
    rw [if_neg hin, c1, Res.bind_ok, if_neg (by simp only; omega)]
    simp only []
    rw [htab, Res.bind_ok]
  · intro k hk
    obtain ⟨x, y, e, h1, h2, h3, h4⟩ := hg k (by omega)
    refine ⟨x, y, e, h1, h2, h3, ?_⟩
    rw [List.getElem?_map, List.getElem?_range (by omega), Option.map_some, h4]
  · intro k x hx
    obtain ⟨hk, rfl⟩ := List.getElem?_eq_some_iff.1 hx
    exact ⟨a2 k hk, b2 k hk⟩
  · intro x hx
    obtain ⟨hk, rfl⟩ := List.getElem?_eq_some_iff.1 hx
    rcases a3 with h | h
    · exact .inl h
    · exact .inr ⟨h.1, h.2 _ (List.getElem_mem _)⟩
  · intro x hx
    obtain ⟨hk, rfl⟩ := List.getElem?_eq_some_iff.1 hx
    rcases b3 with h | h
    · exact .inl h
    · exact .inr ⟨h.1, h.2 _ (List.getElem_mem _)⟩
  · intro hlt
    apply w1
    refine ⟨g 0, List.mem_map.2 ⟨0, by simp, rfl⟩, g 1, List.mem_map.2 ⟨1, by rw [List.mem_range]; omega, rfl⟩, ?_⟩
    obtain ⟨x, y, e, h1, h2, h3, h4⟩ := hg 0 (by omega)
    obtain ⟨x', y', e', h1', h2', h3', h4'⟩ := hg 1 (by omega)
    rw [h4, h4']
    obtain ⟨k1, rfl⟩ := List.getElem?_eq_some_iff.1 h1
    obtain ⟨k2, rfl⟩ := List.getElem?_eq_some_iff.1 h1'
    exact (List.pairwise_iff_getElem.1 hs _ _ k1 k2 (by omega)).ne
  · intro heq
    apply w2
    have : j' - i' + 1 = 1 := by omega
    rw [this]
    intro p hp q hq
    simp only [List.range_one, List.map_cons, List.map_nil, List.mem_singleton] at hp hq
    rw [hp, hq]

/-! ## The indexes -/

theorem magnitude_spec (lg : K → K) (u v : Option K) : IsMag lg u v (magnitude lg u v) := by
  refine ⟨?_, ?_, ?_⟩
  · rintro x y rfl rfl hx hy
    simp only [magnitude]
    rw [if_pos ⟨hy, hx⟩]
  · rintro x y rfl rfl hx hy
    simp only [magnitude]
    rw [if_neg (fun h => absurd h.1 (not_lt.2 hy)), if_pos ⟨hy, hx⟩]
  · rintro (rfl | rfl | ⟨x, rfl, hx⟩)
    · cases v <;> rfl
    · cases u <;> rfl
    · cases v with
      | none => rfl
      | some y =>
        simp only [magnitude]
        rw [if_neg (fun h => absurd h.2 (not_lt.2 hx)), if_neg (fun h => absurd h.2 (not_lt.2 hx))]

theorem meanOf_ok {sq : K → K} (hsq : TplFit.IsSqrt sq) (axis flux err : List K) (r : Range K) (hf : flux.length = axis.length) (he : err.length = axis.length)
    (h0 : ∀ e ∈ err, e ≠ 0) : ∃ p, meanStdInRange sq axis flux err r = .ok p ∧ MeanOf axis flux err r (p.bind (·.1)) := by
  by_cases hin : outside axis r
  · refine ⟨none, by unfold meanStdInRange; rw [if_pos hin], ?_⟩
    unfold MeanOf
    rw [if_pos (.inl hin)]; rfl
  · obtain ⟨m, s, h1, h2, h3, h4⟩ := C168_mean hsq axis flux err r hf he h0 hin
    refine ⟨_, h1, ?_⟩
    unfold MeanOf
    show if _ then m = none else ∃ v, m = some v ∧ _
    by_cases hl : samplesIn axis flux err r = []
    · rw [if_pos (.inr hl)]; exact (h2 hl).1
    · rw [if_neg (by tauto)]
      have hpos : 0 < (samplesIn axis flux err r).length := List.length_pos_iff.2 hl
      rcases Nat.eq_or_lt_of_le (Nat.succ_le_of_lt hpos) with h | h
      · exact (h3 h.symm).1
      · obtain ⟨v, d, e1, -, e2, -⟩ := h4 h
        exact ⟨v, e1, e2⟩

/-- **C168** The indexes of a spectrum at a redshift: there are six; the colour of each is the magnitude of the mean flux in its first range with respect to that in the
second, and its break the magnitude of the mean flux in the second range with respect to the regression in the first one taken at the middle of the second. -/
theorem C168_indexes {sq lg : K → K} (hsq : TplFit.IsSqrt sq) (axis flux err : List K) (hs : axis.Pairwise (· < ·)) (hne : axis ≠ []) (hf : flux.length = axis.length)
    (he : err.length = axis.length) (h0 : ∀ e ∈ err, e ≠ 0) (z : K) (hz : -1 < z) :
    ∃ l, getIndexes sq lg axis flux err z = .ok l ∧ l.length = 6 ∧ ∀ (i : Nat) (a0 a1 b0 b1 : K), theBands[i]? = some ((a0, a1), (b0, b1)) →
      ∃ x fa fb reg, l[i]? = some x ∧ MeanOf axis flux err ⟨a0 * (1 + z), a1 * (1 + z)⟩ fa ∧ MeanOf axis flux err ⟨b0 * (1 + z), b1 * (1 + z)⟩ fb ∧
        (if outside axis ⟨a0 * (1 + z), a1 * (1 + z)⟩ then reg = none else RegOf axis flux err ⟨a0 * (1 + z), a1 * (1 + z)⟩ reg) ∧
        IsMag lg fa fb x.color ∧ IsMag lg fb (reg.map fun p => p.1 * ((b0 + b1) / 2 * (1 + z)) + p.2) x.brk := by
  have one : ∀ p : Range K × Range K, p.1.b ≤ p.1.e → ∃ x fa fb reg, index sq lg axis flux err z p.1 p.2 = .ok x ∧
      MeanOf axis flux err ⟨p.1.b * (1 + z), p.1.e * (1 + z)⟩ fa ∧ MeanOf axis flux err ⟨p.2.b * (1 + z), p.2.e * (1 + z)⟩ fb ∧
        (if outside axis ⟨p.1.b * (1 + z), p.1.e * (1 + z)⟩ then reg = none else RegOf axis flux err ⟨p.1.b * (1 + z), p.1.e * (1 + z)⟩ reg) ∧
        IsMag lg fa fb x.color ∧ IsMag lg fb (reg.map fun q => q.1 * ((p.2.b + p.2.e) / 2 * (1 + z)) + q.2) x.brk := by
    intro p hp
    have hc : ∀ w : K, w * (1 + z) = w * (z + 1) := fun w => by ring
    obtain ⟨fa, a1, a2⟩ := meanOf_ok hsq axis flux err ⟨p.1.b * (1 + z), p.1.e * (1 + z)⟩ hf he h0
    obtain ⟨fb, b1, b2⟩ := meanOf_ok hsq axis flux err ⟨p.2.b * (1 + z), p.2.e * (1 + z)⟩ hf he h0
    have hreg : ∃ reg, linReg axis flux err ⟨p.1.b * (1 + z), p.1.e * (1 + z)⟩ = .ok reg ∧ (if outside axis ⟨p.1.b * (1 + z), p.1.e * (1 + z)⟩ then reg.bind id = none
        else RegOf axis flux err ⟨p.1.b * (1 + z), p.1.e * (1 + z)⟩ (reg.bind id)) := by
      by_cases ho : outside axis ⟨p.1.b * (1 + z), p.1.e * (1 + z)⟩
      · refine ⟨none, by unfold linReg; rw [if_pos ho], ?_⟩
        rw [if_pos ho]; rfl
      · obtain ⟨q, q1, q2⟩ := C168_regression axis flux err hs hne ⟨p.1.b * (1 + z), p.1.e * (1 + z)⟩ (mul_le_mul_of_nonneg_right hp (by linarith)) hf he h0 ho
        exact ⟨_, q1, by rw [if_neg ho]; exact q2⟩
    obtain ⟨reg, r1, r2⟩ := hreg
    refine ⟨⟨magnitude lg (fa.bind (·.1)) (fb.bind (·.1)), magnitude lg (fb.bind (·.1)) (atCenter reg ⟨p.2.b * (1 + z), p.2.e * (1 + z)⟩)⟩, _, _, reg.bind id, ?_, a2, b2, r2,
      magnitude_spec _ _ _, ?_⟩
    · unfold index
      simp only []
      rw [hc, hc] at a1 b1 r1
      rw [a1, Res.bind_ok, b1, Res.bind_ok, r1, Res.bind_ok, hc, hc]
    · have : (reg.bind id).map (fun q : K × K => q.1 * ((p.2.b + p.2.e) / 2 * (1 + z)) + q.2) = atCenter reg ⟨p.2.b * (1 + z), p.2.e * (1 + z)⟩ := by
        unfold atCenter
        cases reg with
        | none => rfl
        | some q =>
          cases q with
          | none => rfl
          | some q =>
            simp only [Option.bind_some, id, Option.map_some]
            congr 1
            ring
      rw [this]
      exact magnitude_spec _ _ _
  have hb : ∀ p ∈ (bands : List (Range K × Range K)), p.1.b ≤ p.1.e := by
    intro p hp
    simp only [bands, List.mem_cons, List.not_mem_nil, or_false] at hp
    rcases hp with rfl | rfl | rfl | rfl | rfl | rfl <;> norm_num
  have hlen : (bands : List (Range K × Range K)).length = 6 := rfl
  have htab : ∃ l, getIndexes sq lg axis flux err z = .ok l := by
    unfold getIndexes
    let g : Nat → Index K := fun i => if h : i < (bands : List (Range K × Range K)).length then (one _ (hb _ (List.getElem_mem h))).choose else ⟨none, none⟩
    refine ⟨_, Res.tab_ok (h := g) _ fun i hi => ?_⟩
    rw [Res.at_of_lt hi, Res.bind_ok]
    obtain ⟨fa, fb, reg, h1, -⟩ := (one _ (hb _ (List.getElem_mem hi))).choose_spec
    rw [h1]
    simp only [g, dif_pos hi]
  obtain ⟨l, hl⟩ := htab
  refine ⟨l, hl, by unfold getIndexes at hl; rw [Res.tab_length _ hl, hlen], fun i a0 a1 b0 b1 hi => ?_⟩
  have hbi : (bands : List (Range K × Range K))[i]? = some (⟨a0, a1⟩, ⟨b0, b1⟩) := by
    have : (bands : List (Range K × Range K)) = theBands.map fun p => (⟨p.1.1, p.1.2⟩, ⟨p.2.1, p.2.2⟩) := by
      simp only [bands, theBands, List.map_cons, List.map_nil]
      norm_num
    rw [this, List.getElem?_map, hi]; rfl
  obtain ⟨hi', hbe⟩ := List.getElem?_eq_some_iff.1 hbi
  unfold getIndexes at hl
  obtain ⟨x, x1, x2⟩ := Res.tab_get _ hl i hi'
  rw [Res.at_eq_ok.2 hbi, Res.bind_ok] at x2
  obtain ⟨x', fa, fb, reg, h1, h2⟩ := one (⟨a0, a1⟩, ⟨b0, b1⟩) (hb _ (List.mem_of_getElem? hbi))
  rw [x2] at h1
  cases h1
  exact ⟨x, fa, fb, reg, x1, h2⟩

/-- All the samples of a spectrum. -/
def allPts (axis flux err : List K) : List (Pt K) := (axis.zip (flux.zip err)).map fun p => ⟨p.1, p.2.1, p.2.2⟩

theorem own_range {sq : K → K} (hsq : TplFit.IsSqrt sq) {axis flux err : List K} (hs : axis.Pairwise (· < ·)) (h2 : 2 ≤ axis.length) (hf : flux.length = axis.length)
    (he : err.length = axis.length) (h0 : ∀ e ∈ err, e ≠ 0) :
    ∃ m s, meanStdInRange sq axis flux err (SAxis.lambdaRange axis) = .ok (some (some m, some s)) ∧ IsMean (allPts axis flux err) m ∧ IsSDev (allPts axis flux err) m s := by
  have hin : ¬ outside axis (SAxis.lambdaRange axis) := by unfold outside; simp
  have hall : samplesIn axis flux err (SAxis.lambdaRange axis) = allPts axis flux err := by
    unfold samplesIn allPts
    rw [List.filter_eq_self.2]
    intro p hp
    obtain ⟨k, hk, hx⟩ := List.getElem_of_mem (List.of_mem_zip hp).1
    have hr : SAxis.lambdaRange axis = ⟨axis[0], axis[axis.length - 1]⟩ := by unfold SAxis.lambdaRange; rw [dif_neg (by omega)]
    rw [hr, ← hx, decide_eq_true_eq]
    have hle := pairwise_le_of_lt hs
    refine ⟨?_, ?_⟩
    · rcases Nat.eq_zero_or_pos k with h | h
      · subst h; exact le_rfl
      · exact List.pairwise_iff_getElem.1 hle _ _ (by omega) hk h
    · rcases Nat.lt_or_ge k (axis.length - 1) with h | h
      · exact List.pairwise_iff_getElem.1 hle _ _ hk (by omega) h
      · have : k = axis.length - 1 := by omega
        subst this; exact le_rfl
  obtain ⟨m, s, h1, -, -, h4⟩ := C168_mean hsq axis flux err (SAxis.lambdaRange axis) hf he h0 hin
  rw [hall] at h4
  obtain ⟨v, d, rfl, rfl, e1, e2⟩ := h4 (by unfold allPts; simp; omega)
  exact ⟨v, d, h1, e1, e2⟩

/-- **C168** The relevance of a continuum: the deviations of all the samples of the spectrum and of the continuum about their means. -/
theorem C168_relevance {sq : K → K} (hsq : TplFit.IsSqrt sq) {axis flux err caxis cflux cerr : List K} (hs : axis.Pairwise (· < ·)) (h2 : 2 ≤ axis.length)
    (hf : flux.length = axis.length) (he : err.length = axis.length) (h0 : ∀ e ∈ err, e ≠ 0) (cs : caxis.Pairwise (· < ·)) (c2 : 2 ≤ caxis.length)
    (cf : cflux.length = caxis.length) (ce : cerr.length = caxis.length) (c0 : ∀ e ∈ cerr, e ≠ 0) :
    ∃ s c, getRelevance sq axis flux err caxis cflux cerr = .ok (some s, some c) ∧ (∃ m, IsMean (allPts axis flux err) m ∧ IsSDev (allPts axis flux err) m s) ∧
      ∃ m, IsMean (allPts caxis cflux cerr) m ∧ IsSDev (allPts caxis cflux cerr) m c := by
  obtain ⟨m, s, a1, a2, a3⟩ := own_range hsq hs h2 hf he h0
  obtain ⟨m', s', b1, b2, b3⟩ := own_range hsq cs c2 cf ce c0
  refine ⟨s, s', ?_, ⟨m, a2, a3⟩, ⟨m', b2, b3⟩⟩
  unfold getRelevance
  rw [a1, Res.bind_ok, b1, Res.bind_ok]
  rfl

/-! ## The difference of two fluxes -/

/-- **C168** The root mean square of the difference of two fluxes of the same size; another size is refused. -/
theorem C168_rms {sq : K → K} (hsq : TplFit.IsSqrt sq) (l m : List K) :
    (m.length ≠ l.length → rmsDiff sq l m = .throw .INTERNAL_ERROR) ∧
    (m.length = l.length → ∃ v, rmsDiff sq l m = .ok v ∧ 0 ≤ v ∧ v ^ 2 * (l.length : K) = (List.zipWith (fun a b => (a - b) ^ 2) l m).sum) := by
  refine ⟨fun h => by unfold rmsDiff; rw [if_pos h], fun h => ?_⟩
  have H := Res.foldN_inv (f := rmsBody l m l.length) (fun j s => s * (l.length : K) = (List.zipWith (fun a b => (a - b) ^ 2) (l.take j) (m.take j)).sum) l.length 0 0
    (by simp) (by
      intro j s _ hj hs
      have hj1 : j < l.length := by omega
      have hj2 : j < m.length := by omega
      unfold rmsBody
      rw [Res.at_of_lt hj1, Res.bind_ok, Res.at_of_lt hj2, Res.bind_ok]
      refine ⟨_, rfl, ?_⟩
      rw [List.take_succ_eq_append_getElem hj1, List.take_succ_eq_append_getElem hj2, List.zipWith_append (by simp; omega), List.sum_append, ← hs]
      have hn : (l.length : K) ≠ 0 := by
        have : 0 < l.length := by omega
        exact_mod_cast this.ne'
      simp only [List.zipWith_cons_cons, List.zipWith_nil_right, List.sum_cons, List.sum_nil, add_zero]
      field_simp)
  obtain ⟨s, h1, h2⟩ := H
  rw [Nat.zero_add, List.take_of_length_le (le_refl _), List.take_of_length_le (by omega)] at h2
  have hnn : 0 ≤ (List.zipWith (fun a b => (a - b) ^ 2) l m).sum := by
    apply List.sum_nonneg
    intro v hv
    obtain ⟨i, hi, rfl⟩ := List.getElem_of_mem hv
    rw [List.getElem_zipWith]
    positivity
  have hs0 : 0 ≤ s := by
    by_contra hc
    rw [not_le] at hc
    rcases Nat.eq_zero_or_pos l.length with hl | hl
    · rw [hl] at h1
      cases h1
      exact lt_irrefl _ hc
    · have : (0 : K) < l.length := by exact_mod_cast hl
      nlinarith [mul_pos_of_neg_of_neg hc (neg_lt_zero.2 this)]
  refine ⟨sq s, by unfold rmsDiff; rw [if_neg (by simpa using h), h1, Res.bind_ok], (hsq s hs0).1, ?_⟩
  rw [pow_two, (hsq s hs0).2, h2]

/-! ## Cases -/

/-- Three samples, of which two in the range: mean 3/2; the regression takes the third sample, which is beyond the range. -/
example : meanStdInRange (fun x => x) ([1, 2, 4] : List ℚ) [1, 2, 4] [1, 1, 1] ⟨1, 3⟩ = .ok (some (some (3 / 2), some (1 / 2))) ∧
    SAxis.indexesAt ([1, 2, 4] : List ℚ) ⟨1, 3⟩ = .ok (0, 2) ∧ linReg ([1, 2, 4] : List ℚ) [1, 2, 4] [1, 1, 1] ⟨1, 3⟩ = .ok (some (some (1, 0))) := by
  decide +kernel

/-- A null error out of the range. -/
example : meanStdInRange (fun x => x) ([1, 2, 4] : List ℚ) [1, 2, 4] [1, 1, 0] ⟨1, 3⟩ = .ok (some (none, none)) := by decide +kernel

end ContIdx
end Amazed
