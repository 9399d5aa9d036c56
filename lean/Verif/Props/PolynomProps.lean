import Mathlib.Tactic.Ring
import Mathlib.Tactic.FieldSimp
import Mathlib.Tactic.Linarith
import Verif.Model.Polynom

set_option linter.unusedSectionVars false

/-! # C88: normalised polynomials -/

namespace Amazed
namespace Polynom

variable {K : Type} [Field K] [DecidableEq K]

/-- **C88, value.** The value of a normalised polynomial of centre `x0` and scale `s` at `x` is
`a0 + a1 u + a2 u²` with `u = (x - x0) / s`. -/
theorem C88_value (x0 s a0 a1 a2 x : K) (hs : s ≠ 0) :
    ∃ n, Norm.new x0 s a0 a1 a2 = .ok n ∧ n.value x = .ok (a0 + a1 * ((x - x0) / s) + a2 * ((x - x0) / s) ^ 2) := by
  refine ⟨⟨a0, a1, a2, -x0 / s, s⟩, by unfold Norm.new; rw [if_neg hs], ?_⟩
  unfold Norm.value
  simp only
  rw [if_neg hs]
  congr 1
  field_simp
  ring

/-- **C88, coefficients.** The plain coefficients define the same function as the normalised polynomial, everywhere. -/
theorem C88_coeffs (n : Norm K) (hs : n.scale ≠ 0) : ∃ p, n.getCoeffs = .ok p ∧ ∀ x, n.value x = .ok (p.value x) := by
  refine ⟨_, by unfold Norm.getCoeffs; rw [if_neg hs], ?_⟩
  intro x
  unfold Norm.value Poly.value
  simp only
  rw [if_neg hs]
  congr 1
  field_simp
  ring

/-- **C88, set then get.** Setting plain coefficients and reading them back gives the same ones, and the polynomial then
has their values; the centre and scale do not change. -/
theorem C88_set_get (n : Norm K) (p : Poly K) (hs : n.scale ≠ 0) :
    (n.setCoeffs p).getCoeffs = .ok p ∧ (∀ x, (n.setCoeffs p).value x = .ok (p.value x)) ∧
      (n.setCoeffs p).scale = n.scale ∧ (n.setCoeffs p).x0red = n.x0red := by
  obtain ⟨p0, p1, p2⟩ := p
  refine ⟨?_, ?_, rfl, rfl⟩
  · unfold Norm.getCoeffs Norm.setCoeffs
    simp only
    rw [if_neg hs]
    congr 2
    · ring
    · field_simp; ring
    · field_simp
  · intro x
    unfold Norm.value Norm.setCoeffs Poly.value
    simp only
    rw [if_neg hs]
    congr 1
    field_simp
    ring

/-- **C88, get then set.** Writing back the plain coefficients leaves the object as it was. -/
theorem C88_get_set (n : Norm K) (p : Poly K) (h : n.getCoeffs = .ok p) : n.setCoeffs p = n := by
  unfold Norm.getCoeffs at h
  split at h
  · cases h
  · next hs =>
    cases h
    obtain ⟨a0, a1, a2, r, s⟩ := n
    simp only at hs
    unfold Norm.setCoeffs
    simp only [Norm.mk.injEq]
    have e2 : a2 / (s * s) * s * s = a2 := by field_simp
    have e1 : (a1 + 2 * a2 * r) / s * s = a1 + 2 * a2 * r := by field_simp
    rw [e2, e1]
    exact ⟨by ring, by ring, rfl, trivial, trivial⟩

/-- **C88, gradient.** The value given with the gradient is the value, and the gradient has three components, each the
change of the value when the corresponding coefficient changes by one unit, in proportion, for the plain and the
normalised polynomials. -/
theorem C88_gradient (x t : K) :
    (∀ p : Poly K, ∃ g0 g1 g2, p.valueGrad x = (p.value x, [g0, g1, g2]) ∧ (⟨p.a0 + t, p.a1, p.a2⟩ : Poly K).value x = p.value x + t * g0 ∧
      (⟨p.a0, p.a1 + t, p.a2⟩ : Poly K).value x = p.value x + t * g1 ∧ (⟨p.a0, p.a1, p.a2 + t⟩ : Poly K).value x = p.value x + t * g2) ∧
    (∀ n : Norm K, n.scale ≠ 0 → ∃ v g0 g1 g2, n.value x = .ok v ∧ n.valueGrad x = .ok (v, [g0, g1, g2]) ∧ ({ n with a0 := n.a0 + t } : Norm K).value x = .ok (v + t * g0) ∧
      ({ n with a1 := n.a1 + t } : Norm K).value x = .ok (v + t * g1) ∧ ({ n with a2 := n.a2 + t } : Norm K).value x = .ok (v + t * g2)) := by
  refine ⟨?_, ?_⟩
  · intro p
    refine ⟨1, x, x * x, ?_, ?_, ?_, ?_⟩
    · unfold Poly.valueGrad Poly.value
      rw [Prod.mk.injEq]
      exact ⟨by ring, rfl⟩
    all_goals unfold Poly.value; ring
  · intro n hs
    refine ⟨n.a0 + n.a1 * (x / n.scale + n.x0red) + n.a2 * (x / n.scale + n.x0red) * (x / n.scale + n.x0red), 1, x / n.scale + n.x0red,
      (x / n.scale + n.x0red) * (x / n.scale + n.x0red), ?_, ?_, ?_, ?_, ?_⟩
    · unfold Norm.value; simp only; rw [if_neg hs]
    · unfold Norm.valueGrad; simp only; rw [if_neg hs]; congr 2; ring
    all_goals unfold Norm.value; simp only; rw [if_neg hs]; congr 1; ring

/-- **C88, from a vector.** Three coefficients at least are needed; the first three are taken. -/
theorem C88_of_list (l : List K) :
    (l.length < 3 → ofList l = .throw .INTERNAL_ERROR) ∧ (∀ a b c r, l = a :: b :: c :: r → ofList l = .ok ⟨a, b, c⟩) := by
  refine ⟨?_, ?_⟩
  · intro h
    unfold ofList
    rw [if_pos (by omega)]
  · rintro a b c r rfl
    unfold ofList
    rw [if_neg (by simp)]
    rfl

example : ∃ n : Norm ℚ, Norm.new 6500 100 1 2 3 = .ok n ∧ n.value 6600 = .ok 6 ∧ n.getCoeffs = .ok ⟨12546, -97 / 25, 3 / 10000⟩ :=
  ⟨⟨1, 2, 3, -65, 100⟩, by decide +kernel, by decide +kernel, by decide +kernel⟩

end Polynom
end Amazed
