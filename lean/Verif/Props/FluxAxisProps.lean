import Mathlib.Tactic.Linarith
import Mathlib.Tactic.Ring
import Mathlib.Tactic.NormNum
import Mathlib.Algebra.BigOperators.Group.List.Basic
import Verif.Model.FluxAxis
import Verif.Props.SpectralAxisProps

/-! # C39, C40, C51: correction and validation of the samples of a spectrum -/

set_option linter.unusedSectionVars false

namespace Amazed
namespace Flux

section
variable {K : Type} [Field K] [LinearOrder K] [IsStrictOrderedRing K]

/-- Specification: the error of a sample is a finite number not below `tiny`. -/
def NoiseOk (tiny : K) (err : List (Option K)) (i : Nat) : Prop := ∃ e, err[i]? = some (some e) ∧ tiny ≤ e

/-- Specification: the flux of a sample is finite. -/
def FluxOk (flux : List (Option K)) (i : Nat) : Prop := ∃ f, flux[i]? = some (some f)

/-- Specification: the sample is valid. -/
def SampleOk (tiny : K) (flux err : List (Option K)) (i : Nat) : Prop := NoiseOk tiny err i ∧ FluxOk flux i

theorem checkFlux_get {flux : List (Option K)} {i : Nat} (hi : i < flux.length) :
    ∃ v, Res.at_ (checkFlux flux) i = .ok v ∧ (v = true ↔ FluxOk flux i) := by
  refine ⟨flux[i].isSome, ?_, ?_⟩
  · rw [Res.at_eq_ok]; simp [checkFlux, hi]
  · unfold FluxOk
    rw [List.getElem?_eq_getElem hi, Option.isSome_iff_exists]
    constructor
    · rintro ⟨a, h⟩; exact ⟨a, by rw [h]⟩
    · rintro ⟨a, h⟩; exact ⟨a, by injection h⟩

theorem checkNoise_get {tiny : K} {err : List (Option K)} {i : Nat} (hi : i < err.length) :
    ∃ v, Res.at_ (checkNoise tiny err) i = .ok v ∧ (v = true ↔ NoiseOk tiny err i) := by
  refine ⟨match err[i] with | some v => decide (tiny ≤ v) | none => false, ?_, ?_⟩
  · rw [Res.at_eq_ok]; simp [checkNoise, hi]; rfl
  · unfold NoiseOk
    rw [List.getElem?_eq_getElem hi]
    cases h : err[i] with
    | none => simp
    | some v => simp

/-- What the first loop of the correction computes. -/
theorem scan_spec (tiny big : K) (flux err : List (Option K)) (iMin iMax : Nat) (hle : iMin ≤ iMax)
    (hf : iMax ≤ flux.length) (he : iMax ≤ err.length) (hbig : 0 < big) :
    ∃ mx mn, scan (checkNoise tiny err) (checkFlux flux) flux err iMin (iMax - iMin) (-big, big) = .ok (mx, mn) ∧
      0 ≤ mn ∧ mn ≤ big ∧
      (∀ (j : Nat) e f, iMin ≤ j → j < iMax → err[j]? = some (some e) → tiny ≤ e → flux[j]? = some (some f) →
        e ≤ mx ∧ mn ≤ |f|) ∧
      (mx = -big ∨ ∃ (j : Nat) (f : K), iMin ≤ j ∧ j < iMax ∧ err[j]? = some (some mx) ∧ tiny ≤ mx ∧ flux[j]? = some (some f)) ∧
      (mn = big ∨ ∃ (j : Nat) (e f : K), iMin ≤ j ∧ j < iMax ∧ err[j]? = some (some e) ∧ tiny ≤ e ∧ flux[j]? = some (some f) ∧
        mn = |f|) := by
  obtain ⟨⟨mx, mn⟩, h1, h2⟩ := Res.foldN_inv (f := fun i (s : K × K) =>
      Res.at_ (checkNoise tiny err) i >>= fun a => Res.at_ (checkFlux flux) i >>= fun b =>
      if !a || !b then .ok s
      else Res.at_ err i >>= fun e => Res.at_ flux i >>= fun f =>
        match e, f with
        | some e, some f => .ok (max s.1 e, min |f| |s.2|)
        | _, _ => .ub)
    (fun i s => 0 ≤ s.2 ∧ s.2 ≤ big ∧
      (∀ (j : Nat) e f, iMin ≤ j → j < i → err[j]? = some (some e) → tiny ≤ e → flux[j]? = some (some f) →
        e ≤ s.1 ∧ s.2 ≤ |f|) ∧
      (s.1 = -big ∨ ∃ (j : Nat) (f : K), iMin ≤ j ∧ j < i ∧ err[j]? = some (some s.1) ∧ tiny ≤ s.1 ∧ flux[j]? = some (some f)) ∧
      (s.2 = big ∨ ∃ (j : Nat) (e f : K), iMin ≤ j ∧ j < i ∧ err[j]? = some (some e) ∧ tiny ≤ e ∧ flux[j]? = some (some f) ∧
        s.2 = |f|))
    (iMax - iMin) iMin (-big, big)
    ⟨hbig.le, le_refl _, fun j e f h1 h2 => by omega, Or.inl rfl, Or.inl rfl⟩
    (by
      rintro i ⟨mx, mn⟩ hi1 hi2 ⟨p1, p2, p3, p4, p5⟩
      simp only at p1 p2 p3 p4 p5
      obtain ⟨a, ha, ha'⟩ := checkNoise_get (tiny := tiny) (err := err) (i := i) (by omega)
      obtain ⟨b, hb, hb'⟩ := checkFlux_get (flux := flux) (i := i) (by omega)
      rw [ha, Res.bind_ok, hb, Res.bind_ok]
      by_cases hv : a = true ∧ b = true
      · obtain ⟨e, he1, he2⟩ := ha'.1 hv.1
        obtain ⟨f, hf1⟩ := hb'.1 hv.2
        have e1 : Res.at_ err i = .ok (some e) := Res.at_eq_ok.2 he1
        have e2 : Res.at_ flux i = .ok (some f) := Res.at_eq_ok.2 hf1
        refine ⟨(max mx e, min |f| |mn|), ?_, ?_⟩
        · rw [if_neg (by simp [hv.1, hv.2]), e1, Res.bind_ok, e2, Res.bind_ok]
        · rw [abs_of_nonneg p1]
          refine ⟨le_min (abs_nonneg f) p1, le_trans (min_le_right _ _) p2, ?_, ?_, ?_⟩
          · intro j e' f' hj1 hj2 h1 h2 h3
            rcases Nat.lt_or_eq_of_le (Nat.le_of_lt_succ hj2) with h | h
            · obtain ⟨q1, q2⟩ := p3 j e' f' hj1 h h1 h2 h3
              exact ⟨le_trans q1 (le_max_left _ _), le_trans (min_le_right _ _) q2⟩
            · subst h
              rw [he1] at h1; cases h1
              rw [hf1] at h3; cases h3
              exact ⟨le_max_right _ _, min_le_left _ _⟩
          · simp only
            rcases le_total mx e with h | h
            · rw [max_eq_right h]
              exact Or.inr ⟨i, f, hi1, by omega, he1, he2, hf1⟩
            · rw [max_eq_left h]
              rcases p4 with p4 | ⟨j, f', q1, q2, q3⟩
              · exact Or.inl p4
              · exact Or.inr ⟨j, f', q1, by omega, q3⟩
          · simp only
            rcases le_total |f| mn with h | h
            · rw [min_eq_left h]
              exact Or.inr ⟨i, e, f, hi1, by omega, he1, he2, hf1, rfl⟩
            · rw [min_eq_right h]
              rcases p5 with p5 | ⟨j, e', f', q1, q2, q3⟩
              · exact Or.inl p5
              · exact Or.inr ⟨j, e', f', q1, by omega, q3⟩
      · have hno : ¬ (NoiseOk tiny err i ∧ FluxOk flux i) := fun h => hv ⟨ha'.2 h.1, hb'.2 h.2⟩
        refine ⟨(mx, mn), ?_, p1, p2, ?_, ?_, ?_⟩
        · rw [if_pos]
          cases a <;> cases b <;> simp_all
        · intro j e' f' hj1 hj2 h1 h2 h3
          rcases Nat.lt_or_eq_of_le (Nat.le_of_lt_succ hj2) with h | h
          · exact p3 j e' f' hj1 h h1 h2 h3
          · subst h
            exact absurd ⟨⟨e', h1, h2⟩, ⟨f', h3⟩⟩ hno
        · rcases p4 with p4 | ⟨j, f', q1, q2, q3⟩
          · exact Or.inl p4
          · exact Or.inr ⟨j, f', q1, by omega, q3⟩
        · rcases p5 with p5 | ⟨j, e', f', q1, q2, q3⟩
          · exact Or.inl p5
          · exact Or.inr ⟨j, e', f', q1, by omega, q3⟩)
  have hend : iMin + (iMax - iMin) = iMax := by omega
  rw [hend] at h2
  exact ⟨mx, mn, h1, h2⟩

open Classical in
/-- The second loop of the correction. -/
theorem fix_spec (tiny nf ne : K) (flux err : List (Option K)) (iMin iMax : Nat) (hle : iMin ≤ iMax)
    (hf : iMax ≤ flux.length) (he : iMax ≤ err.length) :
    ∃ c fl er, Res.foldN (fun i (s : Bool × List (Option K) × List (Option K)) =>
      Res.at_ (checkNoise tiny err) i >>= fun a => Res.at_ (checkFlux flux) i >>= fun b =>
      if a && b then .ok s else .ok (true, s.2.1.set i (some nf), s.2.2.set i (some ne)))
      iMin (iMax - iMin) (false, flux, err) = .ok (c, fl, er) ∧ fl.length = flux.length ∧ er.length = err.length ∧
      (c = true ↔ ∃ j, iMin ≤ j ∧ j < iMax ∧ ¬ SampleOk tiny flux err j) ∧
      ∀ (k : Nat), (iMin ≤ k ∧ k < iMax ∧ ¬ SampleOk tiny flux err k → fl[k]? = some (some nf) ∧ er[k]? = some (some ne)) ∧
        (¬ (iMin ≤ k ∧ k < iMax ∧ ¬ SampleOk tiny flux err k) → fl[k]? = flux[k]? ∧ er[k]? = err[k]?) := by
  obtain ⟨⟨c, fl, er⟩, h1, h2⟩ := Res.foldN_inv (f := fun i (s : Bool × List (Option K) × List (Option K)) =>
      Res.at_ (checkNoise tiny err) i >>= fun a => Res.at_ (checkFlux flux) i >>= fun b =>
      if a && b then .ok s else .ok (true, s.2.1.set i (some nf), s.2.2.set i (some ne)))
    (fun i s => s.2.1.length = flux.length ∧ s.2.2.length = err.length ∧
      (s.1 = true ↔ ∃ j, iMin ≤ j ∧ j < i ∧ ¬ SampleOk tiny flux err j) ∧
      ∀ (k : Nat), (iMin ≤ k ∧ k < i ∧ ¬ SampleOk tiny flux err k → s.2.1[k]? = some (some nf) ∧ s.2.2[k]? = some (some ne)) ∧
        (¬ (iMin ≤ k ∧ k < i ∧ ¬ SampleOk tiny flux err k) → s.2.1[k]? = flux[k]? ∧ s.2.2[k]? = err[k]?))
    (iMax - iMin) iMin (false, flux, err)
    ⟨rfl, rfl, by simp; intro j h1 h2; omega, fun k => ⟨fun h => by omega, fun _ => ⟨rfl, rfl⟩⟩⟩
    (by
      rintro i ⟨c, fl, er⟩ hi1 hi2 ⟨p1, p2, p3, p4⟩
      simp only at p1 p2 p3 p4
      obtain ⟨a, ha, ha'⟩ := checkNoise_get (tiny := tiny) (err := err) (i := i) (by omega)
      obtain ⟨b, hb, hb'⟩ := checkFlux_get (flux := flux) (i := i) (by omega)
      rw [ha, Res.bind_ok, hb, Res.bind_ok]
      by_cases hv : a = true ∧ b = true
      · have hok : SampleOk tiny flux err i := ⟨ha'.1 hv.1, hb'.1 hv.2⟩
        refine ⟨(c, fl, er), by rw [if_pos (by simp [hv.1, hv.2])], p1, p2, ?_, ?_⟩
        · simp only
          rw [p3]
          constructor
          · rintro ⟨j, q1, q2, q3⟩; exact ⟨j, q1, by omega, q3⟩
          · rintro ⟨j, q1, q2, q3⟩
            refine ⟨j, q1, ?_, q3⟩
            rcases Nat.lt_or_eq_of_le (Nat.le_of_lt_succ q2) with h | h
            · exact h
            · subst h; exact absurd hok q3
        · intro k
          simp only
          constructor
          · rintro ⟨q1, q2, q3⟩
            apply (p4 k).1
            refine ⟨q1, ?_, q3⟩
            rcases Nat.lt_or_eq_of_le (Nat.le_of_lt_succ q2) with h | h
            · exact h
            · subst h; exact absurd hok q3
          · intro hn
            apply (p4 k).2
            rintro ⟨q1, q2, q3⟩
            exact hn ⟨q1, by omega, q3⟩
      · have hno : ¬ SampleOk tiny flux err i := fun h => hv ⟨ha'.2 h.1, hb'.2 h.2⟩
        refine ⟨(true, fl.set i (some nf), er.set i (some ne)), ?_, by simpa using p1, by simpa using p2, ?_, ?_⟩
        · rw [if_neg (by simpa using hv)]
        · simp only [true_iff]
          exact ⟨i, hi1, by omega, hno⟩
        · intro k
          simp only
          by_cases hk : k = i
          · subst hk
            constructor
            · intro _
              constructor
              · rw [List.getElem?_set_self (by omega)]
              · rw [List.getElem?_set_self (by omega)]
            · intro hn
              exact absurd ⟨hi1, by omega, hno⟩ hn
          · rw [List.getElem?_set_ne (by omega), List.getElem?_set_ne (by omega)]
            constructor
            · rintro ⟨q1, q2, q3⟩
              exact (p4 k).1 ⟨q1, by omega, q3⟩
            · intro hn
              apply (p4 k).2
              rintro ⟨q1, q2, q3⟩
              exact hn ⟨q1, by omega, q3⟩)
  have hend : iMin + (iMax - iMin) = iMax := by omega
  rw [hend] at h2
  exact ⟨c, fl, er, h1, h2⟩

/-- **C39.** If the range contains a valid sample of flux below `big` (the largest number), the correction with a
coefficient of 1 or more succeeds: valid samples, and samples out of the range, are unchanged; all samples of the range
are valid; every invalid one gets the smallest absolute flux of the valid ones divided by the coefficient and the largest
noise of the valid ones times the coefficient; the return value tells whether there was an invalid sample. -/
theorem C39_correct (tiny big : K) (htiny : 0 < tiny) (hbig : 0 < big) (flux err : List (Option K)) (iMin iMax : Nat)
    (hle : iMin ≤ iMax) (hf : iMax ≤ flux.length) (he : iMax ≤ err.length) (coeff : K) (hco : 1 ≤ coeff)
    (hex : ∃ (j : Nat) (f : K), iMin ≤ j ∧ j < iMax ∧ NoiseOk tiny err j ∧ flux[j]? = some (some f) ∧ |f| < big) :
    ∃ c fl er, correct tiny big flux err iMin iMax coeff = .ok (c, fl, er) ∧
      fl.length = flux.length ∧ er.length = err.length ∧
      (c = true ↔ ∃ j, iMin ≤ j ∧ j < iMax ∧ ¬ SampleOk tiny flux err j) ∧
      (∀ (k : Nat), SampleOk tiny flux err k ∨ k < iMin ∨ iMax ≤ k → fl[k]? = flux[k]? ∧ er[k]? = err[k]?) ∧
      (∀ (k : Nat), iMin ≤ k → k < iMax → SampleOk tiny fl er k) ∧
      (∀ (k : Nat), iMin ≤ k → k < iMax → ¬ SampleOk tiny flux err k →
        ∃ (i : Nat) (e : K) (j : Nat) (f : K), iMin ≤ i ∧ i < iMax ∧ SampleOk tiny flux err i ∧ err[i]? = some (some e) ∧
          iMin ≤ j ∧ j < iMax ∧ SampleOk tiny flux err j ∧ flux[j]? = some (some f) ∧
          (∀ (m : Nat) e' f', iMin ≤ m → m < iMax → SampleOk tiny flux err m → err[m]? = some (some e') →
            flux[m]? = some (some f') → e' ≤ e ∧ |f| ≤ |f'|) ∧
          er[k]? = some (some (e * coeff)) ∧ fl[k]? = some (some (|f| / coeff))) := by
  obtain ⟨mx, mn, h1, h2, h3, h4, h5, h6⟩ := scan_spec tiny big flux err iMin iMax hle hf he hbig
  obtain ⟨j0, f0, hj1, hj2, ⟨e0, hj3, hj4⟩, hj5, hj6⟩ := hex
  have hmn : mn ≠ big := by
    have := (h4 j0 e0 f0 hj1 hj2 hj3 hj4 hj5).2
    exact (lt_of_le_of_lt this hj6).ne
  have hmx : mx ≠ -big := by
    have := (h4 j0 e0 f0 hj1 hj2 hj3 hj4 hj5).1
    intro h
    rw [h] at this
    linarith
  obtain ⟨i1, f1, hi1, hi2, hi3, hi4, hi5⟩ := h5.resolve_left hmx
  obtain ⟨i2, e2, f2, hi6, hi7, hi8, hi9, hi10, hi11⟩ := h6.resolve_left hmn
  have hco0 : coeff ≠ 0 := by intro h; rw [h] at hco; linarith
  obtain ⟨c, fl, er, g1, g2, g3, g4, g5⟩ := fix_spec tiny (mn / coeff) (mx * coeff) flux err iMin iMax hle hf he
  refine ⟨c, fl, er, ?_, g2, g3, g4, ?_, ?_, ?_⟩
  · unfold correct
    simp only
    rw [h1, Res.bind_ok]
    simp only
    rw [if_neg hmn, if_neg hmx, if_neg hco0]
    exact g1
  · intro k hk
    apply (g5 k).2
    rintro ⟨q1, q2, q3⟩
    rcases hk with h | h | h
    · exact q3 h
    · omega
    · omega
  · intro k q1 q2
    by_cases hok : SampleOk tiny flux err k
    · obtain ⟨a, b⟩ := (g5 k).2 (fun h => h.2.2 hok)
      obtain ⟨⟨e, h7, h8⟩, ⟨f, h9⟩⟩ := hok
      exact ⟨⟨e, by rw [b]; exact h7, h8⟩, ⟨f, by rw [a]; exact h9⟩⟩
    · obtain ⟨a, b⟩ := (g5 k).1 ⟨q1, q2, hok⟩
      refine ⟨⟨mx * coeff, b, ?_⟩, ⟨_, a⟩⟩
      have : mx ≤ mx * coeff := le_mul_of_one_le_right (by linarith) hco
      linarith
  · intro k q1 q2 hno
    obtain ⟨a, b⟩ := (g5 k).1 ⟨q1, q2, hno⟩
    refine ⟨i1, mx, i2, f2, hi1, hi2, ⟨⟨mx, hi3, hi4⟩, ⟨f1, hi5⟩⟩, hi3, hi6, hi7, ⟨⟨e2, hi8, hi9⟩, ⟨f2, hi10⟩⟩, hi10, ?_, b,
      by rw [← hi11]; exact a⟩
    intro m e' f' hm1 hm2 hm3 hm4 hm5
    obtain ⟨⟨e'', h7, h8⟩, _⟩ := hm3
    rw [hm4] at h7; cases h7
    rw [← hi11]
    exact h4 m e' f' hm1 hm2 hm4 h8 hm5

/-- **C39.** Without such a sample the correction fails. -/
theorem C39_fails (tiny big : K) (hbig : 0 < big) (flux err : List (Option K)) (iMin iMax : Nat)
    (hle : iMin ≤ iMax) (hf : iMax ≤ flux.length) (he : iMax ≤ err.length) (coeff : K)
    (hno : ¬ ∃ (j : Nat) (f : K), iMin ≤ j ∧ j < iMax ∧ NoiseOk tiny err j ∧ flux[j]? = some (some f) ∧ |f| < big) :
    correct tiny big flux err iMin iMax coeff = .throw .SPECTRUM_CORRECTION_ERROR := by
  obtain ⟨mx, mn, h1, h2, h3, h4, h5, h6⟩ := scan_spec tiny big flux err iMin iMax hle hf he hbig
  have hmn : mn = big := by
    by_contra hne
    obtain ⟨i2, e2, f2, hi6, hi7, hi8, hi9, hi10, hi11⟩ := h6.resolve_left hne
    exact hno ⟨i2, f2, hi6, hi7, ⟨e2, hi8, hi9⟩, hi10, by rw [← hi11]; exact lt_of_le_of_ne h3 hne⟩
  unfold correct
  simp only
  rw [h1, Res.bind_ok]
  simp only
  rw [if_pos hmn]

example : correct (1 / 100) 1000 [some 2, none, some (-4), some 1] [some 1, some 3, some 0, some 2] 0 3 (10 : ℚ) =
    .ok (true, [some 2, some (1 / 5), some (1 / 5), some 1], [some 1, some 10, some 10, some 2]) := by decide +kernel
example : correct (1 / 100) 1000 [none, some 1] [some 1, none] 0 2 (10 : ℚ) = .throw .SPECTRUM_CORRECTION_ERROR := by
  decide +kernel

/-! ## Validation (C40) -/

/-- The loop of `ValidateFlux`. -/
theorem fluxLoop_spec (flux : List (Option K)) (iMin iMax : Nat) (hle : iMin ≤ iMax) (hf : iMax ≤ flux.length) :
    ∃ n z, Res.foldN (fun i (s : Nat × Bool) =>
      Res.at_ (checkFlux flux) i >>= fun v => Res.at_ flux i >>= fun f =>
      Res.ok (if v then s.1 else s.1 + 1, if f = some 0 then s.2 else false)) iMin (iMax - iMin) (0, true) = .ok (n, z) ∧
      (n = 0 ↔ ∀ j, iMin ≤ j → j < iMax → FluxOk flux j) ∧
      (z = true ↔ ∀ (j : Nat), iMin ≤ j → j < iMax → flux[j]? = some (some 0)) := by
  obtain ⟨⟨n, z⟩, h1, h2⟩ := Res.foldN_inv (f := fun i (s : Nat × Bool) =>
      Res.at_ (checkFlux flux) i >>= fun v => Res.at_ flux i >>= fun f =>
      Res.ok (if v then s.1 else s.1 + 1, if f = some 0 then s.2 else false))
    (fun i s => (s.1 = 0 ↔ ∀ j, iMin ≤ j → j < i → FluxOk flux j) ∧
      (s.2 = true ↔ ∀ (j : Nat), iMin ≤ j → j < i → flux[j]? = some (some 0)))
    (iMax - iMin) iMin (0, true)
    ⟨by simp; intro j h1 h2; omega, by simp; intro j h1 h2; omega⟩
    (by
      rintro i ⟨n, z⟩ hi1 hi2 ⟨p1, p2⟩
      simp only at p1 p2
      have hi : i < flux.length := by omega
      obtain ⟨v, hv, hv'⟩ := checkFlux_get hi
      refine ⟨(if v then n else n + 1, if flux[i] = some 0 then z else false), ?_, ?_, ?_⟩
      · rw [hv, Res.bind_ok, Res.at_of_lt hi, Res.bind_ok]
      · simp only
        constructor
        · intro h j hj1 hj2
          cases hvv : v with
          | false => rw [hvv] at h; simp at h
          | true =>
            rw [hvv] at h
            rcases Nat.lt_or_eq_of_le (Nat.le_of_lt_succ hj2) with h3 | h3
            · exact p1.1 h j hj1 h3
            · subst h3; exact hv'.1 hvv
        · intro h
          have hvv : v = true := hv'.2 (h i hi1 (by omega))
          rw [if_pos hvv]
          exact p1.2 (fun j hj1 hj2 => h j hj1 (by omega))
      · simp only
        constructor
        · intro h j hj1 hj2
          by_cases hz : flux[i] = some 0
          · rw [if_pos hz] at h
            rcases Nat.lt_or_eq_of_le (Nat.le_of_lt_succ hj2) with h3 | h3
            · exact p2.1 h j hj1 h3
            · subst h3; rw [List.getElem?_eq_getElem hi, hz]
          · rw [if_neg hz] at h; simp at h
        · intro h
          have := h i hi1 (by omega)
          rw [List.getElem?_eq_getElem hi] at this
          rw [if_pos (by injection this)]
          exact p2.2 (fun j hj1 hj2 => h j hj1 (by omega)))
  have hend : iMin + (iMax - iMin) = iMax := by omega
  rw [hend] at h2
  exact ⟨n, z, h1, h2⟩

/-- The loop of `ValidateNoise`. -/
theorem noiseLoop_spec (tiny : K) (err : List (Option K)) (iMin iMax : Nat) (hle : iMin ≤ iMax) (he : iMax ≤ err.length) :
    ∃ n, Res.foldN (fun i (s : Nat) =>
      Res.at_ (checkNoise tiny err) i >>= fun v => Res.ok (if v then s else s + 1)) iMin (iMax - iMin) 0 = .ok n ∧
      (n = 0 ↔ ∀ j, iMin ≤ j → j < iMax → NoiseOk tiny err j) := by
  obtain ⟨n, h1, h2⟩ := Res.foldN_inv (f := fun i (s : Nat) =>
      Res.at_ (checkNoise tiny err) i >>= fun v => Res.ok (if v then s else s + 1))
    (fun i s => (s = 0 ↔ ∀ j, iMin ≤ j → j < i → NoiseOk tiny err j))
    (iMax - iMin) iMin 0
    (by simp; intro j h1 h2; omega)
    (by
      intro i n hi1 hi2 p1
      have hi : i < err.length := by omega
      obtain ⟨v, hv, hv'⟩ := checkNoise_get (tiny := tiny) hi
      refine ⟨if v then n else n + 1, by rw [hv, Res.bind_ok], ?_⟩
      constructor
      · intro h j hj1 hj2
        cases hvv : v with
        | false => rw [hvv] at h; simp at h
        | true =>
          rw [hvv] at h
          rcases Nat.lt_or_eq_of_le (Nat.le_of_lt_succ hj2) with h3 | h3
          · exact p1.1 h j hj1 h3
          · subst h3; exact hv'.1 hvv
      · intro h
        have hvv : v = true := hv'.2 (h i hi1 (by omega))
        rw [if_pos hvv]
        exact p1.2 (fun j hj1 hj2 => h j hj1 (by omega)))
  have hend : iMin + (iMax - iMin) = iMax := by omega
  rw [hend] at h2
  exact ⟨n, h1, h2⟩

/-- The samples that are looked at: those in `[lmin, lmax)` other than the last sample of the axis. -/
def Checked (xs : List K) (lmin lmax : K) (i : Nat) : Prop :=
  i + 1 < xs.length ∧ ∃ x, xs[i]? = some x ∧ lmin ≤ x ∧ x < lmax

theorem indexes_checked (xs : List K) (hs : SAxis.Increasing xs) (hne : xs ≠ []) (lmin lmax : K) (hl : lmin ≤ lmax) :
    ∃ i j, SAxis.indexAt xs lmin = .ok i ∧ SAxis.indexAt xs lmax = .ok j ∧ i ≤ j ∧ j < xs.length ∧
      ∀ k, (i ≤ k ∧ k < j) ↔ Checked xs lmin lmax k := by
  obtain ⟨i, hi, h1, h2, h3⟩ := SAxis.C36_indexAt xs hs hne lmin
  obtain ⟨j, hj, h4, h5, h6⟩ := SAxis.C36_indexAt xs hs hne lmax
  obtain ⟨i', j', h7, h8, h9⟩ := SAxis.C36_indexesAt xs hs hne ⟨lmin, lmax⟩ hl
  have hij : i ≤ j := by
    unfold SAxis.indexesAt at h7
    simp only at h7
    rw [h1, Res.bind_ok, h4, Res.bind_ok] at h7
    cases h7
    exact h8
  refine ⟨i, j, h1, h4, hij, hj, ?_⟩
  intro k
  constructor
  · rintro ⟨hk1, hk2⟩
    have hk : k < xs.length := by omega
    refine ⟨by omega, xs[k], List.getElem?_eq_getElem hk, ?_, h5 k hk hk2⟩
    rcases h3 with h3 | ⟨h3, _⟩
    · exact le_trans h3 (getElem_le_of_le (pairwise_le_of_lt hs) hk1 hk)
    · omega
  · rintro ⟨hk1, x, hx, hx1, hx2⟩
    obtain ⟨hk, rfl⟩ := List.getElem?_eq_some_iff.1 hx
    constructor
    · by_contra hlt
      exact absurd (h2 k hk (by omega)) (not_lt.2 hx1)
    · by_contra hge
      rcases h6 with h6 | ⟨h6, _⟩
      · exact absurd (le_trans h6 (getElem_le_of_le (pairwise_le_of_lt hs) (not_lt.1 hge) hk)) (not_le.2 hx2)
      · omega

/-- **C40 (flux).** On a sorted axis, the flux is accepted exactly when the flux of every sample of `[lmin, lmax)`, the
last sample of the axis excepted, is finite and one of them is not 0. Missing: the sample at `lmax` and the last sample of
the axis are not looked at (`C40_last_sample_counterexample`). -/
theorem C40_flux_partial (xs : List K) (flux : List (Option K)) (hs : SAxis.Increasing xs) (hlen : flux.length = xs.length)
    (hne : xs ≠ []) (lmin lmax : K) (hl : lmin ≤ lmax) :
    (validateFlux xs flux lmin lmax = .ok () ↔ (∀ i, Checked xs lmin lmax i → FluxOk flux i) ∧
      ∃ (i : Nat), Checked xs lmin lmax i ∧ flux[i]? ≠ some (some 0)) ∧
    (validateFlux xs flux lmin lmax = .ok () ∨ validateFlux xs flux lmin lmax = .throw .INVALID_SPECTRUM_FLUX) := by
  obtain ⟨i, j, h1, h2, h3, h4, h5⟩ := indexes_checked xs hs hne lmin lmax hl
  obtain ⟨n, z, g1, g2, g3⟩ := fluxLoop_spec flux i j h3 (by omega)
  have hpos : 0 < xs.length := List.length_pos_iff.2 hne
  have hform : validateFlux xs flux lmin lmax =
      if n > 0 then .throw .INVALID_SPECTRUM_FLUX else if z then .throw .INVALID_SPECTRUM_FLUX else .ok () := by
    unfold validateFlux
    rw [if_neg (by omega), h1, Res.bind_ok, h2, Res.bind_ok, g1, Res.bind_ok]
  rw [hform]
  constructor
  · constructor
    · intro h
      by_cases hn : n > 0
      · rw [if_pos hn] at h; cases h
      · rw [if_neg hn] at h
        cases hz : z with
        | true => rw [hz] at h; simp at h
        | false =>
          refine ⟨fun k hk => ?_, ?_⟩
          · obtain ⟨q1, q2⟩ := (h5 k).2 hk
            exact g2.1 (by omega) k q1 q2
          · by_contra hno
            have : z = true := g3.2 (fun k q1 q2 => by
              by_contra hk
              exact hno ⟨k, (h5 k).1 ⟨q1, q2⟩, hk⟩)
            rw [hz] at this; cases this
    · rintro ⟨h6, k, hk1, hk2⟩
      have hn : n = 0 := g2.2 (fun m q1 q2 => h6 m ((h5 m).1 ⟨q1, q2⟩))
      have hz : ¬ z = true := by
        intro hz
        obtain ⟨q1, q2⟩ := (h5 k).2 hk1
        exact hk2 (g3.1 hz k q1 q2)
      rw [if_neg (by omega), if_neg hz]
  · by_cases hn : n > 0
    · right; rw [if_pos hn]
    · cases z
      · left; rw [if_neg hn]; rfl
      · right; rw [if_neg hn]; rfl

/-- **C40 (noise).** The noise is accepted exactly when the error of every sample of `[lmin, lmax)`, the last sample of the
axis excepted, is a number not below `tiny`. -/
theorem C40_noise_partial (tiny : K) (xs : List K) (err : List (Option K)) (hs : SAxis.Increasing xs) (hlen : err.length = xs.length)
    (hne : xs ≠ []) (lmin lmax : K) (hl : lmin ≤ lmax) :
    (validateNoise tiny xs err lmin lmax = .ok () ↔ ∀ i, Checked xs lmin lmax i → NoiseOk tiny err i) ∧
    (validateNoise tiny xs err lmin lmax = .ok () ∨ validateNoise tiny xs err lmin lmax = .throw .INVALID_NOISE) := by
  obtain ⟨i, j, h1, h2, h3, h4, h5⟩ := indexes_checked xs hs hne lmin lmax hl
  obtain ⟨n, g1, g2⟩ := noiseLoop_spec tiny err i j h3 (by omega)
  have hpos : 0 < xs.length := List.length_pos_iff.2 hne
  have hform : validateNoise tiny xs err lmin lmax = if n > 0 then .throw .INVALID_NOISE else .ok () := by
    unfold validateNoise
    rw [if_neg (by omega), h1, Res.bind_ok, h2, Res.bind_ok, g1, Res.bind_ok]
  rw [hform]
  constructor
  · constructor
    · intro h k hk
      by_cases hn : n > 0
      · rw [if_pos hn] at h; cases h
      · obtain ⟨q1, q2⟩ := (h5 k).2 hk
        exact g2.1 (by omega) k q1 q2
    · intro h6
      have hn : n = 0 := g2.2 (fun m q1 q2 => h6 m ((h5 m).1 ⟨q1, q2⟩))
      rw [if_neg (by omega)]
  · by_cases hn : n > 0
    · right; rw [if_pos hn]
    · left; rw [if_neg hn]

/-- The full claim of C40 is false: an invalid last sample, which is in the closed range, is accepted; so is an invalid
sample at the end of the range inside of the axis. -/
theorem C40_last_sample_counterexample :
    validateFlux [1, 2, 3] [some 1, some 1, none] 1 (3 : ℚ) = .ok () ∧
    validateNoise (1 / 100) [1, 2, 3] [some 1, some 1, none] 1 (3 : ℚ) = .ok () ∧
    validateFlux [1, 2, 3] [some 1, none, none] 1 (2 : ℚ) = .ok () := by decide +kernel

/-- A range that selects no sample to check has a flux that counts as null: it is refused. -/
theorem C40_point_range (xs : List K) (flux : List (Option K)) (hs : SAxis.Increasing xs) (hlen : flux.length = xs.length)
    (hne : xs ≠ []) (l : K) : validateFlux xs flux l l = .throw .INVALID_SPECTRUM_FLUX := by
  obtain ⟨h1, h2⟩ := C40_flux_partial xs flux hs hlen hne l l (le_refl _)
  refine h2.resolve_left (fun h => ?_)
  obtain ⟨_, i, ⟨_, x, _, h3, h4⟩, _⟩ := h1.1 h
  exact absurd h3 (not_le.2 h4)

example : validateFlux [1, 2, 3] [some 1, some 0, some 2] 1 (3 : ℚ) = .ok () ∧
    validateFlux [1, 2, 3] [some 1, none, some 2] 1 (3 : ℚ) = .throw .INVALID_SPECTRUM_FLUX ∧
    validateFlux [1, 2, 3] [some 0, some 0, some 2] 1 (3 : ℚ) = .throw .INVALID_SPECTRUM_FLUX ∧
    validateNoise (1 / 100) [1, 2, 3] [some 1, some 0, some 1] 1 (3 : ℚ) = .throw .INVALID_NOISE := by decide +kernel

/-! ## The whole validation (C51) -/

theorem isValid_iff (xs : List K) (flux : List (Option K)) :
    isValid xs flux = true ↔ xs.length = flux.length ∧ xs ≠ [] ∧ SAxis.Increasing xs := by
  have h : (SAxis.ofList xs).isSorted.1 = true ↔ SAxis.Increasing xs := SAxis.scan_iff xs
  unfold isValid
  rw [Bool.and_eq_true, Bool.and_eq_true, h, decide_eq_true_iff, decide_eq_true_iff, and_assoc]

theorem clamp_le {xs : List K} {r c : Range K} (h : SAxis.clampLambdaRange xs r = .ok c) : c.b < c.e := by
  unfold SAxis.clampLambdaRange at h
  dsimp only at h
  generalize (if r.b < (SAxis.lambdaRange xs).b then (SAxis.lambdaRange xs).b else r.b) = st at h
  generalize (if r.e > (SAxis.lambdaRange xs).e then (SAxis.lambdaRange xs).e else r.e) = sp at h
  repeat' split at h
  all_goals first
    | cases h; done
    | (rename_i h3
       cases h
       rw [not_le, sub_pos] at h3
       exact h3)

/-- **C51.** An accepted spectrum has a sorted axis that matches its flux, a range that meets the axis, a finite flux and
a valid noise on all samples that are looked at (`Checked`), a flux that is not all zero there, and an LSF available at
both ends. Without correction its samples are unchanged. -/
theorem C51_accepted (tiny big : K) (xs : List K) (flux err fl er : List (Option K)) (r : Range K) (fix : Bool)
    (lsf : Option (K → Bool)) (herr : err.length = flux.length) (htiny : 0 < tiny) (hbig : 0 < big)
    (h : validateSpectrum tiny big xs flux err r fix lsf = .ok (fl, er)) :
    SAxis.Increasing xs ∧ xs.length = flux.length ∧ ∃ c, SAxis.clampLambdaRange xs r = .ok c ∧
      (∀ i, Checked xs c.b c.e i → SampleOk tiny fl er i) ∧
      (∃ (i : Nat), Checked xs c.b c.e i ∧ fl[i]? ≠ some (some 0)) ∧
      (∀ a, lsf = some a → a c.b = true ∧ a c.e = true) ∧
      (fix = false → fl = flux ∧ er = err) ∧
      (∀ (k : Nat), SampleOk tiny flux err k → fl[k]? = flux[k]? ∧ er[k]? = err[k]?) := by
  unfold validateSpectrum at h
  by_cases hv : isValid xs flux = false
  · rw [if_pos hv] at h; cases h
  rw [if_neg hv] at h
  have hv' : isValid xs flux = true := by simpa using hv
  obtain ⟨hlen, hne, hs⟩ := (isValid_iff xs flux).1 hv'
  obtain ⟨c, hc, h⟩ := Res.bind_eq_ok.1 h
  have hlt := clamp_le hc
  obtain ⟨⟨fl', er'⟩, h1, h⟩ := Res.bind_eq_ok.1 h
  obtain ⟨_, h2, h⟩ := Res.bind_eq_ok.1 h
  obtain ⟨_, h3, h⟩ := Res.bind_eq_ok.1 h
  simp only at h2 h3
  have hres : (fl', er') = (fl, er) ∧ ∀ a, lsf = some a → a c.b = true ∧ a c.e = true := by
    cases lsf with
    | none => cases h; exact ⟨rfl, by simp⟩
    | some a =>
      simp only at h
      split at h
      · cases h
      · rename_i hab
        cases h
        refine ⟨rfl, ?_⟩
        intro a' ha; cases ha
        simpa using hab
  obtain ⟨heq, hl⟩ := hres
  cases heq
  have hlens : fl.length = flux.length ∧ er.length = err.length ∧ (fix = false → fl = flux ∧ er = err) ∧
      (∀ (k : Nat), SampleOk tiny flux err k → fl[k]? = flux[k]? ∧ er[k]? = err[k]?) := by
    cases fix with
    | false =>
      simp only [Bool.false_eq_true, if_false] at h1
      cases h1
      exact ⟨rfl, rfl, fun _ => ⟨rfl, rfl⟩, fun _ _ => ⟨rfl, rfl⟩⟩
    | true =>
      simp only [if_true] at h1
      obtain ⟨⟨b, s1, s2⟩, h4, h5⟩ := Res.bind_eq_ok.1 h1
      cases h5
      unfold correctSpectrum at h4
      rw [if_neg hv] at h4
      obtain ⟨i, j, g1, g2, g3, g4, g5⟩ := indexes_checked xs hs hne c.b c.e hlt.le
      rw [g1, Res.bind_ok, g2, Res.bind_ok] at h4
      by_cases hex : ∃ (m : Nat) (f : K), i ≤ m ∧ m < j ∧ NoiseOk tiny err m ∧ flux[m]? = some (some f) ∧ |f| < big
      · obtain ⟨c', fl', er', k1, k2, k3, k4, k5, k6, k7⟩ := C39_correct tiny big htiny hbig flux err i j g3 (by omega)
          (by omega) 10 (by norm_num) hex
        rw [k1] at h4; cases h4
        exact ⟨k2, k3, by simp, fun k hk => k5 k (Or.inl hk)⟩
      · rw [C39_fails tiny big hbig flux err i j g3 (by omega) (by omega) 10 hex] at h4
        cases h4
  obtain ⟨q1, q2, q3, q4⟩ := hlens
  obtain ⟨f1, f2⟩ := ((C40_flux_partial xs fl hs (by omega) hne c.b c.e hlt.le).1).1 h2
  have n1 := ((C40_noise_partial tiny xs er hs (by omega) hne c.b c.e hlt.le).1).1 h3
  exact ⟨hs, hlen, c, hc, fun i hi => ⟨n1 i hi, f1 i hi⟩, f2, hl, q3, q4⟩

/-- **C51.** With correction enabled, one valid sample of non zero flux among those looked at is enough: the spectrum is
accepted, whatever its other samples. -/
theorem C51_corrected (tiny big : K) (xs : List K) (flux err : List (Option K)) (r c : Range K)
    (herr : err.length = flux.length) (htiny : 0 < tiny) (hbig : 0 < big) (hs : SAxis.Increasing xs)
    (hlen : xs.length = flux.length) (hne : xs ≠ []) (hc : SAxis.clampLambdaRange xs r = .ok c)
    (hex : ∃ (j : Nat) (f : K), Checked xs c.b c.e j ∧ NoiseOk tiny err j ∧ flux[j]? = some (some f) ∧ |f| < big ∧ f ≠ 0) :
    ∃ fl er, validateSpectrum tiny big xs flux err r true none = .ok (fl, er) := by
  have hlt := clamp_le hc
  have hv : isValid xs flux = true := (isValid_iff xs flux).2 ⟨hlen, hne, hs⟩
  obtain ⟨i, j, g1, g2, g3, g4, g5⟩ := indexes_checked xs hs hne c.b c.e hlt.le
  obtain ⟨m, f, hm1, hm2, hm3, hm4, hm5⟩ := hex
  obtain ⟨b, fl, er, k1, k2, k3, k4, k5, k6, k7⟩ := C39_correct tiny big htiny hbig flux err i j g3 (by omega)
    (by omega) 10 (by norm_num) ⟨m, f, ((g5 m).2 hm1).1, ((g5 m).2 hm1).2, hm2, hm3, hm4⟩
  refine ⟨fl, er, ?_⟩
  have hflux : validateFlux xs fl c.b c.e = .ok () := by
    refine ((C40_flux_partial xs fl hs (by omega) hne c.b c.e hlt.le).1).2 ⟨?_, m, hm1, ?_⟩
    · intro k hk
      obtain ⟨a1, a2⟩ := (g5 k).2 hk
      exact (k6 k a1 a2).2
    · rw [(k5 m (Or.inl ⟨hm2, ⟨f, hm3⟩⟩)).1, hm3]
      simpa using hm5
  have hnoise : validateNoise tiny xs er c.b c.e = .ok () := by
    refine ((C40_noise_partial tiny xs er hs (by omega) hne c.b c.e hlt.le).1).2 ?_
    intro k hk
    obtain ⟨a1, a2⟩ := (g5 k).2 hk
    exact (k6 k a1 a2).1
  unfold validateSpectrum correctSpectrum
  simp only [hv, Bool.true_eq_false, if_false, if_true]
  rw [hc, Res.bind_ok, g1, Res.bind_ok, g2, Res.bind_ok, k1, Res.bind_ok]
  simp only [Res.bind_ok]
  rw [hflux, Res.bind_ok, hnoise, Res.bind_ok]

example : validateSpectrum (1 / 100) 1000 [1, 2, 3, 4] [some 2, none, some 0, none] [some 1, some 1, none, none]
    ⟨0, (5 : ℚ)⟩ true none =
    .ok ([some 2, some (1 / 5), some (1 / 5), none], [some 1, some 10, some 10, none]) := by decide +kernel

/-! ## Trapezium integration (C52) -/

/-- The trapezium sum over the index range `[b, e]`. -/
def trapez (xs ys : List K) (b e : Nat) : K :=
  ((List.range (e - b)).map fun k =>
    (xs.getD (b + k + 1) 0 - xs.getD (b + k) 0) / 2 * (ys.getD (b + k + 1) 0 + ys.getD (b + k) 0)).sum

/-- The sum of the squared errors of the trapezium rule, each step counting both of its ends. -/
def trapezErr (xs es : List K) (b e : Nat) : K :=
  ((List.range (e - b)).map fun k =>
    ((xs.getD (b + k + 1) 0 - xs.getD (b + k) 0) / 2) ^ 2 * (es.getD (b + k + 1) 0 ^ 2 + es.getD (b + k) 0 ^ 2)).sum

theorem trapez_range (xs ys es : List K) (hy : ys.length = xs.length) (he : es.length = xs.length) (b n : Nat)
    (hn : b + n < xs.length) (s : K × K) :
    Res.foldN (fun t (s : K × K) =>
        Res.at_ xs (t + 1) >>= fun x1 => Res.at_ xs t >>= fun x0 =>
        Res.at_ ys (t + 1) >>= fun y1 => Res.at_ ys t >>= fun y0 =>
        Res.at_ es t >>= fun ea => Res.at_ es (t + 1) >>= fun eb =>
        let w := (x1 - x0) * (1 / 2)
        Res.ok (s.1 + w * (y1 + y0), s.2 + w * w * (eb * eb + ea * ea))) b n s =
      .ok (s.1 + trapez xs ys b (b + n), s.2 + trapezErr xs es b (b + n)) := by
  induction n generalizing b s with
  | zero => simp [Res.foldN, trapez, trapezErr]
  | succ n ih =>
    unfold Res.foldN
    rw [Res.at_of_lt (by omega), Res.bind_ok, Res.at_of_lt (by omega), Res.bind_ok, Res.at_of_lt (by omega), Res.bind_ok,
      Res.at_of_lt (by omega), Res.bind_ok, Res.at_of_lt (by omega), Res.bind_ok, Res.at_of_lt (by omega), Res.bind_ok]
    simp only [Res.bind_ok]
    rw [ih (b + 1) (by omega)]
    have hg : ∀ (l : List K), l.length = xs.length → ∀ k, (hk : k < l.length) → l.getD k 0 = l[k] := by
      intro l _ k hk
      simp [List.getD_eq_getElem?_getD, hk]
    congr 1
    ext
    · simp only [trapez]
      have h1 : b + 1 + n - (b + 1) = n := by omega
      have h2 : b + (n + 1) - b = n + 1 := by omega
      rw [h1, h2, List.range_succ_eq_map, List.map_cons, List.sum_cons, List.map_map]
      rw [hg xs rfl _ (by omega), hg xs rfl _ (by omega), hg ys hy _ (by omega), hg ys hy _ (by omega)]
      have hfun : ((fun k => (xs.getD (b + k + 1) 0 - xs.getD (b + k) 0) / 2 * (ys.getD (b + k + 1) 0 + ys.getD (b + k) 0)) ∘ Nat.succ) =
          (fun k => (xs.getD (b + 1 + k + 1) 0 - xs.getD (b + 1 + k) 0) / 2 * (ys.getD (b + 1 + k + 1) 0 + ys.getD (b + 1 + k) 0)) := by
        funext k
        simp only [Function.comp, Nat.succ_eq_add_one]
        rw [show b + (k + 1) = b + 1 + k by omega]
      rw [hfun]
      simp only [Nat.add_zero]
      ring
    · simp only [trapezErr]
      have h1 : b + 1 + n - (b + 1) = n := by omega
      have h2 : b + (n + 1) - b = n + 1 := by omega
      rw [h1, h2, List.range_succ_eq_map, List.map_cons, List.sum_cons, List.map_map]
      rw [hg xs rfl _ (by omega), hg xs rfl _ (by omega), hg es he _ (by omega), hg es he _ (by omega)]
      have hfun : ((fun k => ((xs.getD (b + k + 1) 0 - xs.getD (b + k) 0) / 2) ^ 2 * (es.getD (b + k + 1) 0 ^ 2 + es.getD (b + k) 0 ^ 2)) ∘ Nat.succ) =
          (fun k => ((xs.getD (b + 1 + k + 1) 0 - xs.getD (b + 1 + k) 0) / 2) ^ 2 * (es.getD (b + 1 + k + 1) 0 ^ 2 + es.getD (b + 1 + k) 0 ^ 2)) := by
        funext k
        simp only [Function.comp, Nat.succ_eq_add_one]
        rw [show b + (k + 1) = b + 1 + k by omega]
      rw [hfun]
      simp only [Nat.add_zero]
      ring

/-- **C52.** The integrated flux over a list of index ranges inside of the axis is the sum of the trapezium integrals over
the ranges, and the error is the sum of the error terms; axes of fewer than two samples or of different sizes are refused. -/
theorem C52_integrate (xs ys es : List K) (ranges : List (Nat × Nat)) (hx : 2 ≤ xs.length) (hy : ys.length = xs.length)
    (he : es.length = xs.length) (hr : ∀ r ∈ ranges, r.1 ≤ r.2 ∧ r.2 < xs.length) :
    integrateTrapez xs ys es ranges = .ok ((ranges.map fun r => trapez xs ys r.1 r.2).sum,
      (ranges.map fun r => trapezErr xs es r.1 r.2).sum) := by
  unfold integrateTrapez
  rw [if_neg (by omega), if_neg (by omega)]
  have key : ∀ (rs : List (Nat × Nat)) (s : K × K), (∀ r ∈ rs, r.1 ≤ r.2 ∧ r.2 < xs.length) →
      rs.foldl (fun acc r => acc >>= fun s =>
      Res.foldN (fun t (s : K × K) =>
        Res.at_ xs (t + 1) >>= fun x1 => Res.at_ xs t >>= fun x0 =>
        Res.at_ ys (t + 1) >>= fun y1 => Res.at_ ys t >>= fun y0 =>
        Res.at_ es t >>= fun ea => Res.at_ es (t + 1) >>= fun eb =>
        let w := (x1 - x0) * (1 / 2)
        Res.ok (s.1 + w * (y1 + y0), s.2 + w * w * (eb * eb + ea * ea))) r.1 (r.2 - r.1) s) (.ok s) =
      .ok (s.1 + (rs.map fun r => trapez xs ys r.1 r.2).sum, s.2 + (rs.map fun r => trapezErr xs es r.1 r.2).sum) := by
    intro rs
    induction rs with
    | nil => intro s _; simp
    | cons r rs ih =>
      intro s hrs
      obtain ⟨h1, h2⟩ := hrs r (by simp)
      rw [List.foldl_cons, Res.bind_ok, trapez_range xs ys es hy he r.1 (r.2 - r.1) (by omega),
        show r.1 + (r.2 - r.1) = r.2 by omega, ih _ (fun r' hr' => hrs r' (List.mem_cons_of_mem _ hr'))]
      simp only [List.map_cons, List.sum_cons]
      rw [add_assoc, add_assoc]
  rw [key ranges (0, 0) hr]
  simp

theorem C52_refuses (xs ys es : List K) (ranges : List (Nat × Nat)) (h : xs.length < 2 ∨ xs.length ≠ ys.length) :
    integrateTrapez xs ys es ranges = .throw .INTERNAL_ERROR := by
  unfold integrateTrapez
  by_cases h1 : xs.length < 2
  · rw [if_pos h1]
  · rw [if_neg h1, if_pos (by tauto)]

/-- A range that reaches the number of samples is read out of bounds. -/
theorem C52_out_of_range : integrateTrapez [1, 2] [1, 1] [1, (1 : ℚ)] [(0, 2)] = .ub := by decide +kernel

example : integrateTrapez [1, 2, 4] [1, 3, 1] [1, 1, (2 : ℚ)] [(0, 1), (1, 2)] = .ok (6, 11 / 2) := by decide +kernel

end
end Flux
end Amazed
