import Verif.Model.LinePrior
import Mathlib.Tactic.Ring
import Mathlib.Tactic.Linarith
import Mathlib.Tactic.NormNum
import Mathlib.Algebra.Order.Field.Rat
import Mathlib.Algebra.Order.BigOperators.Group.List

/-! # C214: the prior on the line amplitudes of a ratio catalog -/

set_option linter.unusedVariables false
set_option linter.unusedSectionVars false
namespace Amazed
namespace LinePrior

variable {K : Type} [Field K] [LinearOrder K] [IsStrictOrderedRing K]

/-- Specification: a line inside the range of a spectrum with a positive amplitude. -/
def Pos (l : Line K) : Prop := l.out = false ∧ ∃ a, l.amp = some a ∧ 0 < a

/-- Specification: the lines inside the range have an amplitude, and a nominal one if it is positive. -/
def Clean (e : List (Line K)) : Prop := ∀ l ∈ e, l.out = false → ∃ a, l.amp = some a ∧ (0 < a → l.nom ≠ 0)

/-- Specification: the amplitude of an element is that of its first positive line, over the nominal one. -/
def AmpOf (e : List (Line K)) (A : K) : Prop :=
  ∃ pre l post a, e = pre ++ l :: post ∧ (∀ x ∈ pre, ¬ Pos x) ∧ l.out = false ∧ l.amp = some a ∧ 0 < a ∧ A = a / l.nom

theorem eltAmp_clean : ∀ e : List (Line K), Clean e →
    (eltAmp e = .ok none ∧ ∀ l ∈ e, ¬ Pos l) ∨ (∃ A, eltAmp e = .ok (some (some A)) ∧ AmpOf e A) := by
  intro e
  induction e with
  | nil => intro _; exact Or.inl ⟨rfl, by simp⟩
  | cons l r ih =>
    intro h
    have hr : Clean r := fun x hx => h x (List.mem_cons_of_mem _ hx)
    by_cases hs : (Amp.vLe l.amp (some 0) || l.out) = true
    · have hl : ¬ Pos l := by
        rintro ⟨h1, a, h2, h3⟩
        rw [h1, h2] at hs
        simp [Amp.vLe] at hs
        exact absurd h3 (not_lt.2 hs)
      have e1 : eltAmp (l :: r) = eltAmp r := if_pos hs
      rw [e1]
      rcases ih hr with ⟨h1, h2⟩ | ⟨A, h1, pre, x, post, a, h2, h3, h4⟩
      · left
        refine ⟨h1, ?_⟩
        intro x hx
        rcases List.mem_cons.1 hx with rfl | hx
        · exact hl
        · exact h2 x hx
      · right
        refine ⟨A, h1, l :: pre, x, post, a, by rw [h2]; rfl, ?_, h4⟩
        intro y hy
        rcases List.mem_cons.1 hy with rfl | hy
        · exact hl
        · exact h3 y hy
    · right
      have ho : l.out = false := by
        cases hl : l.out
        · rfl
        · rw [hl] at hs; simp at hs
      obtain ⟨a, ha, hn⟩ := h l List.mem_cons_self ho
      have hp : 0 < a := by
        rw [ho, ha] at hs
        simpa [Amp.vLe] using hs
      refine ⟨a / l.nom, ?_, [], l, r, a, rfl, by simp, ho, ha, hp, rfl⟩
      have e1 : eltAmp (l :: r) = (Amp.vDiv l.amp (some l.nom) >>= fun a => .ok (some a)) := if_neg hs
      rw [e1, ha]
      simp only [Amp.vDiv, if_neg (hn hp), Res.bind_ok]

/-- Specification: what the elements add, in order; an element without a positive line adds nothing. -/
inductive Adds (p : Prior K) : List (List (Line K)) → K → Prop
  | nil : Adds p [] 0
  | skip {e r s} : (∀ l ∈ e, ¬ Pos l) → Adds p r s → Adds p (e :: r) s
  | add {e r s A} : AmpOf e A → Adds p r s → Adds p (e :: r) (p.betaA * (A - p.mean) ^ 2 / p.sigma ^ 2 + s)

theorem elts_clean (p : Prior K) : ∀ (es : List (List (Line K))) (m : K), (∀ e ∈ es, Clean e) →
    ∃ s, elts p es (some m) = .ok (some (m + s)) ∧ Adds p es s := by
  intro es
  induction es with
  | nil => intro m _; exact ⟨0, by simp [elts], .nil⟩
  | cons e r ih =>
    intro m h
    have hr := fun x hx => h x (List.mem_cons_of_mem _ hx)
    have e1 : elts p (e :: r) (some m) = (eltAmp e >>= fun a => elts p r (addElt p (some m) a)) := rfl
    rw [e1]
    rcases eltAmp_clean e (h e List.mem_cons_self) with ⟨h1, h2⟩ | ⟨A, h1, h2⟩
    · obtain ⟨s, hs, ha⟩ := ih m hr
      exact ⟨s, by rw [h1, Res.bind_ok]; exact hs, .skip h2 ha⟩
    · obtain ⟨s, hs, ha⟩ := ih (m + p.betaA * (A - p.mean) ^ 2 / p.sigma ^ 2) hr
      refine ⟨_, ?_, .add h2 ha⟩
      rw [h1, Res.bind_ok, ← add_assoc, ← hs]
      have : addElt p (some m) (some (some A)) = some (m + p.betaA * (A - p.mean) ^ 2 / p.sigma ^ 2) := by
        simp only [addElt, term, Amp.vAdd, Option.map]
        congr 2
        ring
      rw [this]

/-- C214: without prior data the prior is 0; without a width for the amplitudes it is the part of the template, redshift and dust. -/
theorem C214_without (ps : List (Prior K)) (i : Nat) (es : List (List (Line K))) :
    (ps = [] → linePrior ps i es = .ok (some 0)) ∧
    (∀ p, ps[i]? = some p → p.sigma ≤ 0 → linePrior ps i es =
      .ok (some (-2 * (p.betaTE * p.logTE + p.betaA * p.logA + p.betaZ * p.logZ)))) := by
  constructor
  · rintro rfl; rfl
  · intro p hp hs
    have hne : ps.isEmpty = false := by cases ps with
      | nil => simp at hp
      | cons a r => rfl
    unfold linePrior
    rw [hne, if_neg (by simp), Res.at_eq_ok.2 hp, Res.bind_ok, if_pos hs]
    unfold base
    congr 2
    ring

/-- C214 (partial: the lines inside the range must have an amplitude, see `C214_nan_counterexample`): the prior is the part of the template,
redshift and dust plus, for each element with a positive line, the squared distance of its amplitude to the mean in units of the width,
weighted by `betaA`. -/
theorem C214_value_partial (ps : List (Prior K)) (i : Nat) (es : List (List (Line K))) (h : ∀ e ∈ es, Clean e) (p : Prior K)
    (hp : ps[i]? = some p) (hs : 0 < p.sigma) :
    ∃ s, linePrior ps i es = .ok (some (-2 * (p.betaTE * p.logTE + p.betaA * p.logA + p.betaZ * p.logZ) + s)) ∧ Adds p es s := by
  have hne : ps.isEmpty = false := by cases ps with
    | nil => simp at hp
    | cons a r => rfl
  obtain ⟨s, h1, h2⟩ := elts_clean p es (base p) h
  refine ⟨s, ?_, h2⟩
  unfold linePrior
  rw [hne, if_neg (by simp), Res.at_eq_ok.2 hp, Res.bind_ok, if_neg (not_le.2 hs), h1]
  unfold base
  congr 3
  ring

/-- C214: what the elements add is a penalty, null only if every amplitude is the mean (for a positive weight). -/
theorem C214_penalty (p : Prior K) (hb : 0 < p.betaA) (hs : 0 < p.sigma) (es : List (List (Line K))) (s : K) (h : Adds p es s) :
    0 ≤ s ∧ (s = 0 → ∀ e ∈ es, (∀ l ∈ e, ¬ Pos l) ∨ AmpOf e p.mean) := by
  induction h with
  | nil => exact ⟨le_refl _, fun _ e he => absurd he (by simp)⟩
  | skip h1 _ ih =>
    refine ⟨ih.1, fun h0 e he => ?_⟩
    rcases List.mem_cons.1 he with rfl | he
    · exact Or.inl h1
    · exact ih.2 h0 e he
  | @add e r s A h1 _ ih =>
    have hq : 0 ≤ p.betaA * (A - p.mean) ^ 2 / p.sigma ^ 2 :=
      div_nonneg (mul_nonneg (le_of_lt hb) (sq_nonneg _)) (sq_nonneg _)
    refine ⟨add_nonneg hq ih.1, fun h0 x hx => ?_⟩
    have h2 : p.betaA * (A - p.mean) ^ 2 / p.sigma ^ 2 = 0 := by linarith [ih.1]
    have h3 : s = 0 := by linarith [ih.1]
    rcases List.mem_cons.1 hx with rfl | hx
    · right
      have : A = p.mean := by
        rw [div_eq_zero_iff] at h2
        rcases h2 with h2 | h2
        · rcases mul_eq_zero.1 h2 with h2 | h2
          · exact absurd h2 (ne_of_gt hb)
          · exact sub_eq_zero.1 (pow_eq_zero_iff (two_ne_zero) |>.1 h2)
        · exact absurd (pow_eq_zero_iff (two_ne_zero) |>.1 h2) (ne_of_gt hs)
      rw [← this]; exact h1
    · exact ih.2 h3 x hx

/-- C214: the entry of a catalog changes exactly when the merit and the prior together are better than before, and is then the new one. -/
theorem C214_record (src : TplRatio.Src) (m : WithTop K) (q : K) (e : TplRatio.Entry K) :
    (m + (q : WithTop K) < e.merit + (e.prior : WithTop K) → record src m (some q) e = ⟨m, q, some src⟩) ∧
    (¬ m + (q : WithTop K) < e.merit + (e.prior : WithTop K) → record src m (some q) e = e) :=
  ⟨fun h => if_pos h, fun h => if_neg h⟩

theorem elts_nan (p : Prior K) : ∀ (es : List (List (Line K))), (∀ e ∈ es, ∃ a, eltAmp e = .ok a) → elts p es none = .ok none := by
  intro es
  induction es with
  | nil => intro _; rfl
  | cons e r ih =>
    intro h
    obtain ⟨a, ha⟩ := h e List.mem_cons_self
    have e1 : elts p (e :: r) none = (eltAmp e >>= fun a => elts p r (addElt p none a)) := rfl
    rw [e1, ha, Res.bind_ok]
    have : addElt p none a = none := by cases a <;> rfl
    rw [this]
    exact ih fun x hx => h x (List.mem_cons_of_mem _ hx)

/-- C214: an element that could not be fitted (NaN amplitude on its first line inside the range) makes the prior a NaN, and the catalog is not
recorded however good its merit is: its entry stays the one of before. -/
theorem C214_nan (ps : List (Prior K)) (src : TplRatio.Src) (p : Prior K) (hp : ps[src.2]? = some p) (hs : 0 < p.sigma)
    (pre post : List (List (Line K))) (out r : List (Line K)) (l : Line K) (hpre : ∀ e ∈ pre, Clean e) (hpost : ∀ e ∈ post, Clean e)
    (hout : ∀ x ∈ out, x.out = true) (hl : l.out = false) (ha : l.amp = none) (m : WithTop K) (e : TplRatio.Entry K) :
    computeMerit ps src (pre ++ (out ++ l :: r) :: post) m e = .ok e := by
  have hne : ps.isEmpty = false := by
    cases ps with
    | nil => simp at hp
    | cons a r => rfl
  have hel : ∀ out : List (Line K), (∀ x ∈ out, x.out = true) → eltAmp (out ++ l :: r) = .ok (some none) := by
    intro out
    induction out with
    | nil =>
      intro _
      have e1 : eltAmp (l :: r) = (Amp.vDiv l.amp (some l.nom) >>= fun a => .ok (some a)) :=
        if_neg (by rw [ha, hl]; simp [Amp.vLe])
      rw [List.nil_append, e1, ha]; rfl
    | cons x t ih =>
      intro h
      have e1 : eltAmp (x :: (t ++ l :: r)) = eltAmp (t ++ l :: r) := if_pos (by rw [h x List.mem_cons_self, Bool.or_true])
      rw [List.cons_append, e1]
      exact ih fun y hy => h y (List.mem_cons_of_mem _ hy)
  have hclean : ∀ e : List (Line K), Clean e → ∃ a, eltAmp e = .ok a := by
    intro e he
    rcases eltAmp_clean e he with ⟨h, _⟩ | ⟨A, h, _⟩
    · exact ⟨_, h⟩
    · exact ⟨_, h⟩
  have hsum : ∀ (pre : List (List (Line K))), (∀ e ∈ pre, Clean e) → ∀ m, elts p (pre ++ (out ++ l :: r) :: post) m = .ok none := by
    intro pre
    induction pre with
    | nil =>
      intro _ m
      have e1 : elts p ((out ++ l :: r) :: post) m = (eltAmp (out ++ l :: r) >>= fun a => elts p post (addElt p m a)) := rfl
      rw [List.nil_append, e1, hel out hout, Res.bind_ok]
      have : addElt p m (some none) = none := by cases m <;> rfl
      rw [this]
      exact elts_nan p post fun e he => hclean e (hpost e he)
    | cons x t ih =>
      intro h m
      obtain ⟨a, ha⟩ := hclean x (h x List.mem_cons_self)
      have e1 : elts p (x :: (t ++ (out ++ l :: r) :: post)) m =
        (eltAmp x >>= fun a => elts p (t ++ (out ++ l :: r) :: post) (addElt p m a)) := rfl
      rw [List.cons_append, e1, ha, Res.bind_ok]
      exact ih (fun y hy => h y (List.mem_cons_of_mem _ hy)) _
  unfold computeMerit linePrior
  rw [hne, if_neg (by simp), Res.at_eq_ok.2 hp, Res.bind_ok, if_neg (not_le.2 hs), hsum pre hpre, Res.bind_ok]
  rfl

/-- C214 is false of the code: the first fit of a catalog, with a finite merit, is not recorded when one element could not be fitted (here the
second one, absent from the catalog: its nominal amplitude is zero). -/
theorem C214_nan_counterexample :
    computeMerit (K := ℚ) [⟨1, 0, 1, 0, 1, 0, 1, 1⟩] (0, 0) [[⟨some 2, false, 1⟩], [⟨none, false, 0⟩]] (5 : ℚ) ⟨⊤, 0, none⟩ =
      .ok ⟨⊤, 0, none⟩ :=
  C214_nan (K := ℚ) [⟨1, 0, 1, 0, 1, 0, 1, 1⟩] (0, 0) ⟨1, 0, 1, 0, 1, 0, 1, 1⟩ rfl (by norm_num) [[⟨some 2, false, 1⟩]] [] [] []
    ⟨none, false, 0⟩ (by intro e he; simp at he; subst he; intro l hl _; simp at hl; subst hl; exact ⟨2, rfl, by norm_num⟩)
    (by simp) (by simp) rfl rfl _ _

/-- The hypotheses of `C214_value_partial` are met: the first line is null, the second gives the amplitude 2, at one width of the mean. -/
example : (∀ e ∈ ([[⟨some 0, false, 1⟩, ⟨some 4, false, 2⟩], [⟨none, true, 0⟩]] : List (List (Line ℚ))), Clean e) ∧
    linePrior (K := ℚ) [⟨1, 0, 1, 0, 1, 0, 1, 1⟩] 0 [[⟨some 0, false, 1⟩, ⟨some 4, false, 2⟩], [⟨none, true, 0⟩]] = .ok (some 1) := by
  constructor
  · intro e he l hl ho
    simp at he
    rcases he with rfl | rfl
    · simp at hl
      rcases hl with rfl | rfl
      · exact ⟨0, rfl, by norm_num⟩
      · exact ⟨4, rfl, by norm_num⟩
    · simp at hl; subst hl; simp at ho
  · decide +kernel

end LinePrior
end Amazed
