import Verif.Model.RebinInputs

/-! # C62: which rebinned spectrum belongs to which input -/

set_option linter.unusedVariables false

namespace Amazed
namespace RebinInputs

variable {S L R G C Z : Type}

/-- Each input spectrum has, at its own position, its rebinned spectrum and the range of this rebinned spectrum. -/
def InOrder (o : Ops S L R G C Z) (of : S → L → R → Prop) (spectra : List (S × L)) (reb : List R) (cl : List C) : Prop :=
  reb.length = spectra.length ∧ cl.length = spectra.length ∧
  ∀ (i : Nat) s l, spectra[i]? = some (s, l) → ∃ r c, reb[i]? = some r ∧ cl[i]? = some c ∧ of s l r ∧ o.clamp r l = .ok c

theorem firstLoop_notLog (o : Ops S L R G C Z) (g : G) (hg : o.minStep = .ok g) : ∀ (spectra : List (S × L)) (st : List R × Option G),
    (∀ p ∈ spectra, o.isLog p.1 = false) →
    firstLoop o spectra st = .ok (st.1, if spectra.isEmpty then st.2 else some g)
  | [], st, _ => rfl
  | (s, l) :: rest, st, h => by
    unfold firstLoop
    have h0 : o.isLog s = false := h (s, l) (by simp)
    rw [h0, hg]
    simp only [Bool.false_eq_true, if_false, Res.bind_ok]
    rw [firstLoop_notLog o g hg rest _ (fun p hp => h p (by simp [hp]))]
    cases rest <;> rfl

theorem secondLoop_notLog (o : Ops S L R G C Z) (first : S ⊕ R) (l0 : L) (g : G) (cats : List String) :
    ∀ (spectra : List (S × L)) (reb : List R) (cl : List C) (m : String → Option Z) (reb' : List R) (cl' : List C) (m' : String → Option Z),
    (∀ p ∈ spectra, o.isLog p.1 = false) →
    secondLoop o first l0 g cats spectra (reb, cl, m) = .ok (reb', cl', m') →
    ∃ rs cs, reb' = reb ++ rs ∧ cl' = cl ++ cs ∧ InOrder o (fun s l r => o.rebin first l0 g s = .ok r) spectra rs cs
  | [], reb, cl, m, reb', cl', m', _, h => by
    cases h
    exact ⟨[], [], by simp, by simp, rfl, rfl, by simp⟩
  | (s, l) :: rest, reb, cl, m, reb', cl', m', hn, h => by
    unfold secondLoop at h
    have h0 : o.isLog s = false := hn (s, l) (by simp)
    rw [h0] at h
    simp only [Bool.false_eq_true, if_false] at h
    obtain ⟨rb, h1, h⟩ := Res.bind_eq_ok.1 h
    obtain ⟨r, h2, h3⟩ := Res.bind_eq_ok.1 h1
    cases h3
    obtain ⟨m1, h4, h⟩ := Res.bind_eq_ok.1 h
    simp only [List.getLast?_append, List.getLast?_singleton, Option.or] at h
    obtain ⟨c, h5, h⟩ := Res.bind_eq_ok.1 h
    obtain ⟨rs, cs, e1, e2, e3, e4, e5⟩ := secondLoop_notLog o first l0 g cats rest _ _ _ _ _ _ (fun p hp => hn p (by simp [hp])) h
    refine ⟨r :: rs, c :: cs, by rw [e1]; simp, by rw [e2]; simp, by simp [e3], by simp [e4], ?_⟩
    intro i s' l' hi
    cases i with
    | zero =>
      simp only [List.getElem?_cons_zero, Option.some.injEq, Prod.mk.injEq] at hi
      obtain ⟨rfl, rfl⟩ := hi
      exact ⟨r, c, rfl, rfl, h2, h5⟩
    | succ i =>
      simp only [List.getElem?_cons_succ] at hi ⊢
      exact e5 i s' l' hi

/-- **C62 (partial).** When no input spectrum is log-sampled, each input spectrum has, at its own position, its own rebinned spectrum
and clamped range. Missing: inputs some of which are log-sampled; see the counterexamples. -/
theorem C62_in_order_partial (o : Ops S L R G C Z) (cats : List String) (m m' : String → Option Z) (s0 : S) (l0 : L) (spectra : List (S × L))
    (hn : ∀ p ∈ (s0, l0) :: spectra, o.isLog p.1 = false) (reb : List R) (cl : List C)
    (h : run o cats m ((s0, l0) :: spectra) = .ok (reb, cl, m')) :
    ∃ g, o.minStep = .ok g ∧ InOrder o (fun s l r => o.rebin (.inl s0) l0 g s = .ok r) ((s0, l0) :: spectra) reb cl := by
  unfold run at h
  have h0 : o.isLog s0 = false := hn (s0, l0) (by simp)
  obtain ⟨st, h1, h⟩ := Res.bind_eq_ok.1 h
  have hg : ∃ g, o.minStep = .ok g := by
    unfold firstLoop at h1
    rw [h0] at h1
    simp only [Bool.false_eq_true, if_false] at h1
    obtain ⟨g, hg, _⟩ := Res.bind_eq_ok.1 h1
    exact ⟨g, hg⟩
  obtain ⟨g, hg⟩ := hg
  rw [firstLoop_notLog o g hg _ _ hn] at h1
  cases h1
  refine ⟨g, hg, ?_⟩
  simp only [List.isEmpty_cons, Bool.false_eq_true, if_false, h0] at h
  obtain ⟨f, hf, h⟩ := Res.bind_eq_ok.1 h
  cases hf
  obtain ⟨rs, cs, e1, e2, e3⟩ := secondLoop_notLog o (.inl s0) l0 g cats _ _ _ _ _ _ _ hn h
  rw [e1, e2]
  simpa using e3

/-- **C62.** A single log-sampled spectrum has its corrected spectrum, whose step is used, and its range. -/
theorem C62_single_log (o : Ops S L R G C Z) (cats : List String) (m m' : String → Option Z) (s : S) (l : L) (hl : o.isLog s = true)
    (reb : List R) (cl : List C) (h : run o cats m [(s, l)] = .ok (reb, cl, m')) :
    ∃ r c, reb = [r] ∧ cl = [c] ∧ o.correct s l = .ok r ∧ o.clamp r l = .ok c ∧ ∃ g, o.step r = .ok g := by
  unfold run firstLoop at h
  rw [hl] at h
  simp only [if_true] at h
  obtain ⟨st, h1, h⟩ := Res.bind_eq_ok.1 h
  obtain ⟨r, h2, h1⟩ := Res.bind_eq_ok.1 h1
  obtain ⟨g, h3, h1⟩ := Res.bind_eq_ok.1 h1
  unfold firstLoop at h1
  cases h1
  simp only [List.nil_append] at h
  unfold secondLoop at h
  rw [hl] at h
  simp only [if_true, Res.bind_ok] at h
  obtain ⟨m1, h4, h⟩ := Res.bind_eq_ok.1 h
  simp only [List.getLast?_singleton] at h
  obtain ⟨c, h5, h⟩ := Res.bind_eq_ok.1 h
  unfold secondLoop at h
  cases h
  exact ⟨r, c, rfl, rfl, h2, h5, g, h3⟩

/-- Operations for the counterexamples: a spectrum is `(name, log-sampled)`, a rebinned spectrum and its clamped range are the name of
the spectrum they come from. -/
def named : Ops (String × Bool) Unit String Unit String Nat where
  isLog s := s.2
  correct s _ := .ok s.1
  step _ := .ok ()
  minStep := .ok ()
  rebin _ _ _ s := .ok s.1
  category _ := .ok 1
  clamp r _ := .ok r

/-- **C62, finding.** With two log-sampled spectra, the clamped range of the first one is that of the second one. -/
theorem C62_two_log_counterexample : ∃ m', run named ["galaxy"] (fun _ => none) [(("A", true), ()), (("B", true), ())] =
    .ok (["A", "B"], ["B", "B"], m') := ⟨_, rfl⟩

/-- **C62, finding.** With a log-sampled spectrum after another one, the rebinned spectra are swapped. -/
theorem C62_mixed_counterexample : ∃ m', run named ["galaxy"] (fun _ => none) [(("A", false), ()), (("B", true), ())] =
    .ok (["B", "A"], ["A", "A"], m') := ⟨_, rfl⟩

example : ∃ m', run named ["galaxy"] (fun _ => none) [(("A", false), ()), (("B", false), ())] = .ok (["A", "B"], ["A", "B"], m') := ⟨_, rfl⟩

theorem catLoop_spec (o : Ops S L R G C Z) : ∀ (cats : List String) (m m' : String → Option Z), catLoop o cats m = .ok m' →
    ∀ c, (∀ z, m c = some z → m' c = some z) ∧ (m c = none → c ∉ cats → m' c = none) ∧
      (m c = none → c ∈ cats → ∃ z, o.category c = .ok z ∧ m' c = some z)
  | [], m, m', h, c => by cases h; simp
  | a :: cats, m, m', h, c => by
    unfold catLoop at h
    obtain ⟨z, h1, h⟩ := Res.bind_eq_ok.1 h
    obtain ⟨i1, i2, i3⟩ := catLoop_spec o cats _ _ h c
    by_cases hc : c = a
    · subst hc
      refine ⟨fun v hv => ?_, fun _ hn => absurd (by simp) hn, fun hm _ => ⟨z, h1, ?_⟩⟩
      · exact i1 v (by simp [insert, hv])
      · exact i1 z (by simp [insert, hm])
    · refine ⟨fun v hv => i1 v (by simp [insert, hc, hv]), fun hm hn => i2 (by simp [insert, hc, hm]) (fun hin => hn (by simp [hin])),
        fun hm hin => i3 (by simp [insert, hc, hm]) ((List.mem_cons.1 hin).resolve_left hc)⟩

/-- **C62, redshift range.** In a fresh context, the redshift range of a category with FFT processing is the one computed by the template
rebinning, and that of another category is the parameter. -/
theorem C62_redshift_range_partial (o : Ops S L R G C Z) (cats : List String) (s0 : S) (l0 : L) (reb : List R) (cl : List C)
    (m' : String → Option Z) (h : run o cats (fun _ => none) [(s0, l0)] = .ok (reb, cl, m')) (param : Z) (c : String) :
    (c ∈ cats → ∃ z, o.category c = .ok z ∧ redshiftRange m' param c = z) ∧ (c ∉ cats → redshiftRange m' param c = param) := by
  unfold run at h
  obtain ⟨st, h1, h⟩ := Res.bind_eq_ok.1 h
  cases hst : st.2 with
  | none => rw [hst] at h; cases h
  | some g =>
    rw [hst] at h
    simp only at h
    obtain ⟨f, hf, h⟩ := Res.bind_eq_ok.1 h
    unfold secondLoop at h
    obtain ⟨rb, h2, h⟩ := Res.bind_eq_ok.1 h
    obtain ⟨m1, h3, h⟩ := Res.bind_eq_ok.1 h
    have hm : m' = m1 := by
      cases hlast : rb.getLast? with
      | none => rw [hlast] at h; cases h
      | some r =>
        rw [hlast] at h
        obtain ⟨c', h5, h⟩ := Res.bind_eq_ok.1 h
        unfold secondLoop at h
        cases h; rfl
    subst hm
    obtain ⟨_, i2, i3⟩ := catLoop_spec o cats _ _ h3 c
    constructor
    · intro hc
      obtain ⟨z, hz1, hz2⟩ := i3 rfl hc
      exact ⟨z, hz1, by simp [redshiftRange, hz2]⟩
    · intro hc
      simp [redshiftRange, i2 rfl hc]

/-- **C62, finding.** The range is not updated when the same context is used again: a range recorded before the call is kept, whatever
the template rebinning computes. -/
theorem C62_stale_range (o : Ops S L R G C Z) (cats : List String) (m m' : String → Option Z) (c : String) (z : Z) (hc : m c = some z)
    (s0 : S) (l0 : L) (reb : List R) (cl : List C) (h : run o cats m [(s0, l0)] = .ok (reb, cl, m')) (param : Z) :
    redshiftRange m' param c = z := by
  unfold run at h
  obtain ⟨st, h1, h⟩ := Res.bind_eq_ok.1 h
  cases hst : st.2 with
  | none => rw [hst] at h; cases h
  | some g =>
    rw [hst] at h
    simp only at h
    obtain ⟨f, hf, h⟩ := Res.bind_eq_ok.1 h
    unfold secondLoop at h
    obtain ⟨rb, h2, h⟩ := Res.bind_eq_ok.1 h
    obtain ⟨m1, h3, h⟩ := Res.bind_eq_ok.1 h
    have hm : m' = m1 := by
      cases hlast : rb.getLast? with
      | none => rw [hlast] at h; cases h
      | some r =>
        rw [hlast] at h
        obtain ⟨c', h5, h⟩ := Res.bind_eq_ok.1 h
        unfold secondLoop at h
        cases h; rfl
    subst hm
    have := (catLoop_spec o cats _ _ h3 c).1 z hc
    simp [redshiftRange, this]

example : ∃ m', run named ["galaxy"] (fun c => if c = "galaxy" then some 7 else none) [(("A", false), ())] = .ok (["A"], ["A"], m') ∧
    redshiftRange m' 3 "galaxy" = 7 ∧ redshiftRange m' 3 "star" = 3 := ⟨_, rfl, rfl, rfl⟩

end RebinInputs
end Amazed
