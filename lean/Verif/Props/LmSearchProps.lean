import Verif.Model.LmSearch
import Verif.Props.FitAmpProps
import Mathlib.Tactic.FieldSimp
import Mathlib.Algebra.Order.Archimedean.Basic

set_option linter.unusedVariables false
set_option linter.unusedSectionVars false

/-! # C86: searches on grids of parameters, and the shared index of the spectra -/

namespace Amazed
namespace LmSearch

variable {K : Type} [Field K] [LinearOrder K] [IsStrictOrderedRing K] [FloorRing K]

theorem nSteps_eq (half lo hi step : K) (hh : 0 ≤ half) (hs : 0 < step) (hl : lo ≤ hi) :
    (nSteps half lo hi step : ℤ) = ⌊(hi - lo) / step + half⌋ := by
  have h0 : 0 ≤ (hi - lo) / step + half := add_nonneg (div_nonneg (sub_nonneg.2 hl) hs.le) hh
  unfold nSteps toInt
  rw [if_pos h0, Int.toNat_of_nonneg (Int.floor_nonneg.2 h0)]

theorem nSteps_bounds (half lo hi step : K) (hh : 0 ≤ half) (hs : 0 < step) (hl : lo ≤ hi) :
    lo + step * (nSteps half lo hi step : K) ≤ hi + step * half ∧ hi + step * half < lo + step * (nSteps half lo hi step : K) + step := by
  have e := nSteps_eq half lo hi step hh hs hl
  have h1 := Int.floor_le ((hi - lo) / step + half)
  have h2 := Int.lt_floor_add_one ((hi - lo) / step + half)
  rw [← e] at h1 h2
  have e2 : (((nSteps half lo hi step : Nat) : ℤ) : K) = (nSteps half lo hi step : K) := by norm_cast
  rw [e2] at h1 h2
  have hd : step * ((hi - lo) / step) = hi - lo := by field_simp
  have h1' := mul_le_mul_of_nonneg_left h1 hs.le
  have h2' := mul_lt_mul_of_pos_left h2 hs
  constructor <;> nlinarith

/-- **C86, offsets tried.** The offsets tried in a search start at the minimum, are equally spaced, and end at least half a step below the maximum: the maximum itself is never tried. -/
theorem C86_offsets (lo hi step : K) (hs : 0 < step) (hl : lo ≤ hi) :
    (∀ (i : Nat) x, (values (1 / 2) lo hi step)[i]? = some x → x = lo + step * i ∧ lo ≤ x ∧ x ≤ hi - step / 2) ∧
    (∀ x ∈ values (1 / 2) lo hi step, x ≠ hi) := by
  have hb := nSteps_bounds (1 / 2) lo hi step (by norm_num) hs hl
  have key : ∀ (i : Nat) x, (values (1 / 2) lo hi step)[i]? = some x → x = lo + step * i ∧ lo ≤ x ∧ x ≤ hi - step / 2 := by
    intro i x hx
    unfold values value at hx
    rw [List.getElem?_map] at hx
    obtain ⟨a, ha, rfl⟩ := Option.map_eq_some_iff.1 hx
    obtain ⟨hi', he⟩ := List.getElem?_eq_some_iff.1 ha
    rw [List.getElem_range] at he
    subst he
    rw [List.length_range] at hi'
    have h3 : ((i : K) + 1) ≤ nSteps (1 / 2) lo hi step := by exact_mod_cast hi'
    have h4 : (0 : K) ≤ i := Nat.cast_nonneg i
    refine ⟨rfl, by nlinarith, by nlinarith⟩
  refine ⟨key, ?_⟩
  intro x hx he
  obtain ⟨i, hi', rfl⟩ := List.mem_iff_getElem.1 hx
  have := key i _ (List.getElem?_eq_getElem hi')
  rw [he] at this
  linarith [this.2.2]

/-- **C86, offsets on a whole number of steps.** When the range is a whole number of steps every multiple of the step is tried but the last; with the values of the code, from -400 to 400 km/s
by 25, these are the 32 offsets from -400 to 375. -/
theorem C86_offsets_whole (lo step : K) (k : Nat) (hs : 0 < step) :
    values (1 / 2) lo (lo + step * k) step = (List.range k).map (fun i : Nat => lo + step * (i : K)) := by
  have e := nSteps_eq (1 / 2) lo (lo + step * k) step (by norm_num) hs (by nlinarith [(Nat.cast_nonneg k : (0 : K) ≤ k)])
  have e2 : (lo + step * k - lo) / step = (k : K) := by field_simp; ring
  rw [e2] at e
  have : ⌊(k : K) + 1 / 2⌋ = (k : ℤ) := by
    rw [Int.floor_eq_iff]
    push_cast
    constructor <;> linarith
  rw [this] at e
  have : nSteps (1 / 2) lo (lo + step * k) step = k := by exact_mod_cast e
  unfold values
  rw [this]
  rfl

example : values (1 / 2 : ℚ) (-400) 400 25 = (List.range 32).map fun i : Nat => -400 + 25 * (i : ℚ) := by
  have := C86_offsets_whole (-400 : ℚ) 25 32 (by norm_num)
  rw [← this]
  norm_num

/-- **C86, profile parameters tried.** The values tried for a parameter of the profile are equally spaced from the minimum; on a whole number of steps both ends are tried; else the last one may be over
the maximum, by at most half a step. -/
theorem C86_profile_values (a : Axis K) (hs : 0 < a.step) (hl : a.lo ≤ a.hi) :
    (∀ i, i < a.n → a.lo ≤ value a.lo a.step i ∧ value a.lo a.step i ≤ a.hi + a.step / 2) ∧ 0 < a.n ∧
    (∀ k : Nat, a.hi = a.lo + a.step * k → a.n = k + 1 ∧ value a.lo a.step k = a.hi) := by
  have hb := nSteps_bounds (3 / 2) a.lo a.hi a.step (by norm_num) hs hl
  refine ⟨?_, ?_, ?_⟩
  · intro i hi'
    unfold Axis.n at hi'
    have h3 : ((i : K) + 1) ≤ nSteps (3 / 2) a.lo a.hi a.step := by exact_mod_cast hi'
    have h4 : (0 : K) ≤ i := Nat.cast_nonneg i
    unfold value
    constructor <;> nlinarith
  · unfold Axis.n
    by_contra hc
    have : nSteps (3 / 2) a.lo a.hi a.step = 0 := by omega
    rw [this] at hb
    push_cast at hb
    nlinarith [hb.2]
  · intro k hk
    have e := nSteps_eq (3 / 2) a.lo a.hi a.step (by norm_num) hs hl
    have e2 : (a.hi - a.lo) / a.step = (k : K) := by rw [hk]; field_simp; ring
    rw [e2] at e
    have : ⌊(k : K) + 3 / 2⌋ = (k : ℤ) + 1 := by
      rw [Int.floor_eq_iff]
      push_cast
      constructor <;> linarith
    rw [this] at e
    refine ⟨by unfold Axis.n; exact_mod_cast e, ?_⟩
    unfold value
    rw [hk]

/-- From 0 to 1/2 by 1 the values 0 and 1 are tried. -/
theorem C86_over_maximum_counterexample : ∃ a : Axis ℚ, 0 < a.step ∧ a.lo ≤ a.hi ∧ ∃ i, i < a.n ∧ a.hi < value a.lo a.step i := by
  refine ⟨⟨0, 1 / 2, 1⟩, by norm_num, by norm_num, 1, ?_, by norm_num [value]⟩
  have e := nSteps_eq (3 / 2 : ℚ) 0 (1 / 2) 1 (by norm_num) (by norm_num) (by norm_num)
  have : ⌊((1 / 2 - 0) / 1 + 3 / 2 : ℚ)⌋ = 2 := by rw [Int.floor_eq_iff]; norm_num
  rw [this] at e
  have : nSteps (3 / 2 : ℚ) 0 (1 / 2) 1 = 2 := by exact_mod_cast e
  show 1 < nSteps (3 / 2 : ℚ) 0 (1 / 2) 1
  omega

/-! ## The search of the offset -/

/-- The element apart from its fitted amplitudes. -/
def Same (a b : Amp.Elt K) : Prop := ∃ fa std, a = { b with fa := fa, fastd := std }

theorem setAmplitude_same (e : Amp.Elt K) (A S : Option K) (e' : Amp.Elt K) (h : Amp.setAmplitude e A S = .ok e') : Same e' e := by
  unfold Amp.setAmplitude at h
  split at h
  · cases h; exact ⟨_, _, rfl⟩
  · obtain ⟨l, _, h2⟩ := Res.bind_eq_ok.1 h
    cases h2; exact ⟨_, _, rfl⟩

theorem fit_same (sq : K → K) (obs : List (FitAmp.Obs K)) (a b : Amp.Elt K) (line : Option Nat) (hs : Same a b) (ho : ∃ o ∈ obs, o.elt.outside = false) :
    FitAmp.fitAmplitude sq obs a line = FitAmp.fitAmplitude sq obs b line ∧
      ∀ r, FitAmp.fitAmplitude sq obs b line = .ok r → Same r.1 b := by
  obtain ⟨fa, std, rfl⟩ := hs
  have hn : ¬ (obs.all fun o => o.elt.outside) = true := by
    rw [List.all_eq_true]
    intro h
    obtain ⟨o, h1, h2⟩ := ho
    have := h o h1
    rw [h2] at this; cases this
  unfold FitAmp.fitAmplitude
  refine ⟨by rw [if_neg hn, if_neg hn], ?_⟩
  intro r hr
  rw [if_neg hn] at hr
  obtain ⟨c, _, h2⟩ := Res.bind_eq_ok.1 hr
  split at h2
  · cases h2; exact ⟨_, _, rfl⟩
  · obtain ⟨pe2, h3, h4⟩ := Res.bind_eq_ok.1 h2
    cases h4
    obtain ⟨f, t, hft⟩ := setAmplitude_same _ _ _ _ h3
    exact ⟨f, t, hft⟩

/-- **C86, search of the offset.** For an element seen by a spectrum, whose fits succeed: the search leaves the element with the offset of smallest merit, the first one of them, and with the
amplitude that the fit of the element as it was before the search gives for that offset: nothing of the other offsets tried remains. When no offset has a merit below `big` it leaves the last one
tried. -/
theorem C86_offset_search (sq : K → K) (obs : K → List (FitAmp.Obs K)) (line : Option Nat) (big lo hi step o0 : K) (pe : Amp.Elt K) (sums : FitAmp.Sums K)
    (ho : ∀ x, ∃ o ∈ obs x, o.elt.outside = false) (r : Nat → Amp.Elt K × FitAmp.Sums K) (m : Nat → Option K)
    (hr : ∀ i, i < nSteps (1 / 2) lo hi step → FitAmp.fitAmplitude sq (obs (lo + step * i)) pe line = .ok (r i) ∧ FitAmp.meritFast (r i).1 (r i).2 = .ok (m i))
    (hn : 0 < nSteps (1 / 2) lo hi step) :
    ∃ s, offsetSearch sq obs line big lo hi step o0 true pe sums = .ok s ∧ ∃ k, k < nSteps (1 / 2) lo hi step ∧ s.off = some (lo + step * k) ∧ (s.pe, s.sums) = r k ∧
      ((∃ b, m k = some b ∧ b < big ∧ (∀ i x, i < nSteps (1 / 2) lo hi step → m i = some x → b ≤ x) ∧ ∀ i x, i < k → m i = some x → b < x) ∨
        (k + 1 = nSteps (1 / 2) lo hi step ∧ ∀ i x, i < nSteps (1 / 2) lo hi step → m i = some x → big ≤ x)) := by
  unfold offsetSearch
  rw [if_pos rfl]
  generalize hN : nSteps (1 / 2) lo hi step = N at *
  obtain ⟨s, h1, h2⟩ := Res.foldN_inv (fun i (s : OffSt K) => Same s.pe pe ∧ (0 < i → s.off = some (lo + step * ((i - 1 : Nat) : K)) ∧ (s.pe, s.sums) = r (i - 1)) ∧
      ((s.idx = none ∧ s.best = big ∧ ∀ l x, l < i → m l = some x → big ≤ x) ∨
        (∃ k, s.idx = some k ∧ k < i ∧ m k = some s.best ∧ s.best < big ∧ (∀ l x, l < i → m l = some x → s.best ≤ x) ∧
          ∀ l x, l < k → m l = some x → s.best < x))) N 0 ⟨none, pe, sums, big, none⟩
    ⟨⟨pe.fa, pe.fastd, rfl⟩, by intro h; omega, Or.inl ⟨rfl, rfl, by intro l x h; omega⟩⟩
    (f := fun i (s : OffSt K) => offStep sq obs line lo step i s)
    (by
      rintro i s _ hi' ⟨hS, _, hP⟩
      obtain ⟨f1, f2⟩ := fit_same sq (obs (lo + step * i)) s.pe pe line hS (ho _)
      obtain ⟨g1, g2⟩ := hr i (by omega)
      have hS' := f2 _ g1
      unfold offStep value
      rw [f1, g1, Res.bind_ok, g2, Res.bind_ok]
      cases hm : m i with
      | none =>
        refine ⟨_, rfl, hS', fun _ => ⟨by simp, by simp⟩, ?_⟩
        rcases hP with ⟨h1, h2, h3⟩ | ⟨k, h1, h2, h3, h4, h5, h6⟩
        · refine Or.inl ⟨h1, h2, ?_⟩
          intro l x hl hx
          rcases Nat.lt_succ_iff_lt_or_eq.1 hl with h | rfl
          · exact h3 l x h hx
          · rw [hm] at hx; cases hx
        · refine Or.inr ⟨k, h1, by omega, h3, h4, ?_, h6⟩
          intro l x hl hx
          rcases Nat.lt_succ_iff_lt_or_eq.1 hl with h | rfl
          · exact h5 l x h hx
          · rw [hm] at hx; cases hx
      | some y =>
        simp only
        by_cases hy : y < s.best
        · rw [if_pos hy]
          refine ⟨_, rfl, hS', fun _ => ⟨by simp, by simp⟩, Or.inr ⟨i, rfl, by omega, hm, ?_, ?_, ?_⟩⟩
          · rcases hP with ⟨_, h2, _⟩ | ⟨k, _, _, _, h4, _⟩
            · rw [h2] at hy; exact hy
            · exact lt_trans hy h4
          · intro l x hl hx
            rcases Nat.lt_succ_iff_lt_or_eq.1 hl with h | rfl
            · rcases hP with ⟨_, h2, h3⟩ | ⟨k, _, _, _, _, h5, _⟩
              · rw [h2] at hy; exact le_of_lt (lt_of_lt_of_le hy (h3 l x h hx))
              · exact le_of_lt (lt_of_lt_of_le hy (h5 l x h hx))
            · rw [hm] at hx; cases hx; exact le_refl _
          · intro l x hl hx
            rcases hP with ⟨_, h2, h3⟩ | ⟨k, _, _, _, _, h5, _⟩
            · rw [h2] at hy; exact lt_of_lt_of_le hy (h3 l x hl hx)
            · exact lt_of_lt_of_le hy (h5 l x hl hx)
        · rw [if_neg hy]
          refine ⟨_, rfl, hS', fun _ => ⟨by simp, by simp⟩, ?_⟩
          rcases hP with ⟨h1, h2, h3⟩ | ⟨k, h1, h2, h3, h4, h5, h6⟩
          · refine Or.inl ⟨h1, h2, ?_⟩
            intro l x hl hx
            rcases Nat.lt_succ_iff_lt_or_eq.1 hl with h | rfl
            · exact h3 l x h hx
            · rw [hm] at hx; cases hx; rw [h2] at hy; exact not_lt.1 hy
          · refine Or.inr ⟨k, h1, by omega, h3, h4, ?_, h6⟩
            intro l x hl hx
            rcases Nat.lt_succ_iff_lt_or_eq.1 hl with h | rfl
            · exact h5 l x h hx
            · rw [hm] at hx; cases hx; exact not_lt.1 hy)
  rw [Nat.zero_add] at h2
  rw [h1, Res.bind_ok]
  obtain ⟨hS, hl, hP⟩ := h2
  obtain ⟨l1, l2⟩ := hl hn
  rcases hP with ⟨p1, p2, p3⟩ | ⟨k, p1, p2, p3, p4, p5, p6⟩
  · refine ⟨s, by unfold offEnd; rw [p1], N - 1, by omega, l1, l2, Or.inr ⟨by omega, p3⟩⟩
  · obtain ⟨f1, f2⟩ := fit_same sq (obs (lo + step * k)) s.pe pe line hS (ho _)
    obtain ⟨g1, g2⟩ := hr k p2
    refine ⟨{ s with off := some (lo + step * k), pe := (r k).1, sums := (r k).2 }, ?_, k, p2, rfl, rfl, Or.inl ⟨s.best, p3, p4, p5, p6⟩⟩
    unfold offEnd value
    rw [p1]
    simp only
    rw [f1, g1, Res.bind_ok]

/-! ## The searches of the profiles -/

/-- `q` is the first candidate of smallest merit below `big`, or the default when there is none. -/
def FirstBest {P : Type} (cands : List P) (merit : P → Option K) (big : K) (dflt q : P) : Prop :=
  (∃ pre post b, cands = pre ++ q :: post ∧ merit q = some b ∧ b < big ∧ (∀ p ∈ pre, ∀ x, merit p = some x → b < x) ∧ ∀ p ∈ post, ∀ x, merit p = some x → b ≤ x) ∨
  (q = dflt ∧ ∀ p ∈ cands, ∀ x, merit p = some x → big ≤ x)

theorem fold_best {P : Type} (merit : P → Option K) (big : K) (dflt : P) (cands : List P) :
    let s := cands.foldl (fun s p => better p (merit p) s) (big, dflt)
    (s = (big, dflt) ∧ ∀ p ∈ cands, ∀ x, merit p = some x → big ≤ x) ∨
      (∃ pre post, cands = pre ++ s.2 :: post ∧ merit s.2 = some s.1 ∧ s.1 < big ∧ (∀ p ∈ pre, ∀ x, merit p = some x → s.1 < x) ∧
        ∀ p ∈ post, ∀ x, merit p = some x → s.1 ≤ x) := by
  induction cands using List.reverseRecOn with
  | nil => left; simp
  | append_singleton l p ih =>
    simp only at ih ⊢
    rw [List.foldl_append]
    simp only [List.foldl_cons, List.foldl_nil]
    generalize l.foldl (fun s p => better p (merit p) s) (big, dflt) = s at ih
    unfold better
    cases hm : merit p with
    | none =>
      simp only
      rcases ih with ⟨h1, h2⟩ | ⟨pre, post, h1, h2, h3, h4, h5⟩
      · refine Or.inl ⟨h1, ?_⟩
        intro q hq x hx
        rcases List.mem_append.1 hq with h | h
        · exact h2 q h x hx
        · rw [List.mem_singleton.1 h, hm] at hx; cases hx
      · refine Or.inr ⟨pre, post ++ [p], by rw [h1]; simp, h2, h3, h4, ?_⟩
        intro q hq x hx
        rcases List.mem_append.1 hq with h | h
        · exact h5 q h x hx
        · rw [List.mem_singleton.1 h, hm] at hx; cases hx
    | some y =>
      simp only
      by_cases hy : y < s.1
      · rw [if_pos hy]
        right
        refine ⟨l, [], rfl, hm, ?_, ?_, by simp⟩
        · rcases ih with ⟨h1, _⟩ | ⟨_, _, _, _, h3, _⟩
          · rw [h1] at hy; exact hy
          · exact lt_trans hy h3
        · intro q hq x hx
          rcases ih with ⟨h1, h2⟩ | ⟨pre, post, h1, h2, h3, h4, h5⟩
          · rw [h1] at hy; exact lt_of_lt_of_le hy (h2 q hq x hx)
          · rw [h1] at hq
            rcases List.mem_append.1 hq with h | h
            · exact lt_trans hy (h4 q h x hx)
            · rcases List.mem_cons.1 h with rfl | h
              · rw [h2] at hx; cases hx; exact hy
              · exact lt_of_lt_of_le hy (h5 q h x hx)
      · rw [if_neg hy]
        rcases ih with ⟨h1, h2⟩ | ⟨pre, post, h1, h2, h3, h4, h5⟩
        · refine Or.inl ⟨h1, ?_⟩
          intro q hq x hx
          rcases List.mem_append.1 hq with h | h
          · exact h2 q h x hx
          · rw [List.mem_singleton.1 h, hm] at hx; cases hx; rw [h1] at hy; exact not_lt.1 hy
        · refine Or.inr ⟨pre, post ++ [p], by rw [h1]; simp, h2, h3, h4, ?_⟩
          intro q hq x hx
          rcases List.mem_append.1 hq with h | h
          · exact h5 q h x hx
          · rw [List.mem_singleton.1 h, hm] at hx; cases hx; exact not_lt.1 hy

theorem foldN_pure {σ : Type} (f : Nat → σ → Res σ) (g : Nat → σ → σ) (n : Nat) : ∀ (k : Nat) (s : σ), (∀ i s, k ≤ i → i < k + n → f i s = .ok (g i s)) →
    Res.foldN f k n s = .ok ((List.range' k n).foldl (fun s i => g i s) s) := by
  induction n with
  | zero => intro k s _; rfl
  | succ n ih =>
    intro k s h
    unfold Res.foldN
    rw [h k s (le_refl _) (by omega), Res.bind_ok, ih (k + 1) _ (fun i s h1 h2 => h i s (by omega) (by omega)), List.range'_succ, List.foldl_cons]

theorem foldN_range {σ : Type} (f : Nat → σ → Res σ) (g : Nat → σ → σ) (n : Nat) (s : σ) (h : ∀ i s, i < n → f i s = .ok (g i s)) :
    Res.foldN f 0 n s = .ok ((List.range n).foldl (fun s i => g i s) s) := by
  rw [List.range_eq_range']
  exact foldN_pure f g n 0 s fun i s _ h2 => h i s (by omega)

/-- The candidates in the order of the search: the asymmetry varies first, then the width, then the offset. -/
def asymCands (width asym delta : Axis K) : List (K × K × K) :=
  (List.range delta.n).flatMap fun d => (List.range width.n).flatMap fun w => (List.range asym.n).map fun a =>
    (value width.lo width.step w, value asym.lo asym.step a, value delta.lo delta.step d)

/-- **C86, profile search.** When every fit gives a merit (NaN or the fit not valid: `none`), the parameters kept are those of smallest residual over all the combinations of width, asymmetry and
offset of the grid, the first ones in the order of the search; the defaults when no combination has a valid fit. -/
theorem C86_asym (merit : K × K × K → Res (Option K)) (m : K × K × K → Option K) (big : K) (dflt : K × K × K) (width asym delta : Axis K)
    (hm : ∀ p ∈ asymCands width asym delta, merit p = .ok (m p)) :
    ∃ b q, asymSearch merit big dflt width asym delta = .ok (b, q) ∧ FirstBest (asymCands width asym delta) m big dflt q := by
  have e : asymSearch merit big dflt width asym delta = .ok ((asymCands width asym delta).foldl (fun s p => better p (m p) s) (big, dflt)) := by
    have hm' : ∀ d w a, d < delta.n → w < width.n → a < asym.n →
        merit (value width.lo width.step w, value asym.lo asym.step a, value delta.lo delta.step d) =
          .ok (m (value width.lo width.step w, value asym.lo asym.step a, value delta.lo delta.step d)) := by
      intro d w a h1 h2 h3
      apply hm
      unfold asymCands
      rw [List.mem_flatMap]
      refine ⟨d, List.mem_range.2 h1, ?_⟩
      rw [List.mem_flatMap]
      exact ⟨w, List.mem_range.2 h2, List.mem_map.2 ⟨a, List.mem_range.2 h3, rfl⟩⟩
    unfold asymSearch asymCands
    rw [List.foldl_flatMap]
    apply foldN_range _ (fun d s => List.foldl (fun s p => better p (m p) s) s ((List.range width.n).flatMap fun w => (List.range asym.n).map fun a =>
      (value width.lo width.step w, value asym.lo asym.step a, value delta.lo delta.step d)))
    intro d s hd
    rw [List.foldl_flatMap]
    apply foldN_range _ (fun w s => List.foldl (fun s p => better p (m p) s) s ((List.range asym.n).map fun a =>
      (value width.lo width.step w, value asym.lo asym.step a, value delta.lo delta.step d)))
    intro w s hw
    rw [List.foldl_map]
    apply foldN_range _ (fun a s => better (value width.lo width.step w, value asym.lo asym.step a, value delta.lo delta.step d)
      (m (value width.lo width.step w, value asym.lo asym.step a, value delta.lo delta.step d)) s)
    intro a s ha
    rw [hm' d w a (by omega) (by omega) (by omega), Res.bind_ok]
  have hf := fold_best m big dflt (asymCands width asym delta)
  simp only at hf
  refine ⟨_, _, e, ?_⟩
  rcases hf with ⟨h1, h2⟩ | ⟨pre, post, h⟩
  · exact Or.inr ⟨by rw [h1], h2⟩
  · exact Or.inl ⟨pre, post, _, h⟩

/-- **C86, igm search.** The igm index kept is the first of smallest residual among those for which at least one of the elements has a positive amplitude; none when there is no such index. -/
theorem C86_igm (amp : Nat → List (Option K)) (rms : Nat → Option K) (big : K) (count : Nat) :
    match igmSearch amp rms big count with
    | some k => k < count ∧ (∃ x, some x ∈ amp k ∧ 0 < x) ∧ ∃ b, rms k = some b ∧ b < big ∧
        ∀ i x, i < count → (∃ y, some y ∈ amp i ∧ 0 < y) → rms i = some x → b ≤ x ∧ (i < k → b < x)
    | none => ∀ i x, i < count → (∃ y, some y ∈ amp i ∧ 0 < y) → rms i = some x → big ≤ x := by
  have hv : ∀ i, igmValid (amp i) = true ↔ ∃ y, some y ∈ amp i ∧ 0 < y := by
    intro i
    unfold igmValid
    rw [List.any_eq_true]
    constructor
    · rintro ⟨a, h1, h2⟩
      cases a with
      | none => cases h2
      | some x => exact ⟨x, h1, of_decide_eq_true h2⟩
    · rintro ⟨y, h1, h2⟩
      exact ⟨some y, h1, decide_eq_true h2⟩
  have hf := fold_best (fun p : Option Nat => match p with
    | some i => if igmValid (amp i) then rms i else none
    | none => none) big none ((List.range count).map some)
  simp only at hf
  rw [List.foldl_map] at hf
  simp only at hf
  unfold igmSearch
  generalize (List.range count).foldl (fun s i => better (some i) (if igmValid (amp i) = true then rms i else none) s) (big, (none : Option Nat)) = s at hf ⊢
  rcases hf with ⟨h1, h2⟩ | ⟨pre, post, h1, h2, h3, h4, h5⟩
  · rw [h1]
    simp only
    intro i x hi hy hx
    exact h2 (some i) (List.mem_map.2 ⟨i, List.mem_range.2 hi, rfl⟩) x (by simp only; rw [if_pos ((hv i).2 hy), hx])
  · obtain ⟨b, q⟩ := s
    simp only at h1 h2 h3 h4 h5 ⊢
    cases q with
    | none => simp only at h2; cases h2
    | some k =>
      simp only at h2 ⊢
      split at h2
      · rename_i hk
        have hlen : pre.length = k ∧ k < count := by
          have e1 : ((List.range count).map some)[pre.length]? = some (some k) := by rw [h1]; simp
          rw [List.getElem?_map] at e1
          obtain ⟨a, ha, hb⟩ := Option.map_eq_some_iff.1 e1
          obtain ⟨hlt, he⟩ := List.getElem?_eq_some_iff.1 ha
          rw [List.getElem_range] at he
          rw [List.length_range] at hlt
          cases hb
          omega
        refine ⟨hlen.2, (hv k).1 hk, b, h2, h3, ?_⟩
        intro i x hi hy hx
        have hval : (match (some i : Option Nat) with
          | some i => if igmValid (amp i) = true then rms i else none
          | none => none) = some x := by simp only; rw [if_pos ((hv i).2 hy), hx]
        have hget : ((List.range count).map some)[i]? = some (some i) := by simp [hi]
        rw [h1] at hget
        rcases Nat.lt_trichotomy i k with h | h | h
        · have : some i ∈ pre := by
            rw [List.getElem?_append_left (by omega)] at hget
            exact List.mem_of_getElem? hget
          have := h4 _ this x hval
          exact ⟨this.le, fun _ => this⟩
        · subst h
          rw [h2] at hx; cases hx
          exact ⟨le_refl _, fun h => absurd h (lt_irrefl _)⟩
        · have : some i ∈ post := by
            rw [List.getElem?_append_right (by omega), show i - pre.length = (i - pre.length - 1) + 1 by omega, List.getElem?_cons_succ] at hget
            exact List.mem_of_getElem? hget
          exact ⟨h5 _ this x hval, fun h' => absurd h' (by omega)⟩
      · cases h2

/-! ## The shared index -/

theorem exec_append (n : Nat) (a b : List Act) : ∀ cur, exec n (a ++ b) cur = exec n a cur >>= fun c => exec n b c := by
  induction a with
  | nil => intro cur; rfl
  | cons x a ih =>
    intro cur
    cases x with
    | read =>
      simp only [List.cons_append, exec]
      split
      · exact ih cur
      · rfl
    | loop => exact ih n
    | stopAt k => exact ih k
    | reset => exact ih 0

/-- A case that can happen with `n` spectra. -/
def FitCase.Ok (n : Nat) (c : FitCase) : Prop := ∀ k, c.first = some k → k < n

def Branch.Ok (n : Nat) : Branch → Prop
  | .one c => c.Ok n
  | .each l => ∀ c, some c ∈ l → c.Ok n
  | _ => True

theorem fitAmp_ok (n : Nat) (c : FitCase) (hc : c.Ok n) (cur : Nat) : ∃ c', exec n (fitAmp c) cur = .ok c' := by
  unfold fitAmp
  cases h : c.first with
  | none => exact ⟨n, rfl⟩
  | some k =>
    have := hc k h
    simp only
    cases c.fitted
    · exact ⟨n, by simp [exec, this]⟩
    · exact ⟨0, by simp [exec, this]⟩

theorem fitReset_ok (n : Nat) (c : FitCase) (hc : c.Ok n) (cur : Nat) : exec n (fitAmp c ++ [.reset]) cur = .ok 0 := by
  obtain ⟨c', h⟩ := fitAmp_ok n c hc cur
  rw [exec_append, h, Res.bind_ok]
  rfl

theorem each_ok (n : Nat) (hn : 0 < n) (l : List (Option FitCase)) (hl : ∀ c, some c ∈ l → c.Ok n) :
    ∀ cur, cur < n → ∃ c', c' < n ∧ exec n (l.flatMap fun c => match c with
    | some c => fitAmp c ++ [.reset]
    | none => []) cur = .ok c' := by
  induction l with
  | nil => intro cur h; exact ⟨cur, h, rfl⟩
  | cons a l ih =>
    intro cur h
    rw [List.flatMap_cons, exec_append]
    cases a with
    | none =>
      simp only [exec, Res.bind_ok]
      exact ih (fun c hc => hl c (by simp [hc])) cur h
    | some c =>
      simp only
      rw [fitReset_ok n c (hl c (by simp)), Res.bind_ok]
      exact ih (fun c hc => hl c (by simp [hc])) 0 hn

theorem jointFit_ok (n : Nat) (hn : 0 < n) (b : Branch) (hb : b.Ok n) (cur : Nat) (hc : cur < n) : ∃ c', c' < n ∧ exec n (jointFit b) cur = .ok c' := by
  have hl : exec n linSolve cur = .ok cur := by simp [linSolve, exec, hc]
  unfold jointFit
  cases b with
  | allPositive => exact ⟨cur, hc, hl⟩
  | one c =>
    simp only
    rw [List.append_assoc, exec_append, hl, Res.bind_ok]
    exact ⟨0, hn, fitReset_ok n c hb cur⟩
  | together =>
    simp only
    rw [exec_append, hl, Res.bind_ok]
    exact ⟨cur, hc, hl⟩
  | each l =>
    simp only
    rw [List.append_assoc, exec_append, hl, Res.bind_ok, exec_append, hl, Res.bind_ok]
    exact each_ok n hn l hb cur hc

theorem jointFit_invalid (n : Nat) (b : Branch) (l : List Act) : exec n (jointFit b ++ l) n = .throw .INVALID_SPECTRUM_INDEX := by
  cases b <;> simp [jointFit, linSolve, exec]

/-- **C86, joint search.** With the offsets to be fitted, the joint fit of several elements throws `INVALID_SPECTRUM_INDEX` at its second step, whatever the number of spectra, the fits and the
branches taken, since the residual of the first step leaves the index of the spectra at their number; the 32 steps of the search are never made. -/
theorem C86_joint_offset_counterexample (n : Nat) (hn : 0 < n) (b1 b2 : Branch) (h1 : b1.Ok n) (steps : List Branch) (last : Option Branch) (cur : Nat) (hc : cur < n) :
    exec n (jointSearch true (b1 :: b2 :: steps) last) cur = .throw .INVALID_SPECTRUM_INDEX := by
  obtain ⟨c', k1, k2⟩ := jointFit_ok n hn b1 h1 cur hc
  unfold jointSearch
  rw [if_pos rfl, List.flatMap_cons, List.flatMap_cons]
  unfold jointStep
  simp only [List.append_assoc]
  rw [exec_append, k2, Res.bind_ok]
  simp only [List.cons_append, List.nil_append, exec, if_pos k1]
  exact jointFit_invalid n b2 _

/-- **C86, joint fit.** Without offsets to fit the joint fit reads a valid index and leaves a valid one. -/
theorem C86_joint_fit (n : Nat) (hn : 0 < n) (b : Branch) (hb : b.Ok n) (cur : Nat) (hc : cur < n) :
    ∃ c', c' < n ∧ exec n (jointSearch false [b] none) cur = .ok c' := by
  unfold jointSearch
  simpa using jointFit_ok n hn b hb cur hc

/-- **C86, individual search.** The search of the offset of a single element reads valid indexes only, whatever the index before. -/
theorem C86_individual (n : Nat) (steps : List FitCase) (hs : ∀ c ∈ steps, c.Ok n) (enabled : Bool) (last : Option FitCase) (hl : ∀ c, last = some c → c.Ok n) (cur : Nat) :
    ∃ c', exec n (individualFit steps enabled last) cur = .ok c' := by
  unfold individualFit
  have key : ∀ cur, ∃ c', exec n (steps.flatMap fun c => fitAmp c ++ (if enabled then [Act.reset] else [])) cur = .ok c' := by
    induction steps with
    | nil => intro cur; exact ⟨cur, rfl⟩
    | cons c steps ih =>
      intro cur
      rw [List.flatMap_cons, exec_append, exec_append]
      obtain ⟨c', h⟩ := fitAmp_ok n c (hs c (by simp)) cur
      rw [h, Res.bind_ok]
      cases enabled
      · simp only [Bool.false_eq_true, if_false, exec, Res.bind_ok]
        exact ih (fun c hc => hs c (by simp [hc])) c'
      · simp only [if_true, exec, Res.bind_ok]
        exact ih (fun c hc => hs c (by simp [hc])) 0
  obtain ⟨c1, h1⟩ := key cur
  rw [exec_append, h1, Res.bind_ok]
  cases last with
  | none => exact ⟨c1, rfl⟩
  | some c => exact fitAmp_ok n c (hl c rfl) c1

/-- A group without a search of offsets in its joint fits. -/
def Group.Ok (n : Nat) : Group → Prop
  | .individual st _ last => (∀ c ∈ st, c.Ok n) ∧ ∀ c, last = some c → c.Ok n
  | .joint en st last => en = false ∧ last = none ∧ ∃ b, st = [b] ∧ b.Ok n

theorem group_ok (n : Nat) (hn : 0 < n) (g : Group) (hg : g.Ok n) (cur : Nat) (hc : cur < n) : exec n (group g) cur = .ok 0 := by
  cases g with
  | individual st en last =>
    obtain ⟨c', h⟩ := C86_individual n st hg.1 en last hg.2 0
    unfold group
    simp only [List.cons_append, List.nil_append, exec, if_pos hc]
    rw [exec_append, h, Res.bind_ok]; rfl
  | joint en st last =>
    obtain ⟨rfl, rfl, b, rfl, hb⟩ := hg
    obtain ⟨c', _, h⟩ := C86_joint_fit n hn b hb 0 hn
    unfold group
    simp only [List.cons_append, List.nil_append, exec, if_pos hc]
    rw [exec_append, h, Res.bind_ok]; rfl

theorem groups_ok (n : Nat) (hn : 0 < n) (gs : List Group) (hg : ∀ g ∈ gs, g.Ok n) : ∀ cur, cur < n → ∃ c', c' < n ∧ exec n (gs.flatMap group) cur = .ok c' := by
  induction gs with
  | nil => intro cur h; exact ⟨cur, h, rfl⟩
  | cons g gs ih =>
    intro cur h
    rw [List.flatMap_cons, exec_append, group_ok n hn g (hg g (by simp)) cur h, Res.bind_ok]
    exact ih (fun g h => hg g (by simp [h])) 0 hn

/-- **C86, hybrid fit.** The hybrid fit, without offsets to fit in a joint fit, reads valid indexes as long as no Balmer pair is refitted. -/
theorem C86_hybrid (n : Nat) (hn : 0 < n) (gs : List Group) (hg : ∀ g ∈ gs, g.Ok n) (pairs : Option (List Pair)) (hp : ∀ l, pairs = some l → Pair.refitted ∉ l) (cur : Nat) :
    ∃ c', c' < n ∧ exec n (hybrid gs pairs) cur = .ok c' := by
  obtain ⟨c', h1, h2⟩ := groups_ok n hn gs hg 0 hn
  unfold hybrid
  simp only [List.cons_append, List.nil_append, exec, if_pos hn]
  rw [exec_append, h2, Res.bind_ok]
  cases pairs with
  | none => exact ⟨c', h1, rfl⟩
  | some l =>
    have hl := hp l rfl
    simp only
    unfold balmer
    clear hp h2
    induction l with
    | nil => exact ⟨c', h1, rfl⟩
    | cons p l ih =>
      rw [List.flatMap_cons, exec_append]
      cases p with
      | missing =>
        simp only [balmerPair, exec, Res.bind_ok]
        exact ih (fun h => hl (by simp [h]))
      | skipped =>
        simp only [balmerPair, exec, if_pos h1, Res.bind_ok]
        exact ih (fun h => hl (by simp [h]))
      | refitted => exact absurd (by simp) hl

/-- **C86, Balmer lines.** Whenever a Balmer pair is refitted the hybrid fit throws `INVALID_SPECTRUM_INDEX`, whatever the number of spectra. -/
theorem C86_balmer_counterexample (n : Nat) (hn : 0 < n) (gs : List Group) (hg : ∀ g ∈ gs, g.Ok n) (l : List Pair) (hl : Pair.refitted ∈ l) (cur : Nat) :
    exec n (hybrid gs (some l)) cur = .throw .INVALID_SPECTRUM_INDEX := by
  obtain ⟨c', h1, h2⟩ := groups_ok n hn gs hg 0 hn
  unfold hybrid
  simp only [List.cons_append, List.nil_append, exec, if_pos hn]
  rw [exec_append, h2, Res.bind_ok]
  unfold balmer
  clear h2
  induction l with
  | nil => cases hl
  | cons p l ih =>
    rw [List.flatMap_cons, exec_append]
    cases p with
    | missing =>
      simp only [balmerPair, exec, Res.bind_ok]
      exact ih (by simpa using hl)
    | skipped =>
      simp only [balmerPair, exec, if_pos h1, Res.bind_ok]
      exact ih (by simpa using hl)
    | refitted => simp [balmerPair, linSolve, exec, h1]

/-! ## Examples -/

/-- A flux of 3 on three samples, seen with a profile of one sample for the offset -1 and of three samples for the offset 0. -/
def exObs (o : ℚ) : List (FitAmp.Obs ℚ) := [{ FitAmp.exObs 3 1 with prof := fun _ x => if o = 0 ∨ x = 2 then 1 else 0 }]

example : (∀ x, ∃ o ∈ exObs x, o.elt.outside = false) ∧ nSteps (1 / 2) (-1 : ℚ) 1 1 = 2 ∧
    (offsetSearch id exObs none 1000 (-1) 1 1 0 true FitAmp.exPe ⟨none, none, none⟩ >>= fun s => .ok (s.off, s.pe.fa, s.best, s.idx)) = .ok (some 0, [some 3], -27, some 1) := by
  refine ⟨fun x => ⟨_, List.mem_singleton.2 rfl, by simp [FitAmp.exObs, EltSup.Elt.outside]⟩, by decide +kernel, by decide +kernel⟩

/-- The merits 3, NaN, 1, 1: the third candidate is kept. -/
example : FirstBest [10, 20, 30, 40] (fun p : ℚ => if p = 10 then some 3 else if p = 20 then none else some 1) (100 : ℚ) 0 30 :=
  Or.inl ⟨[10, 20], [40], 1, by decide, by decide +kernel, by norm_num, by decide +kernel, by decide +kernel⟩

example : igmSearch (fun i => if i = 0 then [none] else [some (1 : ℚ)]) (fun i => some (if i = 0 then 1 else if i = 1 then 5 else 4)) 100 4 = some 2 := by decide +kernel

/-- Two spectra: a joint fit that refits one element, and a group of one element. -/
example : (Group.joint false [.one ⟨some 1, true⟩] none).Ok 2 ∧ (Group.individual [⟨some 0, true⟩] true none).Ok 2 ∧
    exec 2 (hybrid [.joint false [.one ⟨some 1, true⟩] none, .individual [⟨some 0, true⟩] true none] none) 7 = .ok 0 ∧
    exec 2 (hybrid [.joint false [.allPositive] none] (some [.missing, .refitted])) 7 = .throw .INVALID_SPECTRUM_INDEX := by
  refine ⟨⟨rfl, rfl, _, rfl, ?_⟩, ⟨?_, ?_⟩, by decide +kernel, by decide +kernel⟩
  · intro k h; cases h; decide
  · intro c hc k h
    simp only [List.mem_singleton] at hc
    subst hc; cases h; decide
  · intro c h; cases h

end LmSearch
end Amazed
