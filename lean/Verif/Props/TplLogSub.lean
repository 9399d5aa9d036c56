import Verif.Model.TplLogSub
import Verif.Props.TplLogIndex
import Verif.Props.SpectralAxisLog
import Verif.Props.RangeProps

set_option linter.unusedSectionVars false
set_option linter.unusedVariables false

/-! # Template fitting on log-sampled grids: sub-sampling (C132) -/

namespace Amazed
namespace TplLog

open TplFit (IsSqrt)

variable {K : Type} [Field K] [LinearOrder K] [IsStrictOrderedRing K]

/-- One sample out of `ss` between the indices `b` and `e`, the last of them being kept. -/
def SubOf {α : Type} (ss b e : Nat) (v v' : List α) : Prop :=
  v'.length = (e - b) / ss + 1 ∧ ∀ j : Nat, j < v'.length → v'[j]? = v[e - ss * ((e - b) / ss - j)]?

theorem go_pick {α : Type} : ∀ (mask : List Nat) (v : List α) (P : Nat → Prop) [DecidablePred P], mask.length = v.length →
    (∀ (k : Nat) (hk : k < mask.length), mask[k] = 1 ↔ P k) →
    (maskVector.go mask v).map some = ((List.range v.length).filter fun k => decide (P k)).map fun (k : Nat) => v[k]?
  | [], [], P, _, _, _ => by simp [maskVector.go]
  | m :: ms, x :: xs, P, _, hl, hm => by
    have ih := go_pick ms xs (fun k => P (k + 1)) (by simpa using hl) (fun k hk => by
      have := hm (k + 1) (by simpa using hk)
      simpa using this)
    have h0 : m = 1 ↔ P 0 := hm 0 (by simp)
    unfold maskVector.go
    rw [List.length_cons, List.range_succ_eq_map, List.filter_cons]
    have htail : (((List.map Nat.succ (List.range xs.length)).filter fun k => decide (P k)).map fun (k : Nat) => (x :: xs)[k]?) =
        ((List.range xs.length).filter fun k => decide (P (k + 1))).map fun (k : Nat) => xs[k]? := by
      rw [List.filter_map, List.map_map]
      rfl
    by_cases hp : P 0
    · rw [if_pos (h0.2 hp), if_pos (by simpa using hp), List.map_cons, List.map_cons, htail, ih]
      rfl
    · rw [if_neg (fun h => hp (h0.1 h)), if_neg (by simpa using hp), htail, ih]

theorem filter_progression {n ss b e : Nat} (hss : 2 ≤ ss) (hbe : b ≤ e) (he : e < n) :
    ((List.range n).filter fun (k : Nat) => decide ((b : Int) ≤ (k : Int) ∧ (k : Int) ≤ e ∧ (ss : Int) ∣ (e : Int) - k)) =
      (List.range ((e - b) / ss + 1)).map fun (j : Nat) => e - ss * ((e - b) / ss - j) := by
  have hdm : ss * ((e - b) / ss) ≤ e - b := Nat.mul_div_le _ _
  have hs1 : ((List.range n).filter fun (k : Nat) => decide ((b : Int) ≤ (k : Int) ∧ (k : Int) ≤ e ∧ (ss : Int) ∣ (e : Int) - k)).Pairwise (· < ·) :=
    List.pairwise_lt_range.filter _
  have hmul : ∀ i : Nat, i ≤ (e - b) / ss → ss * i ≤ e - b := fun i hi => (Nat.mul_le_mul_left ss hi).trans hdm
  have hs2 : ((List.range ((e - b) / ss + 1)).map fun (j : Nat) => e - ss * ((e - b) / ss - j)).Pairwise (· < ·) := by
    rw [List.pairwise_map]
    refine List.pairwise_lt_range.imp_of_mem ?_
    intro x y hx hy hxy
    rw [List.mem_range] at hx hy
    have h1 := hmul ((e - b) / ss - x) (by omega)
    have h2 : ss * ((e - b) / ss - y) < ss * ((e - b) / ss - x) := Nat.mul_lt_mul_of_pos_left (by omega) (by omega)
    omega
  have hperm : ((List.range n).filter fun (k : Nat) => decide ((b : Int) ≤ (k : Int) ∧ (k : Int) ≤ e ∧ (ss : Int) ∣ (e : Int) - k)).Perm
      ((List.range ((e - b) / ss + 1)).map fun (j : Nat) => e - ss * ((e - b) / ss - j)) := by
    rw [List.perm_ext_iff_of_nodup (hs1.imp fun h => Nat.ne_of_lt h) (hs2.imp fun h => Nat.ne_of_lt h)]
    intro k
    rw [List.mem_filter, List.mem_map, List.mem_range, decide_eq_true_eq]
    constructor
    · rintro ⟨h1, h2, h3, h4⟩
      have h5 : ss ∣ e - k := by
        rw [← Int.natCast_dvd_natCast, Nat.cast_sub (by omega)]
        exact h4
      obtain ⟨i, hi⟩ := h5
      have hile : i ≤ (e - b) / ss := by
        rw [Nat.le_div_iff_mul_le (by omega)]
        rw [mul_comm]
        omega
      refine ⟨(e - b) / ss - i, by rw [List.mem_range]; omega, ?_⟩
      rw [show (e - b) / ss - ((e - b) / ss - i) = i by omega]
      omega
    · rintro ⟨j, hj, rfl⟩
      rw [List.mem_range] at hj
      have h1 := hmul ((e - b) / ss - j) (by omega)
      refine ⟨by omega, by omega, by omega, ?_⟩
      rw [Nat.cast_sub (by omega)]
      refine ⟨((e - b) / ss - j : Nat), ?_⟩
      push_cast
      ring
  exact hperm.eq_of_pairwise (fun a b _ _ h1 h2 => absurd h1 (Nat.lt_asymm h2)) hs1 hs2

/-- The samples kept by the sub-sampling mask. -/
theorem subMask_pick {α : Type} {n ss b e : Nat} {mask : List Nat} {v v' : List α} (hss : 2 ≤ ss) (hbe : b ≤ e) (he : e < n)
    (hm : SAxis.subSamplingMask n true ss b e = .ok mask) (hv : maskVector mask v = .ok v') : v.length = n ∧ SubOf ss b e v v' := by
  obtain ⟨m, e1, e2, e3⟩ := SAxis.C48_subSamplingMask n ss b e (by omega) (by omega) (by omega) (by omega)
  rw [hm] at e1
  cases e1
  unfold maskVector at hv
  by_cases hl : mask.length ≠ v.length
  · rw [if_pos hl] at hv; cases hv
  rw [if_neg hl] at hv
  push Not at hl
  cases hv
  have hP := go_pick mask v (fun (k : Nat) => (b : Int) ≤ (k : Int) ∧ (k : Int) ≤ e ∧ (ss : Int) ∣ (e : Int) - k) hl (by
    intro k hk
    have := e3 k (by omega)
    rw [List.getElem?_eq_getElem hk] at this
    have := Option.some.inj this
    rw [this]
    split <;> simp_all)
  rw [show v.length = n by omega, filter_progression hss hbe he, List.map_map] at hP
  have hlen := congrArg List.length hP
  rw [List.length_map, List.length_map, List.length_range] at hlen
  refine ⟨by omega, hlen, fun j hj => ?_⟩
  have := congrArg (fun l => l[j]?) hP
  simp only [List.getElem?_map] at this
  rw [List.getElem?_range (by omega)] at this
  simp only [Option.map_some, Function.comp] at this
  rw [List.getElem?_eq_getElem hj] at this ⊢
  exact Option.some.inj this

/-- **C130**, from the ends of the axes: the part of the template goes from the first sample of the spectrum at rest at the last redshift (`E`) to the last
sample at rest at the first redshift (`B`). -/
theorem C130_ends [FloorRing K] {lg : K → K} {q step s0 s1 t0 zb ze : K} {spc tpl : List K} {B E : Int} (hq : 0 < q) (hst : step ≠ 0)
    (hlg : ∀ m : ℤ, |lg (q ^ m) / step - m| < 1 / 2) (hs0 : 0 < s0) (hs1 : 0 < s1) (ht0 : 0 < t0) (h2 : 2 ≤ spc.length) (h3 : 2 ≤ tpl.length)
    (a0 : spc[0]? = some s0) (a1 : spc[spc.length - 1]? = some s1) (b0 : tpl[0]? = some t0) (b1 : tpl[tpl.length - 1]? = some (t0 * q ^ ((tpl.length : ℤ) - 1)))
    (hb : 1 + zb = s1 / (t0 * q ^ B)) (he : 1 + ze = s0 / (t0 * q ^ E)) :
    findTplIndex lg spc tpl step zb ze = if (tpl.length : Int) ≤ B ∨ E < 0 ∨ B < E then .throw .INTERNAL_ERROR else .ok (E, B) := by
  have p1 : 0 < t0 * q ^ ((tpl.length : ℤ) - 1) := by positivity
  unfold findTplIndex
  rw [if_neg (by omega), Res.at_eq_ok.2 a0, Res.bind_ok, Res.at_eq_ok.2 a1, Res.bind_ok, Res.at_eq_ok.2 b0, Res.bind_ok, Res.at_eq_ok.2 b1, Res.bind_ok,
    if_neg (by push Not; exact ⟨ht0.ne', p1.ne'⟩)]
  have z1 : (s0 - t0) / t0 + 1 = s0 / t0 := by field_simp; ring
  have z2 : (s1 - t0 * q ^ ((tpl.length : ℤ) - 1)) / (t0 * q ^ ((tpl.length : ℤ) - 1)) + 1 = s1 / (t0 * q ^ ((tpl.length : ℤ) - 1)) := by
    rw [sub_div, div_self p1.ne']; ring
  have w1 : ze + 1 = s0 / (t0 * q ^ E) := by rw [← he]; ring
  have w2 : zb + 1 = s1 / (t0 * q ^ B) := by rw [← hb]; ring
  simp only []
  rw [z1, z2, w1, w2, steps_near (by positivity) (by positivity) hst, Res.bind_ok, steps_near (by positivity) (by positivity) hst, Res.bind_ok]
  have r1 : s0 / t0 / (s0 / (t0 * q ^ E)) = q ^ E := by
    have := zpow_pos hq E
    field_simp
  have r2 : s1 / (t0 * q ^ B) / (s1 / (t0 * q ^ ((tpl.length : ℤ) - 1))) = q ^ ((tpl.length : ℤ) - 1 - B) := by
    rw [zpow_sub₀ hq.ne' _ B]
    have := zpow_pos hq B
    have := zpow_pos hq ((tpl.length : ℤ) - 1)
    field_simp
  rw [r1, r2, cround_near (hlg _), cround_near (hlg _)]
  by_cases c : (tpl.length : Int) ≤ B ∨ E < 0 ∨ B < E
  · rw [if_pos c]
    by_cases c1 : (tpl.length : Int) ≤ (tpl.length : Int) - 1 - ((tpl.length : Int) - 1 - B) ∨ E < 0
    · rw [if_pos c1]
    · rw [if_neg c1, if_pos (by omega)]
  · rw [if_neg c, if_neg (by omega), if_neg (by omega)]
    congr 2
    omega

/-! ## The spectra -/

/-- What is fitted for one spectrum with the ratio `ss`: the samples of the wavelength range at a multiple of `ss` from its last one, with their errors over the square
root of the ratio. -/
def SubSpectrum (sq : K → K) (ss : Int) (s s' : LogSpc K) : Prop :=
  ∃ i j : Nat, Range.closedIdx s.range s.axis = .ok (i, j) ∧ i ≤ j ∧ j < s.axis.length ∧ s.flux.length = s.axis.length ∧ s.err.length = s.axis.length ∧
    SubOf ss.toNat i j s.axis s'.axis ∧ SubOf ss.toNat i j s.flux s'.flux ∧
    SubOf ss.toNat i j (s.err.map fun e => e / sq ss) s'.err ∧ SAxis.clampLambdaRange s'.axis s.range = .ok s'.range

theorem subOf_map {α β : Type} {ss b e : Nat} {v v' : List α} (f : α → β) (h : SubOf ss b e v v') : SubOf ss b e (v.map f) (v'.map f) := by
  refine ⟨by rw [List.length_map]; exact h.1, fun j hj => ?_⟩
  rw [List.length_map] at hj
  rw [List.getElem?_map, List.getElem?_map, h.2 j hj]

theorem subSpc_spec {sq : K → K} {isLogStep : List K → K → Bool} {logstep : K} {ss : Int} {s s' : LogSpc K} (hss : 2 ≤ ss) (hs : s.axis.Pairwise (· < ·))
    (h : subSpc sq isLogStep logstep ss s = .ok s') : SubSpectrum sq ss s s' ∧ s.isLog = true ∧ s'.isLog = true ∧ s'.step = logstep := by
  unfold subSpc at h
  obtain ⟨⟨i, j⟩, h1, h⟩ := Res.bind_eq_ok.1 h
  obtain ⟨mask, h2, h⟩ := Res.bind_eq_ok.1 h
  obtain ⟨a, h3, h⟩ := Res.bind_eq_ok.1 h
  obtain ⟨f, h4, h⟩ := Res.bind_eq_ok.1 h
  obtain ⟨e, h5, h⟩ := Res.bind_eq_ok.1 h
  by_cases hl : isLogStep a logstep = false
  · rw [if_pos hl] at h; cases h
  rw [if_neg hl] at h
  obtain ⟨r, h6, h⟩ := Res.bind_eq_ok.1 h
  cases h
  obtain ⟨c1, -⟩ := C03_closed s.range s.axis hs
  obtain ⟨d1, d2, -⟩ := c1 i j h1
  have hlog : s.isLog = true := by
    rcases Bool.eq_false_or_eq_true s.isLog with q | q
    · exact q
    · unfold SAxis.subSamplingMask at h2
      rw [if_pos q] at h2; cases h2
  rw [hlog] at h2
  obtain ⟨ss', rfl⟩ : ∃ n : Nat, ss = (n : Int) := ⟨ss.toNat, by omega⟩
  simp only [] at h2
  obtain ⟨-, p1⟩ := subMask_pick (by omega) d1 d2 h2 h3
  obtain ⟨q2, p2⟩ := subMask_pick (by omega) d1 d2 h2 h4
  obtain ⟨q3, p3⟩ := subMask_pick (by omega) d1 d2 h2 h5
  refine ⟨⟨i, j, h1, d1, d2, q2, q3, ?_, ?_, ?_, h6⟩, hlog, rfl, rfl⟩
  · rw [Int.toNat_natCast]; exact p1
  · rw [Int.toNat_natCast]; exact p2
  · rw [Int.toNat_natCast]
    have := subOf_map (fun e => e / sq ((ss' : Nat) : Int)) p3
    have he : (fun e : K => e / sq ((ss' : Int) : K)) = fun e => e * (1 / sq ((ss' : Int) : K)) := by
      funext e; rw [mul_one_div]
    rw [he] at this ⊢
    exact this

theorem subAll_spec {sq : K → K} {isLogStep : List K → K → Bool} {logstep : K} {ss : Int} (hss : 2 ≤ ss) : ∀ (l l' : List (LogSpc K)),
    (∀ s ∈ l, s.axis.Pairwise (· < ·)) → subAll sq isLogStep logstep ss l = .ok l' → List.Forall₂ (SubSpectrum sq ss) l l'
  | [], l', _, h => by unfold subAll at h; cases h; exact .nil
  | s :: l, l', hs, h => by
    unfold subAll at h
    obtain ⟨s', h1, h⟩ := Res.bind_eq_ok.1 h
    obtain ⟨l'', h2, h⟩ := Res.bind_eq_ok.1 h
    cases h
    exact .cons (subSpc_spec hss (hs s (by simp)) h1).1 (subAll_spec hss l l'' (fun s h => hs s (List.mem_cons_of_mem _ h)) h2)

theorem checkOthers_spec [FloorRing K] {logstep : K} {ss : Int} : ∀ l : List (LogSpc K), checkOthers logstep ss l = .ok () →
    ∀ s ∈ l, s.isLog = true ∧ |logstep - ss * s.step| ≤ 1 / 1000000000000
  | [], _ => by simp
  | s :: l, h => by
    unfold checkOthers at h
    obtain ⟨r, h1, h⟩ := Res.bind_eq_ok.1 h
    by_cases c1 : r.1 ≠ ss
    · rw [if_pos c1] at h; cases h
    rw [if_neg c1] at h
    by_cases c2 : 1 / 1000000000000 < |r.2|
    · rw [if_pos c2] at h; cases h
    rw [if_neg c2] at h
    intro s' hs'
    rcases List.mem_cons.1 hs' with rfl | hs'
    · unfold ratio at h1
      by_cases d1 : s'.isLog = false
      · rw [if_pos d1] at h1; cases h1
      rw [if_neg d1] at h1
      by_cases d2 : s'.step = 0
      · rw [if_pos d2] at h1; cases h1
      rw [if_neg d2] at h1
      cases h1
      push Not at c1 c2
      simp only [] at c1 c2
      rw [← c1]
      exact ⟨by simpa using d1, c2⟩
    · exact checkOthers_spec l h s' hs'

/-- **C132**: the redshift step is a whole multiple, the same for all spectra, of the step of each of them (within 1e-12), which are all log sampled; with a
multiple of 1 the spectra are fitted as they are, with a greater one they are sub-sampled and the errors divided by the square root of the multiple. -/
theorem C132_spectra [FloorRing K] {sq lg : K → K} {isLogStep : List K → K → Bool} {zs : List K} {spectra l : List (LogSpc K)} {logstep : K} {ss : Int}
    (hs : ∀ s ∈ spectra, s.axis.Pairwise (· < ·)) (h : checkRedshifts sq lg isLogStep zs spectra = .ok (logstep, ss, l)) :
    (∃ z0 z1, zs[0]? = some z0 ∧ zs[1]? = some z1 ∧ logstep = lg ((z1 + 1) / (z0 + 1))) ∧
    (∀ s ∈ spectra, s.isLog = true ∧ |logstep - ss * s.step| ≤ 1 / 1000000000000) ∧
    (ss = 1 → l = spectra) ∧ (2 ≤ ss → List.Forall₂ (SubSpectrum sq ss) spectra l) := by
  unfold checkRedshifts at h
  by_cases c0 : zs.length < 2
  · rw [if_pos c0] at h; cases h
  rw [if_neg c0] at h
  obtain ⟨z1, h1, h⟩ := Res.bind_eq_ok.1 h
  obtain ⟨z0, h0, h⟩ := Res.bind_eq_ok.1 h
  by_cases c1 : z0 + 1 = 0 ∨ (z1 + 1) / (z0 + 1) ≤ 0
  · rw [if_pos c1] at h; cases h
  rw [if_neg c1] at h
  simp only [] at h
  obtain ⟨s, h2, h⟩ := Res.bind_eq_ok.1 h
  obtain ⟨r, h3, h⟩ := Res.bind_eq_ok.1 h
  by_cases c2 : 1 / 1000000000000 < |r.2|
  · rw [if_pos c2] at h; cases h
  rw [if_neg c2] at h
  obtain ⟨_, h4, h⟩ := Res.bind_eq_ok.1 h
  have hall : ∀ s ∈ spectra, s.isLog = true ∧ |lg ((z1 + 1) / (z0 + 1)) - r.1 * s.step| ≤ 1 / 1000000000000 := by
    have h2 := Res.at_eq_ok.1 h2
    cases spectra with
    | nil => simp at h2
    | cons s0 rest =>
      simp only [List.getElem?_cons_zero, Option.some.injEq] at h2
      subst h2
      intro s' hs'
      rcases List.mem_cons.1 hs' with rfl | hs'
      · unfold ratio at h3
        by_cases d1 : s'.isLog = false
        · rw [if_pos d1] at h3; cases h3
        rw [if_neg d1] at h3
        by_cases d2 : s'.step = 0
        · rw [if_pos d2] at h3; cases h3
        rw [if_neg d2] at h3
        cases h3
        exact ⟨by simpa using d1, not_lt.1 c2⟩
      · exact checkOthers_spec _ h4 s' hs'
  by_cases c3 : r.1 = 1
  · rw [if_pos c3] at h
    cases h
    rw [c3] at hall
    exact ⟨⟨z0, z1, Res.at_eq_ok.1 h0, Res.at_eq_ok.1 h1, rfl⟩, hall, fun _ => rfl, fun h => absurd h (by norm_num)⟩
  · rw [if_neg c3] at h
    obtain ⟨l', h5, h⟩ := Res.bind_eq_ok.1 h
    cases h
    exact ⟨⟨z0, z1, Res.at_eq_ok.1 h0, Res.at_eq_ok.1 h1, rfl⟩, hall, fun h => absurd h c3, fun h => subAll_spec h _ _ hs h5⟩

/-- **C132**: fewer than two redshifts are refused. -/
theorem C132_refuses [FloorRing K] (sq lg : K → K) (isLogStep : List K → K → Bool) (zs : List K) (spectra : List (LogSpc K)) (h : zs.length < 2) :
    checkRedshifts sq lg isLogStep zs spectra = .throw .INTERNAL_ERROR := if_pos h

/-! ## The template -/

/-- **C132**: on exact grids (spectrum `s0 q^j`, template `t0 q^k`, redshifts of step `q^ss` for which the last sample `j` of the range is the sample `B - ss r` of the template), the
sub-sampled template and spectrum are exact grids of step `q^ss` that satisfy the hypotheses of `C131_total`: the spectrum at redshift `r` is the part of the
template from the sample `R - 1 - r`. -/
theorem C132_aligned [FloorRing K] {sq lg : K → K} {isLogStep : List K → K → Bool} {logstep q step s0 t0 : K} {ss i j B R n' : Nat} {s s' : LogSpc K}
    {zs axis flux : List K} (hq : 1 < q) (hst : step ≠ 0) (hlg : ∀ m : ℤ, |lg (q ^ m) / step - m| < 1 / 2) (hs0 : 0 < s0) (ht0 : 0 < t0) (hss : 2 ≤ ss)
    (hspc : ∀ (k : Nat) (w : K), s.axis[k]? = some w → w = s0 * q ^ k) (htpl : ∀ (k : Nat) (w : K), axis[k]? = some w → w = t0 * q ^ k)
    (hfl : flux.length = axis.length) (hsub : SubOf ss i j s.axis s'.axis) (hij : i ≤ j) (hj : j < s.axis.length) (hn : n' = (j - i) / ss + 1) (h2 : 2 ≤ n')
    (hR : zs.length = R) (hR0 : 0 < R) (hB : B < axis.length) (hE : ss * (R - 1 + (n' - 1)) ≤ B)
    (hz : ∀ (r : Nat) (z : K), zs[r]? = some z → 1 + z = s0 * q ^ j / (t0 * q ^ (B - ss * r)))
    (hstep : |s'.step - step * ss| ≤ 1 / 100000000) (hok : ∀ a, isLogStep a logstep = true) :
    ∃ a f, subTemplate lg isLogStep logstep ss s'.axis s'.step zs axis flux true step = .ok (a, f) ∧
      (∃ E, SubOf ss E B axis a ∧ SubOf ss E B flux f) ∧ s'.axis.length = n' ∧ a.length = R - 1 + n' ∧
      (∀ (k : Nat) (w : K), s'.axis[k]? = some w → w = s0 * q ^ (j - ss * (n' - 1)) * (q ^ ss) ^ k) ∧
      (∀ (k : Nat) (w : K), a[k]? = some w → w = t0 * q ^ (B - ss * (R - 1 + (n' - 1))) * (q ^ ss) ^ k) ∧
      (∀ (r : Nat) (z : K), zs[r]? = some z →
        1 + z = s0 * q ^ (j - ss * (n' - 1)) / (t0 * q ^ (B - ss * (R - 1 + (n' - 1))) * (q ^ ss) ^ (R - 1 - r))) := by
  have hq0 : 0 < q := by linarith
  have hnd : (j - i) / ss = n' - 1 := by omega
  have hdm : ss * (n' - 1) ≤ j - i := by rw [← hnd]; exact Nat.mul_div_le _ _
  obtain ⟨hl, hg⟩ := hsub
  rw [hnd] at hl hg
  have hl' : s'.axis.length = n' := by omega
  have hax : ∀ (k : Nat) (w : K), s'.axis[k]? = some w → w = s0 * q ^ (j - ss * (n' - 1)) * (q ^ ss) ^ k := by
    intro k w hk
    have hkl : k < s'.axis.length := (List.getElem?_eq_some_iff.1 hk).1
    rw [hg k hkl] at hk
    rw [hspc _ _ hk, ← pow_mul, mul_assoc, ← pow_add]
    congr 2
    have : ss * (n' - 1 - k) + ss * k = ss * (n' - 1) := by rw [← mul_add]; congr 1; omega
    omega
  set E := B - ss * (R - 1 + (n' - 1)) with hEdef
  have hsplit : ss * (R - 1 + (n' - 1)) = ss * (R - 1) + ss * (n' - 1) := mul_add _ _ _
  have hzz : ∀ (r : Nat) (z : K), zs[r]? = some z → 1 + z = s0 * q ^ (j - ss * (n' - 1)) / (t0 * q ^ E * (q ^ ss) ^ (R - 1 - r)) := by
    intro r z hr
    have hrl : r < R := by have := (List.getElem?_eq_some_iff.1 hr).1; omega
    rw [hz r z hr, ← pow_mul, mul_assoc, ← pow_add]
    have e1 : ss * (R - 1 - r) + ss * r = ss * (R - 1) := by rw [← mul_add]; congr 1; omega
    have e2 : B - ss * r = E + ss * (R - 1 - r) + ss * (n' - 1) := by omega
    have e3 : j = j - ss * (n' - 1) + ss * (n' - 1) := by omega
    rw [e2, pow_add q (E + ss * (R - 1 - r)), show q ^ j = q ^ (j - ss * (n' - 1)) * q ^ (ss * (n' - 1)) by rw [← pow_add, ← e3]]
    have := pow_pos hq0 (ss * (n' - 1))
    field_simp
  have g0 : zs[0]? = some zs[0] := List.getElem?_eq_getElem (by omega)
  have g1 : zs[zs.length - 1]? = some zs[zs.length - 1] := List.getElem?_eq_getElem (by omega)
  have hmle : ss * 1 ≤ ss * (n' - 1) := Nat.mul_le_mul_left _ (by omega)
  have hidx : findTplIndex lg s'.axis axis step zs[0] zs[zs.length - 1] = .ok ((E : Int), (B : Int)) := by
    have a0 : s'.axis[0]? = some (s0 * q ^ (j - ss * (n' - 1))) := by
      have := List.getElem?_eq_getElem (l := s'.axis) (i := 0) (by omega)
      rw [this, hax 0 _ this, pow_zero, mul_one]
    have a1 : s'.axis[s'.axis.length - 1]? = some (s0 * q ^ j) := by
      have := List.getElem?_eq_getElem (l := s'.axis) (i := s'.axis.length - 1) (by omega)
      rw [this, hax _ _ this, ← pow_mul, mul_assoc, ← pow_add]
      congr 3
      rw [hl']
      omega
    have b0 : axis[0]? = some t0 := by
      have := List.getElem?_eq_getElem (l := axis) (i := 0) (by omega)
      rw [this, htpl 0 _ this, pow_zero, mul_one]
    have b1 : axis[axis.length - 1]? = some (t0 * q ^ ((axis.length : ℤ) - 1)) := by
      have := List.getElem?_eq_getElem (l := axis) (i := axis.length - 1) (by omega)
      rw [this, htpl _ _ this, ← zpow_natCast, Nat.cast_sub (by omega), Nat.cast_one]
    have hzb : (1 : K) + zs[0] = s0 * q ^ j / (t0 * q ^ (B : ℤ)) := by
      rw [hz 0 _ g0, Nat.mul_zero, Nat.sub_zero, zpow_natCast]
    have hze : (1 : K) + zs[zs.length - 1] = s0 * q ^ (j - ss * (n' - 1)) / (t0 * q ^ (E : ℤ)) := by
      rw [hzz _ _ g1, hR, Nat.sub_self, pow_zero, mul_one, zpow_natCast]
    rw [C130_ends (B := (B : ℤ)) (E := (E : ℤ)) hq0 hst hlg (by positivity) (by positivity) ht0 (by omega) (by omega) a0 a1 b0 b1 hzb hze, if_neg (by omega)]
  obtain ⟨mask, m1, m2, m3⟩ := SAxis.C48_subSamplingMask axis.length ss E B (by omega) (by omega) (by omega) (by omega)
  have v1 : maskVector mask axis = .ok (maskVector.go mask axis) := if_neg (by push Not; exact m2)
  have v2 : maskVector mask flux = .ok (maskVector.go mask flux) := if_neg (by push Not; rw [m2, hfl])
  obtain ⟨-, p1⟩ := subMask_pick hss (by omega) hB m1 v1
  obtain ⟨-, p2⟩ := subMask_pick hss (by omega) hB m1 v2
  have hBE : (B - E) / ss = R - 1 + (n' - 1) := by
    rw [show B - E = ss * (R - 1 + (n' - 1)) by omega]
    exact Nat.mul_div_cancel_left _ (by omega)
  refine ⟨_, _, ?_, ⟨E, p1, p2⟩, hl', ?_, hax, ?_, hzz⟩
  · unfold subTemplate
    rw [if_neg (by simp), if_neg (not_lt.2 (by push_cast; exact hstep)), if_neg (by omega), Res.at_eq_ok.2 g0, Res.bind_ok, Res.at_eq_ok.2 g1, Res.bind_ok, hidx, Res.bind_ok,
      m1, Res.bind_ok, v1, Res.bind_ok, v2, Res.bind_ok, hok, if_neg (by simp)]
  · rw [p1.1, hBE]; omega
  · intro k w hk
    have hkl := (List.getElem?_eq_some_iff.1 hk).1
    have hkl2 : k < R - 1 + (n' - 1) + 1 := by rw [p1.1, hBE] at hkl; exact hkl
    rw [p1.2 k hkl, hBE] at hk
    rw [htpl _ _ hk, ← pow_mul, mul_assoc, ← pow_add]
    congr 2
    have : ss * (R - 1 + (n' - 1) - k) + ss * k = ss * (R - 1 + (n' - 1)) := by rw [← mul_add]; congr 1; omega
    omega

/-- A spectrum of 7 samples of which 6 are in the range, redshifts of twice the step. -/
def exLog : LogSpc ℚ := ⟨[4, 8, 16, 32, 64, 128, 256], [1, 2, 3, 4, 5, 6, 7], [2, 2, 2, 2, 2, 2, 2], true, 1, ⟨5, 300⟩⟩

def lg2' (v : ℚ) : ℚ := if v = 4 then 2 else if v = 1 / 2 then -1 else lg2 v

example : (checkRedshifts (fun _ => 2) lg2' (fun _ _ => true) [1, 7] [exLog] >>= fun r => .ok (r.1, r.2.1)) = .ok (2, 2) := by decide +kernel

example : (checkRedshifts (fun _ => 2) lg2' (fun _ _ => true) [1, 7] [exLog] >>= fun r => .ok (r.2.2.map (·.axis))) = .ok [[16, 64, 256]] := by decide +kernel

example : (checkRedshifts (fun _ => 2) lg2' (fun _ _ => true) [1, 7] [exLog] >>= fun r => .ok (r.2.2.map (·.flux))) = .ok [[3, 5, 7]] := by decide +kernel

example : (checkRedshifts (fun _ => 2) lg2' (fun _ _ => true) [1, 7] [exLog] >>= fun r => .ok (r.2.2.map (·.err))) = .ok [[1, 1, 1]] := by decide +kernel

example : exLog.axis.Pairwise (· < ·) := by decide +kernel

/-- The template of this spectrum: from the wavelength of its first sample kept at redshift 7. -/
example : subTemplate (fun v => (if v = 1 / 64 then -6 else if v = 16 then 4 else if v = 1 then 0 else lg2' v)) (fun _ _ => true) 2 2 [16, 64, 256] 2 [1, 7]
    [1, 2, 4, 8, 16, 32, 64, 128] [1, 2, 3, 4, 5, 6, 7, 8] true 1 = .ok ([2, 8, 32, 128], [2, 4, 6, 8]) := by decide +kernel

/-- **C132**: redshifts in decreasing order are not refused: the ratio is negative and the mask is written out of its bounds. -/
theorem C132_decreasing_counterexample : checkRedshifts (fun _ => 2) lg2' (fun _ _ => true) [1, 0] [exLog] = .ub := by
  unfold checkRedshifts
  have h1 : lg2' ((0 + 1) / (1 + 1)) = -1 := by decide +kernel
  have h2 : subSpc (fun _ => (2 : ℚ)) (fun _ _ => true) (-1) (-1) exLog = .ub := by
    unfold subSpc
    have e1 : Range.closedIdx exLog.range exLog.axis = .ok (1, 6) := by decide +kernel
    have e2 : SAxis.subSamplingMask exLog.axis.length exLog.isLog (-1) (1 : Nat) (6 : Nat) = .ub := by decide +kernel
    rw [e1, Res.bind_ok]
    simp only [] at e2 ⊢
    rw [e2]
    rfl
  have h3 : ratio exLog.isLog exLog.step (-1 : ℚ) = .ok (-1, 0) := by decide +kernel
  rw [if_neg (by simp)]
  have z1 : Res.at_ ([1, 0] : List ℚ) 1 = .ok 0 := rfl
  have z0 : Res.at_ ([1, 0] : List ℚ) 0 = .ok 1 := rfl
  have s0 : Res.at_ [exLog] 0 = .ok exLog := rfl
  rw [z1, Res.bind_ok, z0, Res.bind_ok, if_neg (by norm_num)]
  simp only []
  rw [s0, Res.bind_ok, h1, h3, Res.bind_ok, if_neg (by norm_num)]
  simp only [List.tail_cons, checkOthers, Res.bind_ok]
  rw [if_neg (by norm_num), subAll, h2]
  rfl

end TplLog
end Amazed
