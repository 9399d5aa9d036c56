import Verif.Props.SpectralAxisProps
import Mathlib.Analysis.SpecialFunctions.Pow.Real

/-! # C47-C49: logarithmic sampling cache, sub-sampling masks, resolution -/

set_option linter.unusedSectionVars false

namespace Amazed
namespace SAxis

/-! ## Log sampling cache (C47) -/

/-- Specification of "log-regular within 10%": the log steps are within 10% of a common step. -/
def LogRegular (l : List ℝ) : Prop :=
  ∃ s, ∀ i (h : i + 1 < l.length), 0 < l[i + 1] / l[i] ∧ |Real.log (l[i + 1] / l[i]) - s| ≤ |s| / 10

/-- Operations of a history, with the question "is it log sampled?". -/
inductive LOp where
  | op (o : Op ℝ)
  | askLog

/-- One operation. -/
noncomputable def lstep (a : SAxis ℝ) : LOp → Res (SAxis ℝ)
  | .op o => a.step o
  | .askLog => a.isLogSampled >>= fun r => .ok r.2

/-- A history. -/
noncomputable def lrun (a : SAxis ℝ) : List LOp → Res (SAxis ℝ)
  | [] => .ok a
  | o :: os => a.lstep o >>= fun b => b.lrun os

/-- The cache never wrongly says log sampled. -/
def LogSound (a : SAxis ℝ) : Prop := a.logS = some true → LogRegular a.samples

theorem logRegular_of_short {l : List ℝ} (h : l.length < 2) : LogRegular l := by
  refine ⟨0, fun i hi => ?_⟩
  omega

theorem badStep_false {s0 s : ℝ} (h : badStep s0 s = false) : |s - s0| ≤ |s0| / 10 := by
  unfold badStep at h
  split at h
  · rename_i h0
    have : s = 0 := by simpa using h
    simp [h0, this]
  · rename_i h0
    have h1 : |(s - s0) / s0| ≤ 1 / 10 := by simpa using h
    rw [abs_div, div_le_iff₀ (abs_pos.2 h0)] at h1
    linarith

theorem logLoop_true {s0 : ℝ} : ∀ {x : ℝ} {l : List ℝ}, logLoop s0 x l = .ok true →
    ∀ i (h : i + 1 < (x :: l).length), 0 < (x :: l)[i + 1] / (x :: l)[i] ∧
      |Real.log ((x :: l)[i + 1] / (x :: l)[i]) - s0| ≤ |s0| / 10
  | x, [], _, i, h => by simp at h
  | x, y :: l, hl, i, h => by
    unfold logLoop at hl
    split at hl
    · rename_i hp
      cases hb : badStep s0 (Real.log (y / x)) with
      | true => rw [hb] at hl; simp at hl
      | false =>
        rw [hb] at hl
        simp only [Bool.false_eq_true, if_false] at hl
        cases i with
        | zero => exact ⟨hp, badStep_false hb⟩
        | succ i =>
          have := logLoop_true hl i (by simpa using h)
          simpa using this
    · cases hl

theorem logLoop_of {s0 : ℝ} : ∀ {x : ℝ} {l : List ℝ},
    (∀ i (h : i + 1 < (x :: l).length), 0 < (x :: l)[i + 1] / (x :: l)[i]) →
    ∃ b, logLoop s0 x l = .ok b
  | x, [], _ => ⟨true, rfl⟩
  | x, y :: l, h => by
    unfold logLoop
    have h0 := h 0 (by simp)
    rw [if_pos (by simpa using h0)]
    split
    · exact ⟨false, rfl⟩
    · refine logLoop_of (fun i hi => ?_)
      have := h (i + 1) (by simpa using hi)
      simpa using this

theorem checkLog_sound {a b : SAxis ℝ} {r : Bool} (h : a.checkLog = .ok (r, b)) :
    b.samples = a.samples ∧ b.logS = some r ∧ (r = true → LogRegular a.samples) := by
  unfold checkLog at h
  match hl : a.samples with
  | [] => rw [hl] at h; cases h
  | [x] => rw [hl] at h; cases h
  | x :: y :: l =>
    rw [hl] at h
    simp only at h
    split at h
    · obtain ⟨r', h1, h2⟩ := Res.bind_eq_ok.1 h
      cases h2
      refine ⟨rfl, rfl, ?_⟩
      intro hr
      subst hr
      exact ⟨_, logLoop_true h1⟩
    · cases h

/-- A fresh check of positive samples (at least two) always gives an answer. -/
theorem checkLog_total (l : List ℝ) (h2 : 2 ≤ l.length) (hpos : ∀ x ∈ l, 0 < x) :
    ∃ r b, (ofList l).isLogSampled = .ok (r, b) := by
  match l, h2 with
  | x :: y :: l, _ =>
    have hr : ∀ i (h : i + 1 < (x :: y :: l).length), 0 < (x :: y :: l)[i + 1] / (x :: y :: l)[i] :=
      fun i h => div_pos (hpos _ (List.getElem_mem _)) (hpos _ (List.getElem_mem _))
    obtain ⟨b, hb⟩ := logLoop_of (s0 := Real.log (y / x)) hr
    refine ⟨b, ⟨x :: y :: l, none, some b⟩, ?_⟩
    unfold isLogSampled ofList checkLog
    simp only
    rw [if_pos (by simpa using hr 0 (by simp)), hb]
    rfl

/-- A list with exactly constant ratio of positive samples is recognised. -/
theorem checkLog_geometric (x q : ℝ) (hx : 0 < x) (hq : 0 < q) (n : Nat) (hn : 2 ≤ n) :
    ∃ b, (ofList ((List.range n).map (fun i => x * q ^ i))).isLogSampled = .ok (true, b) := by
  obtain ⟨m, rfl⟩ : ∃ m, n = m + 2 := ⟨n - 2, by omega⟩
  have hstep : ∀ k : Nat, ∀ y : ℝ, 0 < y → ∀ l : List ℝ, l = (List.range k).map (fun i => y * q ^ (i + 1)) →
      logLoop (Real.log q) y l = .ok true := by
    intro k
    induction k with
    | zero => intro y _ l hl; subst hl; rfl
    | succ k ih =>
      intro y hy l hl
      rw [List.range_succ_eq_map, List.map_cons, List.map_map] at hl
      subst hl
      have hr : y * q ^ (0 + 1) / y = q := by field_simp; ring
      unfold logLoop
      rw [hr, if_pos hq]
      have hb : badStep (Real.log q) (Real.log q) = false := by
        unfold badStep
        split
        · rename_i h; simp [h]
        · simp
      rw [hb]
      simp only [Bool.false_eq_true, if_false]
      refine ih (y * q ^ (0 + 1)) (by positivity) _ ?_
      apply List.map_congr_left
      intro i _
      simp only [Function.comp_apply, Nat.succ_eq_add_one]
      ring
  have hl : (List.range (m + 2)).map (fun i => x * q ^ i) =
      x :: (x * q) :: (List.range m).map (fun i => x * q * q ^ (i + 1)) := by
    rw [List.range_succ_eq_map, List.map_cons, List.map_map, List.range_succ_eq_map, List.map_cons, List.map_map]
    simp only [pow_zero, mul_one, Function.comp_apply, Nat.succ_eq_add_one, zero_add, pow_one]
    congr 2
    apply List.map_congr_left
    intro i _
    simp only [Function.comp_apply, Nat.succ_eq_add_one]
    ring
  have hr : x * q / x = q := by field_simp
  refine ⟨⟨(List.range (m + 2)).map (fun i => x * q ^ i), none, some true⟩, ?_⟩
  · unfold isLogSampled ofList checkLog
    rw [hl]
    simp only
    rw [hr, if_pos hq]
    unfold logLoop
    rw [hr, if_pos hq]
    have hb : badStep (Real.log q) (Real.log q) = false := by
      unfold badStep
      split
      · rename_i h; simp [h]
      · simp
    rw [hb]
    simp only [Bool.false_eq_true, if_false]
    rw [hstep m (x * q) (by positivity) _ rfl]
    rfl

theorem logRegular_map {f : ℝ → ℝ} (hf : ∀ x y : ℝ, f y / f x = y / x) {l : List ℝ} (h : LogRegular l) :
    LogRegular (l.map f) := by
  obtain ⟨s, hs⟩ := h
  refine ⟨s, fun i hi => ?_⟩
  simp only [List.getElem_map, hf]
  exact hs i (by simpa using hi)

theorem logRegular_window {l : List ℝ} (h : LogRegular l) (i n : Nat) : LogRegular ((l.drop i).take n) := by
  obtain ⟨s, hs⟩ := h
  refine ⟨s, fun k hk => ?_⟩
  simp only [List.getElem_take, List.getElem_drop]
  simp only [List.length_take, List.length_drop] at hk
  exact hs (i + k) (by omega)

theorem mul_logSound {a : SAxis ℝ} (h : a.LogSound) {c : ℝ} (hc : c ≠ 0) : (a.mul c).LogSound := by
  intro hs
  refine logRegular_map (f := (· * c)) (fun x y => ?_) (h hs)
  rw [mul_div_mul_right _ _ hc]

theorem div_logSound {a b : SAxis ℝ} (h : a.LogSound) {c : ℝ} (hd : a.div c = .ok b) : b.LogSound := by
  unfold div at hd
  split at hd
  · cases hd
  · rename_i hc
    cases hd
    intro hs
    refine logRegular_map (f := (· / c)) (fun x y => ?_) (h hs)
    rw [div_div_div_cancel_right₀ hc]

/-- Operations that keep the cached answer right. -/
def LogSafe : LOp → Prop
  | .op (.mul c) => c ≠ 0
  | .op (.offset c) => c = 0
  | .op (.raw _) => False
  | _ => True

theorem lstep_sound {a b : SAxis ℝ} (h : a.LogSound) (o : LOp) (hs : LogSafe o) (hb : a.lstep o = .ok b) :
    b.LogSound := by
  cases o with
  | askLog =>
    obtain ⟨⟨r, c⟩, h1, h2⟩ := Res.bind_eq_ok.1 (show (a.isLogSampled >>= fun r => .ok r.2) = _ from hb)
    cases h2
    unfold isLogSampled at h1
    split at h1
    · cases h1; exact h
    · obtain ⟨h3, h4, h5⟩ := checkLog_sound h1
      intro h6
      simp only at h6 ⊢
      rw [h4] at h6
      cases h6
      rw [h3]
      exact h5 rfl
  | op o =>
    cases o with
    | mul c => cases hb; exact mul_logSound h hs
    | div c => exact div_logSound h hb
    | mask m =>
      obtain ⟨l, h1, h2⟩ := Res.bind_eq_ok.1 (show (maskVector m a.samples >>= fun l => _) = _ from hb)
      cases h2
      intro h3; cases h3
    | setSize n =>
      have : b = a.setSize n := by cases hb; rfl
      subst this
      intro h3
      unfold setSize at h3 ⊢
      simp only at h3 ⊢
      by_cases hn : n < 2
      · rw [if_pos hn] at h3 ⊢
        refine logRegular_of_short ?_
        simp; omega
      · rw [if_neg hn] at h3 ⊢
        by_cases hl : a.samples.length < n
        · rw [if_pos hl] at h3; cases h3
        · rw [if_neg hl] at h3 ⊢
          simp only at h3 ⊢
          rw [show n - a.samples.length = 0 by omega, List.replicate_zero, List.append_nil]
          have := logRegular_window (h h3) 0 n
          simpa using this
    | extract i j =>
      change a.extract i j = .ok b at hb
      unfold extract at hb
      split at hb
      · cases hb; intro _; exact logRegular_of_short (by simp)
      · split at hb
        · cases hb; intro h3; exact logRegular_window (h h3) _ _
        · cases hb
    | offset c =>
      have hc : c = 0 := hs
      cases hb
      intro h3
      unfold applyOffset at h3
      rw [hc] at h3
      simp at h3
    | write i v =>
      change a.write i v = .ok b at hb
      unfold write at hb
      split at hb
      · cases hb; intro h3; cases h3
      · cases hb
    | assign l => cases hb; intro h3; cases h3
    | clear => cases hb; intro h3; cases h3
    | shift c d =>
      change a.shift c d = .ok b at hb
      unfold shift at hb
      split at hb
      · cases hb
      · cases d with
        | other => cases hb
        | forward =>
          simp only at hb
          split at hb
          · cases hb; exact h
          · rename_i hc; cases hb; exact mul_logSound h hc
        | backward =>
          simp only at hb
          split at hb
          · cases hb; exact h
          · exact div_logSound h hb
    | askSorted =>
      change Res.ok a.isSorted.2 = .ok b at hb
      cases hb
      unfold isSorted
      split <;> exact h
    | raw l => exact hs.elim

/-- **C47.** Over every history without a non null offset, a multiplication by zero or raw access, an axis that says
it is log sampled is log-regular within 10%. Missing from the claim: those three operations, for which it
is false (`C47_offset_counterexample`). -/
theorem C47_isLogSampled_partial (l : List ℝ) (os : List LOp) (hsafe : ∀ o ∈ os, LogSafe o) (a b : SAxis ℝ)
    (h : (ofList l).lrun os = .ok a) (ht : a.isLogSampled = .ok (true, b)) : LogRegular a.samples := by
  have key : ∀ (os : List LOp) (a b : SAxis ℝ), a.LogSound → (∀ o ∈ os, LogSafe o) →
      a.lrun os = .ok b → b.LogSound := by
    intro os
    induction os with
    | nil => intro a b ha _ h; cases h; exact ha
    | cons o os ih =>
      intro a b ha hr h
      obtain ⟨c, h1, h2⟩ := Res.bind_eq_ok.1 (show (a.lstep o >>= fun b => b.lrun os) = _ from h)
      exact ih c b (lstep_sound ha o (hr o (by simp)) h1) (fun o' ho' => hr o' (by simp [ho'])) h2
  have hs := key os (ofList l) a (by intro h; cases h) hsafe h
  unfold isLogSampled at ht
  split at ht
  · rename_i r hr
    simp only [Res.ok.injEq, Prod.mk.injEq] at ht
    exact hs (by rw [hr, ht.1])
  · exact (checkLog_sound ht).2.2 rfl

/-- Adding an offset keeps the cached answer (the condition of `ApplyOffset` is inverted): `[3, 6, 12]` shifted by -2 is
`[1, 4, 10]`, still announced log sampled. -/
theorem C47_offset_counterexample : ∃ a b : SAxis ℝ,
    (ofList [3, 6, 12]).lrun [.askLog, .op (.offset (-2))] = .ok a ∧ a.samples = [1, 4, 10] ∧
    a.isLogSampled = .ok (true, b) ∧ ¬ LogRegular a.samples := by
  have hlog : (ofList [3, 6, 12] : SAxis ℝ).isLogSampled = .ok (true, ⟨[3, 6, 12], none, some true⟩) := by
    have hb : ∀ s, badStep s s = false := by
      intro s
      unfold badStep
      split
      · rename_i h; simp [h]
      · simp
    unfold isLogSampled ofList checkLog
    simp only
    unfold logLoop logLoop logLoop
    have e : (12 : ℝ) / 6 = 6 / 3 := by norm_num
    rw [e, hb]
    norm_num
  refine ⟨⟨[1, 4, 10], none, some true⟩, ⟨[1, 4, 10], none, some true⟩, ?_, rfl, rfl, ?_⟩
  · unfold lrun lstep
    rw [hlog]
    simp only [Res.bind_ok]
    unfold lrun lstep step applyOffset
    simp only [Res.bind_ok, lrun]
    norm_num
  · rintro ⟨s, hs⟩
    have h0 := (hs 0 (by simp)).2
    have h1 := (hs 1 (by simp)).2
    simp only [List.getElem_cons_zero, List.getElem_cons_succ, zero_add] at h0 h1
    norm_num at h0 h1
    have hb : 0 < Real.log (5 / 2) := Real.log_pos (by norm_num)
    have hab : 5 * Real.log (5 / 2) ≤ 4 * Real.log 4 := by
      have e1 : 5 * Real.log (5 / 2) = Real.log ((5 / 2) ^ 5) := by rw [Real.log_pow]; norm_num
      have e2 : 4 * Real.log 4 = Real.log (4 ^ 4) := by rw [Real.log_pow]; norm_num
      rw [e1, e2]
      exact Real.log_le_log (by norm_num) (by norm_num)
    rw [abs_le] at h0 h1
    rcases le_or_gt s 0 with hs0 | hs0
    · rw [abs_of_nonpos hs0] at h0 h1
      linarith [h1.1, h1.2]
    · rw [abs_of_pos hs0] at h0 h1
      linarith [h0.1, h0.2, h1.1, h1.2]

/-- The hypotheses of `C47_isLogSampled_partial` are met: a geometric axis stays log sampled when scaled and cut. -/
example : ∃ b, (ofList ((List.range 5).map (fun i => (3 : ℝ) * 2 ^ i))).isLogSampled = .ok (true, b) :=
  checkLog_geometric 3 2 (by norm_num) (by norm_num) 5 (by norm_num)

example : LogSafe (.op (.mul 2)) ∧ LogSafe (.op (.extract 1 3)) ∧ LogSafe .askLog :=
  ⟨by show (2 : ℝ) ≠ 0; norm_num, trivial, trivial⟩

/-! ## Sub-sampling mask (C48) -/

theorem subMaskLoop_spec (ss b : Int) (hss : 0 < ss) (hb : 0 ≤ b) (fuel : Nat) :
    ∀ (i : Int) (m : List Nat), i < m.length → i - b < fuel →
    ∃ r, subMaskLoop ss b fuel i m = .ok r ∧ r.length = m.length ∧
      ∀ k : Nat, k < m.length → r[k]? = if b ≤ (k : Int) ∧ (k : Int) ≤ i ∧ ss ∣ i - k then some 1 else m[k]? := by
  induction fuel with
  | zero =>
    intro i m h1 h2
    refine ⟨m, ?_, rfl, ?_⟩
    · unfold subMaskLoop; rw [if_pos (by omega)]
    · intro k hk
      rw [if_neg (by omega)]
  | succ fuel ih =>
    intro i m h1 h2
    unfold subMaskLoop
    by_cases hi : i < b
    · rw [if_pos hi]
      exact ⟨m, rfl, rfl, fun k _ => by rw [if_neg (by omega)]⟩
    · rw [if_neg hi, if_neg (by omega)]
      obtain ⟨r, h3, h4, h5⟩ := ih (i - ss) (m.set i.toNat 1) (by simp; omega) (by omega)
      refine ⟨r, h3, by simpa using h4, ?_⟩
      intro k hk
      rw [h5 k (by simpa using hk)]
      have hdvd : ss ∣ i - ss - k ↔ ss ∣ i - k := by
        rw [show i - ss - k = (i - k) - ss by ring]
        exact ⟨fun h => by have := dvd_add h (dvd_refl ss); simpa using this, fun h => dvd_sub h (dvd_refl ss)⟩
      by_cases hki : (k : Int) = i
      · have : k = i.toNat := by omega
        rw [if_neg (by omega), if_pos ⟨by omega, by omega, by rw [hki]; simp⟩, this,
          List.getElem?_set_self (by omega)]
      · have hne : i.toNat ≠ k := by omega
        rw [List.getElem?_set_ne hne]
        simp only [hdvd]
        by_cases hc : b ≤ (k : Int) ∧ (k : Int) ≤ i ∧ ss ∣ i - k
        · rw [if_pos hc]
          by_cases hle : (k : Int) ≤ i - ss
          · rw [if_pos ⟨hc.1, hle, hc.2.2⟩]
          · exfalso
            obtain ⟨q, hq⟩ := hc.2.2
            have hlt : i - k < ss := by omega
            have hgt : 0 < i - k := by omega
            have : 0 < q := by
              by_contra hq0
              have : ss * q ≤ 0 := mul_nonpos_of_nonneg_of_nonpos hss.le (by omega)
              omega
            have : ss ≤ ss * q := le_mul_of_one_le_right hss.le (by omega)
            omega
        · rw [if_neg hc, if_neg]
          rintro ⟨h6, h7, h8⟩
          exact hc ⟨h6, by omega, h8⟩

/-- **C48.** On a log sampled axis of `n` samples, for a sub-sampling ratio of at least 2 and a range of indices in the
axis, the mask has `n` entries and selects exactly the samples of the range at a multiple of the ratio
from its end (so the last sample of the range is always kept). -/
theorem C48_subSamplingMask (n : Nat) (ss b e : Int) (hss : 2 ≤ ss) (hb : 0 ≤ b) (hbe : b ≤ e) (he : e < n) :
    ∃ m, subSamplingMask n true ss b e = .ok m ∧ m.length = n ∧
      ∀ k : Nat, k < n → m[k]? = some (if b ≤ (k : Int) ∧ (k : Int) ≤ e ∧ ss ∣ e - k then 1 else 0) := by
  obtain ⟨r, h1, h2, h3⟩ := subMaskLoop_spec ss b (by omega) hb n e (List.replicate n 0) (by simpa using he) (by omega)
  refine ⟨r, ?_, by simpa using h2, ?_⟩
  · unfold subSamplingMask
    rw [if_neg (by simp), if_neg (by omega), if_neg (by omega), if_neg (by omega), h1]
  · intro k hk
    rw [h3 k (by simpa using hk)]
    split
    · rfl
    · simp [hk]

/-- **C48.** Out-of-axis ranges and axes that are not log sampled are refused. -/
theorem C48_subSampling_refuses (n : Nat) (hn : 0 < n) (ls : Bool) (ss b e : Int)
    (h : ls = false ∨ b < 0 ∨ e < 0 ∨ (n : Int) ≤ e) : subSamplingMask n ls ss b e = .throw .INTERNAL_ERROR := by
  unfold subSamplingMask
  by_cases h1 : ls = false
  · rw [if_pos h1]
  · rw [if_neg h1]
    by_cases h2 : b < 0
    · rw [if_pos h2]
    · rw [if_neg h2, if_pos]
      rcases h with h | h | h | h
      · exact absurd h h1
      · exact absurd h h2
      · exact ⟨by omega, Or.inl h⟩
      · exact ⟨by omega, Or.inr (by omega)⟩

/-- The ratio 1 selects the whole axis, not only the range. -/
theorem C48_ratio_one (n : Nat) (b e : Int) (hb : 0 ≤ b) (he0 : 0 ≤ e) (he : e < n) :
    subSamplingMask n true 1 b e = .ok (List.replicate n 1) := by
  unfold subSamplingMask
  rw [if_neg (by simp), if_neg (by omega), if_neg (by omega), if_pos rfl]

/-- A null ratio never ends (reported as `ub`). -/
theorem C48_ratio_zero (n : Nat) (b e : Int) (hb : 0 ≤ b) (hbe : b ≤ e) (he : e < n) :
    subSamplingMask n true 0 b e = .ub := by
  have : ∀ (fuel : Nat) (m : List Nat), e < m.length → subMaskLoop 0 b fuel e m = .ub := by
    intro fuel
    induction fuel with
    | zero => intro m _; unfold subMaskLoop; rw [if_neg (by omega)]
    | succ fuel ih =>
      intro m hm
      unfold subMaskLoop
      rw [if_neg (by omega), if_neg (by omega), Int.sub_zero]
      exact ih _ (by simpa using hm)
  unfold subSamplingMask
  rw [if_neg (by simp), if_neg (by omega), if_neg (by omega), if_neg (by omega)]
  exact this n _ (by simpa using he)

example : subSamplingMask 7 true 3 1 5 = .ok [0, 0, 1, 0, 0, 1, 0] := by decide

/-! ## Resolution (C49) -/

section
variable {K : Type} [Field K] [LinearOrder K] [IsStrictOrderedRing K]

theorem resSum_eq (l : List K) (b n : Nat) (h : b + n < l.length) :
    resSum l b n = .ok (l[b + n] - l[b]) := by
  unfold resSum
  obtain ⟨s, h1, h2⟩ := Res.foldN_inv
    (f := fun i s => Res.at_ l (i + 1) >>= fun x => Res.at_ l i >>= fun y => .ok (s + (x - y)))
    (fun i s => ∀ hi : i < l.length, s = l[i] - l[b]) n b 0 (by intro _; ring) (by
      intro i s hi1 hi2 hp
      refine ⟨_, by rw [Res.at_of_lt (by omega), Res.bind_ok, Res.at_of_lt (by omega), Res.bind_ok], ?_⟩
      intro hi
      rw [hp (by omega)]
      ring)
  rw [h1, h2 h]

/-- **C49.** The mean resolution over the samples `b … e` is the distance of the ends divided by the number of steps. -/
theorem C49_meanResolution (l : List K) (b e : Nat) (hbe : b < e) (he : e < l.length) :
    meanResolution l b e = .ok ((l[e] - l[b]) / ((e - b : Nat) : K)) := by
  unfold meanResolution
  rw [if_neg (by omega), resSum_eq l b (e - b) (by omega), Res.bind_ok]
  congr 3
  congr 1
  omega

/-- **C49.** On a sorted axis of at least two samples the resolution at any wavelength is defined, and is the positive
distance of two neighbouring samples; for a wavelength inside the axis they enclose it. -/
theorem C49_resolution (l : List K) (hs : Increasing l) (h2 : 2 ≤ l.length) (w : K) :
    ∃ i, ∃ h : i + 1 < l.length, resolution l w = .ok (l[i + 1] - l[i]) ∧ 0 < l[i + 1] - l[i] ∧
      (0 ≤ w → l[0] ≤ w → w ≤ l[l.length - 1] → l[i] ≤ w ∧ w ≤ l[i + 1]) := by
  have hne : l ≠ [] := by intro h; rw [h] at h2; simp at h2
  unfold resolution
  rw [if_neg (by omega)]
  by_cases hw : 0 ≤ w
  · rw [if_pos hw]
    obtain ⟨j, hj, h3, h4, h5⟩ := C36_indexAt l hs hne w
    rw [h3, Res.bind_ok]
    have hcl : (if j > l.length - 1 then l.length - 1 else j) = j := if_neg (by omega)
    simp only [hcl]
    by_cases hj1 : j < 1
    · rw [if_pos hj1, Res.at_of_lt (by omega), Res.bind_ok, Res.at_of_lt (by omega), Res.bind_ok]
      have hj0 : j = 0 := by omega
      subst hj0
      refine ⟨0, by omega, rfl, sub_pos.2 (getElem_lt_of_lt hs (by omega) (by omega)), ?_⟩
      intro _ h6 _
      refine ⟨h6, ?_⟩
      rcases h5 with h5 | ⟨h5, _⟩
      · exact le_trans h5 (getElem_lt_of_lt hs (by omega) (by omega)).le
      · omega
    · rw [if_neg hj1, Res.at_of_lt hj, Res.bind_ok, Res.at_of_lt (by omega), Res.bind_ok]
      obtain ⟨k, rfl⟩ : ∃ k, j = k + 1 := ⟨j - 1, by omega⟩
      refine ⟨k, hj, rfl, sub_pos.2 (getElem_lt_of_lt hs (by omega) (by omega)), ?_⟩
      intro _ _ h7
      refine ⟨(h4 k (by omega) (by omega)).le, ?_⟩
      rcases h5 with h5 | ⟨h5, h8⟩
      · exact h5
      · exact absurd (h8 _ (List.getElem_mem (by omega : l.length - 1 < l.length))) (not_lt.2 h7)
  · rw [if_neg hw, Res.at_of_lt (by omega), Res.bind_ok, Res.at_of_lt (by omega), Res.bind_ok]
    exact ⟨0, by omega, rfl, sub_pos.2 (getElem_lt_of_lt hs (by omega) (by omega)), fun h => absurd h hw⟩

example : meanResolution ([1, 2, 4, 8] : List ℚ) 0 3 = .ok (7/3) ∧ resolution ([1, 2, 4, 8] : List ℚ) 3 = .ok 2 :=
  ⟨by decide +kernel, by decide +kernel⟩

end

end SAxis
end Amazed
