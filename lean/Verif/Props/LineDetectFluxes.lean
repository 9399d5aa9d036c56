import Verif.Model.LineDetect
import Verif.Props.PeaksProps

set_option linter.unusedSectionVars false
set_option linter.unusedVariables false

/-! # Line detection: the ratio of a peak (C119) -/

namespace Amazed
namespace LineDetect

variable {K : Type} [Field K] [LinearOrder K] [IsStrictOrderedRing K]

/-! ## Specification -/

/-- The sample `k` is not masked; an empty mask masks nothing. -/
def Open (mask : List K) (k : Nat) : Prop := mask = [] ∨ ∃ m, mask[k]? = some m ∧ m ≠ 0

/-- `k` is the first of the highest open samples of `[rb, re]`, of flux `v`. -/
def Top (flux mask : List K) (rb re k : Nat) (v : K) : Prop :=
  rb ≤ k ∧ k ≤ re ∧ Open mask k ∧ flux[k]? = some v ∧
    (∀ (j : Nat) w, rb ≤ j → j ≤ re → Open mask j → flux[j]? = some w → w ≤ v) ∧
    (∀ (j : Nat) w, rb ≤ j → j < k → Open mask j → flux[j]? = some w → w < v)

open Classical in
/-- The open samples of `[rb, re]` from the wavelength `x - win/2` on, up to the first one at or beyond `x + win/2` included. -/
noncomputable def around (axis mask : List K) (rb re : Nat) (win x : K) : List Nat :=
  (List.range axis.length).filter fun k => decide (rb ≤ k ∧ k ≤ re ∧ Open mask k ∧
    (∀ y, axis[k]? = some y → x - win / 2 ≤ y) ∧ (∀ y, 0 < k → axis[k - 1]? = some y → y < x + win / 2))

/-- The values of a vector at some indices. -/
def pick (v : List K) (l : List Nat) : List K := l.map fun i => v.getD i 0

/-- The noise of a window: the median absolute deviation `d`, or the mean error of the open samples if it is larger; the
errors are ignored when there is none or when they are all 1 on the window, masked samples included. -/
noncomputable def noiseOf (err : List K) (all opn : List Nat) (d : K) : K :=
  open Classical in
  if err = [] ∨ (∀ e ∈ pick err all, e = 1) then d else max d ((pick err opn).sum / (opn.length : K))

/-! ## The highest sample -/

theorem open_full {mask : List K} {n k : Nat} (hm : mask.length = n) (hk : k < n) :
    Open mask k ↔ mask[k]'(by omega) ≠ 0 := by
  unfold Open
  have hk' : k < mask.length := by omega
  constructor
  · rintro (h | ⟨m, h1, h2⟩)
    · rw [h] at hk'; simp at hk'
    · obtain ⟨_, e⟩ := List.getElem?_eq_some_iff.1 h1
      rw [e]; exact h2
  · intro h
    exact Or.inr ⟨_, List.getElem?_eq_getElem hk', h⟩

theorem maxLoop_ok (flux mask : List K) (rb len : Nat) (hm : mask.length = flux.length) (hr : rb + len ≤ flux.length) :
    ∃ st : Option (K × Nat), Res.foldN (maxStep flux mask) rb len none = .ok st ∧
      (st = none → ∀ j, rb ≤ j → j < rb + len → ¬ Open mask j) ∧
      (∀ v k, st = some (v, k) → k < rb + len ∧ rb ≤ k ∧ Open mask k ∧ flux[k]? = some v ∧
        (∀ (j : Nat) w, rb ≤ j → j < rb + len → Open mask j → flux[j]? = some w → w ≤ v) ∧
        (∀ (j : Nat) w, rb ≤ j → j < k → Open mask j → flux[j]? = some w → w < v)) := by
  apply Res.foldN_inv (f := maxStep flux mask) (fun i st => 
      (st = none → ∀ j, rb ≤ j → j < i → ¬ Open mask j) ∧
      (∀ v k, st = some (v, k) → k < i ∧ rb ≤ k ∧ Open mask k ∧ flux[k]? = some v ∧
        (∀ (j : Nat) w, rb ≤ j → j < i → Open mask j → flux[j]? = some w → w ≤ v) ∧
        (∀ (j : Nat) w, rb ≤ j → j < k → Open mask j → flux[j]? = some w → w < v)))
  · exact ⟨fun _ j h1 h2 => by omega, by simp⟩
  · intro i st hi1 hi2 hP
    have hi : i < flux.length := by omega
    have hop := open_full hm hi
    have hval : ∀ (j : Nat) w, j = i → flux[j]? = some w → w = flux[i] := by
      intro j w e h
      subst e
      rw [List.getElem?_eq_getElem hi] at h
      exact (Option.some.inj h).symm
    unfold maxStep
    rw [Res.at_of_lt hi, Res.bind_ok, Res.at_of_lt (by omega : i < mask.length), Res.bind_ok]
    cases st with
    | none =>
      simp only []
      by_cases hmi : mask[i]'(by omega) ≠ 0
      · rw [if_pos hmi]
        refine ⟨_, rfl, by simp, ?_⟩
        intro v k h
        cases h
        refine ⟨by omega, hi1, hop.2 hmi, List.getElem?_eq_getElem hi, ?_, ?_⟩
        · intro j w h1 h2 h3 h4
          by_cases hj : j < i
          · exact absurd h3 (hP.1 rfl j h1 hj)
          · exact le_of_eq (hval j w (by omega) h4)
        · intro j w h1 h2 h3
          exact absurd h3 (hP.1 rfl j h1 h2)
      · rw [if_neg hmi]
        refine ⟨_, rfl, ?_, by simp⟩
        intro _ j h1 h2 h3
        by_cases hj : j < i
        · exact hP.1 rfl j h1 hj h3
        · have : j = i := by omega
          subst this
          exact hmi (hop.1 h3)
    | some s =>
      obtain ⟨v, k⟩ := s
      simp only []
      obtain ⟨b1, b2, b3, b4, b5, b6⟩ := hP.2 v k rfl
      by_cases hc : v < flux[i] ∧ mask[i]'(by omega) ≠ 0
      · rw [if_pos hc]
        refine ⟨_, rfl, by simp, ?_⟩
        intro v' k' h
        cases h
        refine ⟨by omega, hi1, hop.2 hc.2, List.getElem?_eq_getElem hi, ?_, ?_⟩
        · intro j w h1 h2 h3 h4
          by_cases hj : j < i
          · exact le_of_lt (lt_of_le_of_lt (b5 j w h1 hj h3 h4) hc.1)
          · exact le_of_eq (hval j w (by omega) h4)
        · intro j w h1 h2 h3 h4
          exact lt_of_le_of_lt (b5 j w h1 h2 h3 h4) hc.1
      · rw [if_neg hc]
        refine ⟨_, rfl, by simp, ?_⟩
        intro v' k' h
        cases h
        refine ⟨by omega, b2, b3, b4, ?_, b6⟩
        intro j w h1 h2 h3 h4
        by_cases hj : j < i
        · exact b5 j w h1 hj h3 h4
        · have : j = i := by omega
          subst this
          have e := hval j w rfl h4
          rw [e]
          by_contra hlt
          rw [not_le] at hlt
          exact hc ⟨hlt, hop.1 h3⟩

/-! ## The samples of the window -/

open Classical in
theorem maskLoop_ok (flux mask : List K) (a n : Nat) (hm : mask.length = flux.length) (hr : a + n ≤ flux.length) :
    Res.foldN (maskStep flux mask) a n [] = .ok (pick flux ((List.range' a n).filter fun k => decide (Open mask k))) := by
  have H := Res.foldN_inv (f := maskStep flux mask)
    (fun i l => l = pick flux ((List.range' a (i - a)).filter fun k => decide (Open mask k))) n a [] (by simp [pick]) ?_
  · obtain ⟨l, e, hl⟩ := H
    rw [e, hl]
    congr 4
    omega
  · intro i l hi1 hi2 hl
    have hi : i < flux.length := by omega
    have hop := open_full hm hi
    have e : i + 1 - a = (i - a) + 1 := by omega
    have er : List.range' a (i + 1 - a) = List.range' a (i - a) ++ [i] := by
      rw [e, List.range'_concat]
      congr 2
      omega
    unfold maskStep
    rw [Res.at_of_lt (by omega : i < mask.length), Res.bind_ok]
    by_cases hmi : mask[i]'(by omega) ≠ 0
    · rw [if_pos hmi, Res.at_of_lt hi, Res.bind_ok]
      refine ⟨_, rfl, ?_⟩
      have hd : decide (Open mask i) = true := decide_eq_true (hop.2 hmi)
      rw [er, hl, List.filter_append]
      unfold pick
      rw [List.map_append]
      simp [hd, hi]
    · rw [if_neg hmi]
      refine ⟨_, rfl, ?_⟩
      have hd : decide (Open mask i) = false := decide_eq_false (fun h => hmi (hop.1 h))
      rw [er, hl, List.filter_append]
      simp [hd]

open Classical in
theorem meanLoop_ok (err mask : List K) (a n : Nat) (hm : mask.length = err.length) (hr : a + n ≤ err.length) :
    Res.foldN (meanStep err mask) a n (0, 0) =
      .ok ((pick err ((List.range' a n).filter fun k => decide (Open mask k))).sum,
        ((List.range' a n).filter fun k => decide (Open mask k)).length) := by
  have H := Res.foldN_inv (f := meanStep err mask)
    (fun i s => s.1 = (pick err ((List.range' a (i - a)).filter fun k => decide (Open mask k))).sum ∧
      s.2 = ((List.range' a (i - a)).filter fun k => decide (Open mask k)).length) n a (0, 0) (by simp [pick]) ?_
  · obtain ⟨s, e, h1, h2⟩ := H
    have en : a + n - a = n := by omega
    rw [en] at h1 h2
    rw [e, ← h1, ← h2]
  · intro i s hi1 hi2 hl
    have hi : i < err.length := by omega
    have hop := open_full hm hi
    have er : List.range' a (i + 1 - a) = List.range' a (i - a) ++ [i] := by
      have e : i + 1 - a = (i - a) + 1 := by omega
      rw [e, List.range'_concat]
      congr 2
      omega
    unfold meanStep
    rw [Res.at_of_lt (by omega : i < mask.length), Res.bind_ok]
    by_cases hmi : mask[i]'(by omega) ≠ 0
    · rw [if_pos hmi, Res.at_of_lt hi, Res.bind_ok]
      have hd : decide (Open mask i) = true := decide_eq_true (hop.2 hmi)
      refine ⟨_, rfl, ?_, ?_⟩
      · rw [er, List.filter_append, hl.1]
        unfold pick
        rw [List.map_append, List.sum_append]
        simp [hd, hi]
      · rw [er, List.filter_append, List.length_append, hl.2]
        simp [hd]
    · rw [if_neg hmi]
      have hd : decide (Open mask i) = false := decide_eq_false (fun h => hmi (hop.1 h))
      refine ⟨_, rfl, ?_, ?_⟩
      · rw [er, List.filter_append, hl.1]
        simp [hd]
      · rw [er, List.filter_append, List.length_append, hl.2]
        simp [hd]

open Classical in
theorem onesLoop_ok (err : List K) (a n : Nat) (hr : a + n ≤ err.length) :
    Res.foldN (onesStep err) a n true = .ok (decide (∀ e ∈ pick err (List.range' a n), e = 1)) := by
  have H := Res.foldN_inv (f := onesStep err)
    (fun i b => b = decide (∀ e ∈ pick err (List.range' a (i - a)), e = 1)) n a true (by simp [pick]) ?_
  · obtain ⟨b, e, h⟩ := H
    have en : a + n - a = n := by omega
    rw [en] at h
    rw [e, h]
  · intro i b hi1 hi2 hb
    have hi : i < err.length := by omega
    have er : List.range' a (i + 1 - a) = List.range' a (i - a) ++ [i] := by
      have e : i + 1 - a = (i - a) + 1 := by omega
      rw [e, List.range'_concat]
      congr 2
      omega
    have hp : (∀ e ∈ pick err (List.range' a (i + 1 - a)), e = 1) ↔
        (∀ e ∈ pick err (List.range' a (i - a)), e = 1) ∧ err[i] = 1 := by
      rw [er]
      unfold pick
      rw [List.map_append]
      simp only [List.mem_append, List.map_cons, List.map_nil, List.mem_singleton]
      have : err.getD i 0 = err[i] := by simp [hi]
      rw [this]
      constructor
      · intro h
        exact ⟨fun e he => h e (Or.inl he), h _ (Or.inr rfl)⟩
      · rintro ⟨h1, h2⟩ e (he | he)
        · exact h1 e he
        · rw [he]; exact h2
    unfold onesStep
    by_cases ha : ∀ e ∈ pick err (List.range' a (i - a)), e = 1
    · rw [decide_eq_true ha] at hb
      rw [if_pos hb, Res.at_of_lt hi, Res.bind_ok]
      refine ⟨_, rfl, ?_⟩
      rw [decide_eq_decide, hp]
      exact ⟨fun h => ⟨ha, h⟩, fun h => h.2⟩
    · rw [decide_eq_false ha] at hb
      rw [hb]
      refine ⟨_, rfl, ?_⟩
      symm
      rw [decide_eq_false_iff_not, hp]
      exact fun h => ha h.1

open Classical in
/-- The window computed from the two indices is the window of the specification. -/
theorem around_eq (axis mask : List K) (hinc : SAxis.Increasing axis) (rb re : Nat) (hre : re < axis.length) (win x : K)
    (hwin : 0 ≤ win) (hx : x ∈ axis) :
    ∃ l0 r0, SAxis.indexAt axis (x - win / 2) = .ok l0 ∧ SAxis.indexAt axis (x + win / 2) = .ok r0 ∧
      r0 < axis.length ∧
      (∀ mask : List K, around axis mask rb re win x =
        (List.range' (max rb l0) (min (re + 1) (min axis.length (r0 + 1)) - max rb l0)).filter fun k => decide (Open mask k)) ∧
      ∀ (k : Nat) (hk : k < axis.length), axis[k] = x → l0 ≤ k ∧ k ≤ r0 := by
  have hne : axis ≠ [] := by intro h; rw [h] at hx; simp at hx
  obtain ⟨l0, hl, e1, a1, a2⟩ := SAxis.C36_indexAt axis hinc hne (x - win / 2)
  obtain ⟨r0, hr, e2, b1, b2⟩ := SAxis.C36_indexAt axis hinc hne (x + win / 2)
  have hh : 0 ≤ win / 2 := by linarith
  have mono : ∀ (j k : Nat) (hj : j < axis.length) (hk : k < axis.length), j ≤ k → axis[j] ≤ axis[k] := by
    intro j k hj hk hjk
    rcases Nat.lt_or_eq_of_le hjk with h | h
    · exact le_of_lt ((List.pairwise_iff_getElem.1 hinc) j k hj hk h)
    · subst h; exact le_refl _
  have a2' : x - win / 2 ≤ axis[l0] := by
    rcases a2 with h | ⟨_, h⟩
    · exact h
    · have := h x hx
      linarith
  refine ⟨l0, r0, e1, e2, hr, ?_, ?_⟩
  · intro mask
    unfold around
    have hsplit : ∀ k ∈ List.range axis.length, decide (rb ≤ k ∧ k ≤ re ∧ Open mask k ∧
        (∀ y, axis[k]? = some y → x - win / 2 ≤ y) ∧ (∀ y, 0 < k → axis[k - 1]? = some y → y < x + win / 2)) =
        (decide (Open mask k) && decide (max rb l0 ≤ k ∧ k < min (re + 1) (min axis.length (r0 + 1)))) := by
      intro k hk
      rw [List.mem_range] at hk
      rw [← Bool.decide_and, decide_eq_decide]
      have hlow : (∀ y, axis[k]? = some y → x - win / 2 ≤ y) ↔ l0 ≤ k := by
        rw [List.getElem?_eq_getElem hk]
        constructor
        · intro h
          by_contra hc
          have h1 := h _ rfl
          have h2 := a1 k hk (by omega)
          linarith
        · intro h y hy
          cases hy
          exact le_trans a2' (mono l0 k hl hk h)
      have hup : (∀ y, 0 < k → axis[k - 1]? = some y → y < x + win / 2) ↔ k ≤ r0 := by
        constructor
        · intro h
          by_contra hc
          have h1 := h _ (by omega) (List.getElem?_eq_getElem (by omega : k - 1 < axis.length))
          rcases b2 with h2 | ⟨h2, _⟩
          · have := mono r0 (k - 1) hr (by omega) (by omega)
            linarith
          · omega
        · intro h y h0 hy
          rw [List.getElem?_eq_getElem (by omega : k - 1 < axis.length)] at hy
          cases hy
          exact b1 (k - 1) (by omega) (by omega)
      rw [hlow, hup]
      constructor
      · rintro ⟨h1, h2, h3, h4, h5⟩
        exact ⟨h3, by omega, by omega⟩
      · rintro ⟨h1, h2, h3⟩
        exact ⟨by omega, by omega, h1, by omega, by omega⟩
    rw [List.filter_congr hsplit, ← List.filter_filter]
    congr 1
    rw [Peaks.filter_interval _ _ (max rb l0) (min (re + 1) (min axis.length (r0 + 1)))]
    · apply List.ext_getElem
      · simp only [List.length_take, List.length_drop, List.length_range, List.length_range']
        omega
      · intro q h1 h2
        simp
    · intro k hk
      simp
  · intro k hk e
    constructor
    · by_contra hc
      have := a1 k hk (by omega)
      rw [e] at this
      linarith
    · by_contra hc
      rcases b2 with h2 | ⟨h2, _⟩
      · have := (List.pairwise_iff_getElem.1 hinc) r0 k hr hk (by omega)
        rw [e] at this
        linarith
      · omega

theorem median_le {w : List K} {m v : K} (h : Flux.IsMedian w m) (hv : ∀ x ∈ w, x ≤ v) : m ≤ v := by
  obtain ⟨s, hs, a, b, h1, h2, h3⟩ := h
  have ha : a ≤ v := hv a (hs.perm.mem_iff.1 (List.mem_of_getElem? h1))
  have hb : b ≤ v := hv b (hs.perm.mem_iff.1 (List.mem_of_getElem? h2))
  rw [h3]
  split
  · linarith
  · exact ha

/-! ## C119 -/

/-- A well formed spectrum: increasing wavelengths, one flux per wavelength, one error per wavelength or none. -/
structure WF (s : Spc K) : Prop where
  inc : SAxis.Increasing s.axis
  flux : s.flux.length = s.axis.length
  err : s.err.length = s.axis.length ∨ s.err = []

theorem open_default {mask : List K} {n : Nat} (hm : mask = [] ∨ mask.length = n) (k : Nat) (hk : k < n) :
    Open (if mask.length = 0 then List.replicate n (1 : K) else mask) k ↔ Open mask k := by
  rcases hm with h | h
  · subst h
    simp only [List.length_nil, if_true]
    constructor
    · intro _; exact Or.inl rfl
    · intro _
      exact Or.inr ⟨1, by simp [hk], one_ne_zero⟩
  · rw [if_neg (by omega)]

/-- **C119** The ratio of a range of a spectrum: height of its first highest open sample above the median of the open samples around
it, divided by the noise of the same window. The height is never negative and the noise that is reported is the median absolute
deviation, even when the errors of the spectrum were used. -/
theorem C119_fluxes (s : Spc K) (win : K) (rb re : Nat) (mask : List K) (h : WF s) (hwin : 0 ≤ win) (hr : re < s.axis.length)
    (hm : mask = [] ∨ mask.length = s.axis.length) (hopen : ∃ j, rb ≤ j ∧ j ≤ re ∧ Open mask j) :
    ∃ (k : Nat) (v x med d : K), Top s.flux mask rb re k v ∧ s.axis[k]? = some x ∧
      Flux.IsMedian (pick s.flux (around s.axis mask rb re win x)) med ∧
      Peaks.IsMiddle ((pick s.flux (around s.axis mask rb re win x)).map fun y => |y - med|) d ∧
      computeFluxes s win rb re mask =
        .ok (quo (v - med) (noiseOf s.err (around s.axis [] rb re win x) (around s.axis mask rb re win x) d), v - med, d) ∧
      0 ≤ v - med := by
  classical
  have hfl := h.flux
  set M := if mask.length = 0 then List.replicate s.axis.length (1 : K) else mask with hM
  have hMl : M.length = s.axis.length := by
    rcases hm with e | e
    · rw [hM, e]; simp
    · rw [hM]; split
      · simp
      · exact e
  have hMo : ∀ k, k < s.axis.length → (Open M k ↔ Open mask k) := fun k hk => open_default hm k hk
  obtain ⟨j0, hj1, hj2, hj3⟩ := hopen
  obtain ⟨st, e1, hn, hs⟩ := maxLoop_ok s.flux M rb (re + 1 - rb) (by omega) (by omega)
  have erb : rb + (re + 1 - rb) = re + 1 := by omega
  rw [erb] at hn hs
  cases st with
  | none => exact absurd ((hMo j0 (by omega)).2 hj3) (hn rfl j0 hj1 (by omega))
  | some mx =>
  obtain ⟨v, k⟩ := mx
  obtain ⟨c1, c2, c3, c4, c5, c6⟩ := hs v k rfl
  have hk : k < s.axis.length := by omega
  have htop : Top s.flux mask rb re k v := by
    refine ⟨c2, by omega, (hMo k hk).1 c3, c4, ?_, ?_⟩
    · intro j w h1 h2 h3 h4
      exact c5 j w h1 (by omega) ((hMo j (by omega)).2 h3) h4
    · intro j w h1 h2 h3 h4
      exact c6 j w h1 h2 ((hMo j (by omega)).2 h3) h4
  obtain ⟨l0, r0, i1, i2, i3, i4, i5⟩ := around_eq s.axis mask h.inc rb re hr win s.axis[k] hwin (List.getElem_mem hk)
  obtain ⟨i6, i7⟩ := i5 k hk rfl
  have haM : around s.axis M rb re win s.axis[k] = around s.axis mask rb re win s.axis[k] := by
    unfold around
    apply List.filter_congr
    intro q hq
    rw [List.mem_range] at hq
    rw [decide_eq_decide, hMo q hq]
  have hleft : max rb l0 ≤ k := by omega
  have hright : k < min (re + 1) (min s.flux.length (r0 + 1)) := by omega
  have hmask := maskLoop_ok s.flux M (max rb l0) (min (re + 1) (min s.flux.length (r0 + 1)) - max rb l0) (by omega) (by omega)
  have hidx : (List.range' (max rb l0) (min (re + 1) (min s.flux.length (r0 + 1)) - max rb l0)).filter (fun k => decide (Open M k))
      = around s.axis mask rb re win s.axis[k] := by
    rw [← haM, i4 M, hfl]
  rw [hidx] at hmask
  have hmem : k ∈ around s.axis mask rb re win s.axis[k] := by
    rw [← hidx, List.mem_filter]
    refine ⟨?_, by simpa using c3⟩
    rw [List.mem_range'_1]
    omega
  have hne : pick s.flux (around s.axis mask rb re win s.axis[k]) ≠ [] := by
    intro e
    unfold pick at e
    rw [List.map_eq_nil_iff] at e
    rw [e] at hmem
    simp at hmem
  obtain ⟨med, hf, hmed⟩ := Peaks.find_ok _ hne
  obtain ⟨d, hx, hd⟩ := Peaks.xmad_ok _ med hne
  have hnoise : noiseWin s.err M (max rb l0) (min (re + 1) (min s.flux.length (r0 + 1))) d =
      .ok (noiseOf s.err (around s.axis [] rb re win s.axis[k]) (around s.axis mask rb re win s.axis[k]) d) := by
    unfold noiseWin noiseOf
    rcases h.err with he | he
    · by_cases h0 : s.err.length = 0
      · rw [if_pos h0, if_pos (Or.inl (List.length_eq_zero_iff.1 h0))]
      · rw [if_neg h0]
        have hall : around s.axis [] rb re win s.axis[k] =
            List.range' (max rb l0) (min (re + 1) (min s.flux.length (r0 + 1)) - max rb l0) := by
          rw [i4 [], hfl, List.filter_eq_self]
          intro q _
          simp [Open]
        have hz : s.err ≠ [] := fun e => h0 (by rw [e]; rfl)
        rw [onesLoop_ok s.err _ _ (by omega), Res.bind_ok, ← hall]
        by_cases hones : ∀ e ∈ pick s.err (around s.axis [] rb re win s.axis[k]), e = 1
        · rw [if_pos (decide_eq_true hones), if_pos (Or.inr hones)]
        · rw [if_neg (by simpa using hones), if_neg (by rintro (e | e); exact hz e; exact hones e),
            meanLoop_ok s.err M _ _ (by omega) (by omega), Res.bind_ok, hidx]
          have hl : 0 < (around s.axis mask rb re win s.axis[k]).length := List.length_pos_of_mem hmem
          simp only [if_pos hl]
          congr 1
          rw [max_def]
          by_cases hgt : d < (pick s.err (around s.axis mask rb re win s.axis[k])).sum /
              ((around s.axis mask rb re win s.axis[k]).length : K)
          · rw [if_pos hgt, if_pos (le_of_lt hgt)]
          · rw [if_neg hgt]
            split
            · rename_i hle
              exact le_antisymm hle (not_lt.1 hgt)
            · rfl
    · rw [he]
      simp
  refine ⟨k, v, s.axis[k], med, d, htop, List.getElem?_eq_getElem hk, hmed, hd, ?_, ?_⟩
  · unfold computeFluxes
    rw [if_neg (by omega), if_neg (by omega)]
    simp only []
    rw [← hM]
    have t1 : (rb : Int).toNat = rb := by omega
    have t2 : ((re : Int) + 1 - (rb : Int)).toNat = re + 1 - rb := by omega
    have t3 : (re : Int).toNat = re := by omega
    rw [t1, t2, t3, e1, Res.bind_ok]
    simp only []
    unfold fluxesAt
    simp only []
    rw [Res.at_of_lt hk, Res.bind_ok, i1, Res.bind_ok, i2, Res.bind_ok, hmask, Res.bind_ok, hf, Res.bind_ok, hx, Res.bind_ok,
      hnoise, Res.bind_ok]
  · have : med ≤ v := by
      apply median_le hmed
      intro y hy
      unfold pick at hy
      rw [List.mem_map] at hy
      obtain ⟨q, hq, rfl⟩ := hy
      unfold around at hq
      rw [List.mem_filter, List.mem_range] at hq
      obtain ⟨hq1, hq2⟩ := hq
      rw [decide_eq_true_eq] at hq2
      obtain ⟨b1, b2, b3, _, _⟩ := hq2
      have hqf : q < s.flux.length := by omega
      have : s.flux.getD q 0 = s.flux[q] := by simp [hqf]
      rw [this]
      exact htop.2.2.2.2.1 q _ b1 b2 b3 (List.getElem?_eq_getElem hqf)
    linarith

/-- **C119** The ranges that are refused: those that leave the spectrum and those without open sample. -/
theorem C119_errors (s : Spc K) (win : K) (rb re : Int) (mask : List K) (h : WF s) (hm : mask = [] ∨ mask.length = s.axis.length)
    (hbad : (s.axis.length : Int) ≤ re ∨ rb < 0 ∨ ∀ j : Nat, rb ≤ j → (j : Int) ≤ re → ¬ Open mask j) :
    computeFluxes s win rb re mask = .throw .INTERNAL_ERROR := by
  have hfl := h.flux
  unfold computeFluxes
  by_cases h1 : (s.flux.length : Int) ≤ re
  · rw [if_pos h1]
  rw [if_neg h1]
  by_cases h2 : rb < 0
  · rw [if_pos h2]
  rw [if_neg h2]
  rcases hbad with hb | hb | hb
  · omega
  · omega
  simp only []
  set M := if mask.length = 0 then List.replicate s.axis.length (1 : K) else mask with hM
  have hMl : M.length = s.axis.length := by
    rcases hm with e | e
    · rw [hM, e]; simp
    · rw [hM]; split
      · simp
      · exact e
  have hMo : ∀ k, k < s.axis.length → (Open M k ↔ Open mask k) := fun k hk => open_default hm k hk
  by_cases hlen : re + 1 ≤ rb
  · have : (re + 1 - rb).toNat = 0 := by omega
    rw [this]
    rfl
  obtain ⟨st, e1, hn, hs⟩ := maxLoop_ok s.flux M rb.toNat (re + 1 - rb).toNat (by omega) (by omega)
  rw [e1, Res.bind_ok]
  cases st with
  | none => rfl
  | some mx =>
    obtain ⟨v, k⟩ := mx
    obtain ⟨c1, c2, c3, _⟩ := hs v k rfl
    exact absurd ((hMo k (by omega)).1 c3) (hb k (by omega) (by omega))

/-- A spectrum of five samples: the highest sample of the range is 9, the median around it 1, the deviation 0 and the mean error
2, hence a ratio of 4. -/
example : computeFluxes (⟨[1, 2, 3, 4, 5], [1, 1, 9, 1, 0], [2, 2, 2, 2, 2]⟩ : Spc ℚ) 2 1 3 [] = .ok (.num 4, 8, 0) ∧
    computeFluxes (⟨[1, 2, 3, 4, 5], [1, 1, 9, 1, 0], []⟩ : Spc ℚ) 2 1 3 [] = .ok (.pinf, 8, 0) ∧
    computeFluxes (⟨[1, 2, 3, 4, 5], [1, 1, 9, 1, 0], []⟩ : Spc ℚ) 2 1 5 [] = .throw .INTERNAL_ERROR ∧
    WF (⟨[1, 2, 3, 4, 5], [1, 1, 9, 1, 0], [2, 2, 2, 2, 2]⟩ : Spc ℚ) := by
  refine ⟨by decide +kernel, by decide +kernel, by decide +kernel, ⟨?_, rfl, Or.inl rfl⟩⟩
  unfold SAxis.Increasing
  decide +kernel

end LineDetect
end Amazed
