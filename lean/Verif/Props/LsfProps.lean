import Mathlib.Tactic.Linarith
import Mathlib.Tactic.FieldSimp
import Mathlib.Tactic.Ring
import Mathlib.Tactic.NormNum
import Verif.Model.Lsf
import Verif.Props.IndexingProps
import Verif.Props.LineProfileProps

/-! # C57: line spread functions -/

namespace Amazed
namespace Lsf

/-- Specification: what makes a line spread function acceptable. -/
def Good : T → Prop
  | .constWidth w => 0 < w
  | .constRes r => 1 < r
  | .nisp2016 => True
  | .nispVss _ => True
  | .varWidth ls ws => ws ≠ [] ∧ ls.length = ws.length ∧ ∀ w ∈ ws, 0 < w

/-- **C57.** The constructor accepts exactly the good functions; it refuses the others with INVALID_LSF, or BAD_COUNTMATCH
when the widths are missing or not as many as the wavelengths. -/
theorem C57_make (t : T) :
    (make t = .ok t ↔ Good t) ∧
    (¬ Good t → make t = .throw .INVALID_LSF ∨
      (make t = .throw .BAD_COUNTMATCH ∧ ∃ ls ws, t = .varWidth ls ws ∧ (ws = [] ∨ ls.length ≠ ws.length))) := by
  cases t with
  | constWidth w =>
    unfold make isValid Good
    by_cases h : 0 < w <;> simp [h]
  | constRes r =>
    unfold make isValid Good
    by_cases h : 1 < r <;> simp [h]
  | nisp2016 => simp [make, isValid, Good]
  | nispVss s => simp [make, isValid, Good]
  | varWidth ls ws =>
    unfold make isValid Good
    by_cases h1 : ws = []
    · subst h1; simp
    · have h1' : ws.length ≠ 0 := by simpa using h1
      by_cases h2 : ls.length = ws.length
      · by_cases h3 : ∀ w ∈ ws, 0 < w
        · have : ws.all (fun w => decide (0 < w)) = true := by simpa using h3
          simp [h1, h2, this]; exact h3
        · have : ws.all (fun w => decide (0 < w)) = false := by
            rw [← Bool.not_eq_true]; simpa using h3
          simp [h1, h2, this, h3]
      · simp [h1, h2]

theorem isValid_of_good {t : T} (h : Good t) : isValid t = .ok true := by
  have := (C57_make t).1.2 h
  unfold make at this
  obtain ⟨b, hb, h2⟩ := Res.bind_eq_ok.1 this
  cases b
  · simp at h2
  · exact hb

/-- **C57.** At a wavelength of the table the tabulated width is returned; between two consecutive wavelengths of the table
the width is the linear interpolation of the two tabulated ones, hence between them. -/
theorem C57_variable (ls ws : List ℝ) (h : Good (.varWidth ls ws)) (hs : ls.Pairwise (· < ·)) :
    (∀ (i : Nat) li wi, ls[i]? = some li → ws[i]? = some wi → widthAt (.varWidth ls ws) li = .ok wi) ∧
    (∀ (i : Nat) li lj wi wj l, ls[i]? = some li → ls[i + 1]? = some lj → ws[i]? = some wi → ws[i + 1]? = some wj →
      li < l → l < lj →
      ∃ w, widthAt (.varWidth ls ws) l = .ok w ∧ (w - wi) * (lj - li) = (wj - wi) * (l - li) ∧ min wi wj ≤ w ∧ w ≤ max wi wj) := by
  obtain ⟨hne, hlen, hpos⟩ := h
  have hwl : 0 < ws.length := List.length_pos_iff.2 hne
  have hmono : ∀ (i j : Nat) (a b : ℝ), i < j → ls[i]? = some a → ls[j]? = some b → a < b := by
    intro i j a b hij ha hb
    obtain ⟨h1, rfl⟩ := List.getElem?_eq_some_iff.1 ha
    obtain ⟨h2, rfl⟩ := List.getElem?_eq_some_iff.1 hb
    exact getElem_lt_of_lt hs hij h2
  have hle : ∀ (i j : Nat) (a b : ℝ), i ≤ j → ls[i]? = some a → ls[j]? = some b → a ≤ b := by
    intro i j a b hij ha hb
    rcases Nat.lt_or_eq_of_le hij with h | h
    · exact (hmono i j a b h ha hb).le
    · subst h; rw [ha] at hb; cases hb; exact le_rfl
  have havail : ∀ (i j : Nat) (a b l : ℝ), ls[i]? = some a → ls[j]? = some b → a ≤ l → l ≤ b →
      available (.varWidth ls ws) l = .ok true := by
    intro i j a b l ha hb h1 h2
    have hj := (List.getElem?_eq_some_iff.1 hb).1
    simp only [available]
    rw [Res.at_of_lt (by omega : 0 < ls.length), Res.bind_ok,
      if_pos (le_trans (hle 0 i _ _ (by omega) (by simp) ha) h1),
      Res.at_of_lt (by omega : ws.length - 1 < ls.length), Res.bind_ok]
    simp only [Res.ok.injEq, decide_eq_true_eq]
    exact le_trans h2 (hle j (ws.length - 1) _ _ (by omega) hb (by simp))
  have hidx : ∀ (i : Nat) (li l : ℝ), ls[i]? = some li → li ≤ l → (∀ lj, ls[i + 1]? = some lj → l < lj) →
      getClosestLowerIndex ls l = .ok (some i) := by
    intro i li l hi h1 h2
    have hil := (List.getElem?_eq_some_iff.1 hi).1
    have h0 : ls[0]? = some (ls[0]'(by omega)) := by simp
    have hf : ¬ l < ls[0]'(by omega) := not_lt.2 (le_trans (hle 0 i _ _ (by omega) h0 hi) h1)
    unfold getClosestLowerIndex
    rw [h0]
    simp only
    rw [if_neg hf]
    rcases eq_or_lt_of_le h1 with he | hlt
    · have hb : lowerBound ls l = i := by
        apply lowerBound_eq_of (pairwise_le_of_lt hs) (by omega)
        · intro k hk hki
          rw [← he]; exact hmono k i _ _ hki (by simp) hi
        · intro k hk hki
          rw [← he]; exact hle i k _ _ hki hi (by simp)
      rw [hb, hi]
      simp [he]
    · have hb : lowerBound ls l = i + 1 := by
        apply lowerBound_eq_of (pairwise_le_of_lt hs) (by omega)
        · intro k hk hki
          exact lt_of_le_of_lt (hle k i _ _ (by omega) (by simp) hi) hlt
        · intro k hk hki
          have hnext : ls[i + 1]? = some (ls[i + 1]'(by omega)) := by simp
          exact le_trans (h2 _ hnext).le (hle (i + 1) k _ _ hki hnext (by simp))
      rw [hb]
      cases hnx : ls[i + 1]? with
      | none => simp [Range.decIdx, Functor.map, Res.bind]
      | some x =>
        simp only
        rw [if_pos (h2 x hnx).ne']
        simp [Range.decIdx, Functor.map, Res.bind]
  constructor
  · intro i li wi hi hw
    simp only [widthAt]
    rw [havail i i li li li hi hi le_rfl le_rfl, Res.bind_ok, if_neg (by simp),
      hidx i li li hi le_rfl (fun lj hj => hmono i (i + 1) _ _ (by omega) hi hj), Res.bind_ok]
    simp only
    rw [Res.at_eq_ok.2 hi, Res.bind_ok, if_pos rfl, Res.at_eq_ok.2 hw]
  · intro i li lj wi wj l hi hj hwi hwj h1 h2
    have hd : 0 < lj - li := by linarith
    refine ⟨wi * (1 - (l - li) / (lj - li)) + wj * ((l - li) / (lj - li)), ?_, ?_, ?_, ?_⟩
    · simp only [widthAt]
      rw [havail i (i + 1) li lj l hi hj h1.le h2.le, Res.bind_ok, if_neg (by simp),
        hidx i li l hi h1.le (fun lj' hj' => by rw [hj] at hj'; cases hj'; exact h2), Res.bind_ok]
      simp only
      rw [Res.at_eq_ok.2 hi, Res.bind_ok, if_neg h1.ne, Res.at_eq_ok.2 hj, Res.bind_ok, Res.at_eq_ok.2 hwi, Res.bind_ok,
        Res.at_eq_ok.2 hwj, Res.bind_ok, if_neg hd.ne']
    · have : (l - li) / (lj - li) * (lj - li) = l - li := div_mul_cancel₀ _ hd.ne'
      calc _ = (wj - wi) * ((l - li) / (lj - li) * (lj - li)) := by ring
        _ = _ := by rw [this]
    all_goals
      have ht0 : 0 ≤ (l - li) / (lj - li) := div_nonneg (by linarith) hd.le
      have ht1 : (l - li) / (lj - li) ≤ 1 := (div_le_one hd).2 (by linarith)
      generalize (l - li) / (lj - li) = t at ht0 ht1
    · have a1 := min_le_left wi wj
      have a2 := min_le_right wi wj
      nlinarith
    · have a1 := le_max_left wi wj
      have a2 := le_max_right wi wj
      nlinarith

/-- **C57.** Outside the table the width is refused with INSUFFICIENT_LSF_COVERAGE, or, when clipping is asked, it is the
width at the nearest end of the table. -/
theorem C57_variable_outside (ls ws : List ℝ) (h : Good (.varWidth ls ws)) (hs : ls.Pairwise (· < ·))
    (l0 lN w0 wN : ℝ) (h0 : ls.head? = some l0) (hN : ls.getLast? = some lN) (hw0 : ws.head? = some w0)
    (hwN : ws.getLast? = some wN) (l : ℝ) :
    (l < l0 ∨ lN < l → width (.varWidth ls ws) l false = .throw .INSUFFICIENT_LSF_COVERAGE) ∧
    (l ≤ l0 → width (.varWidth ls ws) l true = .ok w0) ∧
    (lN ≤ l → width (.varWidth ls ws) l true = .ok wN) ∧
    (l0 ≤ l → l ≤ lN → width (.varWidth ls ws) l true = width (.varWidth ls ws) l false) := by
  have hg := h
  obtain ⟨hne, hlen, hpos⟩ := h
  have hwl : 0 < ws.length := List.length_pos_iff.2 hne
  have e0 : ls[0]? = some l0 := by rw [← List.head?_eq_getElem?]; exact h0
  have eN : ls[ws.length - 1]? = some lN := by rw [← hlen, ← List.getLast?_eq_getElem?]; exact hN
  have f0 : ws[0]? = some w0 := by rw [← List.head?_eq_getElem?]; exact hw0
  have fN : ws[ws.length - 1]? = some wN := by rw [← List.getLast?_eq_getElem?]; exact hwN
  have hle : l0 ≤ lN := by
    obtain ⟨h1, rfl⟩ := List.getElem?_eq_some_iff.1 e0
    obtain ⟨h2, rfl⟩ := List.getElem?_eq_some_iff.1 eN
    exact getElem_le_of_le (pairwise_le_of_lt hs) (by omega) h2
  have hr : range (.varWidth ls ws) = ⟨l0, lN⟩ := by simp only [range]; rw [h0, hN]; rfl
  obtain ⟨hv, -⟩ := C57_variable ls ws hg hs
  refine ⟨?_, ?_, ?_, ?_⟩
  · intro hout
    simp only [width, widthAt, available, Bool.false_eq_true, if_false]
    rw [Res.at_eq_ok.2 e0, Res.bind_ok]
    rcases hout with h1 | h1
    · rw [if_neg (not_le.2 h1)]; rfl
    · rw [if_pos (by linarith : l0 ≤ l), Res.at_eq_ok.2 eN, Res.bind_ok]
      have : decide (l ≤ lN) = false := by simpa using h1
      rw [this]; rfl
  · intro h1
    unfold width
    simp only [if_true, hr]
    have : (⟨l0, lN⟩ : Range ℝ).clamp l = l0 := by
      unfold Range.clamp; simp only
      split
      · rfl
      · have : l = l0 := by linarith
        rw [if_neg (by linarith)]; exact this
    rw [this]
    exact hv 0 l0 w0 e0 f0
  · intro h1
    unfold width
    simp only [if_true, hr]
    have : (⟨l0, lN⟩ : Range ℝ).clamp l = lN := by
      unfold Range.clamp; simp only
      rw [if_neg (by linarith)]
      split
      · rfl
      · linarith
    rw [this]
    exact hv _ lN wN eN fN
  · intro h1 h2
    unfold width
    simp only [if_true, hr, Bool.false_eq_true, if_false]
    have : (⟨l0, lN⟩ : Range ℝ).clamp l = l := by
      unfold Range.clamp; simp only
      rw [if_neg (by linarith), if_neg (by linarith)]
    rw [this]

/-- **C57.** With clipping, every acceptable function (on a strictly increasing table for the tabulated one) has a width at
every wavelength, and it is positive. -/
theorem C57_width_pos (t : T) (h : Good t) (hs : ∀ ls ws, t = .varWidth ls ws → ls.Pairwise (· < ·)) (l : ℝ) :
    ∃ w, width t l true = .ok w ∧ 0 < w := by
  have hcl : ∀ l : ℝ, 200 ≤ (⟨200, 30000⟩ : Range ℝ).clamp l := by
    intro l; unfold Range.clamp; simp only
    split
    · exact le_rfl
    · split
      · norm_num
      · linarith
  have hcl := hcl l
  cases t with
  | constWidth w => exact ⟨w, rfl, h⟩
  | constRes r =>
    have hr : (0 : ℝ) < r := lt_trans one_pos h
    refine ⟨(⟨200, 30000⟩ : Range ℝ).clamp l / r * factor, by simp [width, widthAt, range, hr.ne'], ?_⟩
    have : (0 : ℝ) < factor := by unfold factor; norm_num
    have : (0 : ℝ) < (⟨200, 30000⟩ : Range ℝ).clamp l := by linarith
    positivity
  | nisp2016 =>
    refine ⟨_, by simp only [width, widthAt, range, if_true]; rfl, ?_⟩
    have : (0 : ℝ) < (⟨200, 30000⟩ : Range ℝ).clamp l := by linarith
    positivity
  | nispVss s =>
    refine ⟨_, by simp only [width, widthAt, range, if_true]; rfl, ?_⟩
    have : (0 : ℝ) < (⟨200, 30000⟩ : Range ℝ).clamp l := by linarith
    apply Real.sqrt_pos.2
    apply add_pos_of_pos_of_nonneg
    · positivity
    · exact mul_self_nonneg _
  | varWidth ls ws =>
    have hss := hs ls ws rfl
    obtain ⟨hne, hlen, hpos⟩ := id h
    have hwl : 0 < ws.length := List.length_pos_iff.2 hne
    have hlne : ls ≠ [] := by intro hc; rw [hc] at hlen; simp at hlen; omega
    obtain ⟨ho, h0, hN, hin⟩ := C57_variable_outside ls ws h hss (ls.head hlne) (ls.getLast hlne) (ws.head hne) (ws.getLast hne)
      (List.head?_eq_some_head hlne) (List.getLast?_eq_some_getLast hlne) (List.head?_eq_some_head hne)
      (List.getLast?_eq_some_getLast hne) l
    by_cases h1 : l ≤ ls.head hlne
    · exact ⟨_, h0 h1, hpos _ (List.head_mem hne)⟩
    by_cases h2 : ls.getLast hlne ≤ l
    · exact ⟨_, hN h2, hpos _ (List.getLast_mem hne)⟩
    push Not at h1 h2
    rw [hin h1.le h2.le]
    obtain ⟨hv, hi⟩ := C57_variable ls ws h hss
    -- the last sample at or below l
    have hex : ∃ (i : Nat) (li lj : ℝ), ls[i]? = some li ∧ ls[i + 1]? = some lj ∧ li ≤ l ∧ l < lj := by
      have hb1 : lowerBound ls l ≤ ls.length - 1 := by
        apply (lowerBound_le_iff (pairwise_le_of_lt hss) (by omega)).2
        rw [List.getLast_eq_getElem] at h2; exact h2.le
      have hb0 : 0 < lowerBound ls l := by
        by_contra hc
        have : lowerBound ls l = 0 := by omega
        have h3 := (lowerBound_le_iff (pairwise_le_of_lt hss) (by omega : 0 < ls.length) (v := l)).1 (by omega)
        rw [List.head_eq_getElem] at h1
        linarith
      rcases eq_or_lt_of_le (le_getElem_lowerBound (l := ls) (v := l) (by omega)) with he | hlt
      · have hlt2 : lowerBound ls l < ls.length - 1 := by
          rcases Nat.lt_or_eq_of_le hb1 with h3 | h3
          · exact h3
          · exfalso
            rw [List.getLast_eq_getElem] at h2
            have : ls[lowerBound ls l]'(by omega) = ls[ls.length - 1]'(by omega) := by congr 1
            linarith
        exact ⟨lowerBound ls l, _, _, List.getElem?_eq_getElem (by omega), List.getElem?_eq_getElem (by omega), he.symm.le,
          lt_of_le_of_lt he.le (getElem_lt_of_lt hss (by omega) (by omega))⟩
      · exact ⟨lowerBound ls l - 1, ls[lowerBound ls l - 1]'(by omega), ls[lowerBound ls l]'(by omega),
          List.getElem?_eq_getElem (by omega),
          by rw [show lowerBound ls l - 1 + 1 = lowerBound ls l by omega]; exact List.getElem?_eq_getElem (by omega),
          (lt_of_lt_lowerBound (by omega) (by omega)).le, hlt⟩
    obtain ⟨i, li, lj, e1, e2, h3, h4⟩ := hex
    have hi1 := (List.getElem?_eq_some_iff.1 e2).1
    have w1 : ws[i]? = some (ws[i]'(by omega)) := by simp
    have w2 : ws[i + 1]? = some (ws[i + 1]'(by omega)) := by simp
    rcases eq_or_lt_of_le h3 with h5 | h5
    · subst h5
      exact ⟨_, by unfold width; simp only [Bool.false_eq_true, if_false]; exact hv i li _ e1 w1, hpos _ (List.getElem_mem _)⟩
    · obtain ⟨w, hw, -, hmin, -⟩ := hi i li lj _ _ l e1 e2 w1 w2 h5 h4
      refine ⟨w, by unfold width; simp only [Bool.false_eq_true, if_false]; exact hw, lt_of_lt_of_le (lt_min ?_ ?_) hmin⟩
      · exact hpos _ (List.getElem_mem _)
      · exact hpos _ (List.getElem_mem _)

/-- **C57.** The resolution computed from the width of a constant-resolution function is its resolution, at every positive
wavelength. -/
theorem C57_resolution (r l w : ℝ) (h : Good (.constRes r)) (hl : 0 < l) (hw : width (.constRes r) l false = .ok w) :
    computeResolution l w = .ok r := by
  have hr : (0 : ℝ) < r := lt_trans one_pos h
  have hf : (0 : ℝ) < factor := by unfold factor; norm_num
  simp only [width, widthAt, Bool.false_eq_true, if_false] at hw
  rw [if_neg hr.ne'] at hw
  cases hw
  unfold computeResolution
  rw [if_neg (by positivity)]
  congr 1
  field_simp

/-- **C57.** The normalised profile of an acceptable function has one value per wavelength, all positive, of sum one, and in
the proportions of the profile of the width at the centre (clipped). -/
theorem C57_kernel (t : T) (h : Good t) (hs : ∀ ls ws, t = .varWidth ls ws → ls.Pairwise (· < ·)) (lambdas : List ℝ)
    (hne : lambdas ≠ []) (l0 : ℝ) :
    ∃ k, kernel t lambdas l0 = .ok k ∧ k.length = lambdas.length ∧ k.sum = 1 ∧ (∀ x ∈ k, 0 < x) ∧
      ∃ sigma, width t l0 true = .ok sigma ∧ ∀ (i j : Nat) li lj ki kj vi vj, lambdas[i]? = some li → lambdas[j]? = some lj →
        k[i]? = some ki → k[j]? = some kj → Profile.symVal li l0 sigma = .ok vi → Profile.symVal lj l0 sigma = .ok vj →
        ki * vj = kj * vi := by
  obtain ⟨sigma, hsig, hpos⟩ := C57_width_pos t h hs l0
  set g : ℝ → ℝ := fun l => Real.exp (-(1 / 2) * ((l - l0) / sigma) * ((l - l0) / sigma)) with hg
  have hsym : ∀ l, Profile.symVal l l0 sigma = .ok (g l) := by
    intro l; unfold Profile.symVal; rw [if_neg hpos.ne']
  have htab : Res.tab (fun i => Res.at_ lambdas i >>= fun l => Profile.symVal l l0 sigma) lambdas.length =
      .ok (lambdas.map g) := by
    rw [Res.tab_ok (h := fun i => g (lambdas[i]?.getD 0)) lambdas.length (fun i hi => by
      rw [Res.at_of_lt hi, Res.bind_ok, hsym]; simp [hi])]
    congr 1
    apply List.ext_getElem
    · simp
    · intro i h1 h2; simp at h1; simp [h1]
  have hmne : lambdas.map g ≠ [] := by simpa using hne
  have hgpos : ∀ x ∈ lambdas.map g, 0 < x := by
    intro x hx
    obtain ⟨l, -, rfl⟩ := List.mem_map.1 hx
    exact Real.exp_pos _
  have hsum : 0 < (lambdas.map g).sum := List.sum_pos _ hgpos hmne
  refine ⟨(lambdas.map g).map (fun x => x * (1 / (lambdas.map g).sum)), ?_, by simp, ?_, ?_, sigma, hsig, ?_⟩
  · unfold kernel
    rw [isValid_of_good h, Res.bind_ok, if_neg (by simp), hsig, Res.bind_ok, htab, Res.bind_ok, if_neg hmne, if_neg hsum.ne']
  · rw [List.sum_map_mul_right]
    simp only [List.map_id']
    field_simp
  · intro x hx
    obtain ⟨y, hy, rfl⟩ := List.mem_map.1 hx
    exact mul_pos (hgpos y hy) (by positivity)
  · intro i j li lj ki kj vi vj hi hj hki hkj hvi hvj
    rw [hsym] at hvi hvj
    cases hvi; cases hvj
    simp only [List.getElem?_map, hi, hj, Option.map_some, Option.some.injEq] at hki hkj
    subst hki hkj
    ring

/-- The hypotheses are met by a table of three wavelengths. -/
example : Good (.varWidth [4000, 5000, 7000] [2, 3, 1]) ∧ ([4000, 5000, 7000] : List ℝ).Pairwise (· < ·) := by
  refine ⟨⟨by simp, by simp, ?_⟩, ?_⟩
  · intro w hw; simp at hw; rcases hw with rfl | rfl | rfl <;> norm_num
  · simp; norm_num

/-- An interpolated width. -/
example : ∃ w, widthAt (.varWidth [4000, 5000, 7000] [2, 3, 1]) 6000 = .ok w ∧ w = 2 := by
  have hg : Good (.varWidth [4000, 5000, 7000] [2, 3, 1]) := by
    refine ⟨by simp, by simp, ?_⟩
    intro w hw; simp at hw; rcases hw with rfl | rfl | rfl <;> norm_num
  obtain ⟨w, hw, h2, -⟩ := (C57_variable _ _ hg (by simp; norm_num)).2 1 5000 7000 3 1 6000 rfl rfl rfl rfl (by norm_num) (by norm_num)
  exact ⟨w, hw, by linarith⟩

/-- A resolution of one or less is refused, and so is a null width. -/
example : make (.constRes 1) = .throw .INVALID_LSF ∧ make (.constWidth 0) = .throw .INVALID_LSF := by
  constructor <;> simp [make, isValid]

end Lsf
end Amazed
