import Verif.Model.PeakFit
import Verif.Props.RangeProps
import Mathlib.Tactic.Ring
import Mathlib.Tactic.Linarith
import Mathlib.Tactic.FieldSimp
import Mathlib.Analysis.Calculus.Deriv.Inv
import Mathlib.Analysis.Calculus.Deriv.Pow
import Mathlib.Analysis.SpecialFunctions.ExpDeriv
import Mathlib.Tactic.NormNum
import Mathlib.Algebra.Order.Field.Rat
import Mathlib.Algebra.BigOperators.Group.List.Lemmas

/-! # C213: the Gaussian fit of a candidate -/

set_option linter.unusedVariables false
set_option linter.unusedSectionVars false
set_option linter.unusedSimpArgs false
namespace Amazed
namespace PeakFit

section Search
variable {K : Type} [Field K] [LinearOrder K] [IsStrictOrderedRing K]

/-- Specification: the window of half-width `w / 2 ^ i` around the redshift, inside the integration range. -/
def win (z w : K) (r : Range K) (i : Nat) : Range K := ⟨max r.b (z - w / 2 ^ i), min r.e (z + w / 2 ^ i)⟩

/-- Specification: a fit which is believed, for a half-width. -/
def Good (w : K) (f : Fit K) : Prop :=
  ∃ s e, f.sigma = some s ∧ f.sigmaErr = some e ∧ s < 2 * w ∧ (e = 0 → s ≠ 0) ∧ (e ≠ 0 → |e| / 100 < |s|)

theorem accepted_iff (w : K) (f : Fit K) : accepted w f = true ↔ Good w f := by
  unfold accepted Good ratioOk
  rcases f with ⟨a, b, s, e⟩
  rcases s with _ | s <;> rcases e with _ | e <;> simp
  rw [mul_comm w 2]
  apply and_congr_right
  intro _
  by_cases h : e = 0
  · simp [h]
  · have he : 0 < |e| := abs_pos.2 h
    simp only [h, if_false, not_false_iff, false_imp_iff, true_imp_iff, true_and]
    rw [abs_div, lt_div_iff₀ he, ← one_div, div_mul_eq_mul_div, one_mul]

theorem width_nonneg {z : K} {r : Range K} (h : r.b ≤ z) : 0 ≤ width z r :=
  le_trans (sub_nonneg.2 h) (le_max_left _ _)

theorem half_pow (w : K) (i : Nat) : w / 2 ^ i / 2 = w / 2 ^ (i + 1) := by
  rw [pow_succ, div_div]

theorem half_nonneg {w : K} (h : 0 ≤ w) (i : Nat) : 0 ≤ w / 2 ^ i := div_nonneg h (pow_nonneg (by norm_num) _)

theorem half_anti {w : K} (h : 0 ≤ w) (i : Nat) : w / 2 ^ (i + 1) ≤ w / 2 ^ i := by
  rw [← half_pow]; linarith [half_nonneg h i]

theorem win_mem {z w : K} {r : Range K} (hw : 0 ≤ w) (h1 : r.b ≤ z) (h2 : z ≤ r.e) (i : Nat) :
    (win z w r i).b ≤ z ∧ z ≤ (win z w r i).e := by
  have := half_nonneg hw i
  exact ⟨max_le h1 (by linarith), le_min h2 (by linarith)⟩

theorem win_zero (z : K) (r : Range K) : win z (width z r) r 0 = r := by
  unfold win width
  ext
  · simp only [pow_zero, div_one]
    apply max_eq_left
    linarith [le_max_left (z - r.b) (r.e - z)]
  · simp only [pow_zero, div_one]
    apply min_eq_left
    linarith [le_max_right (z - r.b) (r.e - z)]

theorem win_succ {z w : K} {r : Range K} (hw : 0 ≤ w) (h1 : r.b ≤ z) (h2 : z ≤ r.e) (i : Nat) :
    ((win z w r i).intersect ⟨z - w / 2 ^ i / 2, z + w / 2 ^ i / 2⟩ (win z w r i)).2 = win z w r (i + 1) := by
  have hm := win_mem hw h1 h2 i
  have hn := half_nonneg hw (i + 1)
  have ha := half_anti hw i
  rw [half_pow]
  unfold Range.intersect Range.hasIntersection
  rw [if_pos]
  · ext
    · show max (max r.b _) _ = max r.b _
      rw [max_assoc, max_eq_right (b := z - w / 2 ^ (i + 1)) (by linarith)]
    · show min (min r.e _) _ = min r.e _
      rw [min_assoc, min_eq_right (b := z + w / 2 ^ (i + 1)) (by linarith)]
  · exact decide_eq_true (le_trans (max_le hm.1 (by linarith : z - w / 2 ^ (i + 1) ≤ z)) (le_min hm.2 (by linarith)))

/-- A try which is refused. -/
def Bad (fit : Range K → Res (Fit K)) (z w : K) (r : Range K) (i : Nat) : Prop :=
  ∃ g, fit (win z w r i) = .ok g ∧ ¬ Good (w / 2 ^ i) g

theorem loop_spec (fit : Range K → Res (Fit K)) {z w : K} {r : Range K} (hw : 0 ≤ w) (h1 : r.b ≤ z) (h2 : z ≤ r.e) :
    ∀ n i last t, ∃ res, loop fit z n (w / 2 ^ i) (win z w r i) last t = res ∧
      ((∃ k f, k < n ∧ fit (win z w r (i + k)) = .ok f ∧ Good (w / 2 ^ (i + k)) f ∧ (∀ j < k, Bad fit z w r (i + j)) ∧
          res = .ok ⟨true, some f, t ++ (List.range (k + 1)).map fun j => win z w r (i + j)⟩) ∨
       (∃ l, (∀ j < n, Bad fit z w r (i + j)) ∧ (n = 0 → l = last) ∧ (∀ m, n = m + 1 → ∃ f, l = some f ∧ fit (win z w r (i + m)) = .ok f) ∧
          res = .ok ⟨false, l, t ++ (List.range n).map fun j => win z w r (i + j)⟩) ∨
       (∃ k, k < n ∧ (∀ j < k, Bad fit z w r (i + j)) ∧
          ((∃ e, fit (win z w r (i + k)) = .throw e ∧ res = .throw e) ∨ (fit (win z w r (i + k)) = .ub ∧ res = .ub)))) := by
  intro n
  induction n with
  | zero =>
    intro i last t
    exact ⟨_, rfl, Or.inr (Or.inl ⟨last, fun j h => absurd h (by omega), fun _ => rfl, fun m h => by omega, by simp [loop]⟩)⟩
  | succ n ih =>
    intro i last t
    have e : loop fit z (n + 1) (w / 2 ^ i) (win z w r i) last t = (fit (win z w r i) >>= fun f =>
      if accepted (w / 2 ^ i) f then .ok ⟨true, some f, t ++ [win z w r i]⟩
      else loop fit z n (w / 2 ^ i / 2) (((win z w r i).intersect ⟨z - w / 2 ^ i / 2, z + w / 2 ^ i / 2⟩ (win z w r i)).2) (some f)
        (t ++ [win z w r i])) := rfl
    rw [e, win_succ hw h1 h2, half_pow]
    cases hf : fit (win z w r i) with
    | throw er =>
      exact ⟨_, rfl, Or.inr (Or.inr ⟨0, by omega, fun j h => absurd h (by omega), Or.inl ⟨er, hf, rfl⟩⟩)⟩
    | ub =>
      exact ⟨_, rfl, Or.inr (Or.inr ⟨0, by omega, fun j h => absurd h (by omega), Or.inr ⟨hf, rfl⟩⟩)⟩
    | ok f =>
      rw [Res.bind_ok]
      by_cases ha : accepted (w / 2 ^ i) f = true
      · rw [if_pos ha]
        refine ⟨_, rfl, Or.inl ⟨0, f, by omega, hf, (accepted_iff _ _).1 ha, fun j h => absurd h (by omega), ?_⟩⟩
        rfl
      · rw [if_neg ha]
        have hb : Bad fit z w r i := ⟨f, hf, fun g => ha ((accepted_iff _ _).2 g)⟩
        have sh : ∀ k, win z w r (i + 1 + k) = win z w r (i + (k + 1)) := fun k => by rw [Nat.add_assoc, Nat.add_comm 1 k]
        have shb : ∀ k, (∀ j < k, Bad fit z w r (i + 1 + j)) → ∀ j < k + 1, Bad fit z w r (i + j) := by
          intro k h j hj
          rcases j with _ | j
          · exact hb
          · have := h j (by omega)
            rwa [Nat.add_assoc, Nat.add_comm 1 j] at this
        have shl : ∀ k, t ++ [win z w r i] ++ (List.range k).map (fun j => win z w r (i + 1 + j)) =
            t ++ (List.range (k + 1)).map fun j => win z w r (i + j) := by
          intro k
          rw [List.range_succ_eq_map, List.map_cons, List.map_map, List.append_assoc]
          simp only [sh]
          rfl
        obtain ⟨res, hres, hc⟩ := ih (i + 1) (some f) (t ++ [win z w r i])
        refine ⟨res, hres, ?_⟩
        rcases hc with ⟨k, g, hk, hg, hG, hB, hr⟩ | ⟨l, hB, h0, hS, hr⟩ | ⟨k, hk, hB, hr⟩
        · refine Or.inl ⟨k + 1, g, by omega, ?_, ?_, shb k hB, ?_⟩
          · rw [← sh]; exact hg
          · rw [Nat.add_assoc, Nat.add_comm 1 k] at hG; exact hG
          · rw [hr, shl]
        · refine Or.inr (Or.inl ⟨l, shb n hB, by omega, ?_, ?_⟩)
          · intro m hm
            obtain rfl : n = m := by omega
            rcases n with _ | n
            · exact ⟨f, h0 rfl, hf⟩
            · obtain ⟨g, hg, hg2⟩ := hS n rfl
              exact ⟨g, hg, by rw [← sh]; exact hg2⟩
          · rw [hr, shl]
        · refine Or.inr (Or.inr ⟨k + 1, by omega, shb k hB, ?_⟩)
          rw [← sh]; exact hr

variable (fit : Range K → Res (Fit K)) {z : K} {r : Range K}

theorem robust_spec (h1 : r.b ≤ z) (h2 : z ≤ r.e) :
    ∃ res, robust fit z r = res ∧
      ((∃ k f, k < 5 ∧ fit (win z (width z r) r k) = .ok f ∧ Good (width z r / 2 ^ k) f ∧ (∀ j < k, Bad fit z (width z r) r j) ∧
          res = .ok ⟨true, some f, (List.range (k + 1)).map (win z (width z r) r)⟩) ∨
       (∃ f, (∀ j < 5, Bad fit z (width z r) r j) ∧ fit (win z (width z r) r 4) = .ok f ∧
          res = .ok ⟨false, some f, (List.range 5).map (win z (width z r) r)⟩) ∨
       (∃ k, k < 5 ∧ (∀ j < k, Bad fit z (width z r) r j) ∧
          ((∃ e, fit (win z (width z r) r k) = .throw e ∧ res = .throw e) ∨ (fit (win z (width z r) r k) = .ub ∧ res = .ub)))) := by
  obtain ⟨res, hres, hc⟩ := loop_spec fit (width_nonneg h1) h1 h2 5 0 none []
  simp only [Nat.zero_add, List.nil_append] at hc
  rw [win_zero, pow_zero, div_one] at hres
  refine ⟨res, hres, ?_⟩
  rcases hc with h | ⟨l, hB, _, hS, hr⟩ | h
  · exact Or.inl h
  · obtain ⟨f, rfl, hf⟩ := hS 4 rfl
    exact Or.inr (Or.inl ⟨f, hB, hf, hr⟩)
  · exact Or.inr (Or.inr h)

/-- C213: the fits are made in windows of half-width `w, w / 2, w / 4, …` around the redshift (cut by the integration range), starting with the
whole integration range, at least one and at most five; every window contains the redshift. -/
theorem C213_windows (h1 : r.b ≤ z) (h2 : z ≤ r.e) {o : Out K} (h : robust fit z r = .ok o) :
    1 ≤ o.tried.length ∧ o.tried.length ≤ 5 ∧ o.tried[0]? = some r ∧
    (∀ i (hi : i < o.tried.length), o.tried[i] = win z (width z r) r i) ∧
    (∀ s ∈ o.tried, r.b ≤ s.b ∧ s.b ≤ z ∧ z ≤ s.e ∧ s.e ≤ r.e) := by
  obtain ⟨res, hres, hc⟩ := robust_spec fit h1 h2
  have key : ∃ n, 1 ≤ n ∧ n ≤ 5 ∧ o.tried = (List.range n).map (win z (width z r) r) := by
    rw [h] at hres; subst hres
    rcases hc with ⟨k, f, hk, _, _, _, hr⟩ | ⟨f, _, _, hr⟩ | ⟨k, _, _, ⟨e, _, hr⟩ | ⟨_, hr⟩⟩
    · cases hr; exact ⟨k + 1, by omega, by omega, rfl⟩
    · cases hr; exact ⟨5, by omega, by omega, rfl⟩
    · cases hr
    · cases hr
  obtain ⟨n, hn, hn5, ht⟩ := key
  refine ⟨by rw [ht]; simpa using hn, by rw [ht]; simpa using hn5, ?_, ?_, ?_⟩
  · rw [ht, List.getElem?_map, List.getElem?_range (by omega)]
    simp [win_zero]
  · intro i hi
    simp [ht]
  · intro s hs
    rw [ht, List.mem_map] at hs
    obtain ⟨i, _, rfl⟩ := hs
    have := win_mem (width_nonneg h1) h1 h2 i
    exact ⟨le_max_left _ _, this.1, this.2, min_le_left _ _⟩

/-- C213: the search says yes exactly when its last fit is believed for its window; it stops at the first one, and the candidate keeps the
values of the last fit in every case. -/
theorem C213_flag (h1 : r.b ≤ z) (h2 : z ≤ r.e) {o : Out K} (h : robust fit z r = .ok o) :
    ∃ f, o.fit = some f ∧ fit (win z (width z r) r (o.tried.length - 1)) = .ok f ∧
      (o.ok = true ↔ Good (width z r / 2 ^ (o.tried.length - 1)) f) ∧
      (∀ j < o.tried.length - 1, ∃ g, fit (win z (width z r) r j) = .ok g ∧ ¬ Good (width z r / 2 ^ j) g) ∧
      (o.ok = false → o.tried.length = 5) := by
  obtain ⟨res, hres, hc⟩ := robust_spec fit h1 h2
  rw [h] at hres; subst hres
  rcases hc with ⟨k, f, hk, hf, hG, hB, hr⟩ | ⟨f, hB, hf, hr⟩ | ⟨k, _, _, ⟨e, _, hr⟩ | ⟨_, hr⟩⟩
  · cases hr
    refine ⟨f, rfl, by simpa using hf, by simpa using hG, ?_, by simp⟩
    intro j hj
    exact hB j (by simpa using hj)
  · cases hr
    refine ⟨f, rfl, by simpa using hf, ?_, ?_, by simp⟩
    · obtain ⟨g, hg, hG⟩ := hB 4 (by omega)
      rw [hg] at hf; cases hf
      simpa using hG
    · intro j hj
      exact hB j (by simp at hj; omega)
  · cases hr
  · cases hr

/-- C213: an error of the search is that of one of its fits, all the fits before having been refused. -/
theorem C213_errors (h1 : r.b ≤ z) (h2 : z ≤ r.e) {e : Err} (h : robust fit z r = .throw e) :
    ∃ k < 5, fit (win z (width z r) r k) = .throw e ∧ ∀ j < k, ∃ g, fit (win z (width z r) r j) = .ok g ∧ ¬ Good (width z r / 2 ^ j) g := by
  obtain ⟨res, hres, hc⟩ := robust_spec fit h1 h2
  rw [h] at hres; subst hres
  rcases hc with ⟨k, f, hk, hf, hG, hB, hr⟩ | ⟨f, hB, hf, hr⟩ | ⟨k, hk, hB, ⟨e', he, hr⟩ | ⟨_, hr⟩⟩
  · cases hr
  · cases hr
  · cases hr; exact ⟨k, hk, he, hB⟩
  · cases hr

/-- C213: the probability is a number only after a success, and is then the area of the fitted Gaussian. -/
theorem C213_proba (c : K) (o : Out K) (v : K) :
    proba c o = some v ↔ o.ok = true ∧ ∃ f a s, o.fit = some f ∧ f.amp = some a ∧ f.sigma = some s ∧ v = a * s * c := by
  unfold proba
  rcases o with ⟨ok, f, t⟩
  cases ok
  · simp
  · rcases f with _ | ⟨a, b, s, e⟩
    · simp
    · rcases a with _ | a <;> rcases s with _ | s <;> simp [eq_comm]

/-- The hypotheses are met, two fits are made: the first is too wide. -/
example : (0 : ℚ) ≤ 1 ∧ (1 : ℚ) ≤ 3 ∧
    (match robust (fun s : Range ℚ => .ok ⟨some 1, some 1, some (if s.e - s.b < 3 then 1 else 5), some 1⟩) 1 ⟨0, 3⟩ with
      | .ok o => o.ok && o.tried == [⟨0, 3⟩, ⟨0, 2⟩]
      | _ => false) = true := by
  refine ⟨by norm_num, by norm_num, ?_⟩
  decide +kernel

/-! ## One fit -/

variable {zs vals : List K}

theorem support_total (hs : zs.Pairwise (· ≤ ·)) (hn : 0 < zs.length) (h1 : zs[0] ≤ r.b) (h2 : r.b < r.e)
    (h3 : r.e ≤ zs[zs.length - 1]) (hz : r.b ≤ z ∧ z ≤ r.e) :
    ∃ k n, support zs z r = .ok (k, n) ∧ 2 ≤ n ∧ k + n ≤ zs.length ∧ (∀ x, zs[k]? = some x → x ≤ r.b) ∧
      (∀ x, zs[k + n - 1]? = some x → r.e ≤ x) := by
  have hv : r.Valid := le_of_lt h2
  obtain ⟨i, j, he, _, hi, hj, a, b, c, d, _⟩ := Range.enclosingIdx_spec r zs hs hv hn h1 h3
  have hat := ((C04_enclosing_at r zs z hs).2 hz).1
  have hij : i < j := by
    rcases Nat.lt_or_eq_of_le c with h | h
    · exact h
    · subst h; exact absurd (lt_of_le_of_lt a h2) (not_lt.2 b)
  refine ⟨i, j + 1 - i, ?_, by omega, by omega, ?_, ?_⟩
  · unfold support
    rw [if_neg (not_not.2 hs), hat, he, Res.bind_ok]
    dsimp only
    rw [if_neg (by omega), if_neg (by omega)]
  · intro x hx
    rw [List.getElem?_eq_getElem hi] at hx
    cases hx; exact a
  · intro x hx
    have : i + (j + 1 - i) - 1 = j := by omega
    rw [this, List.getElem?_eq_getElem hj] at hx
    cases hx; exact b

theorem foldl_max_spec (l : List K) : ∀ a, a ≤ l.foldl max a ∧ (∀ x ∈ l, x ≤ l.foldl max a) ∧ (l.foldl max a = a ∨ l.foldl max a ∈ l) := by
  induction l with
  | nil => intro a; simp
  | cons x r ih =>
    intro a
    obtain ⟨h1, h2, h3⟩ := ih (max a x)
    refine ⟨le_trans (le_max_left _ _) h1, ?_, ?_⟩
    · intro y hy
      rcases List.mem_cons.1 hy with rfl | hy
      · exact le_trans (le_max_right _ _) h1
      · exact h2 y hy
    · rw [List.foldl_cons]
      rcases h3 with h3 | h3
      · rcases max_choice a x with h | h
        · left; rw [h3, h]
        · right; rw [h3, h]; exact List.mem_cons_self
      · right; exact List.mem_cons_of_mem _ h3

theorem norm_spec {l : List K} (hp : ∀ x ∈ l, 0 < x) (hl : l ≠ []) : 0 < maxP l ∧ norm l = maxP l ∧ maxP l ∈ l ∧ ∀ x ∈ l, x ≤ maxP l := by
  obtain ⟨h1, h2, h3⟩ := foldl_max_spec l 0
  have hpos : 0 < maxP l := by
    obtain ⟨x, hx⟩ := List.exists_mem_of_ne_nil l hl
    exact lt_of_lt_of_le (hp x hx) (h2 x hx)
  refine ⟨hpos, if_neg (not_le.2 hpos), ?_, h2⟩
  rcases h3 with h | h
  · exact absurd h (ne_of_gt hpos)
  · exact h

/-- C213: in a sorted grid that covers the window, with one value per redshift, a fit has always its data: consecutive samples of the grid which
enclose the window, at least two; the values are divided by the largest, so that they are in `]0, 1]` and the initial amplitude is 1; the initial
width is half the largest distance to the ends of the window. `ex` is positive. -/
theorem C213_problem {ex : K → K} (hex : ∀ x, 0 < ex x) (hlen : vals.length = zs.length) (hs : zs.Pairwise (· ≤ ·)) (hn : 0 < zs.length)
    (h1 : zs[0] ≤ r.b) (h2 : r.b < r.e) (h3 : r.e ≤ zs[zs.length - 1]) (hz : r.b ≤ z ∧ z ≤ r.e) :
    ∃ (k n : Nat) (nf : K) (p : Problem K), problem ex zs vals z r = .ok p ∧ factor ex zs vals z r = .ok nf ∧ 0 < nf ∧
      2 ≤ n ∧ k + n ≤ zs.length ∧
      p.zs = (zs.drop k).take n ∧ p.ys = ((vals.drop k).take n).map (fun v => ex v / nf) ∧
      (∀ x, p.zs.head? = some x → x ≤ r.b) ∧ (∀ x, p.zs.getLast? = some x → r.e ≤ x) ∧
      (∀ y ∈ p.ys, 0 < y ∧ y ≤ 1) ∧ (1 : K) ∈ p.ys ∧ p.zc = z ∧ p.amp0 = 1 ∧ p.sigma0 = max (z - r.b) (r.e - z) / 2 := by
  obtain ⟨k, n, hk, hn2, hkn, ha, hb⟩ := support_total hs hn h1 h2 h3 hz
  have hpos : ∀ x ∈ ((vals.drop k).take n).map ex, 0 < x := by
    intro x hx
    obtain ⟨v, _, rfl⟩ := List.mem_map.1 hx
    exact hex v
  have hne : ((vals.drop k).take n).map ex ≠ [] := by
    intro h
    have := congrArg List.length h
    simp at this
    omega
  obtain ⟨hm, hnorm, hmem, hle⟩ := norm_spec hpos hne
  have hprob : problem ex zs vals z r = .ok ⟨(zs.drop k).take n,
      (((vals.drop k).take n).map ex).map (· / norm (((vals.drop k).take n).map ex)), z,
      if 0 < maxP (((vals.drop k).take n).map ex) then
        maxP (((vals.drop k).take n).map ex) / norm (((vals.drop k).take n).map ex) else 1, width z r / 2⟩ := by
    unfold problem
    rw [hk, Res.bind_ok, if_neg (by push Not; constructor <;> dsimp only <;> omega)]
  refine ⟨k, n, maxP (((vals.drop k).take n).map ex), _, hprob, ?_, hm, hn2, hkn, ?_, ?_, ?_, ?_, ?_, ?_, ?_, ?_, ?_⟩
  · unfold factor
    rw [hk, Res.bind_ok, hnorm]
  · rfl
  · simp only [List.map_map, hnorm]
    rfl
  · intro x hx
    apply ha
    rw [← hx]
    simp only [List.head?_eq_getElem?, List.getElem?_take, List.getElem?_drop, Nat.add_zero]
    rw [if_pos (by omega)]
  · intro x hx
    apply hb
    rw [← hx]
    simp only [List.getLast?_eq_getElem?, List.length_take, List.length_drop]
    rw [min_eq_left (by omega), List.getElem?_take, if_pos (by omega), List.getElem?_drop]
    congr 1; omega
  · intro y hy
    simp only [hnorm] at hy
    obtain ⟨x, hx, rfl⟩ := List.mem_map.1 hy
    exact ⟨div_pos (hpos x hx) hm, (div_le_one hm).2 (hle x hx)⟩
  · simp only [hnorm]
    exact List.mem_map.2 ⟨_, hmem, div_self (ne_of_gt hm)⟩
  · rfl
  · dsimp only
    rw [if_pos hm, hnorm, div_self (ne_of_gt hm)]
  · rfl

theorem win_strict {w : K} (hw : 0 < w) (h1 : r.b ≤ z) (h2 : z ≤ r.e) (hr : r.b < r.e) (i : Nat) :
    (win z w r i).b < (win z w r i).e := by
  have hi : 0 < w / 2 ^ i := div_pos hw (pow_pos (by norm_num) _)
  unfold win
  dsimp only
  rw [max_lt_iff, lt_min_iff, lt_min_iff]
  exact ⟨⟨hr, by linarith⟩, ⟨by linarith, by linarith⟩⟩

/-- C213: in a sorted grid that covers the integration range, with one value per redshift, the fit of a candidate of that range never fails,
whatever the solver returns. -/
theorem C213_total {ex : K → K} (hex : ∀ x, 0 < ex x) (rt2pi : K) (solve : Problem K → Sol K) (hlen : vals.length = zs.length)
    (hs : zs.Pairwise (· ≤ ·)) (hn : 0 < zs.length) (h1 : zs[0] ≤ r.b) (h2 : r.b < r.e) (h3 : r.e ≤ zs[zs.length - 1])
    (hz : r.b ≤ z ∧ z ≤ r.e) : ∃ o v, candidate ex rt2pi solve zs vals z r = .ok (o, v) := by
  have hfit : ∀ i, ∃ f, single ex solve zs vals z (win z (width z r) r i) = .ok f := by
    intro i
    have hw : 0 < width z r := by
      unfold width
      rcases lt_or_eq_of_le hz.1 with h | h
      · exact lt_of_lt_of_le (sub_pos.2 h) (le_max_left _ _)
      · exact lt_of_lt_of_le (sub_pos.2 (h ▸ h2)) (le_max_right _ _)
    obtain ⟨k, n, nf, p, hp, hf, _⟩ := C213_problem (z := z) (r := win z (width z r) r i) hex hlen hs hn
      (le_trans h1 (le_max_left _ _)) (win_strict hw hz.1 hz.2 h2 i) (le_trans (min_le_left _ _) h3)
      (win_mem (le_of_lt hw) hz.1 hz.2 i)
    refine ⟨unscale nf (solve p), ?_⟩
    unfold single
    rw [hp, Res.bind_ok, hf, Res.bind_ok]
  unfold candidate
  obtain ⟨res, hres, hc⟩ := robust_spec (single ex solve zs vals z) hz.1 hz.2
  rcases hc with ⟨k, f, _, _, _, _, hr⟩ | ⟨f, _, _, hr⟩ | ⟨k, _, _, ⟨e, he, _⟩ | ⟨he, _⟩⟩
  · rw [hres, hr]; exact ⟨_, _, rfl⟩
  · rw [hres, hr]; exact ⟨_, _, rfl⟩
  · obtain ⟨f, hf⟩ := hfit k; rw [hf] at he; cases he
  · obtain ⟨f, hf⟩ := hfit k; rw [hf] at he; cases he

/-- C213: a window with less than two samples, or unsorted redshifts, is an error. -/
theorem C213_unsorted (ex : K → K) (solve : Problem K → Sol K) (h : ¬ zs.Pairwise (· ≤ ·)) :
    single ex solve zs vals z r = .throw .INTERNAL_ERROR := by
  have hs : support zs z r = .throw .INTERNAL_ERROR := if_pos h
  unfold single problem
  rw [hs]; rfl

/-- C213: what the candidate keeps: the amplitude and its error are multiplied back by the largest probability, the width is positive. -/
theorem C213_values (ex : K → K) (solve : Problem K → Sol K) {f : Fit K} (h : single ex solve zs vals z r = .ok f) :
    ∃ p nf, problem ex zs vals z r = .ok p ∧ factor ex zs vals z r = .ok nf ∧
      (∀ x, (solve p).x0 = some x → f.amp = some (x * nf)) ∧ (∀ x, (solve p).x1 = some x → f.sigma = some |x|) ∧
      (∀ c e, (solve p).c = some c → (solve p).e0 = some e → f.ampErr = some (c * e * nf)) ∧
      (∀ c e, (solve p).c = some c → (solve p).e1 = some e → f.sigmaErr = some (c * e)) ∧
      (∀ s, f.sigma = some s → 0 ≤ s) := by
  unfold single at h
  obtain ⟨p, hp, h⟩ := Res.bind_eq_ok.1 h
  obtain ⟨nf, hnf, h⟩ := Res.bind_eq_ok.1 h
  cases h
  refine ⟨p, nf, hp, hnf, ?_, ?_, ?_, ?_, ?_⟩
  · intro x hx; simp [unscale, hx, mul?]
  · intro x hx; simp [unscale, hx]
  · intro c e hc he; simp [unscale, hc, he, mul?]
  · intro c e hc he; simp [unscale, hc, he, mul?]
  · intro s hs
    rcases hx : (solve p).x1 with _ | x
    · simp [unscale, hx] at hs
    · simp [unscale, hx] at hs; rw [← hs]; exact abs_nonneg x

/-- A concrete candidate: the hypotheses of `C213_total` are met. -/
example : ([0, 1, 2, 3, 4] : List ℚ).Pairwise (· ≤ ·) ∧ (0 : ℚ) ≤ 1 ∧ (1 : ℚ) < 3 ∧ (3 : ℚ) ≤ 4 ∧
    (match candidate (fun _ : ℚ => 1) 2 (fun p => ⟨some p.amp0, some (-p.sigma0), some 1, some 1, some 1⟩)
        [0, 1, 2, 3, 4] [0, 0, 0, 0, 0] 2 ⟨1, 3⟩ with
      | .ok (o, v) => o.ok && v == some 1 && o.tried == [⟨1, 3⟩]
      | _ => false) = true := by
  refine ⟨by decide, by norm_num, by norm_num, by norm_num, ?_⟩
  decide +kernel

end Search

/-! ## The function that is fitted -/

/-- C213: the Jacobian given to the solver is that of the residuals. -/
theorem C213_jacobian (a sigma t y : ℝ) (h : sigma ≠ 0) :
    HasDerivAt (fun x => residual x sigma t y) (jacobian a sigma t).1 a ∧
    HasDerivAt (fun x => residual a x t y) (jacobian a sigma t).2 sigma := by
  constructor
  · unfold residual jacobian
    have := ((hasDerivAt_id a).mul_const (Real.exp (-0.5 * (t / sigma) * (t / sigma)))).sub_const y
    simpa using this
  · have hd : HasDerivAt (fun x : ℝ => t / x) (-t / sigma ^ 2) sigma := by
      have := (hasDerivAt_const sigma t).fun_div (hasDerivAt_id' sigma) h
      simpa using this
    have hp : HasDerivAt (fun x : ℝ => -0.5 * (t / x) * (t / x))
        (-0.5 * (-t / sigma ^ 2) * (t / sigma) + -0.5 * (t / sigma) * (-t / sigma ^ 2)) sigma :=
      (hd.const_mul (-0.5)).mul hd
    have := ((hp.exp).const_mul a).sub_const y
    unfold residual jacobian
    have e : t * t / (sigma * sigma * sigma) * a * Real.exp (-0.5 * (t / sigma) * (t / sigma)) =
        a * (Real.exp (-0.5 * (t / sigma) * (t / sigma)) *
          (-0.5 * (-t / sigma ^ 2) * (t / sigma) + -0.5 * (t / sigma) * (-t / sigma ^ 2))) := by
      generalize Real.exp (-0.5 * (t / sigma) * (t / sigma)) = g
      field_simp
      ring
    rw [e]
    exact this

/-- Specification: the sum of the squared residuals. -/
noncomputable def chi (zc a sigma : ℝ) (zs ys : List ℝ) : ℝ :=
  ((zs.zip ys).map fun p => (residual a sigma (p.1 - zc) p.2) ^ 2).sum

theorem residual_scale (a sigma t y nf : ℝ) (h : nf ≠ 0) : residual (a * nf) sigma t y = nf * residual a sigma t (y / nf) := by
  unfold residual
  field_simp

theorem residual_abs (a sigma t y : ℝ) : residual a |sigma| t y = residual a sigma t y := by
  unfold residual
  rcases abs_choice sigma with h | h
  · rw [h]
  · rw [h, div_neg]; ring_nf

theorem chi_scale (zc a sigma nf : ℝ) (h : nf ≠ 0) (zs ys : List ℝ) :
    chi zc (a * nf) sigma zs ys = nf ^ 2 * chi zc a sigma zs (ys.map (· / nf)) := by
  unfold chi
  induction zs generalizing ys with
  | nil => simp
  | cons x r ih =>
    rcases ys with _ | ⟨y, ys⟩
    · simp
    · simp only [List.zip_cons_cons, List.map_cons, List.sum_cons]
      rw [ih, residual_scale _ _ _ _ _ h]
      ring

/-- C213: if the solver gives the best point for the values divided by `nf`, then the amplitude and the width kept in the candidate are the best
for the values themselves. -/
theorem C213_scale (zc nf : ℝ) (h : 0 < nf) (zs ys : List ℝ) (x0 x1 : ℝ)
    (hbest : ∀ a s, chi zc x0 x1 zs (ys.map (· / nf)) ≤ chi zc a s zs (ys.map (· / nf))) (a s : ℝ) :
    chi zc (x0 * nf) |x1| zs ys ≤ chi zc a s zs ys := by
  have habs : chi zc (x0 * nf) |x1| zs ys = chi zc (x0 * nf) x1 zs ys := by
    unfold chi; simp only [residual_abs]
  have hne : nf ≠ 0 := ne_of_gt h
  have ha : a = a / nf * nf := by field_simp
  rw [habs, ha, chi_scale _ _ _ _ hne, chi_scale _ _ _ _ hne]
  exact mul_le_mul_of_nonneg_left (hbest _ _) (sq_nonneg nf)

end PeakFit
end Amazed
