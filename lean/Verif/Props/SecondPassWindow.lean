import Verif.Props.SecondPassProps

set_option linter.unusedVariables false
set_option linter.unusedSectionVars false

/-! # C99: the windows of the second pass -/

namespace Amazed
namespace SecondPass
open LmResult

section
variable {K : Type} [Field K] [LinearOrder K] [IsStrictOrderedRing K]

/-- A window whose points are in the range of the grid can be inserted in it. -/
theorem window_fits {v grid : List K} {f b : K} (hg : grid.Pairwise (· < ·)) (hl : 2 ≤ grid.length)
    (hf : grid.head? = some f) (hb : grid.getLast? = some b) (hv : v.Pairwise (· < ·)) (hr : ∀ x ∈ v, f ≤ x ∧ x ≤ b) :
    SubgridFits v grid := by
  refine ⟨hg, hl, hv, ?_, ?_⟩
  · intro x hx a ha
    rw [hf] at ha
    obtain rfl := Option.some.inj ha
    match v, hv, hr, hx with
    | y :: t, hv, hr, hx =>
      exact lt_of_le_of_lt (hr y (by simp)).1 ((List.pairwise_cons.1 hv).1 x hx)
  · intro x hx a ha
    rw [hb] at ha
    obtain rfl := Option.some.inj ha
    have hne : v ≠ [] := by rintro rfl; simp at hx
    obtain ⟨t, y, rfl⟩ : ∃ t y, v = t ++ [y] := ⟨v.dropLast, v.getLast hne, (List.dropLast_append_getLast hne).symm⟩
    simp only [List.dropLast_concat] at hx
    exact lt_of_lt_of_le ((List.pairwise_append.1 hv).2.2 x hx y (by simp)) (hr y (by simp)).2

/-- In a grid whose redshifts are at least `d` apart, a list with as many points as its length divided by `d` is dense. -/
theorem window_dense {v grid : List K} {eps d c : K} (hd : 0 < d) (heps : 0 ≤ eps) (h2 : 2 * eps < d) (hc : c ∈ grid) (hcv : c ∈ v)
    (hg : grid.IsChain (fun x y => x + d ≤ y)) (hlen : ∀ x ∈ v, ∀ y ∈ v, y - x ≤ ((v.length : K) - 1) * d) : Dense eps v grid := by
  refine ⟨⟨c, hc, ⟨c, hcv, by linarith⟩, ⟨c, hcv, by linarith⟩⟩, ?_⟩
  intro i j zi zj hij hi hj hsi hsj
  have hgap : ∀ n : Nat, ∀ z, grid[i + n]? = some z → zi + (n : K) * d ≤ z := by
    intro n
    induction n with
    | zero =>
      intro z hz
      rw [Nat.add_zero, hi] at hz
      obtain rfl := Option.some.inj hz
      simp
    | succ n ih =>
      intro z hz
      obtain ⟨hlt, hv'⟩ := List.getElem?_eq_some_iff.1 hz
      have h1 := ih (grid[i + n]'(by omega)) (List.getElem?_eq_getElem _)
      have h3 := List.isChain_iff_getElem.1 hg (i + n) (by omega)
      have h4 : grid[i + n + 1]'(by omega) = z := hv'
      rw [h4] at h3
      push_cast
      linarith
  obtain ⟨m, rfl⟩ : ∃ m, j = i + m := ⟨j - i, by omega⟩
  have h1 := hgap m zj hj
  obtain ⟨x, hx, hx'⟩ := hsi.1
  obtain ⟨y, hy, hy'⟩ := hsj.2
  have h3 := hlen x hx y hy
  by_contra hcon
  have h4 : v.length ≤ m := by omega
  have h5 : (v.length : K) ≤ (m : K) := by exact_mod_cast h4
  have : (v.length : K) * d ≤ (m : K) * d := by nlinarith
  nlinarith

/-- The span of a centred window is at most its number of points less one, times the step. -/
theorem span_count [FloorRing K] (r : Range K) (c d eps : K) (hd : 0 < d) (he : 0 ≤ eps) (hed : eps < d) (hc : r.Mem c) (v : List K)
    (hv : r.spanCenteredLin c d eps = .ok v) : ∀ x ∈ v, ∀ y ∈ v, y - x ≤ ((v.length : K) - 1) * d := by
  obtain ⟨lft, hl, hl1, hl2, hl3, hl4, hl5⟩ := C05_spread_eps_backward (⟨r.b, c⟩ : Range K) d eps hd he hed hc.1
  obtain ⟨rgt, hr, hr1, hr2, hr3, hr4, hr5⟩ := C05_spread_eps_forward (⟨c, r.e⟩ : Range K) d eps hd he hed hc.2
  simp only at hl2 hl3 hl4 hl5 hr2 hr3 hr4 hr5
  match rgt, hr3 with
  | a :: t, hr3 =>
    simp only [List.head?_cons, Option.some.injEq] at hr3
    subst hr3
    have hcl : a ∈ lft := List.mem_of_getLast? hl3
    have hlpos : 0 < lft.length := List.length_pos_of_mem hcl
    have hve : v = lft ++ t := by
      unfold Range.spanCenteredLin at hv
      simp only [hl, hr, Res.bind_ok, Range.appendTail, Res.ok.injEq] at hv
      exact hv.symm
    have hlow : ∀ x ∈ v, a - ((lft.length : K) - 1) * d ≤ x := by
      intro x hx
      rw [hve] at hx
      rcases List.mem_append.1 hx with h | h
      · obtain ⟨i, hi, rfl⟩ := List.getElem_of_mem h
        have := hl4 (lft.length - 1 - i) (by omega)
        have e : lft.length - 1 - (lft.length - 1 - i) = i := by omega
        simp only [e] at this
        rw [this]
        refine le_trans ?_ (le_max_left _ _)
        have : ((lft.length - 1 - i : ℕ) : K) ≤ (lft.length : K) - 1 := by
          have h' : lft.length - 1 - i + 1 ≤ lft.length := by omega
          have : ((lft.length - 1 - i + 1 : ℕ) : K) ≤ (lft.length : K) := by exact_mod_cast h'
          push_cast at this
          linarith
        nlinarith
      · have h1 := (List.pairwise_cons.1 hr1).1 x h
        have : (1 : K) ≤ (lft.length : K) := by exact_mod_cast hlpos
        nlinarith
    have hhigh : ∀ y ∈ v, y ≤ a + (t.length : K) * d := by
      intro y hy
      rw [hve] at hy
      rcases List.mem_append.1 hy with h | h
      · have := (hl2 y h).2
        have h0 : (0 : K) ≤ (t.length : K) := by positivity
        simp only at this
        nlinarith
      · obtain ⟨i, hi, rfl⟩ := List.getElem_of_mem h
        have := hr4 (i + 1) (by simp only [List.length_cons]; omega)
        simp only [List.getElem_cons_succ] at this
        rw [this]
        refine le_trans (min_le_left _ _) ?_
        have : ((i + 1 : ℕ) : K) ≤ (t.length : K) := by exact_mod_cast hi
        nlinarith
    intro x hx y hy
    have h1 := hlow x hx
    have h2 := hhigh y hy
    have e : (v.length : K) = (lft.length : K) + (t.length : K) := by rw [hve]; push_cast [List.length_append]; ring
    rw [e]
    linarith

theorem head_at {grid : List K} {f : K} (h : grid.head? = some f) : Res.at_ grid 0 = .ok f := by
  rw [Res.at_eq_ok, ← List.head?_eq_getElem?]; exact h

theorem last_at {grid : List K} {b : K} (h : grid.getLast? = some b) : Res.at_ grid (grid.length - 1) = .ok b := by
  rw [Res.at_eq_ok, ← List.getLast?_eq_getElem?]; exact h

/-- **C99, linear sampling.** The window of a candidate of the grid: increasing redshifts within the half size of the candidate and
within the range of the grid, with the candidate among them, and reaching both ends to less than a step. It can be inserted in the grid, and
when the redshifts of the grid are not closer than the fine step it is at least as dense as the grid. -/
theorem C99_window_linear [FloorRing K] (half step eps : K) (grid : List K) (z f b : K) (hh : 0 ≤ half) (hs : 0 < step) (he : 0 ≤ eps)
    (hes : eps < step) (hg : grid.Pairwise (· < ·)) (hl : 2 ≤ grid.length) (hf : grid.head? = some f) (hb : grid.getLast? = some b)
    (hz : f ≤ z) (hz' : z ≤ b) :
    ∃ v, windowLin half step eps grid z = .ok v ∧ v.Pairwise (· < ·) ∧ z ∈ v ∧
      (∀ x ∈ v, z - half ≤ x ∧ x ≤ z + half ∧ f ≤ x ∧ x ≤ b) ∧
      (∃ x ∈ v, x < max (z - half) f + step) ∧ (∃ x ∈ v, min (z + half) b - step < x) ∧
      SubgridFits v grid ∧
      (z ∈ grid → 2 * eps < step → grid.IsChain (fun x y => x + step ≤ y) → Dense eps v grid) := by
  have hin : Range.intersect (⟨z - half, z + half⟩ : Range K) ⟨f, b⟩ ⟨z - half, z + half⟩ =
      (true, ⟨max (z - half) f, min (z + half) b⟩) := by
    unfold Range.intersect Range.hasIntersection
    rw [if_pos]
    rw [decide_eq_true_iff]
    simp only
    exact le_trans (max_le (by linarith) hz) (le_min (by linarith) hz')
  have hc : (⟨max (z - half) f, min (z + half) b⟩ : Range K).Mem z :=
    ⟨max_le (by linarith) hz, le_min (by linarith) hz'⟩
  obtain ⟨v, hv, h1, h2, h3, h4, h5⟩ := C07_span_linear (⟨max (z - half) f, min (z + half) b⟩ : Range K) z step eps hs he hes hc
  have hr : ∀ x ∈ v, z - half ≤ x ∧ x ≤ z + half ∧ f ≤ x ∧ x ≤ b := by
    intro x hx
    obtain ⟨g1, g2⟩ := h2 x hx
    exact ⟨le_trans (le_max_left _ _) g1, le_trans g2 (min_le_left _ _), le_trans (le_max_right _ _) g1,
      le_trans g2 (min_le_right _ _)⟩
  refine ⟨v, ?_, h1, h3, hr, ?_, ?_, window_fits hg hl hf hb h1 (fun x hx => (hr x hx).2.2), fun hzg h2e hch => ?_⟩
  · unfold windowLin
    rw [head_at hf, Res.bind_ok, last_at hb, Res.bind_ok]
    simp only [hin]
    exact hv
  · obtain ⟨x, hx, hx'⟩ := h4
    exact ⟨x, hx, by simp only at hx'; linarith⟩
  · obtain ⟨x, hx, hx'⟩ := h5
    exact ⟨x, hx, by simp only at hx'; linarith⟩
  · exact window_dense hs he h2e hzg h3 hch (span_count _ z step eps hs he hes hc v hv)

theorem modify_get {l : List K} {j i : Nat} {x v : K} (h : l[i]? = some v) (hx : i = j → x = v) :
    (l.modify j (fun _ => x))[i]? = some v := by
  rw [List.getElem?_modify, h]
  by_cases hij : j = i
  · simp [hij, hx hij.symm]
  · simp [hij]

theorem patchEnds_get {l : List K} {f b : Option K} {i : Nat} {v : K} (h : l[i]? = some v) (hf : i = 0 → ∀ x, f = some x → x = v)
    (hb : i = l.length - 1 → ∀ x, b = some x → x = v) : (patchEnds f b l)[i]? = some v := by
  unfold patchEnds
  cases f with
  | none =>
    cases b with
    | none => exact h
    | some x => exact modify_get h (fun e => hb e x rfl)
  | some y =>
    have h1 := modify_get (x := y) (j := 0) h (fun e => hf e y rfl)
    cases b with
    | none => exact h1
    | some x => exact modify_get h1 (fun e => hb (by simpa using e) x rfl)

/-- What the call leaves in the window: the points that are not within `eps` of the border of the grid, or are the border, stay. -/
theorem patched_mem {eps : K} {s g : List K} {f b c : K} (hs : c ∈ s) (hf : g.head? = some f) (hb : g.getLast? = some b)
    (hc1 : c = f ∨ f + eps < c) (hc2 : c = b ∨ c < b - eps) (heps : 0 ≤ eps) : c ∈ patched eps s g := by
  obtain ⟨i, hi, rfl⟩ := List.getElem_of_mem hs
  have hsl : 0 < s.length := by omega
  unfold patched
  rw [List.head?_eq_getElem?] at hf
  rw [List.getLast?_eq_getElem?] at hb
  rw [hf, hb, List.getElem?_eq_getElem hsl, List.getElem?_eq_getElem (show s.length - 1 < s.length by omega)]
  simp only
  set rng := (Range.intersect (⟨s[0] - eps, s[s.length - 1] + eps⟩ : Range K) ⟨f, b⟩ ⟨s[0] - eps, s[s.length - 1] + eps⟩).2 with hrng
  have r1 : rng.b = f → s[0] ≤ f + eps := by
    intro h
    rw [hrng] at h
    unfold Range.intersect at h
    split at h
    · simp only at h
      have := le_max_left (s[0] - eps) f
      rw [h] at this
      linarith
    · simp only at h
      linarith
  have r2 : rng.e = b → b - eps ≤ s[s.length - 1] := by
    intro h
    rw [hrng] at h
    unfold Range.intersect at h
    split at h
    · simp only at h
      have := min_le_left (s[s.length - 1] + eps) b
      rw [h] at this
      linarith
    · simp only at h
      linarith
  have e0 : i = 0 → rng.b = f → s[i] = f := by
    intro h hbf
    subst h
    have := r1 hbf
    rcases hc1 with h | h
    · exact h
    · exact absurd h (not_lt.2 this)
  have e1 : i = s.length - 1 → rng.e = b → s[i] = b := by
    intro h heb
    have := r2 heb
    have hh : s[s.length - 1] = s[i] := by congr 1; exact h.symm
    rw [hh] at this
    rcases hc2 with h | h
    · exact h
    · exact absurd h (not_lt.2 this)
  refine List.mem_of_getElem? (patchEnds_get (List.getElem?_eq_getElem hi) ?_ ?_)
  · intro h x hx
    split at hx
    · rename_i hbf
      rw [← Option.some.inj hx]
      exact (e0 h hbf).symm
    · simp at hx
  · intro h x hx
    split at hx
    · rename_i heb
      rw [← Option.some.inj hx]
      exact (e1 h heb).symm
    · simp at hx

theorem refineLoop_patched {V S C : Type} (k : Flt V S C) (eps : K) (heps : 0 ≤ eps) (wins : List (List K)) :
    ∀ (grid : List K) (r : LmRes K V S C) (y : List K × List (List K) × LmRes K V S C),
      (∀ s ∈ wins, SubgridFits s grid) → refineLoop k eps wins grid r = .ok y →
      List.Forall₂ (fun s s' => ∃ g : List K, g.head? = grid.head? ∧ g.getLast? = grid.getLast? ∧ s' = patched eps s g) wins y.2.1 := by
  induction wins with
  | nil =>
    intro grid r y _ h
    unfold refineLoop at h
    obtain rfl := Res.ok.inj h
    exact .nil
  | cons s ss ih =>
    intro grid r y hf h
    unfold refineLoop at h
    simp only [Res.bind_eq_ok] at h
    obtain ⟨x, hx, r', hr', y', hy', h⟩ := h
    obtain rfl := Res.ok.inj h
    obtain ⟨z, im, nd⟩ := x
    have hfs := hf s (by simp)
    obtain ⟨_, g2, g3, _⟩ := C09_insertSubgrid eps s grid z im nd heps hfs hx
    refine .cons ⟨grid, rfl, rfl, rfl⟩ ?_
    have := ih z r' y' (fun t ht => fits_after heps hfs hx (hf t (by simp [ht]))) hy'
    refine this.imp ?_
    rintro a b ⟨g, e1, e2, e3⟩
    exact ⟨g, e1.trans g2, e2.trans g3, e3⟩

/-- The windows of all the candidates, in order, after those already there. -/
theorem C99_windows {α : Type} (window : α → Res (List α)) (zs : List α) : ∀ (ext out : List (List α)),
    buildWindows window ext zs = .ok out ↔ ∃ ws, out = ext ++ ws ∧ List.Forall₂ (fun z w => window z = .ok w) zs ws := by
  induction zs with
  | nil =>
    intro ext out
    constructor
    · intro h
      obtain rfl := Res.ok.inj h
      exact ⟨[], by simp, .nil⟩
    · rintro ⟨ws, rfl, h⟩
      cases h
      simp [buildWindows]
  | cons z zs ih =>
    intro ext out
    unfold buildWindows
    rw [Res.bind_eq_ok]
    constructor
    · rintro ⟨w, hw, h⟩
      obtain ⟨ws, rfl, h2⟩ := (ih _ _).1 h
      exact ⟨w :: ws, by simp, .cons hw h2⟩
    · rintro ⟨ws, rfl, h⟩
      cases h with
      | cons hw ht =>
        rename_i w ws
        exact ⟨w, hw, (ih _ _).2 ⟨ws, by simp, ht⟩⟩

/-- A redshift of the grid after the first is at least one step further (`R` relates successive redshifts). -/
theorem grid_next {R : K → K → Prop} {grid : List K} {f z : K} (hg : grid.Pairwise (· ≤ ·)) (hch : grid.IsChain R) (hf : grid.head? = some f)
    (hz : z ∈ grid) (h : f < z) : ∃ y, R f y ∧ y ≤ z := by
  obtain ⟨m, hm, hmv⟩ := List.getElem_of_mem hz
  rw [List.head?_eq_getElem?] at hf
  obtain ⟨a1, a2⟩ := List.getElem?_eq_some_iff.1 hf
  have hm0 : 0 < m := by
    rcases Nat.eq_zero_or_pos m with h' | h'
    · subst h'; rw [a2] at hmv; exact absurd hmv (ne_of_lt h)
    · exact h'
  have h3 := List.isChain_iff_getElem.1 hch 0 (by omega)
  have h4 := getElem_le_of_le hg (show 0 + 1 ≤ m by omega) hm
  rw [a2] at h3
  rw [hmv] at h4
  exact ⟨_, h3, h4⟩

/-- The same at the other end. -/
theorem grid_prev {R : K → K → Prop} {grid : List K} {b z : K} (hg : grid.Pairwise (· ≤ ·)) (hch : grid.IsChain R) (hb : grid.getLast? = some b)
    (hz : z ∈ grid) (h : z < b) : ∃ y, R y b ∧ z ≤ y := by
  obtain ⟨m, hm, hmv⟩ := List.getElem_of_mem hz
  rw [List.getLast?_eq_getElem?] at hb
  obtain ⟨a1, a2⟩ := List.getElem?_eq_some_iff.1 hb
  have hm0 : m < grid.length - 1 := by
    rcases Nat.lt_or_ge m (grid.length - 1) with h' | h'
    · exact h'
    · have : m = grid.length - 1 := by omega
      subst this; rw [a2] at hmv; exact absurd hmv (ne_of_gt h)
  have h3 := List.isChain_iff_getElem.1 hch (grid.length - 2) (by omega)
  have h4 := getElem_le_of_le hg (show m ≤ grid.length - 2 by omega) (by omega)
  have e5 : grid[grid.length - 2 + 1]'(by omega) = grid[grid.length - 1] := by congr 1; omega
  rw [e5, a2] at h3
  rw [hmv] at h4
  exact ⟨_, h3, h4⟩

theorem grid_gap_first {grid : List K} {f z step : K} (hg : grid.Pairwise (· ≤ ·)) (hch : grid.IsChain (fun x y => x + step ≤ y))
    (hf : grid.head? = some f) (hz : z ∈ grid) (h : f < z) : f + step ≤ z := by
  obtain ⟨y, h1, h2⟩ := grid_next hg hch hf hz h
  exact le_trans h1 h2

theorem grid_gap_last {grid : List K} {b z step : K} (hg : grid.Pairwise (· ≤ ·)) (hch : grid.IsChain (fun x y => x + step ≤ y))
    (hb : grid.getLast? = some b) (hz : z ∈ grid) (h : z < b) : z + step ≤ b := by
  obtain ⟨y, h1, h2⟩ := grid_prev hg hch hb hz h
  have : y + step ≤ b := h1
  linarith

/-- Refinement by windows that hold their candidate, stay in `[lo z, hi z]` and do not meet. -/
theorem refine_windows {V S C : Type} (k : Flt V S C) (eps : K) (window : K → Res (List K)) (lo hi : K → K) (grid zs : List K) (f b : K)
    (r : LmRes K V S C) (he : 0 ≤ eps) (hl : 2 ≤ grid.length)
    (hg : grid.Pairwise (· < ·)) (hf : grid.head? = some f) (hb : grid.getLast? = some b)
    (hr : Aligned grid.length r) (hz : ∀ z ∈ zs, z ∈ grid)
    (hbf : ∀ z ∈ zs, z = f ∨ f + eps < z) (hbb : ∀ z ∈ zs, z = b ∨ z < b - eps)
    (hw : ∀ z ∈ zs, ∃ v, window z = .ok v ∧ v.Pairwise (· < ·) ∧ z ∈ v ∧
      (∀ x ∈ v, lo z ≤ x ∧ x ≤ hi z) ∧ SubgridFits v grid ∧ Dense eps v grid)
    (hap : zs.Pairwise (fun x y => hi x + 2 * eps < lo y ∨ hi y + 2 * eps < lo x)) :
    ∃ wins grid' wins' r', buildWindows window [] zs = .ok wins ∧
      refine k eps wins grid r = .ok (grid', wins', r') ∧ r'.redshifts = grid' ∧ Aligned grid'.length r' ∧
      grid'.Pairwise (· < ·) ∧
      List.Forall₂ (fun z w => z ∈ w ∧ z ∈ grid' ∧ ∀ x ∈ w, x ∈ grid' ∧ lo z - eps ≤ x ∧ x ≤ hi z + eps) zs wins' := by
  obtain ⟨wins, hwins⟩ : ∃ wins, List.Forall₂ (fun z w => window z = .ok w) zs wins := by
    clear hap hz hbf hbb
    induction zs with
    | nil => exact ⟨[], .nil⟩
    | cons z zs ih =>
      obtain ⟨ws, hws⟩ := ih (fun z hz => hw z (by simp [hz]))
      obtain ⟨v, hv, _⟩ := hw z (by simp)
      exact ⟨v :: ws, .cons hv hws⟩
  have hbw := (C99_windows window zs [] wins).2 ⟨wins, by simp, hwins⟩
  have hprop : List.Forall₂ (fun z w => w.Pairwise (· < ·) ∧ z ∈ w ∧ (∀ x ∈ w, lo z ≤ x ∧ x ≤ hi z) ∧
      SubgridFits w grid ∧ Dense eps w grid ∧ z ∈ grid) zs wins := by
    rw [List.forall₂_iff_get] at hwins ⊢
    refine ⟨hwins.1, fun i h1 h2 => ?_⟩
    have e := hwins.2 i h1 h2
    have hm : zs.get ⟨i, h1⟩ ∈ zs := List.get_mem _ _
    obtain ⟨v, e', p⟩ := hw _ hm
    rw [e] at e'
    obtain rfl := Res.ok.inj e'
    exact ⟨p.1, p.2.1, p.2.2.1, p.2.2.2.1, p.2.2.2.2, hz _ hm⟩
  have hwl := (List.forall₂_iff_get.1 hprop).1
  have hmemw : ∀ s ∈ wins, ∃ z ∈ zs, s.Pairwise (· < ·) ∧ z ∈ s ∧ (∀ x ∈ s, lo z ≤ x ∧ x ≤ hi z) ∧
      SubgridFits s grid ∧ Dense eps s grid := by
    intro s hs'
    obtain ⟨i, hi, rfl⟩ := List.getElem_of_mem hs'
    have := (List.forall₂_iff_get.1 hprop).2 i (by omega) hi
    simp only [List.get_eq_getElem] at this
    exact ⟨zs[i]'(by omega), List.getElem_mem _, this.1, this.2.1, this.2.2.1, this.2.2.2.1, this.2.2.2.2.1⟩
  have hapw : wins.Pairwise (Apart eps) := by
    rw [List.pairwise_iff_getElem] at hap ⊢
    intro i j hi hj hij
    have p1 := (List.forall₂_iff_get.1 hprop).2 i (by omega) hi
    have p2 := (List.forall₂_iff_get.1 hprop).2 j (by omega) hj
    simp only [List.get_eq_getElem] at p1 p2
    have hd := hap i j (by omega) (by omega) hij
    rcases hd with hd | hd
    · left
      intro x hx y hy
      have := (p1.2.2.1 x hx).2
      have := (p2.2.2.1 y hy).1
      linarith
    · right
      intro x hx y hy
      have := (p1.2.2.1 x hx).1
      have := (p2.2.2.1 y hy).2
      linarith
  have hfits : ∀ s ∈ wins, SubgridFits s grid := fun s hs' => by obtain ⟨_, _, _, _, _, h, _⟩ := hmemw s hs'; exact h
  obtain ⟨y, hy⟩ := C97_refine_total k eps he wins grid r hfits
    (fun s hs' => by obtain ⟨_, _, _, _, _, _, h⟩ := hmemw s hs'; exact h) hr hapw
  obtain ⟨grid', wins', r'⟩ := y
  obtain ⟨c1, c2, c3⟩ := C97_refine k eps he wins grid grid' wins' r r' hfits hr hy
  obtain ⟨d1, d2⟩ := C98_windows_found_partial k eps he wins grid grid' wins' r r' hfits hr hapw hy
  have hy' := hy
  unfold refine at hy'
  rw [Res.bind_eq_ok] at hy'
  obtain ⟨y, hyl, hy'⟩ := hy'
  simp only [Res.ok.injEq, Prod.mk.injEq] at hy'
  obtain ⟨rfl, rfl, rfl⟩ := hy'
  have hpat := refineLoop_patched k eps he wins grid r y hfits hyl
  obtain ⟨hinf, _⟩ := refineLoop_infix k eps he wins grid r y hfits hr hyl hapw
  have hg' := C09_insertSubgrids eps he wins grid y.1 hg hl hfits (refineLoop_spec k eps he wins grid r y hfits hr hyl).1
  refine ⟨wins, _, _, _, hbw, hy, c1, c2, hg'.1, ?_⟩
  rw [List.forall₂_iff_get]
  refine ⟨by omega, fun i h1 h2 => ?_⟩
  simp only [List.get_eq_getElem]
  have p1 := (List.forall₂_iff_get.1 hprop).2 i h1 (by omega)
  have p2 := (List.forall₂_iff_get.1 hpat).2 i (by omega) h2
  have p3 := (List.forall₂_iff_get.1 hinf).2 i (by omega) h2
  simp only [List.get_eq_getElem] at p1 p2 p3
  obtain ⟨g, e1, e2, e3⟩ := p2
  have hzg : zs[i] ∈ grid := p1.2.2.2.2.2
  have hm : zs[i] ∈ y.2.1[i] := by
    rw [e3]
    exact patched_mem p1.2.1 (e1.trans hf) (e2.trans hb) (hbf _ (List.getElem_mem h1)) (hbb _ (List.getElem_mem h1)) he
  refine ⟨hm, p3.2.1.subset hm, fun x hx => ⟨p3.2.1.subset hx, ?_⟩⟩
  obtain ⟨⟨u, hu, hu'⟩, ⟨w, hw', hw''⟩⟩ := p3.2.2 x hx
  have := (p1.2.2.1 u hu).1
  have := (p1.2.2.1 w hw').2
  exact ⟨by linarith, by linarith⟩

/-- **C99, refinement.** Candidates of the grid, further apart from each other than twice the half window: every window is built, the
refinement of the grid succeeds, and afterwards each candidate and every redshift of its window are found in the refined grid. (`grid` has
redshifts at least `step` apart, the step being larger than `2 * eps`.) -/
theorem C99_refine [FloorRing K] {V S C : Type} (k : Flt V S C) (half step eps : K) (grid zs : List K) (f b : K) (r : LmRes K V S C)
    (hh : 0 ≤ half) (he : 0 ≤ eps) (hes : 2 * eps < step) (hl : 2 ≤ grid.length)
    (hg : grid.Pairwise (· < ·)) (hch : grid.IsChain (fun x y => x + step ≤ y)) (hf : grid.head? = some f) (hb : grid.getLast? = some b)
    (hr : Aligned grid.length r) (hz : ∀ z ∈ zs, z ∈ grid)
    (hap : zs.Pairwise (fun x y => 2 * half + 2 * eps < |x - y|)) :
    ∃ wins grid' wins' r', buildWindows (windowLin half step eps grid) [] zs = .ok wins ∧
      refine k eps wins grid r = .ok (grid', wins', r') ∧ r'.redshifts = grid' ∧ Aligned grid'.length r' ∧
      grid'.Pairwise (· < ·) ∧
      List.Forall₂ (fun z w => z ∈ w ∧ z ∈ grid' ∧ ∀ x ∈ w, x ∈ grid' ∧ z - half - eps ≤ x ∧ x ≤ z + half + eps) zs wins' := by
  have hs : 0 < step := by linarith
  have hg2 : grid.Pairwise (· ≤ ·) := hg.imp le_of_lt
  have hzr : ∀ z ∈ grid, f ≤ z ∧ z ≤ b := by
    intro z hz
    obtain ⟨i, hi, rfl⟩ := List.getElem_of_mem hz
    rw [List.head?_eq_getElem?] at hf
    rw [List.getLast?_eq_getElem?] at hb
    obtain ⟨a1, rfl⟩ := List.getElem?_eq_some_iff.1 hf
    obtain ⟨b1, rfl⟩ := List.getElem?_eq_some_iff.1 hb
    exact ⟨getElem_le_of_le hg2 (by omega) hi, getElem_le_of_le hg2 (by omega) b1⟩
  refine refine_windows k eps (windowLin half step eps grid) (fun z => z - half) (fun z => z + half) grid zs f b r he hl hg hf hb hr hz
    ?_ ?_ ?_ (hap.imp fun {x y} h => ?_)
  · intro z hzm
    rcases (hzr _ (hz z hzm)).1.eq_or_lt with h | h
    · exact .inl h.symm
    · exact .inr (by have := grid_gap_first hg2 hch hf (hz z hzm) h; linarith)
  · intro z hzm
    rcases (hzr _ (hz z hzm)).2.eq_or_lt with h | h
    · exact .inl h
    · exact .inr (by have := grid_gap_last hg2 hch hb (hz z hzm) h; linarith)
  · intro z hzm
    obtain ⟨g1, g2⟩ := hzr z (hz z hzm)
    obtain ⟨v, h1, h2, h3, h4, _, _, h5, h6⟩ := C99_window_linear half step eps grid z f b hh hs he (by linarith) hg hl hf hb g1 g2
    exact ⟨v, h1, h2, h3, fun x hx => ⟨(h4 x hx).1, (h4 x hx).2.1⟩, h5, h6 (hz z hzm) hes hch⟩
  · rcases lt_abs.1 h with hd | hd
    · right; linarith
    · left; linarith

end

/-! ## Logarithmic sampling -/

/-- The span of a centred window in `log (1 + z)`. -/
theorem span_count_log (r : Range ℝ) (c d eps : ℝ) (hd : 0 < d) (he : 0 ≤ eps) (hc : r.Mem c)
    (hed : eps * Real.exp d < (r.b + 1) * (Real.exp d - 1)) (v : List ℝ) (hv : r.spanCenteredLog c d eps = .ok v) :
    ∀ x ∈ v, ∀ y ∈ v, y + 1 ≤ (x + 1) * Real.exp (((v.length : ℝ) - 1) * d) := by
  have hexp1 : 1 < Real.exp d := Real.one_lt_exp_iff.2 hd
  have hb : 0 < r.b + 1 := by
    have : 0 ≤ eps * Real.exp d := by positivity
    nlinarith
  have hcb : 0 < c + 1 := by have := hc.1; linarith
  have hed2 : eps < (r.e + 1) * (Real.exp d - 1) := by
    have h1 : eps ≤ eps * Real.exp d := by nlinarith
    have h2 : r.b ≤ r.e := le_trans hc.1 hc.2
    nlinarith
  obtain ⟨lft, hl, hl1, hl2, hl3, hl4, hl5⟩ := C06_log_eps_backward (⟨r.b, c⟩ : Range ℝ) d 1 eps hd he hc.1 hed
  obtain ⟨rgt, hr, hr1, hr2, hr3, hr4, hr5⟩ :=
    C06_log_eps_forward (⟨c, r.e⟩ : Range ℝ) d 1 eps hd he hc.2 hcb hed2
  simp only at hl2 hl3 hl4 hl5 hr2 hr3 hr4 hr5
  match rgt, hr3 with
  | a :: t, hr3 =>
    simp only [List.head?_cons, Option.some.injEq] at hr3
    subst hr3
    have hcl : a ∈ lft := List.mem_of_getLast? hl3
    have hlpos : 0 < lft.length := List.length_pos_of_mem hcl
    have hve : v = lft ++ t := by
      unfold Range.spanCenteredLog at hv
      simp only [hl, hr, Res.bind_ok, Range.appendTail, Res.ok.injEq] at hv
      exact hv.symm
    have hlow : ∀ x ∈ v, a + 1 ≤ (x + 1) * Real.exp (((lft.length : ℝ) - 1) * d) := by
      intro x hx
      rw [hve] at hx
      rcases List.mem_append.1 hx with h | h
      · obtain ⟨i, hi, rfl⟩ := List.getElem_of_mem h
        have := hl4 (lft.length - 1 - i) (by omega)
        have e : lft.length - 1 - (lft.length - 1 - i) = i := by omega
        simp only [e] at this
        have h2 : (a + 1) * Real.exp (-(((lft.length - 1 - i : ℕ) : ℝ) * d)) ≤ lft[i] + 1 := by
          rw [this]
          have := le_max_left ((a + 1) * Real.exp (-(((lft.length - 1 - i : ℕ) : ℝ) * d)) - 1) r.b
          linarith
        have h3 : ((lft.length - 1 - i : ℕ) : ℝ) ≤ (lft.length : ℝ) - 1 := by
          have h' : lft.length - 1 - i + 1 ≤ lft.length := by omega
          have : ((lft.length - 1 - i + 1 : ℕ) : ℝ) ≤ (lft.length : ℝ) := by exact_mod_cast h'
          push_cast at this
          linarith
        calc a + 1 = (a + 1) * Real.exp (-(((lft.length - 1 - i : ℕ) : ℝ) * d)) * Real.exp (((lft.length - 1 - i : ℕ) : ℝ) * d) := by
              rw [mul_assoc, ← Real.exp_add]; simp
          _ ≤ (lft[i] + 1) * Real.exp (((lft.length - 1 - i : ℕ) : ℝ) * d) := by
              exact mul_le_mul_of_nonneg_right h2 (Real.exp_pos _).le
          _ ≤ (lft[i] + 1) * Real.exp (((lft.length : ℝ) - 1) * d) := by
              refine mul_le_mul_of_nonneg_left (Real.exp_le_exp.2 (by nlinarith)) ?_
              have := (hl2 _ h).1
              simp only at this
              linarith
      · have h1 := (List.pairwise_cons.1 hr1).1 x h
        have h2 : (1 : ℝ) ≤ (lft.length : ℝ) := by exact_mod_cast hlpos
        have h3 : 1 ≤ Real.exp (((lft.length : ℝ) - 1) * d) := Real.one_le_exp (by nlinarith)
        nlinarith
    have hhigh : ∀ y ∈ v, y + 1 ≤ (a + 1) * Real.exp ((t.length : ℝ) * d) := by
      intro y hy
      rw [hve] at hy
      rcases List.mem_append.1 hy with h | h
      · have := (hl2 y h).2
        have h0 : 1 ≤ Real.exp ((t.length : ℝ) * d) := Real.one_le_exp (by positivity)
        simp only at this
        nlinarith
      · obtain ⟨i, hi, rfl⟩ := List.getElem_of_mem h
        have := hr4 (i + 1) (by simp only [List.length_cons]; omega)
        simp only [List.getElem_cons_succ] at this
        rw [this]
        have h3 : ((i + 1 : ℕ) : ℝ) ≤ (t.length : ℝ) := by exact_mod_cast hi
        have h4 : Real.exp (((i + 1 : ℕ) : ℝ) * d) ≤ Real.exp ((t.length : ℝ) * d) := Real.exp_le_exp.2 (by nlinarith)
        have h5 := min_le_left ((a + 1) * Real.exp (((i + 1 : ℕ) : ℝ) * d) - 1) r.e
        nlinarith
    intro x hx y hy
    have h1 := hlow x hx
    have h2 := hhigh y hy
    have e : (v.length : ℝ) = (lft.length : ℝ) + (t.length : ℝ) := by rw [hve]; push_cast [List.length_append]; ring
    rw [e]
    calc y + 1 ≤ (a + 1) * Real.exp ((t.length : ℝ) * d) := h2
      _ ≤ (x + 1) * Real.exp (((lft.length : ℝ) - 1) * d) * Real.exp ((t.length : ℝ) * d) :=
          mul_le_mul_of_nonneg_right h1 (Real.exp_pos _).le
      _ = _ := by rw [mul_assoc, ← Real.exp_add]; ring_nf

/-- **C99, logarithmic sampling.** The same with windows and steps in `log (1 + z)`: the half size is in `log (1 + z)` too. -/
theorem C99_window_log (half step eps : ℝ) (grid : List ℝ) (z f b : ℝ) (hh : 0 ≤ half) (hs : 0 < step) (he : 0 ≤ eps)
    (hf0 : -1 < z)
    (hes : eps * Real.exp (step / 2) < (max ((1 + z) * Real.exp (-half)) (1 + f)) * (Real.exp (step / 2) - 1))
    (hg : grid.Pairwise (· < ·)) (hl : 2 ≤ grid.length) (hf : grid.head? = some f) (hb : grid.getLast? = some b) (hz : f ≤ z)
    (hz' : z ≤ b) :
    ∃ v, windowLog half step eps grid z = .ok v ∧ v.Pairwise (· < ·) ∧ z ∈ v ∧
      (∀ x ∈ v, (1 + z) * Real.exp (-half) ≤ 1 + x ∧ 1 + x ≤ (1 + z) * Real.exp half ∧ f ≤ x ∧ x ≤ b) ∧
      SubgridFits v grid ∧
      (z ∈ grid → grid.IsChain (fun x y => (x + 1) * Real.exp step ≤ y + 1) → Dense eps v grid) := by
  set lo := z - (1 - Real.exp (-half)) * (1 + z) with hlo
  set hi := z + (Real.exp half - 1) * (1 + z) with hhi
  have elo : lo + 1 = (1 + z) * Real.exp (-half) := by rw [hlo]; ring
  have ehi : hi + 1 = (1 + z) * Real.exp half := by rw [hhi]; ring
  have e1 : Real.exp (-half) ≤ 1 := Real.exp_le_one_iff.2 (by linarith)
  have e2 : 1 ≤ Real.exp half := Real.one_le_exp hh
  have hloz : lo ≤ z := by rw [hlo]; nlinarith
  have hhiz : z ≤ hi := by rw [hhi]; nlinarith
  have hin : Range.intersect (⟨lo, hi⟩ : Range ℝ) ⟨f, b⟩ ⟨lo, hi⟩ = (true, ⟨max lo f, min hi b⟩) := by
    unfold Range.intersect Range.hasIntersection
    rw [if_pos]
    rw [decide_eq_true_iff]
    simp only
    exact le_trans (max_le hloz hz) (le_min hhiz hz')
  have hc : (⟨max lo f, min hi b⟩ : Range ℝ).Mem z := ⟨max_le hloz hz, le_min hhiz hz'⟩
  have hmx : max ((1 + z) * Real.exp (-half)) (1 + f) = max lo f + 1 := by
    rw [← elo, max_add_add_right lo f 1 |>.symm, add_comm 1 f]
  rw [hmx] at hes
  set t := Real.exp (step / 2) with ht
  have ht1 : 1 < t := Real.one_lt_exp_iff.2 (by linarith)
  have htt : Real.exp step = t * t := by rw [ht, ← Real.exp_add]; ring_nf
  have hM : 0 < max lo f + 1 := by
    have : 0 ≤ eps * t := by positivity
    nlinarith
  have hed : eps * Real.exp step < (max lo f + 1) * (Real.exp step - 1) := by
    rw [htt]
    nlinarith [mul_lt_mul_of_pos_right hes (show 0 < t by linarith), mul_pos hM (show 0 < t - 1 by linarith)]
  obtain ⟨v, hv, h1, h2, h3⟩ := C07_span_log (⟨max lo f, min hi b⟩ : Range ℝ) z step eps hs he hc hed
  have hr : ∀ x ∈ v, (1 + z) * Real.exp (-half) ≤ 1 + x ∧ 1 + x ≤ (1 + z) * Real.exp half ∧ f ≤ x ∧ x ≤ b := by
    intro x hx
    obtain ⟨g1, g2⟩ := h2 x hx
    have a1 := le_trans (le_max_left lo f) g1
    have a2 := le_trans g2 (min_le_left hi b)
    exact ⟨by rw [← elo]; linarith, by rw [← ehi]; linarith, le_trans (le_max_right _ _) g1, le_trans g2 (min_le_right _ _)⟩
  refine ⟨v, ?_, h1, h3, hr, window_fits hg hl hf hb h1 (fun x hx => (hr x hx).2.2), fun hzg hch => ?_⟩
  · unfold windowLog
    rw [head_at hf, Res.bind_ok, last_at hb, Res.bind_ok]
    simp only [← hlo, ← hhi, hin]
    exact hv
  · refine ⟨⟨z, hzg, ⟨z, h3, by linarith⟩, ⟨z, h3, by linarith⟩⟩, ?_⟩
    intro i j zi zj hij hi hj hsi hsj
    obtain ⟨x, hx, hx'⟩ := hsi.1
    obtain ⟨y, hy, hy'⟩ := hsj.2
    have hxm : max lo f ≤ x := (h2 x hx).1
    have hym : max lo f ≤ y := (h2 y hy).1
    have hzi : 0 < zi + 1 := by
      have h1' : eps < max lo f + 1 := by nlinarith
      linarith
    have hgap : ∀ n : Nat, ∀ z, grid[i + n]? = some z → (zi + 1) * Real.exp ((n : ℝ) * step) ≤ z + 1 := by
      intro n
      induction n with
      | zero =>
        intro z hz
        rw [Nat.add_zero, hi] at hz
        obtain rfl := Option.some.inj hz
        simp
      | succ n ih =>
        intro z hz
        obtain ⟨hlt, hv'⟩ := List.getElem?_eq_some_iff.1 hz
        have h1 := ih (grid[i + n]'(by omega)) (List.getElem?_eq_getElem _)
        have h3 := List.isChain_iff_getElem.1 hch (i + n) (by omega)
        have h4 : grid[i + n + 1]'(by omega) = z := hv'
        rw [h4] at h3
        have e : Real.exp (((n + 1 : ℕ) : ℝ) * step) = Real.exp ((n : ℝ) * step) * Real.exp step := by
          rw [← Real.exp_add]; push_cast; ring_nf
        rw [e, ← mul_assoc]
        exact le_trans (mul_le_mul_of_nonneg_right h1 (Real.exp_pos _).le) h3
    obtain ⟨m, rfl⟩ : ∃ m, j = i + m := ⟨j - i, by omega⟩
    have g1 := hgap m zj hj
    have g2 := span_count_log _ z step eps hs he hc hed v hv x hx y hy
    by_contra hcon
    have h4 : v.length ≤ m := by omega
    have h5 : Real.exp ((v.length : ℝ) * step) ≤ Real.exp ((m : ℝ) * step) :=
      Real.exp_le_exp.2 (by have : (v.length : ℝ) ≤ (m : ℝ) := by exact_mod_cast h4
                            nlinarith)
    have h6 : Real.exp ((v.length : ℝ) * step) = Real.exp (((v.length : ℝ) - 1) * step) * (t * t) := by
      rw [← htt, ← Real.exp_add]; ring_nf
    set E := Real.exp (((v.length : ℝ) - 1) * step) with hE
    have hEp : 0 < E := Real.exp_pos _
    -- the widening by `eps` costs less than half a step on each side
    have htm : 0 ≤ t - 1 := by linarith
    have k1 : x + 1 < (zi + 1) * t := by
      have p1 := mul_le_mul_of_nonneg_right (show x + 1 - eps ≤ zi + 1 by linarith) (show 0 ≤ t by linarith)
      have p2 := mul_le_mul_of_nonneg_right (show max lo f + 1 ≤ x + 1 by linarith) htm
      have p3 : (x + 1 - eps) * t = (x + 1) * (t - 1) + (x + 1) - eps * t := by ring
      linarith
    have k2 : zj + 1 < (y + 1) * t := by
      have p2 := mul_le_mul_of_nonneg_right (show max lo f + 1 ≤ y + 1 by linarith) htm
      have p3 : (y + 1) * t = (y + 1) * (t - 1) + (y + 1) := by ring
      have p4 : eps ≤ eps * t := le_mul_of_one_le_right he ht1.le
      linarith
    have c1 : (zi + 1) * (E * (t * t)) ≤ zj + 1 := by
      rw [← h6]
      exact le_trans (mul_le_mul_of_nonneg_left h5 hzi.le) g1
    have c2 : (y + 1) * t ≤ (x + 1) * E * t := mul_le_mul_of_nonneg_right g2 (by linarith)
    have c3 : (x + 1) * E * t < (zi + 1) * t * E * t :=
      mul_lt_mul_of_pos_right (mul_lt_mul_of_pos_right k1 hEp) (by linarith)
    have c4 : (zi + 1) * t * E * t = (zi + 1) * (E * (t * t)) := by ring
    linarith

/-! ## A concrete case -/

/-- The window of half size 1 and step 1/2 around 2, and around the border 0. -/
example : windowLin (1 : ℚ) (1 / 2) (1 / 100) [0, 1, 2, 3, 4] 2 = .ok [1, 3 / 2, 2, 5 / 2, 3] ∧
    windowLin (1 : ℚ) (1 / 2) (1 / 100) [0, 1, 2, 3, 4] 0 = .ok [0, 1 / 2, 1] ∧
    buildWindows (windowLin (1 : ℚ) (1 / 2) (1 / 100) [0, 1, 2, 3, 4]) [] [2, 0] = .ok [[1, 3 / 2, 2, 5 / 2, 3], [0, 1 / 2, 1]] := by
  decide +kernel

example := C99_window_linear (1 : ℚ) (1 / 2) (1 / 100) [0, 1, 2, 3, 4] 2 0 4 (by norm_num) (by norm_num) (by norm_num) (by norm_num)
  (by decide +kernel) (by simp) rfl rfl (by norm_num) (by norm_num)

/-- Two candidates, 0 and 4, further than two windows apart. -/
example := C99_refine (⟨0, 0, 0, 0, 0⟩ : Flt ℚ ℚ ℚ) (1 : ℚ) (1 / 2) (1 / 100) [0, 1, 2, 3, 4] [0, 4] 0 4
  ⟨[0, 1, 2, 3, 4], [1, 2, 3, 4, 5], [0, 0, 0, 0, 0], [0, 0, 0, 0, 0], [0, 0, 0, 0, 0], [0, 0, 0, 0, 0], [0, 0, 0, 0, 0], [], [], [],
    [], [], [], [], []⟩
  (by norm_num) (by norm_num) (by norm_num) (by simp) (by decide +kernel) (by decide +kernel) rfl rfl
  (by constructor <;> simp) (by decide +kernel) (by decide +kernel)

example := C99_window_log (1 / 10) (1 / 100) 0 [0, 1, 2] 1 0 2 (by norm_num) (by norm_num) (by norm_num) (by norm_num)
  (by
    rw [zero_mul]
    exact mul_pos (lt_of_lt_of_le (by norm_num) (le_max_right _ _)) (by have := Real.one_lt_exp_iff.2 (show (0 : ℝ) < 1 / 100 / 2 by norm_num); linarith))
  (by simp) (by simp) rfl rfl (by norm_num) (by norm_num)

end SecondPass
end Amazed
