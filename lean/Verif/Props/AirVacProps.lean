import Mathlib.Tactic.Linarith
import Mathlib.Tactic.FieldSimp
import Mathlib.Tactic.Ring
import Mathlib.Tactic.NormNum
import Mathlib.Tactic.Positivity
import Verif.Model.AirVac

/-! # C63: air / vacuum conversion -/

set_option linter.unusedSectionVars false
set_option linter.unusedVariables false

namespace Amazed
namespace AirVac

variable {K : Type} [Field K] [LinearOrder K] [IsStrictOrderedRing K]

/-! ## Specification -/

/-- The published refractive index of standard air for the vacuum wavelength `w` in Ångström, by name of the
reference, with the wavelengths the library accepts for it. -/
structure Published (K : Type) where
  index : K → K
  lo : K
  hi : Option K

/-- `σ²` in `µm⁻²`. -/
def sigma2 (w : K) : K := 10 ^ 8 / (w * w)

/-- Edlén 1953, Edlén 1966, Peck & Reeder 1972, Ciddor 1996, Birch & Downs (Morton 2000). -/
def published (name : String) : Option (Published K) :=
  match name with
  | "edlen1953" => some ⟨fun w => 1 + 0.000064328 + 0.0294981 / (146 - sigma2 w) + 0.0002554 / (41 - sigma2 w),
      2000, none⟩
  | "edlen1966" => some ⟨fun w => 1 + 0.0000834213 + 0.0240603 / (130 - sigma2 w) + 0.00015997 / (38.9 - sigma2 w),
      2000, none⟩
  | "PeckReeder1972" => some ⟨fun w => 1 + 0.05791817 / (238.0185 - sigma2 w) + 0.00167909 / (57.362 - sigma2 w),
      3000, some 19000⟩
  | "ciddor1996" => some ⟨fun w => 1 + 0.05792105 / (238.0185 - sigma2 w) + 0.00167917 / (57.362 - sigma2 w),
      3000, some 19000⟩
  | "morton2000" => some ⟨fun w => 1 + 0.0000834254 + 0.02406147 / (130 - sigma2 w) + 0.00015998 / (38.9 - sigma2 w),
      3000, some 19000⟩
  | _ => none

/-- A wavelength is in the accepted range. -/
def Published.Accepts (p : Published K) (w : K) : Prop := p.lo ≤ w ∧ ∀ h, p.hi = some h → w ≤ h

/-- A conversion that keeps the number and the strict order of the wavelengths. -/
def OrderKept (x y : List K) : Prop :=
  ∃ hl : y.length = x.length, ∀ (i j : Nat) (hi : i < x.length) (hj : j < x.length),
    x[i] < x[j] ↔ y[i]'(by omega) < y[j]'(by omega)

/-! ## Lemmas on the index -/

/-- The index of a converter. -/
def idx (c : Conv K) (w : K) : K := 1 + c.a + c.b1 / (c.c1 - sigma2 w) + c.b2 / (c.c2 - sigma2 w)

/-- Bounds satisfied by all the converters. -/
structure Good (c : Conv K) : Prop where
  a0 : 0 ≤ c.a
  b1 : 0 < c.b1
  b2 : 0 < c.b2
  lo : 0 < c.lo
  c1 : sigma2 c.lo < c.c1
  c2 : sigma2 c.lo < c.c2
  nu : c.a + c.b1 / (c.c1 - sigma2 c.lo) + c.b2 / (c.c2 - sigma2 c.lo) ≤ 33 / 10 ^ 5
  kap : 2 * sigma2 c.lo * (c.b1 / (c.c1 - sigma2 c.lo) ^ 2 + c.b2 / (c.c2 - sigma2 c.lo) ^ 2) ≤ 33 / 10 ^ 5

theorem good_edlen1953 : Good (edlen1953 : Conv K) := by
  constructor <;> norm_num [edlen1953, sigma2]
theorem good_edlen1966 : Good (edlen1966 : Conv K) := by
  constructor <;> norm_num [edlen1966, sigma2]
theorem good_peckReeder1972 : Good (peckReeder1972 : Conv K) := by
  constructor <;> norm_num [peckReeder1972, sigma2]
theorem good_ciddor1996 : Good (ciddor1996 : Conv K) := by
  constructor <;> norm_num [ciddor1996, sigma2]
theorem good_morton2000 : Good (morton2000 : Conv K) := by
  constructor <;> norm_num [morton2000, sigma2]

theorem get_published {name : String} {p : Published K} (h : published name = some p) :
    ∃ c : Conv K, get name = .ok c ∧ Good c ∧ c.lo = p.lo ∧ c.hi = p.hi ∧ (∀ w, idx c w = p.index w) ∧
      (c.direct = true ↔ name = "morton2000") ∧ (c.direct = true → c = morton2000) := by
  unfold published at h
  split at h
  · cases h
    exact ⟨edlen1953, rfl, good_edlen1953, rfl, rfl, fun w => by simp only [idx, edlen1953]; norm_num, by simp [edlen1953], by simp [edlen1953]⟩
  · cases h
    exact ⟨edlen1966, rfl, good_edlen1966, rfl, rfl, fun w => by simp only [idx, edlen1966]; norm_num, by simp [edlen1966], by simp [edlen1966]⟩
  · cases h
    exact ⟨peckReeder1972, rfl, good_peckReeder1972, rfl, rfl, fun w => by simp only [idx, peckReeder1972]; norm_num, by simp [peckReeder1972], by simp [peckReeder1972]⟩
  · cases h
    exact ⟨ciddor1996, rfl, good_ciddor1996, rfl, rfl, fun w => by simp only [idx, ciddor1996]; norm_num, by simp [ciddor1996], by simp [ciddor1996]⟩
  · cases h
    exact ⟨morton2000, rfl, good_morton2000, rfl, rfl, fun w => by simp only [idx, morton2000]; norm_num, by simp [morton2000], by simp [morton2000]⟩
  · cases h

theorem sigma2_pos {w : K} (h : 0 < w) : 0 < sigma2 w := by unfold sigma2; positivity

theorem sigma2_anti {w w' : K} (h : 0 < w) (h2 : w ≤ w') : sigma2 w' ≤ sigma2 w := by
  unfold sigma2
  have h3 : w * w ≤ w' * w' := mul_le_mul h2 h2 h.le (by linarith)
  exact div_le_div_of_nonneg_left (by norm_num) (by positivity) h3

theorem term_anti {b c s s' : K} (hb : 0 < b) (hs : s' ≤ s) (hc : s < c) : b / (c - s') ≤ b / (c - s) :=
  div_le_div_of_nonneg_left hb.le (by linarith) (by linarith)

section
variable {c : Conv K} (g : Good c)
include g

theorem idx_bounds {w : K} (h : c.lo ≤ w) : 1 < idx c w ∧ idx c w ≤ 1 + 33 / 10 ^ 5 := by
  have hs := sigma2_anti g.lo h
  have t1 := term_anti g.b1 hs g.c1
  have t2 := term_anti g.b2 hs g.c2
  have p1 : 0 < c.b1 / (c.c1 - sigma2 w) := div_pos g.b1 (by linarith [g.c1])
  have p2 : 0 < c.b2 / (c.c2 - sigma2 w) := div_pos g.b2 (by linarith [g.c2])
  have := g.nu
  have := g.a0
  unfold idx
  constructor <;> linarith

theorem idx_anti {w w' : K} (h : c.lo ≤ w) (h2 : w ≤ w') : idx c w' ≤ idx c w := by
  have hw : 0 < w := lt_of_lt_of_le g.lo h
  have hs := sigma2_anti hw h2
  have hs0 := sigma2_anti g.lo h
  have t1 := term_anti g.b1 hs (lt_of_le_of_lt hs0 g.c1)
  have t2 := term_anti g.b2 hs (lt_of_le_of_lt hs0 g.c2)
  unfold idx
  linarith

theorem term_diff {b cc : K} (hb : 0 < b) {s s' m : K} (h1 : s' ≤ s) (h2 : s ≤ m) (h3 : m < cc) :
    b / (cc - s) - b / (cc - s') ≤ (s - s') * (b / (cc - m) ^ 2) := by
  have e : b / (cc - s) - b / (cc - s') = (s - s') * (b / ((cc - s) * (cc - s'))) := by
    have : cc - s ≠ 0 := by linarith
    have : cc - s' ≠ 0 := by linarith
    field_simp
    ring
  rw [e]
  apply mul_le_mul_of_nonneg_left _ (by linarith)
  apply div_le_div_of_nonneg_left hb.le (by have : 0 < cc - m := by linarith
                                            positivity)
  rw [pow_two]
  exact mul_le_mul (by linarith) (by linarith) (by linarith) (by linarith)

theorem idx_slope {w w' : K} (h : c.lo ≤ w) (h2 : w ≤ w') :
    w * (idx c w - idx c w') ≤ 33 / 10 ^ 5 * (w' - w) := by
  have hw : 0 < w := lt_of_lt_of_le g.lo h
  have hw' : 0 < w' := lt_of_lt_of_le hw h2
  have hs := sigma2_anti hw h2
  have hs0 := sigma2_anti g.lo h
  have d1 := term_diff g g.b1 hs hs0 g.c1
  have d2 := term_diff g g.b2 hs hs0 g.c2
  set B := c.b1 / (c.c1 - sigma2 c.lo) ^ 2 + c.b2 / (c.c2 - sigma2 c.lo) ^ 2 with hB
  have hBp : 0 ≤ B := by
    have := g.b1.le
    have := g.b2.le
    positivity
  have e1 : idx c w - idx c w' ≤ (sigma2 w - sigma2 w') * B := by
    unfold idx
    rw [hB]
    linarith
  have e2 : w * (sigma2 w - sigma2 w') ≤ 2 * sigma2 c.lo * (w' - w) := by
    have e3 : w * (sigma2 w - sigma2 w') = sigma2 w * ((w' - w) * (w * (w' + w)) / (w' * w')) := by
      unfold sigma2
      field_simp
      ring
    have e4 : (w' - w) * (w * (w' + w)) / (w' * w') ≤ 2 * (w' - w) := by
      rw [div_le_iff₀ (by positivity)]
      have : w * (w' + w) ≤ 2 * (w' * w') := by nlinarith
      nlinarith
    rw [e3]
    have hn : 0 ≤ (w' - w) * (w * (w' + w)) / (w' * w') := by
      apply div_nonneg _ (by positivity)
      exact mul_nonneg (by linarith) (by positivity)
    calc _ ≤ sigma2 c.lo * (2 * (w' - w)) := mul_le_mul hs0 e4 hn (sigma2_pos g.lo).le
      _ = _ := by ring
  have hk := g.kap
  calc w * (idx c w - idx c w') ≤ w * ((sigma2 w - sigma2 w') * B) := mul_le_mul_of_nonneg_left e1 hw.le
    _ = (w * (sigma2 w - sigma2 w')) * B := by ring
    _ ≤ (2 * sigma2 c.lo * (w' - w)) * B := mul_le_mul_of_nonneg_right e2 hBp
    _ = (2 * sigma2 c.lo * B) * (w' - w) := by ring
    _ ≤ _ := mul_le_mul_of_nonneg_right hk (by linarith)

/-- Air wavelength of a vacuum wavelength. -/
theorem air_slope {w w' : K} (h : c.lo ≤ w) (h2 : w ≤ w') :
    (1 - 33 / 10 ^ 5) * (w' - w) ≤ w' / idx c w' - w / idx c w ∧
    w' / idx c w' - w / idx c w ≤ (1 + 33 / 10 ^ 5) * (w' - w) := by
  obtain ⟨n1, n1'⟩ := idx_bounds g h
  obtain ⟨n2, n2'⟩ := idx_bounds g (le_trans h h2)
  have ha := idx_anti g h h2
  have hsl := idx_slope g h h2
  have hw : 0 < w := lt_of_lt_of_le g.lo h
  set m := idx c w
  set m' := idx c w'
  have e : w' / m' - w / m = ((w' - w) * m + w * (m - m')) / (m' * m) := by
    field_simp
    ring
  have hmm : 0 < m' * m := by nlinarith
  have hd : 0 ≤ w' - w := by linarith
  rw [e]
  constructor
  · rw [le_div_iff₀ hmm]
    have h5 : (1 - 33 / 10 ^ 5) * m' ≤ 1 := by nlinarith
    have h6 : 0 ≤ w * (m - m') := mul_nonneg hw.le (by linarith)
    have h7 : (1 - 33 / 10 ^ 5) * (w' - w) * (m' * m) = ((1 - 33 / 10 ^ 5) * m') * ((w' - w) * m) := by ring
    rw [h7]
    have h8 : 0 ≤ (w' - w) * m := mul_nonneg hd (by linarith)
    nlinarith
  · rw [div_le_iff₀ hmm]
    have h8 : (w' - w) ≤ (w' - w) * (m' * m) := le_mul_of_one_le_right hd (by nlinarith)
    have h9 : (w' - w) * m ≤ (w' - w) * (m' * m) := by
      apply mul_le_mul_of_nonneg_left _ hd
      nlinarith
    nlinarith

end

/-! ## Lemmas on the lists -/

theorem minElem_fold (l : List K) : ∀ x : K,
    (l.foldl (fun m y => if y < m then y else m) x ∈ x :: l) ∧
    ∀ y ∈ x :: l, l.foldl (fun m y => if y < m then y else m) x ≤ y := by
  induction l with
  | nil => intro x; simp
  | cons z l ih =>
    intro x
    simp only [List.foldl_cons]
    obtain ⟨i1, i2⟩ := ih (if z < x then z else x)
    constructor
    · rcases List.mem_cons.1 i1 with h | h
      · rw [h]; split <;> simp
      · simp [h]
    · intro y hy
      have hb := i2 _ (List.mem_cons_self)
      rcases List.mem_cons.1 hy with h | h
      · subst h
        refine le_trans hb ?_
        split
        · rename_i h; exact h.le
        · exact le_rfl
      · rcases List.mem_cons.1 h with h | h
        · subst h
          refine le_trans hb ?_
          split
          · exact le_rfl
          · rename_i h; exact not_lt.1 h
        · exact i2 y (List.mem_cons_of_mem _ h)

theorem maxElemBy_fold (lt : K → K → Bool) (l : List K) : ∀ x : K,
    l.foldl (fun m y => if lt m y then y else m) x ∈ x :: l := by
  induction l with
  | nil => intro x; simp
  | cons z l ih =>
    intro x
    simp only [List.foldl_cons]
    rcases List.mem_cons.1 (ih (if lt x z then z else x)) with h | h
    · rw [h]; split <;> simp
    · simp [h]

theorem maxElem_fold_ge (l : List K) : ∀ x : K,
    ∀ y ∈ x :: l, y ≤ l.foldl (fun m y => if decide (m < y) then y else m) x := by
  induction l with
  | nil => intro x; simp
  | cons z l ih =>
    intro x y hy
    simp only [List.foldl_cons]
    have hb := ih (if decide (x < z) then z else x) _ (List.mem_cons_self)
    rcases List.mem_cons.1 hy with h | h
    · subst h
      refine le_trans ?_ hb
      split
      · rename_i h; exact (of_decide_eq_true h).le
      · exact le_rfl
    · rcases List.mem_cons.1 h with h | h
      · subst h
        refine le_trans ?_ hb
        split
        · exact le_rfl
        · rename_i h; exact not_lt.1 (by simpa using h)
      · exact ih _ y (List.mem_cons_of_mem _ h)

/-- What the range check does. -/
theorem check_spec (c : Conv K) (wave : List K) :
    (wave ≠ [] ∧ (∀ w ∈ wave, c.lo ≤ w ∧ ∀ h, c.hi = some h → w ≤ h) → checkWaveRange c wave = .ok ()) ∧
    (¬ (wave ≠ [] ∧ (∀ w ∈ wave, c.lo ≤ w ∧ ∀ h, c.hi = some h → w ≤ h)) →
      checkWaveRange c wave = .throw .INTERNAL_ERROR) := by
  cases wave with
  | nil => simp [checkWaveRange, minElem]
  | cons x l =>
    obtain ⟨m1, m2⟩ := minElem_fold l x
    have x1 := maxElemBy_fold (fun x y => decide (x < y)) l x
    have x2 := maxElem_fold_ge l x
    simp only [checkWaveRange, minElem, maxElemBy]
    set m := l.foldl (fun m y => if y < m then y else m) x
    set M := l.foldl (fun m y => if decide (m < y) then y else m) x
    constructor
    · rintro ⟨-, h⟩
      rw [if_neg (not_lt.2 (h m m1).1)]
      split
      · rfl
      · rename_i hh e
        rw [if_neg (not_lt.2 ((h M x1).2 hh e))]
    · intro h
      by_cases hm : m < c.lo
      · rw [if_pos hm]
      rw [if_neg hm]
      split
      · rename_i e
        exact absurd ⟨by simp, fun w hw => ⟨le_trans (not_lt.1 hm) (m2 w hw), fun h hh => by rw [e] at hh; cases hh⟩⟩ h
      · rename_i hh e
        by_cases hM : hh < M
        · rw [if_pos hM]
        · exact absurd ⟨by simp, fun w hw => ⟨le_trans (not_lt.1 hm) (m2 w hw),
            fun h h2 => by rw [e] at h2; cases h2; exact le_trans (x2 w hw) (not_lt.1 hM)⟩⟩ h

theorem map_range_get {f : K → K} (l : List K) :
    (List.range l.length).map (fun i : ℕ => f (l[i]?.getD 0)) = l.map f := by
  apply List.ext_getElem
  · simp
  · intro i h1 h2
    simp at h1 h2 ⊢
    simp [h1]

theorem index_list {c : Conv K} (g : Good c) {wave : List K} (h : ∀ w ∈ wave, c.lo ≤ w) :
    airRefractiveIndex c wave = .ok (wave.map (idx c)) := by
  unfold airRefractiveIndex
  rw [← map_range_get]
  refine Res.tab_ok _ (fun i hi => ?_)
  rw [Res.at_of_lt hi, Res.bind_ok]
  have hlo := h _ (List.getElem_mem hi)
  have hw : 0 < wave[i] := lt_of_lt_of_le g.lo hlo
  have hs0 := sigma2_anti g.lo hlo
  have q1 := g.c1
  have q2 := g.c2
  unfold indexAt
  rw [if_neg (by positivity)]
  simp only []
  have u1 : c.c1 - sigma2 wave[i] ≠ 0 := by linarith
  have u2 : c.c2 - sigma2 wave[i] ≠ 0 := by linarith
  unfold sigma2 at u1 u2
  rw [if_neg (by push Not; exact ⟨u1, u2⟩)]
  simp [hi, idx, sigma2]

theorem divLists_map {f : K → K} (l : List K) (h : ∀ w ∈ l, f w ≠ 0) :
    divLists l (l.map f) = .ok (l.map (fun w => w / f w)) := by
  unfold divLists
  rw [← map_range_get (f := fun w => w / f w)]
  refine Res.tab_ok _ (fun i hi => ?_)
  rw [Res.at_of_lt hi, Res.bind_ok, Res.at_of_lt (by simpa using hi), Res.bind_ok]
  rw [if_neg (by rw [List.getElem_map]; exact h _ (List.getElem_mem hi))]
  simp [hi]

theorem subLists_map {f e : K → K} (l : List K) :
    subLists (l.map f) (l.map e) = .ok (l.map (fun w => f w - e w)) := by
  unfold subLists
  rw [← map_range_get (f := fun w => f w - e w)]
  rw [List.length_map]
  refine Res.tab_ok _ (fun i hi => ?_)
  rw [Res.at_of_lt (by simpa using hi), Res.bind_ok, Res.at_of_lt (by simpa using hi), Res.bind_ok]
  simp [hi]

theorem mulLists_map {f e : K → K} (l : List K) :
    mulLists (l.map f) (l.map e) = .ok (l.map (fun w => f w * e w)) := by
  unfold mulLists
  rw [← map_range_get (f := fun w => f w * e w)]
  rw [List.length_map]
  refine Res.tab_ok _ (fun i hi => ?_)
  rw [Res.at_of_lt (by simpa using hi), Res.bind_ok, Res.at_of_lt (by simpa using hi), Res.bind_ok]
  simp [hi]

/-- Vacuum to air on an accepted list. -/
theorem vacToAir_map {c : Conv K} (g : Good c) {wave : List K} (hne : wave ≠ [])
    (h : ∀ w ∈ wave, c.lo ≤ w ∧ ∀ h, c.hi = some h → w ≤ h) :
    vacToAir c wave = .ok (wave.map (fun w => w / idx c w)) := by
  unfold vacToAir
  rw [(check_spec c wave).1 ⟨hne, h⟩, Res.bind_ok, index_list g (fun w hw => (h w hw).1), Res.bind_ok]
  exact divLists_map _ (fun w hw => by linarith [(idx_bounds g (h w hw).1).1])

/-- The iterated inversion stops after one iteration. -/
theorem airToVac_map {c : Conv K} (g : Good c) (hd : c.direct = false) {wave : List K} (hne : wave ≠ [])
    (h : ∀ w ∈ wave, c.lo ≤ w ∧ ∀ h, c.hi = some h → w ≤ h) :
    airToVac c wave = .ok ⟨wave.map (fun w => w - (w / idx c w - w)), false⟩ := by
  unfold airToVac
  rw [(check_spec c wave).1 ⟨hne, h⟩, Res.bind_ok, hd]
  simp only [Bool.false_eq_true, if_false]
  unfold invLoop
  rw [vacToAir_map g hne h, Res.bind_ok]
  have e1 := subLists_map (f := fun w => w / idx c w) (e := fun w => w) wave
  rw [List.map_id'] at e1
  rw [e1, Res.bind_ok]
  have e2 := subLists_map (f := fun w => w) (e := fun w => w / idx c w - w) wave
  rw [List.map_id'] at e2
  rw [e2, Res.bind_ok]
  obtain ⟨x, l, rfl⟩ := List.exists_cons_of_ne_nil hne
  simp only [List.map_cons, maxElemBy]
  have hm := maxElemBy_fold (fun x y : K => decide (|x| < |y|)) (l.map (fun w => w / idx c w - w)) (x / idx c x - x)
  have hneg : ∀ y ∈ (x / idx c x - x) :: l.map (fun w => w / idx c w - w), y ≤ 1 / 10 ^ 9 := by
    intro y hy
    have : y ∈ (x :: l).map (fun w => w / idx c w - w) := by simpa using hy
    obtain ⟨w, hw, rfl⟩ := List.mem_map.1 this
    have hlo := (h w hw).1
    have hw0 : 0 < w := lt_of_lt_of_le g.lo hlo
    have hb := (idx_bounds g hlo).1
    have : w / idx c w ≤ w := div_le_self hw0.le hb.le
    have : (0 : K) ≤ 1 / 10 ^ 9 := by positivity
    linarith
  rw [if_pos (hneg _ hm)]

/-- The index of the direct inversion. -/
def idxDirect (w : K) : K :=
  1 + 8336624212083 / 10 ^ 17 + 2408926869968 / 10 ^ 14 / (1301065924522 / 10 ^ 10 - sigma2 w) +
    1599740894897 / 10 ^ 16 / (3892568793293 / 10 ^ 11 - sigma2 w)

theorem sigma2_lo {w : K} (h : 3000 ≤ w) : sigma2 w ≤ 100 / 9 := by
  have := sigma2_anti (by norm_num : (0 : K) < 3000) h
  norm_num [sigma2] at this ⊢
  linarith

theorem airToVac_direct {wave : List K} (hne : wave ≠ [])
    (h : ∀ w ∈ wave, (3000 : K) ≤ w ∧ w ≤ 19000) :
    airToVac morton2000 wave = .ok ⟨wave.map (fun w => w * idxDirect w), false⟩ := by
  unfold airToVac
  have hc : checkWaveRange morton2000 wave = .ok () := by
    apply (check_spec _ wave).1
    refine ⟨hne, fun w hw => ⟨(h w hw).1, ?_⟩⟩
    intro hh e
    cases e
    exact (h w hw).2
  rw [hc, Res.bind_ok]
  simp only [morton2000, if_true]
  have e : Res.tab (fun i => Res.at_ wave i >>= fun w =>
      indexAt (8336624212083 / 10 ^ 17) (2408926869968 / 10 ^ 14) (1599740894897 / 10 ^ 16)
        (1301065924522 / 10 ^ 10) (3892568793293 / 10 ^ 11) w) wave.length = .ok (wave.map idxDirect) := by
    rw [← map_range_get]
    refine Res.tab_ok _ (fun i hi => ?_)
    rw [Res.at_of_lt hi, Res.bind_ok]
    have hlo := (h _ (List.getElem_mem hi)).1
    have hs := sigma2_lo hlo
    have hw : 0 < wave[i] := by linarith
    unfold indexAt
    rw [if_neg (by positivity)]
    simp only []
    have u1 : (1301065924522 / 10 ^ 10 : K) - sigma2 wave[i] ≠ 0 := by
      apply ne_of_gt; norm_num; linarith
    have u2 : (3892568793293 / 10 ^ 11 : K) - sigma2 wave[i] ≠ 0 := by
      apply ne_of_gt; norm_num; linarith
    unfold sigma2 at u1 u2
    rw [if_neg (by push Not; exact ⟨u1, u2⟩)]
    simp [hi, idxDirect, sigma2]
  rw [e, Res.bind_ok]
  have e2 := mulLists_map (f := fun w => w) (e := idxDirect) wave
  rw [List.map_id'] at e2
  rw [e2, Res.bind_ok]

/-- The direct inversion as a converter, for the bounds on its index. -/
def directConv : Conv K :=
  ⟨8336624212083 / 10 ^ 17, 2408926869968 / 10 ^ 14, 1599740894897 / 10 ^ 16, 1301065924522 / 10 ^ 10,
    3892568793293 / 10 ^ 11, 3000, some 19000, true⟩

theorem good_direct : Good (directConv : Conv K) := by
  constructor <;> norm_num [directConv, sigma2]

theorem idx_direct (w : K) : idx (directConv : Conv K) w = idxDirect w := rfl

theorem orderKept_map {f : K → K} {lo : K} (hf : ∀ w w', lo ≤ w → w < w' → f w < f w') {l : List K}
    (h : ∀ w ∈ l, lo ≤ w) : OrderKept l (l.map f) := by
  refine ⟨by simp, ?_⟩
  intro i j hi hj
  have h1 := h _ (List.getElem_mem hi)
  have h2 := h _ (List.getElem_mem hj)
  simp only [List.getElem_map]
  constructor
  · exact hf _ _ h1
  · intro h3
    rcases lt_trichotomy l[i] l[j] with h4 | h4 | h4
    · exact h4
    · rw [h4] at h3; exact absurd h3 (lt_irrefl _)
    · exact absurd (hf _ _ h2 h4) (not_lt.2 h3.le)

theorem air_strict {c : Conv K} (g : Good c) (w w' : K) (h : c.lo ≤ w) (h2 : w < w') :
    w / idx c w < w' / idx c w' := by
  have := (air_slope g h h2.le).1
  have h3 : 0 < w' - w := by linarith
  have : 0 < (1 - 33 / 10 ^ 5) * (w' - w) := by
    apply mul_pos _ h3
    norm_num
  linarith

theorem vac_strict {c : Conv K} (g : Good c) (w w' : K) (h : c.lo ≤ w) (h2 : w < w') :
    w - (w / idx c w - w) < w' - (w' / idx c w' - w') := by
  have := (air_slope g h h2.le).2
  linarith

theorem direct_strict (w w' : K) (h : 3000 ≤ w) (h2 : w < w') : w * idxDirect w < w' * idxDirect w' := by
  have g : Good (directConv : Conv K) := good_direct
  have h0 : (directConv : Conv K).lo ≤ w := h
  have hs := idx_slope g h0 h2.le
  have hb := (idx_bounds g (le_trans h0 h2.le)).1
  rw [idx_direct] at hb
  rw [idx_direct, idx_direct] at hs
  have h3 : 0 < w' - w := by linarith
  have h4 : w' - w ≤ (w' - w) * idxDirect w' := le_mul_of_one_le_right h3.le hb.le
  have h5 : w' * idxDirect w' - w * idxDirect w =
      (w' - w) * idxDirect w' - w * (idxDirect w - idxDirect w') := by ring
  linarith

theorem frac_diff {a b x y : K} (hx : x ≠ 0) (hy : y ≠ 0) : a / x - b / y = (a * y - b * x) / (x * y) := by
  rw [div_sub_div _ _ hx hy, mul_comm x b]

theorem direct_term1 {t s : K} (h0 : 0 < t) (h1 : t ≤ 100 / 9) (s1 : s ≤ 99947 / 100000 * t)
    (s2 : 99941 / 100000 * t ≤ s) :
    2408926869968 / 10 ^ 14 / (1301065924522 / 10 ^ 10 - t) - 2406147 / 10 ^ 8 / (130 - s) ≤ (66 : K) / 10 ^ 9 ∧
    (59 : K) / 10 ^ 9 ≤ 2408926869968 / 10 ^ 14 / (1301065924522 / 10 ^ 10 - t) - 2406147 / 10 ^ 8 / (130 - s) := by
  have u : (0 : K) < 1301065924522 / 10 ^ 10 - t := by norm_num; linarith
  have v : (0 : K) < 130 - s := by linarith
  rw [frac_diff u.ne' v.ne']
  have l : (1301065924522 / 10 ^ 10 - t) * (130 - s) ≤ (1301065924522 / 10 ^ 10 - t) * (130 - 99941 / 100000 * t) :=
    mul_le_mul_of_nonneg_left (by linarith) u.le
  have l' : (1301065924522 / 10 ^ 10 - t) * (130 - 99947 / 100000 * t) ≤ (1301065924522 / 10 ^ 10 - t) * (130 - s) :=
    mul_le_mul_of_nonneg_left (by linarith) u.le
  have tt : t * t ≤ 100 / 9 * t := mul_le_mul_of_nonneg_right h1 h0.le
  have tt' : 0 ≤ t * t := by positivity
  constructor
  · rw [div_le_iff₀ (mul_pos u v)]
    refine le_trans ?_ (mul_le_mul_of_nonneg_left l' (by positivity))
    ring_nf at tt tt' ⊢
    linarith
  · rw [le_div_iff₀ (mul_pos u v)]
    refine le_trans (mul_le_mul_of_nonneg_left l (by positivity)) ?_
    ring_nf at tt tt' ⊢
    linarith

theorem direct_term2 {t s : K} (h0 : 0 < t) (h1 : t ≤ 100 / 9) (s1 : s ≤ 99947 / 100000 * t)
    (s2 : 99941 / 100000 * t ≤ s) :
    1599740894897 / 10 ^ 16 / (3892568793293 / 10 ^ 11 - t) - 15998 / 10 ^ 8 / (389 / 10 - s) ≤ (0 : K) ∧
    (-6 : K) / 10 ^ 9 ≤ 1599740894897 / 10 ^ 16 / (3892568793293 / 10 ^ 11 - t) - 15998 / 10 ^ 8 / (389 / 10 - s) := by
  have u : (0 : K) < 3892568793293 / 10 ^ 11 - t := by norm_num; linarith
  have v : (0 : K) < 389 / 10 - s := by linarith
  rw [frac_diff u.ne' v.ne']
  have l' : (3892568793293 / 10 ^ 11 - t) * (389 / 10 - 99947 / 100000 * t) ≤ (3892568793293 / 10 ^ 11 - t) * (389 / 10 - s) :=
    mul_le_mul_of_nonneg_left (by linarith) u.le
  have tt : t * t ≤ 100 / 9 * t := mul_le_mul_of_nonneg_right h1 h0.le
  have tt' : 0 ≤ t * t := by positivity
  have ts : 0 ≤ (100 / 9 - t) * (100 / 9 - t) := mul_self_nonneg _
  constructor
  · apply div_nonpos_of_nonpos_of_nonneg _ (mul_pos u v).le
    ring_nf
    linarith
  · rw [le_div_iff₀ (mul_pos u v)]
    refine le_trans (mul_le_mul_of_nonpos_left l' (by norm_num)) ?_
    ring_nf at tt tt' ts ⊢
    linarith

/-- Precision of the direct inversion. -/
theorem direct_precise {w : K} (h : 3000 ≤ w) :
    |idxDirect w - idx morton2000 (w * idxDirect w)| ≤ 1 / 10 ^ 8 := by
  have g : Good (directConv : Conv K) := good_direct
  have hw : 0 < w := by linarith
  have ht0 := sigma2_pos hw
  have ht1 := sigma2_lo h
  have hd : idxDirect w = 1 + 8336624212083 / 10 ^ 17 +
    2408926869968 / 10 ^ 14 / (1301065924522 / 10 ^ 10 - sigma2 w) +
    1599740894897 / 10 ^ 16 / (3892568793293 / 10 ^ 11 - sigma2 w) := rfl
  have hs : sigma2 (w * idxDirect w) = sigma2 w * (1 / (idxDirect w * idxDirect w)) := by
    unfold sigma2
    have : idxDirect w ≠ 0 := by
      have := (idx_bounds g (show (directConv : Conv K).lo ≤ w from h)).1
      rw [idx_direct] at this
      linarith
    field_simp
  have hn : idx morton2000 (w * idxDirect w) = 1 + 834254 / 10 ^ 10 +
      2406147 / 10 ^ 8 / (130 - sigma2 w * (1 / (idxDirect w * idxDirect w))) +
      15998 / 10 ^ 8 / (389 / 10 - sigma2 w * (1 / (idxDirect w * idxDirect w))) := by
    rw [← hs]; rfl
  set t := sigma2 w
  -- bounds on the index
  have k1 : (185 : K) / 10 ^ 6 ≤ 2408926869968 / 10 ^ 14 / (1301065924522 / 10 ^ 10 - t) := by
    rw [le_div_iff₀ (by norm_num; linarith)]
    norm_num
    linarith
  have k2 : 2408926869968 / 10 ^ 14 / (1301065924522 / 10 ^ 10 - t) ≤ (203 : K) / 10 ^ 6 := by
    rw [div_le_iff₀ (by norm_num; linarith)]
    norm_num
    linarith
  have k3 : (4 : K) / 10 ^ 6 ≤ 1599740894897 / 10 ^ 16 / (3892568793293 / 10 ^ 11 - t) := by
    rw [le_div_iff₀ (by norm_num; linarith)]
    norm_num
    linarith
  have k4 : 1599740894897 / 10 ^ 16 / (3892568793293 / 10 ^ 11 - t) ≤ (6 : K) / 10 ^ 6 := by
    rw [div_le_iff₀ (by norm_num; linarith)]
    norm_num
    linarith
  have m1 : (1 : K) + 27 / 10 ^ 5 ≤ idxDirect w := by rw [hd]; norm_num at *; linarith
  have m2 : idxDirect w ≤ 1 + 293 / 10 ^ 6 := by rw [hd]; norm_num at *; linarith
  have q1 : 1 / (idxDirect w * idxDirect w) ≤ (99947 : K) / 10 ^ 5 := by
    rw [div_le_iff₀ (by nlinarith)]
    norm_num at *
    nlinarith
  have q2 : (99941 : K) / 10 ^ 5 ≤ 1 / (idxDirect w * idxDirect w) := by
    rw [le_div_iff₀ (by nlinarith)]
    norm_num at *
    nlinarith
  set q := 1 / (idxDirect w * idxDirect w)
  clear_value q t
  have s1 : t * q ≤ (99947 : K) / 10 ^ 5 * t := by nlinarith
  have s2 : (99941 : K) / 10 ^ 5 * t ≤ t * q := by nlinarith
  set s := t * q
  clear_value s
  obtain ⟨d1, d2⟩ := direct_term1 ht0 ht1 (by norm_num at s1 ⊢; linarith) (by norm_num at s2 ⊢; linarith : _ ≤ s)
  obtain ⟨d3, d4⟩ := direct_term2 ht0 ht1 (by norm_num at s1 ⊢; linarith) (by norm_num at s2 ⊢; linarith : _ ≤ s)
  rw [abs_le]
  generalize (2408926869968 : K) / 10 ^ 14 / (1301065924522 / 10 ^ 10 - t) = A at *
  generalize (2406147 : K) / 10 ^ 8 / (130 - s) = B at *
  generalize (1599740894897 : K) / 10 ^ 16 / (3892568793293 / 10 ^ 11 - t) = C at *
  generalize (15998 : K) / 10 ^ 8 / (389 / 10 - s) = D at *
  constructor <;> norm_num at * <;> linarith

/-! ## Theorems -/

/-- **C63 (names)** Every published reference, and no other name, gives a converter. -/
theorem C63_names (name : String) :
    (∀ p : Published K, published name = some p → ∃ c : Conv K, get name = .ok c) ∧
    ((published name : Option (Published K)) = none → (get name : Res (Conv K)) = .throw .UNKNOWN_AIR_VACUUM_CONVERSION) := by
  refine ⟨fun p hp => ?_, fun h => ?_⟩
  · obtain ⟨c, hc, -⟩ := get_published hp
    exact ⟨c, hc⟩
  · unfold published at h
    unfold get
    split at h <;> try cases h
    rename_i h1 h2 h3 h4 h5
    rw [if_neg h1, if_neg h2, if_neg h3, if_neg h4, if_neg h5]

/-- **C63 (refusals)** An empty list, or a list with a wavelength outside the range of the reference, is refused by
both conversions. -/
theorem C63_refused {name : String} {p : Published K} (hp : published name = some p) {wave : List K}
    (h : wave = [] ∨ ∃ w ∈ wave, ¬ p.Accepts w) :
    ∃ c : Conv K, get name = .ok c ∧ vacToAir c wave = .throw .INTERNAL_ERROR ∧
      airToVac c wave = .throw .INTERNAL_ERROR := by
  obtain ⟨c, hc, g, hlo, hhi, -⟩ := get_published hp
  have hn : ¬ (wave ≠ [] ∧ (∀ w ∈ wave, c.lo ≤ w ∧ ∀ h, c.hi = some h → w ≤ h)) := by
    rintro ⟨h1, h2⟩
    rcases h with h | ⟨w, hw, hb⟩
    · exact h1 h
    · apply hb
      have := h2 w hw
      rw [hlo, hhi] at this
      exact this
  refine ⟨c, hc, ?_, ?_⟩
  · unfold vacToAir
    rw [(check_spec c wave).2 hn]; rfl
  · unfold airToVac
    rw [(check_spec c wave).2 hn]; rfl

/-- **C63 (vacuum to air)** Accepted vacuum wavelengths are divided by the published refractive index; the air
wavelengths are smaller, in the same number and the same strict order. -/
theorem C63_vacToAir {name : String} {p : Published K} (hp : published name = some p) {wave : List K}
    (hne : wave ≠ []) (h : ∀ w ∈ wave, p.Accepts w) :
    ∃ c air, get name = .ok c ∧ vacToAir c wave = .ok air ∧ OrderKept wave air ∧
      ∀ (i : Nat) (x y : K), wave[i]? = some x → air[i]? = some y → y * p.index x = x ∧ y < x ∧ 0 < y := by
  obtain ⟨c, hc, g, hlo, hhi, hidx, -⟩ := get_published hp
  have h' : ∀ w ∈ wave, c.lo ≤ w ∧ ∀ h, c.hi = some h → w ≤ h := by
    intro w hw
    rw [hlo, hhi]; exact h w hw
  refine ⟨c, _, hc, vacToAir_map g hne h', orderKept_map (air_strict g) (fun w hw => (h' w hw).1), ?_⟩
  intro i x y hx hy
  rw [List.getElem?_map, hx] at hy
  simp only [Option.map_some, Option.some.injEq] at hy
  subst hy
  have hm := (h' x (List.mem_of_getElem? hx)).1
  have hb := (idx_bounds g hm).1
  have hx0 : 0 < x := lt_of_lt_of_le g.lo hm
  rw [← hidx]
  have : idx c x ≠ 0 := by linarith
  refine ⟨by field_simp, div_lt_self hx0 hb, div_pos hx0 (by linarith)⟩

/-- **C63 (air to vacuum)** Accepted air wavelengths are converted without warning into as many larger vacuum
wavelengths, in the same strict order, at most 0.033 % larger; when these are accepted by the inverse conversion, it
gives back the air wavelengths with a relative error of at most `1.1e-7` (`1e-8` for `morton2000`). -/
theorem C63_airToVac {name : String} {p : Published K} (hp : published name = some p) {wave : List K}
    (hne : wave ≠ []) (h : ∀ w ∈ wave, p.Accepts w) :
    ∃ c vac, get name = .ok c ∧ airToVac c wave = .ok ⟨vac, false⟩ ∧ OrderKept wave vac ∧
      (∀ (i : Nat) (x y : K), wave[i]? = some x → vac[i]? = some y → x < y ∧ y ≤ x * 1.00033) ∧
      ((∀ w ∈ vac, p.Accepts w) → ∃ back, vacToAir c vac = .ok back ∧ back.length = wave.length ∧
        ∀ (i : Nat) (x y : K), wave[i]? = some x → back[i]? = some y →
          |y - x| ≤ (if name = "morton2000" then 1e-8 else 1.1e-7) * x) := by
  obtain ⟨c, hc, g, hlo, hhi, hidx, hdir, hmor⟩ := get_published hp
  have h' : ∀ w ∈ wave, c.lo ≤ w ∧ ∀ h, c.hi = some h → w ≤ h := by
    intro w hw
    rw [hlo, hhi]; exact h w hw
  cases hd : c.direct with
  | false =>
    have hnm : name ≠ "morton2000" := fun e => by rw [hdir.2 e] at hd; cases hd
    refine ⟨c, _, hc, airToVac_map g hd hne h', orderKept_map (vac_strict g) (fun w hw => (h' w hw).1), ?_, ?_⟩
    · intro i x y hx hy
      rw [List.getElem?_map, hx] at hy
      simp only [Option.map_some, Option.some.injEq] at hy
      subst hy
      have hm := (h' x (List.mem_of_getElem? hx)).1
      obtain ⟨hb, hb'⟩ := idx_bounds g hm
      have hx0 : 0 < x := lt_of_lt_of_le g.lo hm
      have h1 := div_lt_self hx0 hb
      have h2 : x * (1 - 33 / 10 ^ 5) ≤ x / idx c x := by
        rw [le_div_iff₀ (by linarith)]
        have : (1 - 33 / 10 ^ 5) * idx c x ≤ 1 := by nlinarith
        nlinarith
      norm_num at h2 ⊢
      constructor <;> linarith
    · intro hacc
      have hacc' : ∀ w ∈ wave.map (fun w => w - (w / idx c w - w)), c.lo ≤ w ∧ ∀ h, c.hi = some h → w ≤ h := by
        intro w hw
        rw [hlo, hhi]; exact hacc w hw
      refine ⟨_, vacToAir_map g (by simpa using hne) hacc', by simp, ?_⟩
      intro i x y hx hy
      rw [List.getElem?_map, List.getElem?_map, hx] at hy
      simp only [Option.map_some, Option.some.injEq] at hy
      have hm := (h' x (List.mem_of_getElem? hx)).1
      obtain ⟨hb, hb'⟩ := idx_bounds g hm
      have hx0 : 0 < x := lt_of_lt_of_le g.lo hm
      have h1 := div_lt_self hx0 hb
      have h2 : x * (1 - 33 / 10 ^ 5) ≤ x / idx c x := by
        rw [le_div_iff₀ (by linarith)]
        have : (1 - 33 / 10 ^ 5) * idx c x ≤ 1 := by nlinarith
        nlinarith
      obtain ⟨s1, s2⟩ := air_slope g hm (by linarith : x ≤ x - (x / idx c x - x))
      rw [hy] at s1 s2
      rw [if_neg hnm, abs_le]
      norm_num at h2 s1 s2 ⊢
      constructor <;> linarith
  | true =>
    have hnm : name = "morton2000" := hdir.1 hd
    have hcm := hmor hd
    subst hcm
    have h3 : ∀ w ∈ wave, (3000 : K) ≤ w ∧ w ≤ 19000 := fun w hw => ⟨(h' w hw).1, (h' w hw).2 _ rfl⟩
    have gd : Good (directConv : Conv K) := good_direct
    refine ⟨morton2000, _, hc, airToVac_direct hne h3, orderKept_map direct_strict (fun w hw => (h3 w hw).1), ?_, ?_⟩
    · intro i x y hx hy
      rw [List.getElem?_map, hx] at hy
      simp only [Option.map_some, Option.some.injEq] at hy
      subst hy
      have hm := (h3 x (List.mem_of_getElem? hx)).1
      obtain ⟨hb, hb'⟩ := idx_bounds gd (show (directConv : Conv K).lo ≤ x from hm)
      rw [idx_direct] at hb hb'
      have hx0 : 0 < x := by linarith
      refine ⟨lt_mul_of_one_lt_right hx0 hb, ?_⟩
      apply mul_le_mul_of_nonneg_left _ hx0.le
      norm_num at hb' ⊢
      linarith
    · intro hacc
      have hacc' : ∀ w ∈ wave.map (fun w => w * idxDirect w), (morton2000 : Conv K).lo ≤ w ∧
          ∀ h, (morton2000 : Conv K).hi = some h → w ≤ h := by
        intro w hw
        rw [hlo, hhi]; exact hacc w hw
      refine ⟨_, vacToAir_map g (by simpa using hne) hacc', by simp, ?_⟩
      intro i x y hx hy
      rw [List.getElem?_map, List.getElem?_map, hx] at hy
      simp only [Option.map_some, Option.some.injEq] at hy
      have hm := (h3 x (List.mem_of_getElem? hx)).1
      have hx0 : 0 < x := by linarith
      have hv := hacc' (x * idxDirect x) (List.mem_map.2 ⟨x, List.mem_of_getElem? hx, rfl⟩)
      have hb := (idx_bounds g hv.1).1
      have hpr := direct_precise hm
      set n := idx morton2000 (x * idxDirect x)
      have e : y - x = x * (idxDirect x - n) / n := by
        rw [← hy]
        have : n ≠ 0 := by linarith
        field_simp
      rw [if_pos hnm, e, abs_div, abs_mul, abs_of_pos hx0, abs_of_pos (by linarith : 0 < n)]
      rw [div_le_iff₀ (by linarith)]
      have h6 : x * |idxDirect x - n| ≤ x * (1 / 10 ^ 8) := mul_le_mul_of_nonneg_left hpr hx0.le
      have h7 : x * (1 / 10 ^ 8) ≤ x * (1 / 10 ^ 8) * n := le_mul_of_one_le_right (by positivity) hb.le
      norm_num at h6 h7 ⊢
      linarith

/-- **C63 (requested precision)** Except for `morton2000`, the inversion never reaches the precision `1e-9` it asks for
otherwise than by its sign test: on a single wavelength of 5000 Å the round trip is off by more than `1e-9`, without
warning. -/
theorem C63_precision_missed :
    ∃ v back, airToVac (ciddor1996 : Conv ℚ) [5000] = .ok ⟨[v], false⟩ ∧ vacToAir ciddor1996 [v] = .ok [back] ∧
      1e-9 < |back - 5000| := by
  have g : Good (ciddor1996 : Conv ℚ) := good_ciddor1996
  have h1 := airToVac_map (K := ℚ) g rfl (wave := [5000]) (by simp) (by
    intro w hw
    simp only [List.mem_singleton] at hw
    subst hw
    refine ⟨by norm_num [ciddor1996], ?_⟩
    intro h e
    cases e
    norm_num)
  refine ⟨_, _, h1, vacToAir_map g (by simp) ?_, ?_⟩
  · intro w hw
    simp only [List.mem_singleton] at hw
    subst hw
    refine ⟨by norm_num [ciddor1996, idx, sigma2], ?_⟩
    intro h e
    cases e
    norm_num [ciddor1996, idx, sigma2]
  · norm_num [ciddor1996, idx, sigma2, abs_lt, lt_abs]

/-- **C63 (spectral axis)** A spectral axis built with a conversion name: without a name the samples are unchanged,
an unknown name is refused, and accepted samples in strictly increasing order give an axis in
strictly increasing order. -/
theorem C63_axis (samples : List K) :
    makeAxis samples "" = .ok (SAxis.ofList samples) ∧
    (∀ name, name ≠ "" → (published name : Option (Published K)) = none →
      makeAxis samples name = .throw .UNKNOWN_AIR_VACUUM_CONVERSION) ∧
    (∀ name (p : Published K), published name = some p → samples ≠ [] → (∀ w ∈ samples, p.Accepts w) →
      ∃ a : SAxis K, makeAxis samples name = .ok a ∧ OrderKept samples a.samples ∧
        (samples.Pairwise (· < ·) → a.samples.Pairwise (· < ·))) := by
  refine ⟨by simp [makeAxis], ?_, ?_⟩
  · intro name h1 h2
    unfold makeAxis
    rw [if_pos h1, (C63_names name).2 h2]
    rfl
  · intro name p hp hne hacc
    obtain ⟨c, vac, hc, hv, ho, -⟩ := C63_airToVac hp hne hacc
    have hname : name ≠ "" := by
      rintro rfl
      simp [published] at hp
    refine ⟨⟨vac, none, none⟩, ?_, ho, ?_⟩
    · unfold makeAxis
      rw [if_pos hname, hc, Res.bind_ok, hv, Res.bind_ok]
    · intro hs
      obtain ⟨hl, ho⟩ := ho
      rw [List.pairwise_iff_getElem] at hs ⊢
      intro i j hi hj hij
      have hi' : i < vac.length := hi
      have hj' : j < vac.length := hj
      exact (ho i j (by omega) (by omega)).1 (hs i j (by omega) (by omega) hij)

/-- The hypotheses of the theorems are met by a real list of air wavelengths. -/
example : ∃ (p : Published ℚ), published "morton2000" = some p ∧ ∀ w ∈ [(3800 : ℚ), 5000, 6563, 9000], p.Accepts w := by
  refine ⟨_, rfl, ?_⟩
  intro w hw
  simp only [List.mem_cons, List.not_mem_nil, or_false] at hw
  refine ⟨?_, ?_⟩
  · show (3000 : ℚ) ≤ w
    rcases hw with rfl | rfl | rfl | rfl <;> norm_num
  · intro h e
    cases e
    rcases hw with rfl | rfl | rfl | rfl <;> norm_num

/-- Wavelengths outside the range are refused. -/
example : vacToAir (ciddor1996 : Conv ℚ) [5000, 2999] = .throw .INTERNAL_ERROR := by decide +kernel
example : vacToAir (ciddor1996 : Conv ℚ) [19001, 5000] = .throw .INTERNAL_ERROR := by decide +kernel
example : (airToVac (edlen1966 : Conv ℚ) [] = .throw .INTERNAL_ERROR) := by decide +kernel

end AirVac
end Amazed
