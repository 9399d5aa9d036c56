import Mathlib.Tactic.Linarith
import Mathlib.Tactic.FieldSimp
import Mathlib.Tactic.Ring
import Mathlib.Tactic.NormNum
import Mathlib.Algebra.BigOperators.Group.List.Basic
import Verif.Model.Meiksin
import Verif.Props.GridProps
import Verif.Props.IndexingProps
import Verif.Props.CalzettiProps
import Verif.Props.LsfProps

/-! # C58: extinction by the intergalactic medium -/

set_option linter.unusedSectionVars false

namespace Amazed
namespace Meiksin

variable {K : Type} [Field K] [LinearOrder K] [IsStrictOrderedRing K] [FloorRing K]

/-- Specification: wavelength of sample `k` of a table that starts at `l0`. -/
def lam (l0 : K) (k : Nat) : K := l0 + k * step

/-- Specification: tables with one curve per redshift bin, all on the same `N` wavelengths, with `n` extinction curves each,
and increasing bins above -1. -/
structure Tables (raws : List (Curve K)) (zbins : List K) (l0 : K) (N n : Nat) : Prop where
  ne : raws ≠ []
  bins : zbins.length = raws.length + 1
  sorted : zbins.Pairwise (· < ·)
  above : ∀ z ∈ zbins, -1 < z
  pos : 0 < N
  grid : ∀ c ∈ raws, c.lbda = (List.range N).map (lam l0)
  arrs : ∀ c ∈ raws, c.fluxcorr.length = n ∧ ∀ a ∈ c.fluxcorr, a.length = N

/-- Specification: what a line spread function provides (proved of those of the library in C57). -/
structure GoodLsf (lsf : LsfFun K) : Prop where
  width : ∀ l, ∃ w, lsf.width l = .ok w ∧ 0 < w
  kernel : ∀ ls l, ls ≠ [] → ∃ k, lsf.kernel ls l = .ok k ∧ k.length = ls.length ∧ k.sum = 1 ∧ ∀ x ∈ k, 0 < x
  nsigma : 0 < lsf.nsigma

/-- Specification: `v` is the mean of the curve `raw` around its sample `k`, weighted by the line spread function at the
centre `zc` of the redshift bin, over the samples whose observed wavelength is within half the support of the function. -/
def IsMean (lsf : LsfFun K) (l0 : K) (N : Nat) (zc : K) (raw : List K) (k : Nat) (v : K) : Prop :=
  ∃ (w : K) (ws : List K) (b : Nat), lsf.width (lam l0 k * (1 + zc)) = .ok w ∧ b + ws.length ≤ N ∧ ws ≠ [] ∧
    (∀ j, j < N → (b ≤ j ∧ j < b + ws.length ↔ |lam l0 j - lam l0 k| * (1 + zc) ≤ w * lsf.nsigma / 2)) ∧
    lsf.kernel ((List.range ws.length).map (fun j => lam l0 (b + j) * (1 + zc))) (lam l0 k * (1 + zc)) = .ok ws ∧
    v = ((List.range ws.length).map (fun j => ws[j]?.getD 0 * raw[b + j]?.getD 0)).sum

/-- A table whose elements can all be computed. -/
theorem tab_total' {α : Type} {g : Nat → Res α} (n : Nat) (h : ∀ i, i < n → ∃ a, g i = .ok a) : ∃ l, Res.tab g n = .ok l := by
  induction n with
  | zero => exact ⟨[], rfl⟩
  | succ n ih =>
    obtain ⟨l, hl⟩ := ih (fun i hi => h i (by omega))
    obtain ⟨a, ha⟩ := h n (by omega)
    exact ⟨l ++ [a], by unfold Res.tab; rw [hl, Res.bind_ok, ha, Res.bind_ok]⟩

theorem step_pos : (0 : K) < step := by unfold step; norm_num

theorem lam_sub (l0 : K) (k j : Nat) : lam l0 j - lam l0 k = ((j : K) - k) * step := by unfold lam; ring

theorem atZ_nat {α : Type} (l : List α) (i : Nat) : Res.atZ l (i : Int) = Res.at_ l i := by
  unfold Res.atZ; rw [if_neg (by omega), Int.toNat_natCast]

theorem atZ_nil {α : Type} (i : Int) : Res.atZ ([] : List α) i = .ub := by
  unfold Res.atZ Res.at_; split <;> simp

theorem checked_eq {α : Type} {l : List α} {k : Nat} {a : α} (h : l[k]? = some a) : checked l (k : Int) = .ok a := by
  unfold checked
  rw [if_neg (by omega)]
  simp [h]

theorem make_spec {raws : List (Curve K)} {zbins : List K} {l0 : K} {N n : Nat} (h : Tables raws zbins l0 N n) :
    make raws zbins = .ok ⟨zbins, raws, [], l0, N, -1, false⟩ := by
  obtain ⟨c, cs, rfl⟩ := List.exists_cons_of_ne_nil h.ne
  have hg := h.grid c (by simp)
  have hp := h.pos
  have h1 : checked (c :: cs) 0 = .ok c := checked_eq (k := 0) (by simp)
  have h2 : checked c.lbda 0 = .ok l0 := by
    refine checked_eq (k := 0) ?_
    rw [hg]
    simp [hp, lam]
  unfold make
  rw [h1, Res.bind_ok, h2, Res.bind_ok, hg]
  simp

/-- The samples designated by a range that meets the table. -/
theorem mem_indices (t : T K) (raw : Bool) (N : Nat) (hN : 0 < N) (hsz : (if raw then t.lamSize else t.fineSize) = N)
    (r : Range K) (h1 : r.b ≤ lam t.lmin (N - 1)) (h2 : t.lmin ≤ r.e) :
    0 ≤ (rangeIndices t r raw).b ∧ 0 ≤ (rangeIndices t r raw).e ∧ (rangeIndices t r raw).e < N ∧
    ∀ j : Nat, j < N → ((rangeIndices t r raw).b ≤ j ∧ (j : Int) ≤ (rangeIndices t r raw).e ↔
      r.b ≤ lam t.lmin j ∧ lam t.lmin j ≤ r.e) := by
  have hs := step_pos (K := K)
  have hc : ∀ m : Nat, ⌈(r.b - t.lmin) / step⌉ ≤ (m : Int) ↔ r.b ≤ lam t.lmin m := by
    intro m
    rw [Int.ceil_le, div_le_iff₀ hs]
    unfold lam; push_cast
    constructor <;> intro h <;> linarith
  have hf : ∀ m : Nat, (m : Int) ≤ ⌊(r.e - t.lmin) / step⌋ ↔ lam t.lmin m ≤ r.e := by
    intro m
    rw [Int.le_floor, le_div_iff₀ hs]
    unfold lam; push_cast
    constructor <;> intro h <;> linarith
  have c1 := (hc (N - 1)).2 h1
  have c2 := (hf 0).2 (by unfold lam; simpa using h2)
  unfold rangeIndices
  rw [hsz]
  refine ⟨by simp only; omega, by simp only; omega, by simp only; omega, ?_⟩
  intro j hj
  have c3 := hc j
  have c4 := hf j
  rw [← c3, ← c4]
  simp only
  omega

/-- A weighted sum computed by a loop. -/
theorem sum_loop (ws arr : List K) (b n : Nat) (hn : n ≤ ws.length) (hb : b + n ≤ arr.length) :
    Res.foldN (fun j s => Res.at_ ws j >>= fun k => Res.at_ arr (b + j) >>= fun a => .ok (s + k * a)) 0 n 0 =
      .ok ((List.range n).map (fun j => ws[j]?.getD 0 * arr[b + j]?.getD 0)).sum := by
  obtain ⟨s, h1, h2⟩ := Res.foldN_inv
    (f := fun j s => Res.at_ ws j >>= fun k => Res.at_ arr (b + j) >>= fun a => .ok (s + k * a))
    (fun i s => s = ((List.range i).map (fun j => ws[j]?.getD 0 * arr[b + j]?.getD 0)).sum) n 0 0 (by simp)
    (fun i s _ hi hp => by
      refine ⟨_, ?_, rfl⟩
      rw [Res.at_of_lt (by omega : i < ws.length), Res.bind_ok, Res.at_of_lt (by omega : b + i < arr.length), Res.bind_ok, hp,
        List.range_succ, List.map_append, List.sum_append]
      congr 1
      simp [show i < ws.length by omega, show b + i < arr.length by omega])
  rw [h1, h2, Nat.zero_add]

/-- One convolved sample. -/
theorem convSample_spec {t : T K} {lsf : LsfFun K} (hl : GoodLsf lsf) {N : Nat} (hsz : t.lamSize = N)
    {arr : List K} (ha : arr.length = N) {zc : K} (hz : -1 < zc) {k : Nat} (hk : k < N) :
    ∃ v, convSample t lsf arr ((List.range N).map (lam t.lmin)) zc (lam t.lmin k) = .ok v ∧
      IsMean lsf t.lmin N zc arr k v := by
  have hs := step_pos (K := K)
  have hz1 : 0 < 1 + zc := by linarith
  obtain ⟨w, hw, hwp⟩ := hl.width (lam t.lmin k * (1 + zc))
  set half := w * (lsf.nsigma / 2 / (1 + zc)) with hhalf
  have hnp := hl.nsigma
  have hhp : 0 < half := by positivity
  have hkN : lam t.lmin k ≤ lam t.lmin (N - 1) := by
    unfold lam
    have : (k : K) ≤ ((N - 1 : Nat) : K) := by exact_mod_cast (by omega : k ≤ N - 1)
    nlinarith
  have hk0 : t.lmin ≤ lam t.lmin k := by
    unfold lam
    have : (0 : K) ≤ k := by positivity
    nlinarith
  obtain ⟨i1, i2, i3, i4⟩ := mem_indices t true N (by omega) (by simpa using hsz) ⟨lam t.lmin k - half, lam t.lmin k + half⟩
    (by simp only; linarith) (by simp only; linarith)
  set ind := rangeIndices t ⟨lam t.lmin k - half, lam t.lmin k + half⟩ true with hind
  obtain ⟨b, hb⟩ := Int.eq_ofNat_of_zero_le i1
  obtain ⟨e, he⟩ := Int.eq_ofNat_of_zero_le i2
  rw [hb, he] at i4
  rw [he] at i3
  have hbk := (i4 k hk).2 ⟨by simp only; linarith, by simp only; linarith⟩
  have hlen : (ind.e - ind.b + 1).toNat = e - b + 1 := by rw [hb, he]; omega
  have hmap : (List.range (ind.e - ind.b + 1).toNat).map
      (fun j : Nat => ((List.range N).map (lam t.lmin))[ind.b.toNat + j]?.getD 0 * (1 + zc)) =
      (List.range (e - b + 1)).map (fun j => lam t.lmin (b + j) * (1 + zc)) := by
    rw [hlen, hb]
    apply List.map_congr_left
    intro j hj
    rw [List.mem_range] at hj
    have : b + j < N := by omega
    simp [this]
  obtain ⟨ws, hws, hwl, -, -⟩ := hl.kernel ((List.range (e - b + 1)).map (fun j => lam t.lmin (b + j) * (1 + zc)))
    (lam t.lmin k * (1 + zc)) (by simp)
  simp only [List.length_map, List.length_range] at hwl
  refine ⟨((List.range ws.length).map (fun j => ws[j]?.getD 0 * arr[b + j]?.getD 0)).sum, ?_, w, ws, b, hw, by omega, ?_, ?_, ?_, rfl⟩
  · unfold convSample
    rw [if_neg hz1.ne', hw, Res.bind_ok]
    simp only
    rw [← hhalf, ← hind]
    rw [if_neg (by rw [hb, he, hsz]; omega), if_neg (by rw [hb, he]; omega), if_neg (by simp; rw [he]; omega), hmap, hws,
      Res.bind_ok, hb]
    exact sum_loop ws arr b ws.length le_rfl (by omega)
  · intro h0; rw [h0] at hwl; simp at hwl
  · intro j hj
    have h4 := i4 j hj
    have h5 : (b ≤ j ∧ j < b + ws.length) ↔ (((b : Nat) : Int) ≤ j ∧ (j : Int) ≤ ((e : Nat) : Int)) := by omega
    rw [h5]
    refine h4.trans ?_
    have h6 : half * (1 + zc) = w * lsf.nsigma / 2 := by rw [hhalf]; field_simp
    rw [← h6]
    simp only
    rw [mul_le_mul_iff_left₀ hz1, abs_le]
    constructor
    · rintro ⟨h7, h8⟩; constructor <;> linarith
    · rintro ⟨h7, h8⟩; constructor <;> linarith
  · rw [hwl]; exact hws

/-- The wavelengths of the convolved curves are those of the raw curves. -/
theorem fine_eq (l0 : K) (N : Nat) (hN : 0 < N) :
    (⟨l0, lam l0 (N - 1)⟩ : Range K).spreadOverEps step false (1 / 100000000) = .ok ((List.range N).map (lam l0)) := by
  have hs := step_pos (K := K)
  have hle : l0 ≤ lam l0 (N - 1) := by
    unfold lam
    have : (0 : K) ≤ ((N - 1 : Nat) : K) := by positivity
    nlinarith
  obtain ⟨v, h1, h2, -, -, h5, h6⟩ := C05_spread_eps_forward (⟨l0, lam l0 (N - 1)⟩ : Range K) step (1 / 100000000) hs
    (by norm_num) (by unfold step; norm_num) hle
  simp only at h5 h6
  have hlen : N ≤ v.length := by
    by_contra hc
    have : (v.length : K) ≤ ((N - 1 : Nat) : K) := by exact_mod_cast (by omega : v.length ≤ N - 1)
    unfold lam at h6
    nlinarith [show (0 : K) < 1 / 100000000 by norm_num]
  have hlen2 : v.length = N := by
    by_contra hc
    have h7 : N < v.length := by omega
    have h8 := getElem_lt_of_lt h2 (by omega : N - 1 < N) h7
    rw [h5 (N - 1) (by omega), h5 N h7] at h8
    have : min (l0 + ((N - 1 : Nat) : K) * step) (lam l0 (N - 1)) = lam l0 (N - 1) := by unfold lam; exact min_self _
    rw [this] at h8
    exact absurd h8 (not_lt.2 (min_le_right _ _))
  rw [h1]
  congr 1
  apply List.ext_getElem
  · simp [hlen2]
  · intro i hi hi2
    rw [h5 i hi]
    simp only [List.getElem_map, List.getElem_range]
    have : lam l0 i ≤ lam l0 (N - 1) := by
      unfold lam
      have : (i : K) ≤ ((N - 1 : Nat) : K) := by exact_mod_cast (by omega : i ≤ N - 1)
      nlinarith
    unfold lam at *
    rw [min_eq_left this]

theorem lam_mono (l0 : K) {i j : Nat} (h : i ≤ j) : lam l0 i ≤ lam l0 j := by
  have hs := step_pos (K := K)
  unfold lam
  have : (i : K) ≤ (j : K) := by exact_mod_cast h
  nlinarith

/-- One convolved curve. -/
theorem convCurve_spec {t : T K} {lsf : LsfFun K} (hl : GoodLsf lsf) {N : Nat} (hN : 0 < N) (hsz : t.lamSize = N)
    (hfs : t.fineSize = N) (cr : Range K) {arr : List K} (ha : arr.length = N) {z0 z1 : K} (hz0 : -1 < z0) (hz1 : -1 < z1) :
    ∃ l, convCurve t lsf cr arr ((List.range N).map (lam t.lmin)) ((List.range N).map (lam t.lmin)) z0 z1 = .ok l ∧
      l.length = N ∧ ∀ k, k < N → ∃ v, l[k]? = some v ∧
        (cr.b / (1 + z1) ≤ lam t.lmin k ∧ lam t.lmin k ≤ cr.e / (1 + z0) →
          IsMean lsf t.lmin N ((z0 + z1) / 2) arr k v) ∧
        (¬ (cr.b / (1 + z1) ≤ lam t.lmin k ∧ lam t.lmin k ≤ cr.e / (1 + z0)) → v = 0) := by
  have ha0 : arr ≠ [] := by intro h; rw [h] at ha; simp at ha; omega
  set fine := (List.range N).map (lam t.lmin) with hfine
  have hfl : fine.length = N := by simp [hfine]
  have hf : ∀ k, k < N → fine[k]? = some (lam t.lmin k) := by intro k hk; simp [hfine, hk]
  have e0 : Res.at_ fine 0 = .ok (lam t.lmin 0) := Res.at_eq_ok.2 (hf 0 hN)
  have e1 : Res.at_ fine (fine.length - 1) = .ok (lam t.lmin (N - 1)) := by
    rw [hfl]; exact Res.at_eq_ok.2 (hf _ (by omega))
  unfold convCurve
  rw [if_neg ha0, if_neg (by rintro (h | h) <;> linarith), e0, Res.bind_ok, e1, Res.bind_ok]
  simp only [Range.intersect]
  set rest : Range K := ⟨cr.b / (1 + z1), cr.e / (1 + z0)⟩ with hrest
  have l00 : lam t.lmin 0 = t.lmin := by unfold lam; simp
  by_cases hi : Range.hasIntersection rest ⟨lam t.lmin 0, lam t.lmin (N - 1)⟩ = true
  · rw [if_pos hi]
    simp only [Bool.true_eq_false, if_false]
    unfold Range.hasIntersection at hi
    simp only [decide_eq_true_eq] at hi
    set m : Range K := ⟨max rest.b (lam t.lmin 0), min rest.e (lam t.lmin (N - 1))⟩ with hm
    obtain ⟨i1, i2, i3, i4⟩ := mem_indices t false N hN (by simpa using hfs) m
      (le_trans hi (min_le_right _ _)) (by rw [← l00]; exact le_trans (le_max_right _ _) hi)
    have hin : ∀ k, k < N → ((rangeIndices t m false).b ≤ (k : Int) ∧ (k : Int) ≤ (rangeIndices t m false).e ↔
        rest.b ≤ lam t.lmin k ∧ lam t.lmin k ≤ rest.e) := by
      intro k hk
      rw [i4 k hk, hm]
      simp only [max_le_iff, le_min_iff]
      have a1 := lam_mono t.lmin (Nat.zero_le k)
      have a2 := lam_mono t.lmin (by omega : k ≤ N - 1)
      tauto
    have hg : ∀ k, k < N → ∃ v, (if (rangeIndices t m false).b ≤ (k : Int) ∧ (k : Int) ≤ (rangeIndices t m false).e then
        Res.at_ fine k >>= fun l => convSample t lsf arr fine ((z0 + z1) / 2) l else .ok 0) = .ok v := by
      intro k hk
      split
      · rw [Res.at_eq_ok.2 (hf k hk), Res.bind_ok]
        obtain ⟨v, hv, -⟩ := convSample_spec hl hsz ha (zc := (z0 + z1) / 2) (by linarith) hk
        exact ⟨v, hv⟩
      · exact ⟨0, rfl⟩
    obtain ⟨l, hl1⟩ := tab_total' fine.length (fun k hk => hg k (by omega))
    refine ⟨l, hl1, by rw [Res.tab_length _ hl1, hfl], ?_⟩
    intro k hk
    obtain ⟨v, hv, hgv⟩ := Res.tab_get _ hl1 k (by omega)
    refine ⟨v, hv, ?_, ?_⟩
    · intro hr
      rw [if_pos ((hin k hk).2 hr), Res.at_eq_ok.2 (hf k hk), Res.bind_ok] at hgv
      obtain ⟨v', hv', hm'⟩ := convSample_spec hl hsz ha (zc := (z0 + z1) / 2) (by linarith) hk
      rw [hv'] at hgv; cases hgv
      exact hm'
    · intro hr
      rw [if_neg (fun h => hr ((hin k hk).1 h))] at hgv
      cases hgv; rfl
  · rw [if_neg hi]
    refine ⟨_, rfl, by simp [hfl], ?_⟩
    intro k hk
    refine ⟨0, by simp [hfl, hk], ?_, fun _ => rfl⟩
    intro hr
    exfalso
    apply hi
    unfold Range.hasIntersection
    simp only [decide_eq_true_eq]
    have a1 := lam_mono t.lmin (Nat.zero_le k)
    have a2 := lam_mono t.lmin (by omega : k ≤ N - 1)
    exact le_trans (max_le hr.1 a1) (le_min hr.2 a2)

/-- A convolution appends one curve per raw curve to what the object holds. -/
theorem convolve_spec {raws : List (Curve K)} {zbins : List K} {l0 : K} {N n : Nat} (h : Tables raws zbins l0 N n)
    {lsf : LsfFun K} (hl : GoodLsf lsf) (cr : Range K) (t : T K) (hr : t.raws = raws) (hz : t.zbins = zbins) (hm : t.lmin = l0)
    (hsz : t.lamSize = N) :
    ∃ corr, convolve t lsf cr = .ok { t with fineSize := N, corr := corr, convolved := true } ∧ corr.length = raws.length ∧
      ∀ (i : Nat) raw, raws[i]? = some raw → ∃ z0 z1 c new, zbins[i]? = some z0 ∧ zbins[i + 1]? = some z1 ∧
        corr[i]? = some c ∧ c.lbda = (List.range N).map (lam l0) ∧
        c.fluxcorr = (t.corr[i]?.getD ⟨[], []⟩).fluxcorr ++ new ∧ new.length = n ∧
        ∀ (j : Nat) arr, raw.fluxcorr[j]? = some arr → ∃ l, new[j]? = some l ∧ l.length = N ∧
          ∀ k, k < N → ∃ v, l[k]? = some v ∧
            (cr.b / (1 + z1) ≤ lam l0 k ∧ lam l0 k ≤ cr.e / (1 + z0) → IsMean lsf l0 N ((z0 + z1) / 2) arr k v) ∧
            (¬ (cr.b / (1 + z1) ≤ lam l0 k ∧ lam l0 k ≤ cr.e / (1 + z0)) → v = 0) := by
  subst hr hz hm
  have hN := h.pos
  obtain ⟨c0, cs, hcs⟩ := List.exists_cons_of_ne_nil h.ne
  have e0 : Res.at_ t.raws 0 = .ok c0 := Res.at_eq_ok.2 (by rw [hcs]; simp)
  have hg0 := h.grid c0 (by rw [hcs]; simp)
  have e1 : Res.at_ c0.lbda (c0.lbda.length - 1) = .ok (lam t.lmin (N - 1)) := by
    rw [hg0]
    exact Res.at_eq_ok.2 (by rw [List.length_map, List.length_range, List.getElem?_map, List.getElem?_range (by omega)]; rfl)
  set fine := (List.range N).map (lam t.lmin) with hfine
  have hfl : fine.length = N := by simp [hfine]
  set t' : T K := { t with fineSize := (fine.length : Int) } with ht'
  -- one curve
  have hone : ∀ raw ∈ t.raws, ∀ old : Curve K, ∀ z0 z1 : K, -1 < z0 → -1 < z1 →
      ∃ new, convOne t' lsf cr fine old raw z0 z1 = .ok ⟨fine, old.fluxcorr ++ new⟩ ∧ new.length = n ∧
        ∀ (j : Nat) arr, raw.fluxcorr[j]? = some arr → ∃ l, new[j]? = some l ∧ l.length = N ∧
          ∀ k, k < N → ∃ v, l[k]? = some v ∧
            (cr.b / (1 + z1) ≤ lam t.lmin k ∧ lam t.lmin k ≤ cr.e / (1 + z0) → IsMean lsf t.lmin N ((z0 + z1) / 2) arr k v) ∧
            (¬ (cr.b / (1 + z1) ≤ lam t.lmin k ∧ lam t.lmin k ≤ cr.e / (1 + z0)) → v = 0) := by
    intro raw hraw old z0 z1 hz0 hz1
    obtain ⟨hn, har⟩ := h.arrs raw hraw
    have hgr := h.grid raw hraw
    have hcc : ∀ arr ∈ raw.fluxcorr, _ := fun arr harr =>
      convCurve_spec (t := t') hl hN hsz (by rw [ht']; simp [hfl]) cr (har arr harr) hz0 hz1
    obtain ⟨new, hnew⟩ := tab_total'
      (g := fun j => Res.at_ raw.fluxcorr j >>= fun arr => convCurve t' lsf cr arr raw.lbda fine z0 z1) raw.fluxcorr.length
      (fun j hj => by
        rw [Res.at_of_lt hj, Res.bind_ok, hgr]
        obtain ⟨l, hl1, -⟩ := hcc raw.fluxcorr[j] (List.getElem_mem hj)
        exact ⟨l, hl1⟩)
    refine ⟨new, ?_, by rw [Res.tab_length _ hnew, hn], ?_⟩
    · unfold convOne; rw [hnew, Res.bind_ok]
    · intro j arr hj
      have hjl := (List.getElem?_eq_some_iff.1 hj).1
      obtain ⟨l, hl1, hl2⟩ := Res.tab_get _ hnew j hjl
      rw [Res.at_eq_ok.2 hj, Res.bind_ok, hgr] at hl2
      obtain ⟨l', hl', hlen, hsp⟩ := hcc arr (List.mem_of_getElem? hj)
      rw [hl2] at hl'; cases hl'
      exact ⟨l, hl1, hlen, hsp⟩
  have hbin : ∀ i, i < t.raws.length → ∃ z0 z1, t.zbins[i]? = some z0 ∧ t.zbins[i + 1]? = some z1 ∧ -1 < z0 ∧ -1 < z1 := by
    intro i hi
    have hb := h.bins
    refine ⟨t.zbins[i], t.zbins[i + 1], by simp, by simp, h.above _ (List.getElem_mem _), h.above _ (List.getElem_mem _)⟩
  obtain ⟨corr, hcorr⟩ := tab_total'
    (g := fun i => Res.at_ t.raws i >>= fun raw => Res.at_ t.zbins i >>= fun z0 => Res.at_ t.zbins (i + 1) >>= fun z1 =>
      convOne t' lsf cr fine (t.corr[i]?.getD ⟨[], []⟩) raw z0 z1) t.raws.length
    (fun i hi => by
      obtain ⟨z0, z1, hb0, hb1, hp0, hp1⟩ := hbin i hi
      rw [Res.at_of_lt hi, Res.bind_ok, Res.at_eq_ok.2 hb0, Res.bind_ok, Res.at_eq_ok.2 hb1, Res.bind_ok]
      obtain ⟨new, hn, -⟩ := hone t.raws[i] (List.getElem_mem hi) (t.corr[i]?.getD ⟨[], []⟩) z0 z1 hp0 hp1
      exact ⟨_, hn⟩)
  refine ⟨corr, ?_, Res.tab_length _ hcorr, ?_⟩
  · unfold convolve
    rw [e0, Res.bind_ok, e1, Res.bind_ok, fine_eq t.lmin N hN, Res.bind_ok, ← hfine]
    rw [← ht', hcorr, Res.bind_ok, hfl]
  · intro i raw hi
    have hil := (List.getElem?_eq_some_iff.1 hi).1
    obtain ⟨z0, z1, hb0, hb1, hp0, hp1⟩ := hbin i hil
    obtain ⟨c, hc1, hc2⟩ := Res.tab_get _ hcorr i hil
    rw [Res.at_eq_ok.2 hi, Res.bind_ok, Res.at_eq_ok.2 hb0, Res.bind_ok, Res.at_eq_ok.2 hb1, Res.bind_ok] at hc2
    obtain ⟨new, hn, hn2, hn3⟩ := hone raw (List.mem_of_getElem? hi) (t.corr[i]?.getD ⟨[], []⟩) z0 z1 hp0 hp1
    rw [hn] at hc2; cases hc2
    exact ⟨z0, z1, _, new, hb0, hb1, hc1, rfl, rfl, hn2, hn3⟩

/-- The redshift bin of a lookup; the last one also serves above it. -/
theorem redshiftIndex_spec (t : T K) (hs : t.zbins.Pairwise (· < ·)) (h2 : 2 ≤ t.zbins.length) (z : K) :
    ((∀ x ∈ t.zbins, z < x) → redshiftIndex t z = .ok (-1)) ∧
    (∀ (i : Nat) z0 z1, t.zbins[i]? = some z0 → t.zbins[i + 1]? = some z1 → z0 ≤ z → (z < z1 ∨ i + 2 = t.zbins.length) →
      redshiftIndex t z = .ok i) := by
  have hne : t.zbins ≠ [] := by intro h; rw [h] at h2; simp at h2
  obtain ⟨c1, c2, o, ho⟩ := C08_closestLower t.zbins z (pairwise_le_of_lt hs) hne
  constructor
  · intro hx
    unfold redshiftIndex
    rw [c1.2 hx, Res.bind_ok]
  · intro i z0 z1 h0 h1 hz hz1
    obtain ⟨hi0, e0⟩ := List.getElem?_eq_some_iff.1 h0
    obtain ⟨hi1, e1⟩ := List.getElem?_eq_some_iff.1 h1
    cases o with
    | none =>
      exfalso
      have := (c1.1 ho) z0 (List.mem_of_getElem? h0)
      exact absurd hz (not_le.2 this)
    | some m =>
      obtain ⟨hm, -, -, hiff⟩ := c2 m ho
      have hiff := hiff hs
      have a1 := (hiff i hi0).1 (by rw [e0]; exact hz)
      unfold redshiftIndex
      rw [ho, Res.bind_ok]
      simp only
      by_cases hlast : m = t.zbins.length - 1
      · rw [if_pos hlast]
        congr 1
        rcases hz1 with h | h
        · have a2 : ¬ (i + 1 ≤ m) := fun hc => by
            have := (hiff (i + 1) hi1).2 hc
            rw [e1] at this
            exact absurd h (not_lt.2 this)
          omega
        · omega
      · rw [if_neg hlast]
        congr 1
        rcases hz1 with h | h
        · have a2 : ¬ (i + 1 ≤ m) := fun hc => by
            have := (hiff (i + 1) hi1).2 hc
            rw [e1] at this
            exact absurd h (not_lt.2 this)
          omega
        · omega

/-- The sample used for a wavelength is the nearest one. -/
theorem waveIndex_spec (t : T K) (N : Nat) (hN : 0 < N) (hf : t.fineSize = N) (w : K) :
    ∃ k : Nat, waveIndex t w = k ∧ k < N ∧ ∀ j : Nat, j < N → |w - lam t.lmin k| ≤ |w - lam t.lmin j| := by
  have hs := step_pos (K := K)
  set x := (w - t.lmin) / step with hx
  have hw : w = t.lmin + x * step := by rw [hx]; field_simp; ring
  have hn := abs_le.1 (Calzetti.cround_near x)
  unfold waveIndex
  rw [← hx, hf]
  set m := MedCont.cround x with hm
  have hd : ∀ j : Nat, |w - lam t.lmin j| = |x - j| * step := by
    intro j
    rw [hw]; unfold lam
    rw [show t.lmin + x * step - (t.lmin + j * step) = (x - j) * step by ring, abs_mul, abs_of_pos hs]
  rcases lt_or_ge m 0 with h0 | h0
  · refine ⟨0, by omega, hN, ?_⟩
    intro j hj
    rw [hd, hd]
    have : (m : K) ≤ -1 := by exact_mod_cast (by omega : m ≤ -1)
    have hx0 : x < 0 := by linarith
    have hj0 : (0 : K) ≤ j := by positivity
    rw [abs_of_nonpos (by push_cast; linarith), abs_of_nonpos (by linarith)]
    push_cast
    nlinarith
  · rcases lt_or_ge m N with h1 | h1
    · obtain ⟨k, hk⟩ := Int.eq_ofNat_of_zero_le h0
      refine ⟨k, by omega, by omega, ?_⟩
      intro j hj
      rw [hd, hd]
      have hmk : (m : K) = k := by rw [hk]; push_cast; rfl
      rw [hmk] at hn
      refine mul_le_mul_of_nonneg_right ?_ hs.le
      rcases lt_trichotomy j k with hjk | hjk | hjk
      · have : (j : K) + 1 ≤ k := by exact_mod_cast hjk
        refine le_trans (abs_le.2 ⟨hn.1, hn.2⟩) ?_
        rw [abs_of_nonneg (by linarith)]; linarith
      · rw [hjk]
      · have : (k : K) + 1 ≤ j := by exact_mod_cast hjk
        refine le_trans (abs_le.2 ⟨hn.1, hn.2⟩) ?_
        rw [abs_of_nonpos (by linarith)]; linarith
    · refine ⟨N - 1, by omega, by omega, ?_⟩
      intro j hj
      rw [hd, hd]
      refine mul_le_mul_of_nonneg_right ?_ hs.le
      have h2 : ((N - 1 : Nat) : K) + 1 ≤ m := by exact_mod_cast (by omega : ((N - 1 : Nat) : Int) + 1 ≤ m)
      have h3 : (j : K) ≤ ((N - 1 : Nat) : K) := by exact_mod_cast (by omega : j ≤ N - 1)
      rw [abs_of_nonneg (by linarith), abs_of_nonneg (by linarith)]; linarith

/-- **C58.** Whatever the state and the index, nothing is absorbed above Lyman alpha; below, the index -1 is refused; below
the first redshift bin nothing is absorbed. -/
theorem C58_no_absorption (t : T K) (z : K) (idx : Int) (lambda : K) :
    (1216 < lambda → correction t z idx lambda = .ok 1 ∧ correctionDeriv t z idx lambda = .ok (1, 0)) ∧
    (lambda ≤ 1216 → correction t z (-1) lambda = .throw .INTERNAL_ERROR ∧
      correctionDeriv t z (-1) lambda = .throw .INTERNAL_ERROR) ∧
    (2 ≤ t.zbins.length → t.zbins.Pairwise (· < ·) → (∀ x ∈ t.zbins, z < x) → idx ≠ -1 →
      correction t z idx lambda = .ok 1 ∧ correctionDeriv t z idx lambda = .ok (1, 0)) := by
  unfold correction correctionDeriv lya
  refine ⟨fun h => by rw [if_pos h, if_pos h]; exact ⟨rfl, rfl⟩, fun h => ?_, fun h2 hs hx hi => ?_⟩
  · rw [if_neg (not_lt.2 h), if_pos rfl, if_neg (not_lt.2 h), if_pos rfl]; exact ⟨rfl, rfl⟩
  · have := (redshiftIndex_spec t hs h2 z).1 hx
    by_cases hl : 1216 < lambda
    · rw [if_pos hl, if_pos hl]; exact ⟨rfl, rfl⟩
    · rw [if_neg hl, if_neg hi, if_neg hl, if_neg hi, this]; exact ⟨rfl, rfl⟩

/-- **C58.** After the tables are loaded and convolved, the correction at a redshift and a rest wavelength below Lyman alpha is
the value, at the nearest sample, of the curve of the redshift bin (the last bin also above it): the mean of the raw curve
weighted by the line spread function where the sample is in the convolution range brought to rest, and zero elsewhere. -/
theorem C58_correction_partial {raws : List (Curve K)} {zbins : List K} {l0 : K} {N n : Nat} (h : Tables raws zbins l0 N n)
    {lsf : LsfFun K} (hl : GoodLsf lsf) (cr : Range K) :
    ∃ t0 t, make raws zbins = .ok t0 ∧ convolve t0 lsf cr = .ok t ∧
      ∀ (i idx : Nat) raw arr z0 z1 z lambda, raws[i]? = some raw → raw.fluxcorr[idx]? = some arr →
        zbins[i]? = some z0 → zbins[i + 1]? = some z1 → z0 ≤ z → (z < z1 ∨ i + 1 = raws.length) → lambda ≤ 1216 →
        ∃ k v, k < N ∧ (∀ j, j < N → |lambda - lam l0 k| ≤ |lambda - lam l0 j|) ∧ correction t z idx lambda = .ok v ∧
          (cr.b / (1 + z1) ≤ lam l0 k ∧ lam l0 k ≤ cr.e / (1 + z0) → IsMean lsf l0 N ((z0 + z1) / 2) arr k v) ∧
          (¬ (cr.b / (1 + z1) ≤ lam l0 k ∧ lam l0 k ≤ cr.e / (1 + z0)) → v = 0) := by
  have hm := make_spec h
  obtain ⟨corr, hc, hcl, hsp⟩ := convolve_spec h hl cr ⟨zbins, raws, [], l0, N, -1, false⟩ rfl rfl rfl rfl
  refine ⟨_, _, hm, hc, ?_⟩
  intro i idx raw arr z0 z1 z lambda hraw harr hb0 hb1 hz hz1 hlam
  have hbins := h.bins
  have hlen := List.length_pos_iff.2 h.ne
  set t : T K := ⟨zbins, raws, corr, l0, N, N, true⟩ with ht
  obtain ⟨k, hk1, hk2, hk3⟩ := waveIndex_spec t N h.pos rfl lambda
  have hzi := (redshiftIndex_spec t h.sorted (by show 2 ≤ zbins.length; omega) z).2 i z0 z1 hb0 hb1 hz
    (hz1.imp id (fun e => by show i + 2 = zbins.length; omega))
  obtain ⟨z0', z1', c, new, e0, e1, hc1, -, hc3, hc4, hc5⟩ := hsp i raw hraw
  rw [hb0] at e0; cases e0
  rw [hb1] at e1; cases e1
  obtain ⟨l, hl1, -, hl2⟩ := hc5 idx arr harr
  obtain ⟨v, hv, hv2⟩ := hl2 k hk2
  refine ⟨k, v, hk2, hk3, ?_, hv2⟩
  show correction t z idx lambda = .ok v
  unfold correction lya
  rw [if_neg (not_lt.2 hlam), if_neg (by omega), hzi, Res.bind_ok, if_neg (by omega), hk1]
  unfold corrAt
  rw [atZ_nat, Res.at_eq_ok.2 hc1, Res.bind_ok, hc3]
  simp only [List.getElem?_nil, Option.getD_none, List.nil_append, atZ_nat]
  rw [Res.at_eq_ok.2 hl1, Res.bind_ok]
  exact checked_eq hv

/-- **C58.** A mean over the line spread function stays between the bounds of the raw curve: a transmission between zero and
one stays so. -/
theorem C58_mean_bounds {lsf : LsfFun K} (hl : GoodLsf lsf) {l0 : K} {N : Nat} {zc : K} {raw : List K} (hr : raw.length = N)
    {k : Nat} {v : K} (h : IsMean lsf l0 N zc raw k v) (lo hi : K) (hb : ∀ x ∈ raw, lo ≤ x ∧ x ≤ hi) : lo ≤ v ∧ v ≤ hi := by
  obtain ⟨w, ws, b, -, hle, hne, -, hker, rfl⟩ := h
  obtain ⟨ws', hk, -, hsum, hpos⟩ := hl.kernel _ _ (by
    intro hc
    simp only [List.map_eq_nil_iff, List.range_eq_nil] at hc
    exact hne (List.length_eq_zero_iff.1 hc) :
    (List.range ws.length).map (fun j => lam l0 (b + j) * (1 + zc)) ≠ [])
  rw [hker] at hk; cases hk
  have hself : ∀ c : K, ((List.range ws.length).map (fun j => ws[j]?.getD 0 * c)).sum = c := by
    intro c
    have : (List.range ws.length).map (fun j => ws[j]?.getD 0) = ws := by
      apply List.ext_getElem
      · simp
      · intro i h1 h2; simp [h2]
    rw [List.sum_map_mul_right, this, hsum, one_mul]
  have hin : ∀ j ∈ List.range ws.length, 0 < ws[j]?.getD 0 ∧ lo ≤ raw[b + j]?.getD 0 ∧ raw[b + j]?.getD 0 ≤ hi := by
    intro j hj
    rw [List.mem_range] at hj
    have h1 : b + j < raw.length := by omega
    simp only [List.getElem?_eq_getElem hj, List.getElem?_eq_getElem h1, Option.getD_some]
    exact ⟨hpos _ (List.getElem_mem hj), hb _ (List.getElem_mem h1)⟩
  constructor
  · refine le_trans (hself lo).ge ?_
    apply List.sum_le_sum
    intro j hj
    obtain ⟨a1, a2, a3⟩ := hin j hj
    exact mul_le_mul_of_nonneg_left a2 a1.le
  · refine le_trans ?_ (hself hi).le
    apply List.sum_le_sum
    intro j hj
    obtain ⟨a1, a2, a3⟩ := hin j hj
    exact mul_le_mul_of_nonneg_left a3 a1.le

/-- **C58.** A second convolution, for another spectrum with another line spread function and another range, changes no
correction: the curves of the first one are still used. -/
theorem C58_reconvolve_ignored {raws : List (Curve K)} {zbins : List K} {l0 : K} {N n : Nat} (h : Tables raws zbins l0 N n)
    {lsf lsf2 : LsfFun K} (hl : GoodLsf lsf) (hl2 : GoodLsf lsf2) (cr cr2 : Range K) :
    ∃ t0 t t2, make raws zbins = .ok t0 ∧ convolve t0 lsf cr = .ok t ∧ convolve t lsf2 cr2 = .ok t2 ∧
      ∀ z (idx : Nat) lambda, idx < n → correction t2 z idx lambda = correction t z idx lambda := by
  have hm := make_spec h
  obtain ⟨corr, hc, hcl, hsp⟩ := convolve_spec h hl cr ⟨zbins, raws, [], l0, N, -1, false⟩ rfl rfl rfl rfl
  obtain ⟨corr2, hc2, hcl2, hsp2⟩ := convolve_spec h hl2 cr2 ⟨zbins, raws, corr, l0, N, N, true⟩ rfl rfl rfl rfl
  refine ⟨_, _, _, hm, hc, hc2, ?_⟩
  intro z idx lambda hidx
  unfold correction
  have hzz : redshiftIndex (⟨zbins, raws, corr2, l0, N, N, true⟩ : T K) z =
    redshiftIndex (⟨zbins, raws, corr, l0, N, N, true⟩ : T K) z := rfl
  simp only
  rw [hzz]
  by_cases h1 : lya < lambda
  · rw [if_pos h1, if_pos h1]
  · rw [if_neg h1, if_neg h1, if_neg (by omega), if_neg (by omega)]
    generalize redshiftIndex (⟨zbins, raws, corr, l0, N, N, true⟩ : T K) z = ri
    cases ri with
    | throw e => rfl
    | ub => rfl
    | ok zi =>
      simp only [Res.bind_ok]
      by_cases h2 : zi = -1
      · rw [if_pos h2, if_pos h2]
      · rw [if_neg h2, if_neg h2]
        unfold corrAt waveIndex
        simp only [atZ_nat]
        by_cases h3 : zi < 0
        · unfold Res.atZ; rw [if_pos h3, if_pos h3]
        · unfold Res.atZ
          rw [if_neg h3, if_neg h3]
          by_cases h4 : zi.toNat < raws.length
          · obtain ⟨-, -, c, new, -, -, g1, -, g3, g4, -⟩ := hsp zi.toNat _ (List.getElem?_eq_getElem h4)
            obtain ⟨-, -, c2, new2, -, -, k1, -, k3, -, -⟩ := hsp2 zi.toNat _ (List.getElem?_eq_getElem h4)
            rw [Res.at_eq_ok.2 g1, Res.at_eq_ok.2 k1, Res.bind_ok, Res.bind_ok, k3]
            simp only [g1, Option.getD_some]
            have hg : c.fluxcorr = new := by rw [g3]; simp
            have hlt : idx < c.fluxcorr.length := by rw [hg, g4]; exact hidx
            rw [show Res.at_ (c.fluxcorr ++ new2) idx = Res.at_ c.fluxcorr idx by
              unfold Res.at_; rw [List.getElem?_append_left hlt]]
          · rw [Res.at_eq_ub.2 (by omega), Res.at_eq_ub.2 (by omega)]

/-- **C58.** Before any convolution a correction below Lyman alpha, at a redshift of the tables, reads out of bounds. -/
theorem C58_not_convolved {raws : List (Curve K)} {zbins : List K} {l0 : K} {N n : Nat} (h : Tables raws zbins l0 N n)
    (z lambda z0 : K) (h0 : zbins[0]? = some z0) (hz : z0 ≤ z) (hlam : lambda ≤ 1216) (idx : Nat) :
    ∃ t0, make raws zbins = .ok t0 ∧ correction t0 z idx lambda = .ub := by
  refine ⟨_, make_spec h, ?_⟩
  have hne : zbins ≠ [] := by intro hc; rw [hc] at h0; simp at h0
  obtain ⟨c1, c2, o, ho⟩ := C08_closestLower zbins z (pairwise_le_of_lt h.sorted) hne
  have hlen := List.length_pos_iff.2 h.ne
  have hbins := h.bins
  unfold correction lya
  rw [if_neg (not_lt.2 hlam), if_neg (by omega)]
  unfold redshiftIndex
  simp only
  rw [ho, Res.bind_ok]
  cases o with
  | none =>
    exfalso
    exact absurd hz (not_le.2 ((c1.1 ho) z0 (List.mem_of_getElem? h0)))
  | some m =>
    simp only
    obtain ⟨hm, -⟩ := c2 m ho
    rw [Res.bind_ok]
    have hne1 : (if m = zbins.length - 1 then (m : Int) - 1 else m) ≠ -1 := by split <;> omega
    rw [if_neg hne1]
    unfold corrAt
    rw [atZ_nil]; rfl

/-- The sample used for the wavelength of a sample is that sample. -/
theorem waveIndex_lam (t : T K) (N : Nat) (hf : t.fineSize = N) (k : Nat) (hk : k < N) : waveIndex t (lam t.lmin k) = k := by
  have hs := (step_pos (K := K)).ne'
  unfold waveIndex
  have : (lam t.lmin k - t.lmin) / step = ((k : Int) : K) := by unfold lam; push_cast; field_simp; ring
  rw [this, Calzetti.cround_int, hf]
  omega

/-- **C58.** The vector of corrections over a range holds the samples of the table inside the range, in order, each with the
correction of its wavelength. -/
theorem C58_vector (t : T K) (N : Nat) (hN : 0 < N) (hf : t.fineSize = N) (r : Range K) (h1 : r.b ≤ lam t.lmin (N - 1))
    (h2 : t.lmin ≤ r.e) (z : K) (idx : Int) (hidx : idx ≠ -1) :
    ((∀ k, k < N → ¬ (r.b ≤ lam t.lmin k ∧ lam t.lmin k ≤ r.e)) → waveAndCorrection t r z idx = .throw .INTERNAL_ERROR) ∧
    ∀ w c, waveAndCorrection t r z idx = .ok (w, c) →
      w ≠ [] ∧ w.Pairwise (· < ·) ∧ (∀ x, x ∈ w ↔ ∃ k, k < N ∧ x = lam t.lmin k ∧ r.b ≤ x ∧ x ≤ r.e) ∧ w.length = c.length ∧
      ∀ (i : Nat) x v, w[i]? = some x → c[i]? = some v → x ≤ 1216 → correction t z idx x = .ok v := by
  have hs := step_pos (K := K)
  obtain ⟨i1, i2, i3, i4⟩ := mem_indices t false N hN (by simpa using hf) r h1 h2
  set ind := rangeIndices t r false with hind
  obtain ⟨b, hb⟩ := Int.eq_ofNat_of_zero_le i1
  obtain ⟨e, he⟩ := Int.eq_ofNat_of_zero_le i2
  rw [hb, he] at i4
  rw [he] at i3
  have hwave : waveVector t ind = (List.range (e + 1 - b)).map (fun i => lam t.lmin (b + i)) := by
    unfold waveVector
    rw [hb, he]
    split
    · rw [show e + 1 - b = 0 by omega]; rfl
    · rw [show ((e : Int) - (b : Int) + 1).toNat = e + 1 - b by omega]
      apply List.map_congr_left
      intro i _
      unfold lam; push_cast; ring
  have hget : ∀ (i : Nat) x, (waveVector t ind)[i]? = some x → b + i ≤ e ∧ x = lam t.lmin (b + i) := by
    intro i x hx
    rw [hwave, List.getElem?_map] at hx
    by_cases hi : i < e + 1 - b
    · rw [List.getElem?_range hi] at hx
      simp only [Option.map_some, Option.some.injEq] at hx
      exact ⟨by omega, hx.symm⟩
    · rw [List.getElem?_eq_none (by simp; omega)] at hx; simp at hx
  have hmem : ∀ x, x ∈ waveVector t ind ↔ ∃ k, k < N ∧ x = lam t.lmin k ∧ r.b ≤ x ∧ x ≤ r.e := by
    intro x
    rw [hwave]
    simp only [List.mem_map, List.mem_range]
    constructor
    · rintro ⟨i, hi, rfl⟩
      obtain ⟨a1, a2⟩ := (i4 (b + i) (by omega)).1 (by omega)
      exact ⟨b + i, by omega, rfl, a1, a2⟩
    · rintro ⟨k, hk, rfl, a1, a2⟩
      have := (i4 k hk).2 ⟨a1, a2⟩
      exact ⟨k - b, by omega, by rw [show b + (k - b) = k by omega]⟩
  have hpw : (waveVector t ind).Pairwise (· < ·) := by
    rw [hwave, List.pairwise_map]
    refine List.pairwise_lt_range.imp ?_
    intro i j hij
    unfold lam
    have : (i : K) < (j : K) := by exact_mod_cast hij
    push_cast; nlinarith
  constructor
  · intro hno
    have : waveVector t ind = [] := by
      rw [List.eq_nil_iff_forall_not_mem]
      intro x hx
      obtain ⟨k, hk, rfl, a1, a2⟩ := (hmem x).1 hx
      exact hno k hk ⟨a1, a2⟩
    unfold waveAndCorrection
    simp only
    rw [← hind, if_pos this]
  · intro w c h
    unfold waveAndCorrection at h
    simp only at h
    rw [← hind] at h
    split at h
    · cases h
    · rename_i hne
      obtain ⟨zi, hzi, h⟩ := Res.bind_eq_ok.1 h
      split at h
      · rename_i hz
        cases h
        refine ⟨hne, hpw, hmem, by simp, ?_⟩
        intro i x v hx hv hl
        obtain ⟨hi, rfl⟩ := List.getElem?_eq_some_iff.1 hv
        unfold correction lya
        rw [if_neg (not_lt.2 hl), if_neg hidx, hzi, Res.bind_ok, if_pos hz]
        simp
      · rename_i hz
        obtain ⟨c', hc', h⟩ := Res.bind_eq_ok.1 h
        cases h
        refine ⟨hne, hpw, hmem, (Res.tab_length _ hc').symm, ?_⟩
        intro i x v hx hv hl
        obtain ⟨hi, hxe⟩ := hget i x hx
        obtain ⟨v', hv', hcv⟩ := Res.tab_get _ hc' i (List.getElem?_eq_some_iff.1 hx).1
        rw [hv] at hv'; cases hv'
        unfold correction lya
        rw [if_neg (not_lt.2 hl), if_neg hidx, hzi, Res.bind_ok, if_neg hz, hxe, waveIndex_lam t N hf (b + i) (by omega), ← hcv, hb]
        push_cast; rfl

/-- **C58.** The derivative returned beside the correction is the difference quotient of the curve between the two samples
around the one used (or that sample and its only neighbour, at both ends of the table). -/
theorem C58_derivative (t : T K) (N : Nat) (hN : 2 ≤ N) (hf : t.fineSize = N) (z : K) (i idx : Nat) (c : Curve K) (a : List K)
    (hz : redshiftIndex t z = .ok i) (hc : t.corr[i]? = some c) (hg : c.lbda = (List.range N).map (lam t.lmin))
    (ha : c.fluxcorr[idx]? = some a) (hal : a.length = N) (lambda : K) (hlam : lambda ≤ 1216) :
    ∃ (k k0 k1 : Nat) (v v0 v1 d : K), k < N ∧ (∀ j, j < N → |lambda - lam t.lmin k| ≤ |lambda - lam t.lmin j|) ∧
      k0 ≤ k ∧ k ≤ k1 ∧ k1 < N ∧ (k = 0 ∧ k0 = 0 ∨ k0 + 1 = k) ∧ (k + 1 = N ∧ k1 = k ∨ k1 = k + 1) ∧
      a[k]? = some v ∧ a[k0]? = some v0 ∧ a[k1]? = some v1 ∧
      correctionDeriv t z idx lambda = .ok (v, d) ∧ correction t z idx lambda = .ok v ∧
      d * (lam t.lmin k1 - lam t.lmin k0) = v1 - v0 := by
  have hs := step_pos (K := K)
  obtain ⟨k, hk1, hk2, hk3⟩ := waveIndex_spec t N (by omega) hf lambda
  obtain ⟨k0, hk0⟩ : ∃ k0, k0 = k - 1 := ⟨_, rfl⟩
  obtain ⟨k1, hk1'⟩ : ∃ k1, k1 = min (N - 1) (k + 1) := ⟨_, rfl⟩
  have e0 : max 0 ((k : Int) - 1) = (k0 : Int) := by omega
  have e1 : min ((N : Int) - 1) ((k : Int) + 1) = (k1 : Int) := by omega
  have hne : lam t.lmin k1 - lam t.lmin k0 ≠ 0 := by
    rw [lam_sub]
    have : (k0 : K) < k1 := by exact_mod_cast (by omega : k0 < k1)
    have : (0 : K) < (k1 : K) - k0 := by linarith
    positivity
  have hget : ∀ j, j < N → checked a (j : Int) = .ok (a[j]?.getD 0) := by
    intro j hj
    have hj' : j < a.length := by omega
    refine checked_eq ?_
    simp [hj']
  have hgl : ∀ j, j < N → checked c.lbda (j : Int) = .ok (lam t.lmin j) := by
    intro j hj
    refine checked_eq ?_
    rw [hg]; simp [hj]
  have hcorr : corrAt t i idx k = .ok (a[k]?.getD 0) := by
    unfold corrAt
    rw [atZ_nat, Res.at_eq_ok.2 hc, Res.bind_ok, atZ_nat, Res.at_eq_ok.2 ha, Res.bind_ok, hget k hk2]
  have hder : derivAt t i idx k = .ok ((a[k1]?.getD 0 - a[k0]?.getD 0) / (lam t.lmin k1 - lam t.lmin k0)) := by
    unfold derivAt
    simp only
    rw [e0, hf, e1, atZ_nat, Res.at_eq_ok.2 hc, Res.bind_ok, atZ_nat, Res.at_eq_ok.2 ha, Res.bind_ok, hget k1 (by omega),
      Res.bind_ok, hget k0 (by omega), Res.bind_ok, hgl k1 (by omega), Res.bind_ok, hgl k0 (by omega), Res.bind_ok, if_neg hne]
  have hsome : ∀ j, j < N → a[j]? = some (a[j]?.getD 0) := by
    intro j hj
    have hj' : j < a.length := by omega
    simp [hj']
  refine ⟨k, k0, k1, a[k]?.getD 0, a[k0]?.getD 0, a[k1]?.getD 0, _, hk2, hk3, by omega, by omega, by omega, by omega, by omega,
    hsome k hk2, hsome k0 (by omega), hsome k1 (by omega), ?_, ?_, div_mul_cancel₀ _ hne⟩
  · unfold correctionDeriv lya
    rw [if_neg (not_lt.2 hlam), if_neg (by omega), hz, Res.bind_ok, if_neg (by omega), hk1, hcorr, Res.bind_ok, hder, Res.bind_ok]
  · unfold correction lya
    rw [if_neg (not_lt.2 hlam), if_neg (by omega), hz, Res.bind_ok, if_neg (by omega), hk1, hcorr]

/-! ## Concrete cases -/

/-- The line spread functions of the library (C57) are good ones. -/
theorem goodLsf_library (t : Lsf.T) (h : Lsf.Good t) (hs : ∀ ls ws, t = .varWidth ls ws → ls.Pairwise (· < ·)) (ns : ℝ)
    (hns : 0 < ns) : GoodLsf (⟨fun l => Lsf.width t l true, Lsf.kernel t, ns⟩ : LsfFun ℝ) where
  width := fun l => Lsf.C57_width_pos t h hs l
  kernel := fun ls l hne => by
    obtain ⟨k, h1, h2, h3, h4, -⟩ := Lsf.C57_kernel t h hs ls hne l
    exact ⟨k, h1, h2, h3, h4⟩
  nsigma := hns

/-- A flat line spread function. -/
def flatLsf (w : ℚ) : LsfFun ℚ :=
  ⟨fun _ => .ok w, fun ls _ => .ok (List.replicate ls.length (1 / (ls.length : ℚ))), 8⟩

theorem goodLsf_flat (w : ℚ) (h : 0 < w) : GoodLsf (flatLsf w) where
  width := fun _ => ⟨w, rfl, h⟩
  kernel := fun ls l hne => by
    have : (0 : ℚ) < ls.length := by exact_mod_cast List.length_pos_iff.2 hne
    refine ⟨_, rfl, by simp, ?_, ?_⟩
    · simp; field_simp
    · intro x hx; rw [List.eq_of_mem_replicate hx]; positivity
  nsigma := by unfold flatLsf; norm_num

/-- One bin, four wavelengths from 800, one curve. -/
def demoRaws : List (Curve ℚ) := [⟨[800, 16001 / 20, 8001 / 10, 16003 / 20], [[1, 1 / 2, 1 / 2, 1]]⟩]

theorem demo_tables : Tables demoRaws [2, 3] (800 : ℚ) 4 1 where
  ne := by simp [demoRaws]
  bins := rfl
  sorted := by decide +kernel
  above := by decide +kernel
  pos := by norm_num
  grid := by
    intro c hc
    simp only [demoRaws, List.mem_singleton] at hc
    subst hc
    decide +kernel
  arrs := by
    intro c hc
    simp only [demoRaws, List.mem_singleton] at hc
    subst hc
    exact ⟨rfl, by decide +kernel⟩

/-- Tables loaded, convolved, and one correction read. -/
def demoRun (lsf : LsfFun ℚ) (cr : Range ℚ) (z lambda : ℚ) : Res ℚ :=
  make demoRaws [2, 3] >>= fun t0 => convolve t0 lsf cr >>= fun t => correction t z 0 lambda

example : demoRun (flatLsf (1 / 20)) ⟨1000, 9000⟩ (5 / 2) 800 = .ok (3 / 4) ∧
    demoRun (flatLsf (1 / 20)) ⟨1000, 9000⟩ (5 / 2) (80004 / 100) = .ok (2 / 3) := by decide +kernel

/-- **C58, finding.** A redshift above the last bin: the wavelength 6400 is observed in the convolution range, yet its
correction is zero, as the range was brought to rest at the redshift of the bin: all the flux is removed. -/
theorem C58_zero_above_last_bin : (32004 / 10 : ℚ) ≤ 800 * (1 + 7) ∧ (800 * (1 + 7) : ℚ) ≤ 9000 ∧
    demoRun (flatLsf (1 / 20)) ⟨32004 / 10, 9000⟩ 7 800 = .ok 0 ∧
    demoRun (flatLsf (1 / 20)) ⟨32004 / 10, 9000⟩ 7 (16003 / 20) = .ok (3 / 4) := by decide +kernel

/-- Two spectra with line spread functions of different widths: the curve convolved for the second one is not used. -/
example : (make demoRaws [2, 3] >>= fun t0 => convolve t0 (flatLsf (1 / 20)) ⟨1000, 9000⟩ >>= fun t =>
      convolve t (flatLsf 1) ⟨1000, 9000⟩ >>= fun t2 => correction t2 (5 / 2) 0 (80004 / 100)) = .ok (2 / 3) ∧
    demoRun (flatLsf 1) ⟨1000, 9000⟩ (5 / 2) (80004 / 100) = .ok (3 / 4) := by decide +kernel

example : (make demoRaws [2, 3] >>= fun t0 => convolve t0 (flatLsf (1 / 20)) ⟨1000, 9000⟩ >>= fun t =>
      waveAndCorrection t ⟨80004 / 100, 9000⟩ (5 / 2) 0) = .ok ([16001 / 20, 8001 / 10, 16003 / 20], [2 / 3, 2 / 3, 3 / 4]) := by
  decide +kernel

end Meiksin
end Amazed
