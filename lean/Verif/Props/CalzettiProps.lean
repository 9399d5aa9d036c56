import Mathlib.Analysis.SpecialFunctions.Pow.Real
import Mathlib.Data.Rat.Floor
import Mathlib.Algebra.Order.Archimedean.Basic
import Mathlib.Tactic.Linarith
import Mathlib.Tactic.FieldSimp
import Mathlib.Tactic.Ring
import Mathlib.Tactic.NormNum
import Verif.Model.Calzetti

/-! # C55: the dust extinction curves -/

set_option linter.unusedSectionVars false

namespace Amazed
namespace Calzetti

section
variable {K : Type} [Field K] [LinearOrder K] [IsStrictOrderedRing K]

/-- Specification: the wavelengths of a curve are regularly sampled up to a relative tolerance of `10⁻⁸` on every step. -/
def Regular (lbda : List K) : Prop :=
  ∀ l0 l1, lbda[0]? = some l0 → lbda[1]? = some l1 →
    ∀ (t : Nat) (a b : K), lbda[t]? = some a → lbda[t + 1]? = some b →
      |(b - a) - (l1 - l0)| ≤ |l1 - l0| / 100000000

theorem stepBad_iff (step d : K) : stepBad step d ↔ ¬ |d - step| ≤ |step| / 100000000 := by
  unfold stepBad
  split
  · rename_i h; subst h; simp
  · rename_i h
    have hs : 0 < |step| := abs_pos.2 h
    rw [abs_div, not_le, lt_div_iff₀ hs]
    constructor <;> intro h <;> linarith

/-- What the constructor of the curve does: with at least two wavelengths it accepts a regular sampling and refuses any
other one. -/
theorem mkCorr_spec (lbda data : List K) (l0 l1 : K) (h0 : lbda[0]? = some l0) (h1 : lbda[1]? = some l1) :
    (Regular lbda → mkCorr lbda data = .ok ⟨lbda, data, l1 - l0⟩) ∧
    (¬ Regular lbda → mkCorr lbda data = .throw .BAD_CALZETTICORR) := by
  have hlen : 1 < lbda.length := (List.getElem?_eq_some_iff.1 h1).1
  have e1 : Res.at_ lbda 1 = .ok l1 := Res.at_eq_ok.2 h1
  have e0 : Res.at_ lbda 0 = .ok l0 := Res.at_eq_ok.2 h0
  set f : Nat → Unit → Res Unit := fun t (_ : Unit) =>
    Res.at_ lbda (t - 1) >>= fun a =>
    Res.at_ lbda t >>= fun b =>
    if stepBad (l1 - l0) (b - a) then .throw .BAD_CALZETTICORR else .ok () with hf
  have hm : mkCorr lbda data = (Res.foldN f 2 (lbda.length - 2) () >>= fun _ => .ok ⟨lbda, data, l1 - l0⟩) := by
    unfold mkCorr; rw [e1, e0]; rfl
  have hstep : ∀ i, 2 ≤ i → i < lbda.length → ∃ a b, lbda[i - 1]? = some a ∧ lbda[i]? = some b ∧
      f i () = if stepBad (l1 - l0) (b - a) then .throw .BAD_CALZETTICORR else .ok () := by
    intro i h2 hi
    refine ⟨lbda[i - 1], lbda[i], by simp, by simp, ?_⟩
    simp only [hf]
    rw [Res.at_of_lt (by omega : i - 1 < lbda.length), Res.at_of_lt hi]
    rfl
  have hl := Res.foldN_inv_throw (f := f)
    (fun i _ => ∀ (t : Nat) (a b : K), t + 1 < i → lbda[t]? = some a → lbda[t + 1]? = some b →
      |(b - a) - (l1 - l0)| ≤ |l1 - l0| / 100000000) (fun e => e = .BAD_CALZETTICORR ∧ ¬ Regular lbda)
    (lbda.length - 2) 2 ()
    (by
      intro t a b ht ha hb
      obtain rfl : t = 0 := by omega
      rw [h0] at ha; rw [h1] at hb
      cases ha; cases hb
      simp; positivity)
    (by
      intro i s h2 hi hp
      obtain ⟨a, b, ha, hb, he⟩ := hstep i h2 (by omega)
      rw [he]
      by_cases hbad : stepBad (l1 - l0) (b - a)
      · right
        refine ⟨_, by rw [if_pos hbad], rfl, ?_⟩
        intro hreg
        exact (stepBad_iff _ _).1 hbad (hreg l0 l1 h0 h1 (i - 1) a b ha (by rw [show i - 1 + 1 = i by omega]; exact hb))
      · left
        refine ⟨(), by rw [if_neg hbad], ?_⟩
        intro t a' b' ht ha' hb'
        by_cases hti : t + 1 < i
        · exact hp t a' b' hti ha' hb'
        · obtain rfl : t = i - 1 := by omega
          rw [ha] at ha'; cases ha'
          rw [show i - 1 + 1 = i by omega, hb] at hb'; cases hb'
          exact not_not.1 (fun hc => hbad ((stepBad_iff _ _).2 hc)))
  rcases hl with ⟨s, hs, hp⟩ | ⟨e, he, rfl, hr⟩
  · have hreg : Regular lbda := by
      intro l0' l1' h0' h1' t a b ha hb
      rw [h0] at h0'; cases h0'
      rw [h1] at h1'; cases h1'
      have := (List.getElem?_eq_some_iff.1 hb).1
      exact hp t a b (by omega) ha hb
    exact ⟨fun _ => by rw [hm, hs]; rfl, fun hc => absurd hreg hc⟩
  · exact ⟨fun hc => absurd hc hr, fun _ => by rw [hm, he]; rfl⟩

/-- **C55.** A curve with at least two wavelengths is accepted if and only if its wavelengths are regularly sampled (every
step within `10⁻⁸` of the first one, relatively); any other one is refused with BAD_CALZETTICORR, whatever the values. -/
theorem C55_accept (p10 : K → K) (lbda data : List K) (start step : K) (n : Int) (hn : 0 ≤ n) (h2 : 2 ≤ lbda.length) :
    ((∃ d, build p10 lbda data start step n = .ok d) ↔ Regular lbda) ∧
    (build p10 lbda data start step n = .throw .BAD_CALZETTICORR ↔ ¬ Regular lbda) := by
  have h0 : lbda[0]? = some lbda[0] := by simp
  have h1 : lbda[1]? = some lbda[1] := by simp
  obtain ⟨ha, hb⟩ := mkCorr_spec lbda data _ _ h0 h1
  unfold build
  by_cases hr : Regular lbda
  · rw [ha hr]
    simp only [Res.bind_ok, mkDust]
    rw [Res.at_of_lt (by omega : 0 < lbda.length), Res.at_of_lt (by omega : lbda.length - 1 < lbda.length)]
    simp only [Res.bind_ok]
    rw [if_neg (by omega)]
    exact ⟨by simp [hr], by simp [hr]⟩
  · rw [hb hr]
    exact ⟨by simp [hr], by simp [hr]⟩

/-- A curve with a single wavelength is read past its end before any check. -/
theorem C55_single_wavelength_ub (p10 : K → K) (l : K) (data : List K) (start step : K) (n : Int) :
    build p10 [l] data start step n = .ub := rfl

/-- The accumulated error of the wavelengths of an accepted curve. -/
theorem regular_drift {lbda : List K} (hr : Regular lbda) {l0 l1 : K} (h0 : lbda[0]? = some l0)
    (h1 : lbda[1]? = some l1) (hpos : l0 < l1) (k : Nat) :
    ∀ lk, lbda[k]? = some lk → |lk - (l0 + k * (l1 - l0))| ≤ (k - 1 : Nat) * ((l1 - l0) / 100000000) := by
  induction k with
  | zero => intro lk hk; rw [h0] at hk; cases hk; simp
  | succ k ih =>
    intro lk hk
    rcases Nat.eq_zero_or_pos k with rfl | hkp
    · rw [h1] at hk; cases hk; simp
    · have hlt := (List.getElem?_eq_some_iff.1 hk).1
      have hk' : lbda[k]? = some lbda[k] := by simp
      have e1 := ih _ hk'
      have e2 := hr l0 l1 h0 h1 k _ _ hk' hk
      rw [abs_of_pos (by linarith : 0 < l1 - l0)] at e2
      have : lk - (l0 + ((k + 1 : Nat) : K) * (l1 - l0)) = (lbda[k] - (l0 + k * (l1 - l0))) + ((lk - lbda[k]) - (l1 - l0)) := by
        push_cast; ring
      rw [this]
      refine le_trans (abs_add_le _ _) ?_
      have h3 : ((k + 1 - 1 : Nat) : K) = ((k - 1 : Nat) : K) + 1 := by
        rw [show k + 1 - 1 = (k - 1) + 1 by omega]; push_cast; ring
      rw [h3]; linarith

theorem flatMap_range_get {α : Type} (g : Nat → List α) (m : Nat) (hg : ∀ i, (g i).length = m) (n : Nat) :
    ((List.range n).flatMap g).length = n * m ∧
    ∀ kd k, kd < n → k < m → ((List.range n).flatMap g)[kd * m + k]? = (g kd)[k]? := by
  induction n with
  | zero => simp
  | succ n ih =>
    obtain ⟨h1, h2⟩ := ih
    rw [List.range_succ, List.flatMap_append]
    simp only [List.flatMap_cons, List.flatMap_nil, List.append_nil]
    refine ⟨by rw [List.length_append, h1, hg]; ring, ?_⟩
    intro kd k hkd hk
    rcases Nat.lt_or_eq_of_le (Nat.le_of_lt_succ hkd) with h | h
    · have : kd * m + k < n * m := by
        calc kd * m + k < kd * m + m := by omega
          _ = (kd + 1) * m := by ring
          _ ≤ n * m := Nat.mul_le_mul_right _ h
      rw [List.getElem?_append_left (by omega)]
      exact h2 kd k h hk
    · subst h
      rw [List.getElem?_append_right (by omega), h1]
      congr 1; omega

theorem build_spec {p10 : K → K} {lbda data : List K} {start step : K} {n : Int} {d : Dust K}
    (h : build p10 lbda data start step n = .ok d) :
    ∃ l0 l1 lN, lbda[0]? = some l0 ∧ lbda[1]? = some l1 ∧ lbda.getLast? = some lN ∧ Regular lbda ∧
      d.data = data ∧ d.n = n ∧ d.eStep = step ∧ d.eStart = start ∧ d.lmin = l0 ∧ d.lmax = lN ∧ d.step = l1 - l0 ∧
      d.table = (List.range n.toNat).flatMap
        (fun kd : Nat => data.map (fun x => p10 (-(4 / 10) * x * (start + step * ((kd : Int) : K))))) := by
  unfold build at h
  obtain ⟨c, hc, h⟩ := Res.bind_eq_ok.1 h
  have h1 : ∃ l1, lbda[1]? = some l1 := by
    unfold mkCorr at hc
    obtain ⟨l1, hl, _⟩ := Res.bind_eq_ok.1 hc
    exact ⟨l1, Res.at_eq_ok.1 hl⟩
  obtain ⟨l1, h1⟩ := h1
  have hlen : 1 < lbda.length := (List.getElem?_eq_some_iff.1 h1).1
  have h0 : lbda[0]? = some lbda[0] := by simp
  obtain ⟨ha, hb⟩ := mkCorr_spec lbda data _ _ h0 h1
  by_cases hr : Regular lbda
  · rw [ha hr] at hc
    cases hc
    simp only [mkDust] at h
    rw [Res.at_of_lt (by omega : 0 < lbda.length), Res.at_of_lt (by omega : lbda.length - 1 < lbda.length)] at h
    simp only [Res.bind_ok] at h
    split at h
    · cases h
    · cases h
      exact ⟨lbda[0], l1, lbda[lbda.length - 1], h0, h1,
        by rw [List.getLast?_eq_getElem?]; simp, hr, rfl, rfl, rfl, rfl, rfl, rfl, rfl, rfl⟩
  · rw [hb hr] at hc; cases hc

variable [FloorRing K]

theorem cround_near (x : K) : |x - (MedCont.cround x : K)| ≤ 1 / 2 := by
  unfold MedCont.cround
  split
  · have h1 := Int.floor_le (x + 1 / 2)
    have h2 := Int.lt_floor_add_one (x + 1 / 2)
    rw [abs_le]; constructor <;> linarith
  · have h1 := Int.floor_le (-x + 1 / 2)
    have h2 := Int.lt_floor_add_one (-x + 1 / 2)
    rw [abs_le]; push_cast; constructor <;> linarith

theorem cround_nonneg {x : K} (hx : 0 ≤ x) : 0 ≤ MedCont.cround x := by
  unfold MedCont.cround
  rw [if_pos hx]
  exact Int.floor_nonneg.2 (by linarith)

theorem cround_lt {x : K} (hx : 0 ≤ x) {n : Int} (h : x + 1 / 2 < n) : MedCont.cround x < n := by
  unfold MedCont.cround
  rw [if_pos hx]
  exact Int.floor_lt.2 h

theorem cround_int (n : Int) : MedCont.cround (n : K) = n := by
  unfold MedCont.cround
  split
  · rw [Int.floor_eq_iff]; constructor <;> linarith
  · have : ⌊-(n : K) + 1 / 2⌋ = -n := by
      rw [Int.floor_eq_iff]; push_cast; constructor <;> linarith
    rw [this]; ring

theorem amplitude_ok {w r : K} (hr : r ≠ 0) (h1 : -2147483648 ≤ MedCont.cround (w / r))
    (h2 : MedCont.cround (w / r) ≤ 2147483647) : MedCont.amplitude w r = .ok (MedCont.cround (w / r)) := by
  unfold MedCont.amplitude
  rw [if_neg hr]
  exact if_neg (by unfold MedCont.int32Max; omega)

theorem amplitude_eq {w r : K} {m : Int} (h : MedCont.amplitude w r = .ok m) : m = MedCont.cround (w / r) := by
  unfold MedCont.amplitude at h
  split at h
  · cases h
  · simp only at h
    split at h
    · cases h
    · cases h; rfl

/-- The index of an in-range wavelength in an accepted curve. -/
theorem index_lt {lbda : List K} (hr : Regular lbda) (hmax : lbda.length ≤ 50000000)
    {l0 l1 lN : K} (h0 : lbda[0]? = some l0) (h1 : lbda[1]? = some l1) (hN : lbda.getLast? = some lN) (hpos : l0 < l1)
    {lambda : K} (hlo : l0 ≤ lambda) (hhi : lambda < lN) :
    ∃ k : Nat, MedCont.cround ((lambda - l0) / (l1 - l0)) = k ∧ k < lbda.length := by
  have hsp : 0 < l1 - l0 := by linarith
  have hlen : 1 < lbda.length := (List.getElem?_eq_some_iff.1 h1).1
  set N := lbda.length with hNdef
  have hlast : lbda[N - 1]? = some lN := by rw [List.getLast?_eq_getElem?] at hN; exact hN
  have hdrift := regular_drift hr h0 h1 hpos (N - 1) lN hlast
  have hx0 : 0 ≤ (lambda - l0) / (l1 - l0) := div_nonneg (by linarith) hsp.le
  have hxlt : (lambda - l0) / (l1 - l0) + 1 / 2 < ((N : Int) : K) := by
    have hN1 : ((N - 1 : Nat) : K) = (N : K) - 1 := by rw [Nat.cast_sub (by omega)]; simp
    have hN2 : ((N - 1 - 1 : Nat) : K) ≤ 50000000 := by
      have : N - 1 - 1 ≤ 50000000 := by omega
      exact_mod_cast this
    have hle := (abs_le.1 hdrift).2
    have h3 : ((N - 1 - 1 : Nat) : K) * ((l1 - l0) / 100000000) ≤ (l1 - l0) / 2 := by
      calc ((N - 1 - 1 : Nat) : K) * ((l1 - l0) / 100000000) ≤ 50000000 * ((l1 - l0) / 100000000) :=
            mul_le_mul_of_nonneg_right hN2 (by positivity)
        _ = (l1 - l0) / 2 := by ring
    have : (lambda - l0) / (l1 - l0) < (N : K) - 1 / 2 := by
      rw [div_lt_iff₀ hsp]
      rw [hN1] at hle
      calc lambda - l0 < ((N : K) - 1) * (l1 - l0) + (l1 - l0) / 2 := by linarith
        _ = ((N : K) - 1 / 2) * (l1 - l0) := by ring
    push_cast; linarith
  obtain ⟨k, hk⟩ := Int.eq_ofNat_of_zero_le (cround_nonneg hx0)
  have hrN := cround_lt hx0 hxlt
  exact ⟨k, hk, by omega⟩

/-- The coefficient read at a known index. -/
theorem coeff_at {p10 : K → K} {lbda data : List K} {start step : K} {n : Int} {d : Dust K}
    (h : build p10 lbda data start step n = .ok d) (hmax : lbda.length ≤ 50000000) {lambda l0 l1 lN : K}
    (h0 : lbda[0]? = some l0) (h1 : lbda[1]? = some l1) (hN : lbda.getLast? = some lN) (hpos : l0 < l1)
    (hlo : l0 ≤ lambda) (hhi : lambda < lN) {k : Nat}
    (hk : MedCont.cround ((lambda - l0) / (l1 - l0)) = k) (hkl : k < lbda.length) (hkd : k < data.length)
    {kd : Nat} (hn : (kd : Int) < n) :
    coeff d kd lambda = .ok (p10 (-(4 / 10) * data[k] * (start + step * kd))) := by
  obtain ⟨l0', l1', lN', e0, e1, eN, hr, hd, hnn, -, -, hmin, hmx, hst, htab⟩ := build_spec h
  rw [h0] at e0; cases e0
  rw [h1] at e1; cases e1
  rw [hN] at eN; cases eN
  have hamp : MedCont.amplitude (lambda - l0) (l1 - l0) = .ok (k : Int) := by
    rw [amplitude_ok (by linarith) (by omega) (by omega), hk]
  unfold coeff
  rw [hnn, if_neg (by omega), hmin, hmx, if_pos ⟨hlo, hhi⟩, hst, hamp, Res.bind_ok, hd]
  have hidx : (kd : Int) * (data.length : Int) + ((k : Nat) : Int) = ((kd * data.length + k : Nat) : Int) := by push_cast; rfl
  rw [hidx]
  unfold Res.atZ
  rw [if_neg (by omega), Int.toNat_natCast, Res.at_eq_ok, htab]
  obtain ⟨-, hg⟩ := flatMap_range_get
    (fun kd : Nat => data.map (fun x => p10 (-(4 / 10) * x * (start + step * ((kd : Int) : K))))) data.length
    (by intro i; simp) n.toNat
  rw [hg kd k (by omega) (by omega)]
  simp [hkd]

/-- **C55.** For every accepted curve of at most `5·10⁷` increasing wavelengths with one value per wavelength, every dust
index in range and every wavelength in `[λmin, λmax)`, the coefficient is `10^(-0.4·v·E)` where `E` is the colour excess of
the index and `v` the value of the curve at a wavelength of the curve that is at most half a step away (up to the tolerance
accumulated to it); nothing is read out of the table. -/
theorem C55_curve (p10 : K → K) (lbda data : List K) (start step : K) (n : Int) (d : Dust K)
    (h : build p10 lbda data start step n = .ok d) (hsz : data.length = lbda.length) (hmax : lbda.length ≤ 50000000)
    (l0 l1 lN : K) (h0 : lbda[0]? = some l0) (h1 : lbda[1]? = some l1) (hN : lbda.getLast? = some lN) (hpos : l0 < l1)
    (kd : Nat) (hkd : (kd : Int) < n) (lambda : K) (hlo : l0 ≤ lambda) (hhi : lambda < lN) :
    ∃ (k : Nat) (v lk : K), data[k]? = some v ∧ lbda[k]? = some lk ∧
      |lambda - lk| ≤ (l1 - l0) * (1 / 2 + k / 100000000) ∧
      coeff d kd lambda = .ok (p10 (-(4 / 10) * v * (start + step * kd))) := by
  obtain ⟨l0', l1', lN', e0, e1, eN, hr, -⟩ := build_spec h
  obtain ⟨k, hk, hkN⟩ := index_lt hr hmax h0 h1 hN hpos hlo hhi
  refine ⟨k, data[k]'(by omega), lbda[k], by simp, by simp, ?_,
    coeff_at h hmax h0 h1 hN hpos hlo hhi hk hkN (by omega) hkd⟩
  have hsp : 0 < l1 - l0 := by linarith
  have hnear := cround_near ((lambda - l0) / (l1 - l0))
  rw [hk] at hnear
  have hdk := regular_drift hr h0 h1 hpos k lbda[k] (by simp)
  have hk1 : ((k - 1 : Nat) : K) ≤ k := by exact_mod_cast Nat.sub_le k 1
  have e : lambda - lbda[k] = ((lambda - l0) / (l1 - l0) - ((k : Int) : K)) * (l1 - l0) - (lbda[k] - (l0 + k * (l1 - l0))) := by
    rw [sub_mul, div_mul_cancel₀ _ hsp.ne']; push_cast; ring
  rw [e]
  refine le_trans (abs_sub _ _) ?_
  rw [abs_mul, abs_of_pos hsp]
  have a1 : |(lambda - l0) / (l1 - l0) - ((k : Int) : K)| * (l1 - l0) ≤ 1 / 2 * (l1 - l0) :=
    mul_le_mul_of_nonneg_right hnear hsp.le
  have a2 : ((k - 1 : Nat) : K) * ((l1 - l0) / 100000000) ≤ k * ((l1 - l0) / 100000000) :=
    mul_le_mul_of_nonneg_right hk1 (by positivity)
  calc _ ≤ 1 / 2 * (l1 - l0) + k * ((l1 - l0) / 100000000) := by linarith
    _ = _ := by ring

/-- **C55.** On exactly regular wavelengths the value used is that of the nearest wavelength of the curve. -/
theorem C55_nearest (p10 : K → K) (lbda data : List K) (start step : K) (n : Int) (d : Dust K)
    (h : build p10 lbda data start step n = .ok d) (hsz : data.length = lbda.length) (hmax : lbda.length ≤ 50000000)
    (l0 s : K) (hs : 0 < s) (hgrid : ∀ (k : Nat) lk, lbda[k]? = some lk → lk = l0 + k * s)
    (kd : Nat) (hkd : (kd : Int) < n) (lambda lN : K) (hN : lbda.getLast? = some lN) (hlo : l0 ≤ lambda) (hhi : lambda < lN) :
    ∃ (k : Nat) (v lk : K), data[k]? = some v ∧ lbda[k]? = some lk ∧
      (∀ (j : Nat) lj, lbda[j]? = some lj → |lambda - lk| ≤ |lambda - lj|) ∧
      coeff d kd lambda = .ok (p10 (-(4 / 10) * v * (start + step * kd))) := by
  obtain ⟨a0, a1, aN, e0, e1, eN, hr, -⟩ := build_spec h
  have g0 : a0 = l0 := by have := hgrid 0 a0 e0; simpa using this
  have g1 : a1 = l0 + s := by have := hgrid 1 a1 e1; simpa using this
  subst g0
  have hst : a1 - a0 = s := by rw [g1]; ring
  obtain ⟨k, hk, hkN⟩ := index_lt hr hmax e0 e1 hN (by linarith) hlo hhi
  refine ⟨k, data[k]'(by omega), lbda[k], by simp, by simp, ?_,
    coeff_at h hmax e0 e1 hN (by linarith) hlo hhi hk hkN (by omega) hkd⟩
  have hnear := cround_near ((lambda - a0) / (a1 - a0))
  rw [hk, hst] at hnear
  intro j lj hj
  by_cases hjk : j = k
  · subst hjk; simp only [List.getElem?_eq_getElem hkN, Option.some.injEq] at hj; rw [hj]
  · rw [hgrid k lbda[k] (by simp), hgrid j lj hj]
    have hscale : ∀ m : Nat, |lambda - (a0 + m * s)| = |(lambda - a0) / s - m| * s := by
      intro m
      have : lambda - (a0 + m * s) = ((lambda - a0) / s - m) * s := by rw [sub_mul, div_mul_cancel₀ _ hs.ne']; ring
      rw [this, abs_mul, abs_of_pos hs]
    rw [hscale, hscale]
    apply mul_le_mul_of_nonneg_right _ hs.le
    have hk' : |(lambda - a0) / s - (k : K)| ≤ 1 / 2 := by simpa using hnear
    refine le_trans hk' ?_
    have hint : (1 : K) ≤ |(k : K) - (j : K)| := by
      have : (1 : Int) ≤ |(k : Int) - (j : Int)| := Int.one_le_abs (by omega)
      have h2 : ((1 : Int) : K) ≤ ((|(k : Int) - (j : Int)| : Int) : K) := by exact_mod_cast this
      push_cast at h2; exact h2
    have htri : |(k : K) - j| ≤ |(lambda - a0) / s - k| + |(lambda - a0) / s - j| := by
      have : (k : K) - j = ((lambda - a0) / s - j) - ((lambda - a0) / s - k) := by ring
      rw [this, add_comm]; exact abs_sub _ _
    linarith

/-- **C55.** Outside `[λmin, λmax)` the coefficient is one: in particular at the last wavelength of the curve, whose value
is used only for wavelengths below it. -/
theorem C55_outside (p10 : K → K) (lbda data : List K) (start step : K) (n : Int) (d : Dust K)
    (h : build p10 lbda data start step n = .ok d) (l0 lN : K) (h0 : lbda[0]? = some l0) (hN : lbda.getLast? = some lN)
    (kd : Int) (hkd : kd < n) (lambda : K) (hout : lambda < l0 ∨ lN ≤ lambda) :
    coeff d kd lambda = .ok 1 := by
  obtain ⟨a0, a1, aN, e0, e1, eN, hr, hd, hn, -, -, hmin, hmx, hst, htab⟩ := build_spec h
  rw [h0] at e0; cases e0
  rw [hN] at eN; cases eN
  unfold coeff
  rw [hn, if_neg (by omega), hmin, hmx, if_neg]
  rintro ⟨h1, h2⟩
  rcases hout with h | h
  · exact absurd h1 (not_le.2 h)
  · exact absurd h2 (not_lt.2 h)

/-- **C55.** A dust index at or above the number of coefficients is refused, at every wavelength. -/
theorem C55_index_refused (p10 : K → K) (lbda data : List K) (start step : K) (n : Int) (d : Dust K)
    (h : build p10 lbda data start step n = .ok d) (kd : Int) (hkd : n ≤ kd) (lambda : K) :
    coeff d kd lambda = .throw .INTERNAL_ERROR := by
  obtain ⟨a0, a1, aN, e0, e1, eN, hr, hd, hn, -⟩ := build_spec h
  unfold coeff
  rw [hn, if_pos hkd]

/-- **C55.** The index of a colour excess of the grid is its index, and the colour excess at the index found for any value
is at most half a step away from it. -/
theorem C55_ebmv_index (p10 : K → K) (lbda data : List K) (start step : K) (n : Int) (d : Dust K)
    (h : build p10 lbda data start step n = .ok d) (hstep : 0 < step) :
    (∀ k : Int, -2147483648 ≤ k → k ≤ 2147483647 → ebmvIndex d (ebmv d.eStart d.eStep k) = .ok k) ∧
    (∀ v k, ebmvIndex d v = .ok k → |v - ebmv d.eStart d.eStep k| ≤ step / 2) := by
  obtain ⟨a0, a1, aN, e0, e1, eN, hr, hd, hn, hes, hs, -⟩ := build_spec h
  constructor
  · intro k hk1 hk2
    unfold ebmvIndex ebmv
    rw [hes, hs]
    have : (start + step * (k : K) - start) / step = (k : K) := by
      rw [add_sub_cancel_left, mul_div_cancel_left₀ _ hstep.ne']
    rw [amplitude_ok hstep.ne' (by rw [this, cround_int]; omega) (by rw [this, cround_int]; omega), this, cround_int]
  · intro v k hk
    unfold ebmvIndex at hk
    rw [hes, hs] at hk
    have hnear := cround_near ((v - start) / step)
    rw [← amplitude_eq hk] at hnear
    unfold ebmv
    rw [hes, hs]
    have e : v - (start + step * (k : K)) = ((v - start) / step - k) * step := by
      rw [sub_mul, div_mul_cancel₀ _ hstep.ne']; ring
    rw [e, abs_mul, abs_of_pos hstep]
    calc _ ≤ 1 / 2 * step := mul_le_mul_of_nonneg_right hnear hstep.le
      _ = step / 2 := by ring

end

/-- **C55.** With a curve that is not negative and colour excesses that are not negative, every coefficient returned for a
dust index in range is in `(0, 1]`. -/
theorem C55_attenuates (lbda data : List ℝ) (start step : ℝ) (n : Int) (d : Dust ℝ)
    (h : build (fun x => (10 : ℝ) ^ x) lbda data start step n = .ok d) (hsz : data.length = lbda.length)
    (hmax : lbda.length ≤ 50000000) (l0 l1 : ℝ) (h0 : lbda[0]? = some l0) (h1 : lbda[1]? = some l1) (hpos : l0 < l1)
    (hdata : ∀ x ∈ data, 0 ≤ x) (hs : 0 ≤ start) (hst : 0 ≤ step) (kd : Nat) (hkd : (kd : Int) < n) (lambda : ℝ) :
    ∃ c, coeff d kd lambda = .ok c ∧ 0 < c ∧ c ≤ 1 := by
  obtain ⟨a0, a1, lN, -, -, hN, -⟩ := build_spec h
  by_cases hin : l0 ≤ lambda ∧ lambda < lN
  · obtain ⟨k, v, lk, hv, -, -, hc⟩ := C55_curve _ lbda data start step n d h hsz hmax l0 l1 lN h0 h1 hN hpos kd hkd
      lambda hin.1 hin.2
    refine ⟨_, hc, Real.rpow_pos_of_pos (by norm_num) _, ?_⟩
    apply Real.rpow_le_one_of_one_le_of_nonpos (by norm_num)
    have hv0 := hdata v (List.mem_of_getElem? hv)
    have : 0 ≤ v * (start + step * kd) := mul_nonneg hv0 (by positivity)
    nlinarith
  · refine ⟨1, C55_outside _ lbda data start step n d h l0 lN h0 hN kd (by omega) lambda ?_, one_pos, le_rfl⟩
    by_contra hc
    push Not at hc
    exact hin hc

/-- **C55.** More colour excess attenuates more: with a curve that is not negative and a positive step, the coefficient
decreases with the dust index at every wavelength. -/
theorem C55_monotone (lbda data : List ℝ) (start step : ℝ) (n : Int) (d : Dust ℝ)
    (h : build (fun x => (10 : ℝ) ^ x) lbda data start step n = .ok d) (hsz : data.length = lbda.length)
    (hmax : lbda.length ≤ 50000000) (l0 l1 : ℝ) (h0 : lbda[0]? = some l0) (h1 : lbda[1]? = some l1) (hpos : l0 < l1)
    (hdata : ∀ x ∈ data, 0 ≤ x) (hst : 0 ≤ step) (k1 k2 : Nat) (h12 : k1 ≤ k2) (hk2 : (k2 : Int) < n) (lambda : ℝ) :
    ∃ c1 c2, coeff d k1 lambda = .ok c1 ∧ coeff d k2 lambda = .ok c2 ∧ c2 ≤ c1 := by
  obtain ⟨a0, a1, lN, -, -, hN, -⟩ := build_spec h
  by_cases hin : l0 ≤ lambda ∧ lambda < lN
  · obtain ⟨-, -, -, -, -, -, hr, -⟩ := build_spec h
    obtain ⟨k, hk, hkN⟩ := index_lt hr hmax h0 h1 hN hpos hin.1 hin.2
    have hc1 := coeff_at h hmax h0 h1 hN hpos hin.1 hin.2 hk hkN (by omega) (show (k1 : Int) < n by omega)
    have hc2 := coeff_at h hmax h0 h1 hN hpos hin.1 hin.2 hk hkN (by omega) hk2
    refine ⟨_, _, hc1, hc2, ?_⟩
    apply Real.rpow_le_rpow_of_exponent_le (by norm_num)
    have hv0 := hdata (data[k]'(by omega)) (List.getElem_mem _)
    have hc : (k1 : ℝ) ≤ k2 := by exact_mod_cast h12
    have : data[k]'(by omega) * (start + step * k1) ≤ data[k]'(by omega) * (start + step * k2) :=
      mul_le_mul_of_nonneg_left (by nlinarith) hv0
    nlinarith
  · have hout : lambda < l0 ∨ lN ≤ lambda := by
      by_contra hc
      push Not at hc
      exact hin hc
    exact ⟨1, 1, C55_outside _ lbda data start step n d h l0 lN h0 hN k1 (by omega) lambda hout,
      C55_outside _ lbda data start step n d h l0 lN h0 hN k2 (by omega) lambda hout, le_rfl⟩

/-- A small curve over the rationals, the power of ten being replaced by the identity so that the argument shows. -/
def exDust : Res (Dust ℚ) := build id [1000, 1010, 1020, 1030] [5, 4, 3, 2] 0 (1 / 10) 3

example : (exDust >>= fun d => coeff d 2 1014) = .ok (-(4 / 10) * 4 * (2 / 10)) := by decide +kernel
example : (exDust >>= fun d => coeff d 2 1016) = .ok (-(4 / 10) * 3 * (2 / 10)) := by decide +kernel
example : (exDust >>= fun d => coeff d 2 1029) = .ok (-(4 / 10) * 2 * (2 / 10)) := by decide +kernel
example : (exDust >>= fun d => coeff d 2 1030) = .ok 1 := by decide +kernel
example : (exDust >>= fun d => coeff d 3 1030) = .throw .INTERNAL_ERROR := by decide +kernel
example : (exDust >>= fun d => ebmvIndex d (17 / 100)) = .ok 2 := by decide +kernel

/-- A negative dust index is not checked: it reads out of the table inside the range of the curve, and returns one outside. -/
theorem C55_negative_index :
    (exDust >>= fun d => coeff d (-1) 1010) = .ub ∧ (exDust >>= fun d => coeff d (-1) 2000) = .ok 1 := by
  constructor <;> decide +kernel

/-- The sizes of the wavelengths and of the values are not compared: with fewer values than wavelengths the value of another
colour excess is used, and the end of the table is passed for the last one. -/
theorem C55_size_mismatch :
    (build (id : ℚ → ℚ) [1000, 1010, 1020, 1030] [5, 4] 0 (1 / 10) 3 >>= fun d => coeff d 1 1020) =
      .ok (-(4 / 10) * 5 * (2 / 10)) ∧
    (build (id : ℚ → ℚ) [1000, 1010, 1020, 1030] [5, 4] 0 (1 / 10) 3 >>= fun d => coeff d 2 1020) = .ub := by
  constructor <;> decide +kernel

/-- An irregular curve is refused. -/
example : build (id : ℚ → ℚ) [1000, 1010, 1021] [5, 4, 3] 0 (1 / 10) 3 = .throw .BAD_CALZETTICORR := by decide +kernel

/-- The hypotheses of `C55_attenuates` and `C55_monotone` are met. -/
example : ∃ d, build (fun x => (10 : ℝ) ^ x) [1000, 1010, 1020] [5, 4, 3] 0 (1 / 10) 3 = .ok d := by
  refine (C55_accept _ _ _ _ _ _ (by norm_num) (by simp)).1.2 ?_
  intro l0 l1 h0 h1 t a b ha hb
  simp only [List.getElem?_cons_zero, List.getElem?_cons_succ, Option.some.injEq] at h0 h1
  subst h0 h1
  rcases t with _ | _ | t
  · simp at ha hb; subst ha hb; norm_num
  · simp at ha hb; subst ha hb; norm_num
  · simp at hb

end Calzetti
end Amazed
