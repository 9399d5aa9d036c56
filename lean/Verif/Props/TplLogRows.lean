import Verif.Model.TplLog
import Verif.Props.TplFitTotal

set_option linter.unusedSectionVars false
set_option linter.unusedVariables false

/-! # Template fitting on log-sampled grids: the fit of one shift and the tables (C128) -/

namespace Amazed
namespace TplLog

open TplFit (Prior setTbl Sample sumsOf weight IsSqrt get2)

variable {K : Type} [Field K] [LinearOrder K] [IsStrictOrderedRing K]

/-! ## Specification -/

/-- What the fit of a model to samples returns, with the amplitude kept if it is at least `thr` times its error: a model that is null
everywhere has a null amplitude; for any other model `sigma * err` is the only amplitude of smallest chi2, `err` its error. In all
cases the chi2 is that of the amplitude that is returned. -/
structure CellSpec (thr : K) (l : List (Sample K)) (chi amp err sigma snr : K) : Prop where
  null : (∀ s ∈ l, s.x = 0) → amp = 0 ∧ err = 0 ∧ sigma = 0 ∧ snr = -1
  least : (∃ s ∈ l, s.x ≠ 0) → ∀ a, TplFit.chi2 l (sigma * err) ≤ TplFit.chi2 l a
  unique : (∃ s ∈ l, s.x ≠ 0) → ∀ a, TplFit.chi2 l a = TplFit.chi2 l (sigma * err) → a = sigma * err
  error : (∃ s ∈ l, s.x ≠ 0) → 0 < err ∧ err ^ 2 * weight l = 1
  kept : (∃ s ∈ l, s.x ≠ 0) → amp = (if sigma < thr then 0 else sigma * err) ∧ snr = sigma
  chi : chi = TplFit.chi2 l amp

/-! ## One cell -/

/-- The value of `cell`. -/
def cellV (sq : K → K) (thr dtd dtm mtm : K) : Cell K :=
  if mtm = 0 then ⟨dtd, 0, 0, 0, dtm, mtm⟩
  else
    let err := sq (1 / mtm)
    let sigma := dtm / mtm / err
    let a := if sigma < thr then 0 else dtm / mtm
    ⟨dtd - 2 * dtm * a + mtm * a * a, a, err, sigma, dtm, mtm⟩

theorem cell_ok (sq : K → K) (thr dtd dtm mtm : K) (h : 0 ≤ mtm) : cell sq thr dtd dtm mtm = .ok (cellV sq thr dtd dtm mtm) := by
  unfold cell cellV
  split
  · rfl
  · rw [if_neg (not_lt.2 h)]

theorem cells_ok (sq : K → K) (thr dtd : K) : ∀ (ds ms : List K), ds.length = ms.length → (∀ m ∈ ms, 0 ≤ m) →
    cells sq thr dtd ds ms = .ok (List.zipWith (cellV sq thr dtd) ds ms)
  | [], _, _, _ => by simp [cells]
  | _ :: _, [], h, _ => by simp at h
  | d :: ds, m :: ms, h, hm => by
    unfold cells
    rw [cell_ok sq thr dtd d m (hm m (by simp)), Res.bind_ok, cells_ok sq thr dtd ds ms (by simpa using h) (fun v hv => hm v (by simp [hv])),
      Res.bind_ok]
    rfl

theorem sums_nonneg (l : List (Sample K)) : 0 ≤ (sumsOf l).t := by
  rw [← TplFit.weight_sums]
  exact TplFit.weight_nonneg l

/-- The fit of one shift is the least squares fit. -/
theorem cellV_spec {sq : K → K} (hsq : IsSqrt sq) (thr : K) (l : List (Sample K)) (he : ∀ s ∈ l, s.e ≠ 0) :
    let c := cellV sq thr (sumsOf l).s (sumsOf l).cross (sumsOf l).t
    CellSpec thr l c.chi2 c.amp c.ampErr c.ampSigma (snrOf sq c) := by
  intro c
  have hc := fun a => TplFit.chi2_sums l a he
  by_cases hx : ∃ s ∈ l, s.x ≠ 0
  · have hT : 0 < (sumsOf l).t := by
      rw [← TplFit.weight_sums]
      exact TplFit.weight_pos he hx
    set q := sumsOf l with hq
    have hcc : c = ⟨q.s - 2 * q.cross * (if q.cross / q.t / sq (1 / q.t) < thr then 0 else q.cross / q.t) +
        q.t * (if q.cross / q.t / sq (1 / q.t) < thr then 0 else q.cross / q.t) * (if q.cross / q.t / sq (1 / q.t) < thr then 0 else q.cross / q.t),
        (if q.cross / q.t / sq (1 / q.t) < thr then 0 else q.cross / q.t), sq (1 / q.t), q.cross / q.t / sq (1 / q.t), q.cross, q.t⟩ := by
      show cellV sq thr q.s q.cross q.t = _
      unfold cellV
      rw [if_neg hT.ne']
    have hi : 0 < 1 / q.t := by positivity
    have herr := hsq.pos hi
    have herr2 := (hsq _ hi.le).2
    have hsig : q.cross / q.t / sq (1 / q.t) * sq (1 / q.t) = q.cross / q.t := by field_simp
    have hw : weight l = q.t := TplFit.weight_sums l
    rw [hcc]
    refine ⟨fun h => ?_, fun _ a => ?_, fun _ a h => ?_, fun _ => ⟨herr, ?_⟩, fun _ => ⟨?_, ?_⟩, ?_⟩
    · obtain ⟨s, hs, hne⟩ := hx
      exact absurd (h s hs) hne
    · show TplFit.chi2 l (q.cross / q.t / sq (1 / q.t) * sq (1 / q.t)) ≤ _
      rw [hsig, hc, hc]
      have : q.s + q.t * a * a - 2 * a * q.cross - (q.s + q.t * (q.cross / q.t) * (q.cross / q.t) - 2 * (q.cross / q.t) * q.cross) =
          q.t * (a - q.cross / q.t) ^ 2 := by
        field_simp
        ring
      have h2 : 0 ≤ q.t * (a - q.cross / q.t) ^ 2 := by positivity
      linarith
    · show a = q.cross / q.t / sq (1 / q.t) * sq (1 / q.t)
      change TplFit.chi2 l a = TplFit.chi2 l (q.cross / q.t / sq (1 / q.t) * sq (1 / q.t)) at h
      rw [hsig] at h ⊢
      rw [hc, hc] at h
      have : q.s + q.t * a * a - 2 * a * q.cross - (q.s + q.t * (q.cross / q.t) * (q.cross / q.t) - 2 * (q.cross / q.t) * q.cross) =
          q.t * (a - q.cross / q.t) ^ 2 := by
        field_simp
        ring
      have h2 : q.t * (a - q.cross / q.t) ^ 2 = 0 := by rw [← this, h]; ring
      have h3 : (a - q.cross / q.t) ^ 2 = 0 := by
        rcases mul_eq_zero.1 h2 with h | h
        · exact absurd h hT.ne'
        · exact h
      have := pow_eq_zero_iff (two_ne_zero) |>.1 h3
      linarith
    · rw [hw, pow_two, herr2]
      field_simp
    · show (if _ then _ else _) = _
      rw [hsig]
    · show snrOf sq _ = q.cross / q.t / sq (1 / q.t)
      unfold snrOf
      rw [if_pos hT]
      show q.cross / sq q.t = _
      have h1 := hsq.pos hT
      have h2 := (hsq _ hT.le).2
      have h3 : sq q.t * sq (1 / q.t) = 1 := by
        have h4 : (sq q.t * sq (1 / q.t)) ^ 2 = 1 := by
          rw [pow_two]
          calc sq q.t * sq (1 / q.t) * (sq q.t * sq (1 / q.t)) = (sq q.t * sq q.t) * (sq (1 / q.t) * sq (1 / q.t)) := by ring
            _ = 1 := by rw [h2, herr2]; field_simp
        have h5 : 0 < sq q.t * sq (1 / q.t) := by positivity
        have h6 : (sq q.t * sq (1 / q.t) - 1) * (sq q.t * sq (1 / q.t) + 1) = 0 := by
          linear_combination h4
        rcases mul_eq_zero.1 h6 with h | h
        · linarith
        · linarith
      have h7 : q.t = sq q.t * sq q.t := h2.symm
      rw [div_div, div_eq_div_iff h1.ne' (by positivity)]
      have : q.t * sq (1 / q.t) = sq q.t := by
        calc q.t * sq (1 / q.t) = (sq q.t * sq q.t) * sq (1 / q.t) := by rw [h2]
          _ = sq q.t * (sq q.t * sq (1 / q.t)) := by ring
          _ = sq q.t := by rw [h3, mul_one]
      rw [this]
    · show _ = TplFit.chi2 l _
      rw [hc]
      show q.s - 2 * q.cross * _ + q.t * _ * _ = _
      ring
  · push Not at hx
    have hT : (sumsOf l).t = 0 := by
      unfold sumsOf
      apply List.sum_eq_zero
      intro v hv
      obtain ⟨s, hs, rfl⟩ := List.mem_map.1 hv
      rw [hx s hs]
      simp
    have hcc : c = ⟨(sumsOf l).s, 0, 0, 0, (sumsOf l).cross, (sumsOf l).t⟩ := by
      show cellV sq thr _ _ _ = _
      unfold cellV
      rw [if_pos hT]
    rw [hcc]
    refine ⟨fun _ => ⟨rfl, rfl, rfl, ?_⟩, fun ⟨s, hs, hne⟩ => absurd (hx s hs) hne, fun ⟨s, hs, hne⟩ => absurd (hx s hs) hne,
      fun ⟨s, hs, hne⟩ => absurd (hx s hs) hne, fun ⟨s, hs, hne⟩ => absurd (hx s hs) hne, ?_⟩
    · unfold snrOf
      rw [if_neg (by simp [hT])]
    · show (sumsOf l).s = TplFit.chi2 l 0
      rw [hc]
      ring

/-! ## Tables -/

/-- A table of `n` rows of `m` entries. -/
def Dims {α : Type} (n m : Nat) (tbl : List (List α)) : Prop := tbl.length = n ∧ ∀ row ∈ tbl, row.length = m

theorem setTbl_ok {α : Type} {n m : Nat} {tbl : List (List α)} (hd : Dims n m tbl) {a b : Nat} (ha : a < n) (hb : b < m) (v : α) :
    ∃ tbl', setTbl tbl a b v = .ok tbl' ∧ Dims n m tbl' ∧ get2 tbl' a b = some v ∧
      ∀ a' b' : Nat, (a' ≠ a ∨ b' ≠ b) → get2 tbl' a' b' = get2 tbl a' b' := by
  have hlt : a < tbl.length := by rw [hd.1]; exact ha
  have hr : (tbl[a]).length = m := hd.2 _ (List.getElem_mem hlt)
  have hok : setTbl tbl a b v = .ok (tbl.set a ((tbl[a]).set b v)) := by
    unfold setTbl
    rw [Res.at_of_lt hlt, Res.bind_ok, if_pos (by omega)]
  obtain ⟨e1, e2, e3, e4⟩ := TplFit.setTbl_spec hok
  exact ⟨_, hok, ⟨by rw [e1, hd.1], e2 m hd.2⟩, e3, e4⟩

theorem copyIgm_ok {n m : Nat} {tbl : List (List (Option K))} (hd : Dims n m tbl) {a : Nat} (ha : a < n) (v : Option K) (k : Nat)
    (hk : 1 + k ≤ m) :
    ∃ tbl', copyIgm tbl a v 1 k = .ok tbl' ∧ Dims n m tbl' ∧ (∀ b : Nat, 1 ≤ b → b < 1 + k → get2 tbl' a b = some v) ∧
      ∀ a' b' : Nat, (a' ≠ a ∨ b' < 1 ∨ 1 + k ≤ b') → get2 tbl' a' b' = get2 tbl a' b' := by
  unfold copyIgm
  have H := Res.foldN_inv (f := fun j tbl => setTbl tbl a j v)
    (fun j (t : List (List (Option K))) => Dims n m t ∧ (∀ b : Nat, 1 ≤ b → b < j → get2 t a b = some v) ∧
      ∀ a' b' : Nat, (a' ≠ a ∨ b' < 1 ∨ j ≤ b') → get2 t a' b' = get2 tbl a' b') k 1 tbl
    ⟨hd, fun b h1 h2 => by omega, fun _ _ _ => rfl⟩ (by
      intro i t h1 h2 ⟨g1, g2, g3⟩
      obtain ⟨t', e1, e2, e3, e4⟩ := setTbl_ok g1 ha (show i < m by omega) v
      refine ⟨t', e1, e2, ?_, ?_⟩
      · intro b hb1 hb2
        by_cases hb : b = i
        · rw [hb]; exact e3
        · rw [e4 a b (Or.inr hb)]; exact g2 b hb1 (by omega)
      · intro a' b' h
        rw [e4 a' b' (by omega)]
        exact g3 a' b' (by omega))
  obtain ⟨t', e1, e2, e3, e4⟩ := H
  exact ⟨t', e1, e2, e3, e4⟩

/-! ## Rows -/

/-- The configurations computed before the IGM index `kM` and the dust index `kE`. -/
def Done (nIsm kM kE a b : Nat) : Prop := a < nIsm ∧ (b < kM ∨ (b = kM ∧ a < kE))

/-- The row of one shift, given the cells `C a b` of its configurations, the E(B-V) value of a dust index and the IGM index reported
for an IGM index. -/
structure RowInv (sq : K → K) (nIsm nIgm : Nat) (over : Option Nat) (ev : Nat → K) (gi : Nat → Int) (C : Nat → Nat → Cell K) (kM kE : Nat)
    (r : Row K) : Prop where
  dims : Dims nIsm nIgm r.tbl
  tbl : ∀ a b : Nat, b < nIgm → (Done nIsm kM kE a b ∨ (over.isSome = true ∧ Done nIsm kM kE a 0)) →
    get2 r.tbl a b = some (some (if over.isSome = true then (C a 0).chi2 else (C a b).chi2))
  none : (∀ a b, ¬ Done nIsm kM kE a b) → r.best = none
  best : (∃ a b, Done nIsm kM kE a b) → ∃ a b, Done nIsm kM kE a b ∧
    r.best = some ⟨(C a b).chi2, (C a b).amp, (C a b).ampErr, (C a b).ampSigma, (C a b).dtm, (C a b).mtm, snrOf sq (C a b), ev a, gi b, 0⟩ ∧
    (∀ a' b', Done nIsm kM kE a' b' → (C a b).chi2 ≤ (C a' b').chi2) ∧
    (∀ a' b', Done nIsm kM kE a' b' → (b' < b ∨ (b' = b ∧ a' < a)) → (C a b).chi2 < (C a' b').chi2)

theorem done_succ {nIsm kM kE a b : Nat} (hE : kE < nIsm) : Done nIsm kM (kE + 1) a b ↔ Done nIsm kM kE a b ∨ (a = kE ∧ b = kM) := by
  unfold Done
  omega

theorem updRow_ok {sq : K → K} {nIsm nIgm : Nat} {over : Option Nat} {ev : Nat → K} {gi : Nat → Int} {C : Nat → Nat → Cell K} {kM kE : Nat}
    {r : Row K} (h : RowInv sq nIsm nIgm over ev gi C kM kE r) (hE : kE < nIsm) (hM : kM < nIgm)
    (ho : over = none ∨ (over = some nIgm ∧ kM = 0)) :
    ∃ r', updRow sq over (ev kE) (gi kM) kM kE (C kE kM) r = .ok r' ∧ RowInv sq nIsm nIgm over ev gi C kM (kE + 1) r' := by
  unfold updRow
  obtain ⟨t1, e1, d1, g1, u1⟩ := setTbl_ok h.dims hE hM (some (C kE kM).chi2)
  rw [e1, Res.bind_ok]
  -- the best fit
  have hbest : ∀ tb : List (List (Option K)), Dims nIsm nIgm tb →
      (∀ a b : Nat, b < nIgm → (Done nIsm kM (kE + 1) a b ∨ (over.isSome = true ∧ Done nIsm kM (kE + 1) a 0)) →
        get2 tb a b = some (some (if over.isSome = true then (C a 0).chi2 else (C a b).chi2))) →
      RowInv sq nIsm nIgm over ev gi C kM (kE + 1)
        ⟨if (match r.best with | none => true | some b => decide ((C kE kM).chi2 < b.chi2)) then
            some ⟨(C kE kM).chi2, (C kE kM).amp, (C kE kM).ampErr, (C kE kM).ampSigma, (C kE kM).dtm, (C kE kM).mtm, snrOf sq (C kE kM),
              ev kE, gi kM, 0⟩
          else r.best, tb⟩ := by
    intro tb hd ht
    refine ⟨hd, ht, fun hn => absurd ((done_succ hE).2 (Or.inr ⟨rfl, rfl⟩)) (hn kE kM), fun _ => ?_⟩
    by_cases hex : ∃ a b, Done nIsm kM kE a b
    · obtain ⟨a, b, hab, eb, hmin, hfirst⟩ := h.best hex
      rw [eb]
      by_cases hlt : (C kE kM).chi2 < (C a b).chi2
      · refine ⟨kE, kM, (done_succ hE).2 (Or.inr ⟨rfl, rfl⟩), ?_, ?_, ?_⟩
        · simp [hlt]
        · intro a' b' hd'
          rcases (done_succ hE).1 hd' with q | ⟨rfl, rfl⟩
          · exact le_trans hlt.le (hmin a' b' q)
          · exact le_rfl
        · intro a' b' hd' hbef
          rcases (done_succ hE).1 hd' with q | ⟨rfl, rfl⟩
          · exact lt_of_lt_of_le hlt (hmin a' b' q)
          · omega
      · refine ⟨a, b, (done_succ hE).2 (Or.inl hab), ?_, ?_, ?_⟩
        · simp [hlt]
        · intro a' b' hd'
          rcases (done_succ hE).1 hd' with q | ⟨rfl, rfl⟩
          · exact hmin a' b' q
          · exact not_lt.1 hlt
        · intro a' b' hd' hbef
          rcases (done_succ hE).1 hd' with q | ⟨rfl, rfl⟩
          · exact hfirst a' b' q hbef
          · unfold Done at hab
            omega
    · push Not at hex
      rw [h.none hex]
      refine ⟨kE, kM, (done_succ hE).2 (Or.inr ⟨rfl, rfl⟩), by simp, ?_, ?_⟩
      · intro a' b' hd'
        rcases (done_succ hE).1 hd' with q | ⟨rfl, rfl⟩
        · exact absurd q (hex _ _)
        · exact le_rfl
      · intro a' b' hd' hbef
        rcases (done_succ hE).1 hd' with q | ⟨rfl, rfl⟩
        · exact absurd q (hex _ _)
        · omega
  rcases ho with ho | ⟨ho, hk0⟩
  · subst ho
    simp only []
    rw [Res.bind_ok]
    refine ⟨_, rfl, hbest t1 d1 ?_⟩
    intro a b hb hd
    simp only [Option.isSome_none, Bool.false_eq_true, false_and, or_false, if_false] at hd ⊢
    rcases (done_succ hE).1 hd with q | ⟨rfl, rfl⟩
    · have hne : a ≠ kE ∨ b ≠ kM := by unfold Done at q; omega
      rw [u1 a b hne]
      have := h.tbl a b hb (Or.inl q)
      simpa using this
    · exact g1
  · subst ho
    subst hk0
    simp only [if_true]
    obtain ⟨t2, e2, d2, g2, u2⟩ := copyIgm_ok d1 hE (some (C kE 0).chi2) (nIgm - 1) (by omega)
    rw [e2, Res.bind_ok]
    refine ⟨_, rfl, hbest t2 d2 ?_⟩
    intro a b hb hd
    simp only [Option.isSome_some, true_and, if_true] at hd ⊢
    have hd0 : Done nIsm 0 (kE + 1) a 0 := by
      rcases hd with q | q
      · unfold Done at q ⊢; omega
      · exact q
    rcases (done_succ hE).1 hd0 with q | ⟨rfl, -⟩
    · have hne : a ≠ kE := by unfold Done at q; omega
      rw [u2 a b (Or.inl hne), u1 a b (Or.inl hne)]
      have := h.tbl a b hb (Or.inr ⟨rfl, q⟩)
      simpa using this
    · by_cases hb0 : b = 0
      · subst hb0
        rw [u2 _ 0 (Or.inr (Or.inl (by omega)))]
        exact g1
      · exact g2 b (by omega) (by omega)

/-- All the rows, from the shift `off`. -/
def RowsInv (sq : K → K) (nIsm nIgm : Nat) (over : Option Nat) (ev : Nat → K) (gi : Nat → Int) (C : Nat → Nat → Nat → Cell K) (kM kE off : Nat)
    (rs : List (Row K)) : Prop :=
  ∀ (k : Nat) (r : Row K), rs[k]? = some r → RowInv sq nIsm nIgm over ev gi (C (off + k)) kM kE r

theorem updRows_ok {sq : K → K} {nIsm nIgm : Nat} {over : Option Nat} {ev : Nat → K} {gi : Nat → Int} {C : Nat → Nat → Nat → Cell K}
    {kM kE : Nat} (hE : kE < nIsm) (hM : kM < nIgm) (ho : over = none ∨ (over = some nIgm ∧ kM = 0)) :
    ∀ (cs : List (Cell K)) (rs : List (Row K)) (off : Nat), RowsInv sq nIsm nIgm over ev gi C kM kE off rs → cs.length = rs.length →
      (∀ (k : Nat) (c : Cell K), cs[k]? = some c → c = C (off + k) kE kM) →
      ∃ rs', updRows sq over (ev kE) (gi kM) kM kE cs rs = .ok rs' ∧ rs'.length = rs.length ∧
        RowsInv sq nIsm nIgm over ev gi C kM (kE + 1) off rs'
  | [], [], off, h, _, _ => ⟨[], rfl, rfl, fun k r hr => by simp at hr⟩
  | [], _ :: _, _, _, hl, _ => by simp at hl
  | _ :: _, [], _, _, hl, _ => by simp at hl
  | c :: cs, r :: rs, off, h, hl, hc => by
    have hc0 : c = C off kE kM := by simpa using hc 0 c rfl
    have hr0 : RowInv sq nIsm nIgm over ev gi (C off) kM kE r := by simpa using h 0 r rfl
    obtain ⟨r', e1, i1⟩ := updRow_ok hr0 hE hM ho
    obtain ⟨rs', e2, l2, i2⟩ := updRows_ok hE hM ho cs rs (off + 1)
      (fun k r hr => by rw [show off + 1 + k = off + (k + 1) by omega]; exact h (k + 1) r (by simpa using hr))
      (by simpa using hl)
      (fun k c hk => by rw [show off + 1 + k = off + (k + 1) by omega]; exact hc (k + 1) c (by simpa using hk))
    refine ⟨r' :: rs', ?_, by simp [l2], ?_⟩
    · unfold updRows
      rw [hc0, e1, Res.bind_ok, e2, Res.bind_ok]
    · intro k q hq
      cases k with
      | zero =>
        simp only [List.getElem?_cons_zero, Option.some.injEq] at hq
        subst hq
        simpa using i1
      | succ k =>
        rw [show off + (k + 1) = off + 1 + k by omega]
        exact i2 k q (by simpa using hq)

end TplLog
end Amazed
