import Verif.Model.Merit
import Verif.Props.SpectralAxisProps
import Verif.Props.RangeProps
import Verif.Props.EltListProps
import Mathlib.Tactic.Linarith
import Mathlib.Tactic.Ring
import Mathlib.Tactic.FieldSimp

set_option linter.unusedVariables false
set_option linter.unusedSectionVars false

/-! # Merits of the line model (C84) -/

namespace Amazed
namespace Merit
open EltList

variable {K : Type} [Field K] [LinearOrder K] [IsStrictOrderedRing K]

/-- The spectrum is well formed: increasing nonempty axis, one value per sample on each axis, positive errors. -/
structure WF (o : Obs K) : Prop where
  inc : SAxis.Increasing o.axis
  ne : o.axis ≠ []
  spc : o.spc.length = o.axis.length
  noCont : o.noCont.length = o.axis.length
  cont : o.cont.length = o.axis.length
  model : o.model.length = o.axis.length
  err : o.err.length = o.axis.length
  pos : ∀ e ∈ o.err, 0 < e

/-- Sample `p` counts in the merits: its wavelength is in the range without its end, and it is not the last sample of the spectrum. -/
def Used (o : Obs K) (p : Nat) : Prop := ∃ x, o.axis[p]? = some x ∧ o.range.b ≤ x ∧ x < o.range.e ∧ p + 1 ≠ o.axis.length

/-- The samples that count, in order. -/
def Samples (o : Obs K) (ps : List Nat) : Prop := ps.Pairwise (· < ·) ∧ ∀ p, p ∈ ps ↔ Used o p

theorem samples_unique {o : Obs K} {ps ps' : List Nat} (h : Samples o ps) (h' : Samples o ps') : ps = ps' := by
  have aux : ∀ (a b : List Nat), a.Pairwise (· < ·) → b.Pairwise (· < ·) → (∀ p, p ∈ a ↔ p ∈ b) → a = b := by
    intro a
    induction a with
    | nil =>
      intro b _ _ hab
      cases b with
      | nil => rfl
      | cons x b => exact absurd ((hab x).2 (by simp)) (by simp)
    | cons x a ih =>
      intro b ha hb hab
      cases b with
      | nil => exact absurd ((hab x).1 (by simp)) (by simp)
      | cons y b =>
        rw [List.pairwise_cons] at ha hb
        have hxy : x = y := by
          rcases List.mem_cons.1 ((hab x).1 (by simp)) with h | h
          · exact h
          · rcases List.mem_cons.1 ((hab y).2 (by simp)) with h2 | h2
            · exact h2.symm
            · have := ha.1 y h2
              have := hb.1 x h
              omega
        subst hxy
        congr 1
        apply ih b ha.2 hb.2
        intro p
        constructor
        · intro hp
          rcases List.mem_cons.1 ((hab p).1 (by simp [hp])) with h | h
          · have := ha.1 p hp; omega
          · exact h
        · intro hp
          rcases List.mem_cons.1 ((hab p).2 (by simp [hp])) with h | h
          · have := hb.1 p hp; omega
          · exact h
  exact aux ps ps' h.1 h'.1 fun p => by rw [h.2, h'.2]

/-- The window of indexes holds exactly the samples that count. -/
theorem window (o : Obs K) (hw : WF o) : ∃ imin imax, SAxis.indexAt o.axis o.range.b = .ok imin ∧ SAxis.indexAt o.axis o.range.e = .ok imax ∧
    imin < o.axis.length ∧ imax < o.axis.length ∧ Samples o (List.range' imin (imax - imin)) := by
  obtain ⟨i, hi, h1, h2, h3⟩ := SAxis.C36_indexAt o.axis hw.inc hw.ne o.range.b
  obtain ⟨j, hj, h4, h5, h6⟩ := SAxis.C36_indexAt o.axis hw.inc hw.ne o.range.e
  refine ⟨i, j, h1, h4, hi, hj, ?_, ?_⟩
  · exact List.pairwise_lt_range' 1
  · intro p
    rw [List.mem_range'_1]
    have hmono : ∀ (a b : Nat) (ha : a < o.axis.length) (hb : b < o.axis.length), a < b → o.axis[a] < o.axis[b] :=
      fun a b ha hb h => List.pairwise_iff_getElem.1 hw.inc a b ha hb h
    constructor
    · rintro ⟨g1, g2⟩
      have hp : p < o.axis.length := by omega
      refine ⟨o.axis[p], List.getElem?_eq_getElem hp, ?_, h5 p hp (by omega), by omega⟩
      rcases h3 with h3 | ⟨h3, _⟩
      · rcases Nat.lt_or_ge i p with h | h
        · exact h3.trans (hmono i p hi hp h).le
        · have : i = p := by omega
          subst this
          exact h3
      · omega
    · rintro ⟨x, hx, hb, he, hl⟩
      obtain ⟨hp, rfl⟩ := List.getElem?_eq_some_iff.1 hx
      have g1 : i ≤ p := by
        by_contra hc
        exact absurd (h2 p hp (by omega)) (not_lt.2 hb)
      refine ⟨g1, ?_⟩
      have : p < j := by
        by_contra hc
        rcases h6 with h6 | ⟨h6, _⟩
        · rcases Nat.lt_or_ge j p with h | h
          · exact absurd (he.trans_le h6) (not_lt.2 (hmono j p hj hp h).le)
          · have : j = p := by omega
            subst this
            exact absurd he (not_lt.2 h6)
        · omega
      omega

/-- The sum of the squares over the errors of the samples `ps`. -/
def chi (d : Nat → K) (err : List K) (ps : List Nat) : K := (ps.map fun p => d p ^ 2 / err.getD p 0 ^ 2).sum

theorem sumSq_spec (d : Obs K → Nat → Res K) (f : Nat → K) (o : Obs K) (hw : WF o) (hd : ∀ p, p < o.axis.length → d o p = .ok (f p)) (s : K) (ps : List Nat) (hps : Samples o ps) :
    sumSq d o s = .ok (s + chi f o.err ps) := by
  obtain ⟨i, j, h1, h2, h3, h4, h5⟩ := window o hw
  rw [← samples_unique h5 hps]
  unfold sumSq
  rw [h1, Res.bind_ok, h2, Res.bind_ok]
  clear h1 h2 h5 hps
  have key : ∀ (n k : Nat) (s : K), k + n ≤ o.axis.length →
      Res.foldN (fun j s => d o j >>= fun x => Res.at_ o.err j >>= fun e => if e = 0 then .ub else .ok (s + x * x / (e * e))) k n s = .ok (s + chi f o.err (List.range' k n)) := by
    intro n
    induction n with
    | zero => intro k s _; simp [Res.foldN, chi]
    | succ n ih =>
      intro k s hk
      have hkl : k < o.err.length := by rw [hw.err]; omega
      unfold Res.foldN
      rw [hd k (by omega), Res.bind_ok, Res.at_of_lt hkl, Res.bind_ok, if_neg (hw.pos _ (List.getElem_mem _)).ne', Res.bind_ok, ih (k + 1) _ (by omega)]
      unfold chi
      rw [List.range'_succ, List.map_cons, List.sum_cons, List.getD_eq_getElem?_getD, List.getElem?_eq_getElem hkl, Option.getD_some]
      congr 1
      ring
  rcases Nat.le_total i j with h | h
  · exact key (j - i) i s (by omega)
  · rw [show j - i = 0 by omega]; exact key 0 i s (by omega)

theorem overSpectra_spec (d : Obs K → Nat → Res K) (f : Obs K → Nat → K) (S : Obs K → List Nat) (os : List (Obs K)) (hw : ∀ o ∈ os, WF o)
    (hd : ∀ o ∈ os, ∀ p, p < o.axis.length → d o p = .ok (f o p)) (hS : ∀ o ∈ os, Samples o (S o)) :
    overSpectra (sumSq d) os = .ok (os.map fun o => chi (f o) o.err (S o)).sum := by
  unfold overSpectra
  have key : ∀ (l : List (Obs K)) (s : K), (∀ o ∈ l, o ∈ os) → foldL (sumSq d) l s = .ok (s + (l.map fun o => chi (f o) o.err (S o)).sum) := by
    intro l
    induction l with
    | nil => intro s _; simp [foldL]
    | cons o l ih =>
      intro s hl
      have ho := hl o (by simp)
      unfold foldL
      rw [sumSq_spec d (f o) o (hw o ho) (hd o ho) s (S o) (hS o ho), Res.bind_ok, ih _ fun q hq => hl q (by simp [hq])]
      simp [add_assoc]
  rw [key os 0 fun o h => h, zero_add]

theorem diff_ok (a b : Obs K → List K) (o : Obs K) (ha : (a o).length = o.axis.length) (hb : (b o).length = o.axis.length) (p : Nat) (hp : p < o.axis.length) :
    diff a b o p = .ok ((a o).getD p 0 - (b o).getD p 0) := by
  unfold diff
  have h1 : p < (a o).length := by omega
  have h2 : p < (b o).length := by omega
  rw [Res.at_of_lt h1, Res.bind_ok, Res.at_of_lt h2, Res.bind_ok]
  simp only [List.getD_eq_getElem?_getD, List.getElem?_eq_getElem h1, List.getElem?_eq_getElem h2, Option.getD_some]

theorem at_ok (a : List K) (n : Nat) (ha : a.length = n) (p : Nat) (hp : p < n) : Res.at_ a p = .ok (a.getD p 0) := by
  have h1 : p < a.length := by omega
  rw [Res.at_of_lt h1, List.getD_eq_getElem?_getD, List.getElem?_eq_getElem h1, Option.getD_some]

/-- **C84, merits.** The merits are sums over the spectra and over the samples of the range but its end and the last sample of the spectrum: the least square merit and the one
of the continuum of the squared differences to the model and to the continuum, the terms dtd and mtm of the squared fluxes, each over the squared error. -/
theorem C84_merits (os : List (Obs K)) (hw : ∀ o ∈ os, WF o) (S : Obs K → List Nat) (hS : ∀ o ∈ os, Samples o (S o)) (fitSum prior : K) :
    leastSquare fitSum os = .ok ((os.map fun o => chi (fun p => o.spc.getD p 0 - o.model.getD p 0) o.err (S o)).sum + fitSum) ∧
    contMerit prior os = .ok ((os.map fun o => chi (fun p => o.spc.getD p 0 - o.cont.getD p 0) o.err (S o)).sum + prior) ∧
    dtd true os = .ok (os.map fun o => chi (fun p => o.spc.getD p 0) o.err (S o)).sum ∧
    dtd false os = .ok (os.map fun o => chi (fun p => o.noCont.getD p 0) o.err (S o)).sum ∧
    mtm os = .ok (os.map fun o => chi (fun p => o.model.getD p 0) o.err (S o)).sum := by
  refine ⟨?_, ?_, ?_, ?_, ?_⟩
  · unfold leastSquare
    rw [overSpectra_spec _ (fun o p => o.spc.getD p 0 - o.model.getD p 0) S os hw (fun o ho => diff_ok _ _ o (hw o ho).spc (hw o ho).model) hS, Res.bind_ok]
  · unfold contMerit
    rw [overSpectra_spec _ (fun o p => o.spc.getD p 0 - o.cont.getD p 0) S os hw (fun o ho => diff_ok _ _ o (hw o ho).spc (hw o ho).cont) hS, Res.bind_ok]
  · exact overSpectra_spec _ (fun o p => o.spc.getD p 0) S os hw (fun o ho p hp => by simpa using at_ok o.spc _ (hw o ho).spc p hp) hS
  · exact overSpectra_spec _ (fun o p => o.noCont.getD p 0) S os hw (fun o ho p hp => by simpa using at_ok o.noCont _ (hw o ho).noCont p hp) hS
  · exact overSpectra_spec _ (fun o p => o.model.getD p 0) S os hw (fun o ho p hp => at_ok o.model _ (hw o ho).model p hp) hS

/-- The samples that count exist for every well formed spectrum. -/
theorem C84_samples_exist (o : Obs K) (hw : WF o) : ∃ ps, Samples o ps := by
  obtain ⟨i, j, _, _, _, _, h⟩ := window o hw
  exact ⟨_, h⟩

/-- **C84, expansion.** The least square merit is dtd of the raw flux minus twice the cross term plus mtm: the fast evaluation of the merit by these terms is exact. -/
theorem C84_expansion (os : List (Obs K)) (hw : ∀ o ∈ os, WF o) (S : Obs K → List Nat) (hS : ∀ o ∈ os, Samples o (S o)) :
    ∃ m d t, leastSquare 0 os = .ok m ∧ dtd true os = .ok d ∧ mtm os = .ok t ∧
      m = d - 2 * (os.map fun o => ((S o).map fun p => o.spc.getD p 0 * o.model.getD p 0 / o.err.getD p 0 ^ 2).sum).sum + t := by
  obtain ⟨h1, h2, h3, h4, h5⟩ := C84_merits os hw S hS 0 0
  refine ⟨_, _, _, h1, h3, h5, ?_⟩
  clear h1 h2 h3 h4 h5 hw hS
  have hin : ∀ (o : Obs K) (l : List Nat), chi (fun p => o.spc.getD p 0 - o.model.getD p 0) o.err l =
      chi (fun p => o.spc.getD p 0) o.err l - 2 * (l.map fun p => o.spc.getD p 0 * o.model.getD p 0 / o.err.getD p 0 ^ 2).sum + chi (fun p => o.model.getD p 0) o.err l := by
    intro o l
    unfold chi
    induction l with
    | nil => simp
    | cons p l ih =>
      simp only [List.map_cons, List.sum_cons]
      rw [ih]
      ring
  rw [add_zero]
  induction os with
  | nil => simp
  | cons o os ih =>
    simp only [List.map_cons, List.sum_cons]
    rw [ih, hin]
    ring

theorem chi_nonneg (d : Nat → K) (err : List K) (ps : List Nat) : 0 ≤ chi d err ps := by
  unfold chi
  apply List.sum_nonneg
  intro x hx
  obtain ⟨p, _, rfl⟩ := List.mem_map.1 hx
  exact div_nonneg (sq_nonneg _) (sq_nonneg _)

theorem chi_zero (d : Nat → K) (err : List K) (ps : List Nat) (he : ∀ p ∈ ps, 0 < err.getD p 0) : chi d err ps = 0 ↔ ∀ p ∈ ps, d p = 0 := by
  induction ps with
  | nil => simp [chi]
  | cons p ps ih =>
    have h1 : chi d err (p :: ps) = d p ^ 2 / err.getD p 0 ^ 2 + chi d err ps := by unfold chi; simp
    have h2 := chi_nonneg d err ps
    have hp := he p (by simp)
    have h3 : 0 ≤ d p ^ 2 / err.getD p 0 ^ 2 := div_nonneg (sq_nonneg _) (sq_nonneg _)
    rw [h1]
    constructor
    · intro h
      have h4 : d p ^ 2 / err.getD p 0 ^ 2 = 0 := by linarith
      have h5 : chi d err ps = 0 := by linarith
      intro q hq
      rcases List.mem_cons.1 hq with rfl | hq
      · rcases div_eq_zero_iff.1 h4 with h | h
        · exact pow_eq_zero_iff (two_ne_zero) |>.1 h
        · exact absurd (pow_eq_zero_iff (two_ne_zero) |>.1 h) hp.ne'
      · exact (ih fun q hq => he q (by simp [hq])).1 h5 q hq
    · intro h
      rw [h p (by simp), (ih fun q hq => he q (by simp [hq])).2 fun q hq => h q (by simp [hq])]
      simp

theorem used_lt {o : Obs K} {p : Nat} (h : Used o p) : p < o.axis.length := by
  obtain ⟨x, hx, _⟩ := h
  exact (List.getElem?_eq_some_iff.1 hx).1

/-- **C84, sign.** The least square merit (without the sum of the continuum manager) is at least 0, and it is 0 exactly when the model is the spectrum at the samples that count. -/
theorem C84_least_square_zero (os : List (Obs K)) (hw : ∀ o ∈ os, WF o) :
    ∃ m, leastSquare 0 os = .ok m ∧ 0 ≤ m ∧ (m = 0 ↔ ∀ o ∈ os, ∀ p, Used o p → o.spc[p]? = o.model[p]?) := by
  classical
  let S : Obs K → List Nat := fun o => if h : WF o then (C84_samples_exist o h).choose else []
  have hS : ∀ o ∈ os, Samples o (S o) := by
    intro o ho
    simp only [S, dif_pos (hw o ho)]
    exact (C84_samples_exist o (hw o ho)).choose_spec
  obtain ⟨h1, _⟩ := C84_merits os hw S hS 0 0
  refine ⟨_, h1, ?_, ?_⟩
  · rw [add_zero]
    apply List.sum_nonneg
    intro x hx
    obtain ⟨o, _, rfl⟩ := List.mem_map.1 hx
    exact chi_nonneg _ _ _
  · rw [add_zero]
    clear h1
    have hone : ∀ o ∈ os, (chi (fun p => o.spc.getD p 0 - o.model.getD p 0) o.err (S o) = 0 ↔ ∀ p, Used o p → o.spc[p]? = o.model[p]?) := by
      intro o ho
      have hl : ∀ p, Used o p → p < o.spc.length ∧ p < o.model.length ∧ p < o.err.length := fun p hp =>
        ⟨by rw [(hw o ho).spc]; exact used_lt hp, by rw [(hw o ho).model]; exact used_lt hp, by rw [(hw o ho).err]; exact used_lt hp⟩
      rw [chi_zero _ _ _ (by
        intro p hp
        obtain ⟨_, _, h⟩ := hl p (((hS o ho).2 p).1 hp)
        rw [List.getD_eq_getElem?_getD, List.getElem?_eq_getElem h, Option.getD_some]
        exact (hw o ho).pos _ (List.getElem_mem _))]
      constructor
      · intro h p hp
        obtain ⟨a, b, _⟩ := hl p hp
        have := h p (((hS o ho).2 p).2 hp)
        simp only [List.getD_eq_getElem?_getD, List.getElem?_eq_getElem a, List.getElem?_eq_getElem b, Option.getD_some] at this
        rw [List.getElem?_eq_getElem a, List.getElem?_eq_getElem b, sub_eq_zero.1 this]
      · intro h p hp
        have := h p (((hS o ho).2 p).1 hp)
        simp only [List.getD_eq_getElem?_getD, this, sub_self]
    have hsum : ∀ (l : List (Obs K)) (g : Obs K → K), (∀ o, 0 ≤ g o) → ((l.map g).sum = 0 ↔ ∀ o ∈ l, g o = 0) := by
      intro l g hg
      induction l with
      | nil => simp
      | cons o l ih =>
        have h0 : 0 ≤ (l.map g).sum := List.sum_nonneg (by
          intro x hx
          obtain ⟨q, _, rfl⟩ := List.mem_map.1 hx
          exact hg q)
        have h1 := hg o
        rw [List.map_cons, List.sum_cons]
        constructor
        · intro h q hq
          rcases List.mem_cons.1 hq with rfl | hq
          · linarith
          · exact ih.1 (by linarith) q hq
        · intro h
          rw [h o (by simp), ih.2 fun q hq => h q (by simp [hq]), add_zero]
    rw [hsum os _ fun o => chi_nonneg _ _ _]
    exact ⟨fun h o ho => (hone o ho).1 (h o ho), fun h o ho => (hone o ho).2 (h o ho)⟩

/-- **C84, number of samples.** For ranges whose end is not before their begin, the number of samples is that of the samples that count in the merits. -/
theorem C84_n_samples (os : List (Obs K)) (hw : ∀ o ∈ os, WF o) (hr : ∀ o ∈ os, o.range.b ≤ o.range.e) (S : Obs K → List Nat) (hS : ∀ o ∈ os, Samples o (S o)) :
    nSamples os = .ok (os.map fun o => (S o).length).sum := by
  unfold nSamples
  have key : ∀ (l : List (Obs K)) (n : Nat), (∀ o ∈ l, o ∈ os) →
      foldL (fun (o : Obs K) n => SAxis.indexAt o.axis o.range.b >>= fun imin => SAxis.indexAt o.axis o.range.e >>= fun imax =>
        .ok (n + ((imax : ℤ) - imin).natAbs)) l n = .ok (n + (l.map fun o => (S o).length).sum) := by
    intro l
    induction l with
    | nil => intro n _; simp [foldL]
    | cons o l ih =>
      intro n hl
      have ho := hl o (by simp)
      obtain ⟨i, j, h1, h2, h3, h4, h5⟩ := window o (hw o ho)
      have hij : i ≤ j := by
        obtain ⟨a, b, g1, g2, _⟩ := SAxis.C36_indexesAt o.axis (hw o ho).inc (hw o ho).ne o.range (hr o ho)
        unfold SAxis.indexesAt at g1
        rw [h1, Res.bind_ok, h2, Res.bind_ok] at g1
        cases g1
        exact g2
      unfold foldL
      rw [h1, Res.bind_ok, h2, Res.bind_ok, Res.bind_ok, ih _ fun q hq => hl q (by simp [hq])]
      congr 1
      simp only [List.map_cons, List.sum_cons]
      rw [← samples_unique h5 (hS o ho), List.length_range']
      omega
  rw [key os 0 fun o h => h, zero_add]

/-- **C84, constant of the likelihood.** It sums, over the spectra, minus the number of samples of the closed range times `c` minus the logarithms of their errors; a spectrum with
no sample in its range makes it throw. -/
theorem C84_constant (lg : K → K) (c : K) (os : List (Obs K)) (hw : ∀ o ∈ os, WF o) (hr : ∀ o ∈ os, ∃ x ∈ o.axis, o.range.b ≤ x ∧ x ≤ o.range.e) :
    ∃ C : Obs K → List Nat, (∀ o ∈ os, (C o).Pairwise (· < ·) ∧ ∀ p, p ∈ C o ↔ ∃ x, o.axis[p]? = some x ∧ o.range.b ≤ x ∧ x ≤ o.range.e) ∧
      cstLog lg c os = .ok (os.map fun o => -((C o).length : K) * c - ((C o).map fun p => lg (o.err.getD p 0)).sum).sum := by
  classical
  have hone : ∀ o ∈ os, ∃ i j, Range.closedIdx o.range o.axis = .ok (i, j) ∧ i ≤ j ∧ j < o.axis.length ∧
      ∀ p, p ∈ List.range' i (j - i + 1) ↔ ∃ x, o.axis[p]? = some x ∧ o.range.b ≤ x ∧ x ≤ o.range.e := by
    intro o ho
    obtain ⟨h1, h2, _⟩ := C03_closed o.range o.axis (hw o ho).inc
    obtain ⟨⟨i, j⟩, hij⟩ := h2.2 (by
      obtain ⟨x, hx, h⟩ := hr o ho
      exact ⟨x, hx, h⟩)
    obtain ⟨g1, g2, g3⟩ := h1 i j hij
    refine ⟨i, j, hij, g1, g2, fun p => ?_⟩
    rw [List.mem_range'_1]
    constructor
    · rintro ⟨a, b⟩
      have hp : p < o.axis.length := by omega
      exact ⟨_, List.getElem?_eq_getElem hp, (g3 p hp).1 ⟨a, by omega⟩⟩
    · rintro ⟨x, hx, hm⟩
      obtain ⟨hp, rfl⟩ := List.getElem?_eq_some_iff.1 hx
      have := (g3 p hp).2 hm
      omega
  choose! I J hI using hone
  refine ⟨fun o => List.range' (I o) (J o - I o + 1), fun o ho => ⟨List.pairwise_lt_range' 1, (hI o ho).2.2.2⟩, ?_⟩
  unfold cstLog
  have key : ∀ (l : List (Obs K)) (s : K), (∀ o ∈ l, o ∈ os) →
      foldL (fun (o : Obs K) s => Range.closedIdx o.range o.axis >>= fun r =>
        Res.foldN (fun j t => Res.at_ o.err j >>= fun e => if e ≤ 0 then .ub else .ok (t + lg e)) r.1 (r.2 - r.1 + 1) 0 >>= fun sumLog =>
        .ok (s + (-((r.2 - r.1 + 1 : Nat) : K) * c - sumLog))) l s =
      .ok (s + (l.map fun o => -((List.range' (I o) (J o - I o + 1)).length : K) * c - ((List.range' (I o) (J o - I o + 1)).map fun p => lg (o.err.getD p 0)).sum).sum) := by
    intro l
    induction l with
    | nil => intro s _; simp [foldL]
    | cons o l ih =>
      intro s hl
      have ho := hl o (by simp)
      obtain ⟨g1, g2, g3, _⟩ := hI o ho
      have hin : ∀ (n k : Nat) (t : K), k + n ≤ o.axis.length → Res.foldN (fun j t => Res.at_ o.err j >>= fun e => if e ≤ 0 then .ub else .ok (t + lg e)) k n t =
          .ok (t + ((List.range' k n).map fun p => lg (o.err.getD p 0)).sum) := by
        intro n
        induction n with
        | zero => intro k t _; simp [Res.foldN]
        | succ n ih2 =>
          intro k t hk
          have hkl : k < o.err.length := by rw [(hw o ho).err]; omega
          unfold Res.foldN
          rw [Res.at_of_lt hkl, Res.bind_ok, if_neg (not_le.2 ((hw o ho).pos _ (List.getElem_mem _))), Res.bind_ok, ih2 (k + 1) _ (by omega),
            List.range'_succ, List.map_cons, List.sum_cons, List.getD_eq_getElem?_getD, List.getElem?_eq_getElem hkl, Option.getD_some, add_assoc]
      unfold foldL
      rw [g1, Res.bind_ok]
      simp only
      rw [hin _ _ _ (by omega), Res.bind_ok, Res.bind_ok, ih _ fun q hq => hl q (by simp [hq])]
      congr 1
      simp only [List.map_cons, List.sum_cons, List.length_range', zero_add]
      ring
  rw [key os 0 fun o h => h, zero_add]

/-- **C84, samples of the merit and of the constant.** The samples of the merits are samples of the constant; the only sample of the constant that can miss in the merits is
the one at the end of the range, or the last of the spectrum. -/
theorem C84_samples (o : Obs K) (p : Nat) (x : K) (hx : o.axis[p]? = some x) :
    (Used o p → o.range.b ≤ x ∧ x ≤ o.range.e) ∧
    (o.range.b ≤ x ∧ x ≤ o.range.e → (¬ Used o p ↔ x = o.range.e ∨ p + 1 = o.axis.length)) := by
  constructor
  · rintro ⟨y, hy, h1, h2, _⟩
    rw [hx] at hy
    cases hy
    exact ⟨h1, h2.le⟩
  · rintro ⟨h1, h2⟩
    constructor
    · intro h
      by_contra hc
      push Not at hc
      exact h ⟨x, hx, h1, lt_of_le_of_ne h2 hc.1, hc.2⟩
    · rintro h ⟨y, hy, g1, g2, g3⟩
      rw [hx] at hy
      cases hy
      rcases h with h | h
      · exact absurd h g2.ne
      · exact g3 h

/-- A spectrum of four samples, the range is the whole spectrum, the model is wrong at the last sample only. -/
def exObs : Obs ℚ := ⟨[1, 2, 3, 4], ⟨1, 4⟩, [1, 1, 1, 9], [0, 0, 0, 8], [1, 1, 1, 1], [1, 1, 1, 1], [1, 1, 1, 1]⟩

theorem exObs_wf : WF exObs := ⟨by unfold SAxis.Increasing; decide +kernel, by decide, rfl, rfl, rfl, rfl, rfl, by decide +kernel⟩

example : Samples exObs [0, 1, 2] := by
  obtain ⟨i, j, h1, h2, _, _, h⟩ := window exObs exObs_wf
  have e1 : SAxis.indexAt exObs.axis exObs.range.b = .ok 0 := by decide +kernel
  have e2 : SAxis.indexAt exObs.axis exObs.range.e = .ok 3 := by decide +kernel
  rw [e1] at h1
  rw [e2] at h2
  cases h1
  cases h2
  exact h

/-- The merit ignores the last sample of the range, which the constant of the likelihood counts: the merit of a model wrong at that sample is 0, over 3 samples,
and the constant is that of 4 samples. -/
theorem C84_last_sample_counterexample : WF exObs ∧ exObs.range = ⟨1, 4⟩ ∧ exObs.axis[3]? = some 4 ∧ exObs.spc[3]? ≠ exObs.model[3]? ∧ leastSquare 0 [exObs] = .ok 0 ∧
    nSamples [exObs] = .ok 3 ∧ cstLog id 1 [exObs] = .ok (-4 - 4) := by
  exact ⟨exObs_wf, rfl, rfl, by decide +kernel, by decide +kernel, by decide +kernel, by decide +kernel⟩

/-- The terms dtd and the constant are computed once per wavelength range of the first spectrum: after the spectra change (another continuum component, another range for the second
spectrum) with the same first range the old values are returned. -/
theorem C84_stale_cache_counterexample : ∃ (os : List (Obs ℚ)) (c1 c2 : Cache ℚ) (d1 d2 : ℚ), initDtd id 1 false os = .ok c1 ∧ c1.dtd = d1 ∧
    cached id 1 true os c1 = .ok c2 ∧ c2.dtd = d1 ∧ dtd true os = .ok d2 ∧ d1 ≠ d2 := by
  exact ⟨[{ exObs with range := ⟨1, 3⟩ }], ⟨some ⟨1, 3⟩, 0, -6⟩, ⟨some ⟨1, 3⟩, 0, -6⟩, 0, 2, by decide +kernel, rfl, by decide +kernel, rfl, by decide +kernel, by decide⟩

end Merit
end Amazed
