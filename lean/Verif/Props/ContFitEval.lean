import Verif.Props.ContFitStore
import Verif.Props.SvdFitProps
import Verif.Props.IndexingProps

set_option linter.unusedSectionVars false
set_option linter.unusedVariables false

/-! # C110, C111, C113: negative continua, continua of the first pass fitted again, kind of operator -/

namespace Amazed
namespace ContFit

open FitStore (Sol Store Goes tie given Inv)

/-! ## C113: the operator -/

/-- A history of calls of `makeTFOperator`: pass and grid of each, from the operator `cur`. -/
def opers {K : Type} (o : Opts K) (cur : Option (Oper K)) : List (Option Nat × List K) → Option (Oper K)
  | [] => cur
  | c :: l => opers o (some (makeOper o c.1 c.2 cur)) l

/-- The useFft option of a pass: that of the first pass also when no pass is started. -/
def passFft {K : Type} (o : Opts K) (pass : Option Nat) : Bool := if pass = none ∨ pass = some 1 then o.fft1 else o.fft2

theorem fftActive_eq {K : Type} (o : Opts K) (pass : Option Nat) (n : Nat) : fftActive o pass n = true ↔ passFft o pass = true ∧ 100 ≤ n := by
  unfold fftActive passFft
  generalize (if pass = none ∨ pass = some 1 then o.fft1 else o.fft2) = f
  cases f <;> simp

/-- **C113.** After any history of calls the operator used is the one for the last call: the FFT operator exactly when the option of its pass asks for it and there are at least 100 redshifts, else the
direct operator, with photometry exactly when asked. The operator of the previous call is kept when it is of this kind, and built for the redshifts of the call if not. -/
theorem C113_operator {K : Type} (o : Opts K) (l : List (Option Nat × List K)) (pass : Option Nat) (grid : List K) :
    ∃ op, opers o none (l ++ [(pass, grid)]) = some op ∧ (op.fft = true ↔ passFft o pass = true ∧ 100 ≤ grid.length) ∧
      (op.phot = true ↔ o.phot = true ∧ op.fft = false) ∧
      (∀ prev, opers o none l = some prev → (prev.fft = op.fft → op = prev) ∧ (prev.fft ≠ op.fft → op.built = grid)) ∧
      (opers o none l = none → op.built = grid) := by
  have app : ∀ (l : List (Option Nat × List K)) cur c, opers o cur (l ++ [c]) = some (makeOper o c.1 c.2 (opers o cur l)) := by
    intro l
    induction l with
    | nil => intro cur c; rfl
    | cons a l ih => intro cur c; exact ih _ c
  have inv : ∀ (l : List (Option Nat × List K)) cur, (∀ op, cur = some op → (op.phot = true ↔ o.phot = true ∧ op.fft = false)) →
      ∀ op, opers o cur l = some op → (op.phot = true ↔ o.phot = true ∧ op.fft = false) := by
    intro l
    induction l with
    | nil => intro cur h; exact h
    | cons a l ih =>
      intro cur h
      refine ih _ ?_
      intro op e
      cases e
      unfold makeOper
      cases cur with
      | none => split <;> simp
      | some c =>
        have := h c rfl
        split <;> simp only <;> split <;> simp_all
  rw [app]
  refine ⟨_, rfl, ?_, ?_, ?_, ?_⟩
  · rw [← fftActive_eq]
    unfold makeOper
    cases opers o none l with
    | none => split <;> simp_all
    | some c => split <;> simp only <;> split <;> simp_all
  · exact inv (l ++ [(pass, grid)]) none (by simp) _ (app l none (pass, grid))
  · intro prev hp
    rw [hp]
    unfold makeOper
    simp only
    split <;> split <;> simp_all
  · intro hp
    rw [hp]
    unfold makeOper
    simp only
    split <;> rfl

/-- Two passes: FFT in the first one, too few redshifts in the second. -/
example : opers (⟨true, true, true, false, false, 1, 0, 0, false⟩ : Opts ℚ) none [(none, List.replicate 100 0)] = some ⟨true, false, false, List.replicate 100 0⟩ ∧
    opers (⟨true, true, true, false, false, 1, 0, 0, false⟩ : Opts ℚ) none [(none, List.replicate 100 0), (some 2, [0, 1])] = some ⟨false, true, false, [0, 1]⟩ := by
  decide +kernel

/-! ## C110: negative and null continua -/

section
variable {K : Type} [Field K] [LinearOrder K] [IsStrictOrderedRing K] {α τ L : Type}

/-- The amplitude over error of the best template at each redshift is below a threshold: what the code calls a negative (or null) continuum "at all z". -/
def AllBelow (s : Store K (Val K α)) (t : K) : Prop := ∀ (i : Nat) row v, s.rows[i]? = some row → row[0]? = some v → v.sigma < t

theorem findMax_below (s : Store K (Val K α)) (hne : s.grid ≠ []) (hr : s.rows.length = s.grid.length) (hf : ∀ row ∈ s.rows, row ≠ []) :
    ∃ v, FitStore.findMax s = .ok (some v) ∧ ∀ t, below (some v.2.sigma) t = true ↔ AllBelow s t := by
  have hpos : 0 < s.rows.length := by rw [hr]; exact List.length_pos_iff.2 hne
  obtain ⟨v0, r0, e0⟩ : ∃ v0 r0, s.rows[0]'hpos = v0 :: r0 := List.exists_cons_of_ne_nil (hf _ (List.getElem_mem hpos))
  have hfirst : ∀ i, i < s.grid.length → ∃ row, s.rows[i]? = some row ∧ row[0]? = some (((s.rows[i]?).bind fun row => row[0]?).getD v0) := by
    intro i hi
    have hi' : i < s.rows.length := by rw [hr]; exact hi
    obtain ⟨v, r, e⟩ := List.exists_cons_of_ne_nil (hf _ (List.getElem_mem hi'))
    refine ⟨v :: r, by rw [List.getElem?_eq_getElem hi', e], ?_⟩
    rw [List.getElem?_eq_getElem hi', e]
    rfl
  obtain ⟨k, z, h1, h2, h3, h4⟩ := (FitStore.C87_max s (fun i => ((s.rows[i]?).bind fun row => row[0]?).getD v0) hr hfirst).2 hne
  refine ⟨_, h2, fun t => ?_⟩
  simp only [below, decide_eq_true_eq]
  constructor
  · intro hlt i row v g1 g2
    have hi : i < s.grid.length := by rw [← hr]; exact (List.getElem?_eq_some_iff.1 g1).1
    refine lt_of_le_of_lt ?_ hlt
    have := h3 i hi
    rw [g1] at this
    simpa [g2] using this
  · intro hall
    obtain ⟨row, g1, g2⟩ := hfirst k (List.getElem?_eq_some_iff.1 h1).1
    exact hall k row _ g1 g2

/-- The decision on the continuum component taken by a pass, for the store it computed. -/
structure Decided (o : Opts K) (pass : Nat) (comp : String) (s : Store K (Val K α)) (ev : String × List Warn) : Prop where
  later : pass ≠ 1 → ev = (comp, [])
  negative : pass = 1 → AllBelow s o.thrNeg → ev = ("fromSpectrum", [Warn.toFromSpectrum])
  weak : pass = 1 → ¬ AllBelow s o.thrNeg → AllBelow s o.thrNull → ev = ("noContinuum", [Warn.toNoContinuum])
  strong : ¬ AllBelow s o.thrNeg → ¬ AllBelow s o.thrNull → ev = (comp, [])

theorem evaluate_spec (o : Opts K) (pass : Nat) (comp : String) (s : Store K (Val K α)) (v : K) (h : ∀ t, below (some v) t = true ↔ AllBelow s t) :
    (AllBelow s o.thrNeg → comp ≠ "tplFitAuto" → evaluate o pass comp (some v) = .throw .NEGATIVE_CONTINUUM) ∧
    (¬ (AllBelow s o.thrNeg ∧ comp ≠ "tplFitAuto") → ∃ ev, evaluate o pass comp (some v) = .ok ev ∧ Decided o pass comp s ev) := by
  have h1 := h o.thrNeg
  have h2 := h o.thrNull
  unfold evaluate
  refine ⟨fun a b => by rw [if_pos (h1.2 a), if_pos b], fun a => ?_⟩
  by_cases c : AllBelow s o.thrNeg
  · have hc : comp = "tplFitAuto" := by by_contra hc; exact a ⟨c, hc⟩
    rw [if_pos (h1.2 c), if_neg (by simpa using hc)]
    by_cases p : pass = 1
    · rw [if_pos p]
      exact ⟨_, rfl, fun q => absurd p q, fun _ _ => rfl, fun _ q => absurd c q, fun q => absurd c q⟩
    · rw [if_neg p]
      exact ⟨_, rfl, fun _ => rfl, fun q => absurd q p, fun q => absurd q p, fun q => absurd c q⟩
  · rw [if_neg (fun q => c (h1.1 q))]
    by_cases d : AllBelow s o.thrNull ∧ pass = 1
    · rw [if_pos ⟨h2.2 d.1, d.2⟩]
      exact ⟨_, rfl, fun q => absurd d.2 q, fun _ q => absurd q c, fun _ _ _ => rfl, fun _ q => absurd d.1 q⟩
    · rw [if_neg (fun q => d ⟨h2.1 q.1, q.2⟩)]
      refine ⟨_, rfl, fun _ => rfl, fun _ q => absurd q c, fun q _ r => absurd ⟨r, q⟩ d, fun _ _ => rfl⟩

/-- The templates a pass fits, with the Ism and Igm indices imposed: the best continua of the first pass when fitting them again (C111), else all the orthogonal templates of the category, in
the order of the catalogue and in the sampling of the operator, without imposed index. -/
def Chosen (e : Env K α τ L) (o : Opts K) (pass : Nat) (opt : Int) (first : Option (Store K (Val K α))) (zs : List K) (n : Nat) (cand : Int) (ts : List (τ × Int × Int)) : Prop :=
  (pass = 2 ∧ opt = 3 → ∃ f, first = some f ∧ refitInfo e o (fftActive o (some pass) n) f zs cand = .ok ts) ∧
  (¬ (pass = 2 ∧ opt = 3) → ts.map (fun t => some t.1) = TplCat.templateList e.cat true (fftActive o (some pass) n) [e.category] ∧ ∀ t ∈ ts, t.2 = (-1, -1))

theorem allInfo_iff (e : Env K α τ L) (fft : Bool) (ts : List (τ × Int × Int)) :
    allInfo e fft = .ok ts ↔ ts.map (fun t => some t.1) = TplCat.templateList e.cat true fft [e.category] ∧ ∀ t ∈ ts, t.2 = (-1, -1) := by
  unfold allInfo
  generalize TplCat.templateList e.cat true fft [e.category] = l
  induction l generalizing ts with
  | nil =>
    constructor
    · intro h; cases h; simp
    · rintro ⟨h, _⟩
      rw [List.map_eq_nil_iff] at h
      rw [h]; rfl
  | cons x xs ih =>
    unfold SvdFit.mapL
    cases x with
    | none =>
      constructor
      · intro h; simp at h
      · rintro ⟨h, _⟩
        cases ts with
        | nil => simp at h
        | cons t ts => simp at h
    | some x =>
      simp only
      rw [Res.bind_ok, Res.bind_eq_ok]
      constructor
      · rintro ⟨r, h1, h2⟩
        cases h2
        obtain ⟨a, b⟩ := (ih r).1 h1
        refine ⟨by simp [a], ?_⟩
        intro t ht
        rw [List.mem_cons] at ht
        rcases ht with rfl | ht
        · rfl
        · exact b t ht
      · rintro ⟨h1, h2⟩
        cases ts with
        | nil => simp at h1
        | cons t ts =>
          rw [List.map_cons, List.cons.injEq] at h1
          refine ⟨ts, (ih ts).2 ⟨h1.2, fun q hq => h2 q (by simp [hq])⟩, ?_⟩
          have e1 := Option.some.inj h1.1
          have e2 := h2 t (by simp)
          obtain ⟨ta, tb⟩ := t
          simp only at e1 e2
          rw [← e1, e2]

theorem fits_ok (e : Env K α τ L) (op : Oper K) (grid : List K) : ∀ (ts : List (τ × Int × Int)),
    (∀ t ∈ ts, ∃ l, e.compute op grid t.1 t.2.1 t.2.2 = .ok (some l) ∧ l.length = grid.length) →
    ∃ res, SvdFit.mapL (fitOne e op grid) ts = .ok res ∧
      List.Forall₂ (fun (t : τ × Int × Int) (r : String × List (Entry K α)) => r.1 = e.nm.name t.1 ∧ e.compute op grid t.1 t.2.1 t.2.2 = .ok (some r.2)) ts res ∧
      ∀ r ∈ res, r.2.length = grid.length := by
  intro ts
  induction ts with
  | nil => intro _; exact ⟨[], rfl, .nil, by simp⟩
  | cons t ts ih =>
    intro h
    obtain ⟨res, h1, h2, h3⟩ := ih (fun q hq => h q (by simp [hq]))
    obtain ⟨l, g1, g2⟩ := h t (by simp)
    refine ⟨(e.nm.name t.1, l) :: res, ?_, .cons ⟨rfl, g1⟩ h2, ?_⟩
    · unfold SvdFit.mapL fitOne
      rw [g1, Res.bind_ok]
      simp only [Res.bind_ok]
      change (SvdFit.mapL (fitOne e op grid) ts >>= _) = _
      rw [h1, Res.bind_ok]
    · intro r hr
      rcases List.mem_cons.1 hr with rfl | hr
      · exact g2
      · exact h3 r hr

/-- An operator masks the lines only when asked, and never with FFT. -/
def MaskOk (o : Opts K) (cur : Option (Oper K)) : Prop := ∀ op, cur = some op → op.mask = true → o.ignoreLines = true ∧ op.fft = false

theorem oper_ok (o : Opts K) (pass : Nat) (grid : List K) (cur : Option (Oper K)) (h : MaskOk o cur) :
    (pickOper o pass grid cur).fft = fftActive o (some pass) grid.length ∧
    ((pickOper o pass grid cur).mask = true ↔ o.ignoreLines = true ∧ fftActive o (some pass) grid.length = false) := by
  have h0 : (makeOper o (some pass) grid cur).fft = fftActive o (some pass) grid.length := by
    unfold makeOper
    cases cur with
    | none => split <;> simp_all
    | some c => split <;> simp only <;> split <;> simp_all
  have hm : (makeOper o (some pass) grid cur).mask = true → o.ignoreLines = true ∧ fftActive o (some pass) grid.length = false := by
    rw [← h0]
    unfold makeOper
    cases cur with
    | none => split <;> simp
    | some c =>
      have := h c rfl
      split <;> simp only <;> split <;> simp_all
  unfold pickOper
  simp only
  by_cases c : o.ignoreLines = true ∧ fftActive o (some pass) grid.length = false
  · rw [if_pos c]; exact ⟨h0, fun _ => c, fun _ => rfl⟩
  · rw [if_neg c]; exact ⟨h0, hm, fun q => absurd q c⟩

/-- What `PrecomputeContinuumFit` does: the store of all templates chosen is computed with one operator of the right kind. -/
structure Computed (e : Env K α τ L) (o : Opts K) (pass : Nat) (grid : List K) (ts : List (τ × Int × Int)) (op : Oper K) (res : List (String × List (Entry K α)))
    (m : K) (s : Store K (Val K α)) : Prop where
  fft : op.fft = true ↔ passFft o (some pass) = true ∧ 100 ≤ grid.length
  mask : op.mask = true ↔ o.ignoreLines = true ∧ op.fft = false
  fits : List.Forall₂ (fun (t : τ × Int × Int) (r : String × List (Entry K α)) => r.1 = e.nm.name t.1 ∧ e.compute op grid t.1 t.2.1 t.2.2 = .ok (some r.2)) ts res
  lens : ∀ r ∈ res, r.2.length = grid.length
  store : fill grid res = .ok (m, s)
  complete : Complete grid res s

/-- **C110.** For any increasing grid and any templates that are all fitted: the continuum store of the pass holds the ranked fits of all of them, made by the operator of C113. Then the pass fails if fewer
templates were fitted than continua are required; it refuses a negative continuum (best templates' amplitude over error below the threshold at all redshifts) unless the component is `tplFitAuto`; in the
first pass it replaces the component by `fromSpectrum` for a negative continuum, and by `noContinuum` for one below the null threshold at all redshifts, with a warning; in every other case the component
is unchanged without any warning. The store is given to the continuum manager. -/
theorem C110_precompute (e : Env K α τ L) (o : Opts K) (pass : Nat) (opt : Int) (first : Option (Store K (Val K α))) (zs grid : List K) (cand : Int) (st : Pre K α) (ts : List (τ × Int × Int))
    (hg : grid.Pairwise (· < ·)) (hne : grid ≠ []) (hts : Chosen e o pass opt first zs grid.length cand ts) (htn : ts ≠ []) (hm : MaskOk o st.oper)
    (hc : ∀ op, ∀ t ∈ ts, ∃ l, e.compute op grid t.1 t.2.1 t.2.2 = .ok (some l) ∧ l.length = grid.length) :
    ∃ op res m s, Computed e o pass grid ts op res m s ∧ MaskOk o (some op) ∧
      (ts.length < o.maxN → precompute e o pass opt first zs grid cand st = .throw .INTERNAL_ERROR) ∧
      (o.maxN ≤ ts.length →
        (AllBelow s o.thrNeg → st.comp ≠ "tplFitAuto" → precompute e o pass opt first zs grid cand st = .throw .NEGATIVE_CONTINUUM) ∧
        (¬ (AllBelow s o.thrNeg ∧ st.comp ≠ "tplFitAuto") → ∃ ev, Decided o pass st.comp s ev ∧
          precompute e o pass opt first zs grid cand st =
            .ok ((m, s), ⟨some op, ev.1, st.warns ++ (if op.fft = true ∧ o.ignoreLines = true then [Warn.ignoreLinesOff] else []) ++ ev.2, ⟨1, some s, st.mgr.values⟩⟩))) := by
  have hn : grid.Nodup := hg.imp fun h => ne_of_lt h
  obtain ⟨o1, o2⟩ := oper_ok o pass grid st.oper hm
  set fft := fftActive o (some pass) grid.length with hfft
  set op := pickOper o pass grid st.oper with hop
  obtain ⟨res, r1, r2, r3⟩ := fits_ok e op grid ts (hc op)
  obtain ⟨m, s, s1, s2, _, _, _⟩ := C109_store grid res hn r3
  have hlen : res.length = ts.length := r2.length_eq.symm
  have hcount : s.count = ts.length := by rw [s2.count_eq hne, hlen]
  have hrows : ∀ row ∈ s.rows, row ≠ [] := by
    intro row hrow
    obtain ⟨i, hi, rfl⟩ := List.mem_iff_getElem.1 hrow
    obtain ⟨row', g1, g2, _⟩ := s2.rows i _ (List.getElem?_eq_getElem (by rw [← s2.rows_len]; exact hi))
    rw [List.getElem?_eq_getElem hi] at g1
    cases g1
    intro hc
    rw [hc, hlen] at g2
    exact htn (List.eq_nil_of_length_eq_zero g2.symm)
  obtain ⟨v, v1, v2⟩ := findMax_below s (by rw [s2.grid_eq]; exact hne) (by rw [s2.grid_eq, s2.rows_len]) hrows
  obtain ⟨e1, e2⟩ := evaluate_spec o pass st.comp s v.2.sigma v2
  have hpick : pick e o pass opt first zs fft cand = .ok ts := by
    unfold pick
    by_cases c : pass = 2 ∧ opt = 3
    · rw [if_pos c]
      obtain ⟨f, rfl, h⟩ := hts.1 c
      exact h
    · rw [if_neg c]; exact (allInfo_iff e _ ts).2 (hts.2 c)
  have key : precompute e o pass opt first zs grid cand st = if s.count < o.maxN then .throw .INTERNAL_ERROR else
      evaluate o pass st.comp (some v.2.sigma) >>= fun ev =>
        .ok ((m, s), ⟨some op, ev.1, st.warns ++ (if fft = true ∧ o.ignoreLines = true then [Warn.ignoreLinesOff] else []) ++ ev.2, st.mgr.setStore (some s)⟩) := by
    unfold precompute
    simp only
    rw [Res.at_of_lt (List.length_pos_iff.2 hne), Res.bind_ok]
    rw [← hfft, hpick, Res.bind_ok, ← hop, r1, Res.bind_ok, s1, Res.bind_ok]
    simp only
    rw [v1, Res.bind_ok]
    rfl
  refine ⟨op, res, m, s, ⟨?_, ?_, r2, r3, s1, s2⟩, ?_, ?_, ?_⟩
  · rw [o1]; exact fftActive_eq o (some pass) grid.length
  · rw [o1]; exact o2
  · intro q hq hqm
    cases hq
    rw [o1]
    exact o2.1 hqm
  · intro hlt
    rw [key, if_pos (by omega)]
  · intro hge
    rw [key, if_neg (by omega)]
    refine ⟨fun a b => by rw [e1 a b]; rfl, fun a => ?_⟩
    obtain ⟨ev, g1, g2⟩ := e2 a
    refine ⟨ev, g2, ?_⟩
    rw [g1, Res.bind_ok, o1]
    rfl

/-- In the second pass with `tplFitAuto` a negative continuum is neither refused nor replaced: the negative continuum is used, without a warning. -/
theorem C110_negative_second_pass_counterexample : evaluate (⟨false, false, false, false, false, 1, -5, -3, false⟩ : Opts ℚ) 2 "tplFitAuto" (some (-8)) = .ok ("tplFitAuto", []) := by
  decide +kernel

/-- The same value in the first pass, and with `tplFit`. -/
example : evaluate (⟨false, false, false, false, false, 1, -5, -3, false⟩ : Opts ℚ) 1 "tplFitAuto" (some (-8)) = .ok ("fromSpectrum", [.toFromSpectrum]) ∧
    evaluate (⟨false, false, false, false, false, 1, -5, -3, false⟩ : Opts ℚ) 1 "tplFit" (some (-4)) = .ok ("noContinuum", [.toNoContinuum]) ∧
    evaluate (⟨false, false, false, false, false, 1, -5, -3, false⟩ : Opts ℚ) 2 "tplFit" (some (-8)) = .throw .NEGATIVE_CONTINUUM ∧
    evaluate (⟨false, false, false, false, false, 1, -5, -3, false⟩ : Opts ℚ) 1 "tplFit" (some 1) = .ok ("tplFit", []) := by
  decide +kernel

end
end ContFit
end Amazed
