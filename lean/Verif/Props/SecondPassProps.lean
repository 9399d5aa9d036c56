import Verif.Model.SecondPass
import Verif.Props.LmResultProps
import Verif.Props.GridProps
import Verif.Props.SvdFitProps
import Verif.Props.TplFitProps

set_option linter.unusedVariables false
set_option linter.unusedSectionVars false

/-! # C99-C101: the passes over the redshift grid -/

namespace Amazed
namespace SecondPass
open LmResult

variable {V S C : Type} {Z : Type}

/-- A column changed at most at index `iz`. -/
def FrameAt (iz : Nat) {β : Type} (_ : β) (a b : List β) : Prop := b.length = a.length ∧ ∀ i : Nat, i ≠ iz → b[i]? = a[i]?

/-- The cell of row `k` and column `i` of a table. -/
def cell {β : Type} (t : List (List β)) (k i : Nat) : Option β := (t[k]?).bind (·[i]?)

theorem FrameAt.rfl' {iz : Nat} {β : Type} (d : β) (a : List β) : FrameAt iz d a a := ⟨rfl, fun _ _ => rfl⟩

theorem FrameAt.rows {iz : Nat} {β : Type} (d : β) (t : List (List β)) : List.Forall₂ (FrameAt iz d) t t := by
  induction t with
  | nil => exact .nil
  | cons x t ih => exact .cons (FrameAt.rfl' d x) ih

theorem FrameAt.trans' {iz : Nat} {β : Type} {d : β} {a b c : List β} (h1 : FrameAt iz d a b) (h2 : FrameAt iz d b c) :
    FrameAt iz d a c :=
  ⟨h2.1.trans h1.1, fun i hi => (h2.2 i hi).trans (h1.2 i hi)⟩

theorem setElt_ok {β : Type} {l l' : List β} {iz : Nat} {v : β} (h : setElt l iz v = .ok l') :
    l' = l.set iz v ∧ iz < l.length := by
  unfold setElt at h
  rw [Res.bind_eq_ok] at h
  obtain ⟨x, hx, h⟩ := h
  rw [Res.at_eq_ok] at hx
  exact ⟨(Res.ok.inj h).symm, (List.getElem?_eq_some_iff.1 hx).1⟩

theorem setElt_frame {β : Type} {l l' : List β} {iz : Nat} {v : β} (h : setElt l iz v = .ok l') (d : β) :
    FrameAt iz d l l' ∧ l'[iz]? = some v := by
  obtain ⟨rfl, hl⟩ := setElt_ok h
  exact ⟨⟨by simp, fun i hi => List.getElem?_set_ne (fun h => hi h.symm)⟩, by simp [hl]⟩

theorem setCell_ok {β : Type} {t t' : List (List β)} {k iz : Nat} {v : β} (h : setCell t k iz v = .ok t') (d : β) :
    List.Forall₂ (FrameAt iz d) t t' ∧ cell t' k iz = some v ∧ ∀ (k' i : Nat), k' ≠ k → cell t' k' i = cell t k' i := by
  unfold setCell at h
  rw [Res.bind_eq_ok] at h
  obtain ⟨row, hrow, h⟩ := h
  rw [Res.bind_eq_ok] at h
  obtain ⟨x, hx, h⟩ := h
  rw [Res.at_eq_ok] at hrow hx
  obtain ⟨hk, hkv⟩ := List.getElem?_eq_some_iff.1 hrow
  obtain ⟨hi, hiv⟩ := List.getElem?_eq_some_iff.1 hx
  have := (Res.ok.inj h).symm
  subst this
  refine ⟨?_, ?_, ?_⟩
  · rw [List.forall₂_iff_get]
    refine ⟨by simp, fun i h1 h2 => ?_⟩
    simp only [List.get_eq_getElem, List.getElem_set]
    split
    · rename_i hik
      subst hik
      rw [hkv]
      exact ⟨by simp, fun j hj => List.getElem?_set_ne (fun h => hj h.symm)⟩
    · exact FrameAt.rfl' d _
  · unfold cell
    simp [hk, hi]
  · intro k' i hne
    unfold cell
    rw [List.getElem?_set_ne (fun h => hne h.symm)]

theorem setCol_ok {β : Type} {t t' : List (List β)} {iz : Nat} {col : List β} (h : setCol iz col t = .ok t') (d : β) :
    List.Forall₂ (FrameAt iz d) t t' ∧ ∀ (k : Nat) (v : β), col[k]? = some v → cell t' k iz = some v := by
  have := TplFit.Res.foldN_inv_ok (f := fun k t => Res.at_ col k >>= fun v => setCell t k iz v)
    (P := fun (n : Nat) (u : List (List β)) => List.Forall₂ (FrameAt iz d) t u ∧
      ∀ (k : Nat) (v : β), k < n → col[k]? = some v → cell u k iz = some v) col.length 0 t t'
    ⟨FrameAt.rows d t, fun k v hk => absurd hk (by omega)⟩
    (by
      intro i u u' _ hi hP hstep
      rw [Res.bind_eq_ok] at hstep
      obtain ⟨v, hv, hstep⟩ := hstep
      rw [Res.at_eq_ok] at hv
      obtain ⟨h1, h2, h3⟩ := setCell_ok hstep d
      refine ⟨forall₂_trans (P := FrameAt iz d) (Q := FrameAt iz d) (R := FrameAt iz d) (fun a b c h1 h2 => FrameAt.trans' h1 h2) hP.1 h1, fun k w hk hw => ?_⟩
      by_cases hki : k = i
      · subst hki
        rw [hv] at hw
        rw [h2]; exact hw
      · rw [h3 k iz hki]
        exact hP.2 k w (by omega) hw)
    h
  refine ⟨this.1, fun k v hk => this.2 k v ?_ hk⟩
  have := (List.getElem?_eq_some_iff.1 hk).1
  omega

/-- The values of the ratio manager are in the tables at index `iz`. -/
structure RatioWritten (r : LmRes Z V S C) (iz : Nat) (q : RatioOut V) : Prop where
  chi2 : ∀ (k : Nat) (v : V), q.chi2[k]? = some v → cell r.ratChi2 k iz = some v
  others : ∀ k : Nat, k < q.chi2.length → cell r.ratScale k iz = q.scale[k]? ∧ cell r.ratStrong k iz = q.strong[k]? ∧
    cell r.ratHa k iz = q.ha[k]? ∧ cell r.ratN k iz = q.nLines[k]? ∧ cell r.ratPriorLines k iz = q.priorLines[k]?

/-- The results of a fit are in the vectors at index `iz`. -/
structure Written (r : LmRes Z V S C) (iz : Nat) (o : FitOut V S C) : Prop where
  chi2 : r.chi2[iz]? = some o.merit
  scale : r.scaleMarg[iz]? = some o.scale
  sol : r.lmSol[iz]? = some o.sol
  cont : r.contSol[iz]? = some o.cont
  contMerit : r.chi2Cont[iz]? = some o.contMerit
  contScale : r.scaleMargCont[iz]? = some o.contScale
  tpl : ∀ col, o.tplCol = some col → ∀ (k : Nat) (v : V), col[k]? = some v → cell r.tplCont k iz = some v
  ratio : ∀ q, o.ratio = some q → RatioWritten r iz q

/-- The frame of the columns at `iz`, with everything that is not a column unchanged. -/
def FrameAll (k : Flt V S C) (iz : Nat) (r r' : LmRes Z V S C) : Prop :=
  AllCols k (fun {β} d a b => FrameAt iz (β := β) d a b) r r' ∧ r'.redshifts = r.redshifts

theorem FrameAll.trans (k : Flt V S C) {iz : Nat} {a b c : LmRes Z V S C} (h1 : FrameAll k iz a b) (h2 : FrameAll k iz b c) :
    FrameAll k iz a c :=
  ⟨AllCols.trans (fun d x y z => FrameAt.trans') h1.1 h2.1, h2.2.trans h1.2⟩

theorem FrameAll.refl (k : Flt V S C) (iz : Nat) (a : LmRes Z V S C) : FrameAll k iz a a :=
  ⟨⟨FrameAt.rfl' _ _, FrameAt.rfl' _ _, FrameAt.rfl' _ _, FrameAt.rfl' _ _, FrameAt.rfl' _ _, FrameAt.rfl' _ _,
    FrameAt.rows _ _, FrameAt.rows _ _, FrameAt.rows _ _, FrameAt.rows _ _, FrameAt.rows _ _, FrameAt.rows _ _,
    FrameAt.rows _ _, rfl⟩, rfl⟩

theorem setRatioRow_ok (k : Flt V S C) {r r' : LmRes Z V S C} {iz i : Nat} {q : RatioOut V}
    (h : setRatioRow iz q i r = .ok r') :
    FrameAll k iz r r' ∧ r'.tplCont = r.tplCont ∧ r'.chi2 = r.chi2 ∧ r'.scaleMarg = r.scaleMarg ∧ r'.lmSol = r.lmSol ∧
    r'.contSol = r.contSol ∧
    (cell r'.ratChi2 i iz = q.chi2[i]? ∧ cell r'.ratScale i iz = q.scale[i]? ∧ cell r'.ratStrong i iz = q.strong[i]? ∧
      cell r'.ratHa i iz = q.ha[i]? ∧ cell r'.ratN i iz = q.nLines[i]? ∧ cell r'.ratPriorLines i iz = q.priorLines[i]?) ∧
    ∀ k' : Nat, k' ≠ i → cell r'.ratChi2 k' iz = cell r.ratChi2 k' iz ∧ cell r'.ratScale k' iz = cell r.ratScale k' iz ∧
      cell r'.ratStrong k' iz = cell r.ratStrong k' iz ∧ cell r'.ratHa k' iz = cell r.ratHa k' iz ∧
      cell r'.ratN k' iz = cell r.ratN k' iz ∧ cell r'.ratPriorLines k' iz = cell r.ratPriorLines k' iz := by
  unfold setRatioRow at h
  simp only [Res.bind_eq_ok, Res.at_eq_ok] at h
  obtain ⟨a, ⟨va, hva, ha⟩, b, ⟨vb, hvb, hb⟩, c, ⟨vc, hvc, hc⟩, d, ⟨vd, hvd, hd⟩, e, ⟨ve, hve, he⟩, f, ⟨vf, hvf, hf⟩, h⟩ := h
  obtain rfl := (Res.ok.inj h).symm
  obtain ⟨a1, a2, a3⟩ := setCell_ok ha k.dmax
  obtain ⟨b1, b2, b3⟩ := setCell_ok hb k.zero
  obtain ⟨c1, c2, c3⟩ := setCell_ok hc false
  obtain ⟨d1, d2, d3⟩ := setCell_ok hd false
  obtain ⟨e1, e2, e3⟩ := setCell_ok he 0
  obtain ⟨f1, f2, f3⟩ := setCell_ok hf k.zero
  refine ⟨⟨⟨FrameAt.rfl' _ _, FrameAt.rfl' _ _, FrameAt.rfl' _ _, FrameAt.rfl' _ _, FrameAt.rfl' _ _, FrameAt.rfl' _ _,
    FrameAt.rows _ _, a1, b1, c1, d1, e1, f1, rfl⟩, rfl⟩, rfl, rfl, rfl, rfl, rfl,
    ⟨by rw [a2, hva], by rw [b2, hvb], by rw [c2, hvc], by rw [d2, hvd], by rw [e2, hve], by rw [f2, hvf]⟩, ?_⟩
  intro k' hk'
  exact ⟨a3 _ _ hk', b3 _ _ hk', c3 _ _ hk', d3 _ _ hk', e3 _ _ hk', f3 _ _ hk'⟩

theorem setRatio_ok (k : Flt V S C) {r r' : LmRes Z V S C} {iz : Nat} {q : RatioOut V} (h : setRatio r iz q = .ok r') :
    FrameAll k iz r r' ∧ r'.tplCont = r.tplCont ∧ r'.chi2 = r.chi2 ∧ r'.scaleMarg = r.scaleMarg ∧ r'.lmSol = r.lmSol ∧
    r'.contSol = r.contSol ∧ RatioWritten r' iz q := by
  unfold setRatio at h
  split at h
  · rename_i h0
    obtain rfl := (Res.ok.inj h).symm
    refine ⟨FrameAll.refl k iz _, rfl, rfl, rfl, rfl, rfl, ⟨fun j v hv => ?_, fun j hj => by omega⟩⟩
    have := (List.getElem?_eq_some_iff.1 hv).1
    omega
  · split at h
    · simp at h
    · split at h
      · simp at h
      · have := TplFit.Res.foldN_inv_ok (f := setRatioRow iz q)
          (P := fun (n : Nat) (u : LmRes Z V S C) => (FrameAll k iz r u ∧ u.tplCont = r.tplCont ∧ u.chi2 = r.chi2 ∧
              u.scaleMarg = r.scaleMarg ∧ u.lmSol = r.lmSol ∧ u.contSol = r.contSol) ∧
            ∀ j : Nat, j < n → cell u.ratChi2 j iz = q.chi2[j]? ∧ cell u.ratScale j iz = q.scale[j]? ∧
              cell u.ratStrong j iz = q.strong[j]? ∧ cell u.ratHa j iz = q.ha[j]? ∧ cell u.ratN j iz = q.nLines[j]? ∧
              cell u.ratPriorLines j iz = q.priorLines[j]?) q.chi2.length 0 r r'
          ⟨⟨FrameAll.refl k iz r, rfl, rfl, rfl, rfl, rfl⟩, fun j hj => absurd hj (by omega)⟩
          (by
            intro i u u' _ hi hP hstep
            obtain ⟨g1, g2, g3, g4, g5, g6, g7, g8⟩ := setRatioRow_ok k hstep
            obtain ⟨⟨p1, p2, p3, p4, p5, p6⟩, p7⟩ := hP
            refine ⟨⟨p1.trans k g1, g2.trans p2, g3.trans p3, g4.trans p4, g5.trans p5, g6.trans p6⟩, fun j hj => ?_⟩
            by_cases hji : j = i
            · subst hji; exact g7
            · obtain ⟨q1, q2, q3, q4, q5, q6⟩ := g8 j hji
              rw [q1, q2, q3, q4, q5, q6]
              exact p7 j (by omega))
          h
        obtain ⟨⟨p1, p2, p3, p4, p5, p6⟩, p7⟩ := this
        refine ⟨p1, p2, p3, p4, p5, p6, ⟨fun j v hv => ?_, fun j hj => (p7 j (by omega)).2⟩⟩
        have hj := (List.getElem?_eq_some_iff.1 hv).1
        rw [(p7 j (by omega)).1, hv]

/-- Writing the results of a fit at index `iz`: they are all there, and nothing else changes. -/
theorem write_ok (k : Flt V S C) {r r' : LmRes Z V S C} {iz : Nat} {o : FitOut V S C} (h : write r iz o = .ok r') :
    FrameAll k iz r r' ∧ Written r' iz o := by
  unfold write at h
  simp only [Res.bind_eq_ok] at h
  obtain ⟨a, ha, b, hb, c, hc, d, hd, t, ht, r2, hr2, e, he, f, hf, h⟩ := h
  obtain rfl := (Res.ok.inj h).symm
  obtain ⟨a1, a2⟩ := setElt_frame ha k.nan
  obtain ⟨b1, b2⟩ := setElt_frame hb k.sol0
  obtain ⟨c1, c2⟩ := setElt_frame hc k.cont0
  obtain ⟨d1, d2⟩ := setElt_frame hd k.nan
  obtain ⟨e1, e2⟩ := setElt_frame he k.nan
  obtain ⟨f1, f2⟩ := setElt_frame hf k.nan
  have ht' : List.Forall₂ (FrameAt iz k.dmax) r.tplCont t ∧
      ∀ col, o.tplCol = some col → ∀ (j : Nat) (v : V), col[j]? = some v → cell t j iz = some v := by
    cases hcol : o.tplCol with
    | none =>
      rw [hcol] at ht
      obtain rfl := Res.ok.inj ht
      exact ⟨FrameAt.rows _ _, fun col hc => by simp at hc⟩
    | some col =>
      rw [hcol] at ht
      obtain ⟨h1, h2⟩ := setCol_ok ht k.dmax
      exact ⟨h1, fun col' hc' => by obtain rfl := Option.some.inj hc'; exact h2⟩
  have hr2' : FrameAll k iz { r with chi2 := a, lmSol := b, contSol := c, scaleMarg := d, tplCont := t } r2 ∧
      r2.tplCont = t ∧ r2.chi2 = a ∧ r2.scaleMarg = d ∧ r2.lmSol = b ∧ r2.contSol = c ∧
      ∀ q, o.ratio = some q → RatioWritten r2 iz q := by
    cases hq : o.ratio with
    | none =>
      rw [hq] at hr2
      obtain rfl := Res.ok.inj hr2
      exact ⟨FrameAll.refl k iz _, rfl, rfl, rfl, rfl, rfl, fun q hq' => by simp at hq'⟩
    | some q =>
      rw [hq] at hr2
      obtain ⟨h1, h2, h3, h4, h5, h6, h7⟩ := setRatio_ok k hr2
      exact ⟨h1, h2, h3, h4, h5, h6, fun q' hq' => by obtain rfl := Option.some.inj hq'; exact h7⟩
  obtain ⟨g1, g2, g3, g4, g5, g6, g7⟩ := hr2'
  refine ⟨?_, ?_⟩
  · refine FrameAll.trans k (b := { r with chi2 := a, lmSol := b, contSol := c, scaleMarg := d, tplCont := t })
      ⟨⟨a1, d1, b1, c1, FrameAt.rfl' _ _, FrameAt.rfl' _ _, ht'.1, FrameAt.rows _ _, FrameAt.rows _ _, FrameAt.rows _ _,
        FrameAt.rows _ _, FrameAt.rows _ _, FrameAt.rows _ _, rfl⟩, rfl⟩ ?_
    refine FrameAll.trans k g1 ⟨⟨FrameAt.rfl' _ _, FrameAt.rfl' _ _, FrameAt.rfl' _ _, FrameAt.rfl' _ _, e1, f1,
      FrameAt.rows _ _, FrameAt.rows _ _, FrameAt.rows _ _, FrameAt.rows _ _, FrameAt.rows _ _, FrameAt.rows _ _, FrameAt.rows _ _,
      rfl⟩, rfl⟩
  · refine ⟨by simp only [g3]; exact a2, by simp only [g4]; exact d2, by simp only [g5]; exact b2, by simp only [g6]; exact c2, e2, f2, ?_, ?_⟩
    · simp only [g2]; exact ht'.2
    · intro q hq
      exact ⟨(g7 q hq).1, (g7 q hq).2⟩

theorem fitAt_ok {σ K : Type} (k : Flt V S C) {fit : Fit σ K V S C} {iz : Nat} {st st' : σ × LmRes K V S C}
    (h : fitAt fit iz st = .ok st') :
    ∃ z s c o, st.2.redshifts[iz]? = some z ∧ st.2.lmSol[iz]? = some s ∧ st.2.contSol[iz]? = some c ∧
      fit st.1 z s c = .ok (st'.1, o) ∧ FrameAll k iz st.2 st'.2 ∧ Written st'.2 iz o := by
  unfold fitAt at h
  simp only [Res.bind_eq_ok, Res.at_eq_ok] at h
  obtain ⟨z, hz, s, hs, c, hc, o, ho, r, hr, h⟩ := h
  obtain rfl := Res.ok.inj h
  obtain ⟨h1, h2⟩ := write_ok k hr
  exact ⟨z, s, c, o.2, hz, hs, hc, ho, h1, h2⟩

theorem cell_frame {iz : Nat} {β : Type} {d : β} {a b : List (List β)} (h : List.Forall₂ (FrameAt iz d) a b) {k i : Nat}
    (hi : i ≠ iz) : cell b k i = cell a k i := by
  rw [List.forall₂_iff_get] at h
  unfold cell
  by_cases hk : k < a.length
  · have hk' : k < b.length := h.1 ▸ hk
    rw [List.getElem?_eq_getElem hk, List.getElem?_eq_getElem hk']
    exact (h.2 k hk hk').2 i hi
  · rw [List.getElem?_eq_none (by omega), List.getElem?_eq_none (by have := h.1; omega)]

/-- What is written at an index stays when another index is written. -/
theorem Written.frame {k : Flt V S C} {r r' : LmRes Z V S C} {i j : Nat} {o : FitOut V S C} (hw : Written r i o)
    (hf : FrameAll k j r r') (hij : i ≠ j) : Written r' i o := by
  obtain ⟨⟨c1, c2, c3, c4, c5, c6, c7, c8, c9, c10, c11, c12, c13, c14⟩, _⟩ := hf
  refine ⟨(c1.2 i hij).trans hw.chi2, (c2.2 i hij).trans hw.scale, (c3.2 i hij).trans hw.sol, (c4.2 i hij).trans hw.cont,
    (c5.2 i hij).trans hw.contMerit, (c6.2 i hij).trans hw.contScale, ?_, ?_⟩
  · intro col hcol n v hv
    rw [cell_frame c7 hij]
    exact hw.tpl col hcol n v hv
  · intro q hq
    obtain ⟨q1, q2⟩ := hw.ratio q hq
    refine ⟨fun n v hv => by rw [cell_frame c8 hij]; exact q1 n v hv, fun n hn => ?_⟩
    rw [cell_frame c9 hij, cell_frame c10 hij, cell_frame c11 hij, cell_frame c12 hij, cell_frame c13 hij]
    exact q2 n hn

section
variable {K : Type} [Field K] [LinearOrder K] [IsStrictOrderedRing K]

/-- The model is null at a redshift: no line with a positive amplitude, and a continuum amplitude that is a number at most zero. -/
def NullAt (contAmp : C → Option K) (amps : S → List (Option K)) (o : FitOut V S C) : Prop :=
  (∀ a ∈ amps o.sol, ∀ v, a = some v → v ≤ 0) ∧ ∃ v, contAmp o.cont = some v ∧ v ≤ 0

theorem zeroFlag_iff (contAmp : C → Option K) (amps : S → List (Option K)) (o : FitOut V S C) :
    zeroFlag contAmp amps o.sol o.cont = true ↔ NullAt contAmp amps o := by
  unfold zeroFlag NullAt
  rw [Bool.and_eq_true]
  refine and_congr ?_ ?_
  · rw [Bool.not_eq_true', List.any_eq_false]
    refine forall_congr' fun a => forall_congr' fun ha => ?_
    cases a with
    | none => simp [gt0]
    | some v => simp [gt0]
  · cases contAmp o.cont with
    | none => simp [le0]
    | some v => simp [le0]

/-- What the main loop of the first pass leaves: the results of a fit at every redshift, and the flag of each. -/
theorem firstLoop_ok {σ : Type} (k : Flt V S C) {fit : Fit σ K V S C} {contAmp : C → Option K} {amps : S → List (Option K)}
    {st : σ} {r : LmRes K V S C} {x : (σ × LmRes K V S C) × List Bool}
    (h : Res.foldN (firstStep fit contAmp amps) 0 r.redshifts.length ((st, r), []) = .ok x) :
    x.1.2.redshifts = r.redshifts ∧ x.2.length = r.redshifts.length ∧
    ∀ (i : Nat) (z : K), r.redshifts[i]? = some z → ∃ (s s' : σ) (a : S) (b : C) (o : FitOut V S C),
      fit s z a b = .ok (s', o) ∧ Written x.1.2 i o ∧ x.2[i]? = some (zeroFlag contAmp amps o.sol o.cont) := by
  have := TplFit.Res.foldN_inv_ok (f := firstStep fit contAmp amps)
    (P := fun (n : Nat) (y : (σ × LmRes K V S C) × List Bool) => y.1.2.redshifts = r.redshifts ∧ y.2.length = n ∧
      ∀ (i : Nat) (z : K), i < n → r.redshifts[i]? = some z → ∃ (s s' : σ) (a : S) (b : C) (o : FitOut V S C),
        fit s z a b = .ok (s', o) ∧ Written y.1.2 i o ∧ y.2[i]? = some (zeroFlag contAmp amps o.sol o.cont))
    r.redshifts.length 0 ((st, r), []) x ⟨rfl, rfl, fun i z hi => absurd hi (by omega)⟩
    (by
      intro n y y' _ hn hP hstep
      obtain ⟨p1, p2, p3⟩ := hP
      unfold firstStep at hstep
      simp only [Res.bind_eq_ok, Res.at_eq_ok] at hstep
      obtain ⟨w, hw, s, hs, c, hc, hstep⟩ := hstep
      obtain rfl := Res.ok.inj hstep
      obtain ⟨z, s0, c0, o, hz, hs0, hc0, hfit, hframe, hwr⟩ := fitAt_ok k hw
      refine ⟨hframe.2.trans p1, by simp [p2], fun i z' hi hz' => ?_⟩
      by_cases hin : i = n
      · subst hin
        rw [p1, hz'] at hz
        obtain rfl := Option.some.inj hz
        refine ⟨_, _, _, _, o, hfit, hwr, ?_⟩
        have e1 := hwr.sol
        rw [hs] at e1
        have e2 := hwr.cont
        rw [hc] at e2
        rw [Option.some.inj e1, Option.some.inj e2]
        simp [p2]
      · obtain ⟨s1, s2, a, b, o', hf', hw', hfl⟩ := p3 i z' (by omega) hz'
        refine ⟨s1, s2, a, b, o', hf', hw'.frame hframe hin, ?_⟩
        simp only
        rw [List.getElem?_append_left (by omega)]
        exact hfl)
    h
  obtain ⟨h1, h2, h3⟩ := this
  refine ⟨h1, by omega, fun i z hz => h3 i z ?_ hz⟩
  have := (List.getElem?_eq_some_iff.1 hz).1
  omega

/-- **C100.** When the first pass succeeds, every redshift of the grid holds all the results of one fit at that very redshift, and at
one of them at least the model is not null. -/
theorem C100_first_pass {σ : Type} (k : Flt V S C) (fit : Fit σ K V S C) (contAmp : C → Option K)
    (amps : S → List (Option K)) (st st' : σ) (r r' : LmRes K V S C) (h : firstPass fit contAmp amps st r = .ok (st', r')) :
    r'.redshifts = r.redshifts ∧
    (∀ (i : Nat) (z : K), r.redshifts[i]? = some z → ∃ (s s' : σ) (a : S) (b : C) (o : FitOut V S C),
      fit s z a b = .ok (s', o) ∧ Written r' i o) ∧
    ∃ (i : Nat) (o : FitOut V S C), i < r.redshifts.length ∧ Written r' i o ∧ ¬ NullAt contAmp amps o := by
  unfold firstPass at h
  rw [Res.bind_eq_ok] at h
  obtain ⟨x, hx, h⟩ := h
  obtain ⟨h1, h2, h3⟩ := firstLoop_ok k hx
  split at h
  · simp at h
  rename_i hz
  have := Res.ok.inj h
  obtain ⟨⟨s1, r1⟩, fl⟩ := x
  simp only [Prod.mk.injEq] at this
  obtain ⟨rfl, rfl⟩ := this
  simp only at h1 h2 h3 hz
  refine ⟨h1, fun i z hz => ?_, ?_⟩
  · obtain ⟨s, s', a, b, o, hf, hw, _⟩ := h3 i z hz
    exact ⟨s, s', a, b, o, hf, hw⟩
  · unfold allZero at hz
    simp only [List.all_eq_true, id, not_forall] at hz
    obtain ⟨b, hb, hbf⟩ := hz
    obtain ⟨i, hi, hib⟩ := List.getElem_of_mem hb
    obtain ⟨s, s', a, b', o, hf, hw, hfl⟩ := h3 i r.redshifts[i] (List.getElem?_eq_getElem (h2 ▸ hi))
    refine ⟨i, o, h2 ▸ hi, hw, fun hn => hbf ?_⟩
    rw [← zeroFlag_iff] at hn
    rw [List.getElem?_eq_getElem hi, hn] at hfl
    rw [← hib]
    exact Option.some.inj hfl

/-- The vectors fit the grid: `n` redshifts, `nt` continuum templates, `nr` ratio catalogs. -/
structure Shape (n nt nr : Nat) {Z : Type} (r : LmRes Z V S C) : Prop where
  al : Aligned n r
  zs : r.redshifts.length = n
  tpl : r.tplCont.length = nt
  rat : r.ratChi2.length = nr

/-- A fit reports as many values as there are templates and ratio catalogs. -/
structure OutFits (nt nr : Nat) (o : FitOut V S C) : Prop where
  tpl : ∀ col, o.tplCol = some col → col.length ≤ nt
  rat : ∀ q, o.ratio = some q → q.chi2.length = nr ∧ q.scale.length = nr ∧ q.strong.length = nr ∧ q.ha.length = nr ∧
    q.nLines.length = nr ∧ q.priorLines.length = nr

theorem rows_len {iz n : Nat} {β : Type} {d : β} {a b : List (List β)} (h : List.Forall₂ (FrameAt iz d) a b)
    (ha : ∀ t ∈ a, t.length = n) : b.length = a.length ∧ ∀ t ∈ b, t.length = n := by
  refine ⟨h.length_eq.symm, ?_⟩
  induction h with
  | nil => simp
  | cons hx _ ih =>
    intro t ht
    rcases List.mem_cons.1 ht with rfl | ht
    · rw [hx.1]; exact ha _ (by simp)
    · exact ih (fun t ht => ha t (by simp [ht])) t ht

theorem Shape.frame {k : Flt V S C} {n nt nr iz : Nat} {Z : Type} {r r' : LmRes Z V S C} (h : Shape n nt nr r)
    (hf : FrameAll k iz r r') : Shape n nt nr r' := by
  obtain ⟨⟨c1, c2, c3, c4, c5, c6, c7, c8, c9, c10, c11, c12, c13, c14⟩, hz⟩ := hf
  obtain ⟨ha, h2, h3, h4⟩ := h
  have e8 := rows_len c8 ha.ratChi2
  have e9 := rows_len c9 ha.ratScale.2
  have e10 := rows_len c10 ha.ratStrong.2
  have e11 := rows_len c11 ha.ratHa.2
  have e12 := rows_len c12 ha.ratN.2
  have e13 := rows_len c13 ha.ratPriorLines.2
  refine ⟨⟨c1.1.trans ha.chi2, c2.1.trans ha.scaleMarg, c3.1.trans ha.lmSol, c4.1.trans ha.contSol, c5.1.trans ha.chi2Cont,
    c6.1.trans ha.scaleMargCont, (rows_len c7 ha.tplCont).2, e8.2, ⟨?_, e9.2⟩, ⟨?_, e10.2⟩, ⟨?_, e11.2⟩, ⟨?_, e12.2⟩, ⟨?_, e13.2⟩⟩,
    hz ▸ h2, (rows_len c7 ha.tplCont).1.trans h3, e8.1.trans h4⟩
  · rw [e9.1, e8.1, ha.ratScale.1]
  · rw [e10.1, e8.1, ha.ratStrong.1]
  · rw [e11.1, e8.1, ha.ratHa.1]
  · rw [e12.1, e8.1, ha.ratN.1]
  · rw [e13.1, e8.1, ha.ratPriorLines.1]

theorem setElt_total {β : Type} {l : List β} {iz : Nat} (v : β) (h : iz < l.length) : ∃ l', setElt l iz v = .ok l' := by
  unfold setElt
  rw [Res.at_of_lt h, Res.bind_ok]
  exact ⟨_, rfl⟩

theorem setCell_total {β : Type} {t : List (List β)} {k iz n : Nat} (v : β) (hk : k < t.length)
    (ht : ∀ x ∈ t, x.length = n) (hi : iz < n) : ∃ t', setCell t k iz v = .ok t' := by
  unfold setCell
  rw [Res.at_of_lt hk, Res.bind_ok, Res.at_of_lt (by rw [ht _ (List.getElem_mem hk)]; exact hi), Res.bind_ok]
  exact ⟨_, rfl⟩

theorem setCol_total {β : Type} {t : List (List β)} {iz n : Nat} (d : β) {col : List β} (hc : col.length ≤ t.length)
    (ht : ∀ x ∈ t, x.length = n) (hi : iz < n) : ∃ t', setCol iz col t = .ok t' := by
  obtain ⟨t', h, _⟩ := Res.foldN_inv (f := fun (k : Nat) (t : List (List β)) => Res.at_ col k >>= fun v => setCell t k iz v)
    (P := fun (_ : Nat) (u : List (List β)) => u.length = t.length ∧ ∀ x ∈ u, x.length = n) col.length 0 t ⟨rfl, ht⟩
    (by
      intro i u _ hi' hP
      obtain ⟨u', hu'⟩ := setCell_total (col[i]'(by omega)) (show i < u.length by omega) hP.2 hi
      refine ⟨u', by rw [Res.at_of_lt (by omega), Res.bind_ok]; exact hu', ?_⟩
      have := rows_len (setCell_ok hu' d).1 hP.2
      exact ⟨this.1.trans hP.1, this.2⟩)
  exact ⟨t', h⟩

theorem setRatioRow_total {n nt nr iz i : Nat} {Z : Type} {r : LmRes Z V S C} {q : RatioOut V} (h : Shape n nt nr r)
    (hi : iz < n) (hq : q.chi2.length = nr ∧ q.scale.length = nr ∧ q.strong.length = nr ∧ q.ha.length = nr ∧
    q.nLines.length = nr ∧ q.priorLines.length = nr) (hn : i < nr) : ∃ r', setRatioRow iz q i r = .ok r' := by
  obtain ⟨q1, q2, q3, q4, q5, q6⟩ := hq
  obtain ⟨ha, hz, ht, hr⟩ := h
  obtain ⟨a, ea⟩ := setCell_total (q.chi2[i]'(by omega)) (show i < r.ratChi2.length by omega) ha.ratChi2 hi
  obtain ⟨b, eb⟩ := setCell_total (q.scale[i]'(by omega)) (show i < r.ratScale.length by rw [ha.ratScale.1]; omega) ha.ratScale.2 hi
  obtain ⟨c, ec⟩ := setCell_total (q.strong[i]'(by omega)) (show i < r.ratStrong.length by rw [ha.ratStrong.1]; omega)
    ha.ratStrong.2 hi
  obtain ⟨d, ed⟩ := setCell_total (q.ha[i]'(by omega)) (show i < r.ratHa.length by rw [ha.ratHa.1]; omega) ha.ratHa.2 hi
  obtain ⟨e, ee⟩ := setCell_total (q.nLines[i]'(by omega)) (show i < r.ratN.length by rw [ha.ratN.1]; omega) ha.ratN.2 hi
  obtain ⟨f, ef⟩ := setCell_total (q.priorLines[i]'(by omega)) (show i < r.ratPriorLines.length by rw [ha.ratPriorLines.1]; omega)
    ha.ratPriorLines.2 hi
  unfold setRatioRow
  rw [Res.at_of_lt (by omega), Res.bind_ok, ea, Res.bind_ok, Res.at_of_lt (by omega), Res.bind_ok, eb, Res.bind_ok,
    Res.at_of_lt (by omega), Res.bind_ok, ec, Res.bind_ok, Res.at_of_lt (by omega), Res.bind_ok, ed, Res.bind_ok,
    Res.at_of_lt (by omega), Res.bind_ok, ee, Res.bind_ok, Res.at_of_lt (by omega), Res.bind_ok, ef, Res.bind_ok]
  exact ⟨_, rfl⟩

theorem setRatio_total (k : Flt V S C) {n nt nr iz : Nat} {Z : Type} {r : LmRes Z V S C} {q : RatioOut V} (h : Shape n nt nr r)
    (hi : iz < n) (hq : q.chi2.length = nr ∧ q.scale.length = nr ∧ q.strong.length = nr ∧ q.ha.length = nr ∧
    q.nLines.length = nr ∧ q.priorLines.length = nr) : ∃ r', setRatio r iz q = .ok r' := by
  unfold setRatio
  split
  · exact ⟨_, rfl⟩
  rw [if_neg (by rw [h.zs]; omega), if_neg (by rw [h.rat]; omega)]
  obtain ⟨r', h', _⟩ := Res.foldN_inv (f := setRatioRow iz q)
    (P := fun (_ : Nat) (u : LmRes Z V S C) => Shape n nt nr u) q.chi2.length 0 r h
    (by
      intro i u _ hi' hP
      obtain ⟨u', hu'⟩ := setRatioRow_total hP hi hq (show i < nr by omega)
      exact ⟨u', hu', hP.frame (setRatioRow_ok k hu').1⟩)
  exact ⟨r', h'⟩

/-- Storing the tables of the ratio catalogs at an index outside the grid is reported; so are tables which do not have one value per catalog
(the H-alpha flags excepted). -/
theorem C100_ratio_range {Z : Type} (r : LmRes Z V S C) (iz : Nat) (q : RatioOut V) (h0 : q.chi2 ≠ [])
    (h : r.redshifts.length ≤ iz ∨ q.chi2.length ≠ r.ratChi2.length ∨ q.scale.length ≠ r.ratChi2.length ∨
      q.strong.length ≠ r.ratChi2.length ∨ q.nLines.length ≠ r.ratChi2.length ∨ q.priorLines.length ≠ r.ratChi2.length) :
    setRatio r iz q = .throw .INTERNAL_ERROR := by
  unfold setRatio
  have := List.length_pos_iff.2 h0
  rw [if_neg (by omega)]
  by_cases h1 : iz ≥ r.redshifts.length
  · rw [if_pos h1]
  · rw [if_neg h1, if_pos]
    omega

/-- Writing the results of a fit succeeds when they fit the vectors. -/
theorem write_total (k : Flt V S C) {n nt nr iz : Nat} {Z : Type} {r : LmRes Z V S C} {o : FitOut V S C} (h : Shape n nt nr r)
    (hi : iz < n) (ho : OutFits nt nr o) : ∃ r', write r iz o = .ok r' := by
  have hn := h
  obtain ⟨ha, hz, ht, hr⟩ := h
  obtain ⟨a, ea⟩ := setElt_total o.merit (show iz < r.chi2.length by rw [ha.chi2]; exact hi)
  obtain ⟨b, eb⟩ := setElt_total o.sol (show iz < r.lmSol.length by rw [ha.lmSol]; exact hi)
  obtain ⟨c, ec⟩ := setElt_total o.cont (show iz < r.contSol.length by rw [ha.contSol]; exact hi)
  obtain ⟨d, ed⟩ := setElt_total o.scale (show iz < r.scaleMarg.length by rw [ha.scaleMarg]; exact hi)
  obtain ⟨t, et, htt⟩ : ∃ t, copyCol iz r.tplCont o.tplCol = .ok t ∧ List.Forall₂ (FrameAt iz k.dmax) r.tplCont t := by
    cases hc : o.tplCol with
    | none => exact ⟨_, rfl, FrameAt.rows _ _⟩
    | some col =>
      obtain ⟨t, ht'⟩ := setCol_total k.dmax (show col.length ≤ r.tplCont.length by rw [ht]; exact ho.tpl col hc) ha.tplCont hi
      exact ⟨t, ht', (setCol_ok ht' k.dmax).1⟩
  have hr1 : FrameAll k iz r { r with chi2 := a, lmSol := b, contSol := c, scaleMarg := d, tplCont := t } :=
    ⟨⟨(setElt_frame ea k.nan).1, (setElt_frame ed k.nan).1, (setElt_frame eb k.sol0).1, (setElt_frame ec k.cont0).1, FrameAt.rfl' _ _,
      FrameAt.rfl' _ _, htt, FrameAt.rows _ _, FrameAt.rows _ _, FrameAt.rows _ _, FrameAt.rows _ _, FrameAt.rows _ _,
      FrameAt.rows _ _, rfl⟩, rfl⟩
  have hs1 := hn.frame hr1
  obtain ⟨r2, er2, hs2⟩ : ∃ r2, copyRatio iz { r with chi2 := a, lmSol := b, contSol := c, scaleMarg := d, tplCont := t } o.ratio =
      .ok r2 ∧ Shape n nt nr r2 := by
    cases hq : o.ratio with
    | none => exact ⟨_, rfl, hs1⟩
    | some q =>
      obtain ⟨r2, hr2⟩ := setRatio_total k hs1 hi (ho.rat q hq)
      exact ⟨r2, hr2, hs1.frame (setRatio_ok k hr2).1⟩
  obtain ⟨e, ee⟩ := setElt_total o.contMerit (show iz < r2.chi2Cont.length by rw [hs2.al.chi2Cont]; exact hi)
  obtain ⟨f, ef⟩ := setElt_total o.contScale (show iz < r2.scaleMargCont.length by rw [hs2.al.scaleMargCont]; exact hi)
  unfold write
  rw [ea, Res.bind_ok, eb, Res.bind_ok, ec, Res.bind_ok, ed, Res.bind_ok, et, Res.bind_ok, er2,
    Res.bind_ok, ee, Res.bind_ok, ef, Res.bind_ok]
  exact ⟨_, rfl⟩

theorem fitAt_total {σ : Type} {K : Type} (k : Flt V S C) {n nt nr iz : Nat} {fit : Fit σ K V S C} {st : σ × LmRes K V S C}
    (h : Shape n nt nr st.2) (hi : iz < n) (hf : ∀ s z a b, ∃ s' o, fit s z a b = .ok (s', o) ∧ OutFits nt nr o) :
    ∃ st', fitAt fit iz st = .ok st' ∧ Shape n nt nr st'.2 := by
  obtain ⟨s', o, ho, hof⟩ := hf st.1 (st.2.redshifts[iz]'(by rw [h.zs]; exact hi)) (st.2.lmSol[iz]'(by rw [h.al.lmSol]; exact hi))
    (st.2.contSol[iz]'(by rw [h.al.contSol]; exact hi))
  obtain ⟨r', hr'⟩ := write_total k h hi hof
  refine ⟨(s', r'), ?_, h.frame (write_ok k hr').1⟩
  unfold fitAt
  rw [Res.at_of_lt (by rw [h.zs]; exact hi), Res.bind_ok, Res.at_of_lt (by rw [h.al.lmSol]; exact hi), Res.bind_ok,
    Res.at_of_lt (by rw [h.al.contSol]; exact hi), Res.bind_ok, ho, Res.bind_ok, hr', Res.bind_ok]

/-- **C100, failures.** When every fit succeeds, the first pass either succeeds or reports a null model; it reports it exactly when the
fits leave a null model at every redshift, so in particular on an empty grid. -/
theorem C100_null_model {σ : Type} (k : Flt V S C) (fit : Fit σ K V S C) (contAmp : C → Option K)
    (amps : S → List (Option K)) (st : σ) (r : LmRes K V S C) (n nt nr : Nat) (hr : Shape n nt nr r)
    (hf : ∀ s z a b, ∃ s' o, fit s z a b = .ok (s', o) ∧ OutFits nt nr o) :
    (∃ x, firstPass fit contAmp amps st r = .ok x) ∨
    (firstPass fit contAmp amps st r = .throw .NULL_MODEL ∧ ∃ r' : LmRes K V S C, r'.redshifts = r.redshifts ∧
      ∀ (i : Nat) (z : K), r.redshifts[i]? = some z → ∃ (s s' : σ) (a : S) (b : C) (o : FitOut V S C),
        fit s z a b = .ok (s', o) ∧ Written r' i o ∧ NullAt contAmp amps o) := by
  obtain ⟨x, hx, _⟩ := Res.foldN_inv (f := firstStep fit contAmp amps)
    (P := fun (_ : Nat) (y : (σ × LmRes K V S C) × List Bool) => Shape n nt nr y.1.2) r.redshifts.length 0 ((st, r), []) hr
    (by
      intro i y _ hi hP
      obtain ⟨w, hw, hws⟩ := fitAt_total k hP (show i < n by rw [hr.zs] at hi; omega) hf
      have l1 : i < w.2.lmSol.length := by rw [hws.al.lmSol]; rw [hr.zs] at hi; omega
      have l2 : i < w.2.contSol.length := by rw [hws.al.contSol]; rw [hr.zs] at hi; omega
      refine ⟨(w, y.2 ++ [zeroFlag contAmp amps w.2.lmSol[i] w.2.contSol[i]]), ?_, hws⟩
      unfold firstStep
      rw [hw, Res.bind_ok, Res.at_of_lt l1, Res.bind_ok, Res.at_of_lt l2, Res.bind_ok])
  obtain ⟨h1, h2, h3⟩ := firstLoop_ok k hx
  unfold firstPass
  rw [hx, Res.bind_ok]
  by_cases hz : allZero x.2 = true
  · rw [if_pos hz]
    refine .inr ⟨rfl, x.1.2, h1, fun i z hiz => ?_⟩
    obtain ⟨s, s', a, b, o, hf', hw, hfl⟩ := h3 i z hiz
    refine ⟨s, s', a, b, o, hf', hw, ?_⟩
    rw [← zeroFlag_iff]
    unfold allZero at hz
    rw [List.all_eq_true] at hz
    exact hz _ (List.mem_of_getElem? hfl)
  · rw [if_neg hz]
    exact .inl ⟨_, rfl⟩

/-- **C100.** A redshift where the continuum amplitude is not a number hides the null model: the first pass never reports it. -/
theorem C100_nan_hides {σ : Type} (k : Flt V S C) (fit : Fit σ K V S C) (contAmp : C → Option K)
    (amps : S → List (Option K)) (st : σ) (r : LmRes K V S C) (n nt nr : Nat) (hr : Shape n nt nr r) (hn : 0 < n)
    (hf : ∀ s z a b, ∃ s' o, fit s z a b = .ok (s', o) ∧ OutFits nt nr o ∧ contAmp o.cont = none) :
    ∃ x, firstPass fit contAmp amps st r = .ok x := by
  rcases C100_null_model k fit contAmp amps st r n nt nr hr
    (fun s z a b => by obtain ⟨s', o, h1, h2, _⟩ := hf s z a b; exact ⟨s', o, h1, h2⟩) with h | ⟨_, r', _, h⟩
  · exact h
  · exfalso
    obtain ⟨s, s', a, b, o, h1, h2, h3⟩ := h 0 (r.redshifts[0]'(by rw [hr.zs]; exact hn)) (List.getElem?_eq_getElem _)
    obtain ⟨t, o', g1, g2, g3⟩ := hf s (r.redshifts[0]'(by rw [hr.zs]; exact hn)) a b
    rw [h1] at g1
    simp only [Res.ok.injEq, Prod.mk.injEq] at g1
    obtain ⟨rfl, rfl⟩ := g1
    obtain ⟨v, hv, _⟩ := h3.2
    rw [g3] at hv
    simp at hv

/-! ## The recomputation around the candidates -/

/-- A column changed at most at the indices which are not in `P`. -/
def FrameOff (P : Nat → Prop) {β : Type} (_ : β) (a b : List β) : Prop := b.length = a.length ∧ ∀ i : Nat, P i → b[i]? = a[i]?

theorem FrameOff.rows' {P : Nat → Prop} {β : Type} (d : β) (t : List (List β)) : List.Forall₂ (FrameOff P d) t t := by
  induction t with
  | nil => exact .nil
  | cons x t ih => exact .cons ⟨rfl, fun _ _ => rfl⟩ ih

/-- The frame of the columns off a set of indices. -/
def FrameSet (k : Flt V S C) (P : Nat → Prop) {Z : Type} (r r' : LmRes Z V S C) : Prop :=
  AllCols k (fun {β} d a b => FrameOff P (β := β) d a b) r r' ∧ r'.redshifts = r.redshifts

theorem FrameSet.refl (k : Flt V S C) (P : Nat → Prop) {Z : Type} (a : LmRes Z V S C) : FrameSet k P a a :=
  ⟨⟨⟨rfl, fun _ _ => rfl⟩, ⟨rfl, fun _ _ => rfl⟩, ⟨rfl, fun _ _ => rfl⟩, ⟨rfl, fun _ _ => rfl⟩, ⟨rfl, fun _ _ => rfl⟩,
    ⟨rfl, fun _ _ => rfl⟩, FrameOff.rows' _ _, FrameOff.rows' _ _, FrameOff.rows' _ _, FrameOff.rows' _ _, FrameOff.rows' _ _,
    FrameOff.rows' _ _, FrameOff.rows' _ _, rfl⟩, rfl⟩

theorem FrameSet.step {k : Flt V S C} {P : Nat → Prop} {iz : Nat} {Z : Type} {a b c : LmRes Z V S C} (h1 : FrameSet k P a b)
    (h2 : FrameAll k iz b c) (hP : ¬ P iz) : FrameSet k P a c :=
  ⟨AllCols.trans (P := fun {β} d a b => FrameOff P (β := β) d a b) (Q := fun {β} d a b => FrameAt iz (β := β) d a b)
    (fun d x y z h1 h2 => ⟨h2.1.trans h1.1, fun i hi => (h2.2 i (fun h => hP (h ▸ hi))).trans (h1.2 i hi)⟩) h1.1 h2.1,
    h2.2.trans h1.2⟩

theorem getIndex_ok {l : List K} {z : K} {i : Nat} (h : getIndex l z = .ok i) : l[i]? = some z := by
  obtain ⟨hi, hv, _⟩ := (C08_getIndex l z).1 i h
  rw [List.getElem?_eq_getElem hi, hv]

/-- In a strictly increasing grid a redshift has one index. -/
theorem idx_unique {l : List K} (hs : l.Pairwise (· < ·)) {i j : Nat} {z : K} (hi : l[i]? = some z) (hj : l[j]? = some z) :
    i = j := by
  obtain ⟨h1, e1⟩ := List.getElem?_eq_some_iff.1 hi
  obtain ⟨h2, e2⟩ := List.getElem?_eq_some_iff.1 hj
  rw [List.pairwise_iff_getElem] at hs
  rcases lt_trichotomy i j with h | h | h
  · have := hs i j h1 h2 h; rw [e1, e2] at this; exact absurd this (lt_irrefl _)
  · exact h
  · have := hs j i h2 h1 h; rw [e1, e2] at this; exact absurd this (lt_irrefl _)

/-- What is known about the index `i` after a loop: it was written last by a fit at its redshift, from a state where `look` is `c`. -/
def FitBy {σ Obs : Type} (fit : Fit σ K V S C) (look : σ → Obs) (c : Obs) (r : LmRes K V S C) (i : Nat) (z : K) : Prop :=
  ∃ (s s' : σ) (a : S) (b : C) (o : FitOut V S C), fit s z a b = .ok (s', o) ∧ look s = c ∧ Written r i o

theorem recomputeWindow_ok {σ Obs : Type} (k : Flt V S C) {fit : Fit σ K V S C} (look : σ → Obs)
    (hlook : ∀ s z a b s' o, fit s z a b = .ok (s', o) → look s' = look s) {win : List K} {st st' : σ × LmRes K V S C}
    (hs : st.2.redshifts.Pairwise (· < ·)) (h : recomputeWindow fit win st = .ok st') :
    look st'.1 = look st.1 ∧ (∀ z ∈ win, z ∈ st.2.redshifts) ∧
    FrameSet k (fun i => ∀ z, st.2.redshifts[i]? = some z → z ∉ win) st.2 st'.2 ∧
    ∀ (i : Nat) (z : K), st.2.redshifts[i]? = some z →
      (z ∈ win → FitBy fit look (look st.1) st'.2 i z) ∧
      (z ∉ win → ∀ o, Written st.2 i o → Written st'.2 i o) := by
  have := SvdFit.foldL_ok (f := fun (z : K) (st : σ × LmRes K V S C) => getIndex st.2.redshifts z >>= fun iz => fitAt fit iz st)
    (P := fun (pre : List K) (u : σ × LmRes K V S C) => (look u.1 = look st.1 ∧ (∀ z ∈ pre, z ∈ st.2.redshifts) ∧
      ∀ P : Nat → Prop, (∀ (i : Nat) (z : K), z ∈ win → st.2.redshifts[i]? = some z → ¬ P i) → FrameSet k P st.2 u.2) ∧
      ∀ (i : Nat) (z : K), st.2.redshifts[i]? = some z →
      (z ∈ pre → FitBy fit look (look st.1) u.2 i z) ∧
      (z ∉ pre → ∀ o, Written st.2 i o → Written u.2 i o)) win [] st st'
    ⟨⟨rfl, by simp, fun P _ => FrameSet.refl k P _⟩, fun i z _ => ⟨by simp, fun _ o ho => ho⟩⟩
    (by
      intro pre a u u' ha hP hstep
      obtain ⟨⟨p1, p2, p3⟩, p4⟩ := hP
      have hz := (p3 (fun _ => False) (by simp)).2
      rw [Res.bind_eq_ok] at hstep
      obtain ⟨iz, hiz, hstep⟩ := hstep
      rw [hz] at hiz
      have hget := getIndex_ok hiz
      obtain ⟨z, s0, c0, o, ez, es, ec, hfit, hfr, hw⟩ := fitAt_ok k hstep
      rw [hz, hget] at ez
      obtain rfl := Option.some.inj ez
      refine ⟨⟨(hlook _ _ _ _ _ _ hfit).trans p1, ?_, fun P hP => (p3 P hP).step hfr (hP iz a ha hget)⟩, fun i z hi => ?_⟩
      · intro z hz
        rcases List.mem_append.1 hz with h | h
        · exact p2 z h
        · rw [List.mem_singleton] at h
          rw [h]
          exact List.mem_of_getElem? hget
      · by_cases hii : i = iz
        · subst hii
          rw [hget] at hi
          obtain rfl := Option.some.inj hi
          refine ⟨fun _ => ⟨_, _, _, _, o, hfit, p1, hw⟩, fun hn => absurd (by simp) hn⟩
        · have hne : z ≠ a := fun h => hii (idx_unique hs hi (h ▸ hget))
          refine ⟨fun hm => ?_, fun hm o' ho' => ?_⟩
          · have hm' : z ∈ pre := by
              rcases List.mem_append.1 hm with h | h
              · exact h
              · exact absurd (List.mem_singleton.1 h) hne
            obtain ⟨s1, s2, x, y, o', g1, g2, g3⟩ := (p4 i z hi).1 hm'
            exact ⟨s1, s2, x, y, o', g1, g2, g3.frame hfr hii⟩
          · exact ((p4 i z hi).2 (fun h => hm (by simp [h])) o' ho').frame hfr hii)
    h
  obtain ⟨⟨h1, h2, h3⟩, h4⟩ := this
  exact ⟨h1, h2, h3 _ (fun i z hz hi hP => hP z hi hz), h4⟩

/-- **C101.** The recomputation around the candidates. `look` is what the fit depends on and the candidate decides (velocities, choice
of continuum); the code sets it for each candidate (`hset`) and a fit leaves it as it is (`hlook`). When the recomputation succeeds, the
redshifts outside of every window keep all their results; a redshift of a window holds the results of one fit at that redshift, done
with the parameters of the last candidate whose window contains it. -/
theorem C101_recompute {σ Obs : Type} (k : Flt V S C) (fit : Fit σ K V S C) (setVel : K → K → σ → σ) (setCont : Nat → σ → σ)
    (look : σ → Obs) (conf : Nat → Cand K → Obs)
    (hset : ∀ i c s, look (setCont i (setVel c.elv c.alv s)) = conf i c)
    (hlook : ∀ s z a b s' o, fit s z a b = .ok (s', o) → look s' = look s)
    (cands : List (Cand K)) (st st' : σ × LmRes K V S C) (hs : st.2.redshifts.Pairwise (· < ·))
    (h : recompute fit setVel setCont cands st = .ok st') :
    0 < cands.length ∧ (∀ c ∈ cands, ∀ z ∈ c.win, z ∈ st.2.redshifts) ∧
    FrameSet k (fun i => ∀ z, st.2.redshifts[i]? = some z → ∀ c ∈ cands, z ∉ c.win) st.2 st'.2 ∧
    ∀ (i : Nat) (z : K), st.2.redshifts[i]? = some z → (∃ c ∈ cands, z ∈ c.win) →
      ∃ (j : Nat) (c : Cand K), cands[j]? = some c ∧ z ∈ c.win ∧
        (∀ (j' : Nat) (c' : Cand K), j < j' → cands[j']? = some c' → z ∉ c'.win) ∧
        FitBy fit look (conf j c) st'.2 i z := by
  unfold recompute at h
  split at h
  · simp at h
  rename_i hne
  have := TplFit.Res.foldN_inv_ok
    (f := fun i st => Res.at_ cands i >>= fun c => recomputeCand fit setVel setCont i c st)
    (P := fun (n : Nat) (u : σ × LmRes K V S C) =>
      (∀ (j : Nat) (c : Cand K), j < n → cands[j]? = some c → ∀ z ∈ c.win, z ∈ st.2.redshifts) ∧
      FrameSet k (fun i => ∀ z, st.2.redshifts[i]? = some z → ∀ c ∈ cands, z ∉ c.win) st.2 u.2 ∧
      ∀ (i : Nat) (z : K), st.2.redshifts[i]? = some z →
        (∃ (j : Nat) (c : Cand K), j < n ∧ cands[j]? = some c ∧ z ∈ c.win) →
        ∃ (j : Nat) (c : Cand K), j < n ∧ cands[j]? = some c ∧ z ∈ c.win ∧
          (∀ (j' : Nat) (c' : Cand K), j < j' → j' < n → cands[j']? = some c' → z ∉ c'.win) ∧
          FitBy fit look (conf j c) u.2 i z)
    cands.length 0 st st'
    ⟨fun j c hj => absurd hj (by omega), FrameSet.refl k _ _, fun i z _ ⟨j, c, hj, _⟩ => absurd hj (by omega)⟩
    (by
      intro n u u' _ hn hP hstep
      obtain ⟨p1, p2, p3⟩ := hP
      simp only [Res.bind_eq_ok, Res.at_eq_ok] at hstep
      obtain ⟨c, hc, hstep⟩ := hstep
      unfold recomputeCand at hstep
      simp only [Res.bind_eq_ok] at hstep
      obtain ⟨_, _, _, _, hstep⟩ := hstep
      have hz := p2.2
      obtain ⟨w1, w2, w3, w4⟩ := recomputeWindow_ok k look hlook (st := (setCont n (setVel c.elv c.alv u.1), u.2))
        (by simp only; rw [hz]; exact hs) hstep
      simp only [hz] at w1 w2 w3 w4
      refine ⟨?_, ?_, ?_⟩
      · intro j c' hj hc' z hzw
        by_cases hjn : j = n
        · subst hjn
          rw [hc] at hc'
          obtain rfl := Option.some.inj hc'
          exact w2 z hzw
        · exact p1 j c' (by omega) hc' z hzw
      · have hmem : c ∈ cands := List.mem_of_getElem? hc
        refine ⟨AllCols.trans (fun d x y z h1 h2 => ⟨h2.1.trans h1.1, fun i hi => ?_⟩) p2.1 w3.1, w3.2.trans hz⟩
        rw [h2.2 i (fun z hz' => hi z hz' c hmem), h1.2 i hi]
      · intro i z hi hex
        by_cases hzc : z ∈ c.win
        · refine ⟨n, c, by omega, hc, hzc, fun j' c' h1 h2 => by omega, ?_⟩
          have := (w4 i z hi).1 hzc
          rw [hset] at this
          exact this
        · obtain ⟨j, c', hj, hc', hzc'⟩ := hex
          have hjn : j < n := by
            rcases Nat.lt_or_ge j n with h | h
            · exact h
            · have : j = n := by omega
              subst this
              rw [hc] at hc'
              obtain rfl := Option.some.inj hc'
              exact absurd hzc' hzc
          obtain ⟨j2, c2, q1, q2, q3, q4, q5⟩ := p3 i z hi ⟨j, c', hjn, hc', hzc'⟩
          refine ⟨j2, c2, by omega, q2, q3, fun j' c'' h1 h2 h3 => ?_, ?_⟩
          · by_cases hjn' : j' = n
            · subst hjn'
              rw [hc] at h3
              obtain rfl := Option.some.inj h3
              exact hzc
            · exact q4 j' c'' h1 (by omega) h3
          · obtain ⟨s1, s2, x, y, o, g1, g2, g3⟩ := q5
            exact ⟨s1, s2, x, y, o, g1, g2, (w4 i z hi).2 hzc o g3⟩)
    h
  obtain ⟨h1, h2, h3⟩ := this
  refine ⟨by omega, fun c hc => ?_, h2, fun i z hi ⟨c, hc, hzc⟩ => ?_⟩
  · obtain ⟨j, hj, rfl⟩ := List.getElem_of_mem hc
    exact h1 j _ (by omega) (List.getElem?_eq_getElem hj)
  · obtain ⟨j, hj, rfl⟩ := List.getElem_of_mem hc
    obtain ⟨j2, c2, q1, q2, q3, q4, q5⟩ := h3 i z hi ⟨j, _, by omega, List.getElem?_eq_getElem hj, hzc⟩
    refine ⟨j2, c2, q2, q3, fun j' c' g1 g2 => q4 j' c' g1 ?_ g2, q5⟩
    have := (List.getElem?_eq_some_iff.1 g2).1
    omega

theorem recomputeWindow_total {σ : Type} (k : Flt V S C) {n nt nr : Nat} {fit : Fit σ K V S C}
    (hf : ∀ s z a b, ∃ s' o, fit s z a b = .ok (s', o) ∧ OutFits nt nr o) (win : List K) :
    ∀ st : σ × LmRes K V S C, Shape n nt nr st.2 → (∀ z ∈ win, z ∈ st.2.redshifts) →
    ∃ st', recomputeWindow fit win st = .ok st' ∧ Shape n nt nr st'.2 ∧ st'.2.redshifts = st.2.redshifts := by
  induction win with
  | nil => intro st hs _; exact ⟨st, rfl, hs, rfl⟩
  | cons z win ih =>
    intro st hs hw
    obtain ⟨iz, hiz⟩ := getIndex_mem st.2.redshifts z (hw z (by simp))
    have hlt : iz < n := by
      have := (List.getElem?_eq_some_iff.1 (getIndex_ok hiz)).1
      rw [hs.zs] at this
      exact this
    obtain ⟨u, hu, hsu⟩ := fitAt_total k hs hlt hf
    obtain ⟨_, _, _, _, _, _, _, _, hfr, _⟩ := fitAt_ok k hu
    obtain ⟨u', hu', hsu', hz'⟩ := ih u hsu (fun x hx => by rw [hfr.2]; exact hw x (by simp [hx]))
    refine ⟨u', ?_, hsu', hz'.trans hfr.2⟩
    unfold recomputeWindow EltList.foldL
    simp only [hiz, Res.bind_ok, hu]
    exact hu'

/-- **C101, totality.** When every fit succeeds and the candidates and their windows are redshifts of the grid, the recomputation
succeeds; without candidate it is an error. -/
theorem C101_total {σ : Type} (k : Flt V S C) (n nt nr : Nat) (fit : Fit σ K V S C) (setVel : K → K → σ → σ)
    (setCont : Nat → σ → σ) (cands : List (Cand K)) (st : σ × LmRes K V S C) :
    (cands = [] → recompute fit setVel setCont cands st = .throw .INTERNAL_ERROR) ∧
    (cands ≠ [] → Shape n nt nr st.2 → (∀ s z a b, ∃ s' o, fit s z a b = .ok (s', o) ∧ OutFits nt nr o) →
      (∀ c ∈ cands, c.z ∈ st.2.redshifts ∧ c.win ≠ [] ∧ ∀ z ∈ c.win, z ∈ st.2.redshifts) →
      ∃ st', recompute fit setVel setCont cands st = .ok st') := by
  refine ⟨fun h => by subst h; rfl, fun hne hs hf hc => ?_⟩
  unfold recompute
  have : 0 < cands.length := List.length_pos_of_ne_nil hne
  rw [if_neg (by omega)]
  obtain ⟨st', h, _⟩ := Res.foldN_inv
    (f := fun (i : Nat) (st : σ × LmRes K V S C) => Res.at_ cands i >>= fun c => recomputeCand fit setVel setCont i c st)
    (P := fun (_ : Nat) (u : σ × LmRes K V S C) => Shape n nt nr u.2 ∧ u.2.redshifts = st.2.redshifts)
    cands.length 0 st ⟨hs, rfl⟩
    (by
      intro i u _ hi hP
      obtain ⟨g1, g2, g3⟩ := hc (cands[i]'(by omega)) (List.getElem_mem _)
      obtain ⟨iz, hiz⟩ := getIndex_mem u.2.redshifts (cands[i]'(by omega)).z (by rw [hP.2]; exact g1)
      obtain ⟨u', hu', hsu, hz⟩ := recomputeWindow_total k hf (cands[i]'(by omega)).win
        (setCont i (setVel (cands[i]'(by omega)).elv (cands[i]'(by omega)).alv u.1), u.2) hP.1 (by rw [hP.2]; exact g3)
      refine ⟨u', ?_, hsu, hz.trans hP.2⟩
      rw [Res.at_of_lt (by omega), Res.bind_ok]
      unfold recomputeCand
      simp only [hiz, Res.bind_ok]
      rw [Res.at_of_lt (List.length_pos_of_ne_nil g2), Res.bind_ok]
      exact hu')
  exact ⟨st', h⟩

end

/-! ## A concrete case -/

/-- Results on four redshifts, one template and one ratio catalog. -/
def exR : LmRes ℚ ℚ ℚ ℚ where
  redshifts := [0, 1, 2, 3]
  chi2 := [0, 0, 0, 0]
  scaleMarg := [0, 0, 0, 0]
  lmSol := [0, 0, 0, 0]
  contSol := [0, 0, 0, 0]
  chi2Cont := [0, 0, 0, 0]
  scaleMargCont := [0, 0, 0, 0]
  tplCont := [[0, 0, 0, 0]]
  ratChi2 := [[0, 0, 0, 0]]
  ratScale := [[0, 0, 0, 0]]
  ratStrong := [[false, false, false, false]]
  ratHa := [[false, false, false, false]]
  ratN := [[0, 0, 0, 0]]
  ratPrior := [1]
  ratPriorLines := [[0, 0, 0, 0]]

/-- A fit whose state is the velocity; the merit is ten times the redshift plus the velocity. -/
def exFit : Fit ℚ ℚ ℚ ℚ ℚ := fun s z _ _ =>
  .ok (s, ⟨10 * z + s, z, s, z - 2, 7, 8, some [z + s], some ⟨[z * s], [z], [true], [false], [3], [5]⟩⟩)

theorem exShape : Shape 4 1 1 exR := by
  refine ⟨⟨rfl, rfl, rfl, rfl, rfl, rfl, ?_, ?_, ⟨rfl, ?_⟩, ⟨rfl, ?_⟩, ⟨rfl, ?_⟩, ⟨rfl, ?_⟩, ⟨rfl, ?_⟩⟩, rfl, rfl, rfl⟩ <;>
    simp [exR]

theorem exFit_fits : ∀ s z a b, ∃ s' o, exFit s z a b = .ok (s', o) ∧ OutFits 1 1 o :=
  fun s z a b => ⟨_, _, rfl, ⟨fun col h => by obtain rfl := Option.some.inj h; simp,
    fun q h => by obtain rfl := Option.some.inj h; simp⟩⟩

/-- Two candidates: the windows meet at 2, which is fitted with the velocity of the second; 0 is not touched. -/
example : (recompute exFit (fun e _ _ => e) (fun _ s => s) [⟨1, [1, 2], 100, 0⟩, ⟨3, [2, 3], 200, 0⟩] (0, exR) >>=
    fun x => (.ok (x.2.chi2, x.2.ratChi2) : Res _)) = .ok ([0, 110, 220, 230], [[0, 100, 400, 600]]) := by decide +kernel

example := C101_recompute (Obs := ℚ) (⟨0, 0, 0, 0, 0⟩ : Flt ℚ ℚ ℚ) exFit (fun e _ _ => e) (fun _ s => s) id
  (fun _ c => c.elv) (fun _ _ _ => rfl) (fun s z a b s' o h => by simp only [exFit, Res.ok.injEq, Prod.mk.injEq] at h; exact h.1.symm)
  [⟨1, [1, 2], 100, 0⟩, ⟨3, [2, 3], 200, 0⟩] (0, exR)

example : ∃ st', recompute exFit (fun e _ _ => e) (fun _ s => s) [⟨1, [1, 2], 100, 0⟩, ⟨3, [2, 3], 200, 0⟩] (0, exR) = .ok st' :=
  (C101_total (⟨0, 0, 0, 0, 0⟩ : Flt ℚ ℚ ℚ) 4 1 1 exFit _ _ _ _).2 (by simp) exShape exFit_fits (by simp [exR])

/-- The first pass fits every redshift; here the model is not null at 3 only. -/
example : (firstPass exFit (fun c => some c) (fun s => [some s]) 0 exR >>= fun x => (.ok x.2.chi2 : Res _)) = .ok [0, 10, 20, 30] := by
  decide +kernel

/-- A model null everywhere is reported, but not when a continuum amplitude is not a number. -/
example : firstPass exFit (fun c => some (c - 1)) (fun s => [some s, none]) 0 exR = .throw .NULL_MODEL ∧
    (firstPass exFit (fun _ => none) (fun s => [some s, none]) 0 exR >>= fun x => (.ok x.2.chi2 : Res _)) = .ok [0, 10, 20, 30] := by
  decide +kernel

example := C100_null_model (⟨0, 0, 0, 0, 0⟩ : Flt ℚ ℚ ℚ) exFit (fun c => some c) (fun s => [some s]) 0 exR 4 1 1 exShape exFit_fits

end SecondPass
end Amazed
