import Verif.Props.LmSolveProps

set_option linter.unusedVariables false
set_option linter.unusedSimpArgs false
set_option linter.unusedSectionVars false

/-! # C182 (counter-example), C184: number of candidates of the line model solver -/

namespace Amazed
namespace LmSolve
open LmResult LmCands PdfOp Pdfz

variable {V S C E : Type}

theorem pick_length {c : Extremum.Cfg ℝ} {peaks : List (ℝ × Option ℝ)} : ∀ {l : List Nat} {r : List (ℝ × Option ℝ)},
    Extremum.pickSorted c peaks l = .ok r → r.length = l.length := by
  intro l
  induction l with
  | nil => intro r h; cases h; rfl
  | cons i is ih =>
    intro r h
    unfold Extremum.pickSorted at h
    obtain ⟨p, -, h⟩ := Res.bind_eq_ok.1 h
    obtain ⟨q, h1, h⟩ := Res.bind_eq_ok.1 h
    cases h
    rw [List.length_cons, List.length_cons, ih h1]

/-- Without separation at most the wanted number of peaks is found in a window. -/
theorem find_length {c : Extremum.Cfg ℝ} (hsep : c.separation ≤ 0) {sorter : List (Option ℝ) → List Nat} {x : List ℝ} {y : List (Option ℝ)}
    {fp : Bool} {pts : List (ℝ × Option ℝ)} (h : Extremum.find c sorter x y fp = .ok pts) : pts.length ≤ c.maxPeakCount.toNat := by
  unfold Extremum.find at h
  by_cases hx : x.length = 0
  · rw [if_pos hx] at h; cases h
  rw [if_neg hx] at h
  by_cases hy : x.length ≠ y.length
  · rw [if_pos hy] at h; cases h
  rw [if_neg hy] at h
  obtain ⟨be, -, h⟩ := Res.bind_eq_ok.1 h
  obtain ⟨idx, -, h⟩ := Res.bind_eq_ok.1 h
  obtain ⟨peaks, -, h⟩ := Res.bind_eq_ok.1 h
  by_cases h0 : peaks.length = 0
  · rw [if_pos h0] at h
    cases fp with
    | true => cases h
    | false => cases h; simp
  · rw [if_neg h0] at h
    unfold Extremum.select at h
    by_cases h1 : peaks.length ≥ 2 ∧ (peaks.any fun p => p.2.isNone) = true
    · rw [if_pos h1] at h; cases h
    rw [if_neg h1] at h
    obtain ⟨cut, -, h⟩ := Res.bind_eq_ok.1 h
    rw [if_neg (not_lt.2 hsep)] at h
    unfold Extremum.truncate at h
    simp only at h
    split_ifs at h with h2
    rw [pick_length h, List.length_take]
    omega

/-- The ranking keeps at most the number of candidates asked. -/
theorem ranked_length {mc : Int} {zsorter : List (Candidates.Cand ℝ) → List (Candidates.Cand ℝ)} {zs p : List ℝ} {ml : List (String × ℝ × ℝ)} {r : List ((String × ℝ) × Nat)}
    (hr : Candidates.compute zsorter mc zs p ml = .ok r) : r.length ≤ ml.length ∧ (0 ≤ mc → r.length ≤ mc.toNat) := by
  unfold Candidates.compute at hr
  obtain ⟨cs, c1, hr⟩ := Res.bind_eq_ok.1 hr
  obtain ⟨zb, -, hr⟩ := Res.bind_eq_ok.1 hr
  obtain ⟨ze, -, hr⟩ := Res.bind_eq_ok.1 hr
  obtain ⟨slots, -, hr⟩ := Res.bind_eq_ok.1 hr
  obtain ⟨qs, d1, hr⟩ := Res.bind_eq_ok.1 hr
  have hr' := (Res.ok.inj hr).symm
  have e1 : ∀ (l : List (String × ℝ × ℝ)) (cs : List (Candidates.Cand ℝ)), Candidates.withDeltaz zs p l = .ok cs → cs.length = l.length := by
    intro l
    induction l with
    | nil => intro cs h; cases h; rfl
    | cons x xs ih =>
      intro cs h
      unfold Candidates.withDeltaz at h
      obtain ⟨dz, -, h⟩ := Res.bind_eq_ok.1 h
      obtain ⟨r', h1, h⟩ := Res.bind_eq_ok.1 h
      cases h
      rw [List.length_cons, List.length_cons, ih _ h1]
  have e2 : ∀ (l : List (Candidates.Cand ℝ)) (qs : List (String × ℝ)), Candidates.probaLoop zs p slots l = .ok qs → qs.length = l.length := by
    intro l
    induction l with
    | nil => intro qs h; cases h; rfl
    | cons x xs ih =>
      intro qs h
      unfold Candidates.probaLoop at h
      split at h
      · cases h
      · obtain ⟨v, -, h⟩ := Res.bind_eq_ok.1 h
        obtain ⟨r', h1, h⟩ := Res.bind_eq_ok.1 h
        cases h
        rw [List.length_cons, List.length_cons, ih _ h1]
  have hq : qs.length = ml.length := by rw [e2 _ _ d1, e1 _ _ c1]
  rw [hr']
  unfold Candidates.rank Candidates.sortByProba
  rw [List.length_zipIdx, List.length_take, List.length_reverse, List.length_mergeSort, List.length_reverse]
  constructor
  · omega
  · intro h0
    rw [if_neg (by omega)]
    omega

/-- The candidates of a PDF are at most as many as the windows times the number of peaks wanted in each. -/
theorem compute_length {c : Cfg} (hsep : c.peakSep ≤ 0) {sorter : List (Option ℝ) → List Nat}
    {zsorter : List (Candidates.Cand ℝ) → List (Candidates.Cand ℝ)} {g : Res (List ℝ)} {a : Pdfz.ChisquareArray} {ids : List String}
    {rs : List (Range ℝ)} {out : List Out} (hl : rs.length = ids.length) (h : PdfOp.compute c sorter zsorter g a ids rs = .ok out) :
    out.length ≤ (windows ids rs).length * c.perWindow.toNat ∧ (0 ≤ c.maxCand → out.length ≤ c.maxCand.toNat) := by
  unfold PdfOp.compute at h
  rw [if_neg (by simpa using hl)] at h
  obtain ⟨g', -, h⟩ := Res.bind_eq_ok.1 h
  split_ifs at h
  obtain ⟨p, hp, h⟩ := Res.bind_eq_ok.1 h
  obtain ⟨m, hm, h⟩ := Res.bind_eq_ok.1 h
  obtain ⟨r, hr, h⟩ := Res.bind_eq_ok.1 h
  have ho : out = r.filterMap (outOf m) := (Res.ok.inj h).symm
  obtain ⟨ps, q1, q2, -, -⟩ := C140_search (windows_nodup ids rs) hm
  have hml : m.length ≤ (windows ids rs).length * c.perWindow.toNat := by
    rw [q2.length_eq]
    clear q2 hm hr
    generalize ((windows ids rs).length == 1) = sg at q1
    generalize windows ids rs = W at q1
    induction q1 with
    | nil => simp
    | @cons w p ws ps hw _ ih =>
      rw [List.zipWith_cons_cons, List.flatten_cons, List.length_append, List.length_cons, Nat.add_mul, Nat.one_mul]
      have := find_length (c := c.ext w.2) hsep hw
      have e : (entriesOf c.pre w.1 p 0).length = p.length := by simp [entriesOf]
      rw [e]
      have : p.length ≤ c.perWindow.toNat := this
      omega
  have hrl : r.length ≤ m.length ∧ (0 ≤ c.maxCand → r.length ≤ c.maxCand.toNat) := by
    have := ranked_length hr
    rwa [List.length_map] at this
  have hf : out.length ≤ r.length := by rw [ho]; exact List.length_filterMap_le _ _
  exact ⟨by omega, fun h0 => by have := hrl.2 h0; omega⟩

/-- **C184 (partial).** The solver gives at most as many candidates as there were first pass candidates with a window, and at most `extremaCount`;
without a second pass it gives exactly one, however many peaks the PDF has and whatever `extremaCount` asks. The claim that without second pass the
`extremaCount` best peaks are given is false (`C184_false`). -/
theorem C184_number_partial (o : Opts) (n : Env V S C E) {r2 : LmRes ℝ V S C} {ids : List String} {ws : List (Range ℝ)} {out : List Out} {pdf : List ℝ}
    (h : find n (spCfg o) r2 ids ws = .ok (out, pdf)) (hl : ws.length = ids.length) :
    (ids ≠ [] → ids.Nodup → out.length ≤ ids.length) ∧ (0 ≤ o.extCount → out.length ≤ o.extCount.toNat) ∧ (ids = [] → out.length ≤ 1) := by
  unfold find at h
  obtain ⟨a, h1, h⟩ := Res.bind_eq_ok.1 h
  obtain ⟨l, h2, h⟩ := Res.bind_eq_ok.1 h
  obtain ⟨p, h3, h⟩ := Res.bind_eq_ok.1 h
  cases h
  obtain ⟨g1, g2⟩ := compute_length (c := spCfg o) le_rfl hl h2
  have hw : (spCfg o).perWindow.toNat = 1 := rfl
  rw [hw, Nat.mul_one] at g1
  refine ⟨fun hne hnd => ?_, g2, fun he => ?_⟩
  · rw [(C140_windows hne hnd hl).2] at g1; exact g1
  · subst he
    have : (windows [] ws).length = 1 := by unfold windows; rw [if_pos rfl]; rfl
    omega

/-- **C184** (first pass). The first pass keeps at most `extremaCountFirstpass` candidates; they are peaks of the PDF it returns, searched in the whole grid with the border accepted, with
two half windows between them and with the cut asked for. -/
theorem C184_first (o : Opts) (n : Env V S C E) {pre : String} {r : LmRes ℝ V S C} {p : PassRes ℝ C} {pdf : List ℝ} (h : pass o n pre = .ok (r, p, pdf)) :
    n.first o.cont = .ok r ∧ (0 ≤ o.maxCand → p.cands.length ≤ o.maxCand.toNat) ∧
    ∃ a pts, n.chi r = .ok a ∧ Pdfz.combinePdf o.comb a = .ok pdf ∧ Extremum.find ⟨o.maxCand, 2 * o.halfWindow, o.cut, false, true, ⟨0, 0⟩⟩ n.sorter a.redshifts (pdf.map some) true = .ok pts ∧
      ∀ x ∈ p.cands, ∃ z v, x = some z ∧ z.parent = "" ∧ (z.z, v) ∈ pts := by
  unfold pass at h
  obtain ⟨r1, h1, h⟩ := Res.bind_eq_ok.1 h
  obtain ⟨x, h2, h⟩ := Res.bind_eq_ok.1 h
  obtain ⟨q, h3, h⟩ := Res.bind_eq_ok.1 h
  cases h
  unfold find at h2
  obtain ⟨a, ha, h2⟩ := Res.bind_eq_ok.1 h2
  obtain ⟨l, hl, h2⟩ := Res.bind_eq_ok.1 h2
  obtain ⟨pdf, hpdf, h2⟩ := Res.bind_eq_ok.1 h2
  cases h2
  have hc := (setFirst_lengths _ _ _ _ _ _ _ h3).1
  unfold PdfOp.compute at hl
  rw [if_neg (by simp)] at hl
  obtain ⟨g', -, hl⟩ := Res.bind_eq_ok.1 hl
  split_ifs at hl
  obtain ⟨p', hp', hl⟩ := Res.bind_eq_ok.1 hl
  obtain ⟨m, hm, hl⟩ := Res.bind_eq_ok.1 hl
  obtain ⟨rr, hrr, hl⟩ := Res.bind_eq_ok.1 hl
  have ho := (Res.ok.inj hl).symm
  have ep : p' = pdf := by rw [hpdf] at hp'; exact (Res.ok.inj hp').symm
  subst ep
  obtain ⟨-, pts, f1, -, f3⟩ := C140_first_pass hm
  refine ⟨h1, fun h0 => ?_, a, pts, ha, hp', ?_, ?_⟩
  · have g := (ranked_length hrr).2 h0
    have : l.length ≤ rr.length := by rw [ho]; exact List.length_filterMap_le _ _
    rw [hc, List.length_map, List.length_map]
    exact le_trans this g
  · exact f1
  · intro y hy
    rw [hc] at hy
    obtain ⟨z, hz, rfl⟩ := List.mem_map.1 hy
    obtain ⟨w, hw, rfl⟩ := List.mem_map.1 hz
    rw [show (l, p').1 = l from rfl, ho] at hw
    obtain ⟨t, -, ht⟩ := List.mem_filterMap.1 hw
    unfold outOf at ht
    cases hmf : LineCat.mapFind t.1.1 m with
    | none => 
      rw [hmf] at ht; cases ht
    | some f =>
      rw [hmf] at ht
      cases ht
      obtain ⟨g1, v, g2⟩ := f3 _ ((LineCat.mapFind_mem (search_keyed (windows_nodup [] []) hm) _ _).1 hmf)
      exact ⟨_, v, rfl, g1, g2⟩

/-- **C182** (when). The second first pass is run exactly when more than one of its candidates is asked for and the continuum is fitted with templates. -/
theorem C182_enabled (o : Opts) : enableB o = true ↔ 1 < o.extCountB ∧ (o.cont = "tplFit" ∨ o.cont = "tplFitAuto") := by
  unfold enableB
  simp only [Bool.and_eq_true, Bool.or_eq_true, decide_eq_true_eq, beq_iff_eq]
  constructor
  · rintro ⟨⟨-, h⟩, h'⟩; exact ⟨h', h⟩
  · rintro ⟨h, h'⟩; exact ⟨⟨by omega, h'⟩, h⟩

/-- A complete run without second pass saves exactly one candidate. -/
theorem C184_skip_one (o : Opts) (n : Env V S C E) (hskip : o.skip = true) (hz : IgnoresIds n.zsorter) (path : String)
    (s : ResultStore (Val V S C E)) (best : Out) (h : (compute o n path s).2 = .ok best) :
    ∃ r p pdf e, pass o n "FPE" = .ok (r, p, pdf) ∧ n.extr r p [best] = .ok e ∧
      (compute o n path s).1.global (ResultStore.storeKey path "extrema_results") = some (.extrema e) := by
  obtain ⟨vs, h1, h2, h3, h4⟩ := C183_stored o n hz path s
  obtain ⟨-, r, p, pdf1, l, r2, ws, ids, out, pdf2, e, k1, k2, k3, k4, k5, k6, k7, k8⟩ := h4 best h
  unfold secondIf at k3
  rw [if_pos hskip] at k3
  cases k3
  unfold parents at k4
  rw [if_pos rfl] at k4
  cases k4
  have hlen := (C184_number_partial o n k5 rfl).2.2 rfl
  have hout : out = [best] := by
    match out, hlen, k7 with
    | [x], _, k7 => simpa using k7
    | [], _, k7 => simp at k7
  subst hout
  refine ⟨r, p, pdf1, e, k1, k6, ?_⟩
  rw [h1, k8]
  simp only [names, List.zip_cons_cons, List.zip_nil_right, putAll, List.foldl_cons, List.foldl_nil, if_true]

/-! ## Examples and counter-examples -/

/-- A PDF combined from one merit: the order of the log probabilities is that of the merits. -/
theorem combine_order (zs cs : List ℝ) (hz : Grid zs) (hl : cs.length = zs.length) (h1 : ∀ c ∈ cs, c < 1e11)
    (hd : ∃ i j : Nat, ∃ (hi : i < cs.length) (hj : j < cs.length), cs[i] < cs[j]) :
    ∃ p : List ℝ, Pdfz.combinePdf "bestChi2" (Pdfz.arrayOf zs 5 [⟨cs, List.replicate zs.length 0, 1⟩]) = .ok p ∧ p.length = zs.length ∧
      ∀ (i j : Nat) (hi : i < cs.length) (hj : j < cs.length), cs[i] < cs[j] → p.getD j 0 < p.getD i 0 := by
  have hv : Pdfz.ValidTpls zs [⟨cs, List.replicate zs.length 0, 1⟩] :=
    { ne := by simp, chi2 := by simpa using hl, zprior := by simp, pos := by simp, sum := by norm_num }
  obtain ⟨⟨v, ev⟩, g1, g2, g3, g4, g5⟩ := Pdfz.C44_best_chi2 zs 5 [⟨cs, List.replicate zs.length 0, 1⟩] hz hv
  replace g3 : v.length = zs.length := g3
  have hbig : (1e11 : ℝ) ≤ Pdfz.dblMax := by
    unfold Pdfz.dblMax
    have h : (1 : ℝ) ≤ (2 : ℝ) ^ 971 := one_le_pow₀ (by norm_num)
    have h' : (2 ^ 53 - 1 : ℝ) * 1 ≤ (2 ^ 53 - 1) * 2 ^ 971 := mul_le_mul_of_nonneg_left h (by norm_num)
    have h'' : (1e11 : ℝ) ≤ (2 ^ 53 - 1 : ℝ) * 1 := by norm_num
    exact le_trans h'' h'
  have hmin : (List.range zs.length).map (Pdfz.minChi2 [⟨cs, List.replicate zs.length 0, 1⟩]) = cs := by
    apply List.ext_getElem
    · simp [hl]
    · intro i hi1 hi2
      have := h1 cs[i] (List.getElem_mem hi2)
      simp [Pdfz.minChi2, hi2]
      linarith
  rw [hmin] at g2
  have ho : ∀ (i j : Nat) (hi : i < cs.length) (hj : j < cs.length), cs[i] < cs[j] → v.getD j 0 < v.getD i 0 := by
    intro i j hi hj hij
    have hr : (List.replicate zs.length (0 : ℝ)).getD i 0 = (List.replicate zs.length (0 : ℝ)).getD j 0 := by
      rw [List.getD_eq_getElem?_getD, List.getD_eq_getElem?_getD, List.getElem?_replicate, List.getElem?_replicate, if_pos (by omega), if_pos (by omega)]
    refine (Pdfz.C25_order cs zs (List.replicate zs.length 0) _ _ _ hz (by omega) (by simp) g2 i j (by omega) (by omega) hr).1 ?_
    rw [List.getD_eq_getElem?_getD, List.getElem?_eq_getElem hi, List.getD_eq_getElem?_getD, List.getElem?_eq_getElem hj]
    exact hij
  refine ⟨v, ?_, g3, ho⟩
  rcases g5 with g5 | g5
  · exact g5
  · exfalso
    unfold Pdfz.combinePdf at g5
    rw [if_neg (by simp [Pdfz.arrayOf]), if_neg (by decide), if_pos rfl, g1, Res.bind_ok, Res.bind_ok] at g5
    obtain ⟨i, j, hi, hj, hij⟩ := hd
    have hlt := ho i j hi hj hij
    have hok : Pdfz.isPdfValid v zs = .ok () := by
      refine (Pdfz.C24_check v _ hz g3).2.2 ⟨⟨v.getD j 0, ?_, v.getD i 0, ?_, ne_of_lt hlt⟩, ?_⟩
      · rw [List.getD_eq_getElem?_getD, List.getElem?_eq_getElem (by rw [g3]; omega), Option.getD_some]; exact List.getElem_mem _
      · rw [List.getD_eq_getElem?_getD, List.getElem?_eq_getElem (by rw [g3]; omega), Option.getD_some]; exact List.getElem_mem _
      · simp only at g4
        rw [g4]; norm_num
    rw [show (Pdfz.arrayOf zs 5 [⟨cs, List.replicate zs.length 0, 1⟩]).redshifts = zs from rfl] at g5
    simp only at g5
    rw [hok, Res.bind_ok] at g5
    cases g5

/-- A result on a grid of three redshifts. -/
def exRes (w : ℝ) : LmRes ℝ Unit Unit String :=
  ⟨[0, w, 3], [], [], [(), (), ()], ["t", "t", "t"], [], [], [], [], [], [], [], [], [], []⟩

/-- First passes that depend on the continuum: the best redshift is 2 with the continuum of the spectrum, else 1. -/
noncomputable def exEnv : Env Unit Unit String Nat where
  first c := .ok (exRes (if c = "fromSpectrum" then 2 else 1))
  chi r := .ok (Pdfz.arrayOf r.redshifts 5 [⟨[10, 2, 30], List.replicate r.redshifts.length 0, 1⟩])
  regrid r _ := .ok r.redshifts
  second r _ _ := .ok (r, [])
  extr _ _ l := .ok l.length
  elv _ := none
  alv _ := none
  c0 := ""
  name := id
  sorter l := List.range l.length
  zsorter := id

theorem exEnv_sort : IgnoresIds exEnv.zsorter := fun _ _ => rfl

/-- Options with a second first pass asked, without second pass. -/
def exOpts : Opts := ⟨"bestChi2", 0, 0, 5, 5, 2, "tplFit", true⟩

/-- One peak in the middle: the candidate found, for the first passes and at the end. -/
theorem ex_find (c : Cfg) (hc : (∃ pre, c = fpCfg exOpts pre) ∨ c = spCfg exOpts) (w : ℝ) (h0 : 0 < w) (h3 : w < 3) :
    ∃ out pdf, find exEnv c (exRes w) [] [] = .ok (out, pdf) ∧ out.length = 1 ∧ ∀ o ∈ out, o.z = w := by
  have hz : Grid [0, w, 3] := ⟨by simp, by simp [h0, h3]⟩
  obtain ⟨p, p1, p2, p3⟩ := combine_order [0, w, 3] [10, 2, 30] hz rfl (by intro c hc; simp at hc; rcases hc with rfl | rfl | rfl <;> norm_num)
    ⟨1, 0, by simp, by simp, by norm_num⟩
  obtain ⟨x, y, z, rfl⟩ : ∃ x y z : ℝ, p = [x, y, z] := by
    match p, p2 with
    | [x, y, z], _ => exact ⟨x, y, z, rfl⟩
  have hxy : x < y := by simpa using p3 1 0 (by simp) (by simp) (by norm_num)
  have hzy : z < y := by simpa using p3 1 2 (by simp) (by simp) (by norm_num)
  have hopt : c.opt = "bestChi2" := by rcases hc with ⟨pre, rfl⟩ | rfl <;> rfl
  have hmc : c.maxCand = 5 := by rcases hc with ⟨pre, rfl⟩ | rfl <;> rfl
  have hsep : c.peakSep = 0 := by rcases hc with ⟨pre, rfl⟩ | rfl <;> simp [fpCfg, spCfg, exOpts]
  have hcut : c.cut = 0 := by rcases hc with ⟨pre, rfl⟩ | rfl <;> simp [fpCfg, spCfg, exOpts]
  have hpw : 0 < c.perWindow := by rcases hc with ⟨pre, rfl⟩ | rfl <;> simp [fpCfg, spCfg, exOpts, Cfg.perWindow]
  have hmin : min c.perWindow 1 = 1 := by omega
  have hf : Extremum.find (c.ext ⟨0, 0⟩) exEnv.sorter [0, w, 3] ([x, y, z].map some) true = .ok [(w, some y)] := by
    simp [exEnv, Extremum.find, Cfg.ext, Extremum.searchIdx, Range.isEmpty, Extremum.sgn, Extremum.findAllPeaks, Extremum.trimNaN,
      Extremum.skipFwd, Extremum.skipBwd, Extremum.scanLoop, Extremum.scanFirst, Extremum.scanLast, Extremum.scanStep, Extremum.ltv, Extremum.eqv, hxy, hzy,
      Extremum.readPeaks, Extremum.select, Extremum.cutStage, Extremum.truncate, Extremum.pickSorted, Res.at_, not_lt.2 hxy.le, ne_of_lt hxy, hsep, hcut, hmin]
  have hs : search c exEnv.sorter [0, w, 3] [x, y, z] (windows [] []) = .ok [(c.pre ++ "0", ⟨w, some y, ""⟩)] := by
    unfold search windows
    rw [if_pos rfl]
    unfold searchLoop
    rw [show ([("", (⟨0, 0⟩ : Range ℝ))].length == 1) = true from rfl]
    simp only
    rw [hf, Res.bind_ok]
    simp only [searchLoop, putPeaks, LineCat.mapPut, prefixOf, Res.bind_ok, if_true]
    rfl
  obtain ⟨out, o1, o2, o3, o4, o5, o6, o7, o8, o9⟩ := C140_candidates (c := c) (sorter := exEnv.sorter) (zsorter := exEnv.zsorter)
    (a := Pdfz.arrayOf [0, w, 3] 5 [⟨[10, 2, 30], List.replicate 3 0, 1⟩]) (ids := []) (rs := []) (fun l => List.Perm.refl _) rfl
    hz (by rw [hmc]; decide) (by rw [hopt]; exact p1) hs
  refine ⟨out, [x, y, z], ?_, by rw [o2, hmc]; rfl, ?_⟩
  · unfold find
    rw [show exEnv.chi (exRes w) = .ok (Pdfz.arrayOf [0, w, 3] 5 [⟨[10, 2, 30], List.replicate 3 0, 1⟩]) from rfl, Res.bind_ok,
      show exEnv.regrid (exRes w) [] = .ok (Pdfz.arrayOf [0, w, 3] 5 [⟨[10, 2, 30], List.replicate 3 0, 1⟩]).redshifts from rfl, o1, Res.bind_ok, hopt]
    exact Res.bind_eq_ok.2 ⟨_, p1, rfl⟩
  · intro o ho
    obtain ⟨-, wn, hw, hp, -, pts, v, hpts, hmem⟩ := o9 o ho
    have hw' : wn = ("", ⟨0, 0⟩) := by simpa [windows] using hw
    subst hw'
    have : pts = [(w, some y)] := by
      have := hf.symm.trans hpts
      cases this
      rfl
    subst this
    simpa using congrArg Prod.fst (List.mem_singleton.1 hmem)

theorem ex_index : getIndex (exRes 1).redshifts 1 = .ok 1 := by
  obtain ⟨i, hi⟩ := LmResult.getIndex_mem (exRes 1).redshifts 1 (by simp [exRes])
  have h := SecondPass.getIndex_ok hi
  match i with
  | 0 => norm_num [exRes] at h
  | 1 => exact hi
  | 2 => norm_num [exRes] at h
  | k + 3 => simp [exRes] at h

/-- The first pass of the example. -/
theorem ex_pass : ∃ c pdf, pass exOpts exEnv "FPE" = .ok (exRes 1, ⟨[some c], ["t"], [none], [none]⟩, pdf) ∧ c.z = 1 := by
  obtain ⟨out, pdf, h1, h2, h3⟩ := ex_find (fpCfg exOpts "FPE") (.inl ⟨_, rfl⟩) 1 (by norm_num) (by norm_num)
  match out, h2 with
  | [o], _ =>
    have hz := h3 o (by simp)
    refine ⟨zcand o, pdf, ?_, hz⟩
    unfold pass
    rw [show exEnv.first exOpts.cont = .ok (exRes 1) from by simp [exEnv, exOpts], Res.bind_ok, h1, Res.bind_ok]
    have hg : getIndex (exRes 1).redshifts (zcand o).z = .ok 1 := by
      rw [show (zcand o).z = 1 from hz]
      exact ex_index
    have : setFirst exEnv.elv exEnv.alv exEnv.c0 (exRes 1) ([o].map zcand) ⟨[], [], [], []⟩ = .ok ⟨[some (zcand o)], ["t"], [none], [none]⟩ := by
      unfold setFirst
      simp only [List.map_cons, List.map_nil, List.length_cons, List.length_nil, Res.foldN, setStep]
      rw [show Res.at_ [zcand o] 0 = .ok (zcand o) from rfl, Res.bind_ok, hg]
      rfl
    rw [this, Res.bind_ok]

/-- A complete run of the example: it ends well with the candidate of redshift 1, and one candidate is saved. -/
theorem ex_run : ∃ best : Out, (compute exOpts exEnv "galaxy" {}).2 = .ok best ∧ best.z = 1 ∧
    (∃ l, (compute exOpts exEnv "galaxy" {}).1.global "galaxy.lineModel_firstpass_extrema" = some (.fpExtrema l) ∧ ∀ x ∈ l, x.1.z = 1) ∧
    (compute exOpts exEnv "galaxy" {}).1.global "galaxy.extrema_results" = some (.extrema 1) := by
  obtain ⟨c, pdf, h1, hz⟩ := ex_pass
  have hw := withB_id exOpts exEnv exEnv_sort _ _ _ h1
  have hl : firstExtrema (exRes 1) (⟨[some c], ["t"], [none], [none]⟩ : PassRes ℝ String) = .ok [(c, (), "t")] := by
    unfold firstExtrema PassRes.cand
    simp only [List.length_cons, List.length_nil, Res.tab, deref, Res.at_, Res.bind_ok, List.getElem?_cons_zero, hz, ex_index]
    rfl
  obtain ⟨out, pdf2, f1, f2, f3⟩ := ex_find (spCfg exOpts) (.inr rfl) 1 (by norm_num) (by norm_num)
  match out, f2 with
  | [o], _ =>
    have hc : compute exOpts exEnv "galaxy" {} =
        (putAll "galaxy" (names.zip [.pdf pdf, .pdf pdf, .fpExtrema [(c, (), "t")], .lm (exRes 1), .pdf pdf2, .pdf pdf2, .extrema 1]) {}, .ok o) := by
      have hok : ∀ {A B : Type} (s : ResultStore (Val Unit Unit String Nat)) (a : A)
          (f : A → ResultStore (Val Unit Unit String Nat) → ResultStore (Val Unit Unit String Nat) × Res B), andThen (s, .ok a) f = f a s := fun _ _ _ => rfl
      have hst : ∀ (s : ResultStore (Val Unit Unit String Nat)) (nm : String) (v : Val Unit Unit String Nat),
          s.global (ResultStore.storeKey "galaxy" nm) = none → s.storeGlobal "galaxy" nm v =
          ({ s with global := fun k => if k = ResultStore.storeKey "galaxy" nm then some v else s.global k }, .ok ()) := by
        intro s nm v h
        unfold ResultStore.storeGlobal ResultStore.storeResult
        rw [h]
      have hsec : secondIf exOpts exEnv (exRes 1) (⟨[some c], ["t"], [none], [none]⟩ : PassRes ℝ String) [(c, (), "t")] = .ok (exRes 1, []) := rfl
      unfold compute solve
      simp only [andThen_assoc]
      rw [h1, hok, hst _ _ _ rfl, hok, hst _ _ _ rfl, hok]
      simp only
      rw [hw, hok, hl, hok, hst _ _ _ rfl, hok, hsec, hok, hst _ _ _ rfl, hok, hok]
      have hrd : ∀ (g : String → Option (Val Unit Unit String Nat)) h, readLm "galaxy"
          ⟨fun k => if k = ResultStore.storeKey "galaxy" "lineModel" then some (.lm (exRes 1)) else g k, h⟩ = .ok (exRes 1) := by
        intro g h
        unfold readLm ResultStore.getGlobal
        simp only [if_true, Res.bind_ok]
      simp only
      rw [hrd, hok]
      have hp : (parents (⟨[some c], ["t"], [none], [none]⟩ : PassRes ℝ String) [] >>= fun ids => find exEnv (spCfg exOpts) (exRes 1) ids []) =
          .ok ([o], pdf2) := by
        unfold parents
        rw [if_pos rfl, Res.bind_ok, f1]
      rw [hp, hok, hst _ _ _ rfl, hok, hst _ _ _ rfl, hok, show exEnv.extr (exRes 1) _ [o] = .ok 1 from rfl, hok, hst _ _ _ rfl, hok]
      rfl
    rw [hc]
    refine ⟨o, rfl, f3 o (by simp), ⟨[(c, (), "t")], rfl, ?_⟩, rfl⟩
    intro x hx
    rw [List.mem_singleton.1 hx]
    exact hz

/-- The second first pass does not use the continuum of the spectrum: the claim is false. The example enables it, and the candidate of redshift 2
found with that continuum is not among the stored candidates of the first passes, nor near one of them. -/
theorem C182_false : ¬ ∀ (o : Opts) (n : Env Unit Unit String Nat) (path : String) (s : ResultStore (Val Unit Unit String Nat)) (best : Out)
    (l : List (ZCand ℝ × Unit × String)) (rb : LmRes ℝ Unit Unit String) (x : List Out × List ℝ),
    IgnoresIds n.zsorter → enableB o = true → (compute o n path s).2 = .ok best →
    (compute o n path s).1.global (ResultStore.storeKey path "lineModel_firstpass_extrema") = some (.fpExtrema l) →
    n.first "fromSpectrum" = .ok rb → find n (fpCfg o "FPB") rb [] [] = .ok x → ∀ c ∈ x.1, ∃ e ∈ l, |c.z - e.1.z| < 5 / 10000 := by
  intro H
  obtain ⟨best, h1, h2, ⟨l, h3, h4⟩, -⟩ := ex_run
  obtain ⟨out, pdf, f1, f2, f3⟩ := ex_find (fpCfg exOpts "FPB") (.inl ⟨_, rfl⟩) 2 (by norm_num) (by norm_num)
  match out, f2 with
  | [c], _ =>
    obtain ⟨e, he, hlt⟩ := H exOpts exEnv "galaxy" {} best l (exRes 2) ([c], pdf) exEnv_sort (by decide) h1 h3 (by simp [exEnv]) f1 c (by simp)
    rw [h4 e he, f3 c (by simp)] at hlt
    norm_num at hlt

/-- The operator of the final candidates without the limit of one peak per window. -/
def manyCfg (o : Opts) : Cfg := { spCfg o with maxPeak := 0 }

/-- Without second pass the wanted number of candidates is not given: five are asked, the PDF has two peaks, one candidate is found. -/
theorem C184_false : ¬ ∀ (o : Opts) (n : Env Unit Unit String Nat) (r : LmRes ℝ Unit Unit String) (x y : List Out × List ℝ), o.skip = true →
    find n (spCfg o) r [] [] = .ok x → find n (manyCfg o) r [] [] = .ok y → x.1.length = y.1.length := by
  intro H
  have hz : Grid [(0 : ℝ), 1, 2, 3, 4] := ⟨by simp, by norm_num [List.pairwise_cons]⟩
  obtain ⟨p, p1, p2, p3⟩ := combine_order [0, 1, 2, 3, 4] [30, 2, 20, 3, 40] hz rfl
    (by intro c hc; simp at hc; rcases hc with rfl | rfl | rfl | rfl | rfl <;> norm_num) ⟨1, 0, by simp, by simp, by norm_num⟩
  obtain ⟨a, b, c, d, e, rfl⟩ : ∃ a b c d e : ℝ, p = [a, b, c, d, e] := by
    match p, p2 with
    | [a, b, c, d, e], _ => exact ⟨a, b, c, d, e, rfl⟩
  have hab : a < b := by simpa using p3 1 0 (by simp) (by simp) (by norm_num)
  have hcb : c < b := by simpa using p3 1 2 (by simp) (by simp) (by norm_num)
  have hcd : c < d := by simpa using p3 3 2 (by simp) (by simp) (by norm_num)
  have hed : e < d := by simpa using p3 3 4 (by simp) (by simp) (by norm_num)
  -- the peaks found, one or all
  let n : Env Unit Unit String Nat := { exEnv with
    chi := fun r => .ok (Pdfz.arrayOf [0, 1, 2, 3, 4] 5 [⟨[30, 2, 20, 3, 40], List.replicate 5 0, 1⟩])
    regrid := fun _ _ => .ok [0, 1, 2, 3, 4] }
  have hf : ∀ cfg : Cfg, cfg = spCfg exOpts ∨ cfg = manyCfg exOpts →
      Extremum.find (cfg.ext ⟨0, 0⟩) exEnv.sorter [0, 1, 2, 3, 4] ([a, b, c, d, e].map some) true =
        .ok (if cfg.perWindow = 1 then [(1, some b)] else [(1, some b), (3, some d)]) := by
    intro cfg hcfg
    rcases hcfg with rfl | rfl <;>
    simp [exEnv, spCfg, manyCfg, exOpts, Cfg.perWindow, Extremum.find, Cfg.ext, Extremum.searchIdx, Range.isEmpty, Extremum.sgn, Extremum.findAllPeaks,
      Extremum.trimNaN, Extremum.skipFwd, Extremum.skipBwd, Extremum.scanLoop, Extremum.scanFirst, Extremum.scanLast, Extremum.scanStep, Extremum.ltv,
      Extremum.eqv, hab, hcb, hcd, hed, Extremum.readPeaks, Extremum.select, Extremum.cutStage, Extremum.truncate, Extremum.pickSorted, Res.at_,
      not_lt.2 hab.le, not_lt.2 hcb.le, not_lt.2 hcd.le, not_lt.2 hed.le, ne_of_lt hab, ne_of_gt hcb, ne_of_lt hcd, List.range_succ]
  have run : ∀ cfg : Cfg, cfg = spCfg exOpts ∨ cfg = manyCfg exOpts → ∃ x, find n cfg (exRes 1) [] [] = .ok x ∧
      x.1.length = if cfg.perWindow = 1 then 1 else 2 := by
    intro cfg hcfg
    have hopt : cfg.opt = "bestChi2" := by rcases hcfg with rfl | rfl <;> rfl
    have hmc : cfg.maxCand = 5 := by rcases hcfg with rfl | rfl <;> rfl
    have hpre : cfg.pre = "SPE" := by rcases hcfg with rfl | rfl <;> rfl
    obtain ⟨m, hs, hm⟩ : ∃ m, search cfg exEnv.sorter [0, 1, 2, 3, 4] [a, b, c, d, e] (windows [] []) = .ok m ∧
        m.length = if cfg.perWindow = 1 then 1 else 2 := by
      unfold search windows
      rw [if_pos rfl]
      unfold searchLoop
      rw [show ([("", (⟨0, 0⟩ : Range ℝ))].length == 1) = true from rfl]
      simp only
      rw [hf cfg hcfg, Res.bind_ok]
      by_cases h1 : cfg.perWindow = 1
      · rw [if_pos h1, if_pos h1, hpre]
        exact ⟨[("SPE0", ⟨1, some b, ""⟩)], rfl, rfl⟩
      · rw [if_neg h1, if_neg h1, hpre]
        exact ⟨[("SPE0", ⟨1, some b, ""⟩), ("SPE1", ⟨3, some d, ""⟩)], rfl, rfl⟩
    obtain ⟨out, o1, o2, -⟩ := C140_candidates (c := cfg) (sorter := exEnv.sorter) (zsorter := exEnv.zsorter)
      (a := Pdfz.arrayOf [0, 1, 2, 3, 4] 5 [⟨[30, 2, 20, 3, 40], List.replicate 5 0, 1⟩]) (ids := []) (rs := []) (fun l => List.Perm.refl _) rfl
      hz (by rw [hmc]; decide) (by rw [hopt]; exact p1) hs
    refine ⟨(out, [a, b, c, d, e]), ?_, ?_⟩
    · unfold find
      rw [show n.chi (exRes 1) = .ok (Pdfz.arrayOf [0, 1, 2, 3, 4] 5 [⟨[30, 2, 20, 3, 40], List.replicate 5 0, 1⟩]) from rfl, Res.bind_ok,
        show n.regrid (exRes 1) [] = .ok (Pdfz.arrayOf [0, 1, 2, 3, 4] 5 [⟨[30, 2, 20, 3, 40], List.replicate 5 0, 1⟩]).redshifts from rfl,
        show n.sorter = exEnv.sorter from rfl, show n.zsorter = exEnv.zsorter from rfl, o1, Res.bind_ok, hopt]
      exact Res.bind_eq_ok.2 ⟨_, p1, rfl⟩
    · simp only
      rw [o2, hmc, hm]
      split_ifs <;> rfl
  obtain ⟨x, x1, x2⟩ := run _ (.inl rfl)
  obtain ⟨y, y1, y2⟩ := run _ (.inr rfl)
  have := H exOpts n (exRes 1) x y rfl x1 y1
  rw [x2, y2, if_pos (by rfl), if_neg (by decide)] at this
  exact absurd this (by decide)

end LmSolve
end Amazed
