import Verif.Props.ChiArrayPriors
import Verif.Props.SecondPassProps

set_option linter.unusedVariables false
set_option linter.unusedSectionVars false

/-! # C106: the models marginalised by the redshift PDF -/

namespace Amazed
namespace ChiArray
open LmResult TplFit

/-- The merits of a model with another continuum: at each redshift the merit with the best continuum, plus how much worse the other
continuum is (never a bonus). -/
noncomputable def WithOther (first : List ℝ) (base other : List ℝ) : List ℝ :=
  List.zipWith (fun b d => b + max 0 d) base (List.zipWith (· - ·) other first)

theorem otherCont_ok {n : Nat} {base first other : List ℝ} (h1 : base.length = n) (h2 : first.length = n) (h3 : other.length = n) :
    otherCont base first other n = .ok (WithOther first base other) := by
  unfold otherCont
  rw [Res.tab_ok (h := fun k => base.getD k 0 + max 0 (other.getD k 0 - first.getD k 0))]
  · rw [Res.ok.injEq]
    apply List.ext_getElem
    · simp [WithOther]; omega
    · intro k g1 g2
      have g : k < n := by simpa using g1
      have e1 : k < base.length := by omega
      have e2 : k < first.length := by omega
      have e3 : k < other.length := by omega
      simp [WithOther, List.getD_eq_getElem?_getD, e1, e2, e3]
  · intro i hi
    rw [Pdfz.at_getD (by omega : i < base.length), Pdfz.at_getD (by omega : i < other.length), Pdfz.at_getD (by omega : i < first.length)]
    rfl

/-- The array completed with the other continua: after the models with the best continuum come, model by model, the models with each
other continuum in turn; priors are copied. -/
noncomputable def Full (first : List ℝ) (others : List (List ℝ)) (x : Arr) : Arr :=
  ⟨x.chi ++ x.chi.flatMap (fun b => others.map (WithOther first b)),
   x.pri ++ x.pri.flatMap (fun p => others.map fun _ => p),
   x.mp ++ x.mp.flatMap (fun m => others.map fun _ => m)⟩

/-- As many models, priors and (if any) model priors; one merit per redshift. -/
structure ArrOk (n : Nat) (x : Arr) : Prop where
  pri : x.pri.length = x.chi.length
  mp : x.mp = [] ∨ x.mp.length = x.chi.length
  chi : ∀ c ∈ x.chi, c.length = n

theorem conts_ok {n : Nat} {first : List ℝ} (hf : first.length = n) (k : Nat) (b p : List ℝ) :
    ∀ (others : List (List ℝ)) (x : Arr), (∀ t ∈ others, t.length = n) → x.chi[k]? = some b → b.length = n → x.pri[k]? = some p →
      (x.mp = [] → EltList.foldL (contStep first n k) others x =
        .ok ⟨x.chi ++ others.map (WithOther first b), x.pri ++ others.map (fun _ => p), []⟩) ∧
      (∀ m, x.mp[k]? = some m → EltList.foldL (contStep first n k) others x =
        .ok ⟨x.chi ++ others.map (WithOther first b), x.pri ++ others.map (fun _ => p), x.mp ++ others.map (fun _ => m)⟩) := by
  intro others
  induction others with
  | nil =>
    intro x _ _ _ _
    refine ⟨fun h => ?_, fun m h => ?_⟩
    · simp [EltList.foldL, ← h]
    · simp [EltList.foldL]
  | cons t ts ih =>
    intro x ht hb hbn hp
    have hts : ∀ t ∈ ts, t.length = n := fun s hs => ht s (List.mem_cons_of_mem _ hs)
    have hk1 : k < x.chi.length := (List.getElem?_eq_some_iff.1 hb).1
    have hk2 : k < x.pri.length := (List.getElem?_eq_some_iff.1 hp).1
    refine ⟨fun h => ?_, fun m h => ?_⟩
    · have e : contStep first n k t x = .ok ⟨x.chi ++ [WithOther first b t], x.pri ++ [p], x.mp⟩ := by
        unfold contStep
        rw [Res.at_eq_ok.2 hp, Res.bind_ok, Res.at_eq_ok.2 hb, Res.bind_ok, otherCont_ok hbn hf (ht t (List.mem_cons_self ..)), Res.bind_ok,
          if_pos h]
      rw [EltList.foldL, e, Res.bind_ok, (ih ⟨x.chi ++ [WithOther first b t], x.pri ++ [p], x.mp⟩ hts
        (by simp [List.getElem?_append_left hk1, hb]) hbn (by simp [List.getElem?_append_left hk2, hp])).1 h]
      simp
    · have hk3 : k < x.mp.length := (List.getElem?_eq_some_iff.1 h).1
      have e : contStep first n k t x = .ok ⟨x.chi ++ [WithOther first b t], x.pri ++ [p], x.mp ++ [m]⟩ := by
        unfold contStep
        rw [Res.at_eq_ok.2 hp, Res.bind_ok, Res.at_eq_ok.2 hb, Res.bind_ok, otherCont_ok hbn hf (ht t (List.mem_cons_self ..)), Res.bind_ok,
          if_neg (by intro h'; simp [h'] at hk3), Res.at_eq_ok.2 h, Res.bind_ok]
      rw [EltList.foldL, e, Res.bind_ok, (ih ⟨x.chi ++ [WithOther first b t], x.pri ++ [p], x.mp ++ [m]⟩ hts
        (by simp [List.getElem?_append_left hk1, hb]) hbn (by simp [List.getElem?_append_left hk2, hp])).2 m (by simp [List.getElem?_append_left hk3, h])]
      simp

theorem take_succ_flatMap {α β : Type} (l : List α) (f : α → List β) (k : Nat) (a : α) (h : l[k]? = some a) :
    (l.take (k + 1)).flatMap f = (l.take k).flatMap f ++ f a := by
  rw [List.take_add_one, h]
  simp

theorem addContinua_ok {n : Nat} {first : List ℝ} (hf : first.length = n) (others : List (List ℝ)) (ht : ∀ t ∈ others, t.length = n)
    (x : Arr) (hx : ArrOk n x) :
    addContinua (first :: others) n x =
      .ok (Full first others ⟨x.chi, x.pri, x.mp.map (fun p => p / ((first :: others).length : ℝ))⟩) := by
  unfold addContinua
  generalize hmp : x.mp.map (fun p => p / ((first :: others).length : ℝ)) = mp'
  have hmp' : mp' = [] ∨ mp'.length = x.chi.length := by
    rcases hx.mp with h | h
    · left; rw [← hmp, h]; rfl
    · right; rw [← hmp]; simpa using h
  simp only
  obtain ⟨y, h1, h2⟩ := Res.foldN_inv (f := fun (k : Nat) (y : Arr) => EltList.foldL (contStep first n k) others y)
    (fun k y => y = (⟨x.chi ++ (x.chi.take k).flatMap (fun b => others.map (WithOther first b)),
      x.pri ++ (x.pri.take k).flatMap (fun p => others.map fun _ => p),
      mp' ++ (mp'.take k).flatMap (fun m => others.map fun _ => m)⟩ : Arr)) x.chi.length 0 ⟨x.chi, x.pri, mp'⟩ (by simp) (by
      intro k y _ hk hy
      rw [Nat.zero_add] at hk
      have hk2 : k < x.pri.length := by rw [hx.pri]; exact hk
      have hb : y.chi[k]? = some x.chi[k] := by
        rw [hy]; simp [List.getElem?_append_left hk]
      have hp : y.pri[k]? = some x.pri[k] := by
        rw [hy]; simp [List.getElem?_append_left hk2]
      obtain ⟨q1, q2⟩ := conts_ok hf k x.chi[k] x.pri[k] others y ht hb (hx.chi _ (List.getElem_mem _)) hp
      rcases hmp' with h | h
      · refine ⟨_, q1 (by rw [hy, h]; simp), ?_⟩
        rw [hy, h, take_succ_flatMap x.chi _ k _ (List.getElem?_eq_getElem hk), take_succ_flatMap x.pri _ k _ (List.getElem?_eq_getElem hk2)]
        simp
      · have hk3 : k < mp'.length := by rw [h]; exact hk
        refine ⟨_, q2 mp'[k] (by rw [hy]; simp [List.getElem?_append_left hk3]), ?_⟩
        rw [hy, take_succ_flatMap x.chi _ k _ (List.getElem?_eq_getElem hk), take_succ_flatMap x.pri _ k _ (List.getElem?_eq_getElem hk2),
          take_succ_flatMap mp' _ k _ (List.getElem?_eq_getElem hk3)]
        simp)
  rw [h1, h2, Nat.zero_add]
  unfold Full
  have e1 : x.pri.take x.chi.length = x.pri := by rw [← hx.pri, List.take_length]
  have e2 : mp'.take x.chi.length = mp' := by
    rcases hmp' with h | h
    · rw [h]; simp
    · rw [← h, List.take_length]
  rw [List.take_length, e1, e2]


variable {C : Type}

theorem ratioChi2_ok {r : LmRes ℝ ℝ Sol C} (hr : Aligned r.redshifts.length r) (k : Nat) (hk : k < r.ratChi2.length)
    (hk' : k < r.ratPriorLines.length) : ratioChi2 r k = .ok (List.zipWith (· + ·) r.ratChi2[k] r.ratPriorLines[k]) := by
  have h1 : r.ratChi2[k].length = r.redshifts.length := hr.ratChi2 _ (List.getElem_mem _)
  have h2 : r.ratPriorLines[k].length = r.redshifts.length := hr.ratPriorLines.2 _ (List.getElem_mem _)
  unfold ratioChi2
  rw [Res.at_of_lt hk, Res.bind_ok, if_neg (by simpa using hr.ratPriorLines.1), Res.at_of_lt hk', Res.bind_ok, if_neg (by simpa using h2)]
  generalize r.ratChi2[k] = chi at h1 ⊢
  generalize r.ratPriorLines[k] = pl at h2 ⊢
  obtain ⟨c, e1, e2, e3, e4⟩ := Res.foldN_inv (f := fun (kz : Nat) (c : List ℝ) =>
      Res.at_ c kz >>= fun a => Res.at_ pl kz >>= fun b => SecondPass.setElt c kz (a + b))
    (fun m c => c.length = chi.length ∧ (∀ i (g1 : i < chi.length) (g2 : i < pl.length), i < m → c[i]? = some (chi[i] + pl[i])) ∧
      ∀ i, m ≤ i → c[i]? = chi[i]?) r.redshifts.length 0 chi ⟨rfl, fun i _ _ h => by omega, fun _ _ => rfl⟩ (by
      rintro m c - hm ⟨q1, q2, q3⟩
      rw [Nat.zero_add] at hm
      have hm1 : m < chi.length := by omega
      have hm2 : m < pl.length := by omega
      have hm3 : m < c.length := by omega
      have e : c[m] = chi[m] := by
        have := q3 m le_rfl
        rwa [List.getElem?_eq_getElem hm3, List.getElem?_eq_getElem hm1, Option.some.injEq] at this
      rw [Res.at_of_lt hm3, Res.bind_ok, Res.at_of_lt hm2, Res.bind_ok]
      unfold SecondPass.setElt
      rw [Res.at_of_lt hm3, Res.bind_ok]
      refine ⟨_, rfl, by simpa using q1, fun i g1 g2 hi => ?_, fun i hi => ?_⟩
      · rcases Nat.lt_or_ge i m with h | h
        · rw [List.getElem?_set_ne (by omega)]
          exact q2 i g1 g2 h
        · obtain rfl : i = m := by omega
          rw [List.getElem?_set_self hm3, e]
      · rw [List.getElem?_set_ne (by omega)]
        exact q3 i (by omega))
  rw [e1, Res.ok.injEq]
  apply List.ext_getElem?
  intro i
  rcases Nat.lt_or_ge i chi.length with h | h
  · rw [e3 i h (by omega) (by omega)]
    rw [List.getElem?_eq_getElem (by simp; omega)]
    simp
  · rw [List.getElem?_eq_none (by omega), List.getElem?_eq_none (by simp; omega)]

/-- The models with the best continuum and their redshift priors: with ratio catalogs the merits of each catalog plus the prior of its
lines, with the priors of that catalog; else the merits and the priors of the line model. -/
structure Base (o : Opts) (cat : Cat) (r : LmRes ℝ ℝ Sol C) (B P : List (List ℝ)) (M : List ℝ) : Prop where
  ratio : o.ratioType = "tplRatio" → B = List.zipWith (List.zipWith (· + ·)) r.ratChi2 r.ratPriorLines ∧ M = r.ratPrior ∧
    P.length = r.ratChi2.length ∧ ∀ k p, P[k]? = some p → zpriors o cat r (some k) = .ok p
  free : o.ratioType ≠ "tplRatio" → B = [r.chi2] ∧ M = [] ∧ ∃ p, P = [p] ∧ zpriors o cat r none = .ok p

/-- The hypotheses on the results of the line model: aligned tables, solutions as the fits fill them, model priors for each catalog or
none; and, with the H-alpha emitters prior, an increasing grid avoiding the zeros of its polynomial. -/
structure Fine (o : Opts) (cat : Cat) (r : LmRes ℝ ℝ Sol C) : Prop where
  aligned : Aligned r.redshifts.length r
  sols : ∀ s ∈ r.lmSol, WF cat s
  prior : r.ratPrior = [] ∨ r.ratPrior.length = r.ratChi2.length
  nha : 0 < o.nha → Pdfz.Grid r.redshifts ∧ ∀ z ∈ r.redshifts, Pdfz.nhaPoly z ≠ 0

theorem zpriors_ok {o : Opts} {cat : Cat} {r : LmRes ℝ ℝ Sol C} (h : Fine o cat r) (k : Option Nat)
    (hk : ∀ c, k = some c → c < r.ratChi2.length) : ∃ p, zpriors o cat r k = .ok p ∧ p.length = r.redshifts.length := by
  obtain ⟨st, ha, hf, h1, h2⟩ := flags_exist cat h.aligned h.sols k hk
  obtain ⟨p, q, e1, e2, _⟩ := C107_priors o cat r k st ha hf h1 h2 h.nha
  exact ⟨p, e1, e2⟩

theorem zip_lengths {n : Nat} {A B : List (List ℝ)} (hA : ∀ a ∈ A, a.length = n) (hB : ∀ b ∈ B, b.length = n) :
    ∀ c ∈ List.zipWith (List.zipWith (· + ·)) A B, c.length = n := by
  intro c hc
  obtain ⟨i, hi, rfl⟩ := List.getElem_of_mem hc
  rw [List.length_zipWith] at hi
  simp only [List.getElem_zipWith, List.length_zipWith]
  rw [hA _ (List.getElem_mem _), hB _ (List.getElem_mem _)]
  exact Nat.min_self n

theorem base_ok {o : Opts} {cat : Cat} {r : LmRes ℝ ℝ Sol C} (h : Fine o cat r) :
    ∃ B P M, baseArr o cat r = .ok ⟨B, P, M⟩ ∧ Base o cat r B P M ∧ ArrOk r.redshifts.length ⟨B, P, M⟩ ∧
      ∀ p ∈ P, p.length = r.redshifts.length := by
  have hal := h.aligned
  unfold baseArr
  by_cases ht : o.ratioType = "tplRatio"
  · rw [if_neg (by simpa using ht)]
    obtain ⟨P, hP⟩ := Res.tab_total (g := fun k : Nat => zpriors o cat r (some k)) r.ratChi2.length (by
      intro k hk
      obtain ⟨p, hp, _⟩ := zpriors_ok h (some k) (by rintro c hc; cases hc; exact hk)
      exact ⟨p, hp⟩)
    have hPl := Res.tab_length _ hP
    have hC : Res.tab (ratioChi2 r) r.ratChi2.length = .ok (List.zipWith (List.zipWith (· + ·)) r.ratChi2 r.ratPriorLines) := by
      rw [Res.tab_ok (h := fun k => List.zipWith (· + ·) (r.ratChi2.getD k []) (r.ratPriorLines.getD k []))]
      · rw [Res.ok.injEq]
        apply List.ext_getElem
        · have := hal.ratPriorLines.1
          simp; omega
        · intro k g1 g2
          have g : k < r.ratChi2.length := by simpa using g1
          have g' : k < r.ratPriorLines.length := by rw [hal.ratPriorLines.1]; exact g
          simp [List.getD_eq_getElem?_getD, g, g']
      · intro k hk
        have g' : k < r.ratPriorLines.length := by rw [hal.ratPriorLines.1]; exact hk
        rw [ratioChi2_ok hal k hk g']
        simp [List.getD_eq_getElem?_getD, hk, g']
    have hf : fillRatio o cat r = .ok (List.zipWith (List.zipWith (· + ·)) r.ratChi2 r.ratPriorLines, P, r.ratPrior) := by
      unfold fillRatio
      rw [hP, Res.bind_ok, hC, Res.bind_ok]
    have hP' : ∀ k p, P[k]? = some p → zpriors o cat r (some k) = .ok p := by
      intro k p hk
      obtain ⟨v, e1, e2⟩ := Res.tab_get _ hP k (by rw [← hPl]; exact (List.getElem?_eq_some_iff.1 hk).1)
      rw [hk, Option.some.injEq] at e1
      rw [e1]; exact e2
    refine ⟨_, P, r.ratPrior, by rw [hf, Res.bind_ok], ⟨fun _ => ⟨rfl, rfl, hPl, hP'⟩, fun h => absurd ht h⟩, ⟨?_, ?_, ?_⟩, ?_⟩
    · have := hal.ratPriorLines.1
      simp; omega
    · rcases h.prior with h' | h'
      · exact .inl h'
      · right
        have := hal.ratPriorLines.1
        simp; omega
    · exact zip_lengths hal.ratChi2 hal.ratPriorLines.2
    · intro p hp
      obtain ⟨k, hk, rfl⟩ := List.getElem_of_mem hp
      obtain ⟨p', e1, e2⟩ := zpriors_ok h (some k) (by rintro c hc; cases hc; rw [← hPl]; exact hk)
      rw [hP' k _ (List.getElem?_eq_getElem hk), Res.ok.injEq] at e1
      rw [e1]; exact e2
  · rw [if_pos (by simpa using ht)]
    obtain ⟨p, e1, e2⟩ := zpriors_ok h none (by rintro c hc; cases hc)
    refine ⟨[r.chi2], [p], [], by rw [e1, Res.bind_ok], ⟨fun h => absurd h ht, fun _ => ⟨rfl, rfl, p, rfl, e1⟩⟩, ⟨rfl, .inl rfl, ?_⟩, ?_⟩
    · intro c hc
      rw [List.mem_singleton.1 hc]
      exact hal.chi2
    · intro q hq
      rw [List.mem_singleton.1 hq]
      exact e2

/-- **C106.** Marginalised, or best of the probabilities: the array holds the models with the best continuum; when continuum templates are
kept, every such model is followed, after all of them, by its variants with the other continua, whose merit is that of the model plus how
much worse the continuum is; a variant has the redshift priors of its model, and the prior of the model is shared equally among the continua. -/
theorem C106_models (o : Opts) (cat : Cat) (cst : ℝ) (r : LmRes ℝ ℝ Sol C) (h : Fine o cat r) (hc : o.combine = "marg" ∨ o.combine = "bestproba") :
    ∃ a B P M, build o cat cst r = .ok a ∧ Base o cat r B P M ∧ a.redshifts = r.redshifts ∧ a.cstLog = cst ∧
      (r.tplCont = [] → a.chisquares = B ∧ a.zpriors = P ∧ a.modelpriors = M) ∧
      (∀ first others, r.tplCont = first :: others →
        a.chisquares = B ++ B.flatMap (fun b => others.map (WithOther first b)) ∧
        a.zpriors = P ++ P.flatMap (fun p => others.map fun _ => p) ∧
        a.modelpriors = (M ++ M.flatMap (fun m => others.map fun _ => m)).map (· / (r.tplCont.length : ℝ))) := by
  obtain ⟨B, P, M, e1, e2, e3, e4⟩ := base_ok h
  unfold build
  rw [if_neg (by rcases hc with hc | hc <;> simp [hc]), if_neg (by rcases hc with hc | hc <;> simp [hc]), e1, Res.bind_ok]
  cases ht : r.tplCont with
  | nil =>
    exact ⟨⟨r.redshifts, B, P, M, cst⟩, B, P, M, rfl, e2, rfl, rfl, fun _ => ⟨rfl, rfl, rfl⟩, fun _ _ h => by simp at h⟩
  | cons first others =>
    have hal := h.aligned.tplCont
    rw [ht] at hal
    rw [addContinua_ok (hal _ (List.mem_cons_self ..)) others (fun t h => hal t (List.mem_cons_of_mem _ h)) _ e3, Res.bind_ok]
    refine ⟨_, B, P, M, rfl, e2, rfl, rfl, fun h => by simp at h, ?_⟩
    intro f os hfo
    rw [List.cons.injEq] at hfo
    obtain ⟨rfl, rfl⟩ := hfo
    refine ⟨rfl, rfl, ?_⟩
    simp only [Full, List.map_append, List.flatMap_map, List.map_flatMap, List.map_map, Function.comp_def]

/-- With `bestChi2` the array holds the line model alone, with its priors. -/
theorem C106_best_chi2 (o : Opts) (cat : Cat) (cst : ℝ) (r : LmRes ℝ ℝ Sol C) (h : Fine o cat r) (hc : o.combine = "bestChi2") :
    ∃ p, zpriors o cat r none = .ok p ∧ build o cat cst r = .ok ⟨r.redshifts, [r.chi2], [p], [], cst⟩ := by
  obtain ⟨p, e1, _⟩ := zpriors_ok h none (by rintro c hc; cases hc)
  refine ⟨p, e1, ?_⟩
  unfold build
  rw [if_neg (by simp [hc]), if_pos hc, e1, Res.bind_ok]

/-- Any other way of combining the models is refused. -/
theorem C106_bad_option (o : Opts) (cat : Cat) (cst : ℝ) (r : LmRes ℝ ℝ Sol C) (h1 : o.combine ≠ "marg") (h2 : o.combine ≠ "bestproba")
    (h3 : o.combine ≠ "bestChi2") : build o cat cst r = .throw .BAD_PARAMETER_VALUE := by
  unfold build
  rw [if_pos ⟨h3, h2, h1⟩]

theorem withOther_ge {first b other : List ℝ} (i : Nat) (v : ℝ) (hv : (WithOther first b other)[i]? = some v) :
    ∃ u, b[i]? = some u ∧ u ≤ v := by
  obtain ⟨hi, rfl⟩ := List.getElem?_eq_some_iff.1 hv
  unfold WithOther at hi ⊢
  simp only [List.length_zipWith] at hi
  refine ⟨b[i]'(by omega), List.getElem?_eq_getElem _, ?_⟩
  simp only [List.getElem_zipWith]
  linarith [le_max_left (0 : ℝ) (other[i]'(by omega) - first[i]'(by omega))]

theorem flatMap_sum (M : List ℝ) (n : Nat) (others : List (List ℝ)) (h : others.length = n) :
    (M.flatMap (fun m => others.map fun _ => m)).sum = n * M.sum := by
  induction M with
  | nil => simp
  | cons m M ih =>
    rw [List.flatMap_cons, List.sum_append, ih, List.sum_cons, List.map_const', List.sum_replicate, h, nsmul_eq_mul]
    ring

theorem flatMap_len {α β γ : Type} (M : List α) (others : List β) (f : α → β → γ) :
    (M.flatMap (fun m => others.map (f m))).length = M.length * others.length := by
  induction M with
  | nil => simp
  | cons m M ih => simp only [List.flatMap_cons, List.length_append, ih, List.length_map, List.length_cons]; ring

/-- **C106, consequences.** The array is one the PDF accepts: as many priors as models, one value per redshift in each, and one model prior
for each model or none; the model priors have the sum of the priors of the catalogs. No variant with another continuum is better than its
model, so the best merit at a redshift is that of a model with the best continuum. -/
theorem C106_consistent (o : Opts) (cat : Cat) (cst : ℝ) (r : LmRes ℝ ℝ Sol C) (h : Fine o cat r)
    (hc : o.combine = "marg" ∨ o.combine = "bestproba") (a : Pdfz.ChisquareArray) (ha : build o cat cst r = .ok a) :
    a.zpriors.length = a.chisquares.length ∧
      (∀ c ∈ a.chisquares, c.length = r.redshifts.length) ∧ (∀ p ∈ a.zpriors, p.length = r.redshifts.length) ∧
      (a.modelpriors = [] ∨ a.modelpriors.length = a.chisquares.length) ∧
      (o.ratioType = "tplRatio" → a.modelpriors.sum = r.ratPrior.sum) ∧
      (o.ratioType ≠ "tplRatio" → a.modelpriors = []) ∧
      (∀ x ∈ a.modelpriors, (∀ y ∈ r.ratPrior, 0 < y) → 0 < x) ∧
      ∃ B P M, Base o cat r B P M ∧ ∀ c ∈ a.chisquares, ∃ b ∈ B, ∀ (i : Nat) (v : ℝ), c[i]? = some v → ∃ u, b[i]? = some u ∧ u ≤ v := by
  obtain ⟨a', B, P, M, g1, g2, g3, g4, g5, g6⟩ := C106_models o cat cst r h hc
  rw [ha, Res.ok.injEq] at g1
  subst g1
  obtain ⟨B', P', M', e1, e2, e3, e4⟩ := base_ok h
  have hsame : B' = B ∧ P' = P ∧ M' = M := by
    by_cases ht : o.ratioType = "tplRatio"
    · obtain ⟨p1, p2, p3, p4⟩ := g2.ratio ht
      obtain ⟨q1, q2, q3, q4⟩ := e2.ratio ht
      refine ⟨q1.trans p1.symm, ?_, q2.trans p2.symm⟩
      apply List.ext_getElem (by omega)
      intro k k1 k2
      have a1 := p4 k _ (List.getElem?_eq_getElem k2)
      have a2 := q4 k _ (List.getElem?_eq_getElem k1)
      rw [a1, Res.ok.injEq] at a2
      exact a2.symm
    · obtain ⟨p1, p2, p, p3, p4⟩ := g2.free ht
      obtain ⟨q1, q2, q, q3, q4⟩ := e2.free ht
      rw [p4, Res.ok.injEq] at q4
      refine ⟨q1.trans p1.symm, ?_, q2.trans p2.symm⟩
      rw [p3, q3, q4]
  obtain ⟨rfl, rfl, rfl⟩ := hsame
  have hM : o.ratioType = "tplRatio" → M' = r.ratPrior := fun ht => (e2.ratio ht).2.1
  have hM' : o.ratioType ≠ "tplRatio" → M' = [] := fun ht => (e2.free ht).2.1
  have hpos : ∀ x ∈ M', (∀ y ∈ r.ratPrior, 0 < y) → 0 < x := by
    intro x hx hy
    by_cases ht : o.ratioType = "tplRatio"
    · rw [hM ht] at hx; exact hy x hx
    · rw [hM' ht] at hx; simp at hx
  have e3p : P'.length = B'.length := e3.pri
  have e3m : M' = [] ∨ M'.length = B'.length := e3.mp
  have e3c : ∀ c ∈ B', c.length = r.redshifts.length := e3.chi
  cases ht : r.tplCont with
  | nil =>
    obtain ⟨f1, f2, f3⟩ := g5 ht
    rw [f1, f2, f3]
    refine ⟨e3p, e3c, e4, e3m, fun h => by rw [hM h], hM', hpos, B', P', M', e2, fun c hc => ⟨c, hc, fun i v hv => ⟨v, hv, le_rfl⟩⟩⟩
  | cons first others =>
    obtain ⟨f1, f2, f3⟩ := g6 first others ht
    have hal := h.aligned.tplCont
    rw [ht] at hal
    have hn : (r.tplCont.length : ℝ) = others.length + 1 := by rw [ht]; push_cast [List.length_cons]; ring
    have hn0 : (0 : ℝ) < r.tplCont.length := by rw [hn]; positivity
    rw [f1, f2, f3]
    refine ⟨?_, ?_, ?_, ?_, ?_, ?_, ?_, B', P', M', e2, ?_⟩
    · rw [List.length_append, List.length_append, flatMap_len, flatMap_len, e3p]
    · intro c hc
      rcases List.mem_append.1 hc with hc | hc
      · exact e3c c hc
      · obtain ⟨b, hb, hc⟩ := List.mem_flatMap.1 hc
        obtain ⟨t, ht', rfl⟩ := List.mem_map.1 hc
        unfold WithOther
        rw [List.length_zipWith, List.length_zipWith, e3c b hb, hal t (List.mem_cons_of_mem _ ht'), hal first (List.mem_cons_self ..)]
        simp
    · intro p hp
      rcases List.mem_append.1 hp with hp | hp
      · exact e4 p hp
      · obtain ⟨b, hb, hp⟩ := List.mem_flatMap.1 hp
        obtain ⟨t, _, rfl⟩ := List.mem_map.1 hp
        exact e4 b hb
    · rcases e3m with hm | hm
      · left; rw [hm]; rfl
      · right
        rw [List.length_map, List.length_append, List.length_append, flatMap_len, flatMap_len, hm]
    · intro hrat
      rw [hM hrat] at *
      have : ∀ l : List ℝ, (l.map (· / (r.tplCont.length : ℝ))).sum = l.sum / r.tplCont.length := by
        intro l
        induction l with
        | nil => simp
        | cons a l ih => rw [List.map_cons, List.sum_cons, List.sum_cons, ih]; ring
      rw [this, List.sum_append, flatMap_sum _ _ others rfl, hn]
      have : (0 : ℝ) < others.length + 1 := by positivity
      field_simp
      ring
    · intro hrat
      rw [hM' hrat]
      rfl
    · intro x hx hy
      obtain ⟨y, hy', rfl⟩ := List.mem_map.1 hx
      apply div_pos _ hn0
      rcases List.mem_append.1 hy' with h' | h'
      · exact hpos y h' hy
      · obtain ⟨m, hm, h'⟩ := List.mem_flatMap.1 h'
        obtain ⟨_, _, rfl⟩ := List.mem_map.1 h'
        exact hpos _ hm hy
    · intro c hc
      rcases List.mem_append.1 hc with hc | hc
      · exact ⟨c, hc, fun i v hv => ⟨v, hv, le_rfl⟩⟩
      · obtain ⟨b, hb, hc⟩ := List.mem_flatMap.1 hc
        obtain ⟨t, _, rfl⟩ := List.mem_map.1 hc
        exact ⟨b, hb, fun i v hv => withOther_ge i v hv⟩

/-- The array passes the checks of the PDF computation: sizes, and model priors summing to about one when those of the catalogs do. -/
theorem C106_accepted (o : Opts) (cat : Cat) (cst : ℝ) (r : LmRes ℝ ℝ Sol C) (h : Fine o cat r)
    (hc : o.combine = "marg" ∨ o.combine = "bestproba") (hz : r.redshifts ≠ []) (hrat : o.ratioType = "tplRatio" → r.ratChi2 ≠ [])
    (hpos : ∀ y ∈ r.ratPrior, 0 < y) (hlo : r.ratPrior ≠ [] → 0.9 ≤ r.ratPrior.sum) (hhi : r.ratPrior.sum ≤ 1.1) :
    ∃ a lp, build o cat cst r = .ok a ∧ Pdfz.validate a = .ok () ∧ Pdfz.logPriorModel a = .ok lp ∧ lp.length = a.chisquares.length := by
  obtain ⟨a, B, P, M, g1, g2, g3, _, g5, g6⟩ := C106_models o cat cst r h hc
  obtain ⟨c1, c2, c3, c4, c5, c6, c7, _⟩ := C106_consistent o cat cst r h hc a g1
  have hBne : B ≠ [] := by
    by_cases ht : o.ratioType = "tplRatio"
    · have h1 := (g2.ratio ht).1
      have h2 := hrat ht
      have h3 := h.aligned.ratPriorLines.1
      intro hB
      have : (List.zipWith (List.zipWith (· + ·)) r.ratChi2 r.ratPriorLines).length = 0 := by rw [← h1, hB]; rfl
      rw [List.length_zipWith] at this
      have := List.length_pos_iff.2 h2
      omega
    · rw [(g2.free ht).1]; simp
  have hlen : 1 ≤ a.chisquares.length := by
    have := List.length_pos_iff.2 hBne
    cases ht : r.tplCont with
    | nil => rw [(g5 ht).1]; omega
    | cons f os => rw [(g6 f os ht).1, List.length_append]; omega
  have hzl := List.length_pos_iff.2 hz
  have hv : Pdfz.validate a = .ok () := by
    unfold Pdfz.validate
    rw [if_neg (by simp [c1]), if_neg (by rw [g3]; omega)]
  have hl : ∃ lp, Pdfz.logPriorModel a = .ok lp ∧ lp.length = a.chisquares.length := by
    unfold Pdfz.logPriorModel
    by_cases hm : a.modelpriors = []
    · rw [if_pos hm]
      have : (0 : ℝ) < 1 / a.chisquares.length := by
        apply one_div_pos.2
        exact_mod_cast hlen
      rw [Res.tab_ok (h := fun _ => Real.log (1 / (a.chisquares.length : ℝ)))]
      · exact ⟨_, rfl, by simp⟩
      · intro i _
        rw [Pdfz.logR_pos this]
    · rw [if_neg hm]
      have hm' : a.modelpriors.length = a.chisquares.length := c4.resolve_left hm
      rw [if_neg (by simpa using hm'), Res.tab_ok (h := fun i => Real.log (a.modelpriors.getD i 0))]
      · rw [Res.bind_ok]
        have he : ((List.range a.chisquares.length).map (fun i => Real.log (a.modelpriors.getD i 0))).map Real.exp = a.modelpriors := by
          apply List.ext_getElem
          · simp [hm']
          · intro i k1 k2
            simp only [List.getElem_map, List.getElem_range, List.getD_eq_getElem?_getD, List.getElem?_eq_getElem k2, Option.getD_some]
            exact Real.exp_log (c7 _ (List.getElem_mem _) hpos)
        rw [he]
        have hs : 0.9 ≤ a.modelpriors.sum ∧ a.modelpriors.sum ≤ 1.1 := by
          by_cases ht : o.ratioType = "tplRatio"
          · rw [c5 ht]
            refine ⟨hlo ?_, hhi⟩
            intro hr
            apply hm
            have hM := (g2.ratio ht).2.1
            rw [hr] at hM
            cases ht' : r.tplCont with
            | nil => rw [(g5 ht').2.2, hM]
            | cons f os => rw [(g6 f os ht').2.2, hM]; rfl
          · exact absurd (c6 ht) hm
        rw [if_neg (by push Not; exact ⟨hs.2, hs.1⟩)]
        exact ⟨_, rfl, by simp⟩
      · intro i hi
        rw [Pdfz.at_getD (by omega), Res.bind_ok, Pdfz.logR_pos]
        rw [List.getD_eq_getElem?_getD, List.getElem?_eq_getElem (by omega), Option.getD_some]
        exact c7 _ (List.getElem_mem _) hpos
  obtain ⟨lp, hl1, hl2⟩ := hl
  exact ⟨a, lp, g1, hv, hl1, hl2⟩

/-! ### Example: two catalogs, three continua, two redshifts -/

noncomputable def exRes : LmRes ℝ ℝ Sol Unit :=
  { redshifts := [1, 2], chi2 := [5, 6], scaleMarg := [0, 0], lmSol := [exSol, exSol'], contSol := [(), ()], chi2Cont := [0, 0],
    scaleMargCont := [0, 0], tplCont := [[1, 2], [3, 1], [2, 2]], ratChi2 := [[5, 7], [8, 6]], ratScale := [[0, 0], [0, 0]],
    ratStrong := [[true, false], [true, true]], ratHa := [[true, false], [false, false]], ratN := [[0, 0], [0, 0]], ratPrior := [1 / 4, 3 / 4],
    ratPriorLines := [[0, 0], [1, 2]] }

noncomputable def exOpts : Opts := ⟨"marg", "tplRatio", 1 / 10, 1 / 2, 0⟩

theorem exFine : Fine exOpts exCat exRes := by
  refine ⟨?_, ?_, .inr rfl, ?_⟩
  · constructor <;> simp [exRes]
  · intro s hs
    apply exWF
    simp only [exRes] at hs
    simp only [List.mem_cons, List.not_mem_nil, or_false] at hs ⊢
    tauto
  · intro h
    simp [exOpts] at h

/-- Six models; the second catalog with the second continuum has merit 8 + 1 + 2 at the first redshift. -/
example : ∃ a lp, build exOpts exCat 0 exRes = .ok a ∧ Pdfz.validate a = .ok () ∧ Pdfz.logPriorModel a = .ok lp ∧
    a.chisquares.length = 6 ∧ a.chisquares[4]? = some [11, 8] ∧ a.modelpriors.sum = 1 := by
  obtain ⟨a, lp, h1, h2, h3, h4⟩ := C106_accepted exOpts exCat 0 exRes exFine (.inl rfl) (by simp [exRes]) (by simp [exRes])
    (by simp [exRes]) (by simp [exRes]; norm_num) (by simp [exRes]; norm_num)
  obtain ⟨a', B, P, M, g1, g2, _, _, _, g6⟩ := C106_models exOpts exCat 0 exRes exFine (.inl rfl)
  rw [h1, Res.ok.injEq] at g1
  subst g1
  obtain ⟨k1, -, -⟩ := g6 [1, 2] [[3, 1], [2, 2]] rfl
  rw [(g2.ratio rfl).1] at k1
  have c5 := (C106_consistent exOpts exCat 0 exRes exFine (.inl rfl) a h1).2.2.2.2.1 rfl
  refine ⟨a, lp, h1, h2, h3, ?_, ?_, ?_⟩
  · rw [k1]; simp [exRes]
  · rw [k1]
    simp [exRes, WithOther]
    norm_num
  · rw [c5]; simp [exRes]; norm_num

end ChiArray
end Amazed
