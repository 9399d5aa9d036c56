import Mathlib.Algebra.BigOperators.Group.List.Basic
import Mathlib.Analysis.SpecialFunctions.Log.Basic
import Verif.Props.PhotProps
import Verif.Props.MeritProps

set_option linter.unusedSectionVars false
set_option linter.unusedVariables false

/-! # C90, C91, C92: template fitting with photometry -/

namespace Amazed
namespace Phot

variable {K : Type} [Field K] [LinearOrder K] [IsStrictOrderedRing K]

/-! ## Specification -/

/-- A photometric point with a non null error. -/
structure Valid (p : Point K) : Prop where
  err : p.err ≠ 0
  one : p.oneOver = 1 / (p.err * p.err)
  flux : p.fluxOver = p.flux * p.flux * (1 / (p.err * p.err))

/-- The sums over the bands `bs` of `d m w²/e²`, `m² w²/e²` and `d² w²/e²`, where `d`, `e` are the flux and error of the band, `m` the flux of the template in the band, `w` the weight. -/
def total (w : K) (m : Slot K → K) (bs : List (Slot K)) : TplFit.Sums K :=
  ⟨(bs.map fun b => b.data.flux * m b * w ^ 2 / b.data.err ^ 2).sum, (bs.map fun b => m b ^ 2 * w ^ 2 / b.data.err ^ 2).sum,
    (bs.map fun b => b.data.flux ^ 2 * w ^ 2 / b.data.err ^ 2).sum⟩

/-! ## Lemmas -/

theorem sums_ext {a b : TplFit.Sums K} (h1 : a.cross = b.cross) (h2 : a.t = b.t) (h3 : a.s = b.s) : a = b := by
  obtain ⟨_, _, _⟩ := a; obtain ⟨_, _, _⟩ := b; simp only at h1 h2 h3; rw [h1, h2, h3]

theorem total_append (w : K) (m : Slot K → K) (a b : List (Slot K)) : total w m (a ++ b) = (total w m a).add (total w m b) := by
  apply sums_ext <;> simp [total, TplFit.Sums.add]

theorem total_nil (w : K) (m : Slot K → K) : total w m [] = TplFit.Sums.zero := by apply sums_ext <;> rfl

theorem total_congr (w : K) (m m' : Slot K → K) (a b : List (Slot K)) (hl : a.length = b.length)
    (h : ∀ (i : Nat) x y, a[i]? = some x → b[i]? = some y → m x = m' y ∧ x.data = y.data) : total w m a = total w m' b := by
  induction a generalizing b with
  | nil =>
    cases b with
    | nil => rw [total_nil, total_nil]
    | cons y b => simp at hl
  | cons x a ih =>
    cases b with
    | nil => simp at hl
    | cons y b =>
      have := ih b (by simpa using hl) (fun i u v hu hv => h (i + 1) u v (by simpa using hu) (by simpa using hv))
      obtain ⟨e1, e2⟩ := h 0 x y rfl rfl
      have c1 := congrArg TplFit.Sums.cross this
      have c2 := congrArg TplFit.Sums.t this
      have c3 := congrArg TplFit.Sums.s this
      unfold total at c1 c2 c3 ⊢
      simp only at c1 c2 c3
      simp only [List.map_cons, List.sum_cons, c1, c2, c3, e1, e2]

theorem bandStep_eq (c w : K) (b : Slot K) (s : TplFit.Sums K) (m : K) (hm : b.band.integrate c b.t.flux = .ok m) (hv : Valid b.data) :
    bandStep c w b s = .ok (s.add (total w (fun _ => m) [b])) := by
  unfold bandStep
  rw [hm, Res.bind_ok, if_neg]
  · simp only
    congr 1
    have := hv.err
    apply sums_ext <;> simp only [TplFit.Sums.add, total, List.map_cons, List.map_nil, List.sum_cons, List.sum_nil, hv.one, hv.flux] <;> field_simp <;> ring
  · unfold badPoint
    rw [decide_eq_true_eq]
    exact mul_ne_zero hv.err hv.err

/-- The state of the loop on the bands after `i` of them. -/
structure LoopInv (w : K) (m : Slot K → K) (fast : Bool) (igmEnd : Nat) (bs : List (Slot K)) (i : Nat) (a : TplFit.Acc K) : Prop where
  sums : a.sums = total w m (bs.take i)
  saved : a.saved = true ↔ fast = true ∧ igmEnd < i
  igm : a.igm = if a.saved = true then total w m (bs.take igmEnd) else TplFit.Sums.zero

theorem photBody_inv (c w : K) (m : Slot K → K) (fast : Bool) (igmEnd : Nat) (bs : List (Slot K)) (hm : ∀ b ∈ bs, b.band.integrate c b.t.flux = .ok (m b)) (hv : ∀ b ∈ bs, Valid b.data)
    (i : Nat) (a : TplFit.Acc K) (hi : i < bs.length) (h : LoopInv w m fast igmEnd bs i a) : ∃ a', photBody c w fast igmEnd bs i a = .ok a' ∧ LoopInv w m fast igmEnd bs (i + 1) a' := by
  have hb : bs[i] ∈ bs := List.getElem_mem hi
  have ht : bs.take (i + 1) = bs.take i ++ [bs[i]] := by rw [List.take_add_one, List.getElem?_eq_getElem hi]; rfl
  have hs : ∀ s, bandStep c w bs[i] s = .ok (s.add (total w m [bs[i]])) := by
    intro s
    rw [bandStep_eq c w bs[i] s (m bs[i]) (hm _ hb) (hv _ hb)]
    rfl
  unfold photBody
  simp only
  rw [Res.at_of_lt hi, Res.bind_ok, hs, Res.bind_ok]
  refine ⟨_, rfl, ?_⟩
  by_cases hc : fast = true ∧ a.saved = false ∧ i = igmEnd
  · rw [if_pos hc]
    refine ⟨?_, ?_, ?_⟩
    · show (a.sums).add _ = _
      rw [h.sums, ht, total_append]
    · show true = true ↔ _
      simp only [true_iff]
      exact ⟨hc.1, by omega⟩
    · show a.sums = if true = true then _ else _
      rw [if_pos rfl, h.sums, hc.2.2]
  · rw [if_neg hc]
    refine ⟨?_, ?_, ?_⟩
    · show (a.sums).add _ = _
      rw [h.sums, ht, total_append]
    · show a.saved = true ↔ _
      rw [h.saved]
      constructor
      · rintro ⟨h1, h2⟩; exact ⟨h1, by omega⟩
      · rintro ⟨h1, h2⟩
        refine ⟨h1, ?_⟩
        by_contra hlt
        refine hc ⟨h1, ?_, by omega⟩
        rw [Bool.eq_false_iff]
        intro hsv
        exact hlt (h.saved.1 hsv).2
    · exact h.igm

theorem photLoop (c w : K) (m : Slot K → K) (fast : Bool) (igmEnd : Nat) (bs : List (Slot K)) (hm : ∀ b ∈ bs, b.band.integrate c b.t.flux = .ok (m b)) (hv : ∀ b ∈ bs, Valid b.data)
    (n : Nat) (hn : n ≤ bs.length) :
    ∃ a, Res.foldN (photBody c w fast igmEnd bs) 0 n ⟨TplFit.Sums.zero, TplFit.Sums.zero, false⟩ = .ok a ∧ LoopInv w m fast igmEnd bs n a := by
  obtain ⟨a, h1, h2⟩ := Res.foldN_inv (f := photBody c w fast igmEnd bs) (fun i a => LoopInv w m fast igmEnd bs i a) n 0 ⟨TplFit.Sums.zero, TplFit.Sums.zero, false⟩
    (by
      refine ⟨?_, ?_, ?_⟩
      · rw [List.take_zero, total_nil]
      · simp
      · simp)
    (fun i a _ hi h => photBody_inv c w m fast igmEnd bs hm hv i a (by omega) h)
  rw [Nat.zero_add] at h2
  exact ⟨a, h1, h2⟩

/-! ## Theorems -/

theorem data_fold (xs : List (String × K × K)) : ∀ (d : Data K) (q : String),
    LineCat.mapFind q (xs.foldl (fun m x => LineCat.mapPut x.1 ⟨x.2.1, x.2.2, 1 / (x.2.2 * x.2.2), x.2.1 * x.2.1 * (1 / (x.2.2 * x.2.2))⟩ m) d) =
      match xs.reverse.find? (fun x => decide (x.1 = q)) with
      | some x => some ⟨x.2.1, x.2.2, 1 / (x.2.2 * x.2.2), x.2.1 * x.2.1 * (1 / (x.2.2 * x.2.2))⟩
      | none => LineCat.mapFind q d := by
  induction xs using List.reverseRecOn with
  | nil => intro d q; rfl
  | append_singleton l x ih =>
    intro d q
    rw [List.foldl_append, List.foldl_cons, List.foldl_nil, LineCat.mapFind_put, List.reverse_append, List.reverse_singleton, List.singleton_append, List.find?_cons]
    by_cases h : q = x.1
    · rw [if_pos h, show decide (x.1 = q) = true by simpa using h.symm]
    · rw [if_neg h, show decide (x.1 = q) = false by simpa using fun e => h e.symm, ih d q]

/-- **C90, data.** The photometric data need as many fluxes and errors as names. The point of a name is the last one given under that name, with its inverse variance and squared signal to noise;
a name that was not given has no point. -/
theorem C90_data (name : List String) (flux err : List K) :
    (name.length ≠ flux.length ∨ name.length ≠ err.length → Data.new name flux err = .throw .INTERNAL_ERROR) ∧
    (name.length = flux.length → name.length = err.length → ∃ d, Data.new name flux err = .ok d ∧
      (∀ (i : Nat) n f e, name[i]? = some n → flux[i]? = some f → err[i]? = some e → (∀ j, i < j → name[j]? ≠ some n) →
        ∃ p, LineCat.mapFind n d = some p ∧ p.flux = f ∧ p.err = e ∧ (e ≠ 0 → Valid p)) ∧
      ∀ n, n ∉ name → LineCat.mapFind n d = none) := by
  refine ⟨?_, ?_⟩
  · intro h
    unfold Data.new
    rw [if_pos h]
  · intro h1 h2
    refine ⟨_, by unfold Data.new; rw [if_neg (by push Not; exact ⟨h1, h2⟩)], ?_, ?_⟩
    · intro i n f e hn hf he hl
      rw [data_fold]
      have hi : i < name.length := (List.getElem?_eq_some_iff.1 hn).1
      have hz : (List.zip name (List.zip flux err))[i]? = some (n, f, e) := by
        rw [List.getElem?_zip_eq_some]
        exact ⟨hn, by rw [List.getElem?_zip_eq_some]; exact ⟨hf, he⟩⟩
      have hlz : (List.zip name (List.zip flux err)).length = name.length := by simp only [List.length_zip]; omega
      have hfind : (List.zip name (List.zip flux err)).reverse.find? (fun x => decide (x.1 = n)) = some (n, f, e) := by
        rw [List.find?_eq_some_iff_getElem]
        refine ⟨by simp, name.length - 1 - i, by rw [List.length_reverse, hlz]; omega, ?_, ?_⟩
        · rw [List.getElem_reverse]
          have e2 : (List.zip name (List.zip flux err)).length - 1 - (name.length - 1 - i) = i := by omega
          simp only [e2]
          rw [List.getElem?_eq_some_iff] at hz
          exact hz.2
        · intro j hj
          rw [List.getElem_reverse]
          simp only [Bool.not_eq_true']
          rw [decide_eq_false_iff_not]
          intro hc
          refine hl ((List.zip name (List.zip flux err)).length - 1 - j) (by omega) ?_
          rw [← hc]
          simp only [List.getElem_zip]
          exact List.getElem?_eq_getElem (by omega)
      rw [hfind]
      exact ⟨_, rfl, rfl, rfl, fun he0 => ⟨he0, rfl, rfl⟩⟩
    · intro n hn
      rw [data_fold]
      have : (List.zip name (List.zip flux err)).reverse.find? (fun x => decide (x.1 = n)) = none := by
        rw [List.find?_eq_none]
        intro x hx
        rw [List.mem_reverse] at hx
        have := (List.of_mem_zip (a := x.1) (b := x.2) hx).1
        simp only [decide_eq_true_eq]
        intro e
        exact hn (e ▸ this)
      rw [this]
      rfl

/-- **C90, checks.** The fit is refused without bands or when a band has no photometric point, and only then. -/
theorem C90_checks (cat : Option (Cat K)) (data : Option (Data K)) :
    checkInput cat data = (if cat = none ∨ cat = some [] then .throw .MISSING_PHOTOMETRIC_TRANSMISSION
      else if ∃ d, data = some d ∧ ∀ c, cat = some c → ∀ n ∈ c.map (·.1), n ∈ d.map (·.1) then .ok () else .throw .MISSING_PHOTOMETRIC_DATA) := by
  classical
  cases cat with
  | none => simp [checkInput]
  | some c =>
    cases c with
    | nil => simp [checkInput]
    | cons x c =>
      rw [if_neg (by simp)]
      cases data with
      | none => rw [if_neg (by simp)]; rfl
      | some d =>
        unfold checkInput
        simp only
        have hiff : (Cat.names (x :: c)).all (fun n => (d.map (·.1)).contains n) = true ↔
            ∃ d', some d = some d' ∧ ∀ c', some (x :: c) = some c' → ∀ n ∈ c'.map (·.1), n ∈ d'.map (·.1) := by
          rw [List.all_eq_true]
          constructor
          · intro h
            refine ⟨d, rfl, ?_⟩
            intro c' hc n hn
            cases hc
            simpa using h n hn
          · rintro ⟨d', hd, h⟩ n hn
            cases hd
            simpa using h _ rfl n hn
        by_cases hh : (Cat.names (x :: c)).all (fun n => (d.map (·.1)).contains n) = true
        · rw [if_pos hh, if_pos (hiff.1 hh)]
        · rw [if_neg hh, if_neg (fun h => hh (hiff.2 h))]

/-- **C90, sums.** Without the fast IGM processing, or for the first IGM index, the photometric sums are those over all the bands. In the fast processing the sums of the bands from `igmEnd` on are kept for
the dust index, or, when `igmEnd` is the number of bands, those of all the bands. -/
theorem C90_sums (c w : K) (m : Slot K → K) (fast : Bool) (kM kE igmEnd : Nat) (bs : List (Slot K)) (out : List (TplFit.Sums K)) (hm : ∀ b ∈ bs, b.band.integrate c b.t.flux = .ok (m b))
    (hv : ∀ b ∈ bs, Valid b.data) (hk : fast = false ∨ kM = 0) (hE : kE < out.length) (hi : igmEnd ≤ bs.length) :
    ∃ out', photCross c w fast kM kE igmEnd bs out = .ok (total w m bs, out') ∧ (fast = false → out' = out) ∧
      (fast = true → out'.length = out.length ∧ (∀ j, j ≠ kE → out'[j]? = out[j]?) ∧ (igmEnd < bs.length → out'[kE]? = some (total w m (bs.drop igmEnd))) ∧
        (igmEnd = bs.length → out'[kE]? = some (total w m bs))) := by
  obtain ⟨a, h1, h2⟩ := photLoop c w m fast igmEnd bs hm hv bs.length (le_refl _)
  have hs : a.sums = total w m bs := by rw [h2.sums, List.take_length]
  unfold photCross
  simp only
  rw [if_neg (by rintro ⟨h, h'⟩; rcases hk with e | e <;> simp_all), h1, Res.bind_ok]
  cases fast with
  | false => exact ⟨out, by rw [if_neg (by simp), hs], fun _ => rfl, fun h => by simp at h⟩
  | true =>
    have hk0 : kM = 0 := by simpa using hk
    rw [if_pos rfl, if_pos hk0, if_pos hE, hs]
    refine ⟨_, rfl, fun h => by simp at h, fun _ => ⟨List.length_set, ?_, ?_, ?_⟩⟩
    · intro j hj
      exact List.getElem?_set_ne (Ne.symm hj)
    · intro hlt
      have hsv : a.saved = true := h2.saved.2 ⟨rfl, hlt⟩
      rw [List.getElem?_set_self hE, h2.igm, if_pos hsv]
      congr 1
      have := total_append w m (bs.take igmEnd) (bs.drop igmEnd)
      rw [List.take_append_drop] at this
      rw [this]
      apply sums_ext <;> simp [TplFit.Sums.add, TplFit.Sums.sub]
    · intro heq
      have hsv : ¬ a.saved = true := by rw [h2.saved]; rintro ⟨_, h⟩; omega
      rw [List.getElem?_set_self hE, h2.igm, if_neg hsv]
      congr 1
      apply sums_ext <;> simp [TplFit.Sums.sub, TplFit.Sums.zero]

/-- **C90, next IGM indices.** In the fast processing, for the IGM indices after the first and the same dust index, when the fluxes of the bands from `igmEnd` on are those of the first index: the sums are those
over all the bands, if there is a band from `igmEnd` on. -/
theorem C90_next_partial (c w : K) (m0 m : Slot K → K) (kM kE igmEnd : Nat) (bs0 bs : List (Slot K)) (out : List (TplFit.Sums K)) (hm : ∀ b ∈ bs, b.band.integrate c b.t.flux = .ok (m b))
    (hv : ∀ b ∈ bs, Valid b.data) (hk : 0 < kM) (hi : igmEnd < bs.length) (hl : bs0.length = bs.length)
    (hsame : ∀ (i : Nat) x y, igmEnd ≤ i → bs0[i]? = some x → bs[i]? = some y → m0 x = m y ∧ x.data = y.data)
    (hout : out[kE]? = some (total w m0 (bs0.drop igmEnd))) : photCross c w true kM kE igmEnd bs out = .ok (total w m bs, out) := by
  obtain ⟨a, h1, h2⟩ := photLoop c w m true igmEnd bs hm hv igmEnd (le_of_lt hi)
  unfold photCross
  simp only
  rw [if_pos ⟨trivial, hk⟩, h1, Res.bind_ok, if_pos trivial, if_neg (by omega), Res.at_eq_ok.2 hout, Res.bind_ok, h2.sums]
  have e : total w m0 (bs0.drop igmEnd) = total w m (bs.drop igmEnd) := by
    refine total_congr w m0 m _ _ (by rw [List.length_drop, List.length_drop, hl]) ?_
    intro i x y hx hy
    rw [List.getElem?_drop] at hx hy
    exact hsame (igmEnd + i) x y (by omega) hx hy
  rw [e, ← total_append, List.take_append_drop]

/-- **C90, counted twice.** When all the bands are in the IGM range the sums of the following IGM indices contain those of the first index in addition: the photometry is counted twice. -/
theorem C90_counted_twice (c w : K) (m0 m : Slot K → K) (kM kE : Nat) (bs0 bs : List (Slot K)) (out : List (TplFit.Sums K)) (hm : ∀ b ∈ bs, b.band.integrate c b.t.flux = .ok (m b))
    (hv : ∀ b ∈ bs, Valid b.data) (hk : 0 < kM) (hout : out[kE]? = some (total w m0 bs0)) :
    photCross c w true kM kE bs.length bs out = .ok ((total w m bs).add (total w m0 bs0), out) := by
  obtain ⟨a, h1, h2⟩ := photLoop c w m true bs.length bs hm hv bs.length (le_refl _)
  unfold photCross
  simp only
  rw [if_pos ⟨trivial, hk⟩, h1, Res.bind_ok, if_pos trivial, if_neg (by omega), Res.at_eq_ok.2 hout, Res.bind_ok, h2.sums, List.take_length]

/-- **C90, chi2.** The photometric chi2 of an amplitude is the weighted sum of the squared differences between the data and the template times the amplitude. -/
theorem C90_chi2 (w a : K) (m : Slot K → K) (bs : List (Slot K)) (hv : ∀ b ∈ bs, Valid b.data) :
    chi2Phot (total w m bs) a = (bs.map fun b => w ^ 2 * ((b.data.flux - a * m b) / b.data.err) ^ 2).sum := by
  induction bs with
  | nil => simp [chi2Phot, total]
  | cons b bs ih =>
    have := ih fun x hx => hv x (List.mem_cons_of_mem _ hx)
    have he := (hv b List.mem_cons_self).err
    rw [List.map_cons, List.sum_cons, ← this]
    unfold chi2Phot total
    simp only [List.map_cons, List.sum_cons]
    field_simp
    ring

/-- **C90, bands without IGM.** With bands sorted by their first wavelength, each seen in the rest frame of a redshift `z` over its whole increasing axis, all the bands from `bandIgmEnd` on are without IGM and
all those before are affected: the search of the first band without IGM separates them. -/
theorem C90_bands_sorted (cv : Tpl.Curves K) (z : K) (hz : 0 < 1 + z) (bs : List (Slot K)) (hax : ∀ b ∈ bs, b.t.axis = b.band.lambda.map (fun l => l / (1 + z)) ∧ b.band.lambda ≠ [] ∧
      b.band.lambda.Pairwise (· < ·) ∧ b.t.igmEnd = Tpl.igmEndIndex cv b.t.axis 0 (b.t.axis.length - 1))
    (hs : bs.Pairwise fun a b => ∀ x y, a.band.lambda.head? = some x → b.band.lambda.head? = some y → x ≤ y) (i : Nat) (b : Slot K) (hi : bs[i]? = some b) :
    bandIgmEnd bs ≤ i ↔ b.t.igmEnd = none := by
  have hnone : ∀ b ∈ bs, b.t.igmEnd = none ↔ ∃ x, b.band.lambda.head? = some x ∧ cv.igmMax < x / (1 + z) := by
    intro b hb
    obtain ⟨h1, h2, h3, h4⟩ := hax b hb
    obtain ⟨x, l, hl⟩ := List.exists_cons_of_ne_nil h2
    rw [h4, h1, hl]
    unfold Tpl.igmEndIndex upperBound
    simp only [List.map_cons, List.length_cons, List.length_map, Nat.add_sub_cancel, List.drop_zero, List.head?_cons, Option.some.injEq, exists_eq_left']
    rw [List.take_of_length_le (by simp), List.findIdx_cons]
    by_cases hx : cv.igmMax < x / (1 + z)
    · simp [hx]
    · simp [hx]
  have mono : ∀ (i j : Nat) a b, i < j → bs[i]? = some a → bs[j]? = some b → a.t.igmEnd = none → b.t.igmEnd = none := by
    intro i j a b hij ha hb hn
    obtain ⟨ia, rfl⟩ := List.getElem?_eq_some_iff.1 ha
    obtain ⟨jb, rfl⟩ := List.getElem?_eq_some_iff.1 hb
    obtain ⟨x, hx, hgt⟩ := (hnone _ (List.getElem_mem ia)).1 hn
    obtain ⟨y, l, hl⟩ := List.exists_cons_of_ne_nil (hax _ (List.getElem_mem jb)).2.1
    refine (hnone _ (List.getElem_mem jb)).2 ⟨y, by rw [hl]; rfl, ?_⟩
    have := List.pairwise_iff_getElem.1 hs i j ia jb hij x y hx (by rw [hl]; rfl)
    exact lt_of_lt_of_le hgt (div_le_div_of_nonneg_right this hz.le)
  obtain ⟨il, rfl⟩ := List.getElem?_eq_some_iff.1 hi
  unfold bandIgmEnd
  constructor
  · intro hle
    have hlt : bs.findIdx (fun b => decide (b.t.igmEnd = none)) < bs.length := by omega
    have hfirst := of_decide_eq_true (List.findIdx_getElem (w := hlt))
    rcases Nat.lt_or_eq_of_le hle with h | h
    · exact mono _ _ _ _ h (List.getElem?_eq_getElem hlt) (List.getElem?_eq_getElem il) hfirst
    · simp only [h] at hfirst
      exact hfirst
  · intro hn
    by_contra hc
    have := List.not_of_lt_findIdx (Nat.lt_of_not_le hc)
    simp only [hn] at this
    simp at this

/-! ## C91: constant of the likelihood -/

/-- **C91, value.** The constant with photometry is that of the spectra minus, for each band, `0.5 log 2π`, PLUS the logarithm of its error times the weight. -/
theorem C91_value_partial (lg : K → K) (h w : K) (os : List (Merit.Obs K)) (errs : List K) (s : K) (hs : Merit.cstLog lg h os = .ok s) (hp : ∀ e ∈ errs, 0 < e * w) :
    cstLogPhot lg h w os errs = .ok (s + (errs.map fun e => -h + lg (e * w)).sum) := by
  unfold cstLogPhot
  rw [hs, Res.bind_ok, if_neg]
  · congr 1
    have : (errs.map fun e => -h + lg (e * w)).sum = -((errs.length : K) * h) + (errs.map fun e => lg (e * w)).sum := by
      clear hp
      induction errs with
      | nil => simp
      | cons e l ih =>
        simp only [List.map_cons, List.sum_cons, List.length_cons]
        rw [ih]; push_cast; ring
    rw [this]; ring
  · rw [List.any_eq_true]
    rintro ⟨e, he, hd⟩
    exact absurd (of_decide_eq_true hd) (not_le.2 (hp e he))

/-- **C91, wrong sign.** The logarithm of the density of Gaussian points with errors `e / w` (those that the chi2 uses) has the constant `-0.5 log 2π - log(e / w)` for each band. The code is off by twice the sum of
the logarithms of the errors, so it is right exactly when the product of the errors is 1. -/
theorem C91_wrong_sign (h w : ℝ) (os : List (Merit.Obs ℝ)) (errs : List ℝ) (s : ℝ) (hs : Merit.cstLog Real.log h os = .ok s) (hw : 0 < w) (hp : ∀ e ∈ errs, 0 < e) :
    ∃ x, cstLogPhot Real.log h w os errs = .ok x ∧ x - (s + (errs.map fun e => -h - Real.log (e / w)).sum) = 2 * Real.log errs.prod ∧
      (x = s + (errs.map fun e => -h - Real.log (e / w)).sum ↔ errs.prod = 1) := by
  have hx := C91_value_partial Real.log h w os errs s hs fun e he => mul_pos (hp e he) hw
  have hpr : 0 < errs.prod := List.prod_pos hp
  have key : (errs.map fun e => -h + Real.log (e * w)).sum - (errs.map fun e => -h - Real.log (e / w)).sum = 2 * Real.log errs.prod := by
    clear hx hpr
    induction errs with
    | nil => simp
    | cons e l ih =>
      have he := hp e List.mem_cons_self
      have hl : ∀ x ∈ l, 0 < x := fun x hx => hp x (List.mem_cons_of_mem _ hx)
      have hlp : 0 < l.prod := List.prod_pos hl
      simp only [List.map_cons, List.sum_cons, List.prod_cons]
      rw [Real.log_mul he.ne' hlp.ne', Real.log_mul he.ne' hw.ne', Real.log_div he.ne' hw.ne']
      have := ih hl
      linarith
  refine ⟨_, hx, by linarith, ?_⟩
  constructor
  · intro h'
    have h0 : Real.log errs.prod = 0 := by linarith
    rcases Real.log_eq_zero.1 h0 with e | e | e
    · exact absurd e hpr.ne'
    · exact e
    · linarith
  · intro h'
    rw [h', Real.log_one] at key
    linarith

/-! ## C92: photometry of the model -/

theorem integrated_find (c amp : K) (m : Slot K → K) (bs : List (Slot K)) (hm : ∀ b ∈ bs, b.band.integrate c b.t.flux = .ok (m b)) (hn : (bs.map (·.name)).Nodup) :
    ∃ l, integrated c amp bs = .ok l ∧ LineCat.Keyed l ∧ (∀ b ∈ bs, LineCat.mapFind b.name l = some (m b * amp)) ∧ ∀ q, q ∉ bs.map (·.name) → LineCat.mapFind q l = none := by
  induction bs with
  | nil => exact ⟨[], rfl, List.Pairwise.nil, by simp, fun q _ => rfl⟩
  | cons b bs ih =>
    rw [List.map_cons, List.nodup_cons] at hn
    obtain ⟨l, h1, h2, h3, h4⟩ := ih (fun x hx => hm x (List.mem_cons_of_mem _ hx)) hn.2
    refine ⟨LineCat.mapPut b.name (m b * amp) l, ?_, LineCat.mapPut_keyed _ _ _ h2, ?_, ?_⟩
    · unfold integrated
      rw [hm b List.mem_cons_self, Res.bind_ok, h1, Res.bind_ok]
    · intro x hx
      rw [LineCat.mapFind_put]
      rcases List.mem_cons.1 hx with rfl | hx
      · rw [if_pos rfl]
      · rw [if_neg, h3 x hx]
        intro e
        exact hn.1 (e ▸ List.mem_map_of_mem hx)
    · intro q hq
      rw [LineCat.mapFind_put, if_neg (fun e => hq (by rw [e]; simp))]
      exact h4 q fun hc => hq (by rw [List.map_cons]; exact List.mem_cons_of_mem _ hc)

/-- **C92, integrated fluxes.** The fluxes in the bands with an amplitude are the fluxes of the template times the amplitude, one for each band. -/
theorem C92_integrated (c amp : K) (m : Slot K → K) (bs : List (Slot K)) (hm : ∀ b ∈ bs, b.band.integrate c b.t.flux = .ok (m b)) (hn : (bs.map (·.name)).Nodup) :
    ∃ l, integrated c amp bs = .ok l ∧ (∀ b ∈ bs, LineCat.mapFind b.name l = some (amp * m b)) ∧ ∀ q, q ∉ bs.map (·.name) → LineCat.mapFind q l = none := by
  obtain ⟨l, h1, _, h3, h4⟩ := integrated_find c amp m bs hm hn
  exact ⟨l, h1, fun b hb => by rw [h3 b hb, mul_comm], h4⟩

/-- **C92, amplitude of the model.** The spectrum of the model is multiplied by the amplitude; the photometric fluxes returned with it are those of the template WITHOUT the amplitude, whatever the amplitude. So they are
the fluxes of the model exactly when the amplitude is 1 or the template has no flux in the bands. -/
theorem C92_model_partial (c amp : K) (m : Slot K → K) (t : Tpl.T K) (bs : List (Slot K)) (hm : ∀ b ∈ bs, b.band.integrate c b.t.flux = .ok (m b)) (hn : (bs.map (·.name)).Nodup) :
    ∃ l, modelWithPhot c amp t bs = .ok (t.flux.map (· * amp), l) ∧ (∀ b ∈ bs, LineCat.mapFind b.name l = some (m b)) ∧
      ((∀ b ∈ bs, LineCat.mapFind b.name l = some (amp * m b)) ↔ amp = 1 ∨ ∀ b ∈ bs, m b = 0) := by
  obtain ⟨l, h1, _, h3, _⟩ := integrated_find c 1 m bs hm hn
  have h3' : ∀ b ∈ bs, LineCat.mapFind b.name l = some (m b) := fun b hb => by rw [h3 b hb, mul_one]
  refine ⟨l, ?_, h3', ?_⟩
  · unfold modelWithPhot
    rw [h1, Res.bind_ok]
    unfold Tpl.amplitude
    split <;> rfl
  · constructor
    · intro h
      by_cases ha : amp = 1
      · exact .inl ha
      · right
        intro b hb
        have := h b hb
        rw [h3' b hb, Option.some.injEq] at this
        have h0 : (amp - 1) * m b = 0 := by linear_combination -this
        rcases mul_eq_zero.1 h0 with e | e
        · exact absurd (sub_eq_zero.1 e) ha
        · exact e
    · rintro (rfl | h) b hb
      · rw [h3' b hb, one_mul]
      · rw [h3' b hb, h b hb, mul_zero]

/-! ## Examples -/

/-- A band seen by the fit; its template is 5 per unit of frequency. -/
def exSlot (n : String) (d e : ℚ) (ig : Option Nat) : Slot ℚ :=
  ⟨n, ⟨[1, 2], [2, 3], [6, 4], 8, 2⟩, ⟨d, e, 1 / (e * e), d * d * (1 / (e * e))⟩, { Tpl.make [1, 3 / 2] [15, 20 / 3] false true with igmEnd := ig }⟩

example : (exSlot "a" 4 2 none).band.integrate 12 (exSlot "a" 4 2 none).t.flux = .ok 5 ∧ Valid (exSlot "a" 4 2 none).data :=
  ⟨by decide +kernel, ⟨by decide +kernel, by decide +kernel, by decide +kernel⟩⟩

/-- Two bands, the first affected by the IGM: the sums of the two indices are the same; when both are affected the second index counts twice. -/
theorem C90_twice_counterexample :
    (∃ out, photCross 12 1 true 0 0 1 [exSlot "a" 4 2 (some 0), exSlot "b" 6 1 none] [TplFit.Sums.zero] = .ok (⟨35, 125 / 4, 40⟩, out) ∧
      ∃ o, photCross 12 1 true 1 0 1 [exSlot "a" 4 2 (some 0), exSlot "b" 6 1 none] out = .ok (⟨35, 125 / 4, 40⟩, o)) ∧
    (∃ out, photCross 12 1 true 0 0 2 [exSlot "a" 4 2 (some 0), exSlot "b" 6 1 (some 0)] [TplFit.Sums.zero] = .ok (⟨35, 125 / 4, 40⟩, out) ∧
      ∃ o, photCross 12 1 true 1 0 2 [exSlot "a" 4 2 (some 0), exSlot "b" 6 1 (some 0)] out = .ok (⟨70, 125 / 2, 80⟩, o)) := by
  refine ⟨⟨[⟨30, 25, 36⟩], by decide +kernel, [⟨30, 25, 36⟩], by decide +kernel⟩, ⟨[⟨35, 125 / 4, 40⟩], by decide +kernel, [⟨35, 125 / 4, 40⟩], by decide +kernel⟩⟩

/-- The model of amplitude 3: three times the template on the spectrum, one time in the band. -/
theorem C92_amplitude_counterexample : modelWithPhot 12 3 (exSlot "a" 4 2 none).t [exSlot "a" 4 2 none] = .ok ([45, 20], [("a", 5)]) := by decide +kernel

example : cstLogPhot id (1 : ℚ) 1 [] [2, 3] = .ok 3 := by decide +kernel

end Phot
end Amazed
