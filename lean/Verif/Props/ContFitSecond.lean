import Verif.Props.ContFitEval
import Verif.Props.GridProps

set_option linter.unusedSectionVars false
set_option linter.unusedVariables false

/-! # C111, C112, C114: continua of the second pass, grid of the first pass -/

namespace Amazed
namespace ContFit

open FitStore (Sol Store Goes tie given Inv)

theorem mapL_total {α β : Type} {f : α → Res β} {Q : α → β → Prop} : ∀ (l : List α), (∀ a ∈ l, ∃ b, f a = .ok b ∧ Q a b) →
    ∃ bs, SvdFit.mapL f l = .ok bs ∧ List.Forall₂ Q l bs := by
  intro l
  induction l with
  | nil => intro _; exact ⟨[], rfl, .nil⟩
  | cons a l ih =>
    intro h
    obtain ⟨b, h1, h2⟩ := h a (by simp)
    obtain ⟨bs, h3, h4⟩ := ih (fun c hc => h c (by simp [hc]))
    refine ⟨b :: bs, ?_, .cons h2 h4⟩
    unfold SvdFit.mapL
    rw [h1, Res.bind_ok, h3, Res.bind_ok]

theorem mapL_inv {α β : Type} {f : α → Res β} : ∀ (l : List α) (bs : List β), SvdFit.mapL f l = .ok bs → List.Forall₂ (fun a b => f a = .ok b) l bs := by
  intro l
  induction l with
  | nil => intro bs h; cases h; exact .nil
  | cons a l ih =>
    intro bs h
    unfold SvdFit.mapL at h
    obtain ⟨b, h1, h⟩ := Res.bind_eq_ok.1 h
    obtain ⟨bs', h2, h⟩ := Res.bind_eq_ok.1 h
    cases h
    exact .cons h1 (ih bs' h2)

theorem forall₂_range {β : Type} {Q : Nat → β → Prop} {n : Nat} {bs : List β} (h : List.Forall₂ Q (List.range n) bs) :
    bs.length = n ∧ ∀ (k : Nat) b, bs[k]? = some b → k < n ∧ Q k b := by
  have hl : bs.length = n := by rw [← h.length_eq, List.length_range]
  refine ⟨hl, fun k b hb => ?_⟩
  obtain ⟨hk, rfl⟩ := List.getElem?_eq_some_iff.1 hb
  have hk' : k < (List.range n).length := by rw [List.length_range]; omega
  have := h.get hk' hk
  simp only [List.get_eq_getElem, List.getElem_range] at this
  exact ⟨by omega, this⟩

section
variable {K : Type} [Field K] [LinearOrder K] [IsStrictOrderedRing K] {α τ L : Type}

/-! ## C111 -/

/-- The template `t` with the Ism and Igm indices imposed is the one of the fit `v`: found by name, the Ism index of its coefficient in the correction of the first template, its Igm index; -1 for a
correction that is not fitted. -/
structure Again (e : Env K α τ L) (o : Opts K) (fft : Bool) (v : Sol K (Val K α)) (t : τ × Int × Int) : Prop where
  tpl : TplCat.getByName e.nm e.cat v.val.name true fft [e.category] = .ok t.1
  ism : o.ism = true → ∃ t0, TplCat.getTemplate e.cat e.category 0 true fft = .ok (some t0) ∧ e.ebmvIdx t0 v.val.ebmv = .ok t.2.1
  noIsm : o.ism = false → t.2.1 = -1
  igm : t.2.2 = if o.igm = true then v.val.meik else -1

/-- **C111, continua fitted again.** When the second pass fits the continua of the first pass again, it fits for candidate `c` exactly the `maxN` best ones stored by the first pass at the greatest redshift of
its grid not above the redshift of the candidate, in their order, each with the Ism and Igm indices stored there. -/
theorem C111_refit (e : Env K α τ L) (o : Opts K) (fft : Bool) (g : List K) (res : List (String × List (Entry K α))) (m : K) (f : Store K (Val K α)) (hg : g.Pairwise (· < ·))
    (hl : ∀ r ∈ res, r.2.length = g.length) (hf : fill g res = .ok (m, f)) (hN : o.maxN ≤ res.length) (zs : List K) (c : Nat) (z : K) (hz : zs[c]? = some z) (hlow : ∃ x ∈ g, x ≤ z)
    (hname : ∀ r ∈ res, ∃ t, TplCat.getByName e.nm e.cat r.1 true fft [e.category] = .ok t)
    (hism : o.ism = true → ∃ t0, TplCat.getTemplate e.cat e.category 0 true fft = .ok (some t0) ∧ ∀ r ∈ res, ∀ x ∈ r.2, ∃ i, e.ebmvIdx t0 x.ebmv = .ok i) :
    ∃ (i : Nat) (z0 : K) (row : List (Sol K (Val K α))) (ts : List (τ × Int × Int)), g[i]? = some z0 ∧ z0 ≤ z ∧ (∀ x ∈ g, x ≤ z → x ≤ z0) ∧ f.rows[i]? = some row ∧
      Ranked row (column res i z0) ∧ refitInfo e o fft f zs c = .ok ts ∧ ts.length = o.maxN ∧ ∀ (k : Nat) t, ts[k]? = some t → ∃ v, row[k]? = some v ∧ Again e o fft v t := by
  have hn : g.Nodup := hg.imp fun h => ne_of_lt h
  obtain ⟨st, h1, h2⟩ := fill_ok g res hl
  rw [hf] at h1; cases h1
  have hc := complete_of_filled hn hl h2
  have hne : g ≠ [] := by obtain ⟨x, hx, _⟩ := hlow; exact List.ne_nil_of_mem hx
  obtain ⟨n1, n2, oi, n3⟩ := C08_closestLower g z (hg.imp le_of_lt) hne
  have : ∃ i, oi = some i := by
    cases oi with
    | none =>
      obtain ⟨x, hx, hxz⟩ := hlow
      exact absurd (n1.1 n3 x hx) (not_lt.2 hxz)
    | some i => exact ⟨i, rfl⟩
  obtain ⟨i, rfl⟩ := this
  obtain ⟨hi, i1, i2, _⟩ := n2 i n3
  have hgi := List.getElem?_eq_getElem hi
  obtain ⟨row, g1, g2, g3⟩ := hc.rows i _ hgi
  have hrank : ∀ k ∈ List.range o.maxN, ∃ t, refitRank e o fft f z k = .ok t ∧ (∃ v, row[k]? = some v ∧ Again e o fft v t) := by
    intro k hk
    have hk := List.mem_range.1 hk
    have hv := List.getElem?_eq_getElem (show k < row.length by omega)
    have hmem : row[k]'(by omega) ∈ column res i g[i] := g3.1.subset (List.getElem_mem _)
    set v := row[k]'(by omega) with hvdef
    obtain ⟨r, r1, r2⟩ := List.mem_filterMap.1 hmem
    obtain ⟨x, x1, x2⟩ := Option.map_eq_some_iff.1 r2
    obtain ⟨t, t1⟩ := hname r r1
    have hvn : v.val.name = r.1 := by rw [← x2]; rfl
    have hve : v.val.ebmv = x.ebmv := by rw [← x2]; rfl
    have hfit : FitStore.fitValuesAt f (i : Int) (k : Int) = .ok v := ((FitStore.C87_lookup_index_partial g _ f h2.run i k).2.2 row (by omega) (by omega) g1).1 _ hv
    unfold refitRank
    rw [hc.grid_eq, n3, Res.bind_ok]
    simp only
    rw [hfit, Res.bind_ok, hvn, t1, Res.bind_ok]
    by_cases ci : o.ism = true
    · obtain ⟨t0, a1, a2⟩ := hism ci
      obtain ⟨b, b1⟩ := a2 r r1 x (List.mem_of_getElem? x1)
      rw [if_pos ci, a1, Res.bind_ok]
      simp only
      rw [hve, b1, Res.bind_ok]
      exact ⟨_, rfl, v, hv, ⟨by rw [hvn]; exact t1, fun _ => ⟨t0, a1, by rw [hve]; exact b1⟩, fun q => absurd (ci.symm.trans q) (by decide), rfl⟩⟩
    · rw [if_neg ci, Res.bind_ok]
      exact ⟨_, rfl, v, hv, ⟨by rw [hvn]; exact t1, fun q => absurd q ci, fun _ => rfl, rfl⟩⟩
  obtain ⟨ts, t1, t2⟩ := mapL_total _ hrank
  obtain ⟨t3, t4⟩ := forall₂_range t2
  refine ⟨i, g[i], row, ts, hgi, i1, i2, g1, g3, ?_, t3, fun k t hk => (t4 k t hk).2⟩
  have hcl := (List.getElem?_eq_some_iff.1 hz).1
  unfold refitInfo
  rw [if_neg (by omega), FitStore.atZ_of (i := (c : Int)) (by omega) hz, Res.bind_ok]
  exact t1

/-- **C111, errors.** No candidate of that index, or a candidate below the grid of the first pass (with at least one continuum required): an error is raised. -/
theorem C111_refused (e : Env K α τ L) (o : Opts K) (fft : Bool) (g : List K) (l : List (Sol K (Val K α))) (f : Store K (Val K α)) (hg : g.Pairwise (· < ·)) (hne : g ≠ [])
    (hf : FitStore.addAll (FitStore.new g) l = .ok f) (zs : List K) (cand : Int) :
    (cand < 0 ∨ (zs.length : Int) ≤ cand → refitInfo e o fft f zs cand = .throw .INTERNAL_ERROR) ∧
    (∀ (c : Nat) z, cand = c → zs[c]? = some z → (∀ x ∈ g, z < x) → 0 < o.maxN → refitInfo e o fft f zs cand = .throw .INTERNAL_ERROR) := by
  obtain ⟨s', h1, h2⟩ := FitStore.addAll_inv g l [] (FitStore.new g) (FitStore.inv_new g)
  rw [hf] at h1; cases h1
  refine ⟨fun h => by unfold refitInfo; rw [if_pos h], ?_⟩
  rintro c z rfl hz hlow hN
  have hcl := (List.getElem?_eq_some_iff.1 hz).1
  unfold refitInfo
  rw [if_neg (by omega), FitStore.atZ_of (i := (c : Int)) (by omega) hz, Res.bind_ok]
  obtain ⟨n, hn⟩ : ∃ n, o.maxN = n + 1 := ⟨o.maxN - 1, by omega⟩
  rw [hn, List.range_succ_eq_map]
  unfold SvdFit.mapL refitRank
  rw [h2.grid_eq, (C08_closestLower g z (hg.imp le_of_lt) hne).1.2 hlow, Res.bind_ok]
  simp only
  have : FitStore.fitValuesAt f (-1) ((0 : Nat) : Int) = .throw .INTERNAL_ERROR := by
    obtain ⟨a1, a2, _⟩ := FitStore.C87_lookup_index_partial g l f hf (-1) ((0 : Nat) : Int)
    by_cases c0 : f.count = 0
    · exact a1 (.inr (by omega))
    · exact a2 (by omega) (by omega) (.inl (by omega))
  rw [this]
  rfl

/-! ## C112 -/

/-- **C112, options.** The three ways to treat the continuum in the second pass; any other value is refused. -/
theorem C112_options (s : String) : (contOption s = .ok 2 ↔ s = "fromFirstPass") ∧ (contOption s = .ok 0 ↔ s = "retryAll") ∧ (contOption s = .ok 3 ↔ s = "reFitFirstPass") ∧
    (s ≠ "fromFirstPass" → s ≠ "retryAll" → s ≠ "reFitFirstPass" → contOption s = .throw .INTERNAL_ERROR) := by
  unfold contOption
  split
  · subst_vars; simp
  · split
    · subst_vars; simp
    · split
      · subst_vars; simp
      · simp_all

theorem evaluate_later {o : Opts K} {pass : Nat} {comp : String} {m : Option K} {ev : String × List Warn} (hp : pass ≠ 1) (h : evaluate o pass comp m = .ok ev) : ev.1 = comp := by
  unfold evaluate at h
  simp only [hp, and_false, if_false] at h
  by_cases c : below m o.thrNeg = true
  · rw [if_pos c] at h
    by_cases d : comp ≠ "tplFitAuto"
    · rw [if_pos d] at h; cases h
    · rw [if_neg d] at h; cases h; rfl
  · rw [if_neg c] at h; cases h; rfl

/-- What a successful `PrecomputeContinuumFit` did. -/
theorem precompute_inv {e : Env K α τ L} {o : Opts K} {pass : Nat} {opt : Int} {first : Option (Store K (Val K α))} {zs grid : List K} {cand : Int} {st st' : Pre K α} {m : K}
    {s : Store K (Val K α)} (h : precompute e o pass opt first zs grid cand st = .ok ((m, s), st')) :
    ∃ ts res op, pick e o pass opt first zs (fftActive o (some pass) grid.length) cand = .ok ts ∧ st'.oper = some op ∧
      List.Forall₂ (fun (t : τ × Int × Int) (r : String × List (Entry K α)) => r.1 = e.nm.name t.1 ∧ e.compute op grid t.1 t.2.1 t.2.2 = .ok (some r.2)) ts res ∧
      fill grid res = .ok (m, s) ∧ o.maxN ≤ s.count ∧ (pass ≠ 1 → st'.comp = st.comp) ∧ grid ≠ [] := by
  unfold precompute at h
  simp only at h
  obtain ⟨z0, h0, h⟩ := Res.bind_eq_ok.1 h
  obtain ⟨ts, h1, h⟩ := Res.bind_eq_ok.1 h
  obtain ⟨res, h2, h⟩ := Res.bind_eq_ok.1 h
  obtain ⟨ms, h3, h⟩ := Res.bind_eq_ok.1 h
  split at h
  · cases h
  · rename_i hN
    obtain ⟨mx, h4, h⟩ := Res.bind_eq_ok.1 h
    obtain ⟨ev, h5, h⟩ := Res.bind_eq_ok.1 h
    injection h with h
    injection h with ha hb
    subst ha hb
    refine ⟨ts, res, _, h1, rfl, ?_, h3, not_lt.1 hN, ?_, ?_⟩
    · refine (mapL_inv ts res h2).imp ?_
      intro t r hr
      unfold fitOne at hr
      obtain ⟨l, g1, g2⟩ := Res.bind_eq_ok.1 hr
      cases l with
      | none => cases g2
      | some l => cases g2; exact ⟨rfl, g1⟩
    · intro hp
      exact evaluate_later hp h5
    · rintro rfl
      cases h0

theorem isTplFit_of {c : String} (h : c = "tplFit" ∨ c = "tplFitAuto") : isTplFit c = true := by
  unfold isTplFit
  rcases h with h | h <;> simp [h]

theorem pick_chosen {e : Env K α τ L} {o : Opts K} {pass : Nat} {opt : Int} {first : Option (Store K (Val K α))} {zs : List K} {n : Nat} {cand : Int} {ts : List (τ × Int × Int)}
    (h : pick e o pass opt first zs (fftActive o (some pass) n) cand = .ok ts) : Chosen e o pass opt first zs n cand ts := by
  unfold pick at h
  refine ⟨fun c => ?_, fun c => ?_⟩
  · rw [if_pos c] at h
    cases first with
    | none => simp at h
    | some f => exact ⟨f, rfl, h⟩
  · rw [if_neg c] at h
    exact (allInfo_iff e _ ts).1 h

/-- **C112, no break.** In the second pass the continuum component never changes, so that the loop over the candidates is never left early: after a successful computation of the stores every candidate has
its store. -/
theorem C112_no_break (e : Env K α τ L) (o : Opts K) (opt : Int) (first : Option (Store K (Val K α))) (zs : List K) (hopt : opt = 0 ∨ opt = 3) (wins : List (List K)) (st : Pre K α)
    (hcomp : st.comp = "tplFit" ∨ st.comp = "tplFitAuto") (stores : List (Option (Store K (Val K α)))) (st' : Pre K α) (h : secondStores e o opt first zs wins st = .ok (stores, st')) :
    st'.comp = st.comp ∧ stores.length = wins.length ∧ ∀ (i : Nat) w, wins[i]? = some w → ∃ m s st1 st2, stores[i]? = some (some s) ∧ precompute e o 2 opt first zs w i st1 = .ok ((m, s), st2) := by
  have loop : ∀ (wins : List (List K)) (n : Nat) (st : Pre K α) r, isTplFit st.comp = true → storesLoop e o opt first zs n wins st = .ok r →
      r.2.comp = st.comp ∧ r.1.length = wins.length ∧ ∀ (i : Nat) w, wins[i]? = some w → ∃ m s st1 st2, r.1[i]? = some s ∧ precompute e o 2 opt first zs w ((n + i : Nat) : Int) st1 = .ok ((m, s), st2) := by
    intro wins
    induction wins with
    | nil => intro n st r _ h; cases h; exact ⟨rfl, rfl, by simp⟩
    | cons w ws ih =>
      intro n st r hc h
      unfold storesLoop at h
      obtain ⟨q, h1, h⟩ := Res.bind_eq_ok.1 h
      obtain ⟨_, _, _, _, _, _, _, _, hq, _⟩ := precompute_inv (m := q.1.1) (s := q.1.2) (st' := q.2) h1
      have hq := hq (by omega)
      rw [if_neg (by
        rw [hq]
        intro hh
        rw [hh] at hc
        revert hc
        decide)] at h
      obtain ⟨p, h2, h⟩ := Res.bind_eq_ok.1 h
      cases h
      obtain ⟨a1, a2, a3⟩ := ih (n + 1) q.2 p (by rw [hq]; exact hc) h2
      refine ⟨by rw [← hq]; exact a1, by simp [a2], ?_⟩
      intro i w' hw
      cases i with
      | zero =>
        simp at hw
        subst hw
        exact ⟨q.1.1, q.1.2, st, q.2, rfl, h1⟩
      | succ i =>
        obtain ⟨m, s, s1, s2, b1, b2⟩ := a3 i w' (by simpa using hw)
        refine ⟨m, s, s1, s2, by simpa using b1, ?_⟩
        rw [show n + (i + 1) = n + 1 + i by omega]
        exact b2
  unfold secondStores at h
  rw [if_pos (isTplFit_of hcomp), if_pos hopt] at h
  obtain ⟨r, h1, h⟩ := Res.bind_eq_ok.1 h
  obtain ⟨a1, a2, a3⟩ := loop wins 0 st r (isTplFit_of hcomp) h1
  injection h with h
  injection h with ha hb
  subst ha hb
  refine ⟨a1, by simp [a2], ?_⟩
  intro i w hw
  obtain ⟨m, s, s1, s2, b1, b2⟩ := a3 i w hw
  rw [Nat.zero_add] at b2
  exact ⟨m, s, s1, s2, by rw [a2, Nat.sub_self]; simpa using b1, b2⟩

/-- **C112, continuum of a candidate.** Options `retryAll` and `reFitFirstPass`: once the stores of the second pass are computed, the continuum injected for candidate `i` is its own store, and the continuum
of rank `k` loaded at a redshift of its window is the fit of rank `k`, among all fits at this redshift of the templates chosen for this candidate (all of them, or those of C111). -/
theorem C112_candidate (e : Env K α τ L) (o : Opts K) (opt : Int) (first : Option (Store K (Val K α))) (zs : List K) (hopt : opt = 0 ∨ opt = 3) (wins : List (List K)) (st : Pre K α)
    (hcomp : st.comp = "tplFit" ∨ st.comp = "tplFitAuto") (stores : List (Option (Store K (Val K α)))) (st' : Pre K α) (h : secondStores e o opt first zs wins st = .ok (stores, st'))
    (hlen : ∀ op g t a b l, e.compute op g t a b = .ok (some l) → l.length = g.length) (hnm : ∀ t, e.nm.name t ≠ "")
    (fitted : List (Sol K (Val K α))) (mgr : Mgr K α) (i j k : Nat) (w : List K) (z : K) (hw : wins[i]? = some w) (hs : w.Pairwise (· < ·)) (hz : w[j]? = some z) (hk : k < o.maxN) :
    ∃ op ts res row v m' , Chosen e o 2 opt first zs w.length i ts ∧
      List.Forall₂ (fun (t : τ × Int × Int) (r : String × List (Entry K α)) => r.1 = e.nm.name t.1 ∧ e.compute op w t.1 t.2.1 t.2.2 = .ok (some r.2)) ts res ∧
      Ranked row (column res j z) ∧ row[k]? = some v ∧ inject st'.comp opt stores fitted i mgr = .ok m' ∧ m'.load k z = .ok (v, { m' with values := some v }) := by
  obtain ⟨a1, a2, a3⟩ := C112_no_break e o opt first zs hopt wins st hcomp stores st' h
  obtain ⟨m, s, s1, s2, b1, b2⟩ := a3 i w hw
  obtain ⟨ts, res, op, c1, _, c3, c4, c5, _, c7⟩ := precompute_inv b2
  have hl : ∀ r ∈ res, r.2.length = w.length := by
    intro r hr
    obtain ⟨n, hn, rfl⟩ := List.mem_iff_getElem.1 hr
    have hn' : n < ts.length := by rw [c3.length_eq]; exact hn
    exact hlen _ _ _ _ _ _ (c3.get hn' hn).2
  have hcnt : s.count = res.length := by
    obtain ⟨fst, f1, f2⟩ := fill_ok w res hl
    rw [c4] at f1; cases f1
    exact (complete_of_filled (hs.imp fun h => ne_of_lt h) hl f2).count_eq c7
  obtain ⟨row, v, d1, d2, d3, d4, _⟩ := (C109_lookup w res hs hl m s c4 j z hz k).1 (by omega)
  refine ⟨op, ts, res, row, v, ⟨1, some s, mgr.values⟩, pick_chosen c1, c3, d2, d3, ?_, ?_⟩
  · unfold inject
    rw [a1, if_pos (isTplFit_of hcomp), if_pos hopt, Res.at_eq_ok.2 b1, Res.bind_ok]
    rfl
  · unfold Mgr.load
    rw [if_pos rfl]
    simp only
    rw [d4, Res.bind_ok, if_neg]
    have hmem : v ∈ column res j z := d2.1.subset (List.mem_of_getElem? d3)
    obtain ⟨r, r1, r2⟩ := List.mem_filterMap.1 hmem
    obtain ⟨x, x1, rfl⟩ := Option.map_eq_some_iff.1 r2
    obtain ⟨n, hn, rfl⟩ := List.mem_iff_getElem.1 r1
    have hn' : n < ts.length := by rw [c3.length_eq]; exact hn
    have := (c3.get hn' hn).1
    simp only [List.get_eq_getElem] at this
    show res[n].1 ≠ ""
    rw [this]
    exact hnm _

/-- **C112, continuum kept.** Option `fromFirstPass`: the continuum loaded for candidate `i` is the one its first pass candidate was fitted with, at every redshift and rank, and stays so. -/
theorem C112_from_first (comp : String) (hcomp : comp = "tplFit" ∨ comp = "tplFitAuto") (stores : List (Option (Store K (Val K α)))) (fitted : List (Sol K (Val K α))) (mgr : Mgr K α) (i : Nat) (v : Sol K (Val K α))
    (hv : fitted[i]? = some v) (hn : v.val.name ≠ "") : ∃ m', inject comp 2 stores fitted i mgr = .ok m' ∧ ∀ (k : Int) (z : K), m'.load k z = .ok (v, m') := by
  refine ⟨⟨2, none, some v⟩, ?_, ?_⟩
  · unfold inject
    rw [if_pos (isTplFit_of hcomp), if_neg (by omega), Res.at_eq_ok.2 hv, Res.bind_ok]
  · intro k z
    unfold Mgr.load
    rw [if_neg (show ¬ ((2 : Int) = 1) by decide), if_pos rfl]
    simp only
    rw [if_neg hn]

/-- **C112, other components.** Without a fitted continuum the second pass computes no store and changes no continuum. -/
theorem C112_other (e : Env K α τ L) (o : Opts K) (opt : Int) (first : Option (Store K (Val K α))) (zs : List K) (wins : List (List K)) (st : Pre K α) (stores : List (Option (Store K (Val K α))))
    (fitted : List (Sol K (Val K α))) (mgr : Mgr K α) (i : Nat) (h : st.comp ≠ "tplFit" ∧ st.comp ≠ "tplFitAuto") :
    secondStores e o opt first zs wins st = .ok ([], st) ∧ inject st.comp opt stores fitted i mgr = .ok mgr := by
  have hc : ¬ isTplFit st.comp = true := by unfold isTplFit; simp [h.1, h.2]
  unfold secondStores inject
  rw [if_neg hc, if_neg hc]
  exact ⟨rfl, rfl⟩

end

/-! ## A case: two templates, `b` better above redshift 1, two candidates. -/

/-- The environment of the case. -/
def exEnv : Env ℚ Unit String Unit :=
  ⟨⟨id, fun _ => "galaxy"⟩, ⟨fun o l c => if o = true ∧ l = false ∧ c = "galaxy" then some [some "a", some "b"] else none, true, false, none⟩, "galaxy", fun _ v => .ok ⌊v * 10⌋,
    fun _ g t eb ig => .ok (some (g.map fun z => ⟨if t = "a" then z else 1, if t = "a" then 2 else 3, if eb < 0 then 1 / 10 else eb / 10, if ig < 0 then 4 else ig, some z, ()⟩))⟩

/-- Its options: one continuum, Ism and Igm fitted. -/
def exOpts : Opts ℚ := ⟨true, true, false, true, true, 1, -5, -3, true⟩

/-- The store of the first pass on the grid 0, 2. -/
example : (precompute exEnv exOpts 1 0 none [] [0, 2] 0 ⟨none, "tplFit", [], ⟨0, none, none⟩⟩ >>= fun r => (.ok (r.1.2.rows.map fun row => row.map fun v => v.val.name, r.2.comp, r.2.warns) : Res _)) =
    .ok ([["a", "b"], ["b", "a"]], "tplFit", []) := by decide +kernel

/-- Continua of the first pass fitted again around the candidates 1/2 and 3: `a` for the first, `b` for the second. -/
example : (precompute exEnv exOpts 1 0 none [] [0, 2] 0 ⟨none, "tplFit", [], ⟨0, none, none⟩⟩ >>= fun r =>
    secondStores exEnv exOpts 3 (some r.1.2) [1 / 2, 3] [[1 / 2, 1], [2, 3]] r.2 >>= fun q =>
    (.ok (q.1.map fun s => (s.map fun s => s.rows.flatten.map fun v => v.val.name).getD [], q.2.comp) : Res (List (List String) × String))) =
    .ok ([["a", "a"], ["b", "b"]], "tplFit") := by decide +kernel

/-! ## C114 -/

/-- The grid of a range for a step, linear sampling: it starts at the begin of the range and increases by the step, its last value being cut at the end of the range; one step more passes the end. -/
def StepGrid {K : Type} [Field K] [LinearOrder K] (r : Range K) (eps d : K) (g : List K) : Prop :=
  g.Pairwise (· < ·) ∧ (∀ x ∈ g, r.b ≤ x ∧ x ≤ r.e) ∧ g.head? = some r.b ∧ (∀ (i : Nat) (h : i < g.length), g[i] = min (r.b + i * d) r.e) ∧ r.e + eps < r.b + g.length * d

/-- The same for logarithmic sampling of `1 + z`. -/
def StepGridLog (r : Range ℝ) (eps d : ℝ) (g : List ℝ) : Prop :=
  g.Pairwise (· < ·) ∧ (∀ x ∈ g, r.b ≤ x ∧ x ≤ r.e) ∧ g.head? = some r.b ∧ (∀ (i : Nat) (h : i < g.length), g[i] = min ((r.b + 1) * Real.exp (i * d) - 1) r.e) ∧
    r.e + eps + 1 < (r.b + 1) * Real.exp (g.length * d)

theorem firstGrid_cases {K : Type} [Field K] (spread : K → Res (List K)) (fine : K) (ratio : Int) (P : K → List K → Prop) (h1 : ∃ g, spread (fine * ratio) = .ok g ∧ P (fine * ratio) g)
    (h2 : ∃ g, spread fine = .ok g ∧ P fine g) :
    ∃ d g, firstGrid spread fine ratio = .ok (d, g) ∧ P d g ∧ ((d = fine * ratio ∧ 10 ≤ g.length) ∨ (d = fine ∧ ∃ g', P (fine * ratio) g' ∧ g'.length < 10)) := by
  obtain ⟨g, a1, a2⟩ := h1
  obtain ⟨f, b1, b2⟩ := h2
  unfold firstGrid
  rw [a1, Res.bind_ok]
  by_cases c : g.length < 10
  · rw [if_pos c, b1, Res.bind_ok]
    exact ⟨fine, f, rfl, b2, .inr ⟨rfl, g, a2, c⟩⟩
  · rw [if_neg c]
    exact ⟨_, g, rfl, a2, .inl ⟨rfl, by omega⟩⟩

/-- **C114, linear sampling.** For an increasing range, a fine step above the tolerance and a positive ratio, the grid of the first pass is the grid of the range for the step reported. This step is the fine
step times the ratio, with at least ten redshifts, or it is the fine step, and then the range is shorter than nine coarse steps. -/
theorem C114_first_grid {K : Type} [Field K] [LinearOrder K] [IsStrictOrderedRing K] [FloorRing K] (r : Range K) (hr : r.b ≤ r.e) (fine eps : K) (ratio : Int) (he : 0 ≤ eps) (hf : eps < fine)
    (hratio : 0 < ratio) :
    ∃ d g, firstGrid (fun d => r.spreadOverEps d false eps) fine ratio = .ok (d, g) ∧ StepGrid r eps d g ∧
      ((d = fine * ratio ∧ 10 ≤ g.length) ∨ (d = fine ∧ r.e - r.b < 9 * (fine * ratio))) := by
  have hfine : 0 < fine := lt_of_le_of_lt he hf
  have h1 : (1 : K) ≤ (ratio : K) := by exact_mod_cast hratio
  have hc : fine ≤ fine * ratio := le_mul_of_one_le_right hfine.le h1
  have hD : 0 < fine * (ratio : K) := lt_of_lt_of_le hfine hc
  obtain ⟨d, g, a, b, c⟩ := firstGrid_cases (fun d => r.spreadOverEps d false eps) fine ratio (StepGrid r eps) (C05_spread_eps_forward r _ eps hD he (lt_of_lt_of_le hf hc) hr)
    (C05_spread_eps_forward r _ eps hfine he hf hr)
  refine ⟨d, g, a, b, ?_⟩
  rcases c with c | ⟨rfl, g', c1, c2⟩
  · exact .inl c
  · refine .inr ⟨rfl, ?_⟩
    have h9 : (g'.length : K) ≤ 9 := by exact_mod_cast (by omega : g'.length ≤ 9)
    have := mul_le_mul_of_nonneg_right h9 hD.le
    have := c1.2.2.2.2
    linarith

/-- **C114, logarithmic sampling.** The same with steps of `log (1 + z)`, for a range above -1. -/
theorem C114_first_grid_log (r : Range ℝ) (hr : r.b ≤ r.e) (hb : 0 < r.b + 1) (fine eps : ℝ) (ratio : Int) (he : 0 ≤ eps) (hf : 0 < fine) (hed : eps < (r.e + 1) * (Real.exp fine - 1)) (hratio : 0 < ratio) :
    ∃ d g, firstGrid (fun d => r.spreadOverLogEps d 1 false eps) fine ratio = .ok (d, g) ∧ StepGridLog r eps d g ∧
      ((d = fine * ratio ∧ 10 ≤ g.length) ∨ (d = fine ∧ r.e + 1 < (r.b + 1) * Real.exp (9 * (fine * ratio)))) := by
  have h1 : (1 : ℝ) ≤ (ratio : ℝ) := by exact_mod_cast hratio
  have hc : fine ≤ fine * ratio := le_mul_of_one_le_right hf.le h1
  have hD : 0 < fine * (ratio : ℝ) := lt_of_lt_of_le hf hc
  have hed' : eps < (r.e + 1) * (Real.exp (fine * ratio) - 1) := by
    refine lt_of_lt_of_le hed (mul_le_mul_of_nonneg_left ?_ (by linarith))
    have := Real.exp_le_exp.2 hc
    linarith
  obtain ⟨d, g, a, b, c⟩ := firstGrid_cases (fun d => r.spreadOverLogEps d 1 false eps) fine ratio (StepGridLog r eps) (C06_log_eps_forward r _ 1 eps hD he hr hb hed')
    (C06_log_eps_forward r _ 1 eps hf he hr hb hed)
  refine ⟨d, g, a, b, ?_⟩
  rcases c with c | ⟨rfl, g', c1, c2⟩
  · exact .inl c
  · refine .inr ⟨rfl, ?_⟩
    have h9 : (g'.length : ℝ) ≤ 9 := by exact_mod_cast (by omega : g'.length ≤ 9)
    have h10 : (g'.length : ℝ) * (d * ratio) ≤ 9 * (d * ratio) := mul_le_mul_of_nonneg_right h9 hD.le
    have h11 := mul_le_mul_of_nonneg_left (Real.exp_le_exp.2 h10) hb.le
    have := c1.2.2.2.2
    linarith

/-- A range of 1 and a fine step of 1/40: the ratio 4 keeps a coarse grid, the ratio 10 gives the fine grid. -/
example : (firstGrid (fun d => (⟨0, 1⟩ : Range ℚ).spreadOverEps d false (1 / 1000)) (1 / 40) 4 >>= fun x => (.ok (x.1, x.2.length) : Res _)) = .ok (1 / 10, 11) ∧
    (firstGrid (fun d => (⟨0, 1⟩ : Range ℚ).spreadOverEps d false (1 / 1000)) (1 / 40) 10 >>= fun x => (.ok (x.1, x.2.length) : Res _)) = .ok (1 / 40, 41) := by
  decide +kernel

end ContFit
end Amazed
