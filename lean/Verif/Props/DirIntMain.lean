import Verif.Props.DirIntProps

set_option linter.unusedVariables false
set_option linter.unusedSectionVars false

/-! # Flux of lines by direct integration: the theorems (C159, C160) -/

namespace Amazed
namespace DirInt
open EltSup EltList SpcModel

variable {K : Type} [Field K] [LinearOrder K] [IsStrictOrderedRing K] {G : Type} [LinearOrder G]

/-- Line `k` of element `i` is in range of the spectrum, and the window of the direct integration is not larger than that of its support, prepared at the same
position. -/
def LineIn (nsig : K) (axis : List K) (lr : Range K) (es : List (El K G)) (geom : Geom K) (i k : Nat) : Prop :=
  ∃ (e : El K G) (mu sigma win : K) (gs : List (LineGeom K)), es[i]? = some e ∧ geom i k = .ok (mu, sigma) ∧ prepareSupport axis lr gs = .ok e.base.sup ∧
    gs[k]? = some ⟨true, mu, win⟩ ∧ sigma * nsig ≤ win ∧ e.base.sup.In k

theorem lineIn_covered {nsig : K} {axis : List K} (hs : SAxis.Increasing axis) (hne : axis ≠ []) {lr : Range K} {es : List (El K G)} {geom : Geom K} {i k : Nat}
    (h : LineIn nsig axis lr es geom i k) {mu sigma : K} (hg : geom i k = .ok (mu, sigma)) {p : Nat} (hp : InWindow axis lr mu (sigma * nsig) p) :
    ∃ e, es[i]? = some e ∧ Covered e.base p := by
  obtain ⟨e, mu', sigma', win, gs, h1, h2, h3, h4, h5, h6⟩ := h
  rw [hg] at h2
  simp only [Res.ok.injEq, Prod.mk.injEq] at h2
  obtain ⟨rfl, rfl⟩ := h2
  refine ⟨e, h1, ?_⟩
  have hp' := inWindow_mono h5 hp
  obtain ⟨b, en, q1, _, _, _, _, q2⟩ := indexRange_mem axis hs hne lr mu win
  have hpe := (q2 p).2 hp'
  obtain ⟨e', r1, r2, r3, _⟩ := C71_groups axis hs hne lr gs
  rw [h3] at r1
  cases r1
  obtain ⟨t, t1, t2, _⟩ := theoretical_ok axis hs hne lr ⟨true, mu, win⟩
  have := r3 k _ h4
  rw [t1] at this
  simp only [Res.ok.injEq] at this
  subst this
  obtain ⟨_, s', en', _, _, u1, u2, _, u3, _⟩ := t2 h6.2
  rw [q1] at u3
  simp only [Res.ok.injEq, Prod.mk.injEq] at u3
  obtain ⟨v1, v2⟩ := u3
  obtain ⟨r, hr, hr1, hr2⟩ := (C71_coverage axis hs hne lr gs e.base.sup h3 p).2 ⟨k, h6, by rw [u1]; omega, by rw [u2]; omega⟩
  unfold Elt.getSupport at hr
  split at hr
  · simp at hr
  · obtain ⟨k', hk', rfl⟩ := List.mem_map.1 hr
    rw [List.mem_filter, List.mem_range] at hk'
    exact ⟨k', hk'.1, by simpa using hk'.2, hr1, hr2⟩

theorem windows_ok (nsig : K) (axis : List K) (hs : SAxis.Increasing axis) (hne : axis ≠ []) (lr : Range K) (geom : Geom K) (lines : List (Nat × Nat))
    (hg : ∀ q ∈ lines, ∃ mu sigma, geom q.1 q.2 = .ok (mu, sigma)) :
    ∃ rs, windows nsig axis lr geom (lines.map (·.1)) (lines.map (·.2)) = .ok rs ∧ rs.length = lines.length ∧
      (∀ r ∈ rs, 0 ≤ r.1 ∧ r.1 < axis.length ∧ r.1 ≤ r.2 + 1 ∧ r.2 < axis.length) ∧
      ∀ p : Nat, (∃ r ∈ rs, r.1 ≤ p ∧ (p : ℤ) ≤ r.2) ↔ ∃ q ∈ lines, ∃ mu sigma, geom q.1 q.2 = .ok (mu, sigma) ∧ InWindow axis lr mu (sigma * nsig) p := by
  have step : ∀ i, i < lines.length → ∃ r, (Res.at_ (lines.map (·.1)) i >>= fun e => Res.at_ (lines.map (·.2)) i >>= fun k =>
      geom e k >>= fun g => indexRange axis g.1 lr (g.2 * nsig)) = .ok r ∧ (0 ≤ r.1 ∧ r.1 < axis.length ∧ r.1 ≤ r.2 + 1 ∧ r.2 < axis.length) ∧
      ∃ q mu sigma, lines[i]? = some q ∧ geom q.1 q.2 = .ok (mu, sigma) ∧ ∀ p : Nat, (r.1 ≤ p ∧ (p : ℤ) ≤ r.2) ↔ InWindow axis lr mu (sigma * nsig) p := by
    intro i hi
    obtain ⟨mu, sigma, h⟩ := hg lines[i] (List.getElem_mem hi)
    obtain ⟨b, e, h1, h2, h3, h4, h5, h6⟩ := indexRange_mem axis hs hne lr mu (sigma * nsig)
    refine ⟨(b, e), ?_, ⟨h2, h3, h4, h5⟩, lines[i], mu, sigma, List.getElem?_eq_getElem hi, h, h6⟩
    rw [Res.at_of_lt (by simpa using hi), Res.bind_ok, Res.at_of_lt (by simpa using hi), Res.bind_ok, List.getElem_map, List.getElem_map, h, Res.bind_ok, h1]
  choose! R hR hB hQ using step
  refine ⟨(List.range lines.length).map R, ?_, by simp, ?_, ?_⟩
  · unfold windows
    rw [List.length_map]
    exact Res.tab_ok lines.length hR
  · intro r hr
    obtain ⟨i, hi, rfl⟩ := List.mem_map.1 hr
    exact hB i (List.mem_range.1 hi)
  · intro p
    constructor
    · rintro ⟨r, hr, hp⟩
      obtain ⟨i, hi, rfl⟩ := List.mem_map.1 hr
      obtain ⟨q, mu, sigma, h1, h2, h3⟩ := hQ i (List.mem_range.1 hi)
      exact ⟨q, List.mem_of_getElem? h1, mu, sigma, h2, (h3 p).1 hp⟩
    · rintro ⟨q, hq, mu, sigma, h1, h2⟩
      obtain ⟨i, hi, rfl⟩ := List.getElem_of_mem hq
      obtain ⟨q', mu', sigma', h3, h4, h5⟩ := hQ i hi
      rw [List.getElem?_eq_getElem hi] at h3
      simp only [Option.some.injEq] at h3
      subst h3
      rw [h4] at h1
      simp only [Res.ok.injEq, Prod.mk.injEq] at h1
      obtain ⟨rfl, rfl⟩ := h1
      exact ⟨R i, List.mem_map.2 ⟨i, List.mem_range.2 hi, rfl⟩, (h5 p).2 h2⟩

theorem underLines_ok (nsig : K) (axis : List K) (hs : SAxis.Increasing axis) (hne : axis ≠ []) (lr : Range K) (geom : Geom K) (lines : List (Nat × Nat))
    (hl : lines ≠ []) (hg : ∀ q ∈ lines, ∃ mu sigma, geom q.1 q.2 = .ok (mu, sigma)) :
    ∃ rs, underLines nsig axis lr geom (lines.map (·.1)) (lines.map (·.2)) = .ok rs ∧ rs ≠ [] ∧ rs.Pairwise (fun a b => a.2 < b.1) ∧
      (∀ r ∈ rs, 0 ≤ r.1 ∧ r.1 < axis.length ∧ r.2 < axis.length) ∧
      ∀ p : Nat, (∃ r ∈ rs, r.1 ≤ p ∧ (p : ℤ) ≤ r.2) ↔ ∃ q ∈ lines, ∃ mu sigma, geom q.1 q.2 = .ok (mu, sigma) ∧ InWindow axis lr mu (sigma * nsig) p := by
  obtain ⟨rs, h1, h2, h3, h4⟩ := windows_ok nsig axis hs hne lr geom lines hg
  have hpos := List.length_pos_iff.2 hl
  unfold underLines
  rw [h1, Res.bind_ok, List.length_map]
  by_cases h : lines.length = 1
  · rw [if_pos h]
    refine ⟨rs, rfl, ?_, ?_, fun r hr => ⟨(h3 r hr).1, (h3 r hr).2.1, (h3 r hr).2.2.2⟩, h4⟩
    · intro hc; rw [hc] at h2; simp at h2; omega
    · obtain ⟨a, rfl⟩ := List.length_eq_one_iff.1 (h2.trans h); simp
  · rw [if_neg h]
    obtain ⟨out, k1, k2, k3, k4, k5⟩ := joinZ_spec rs (by intro hc; rw [hc] at h2; simp at h2; omega)
    refine ⟨out, k1, k2, k4, ?_, fun p => (k3 p).trans (h4 p)⟩
    intro r hr
    obtain ⟨⟨a, ha, ha'⟩, b, hb, hb'⟩ := k5 r hr
    have := h3 a ha
    have := h3 b hb
    omega

/-- The continuum subtracted at the samples under the lines: the continuum of the model and the polynomials. -/
theorem contUnder_ok (undef : G) (es : List (El K G)) (idx : List Nat) (sub : Bool) (ranges : List (ℤ × ℤ)) (s : St K) (hs : SAxis.Increasing s.axis)
    (hne : s.axis ≠ []) (hc : s.cont.length = s.axis.length) (hp : Prepared s.axis es) (hi : ∀ i ∈ idx, i < es.length)
    (hpw : ranges.Pairwise (fun a b => a.2 < b.1)) (hr : ∀ r ∈ ranges, 0 ≤ r.1 ∧ r.1 < s.axis.length ∧ r.2 < s.axis.length)
    (hsub : sub = true → (∀ i ∈ idx, ∀ e, es[i]? = some e → e.base.type ≠ .absorption) ∧
      ∀ r ∈ ranges, ∀ p : Nat, r.1 ≤ p → (p : ℤ) ≤ r.2 → ∃ i ∈ idx, ∃ e, es[i]? = some e ∧ Covered e.base p) :
    ∃ off c, (if s.offsets then addOffsets undef (es.map (·.base)) s.axis (List.replicate s.axis.length 0) idx .all = .ok off else off = List.replicate s.axis.length 0) ∧
      off.length = s.axis.length ∧ contUnder undef es idx sub ranges s = .ok c ∧ c.length = s.axis.length ∧
      ∀ r ∈ ranges, ∀ p : Nat, r.1 ≤ p → (p : ℤ) ≤ r.2 → c.getD p 0 = s.cont.getD p 0 + off.getD p 0 := by
  have hb : ∃ base, baseCont es idx sub s = .ok base ∧ base.length = s.axis.length ∧
      ∀ r ∈ ranges, ∀ p : Nat, r.1 ≤ p → (p : ℤ) ≤ r.2 → base[p]? = s.cont[p]? := by
    unfold baseCont
    cases sub with
    | false => exact ⟨s.cont, by simp, hc, fun _ _ _ _ _ => rfl⟩
    | true =>
      rw [if_pos rfl]
      have hF : ∀ e : El K G, (∃ lr lines, prepareSupport s.axis lr lines = .ok e.base.sup) → ∃ f, IsFlux s.axis s.cont e f :=
        fun e h => flux_exists s.axis hs hne s.cont e h
      choose! F hF using hF
      obtain ⟨m, m1, m2, m3⟩ := C81_get_model es idx .absorption s hs hne hp hc hi F (fun e he => hF e (hp e he))
      refine ⟨m, m1, m2, ?_⟩
      intro r hrr p hp1 hp2
      obtain ⟨h1, h2⟩ := hsub rfl
      have hpl : p < s.axis.length := by have := hr r hrr; omega
      obtain ⟨a, i, b, k1, ⟨e, k2, k3⟩, k4⟩ := last_with (fun i => ∃ e, es[i]? = some e ∧ Covered e.base p) idx (h2 r hrr p hp1 hp2)
      have := (m3 p hpl).2 a i b e k1 k2 k3 (by
        intro e' he' hcov
        obtain ⟨j, hj, hje⟩ := List.mem_filterMap.1 he'
        exact k4 j hj ⟨e', hje, hcov⟩)
      rw [this, if_neg]
      · simp
      · have := h1 i (by rw [k1]; simp) e k2
        rintro (h | h)
        · cases h
        · exact this h.symm
  obtain ⟨base, b1, b2, b3⟩ := hb
  have ho : ∃ off off', (if s.offsets then addOffsets undef (es.map (·.base)) s.axis (List.replicate s.axis.length 0) idx .all = .ok off else off = List.replicate s.axis.length 0) ∧
      off.length = s.axis.length ∧ offsetCont undef es idx s = .ok off' ∧ (s.offsets = true → off' = off) := by
    unfold offsetCont
    cases hso : s.offsets with
    | false => exact ⟨List.replicate s.axis.length 0, [], by simp, by simp, by simp, by simp⟩
    | true =>
      obtain ⟨off, o1, o2, _⟩ := C74_offset undef (es.map (·.base)) s.axis (List.replicate s.axis.length 0) idx .all (by simp) (by simpa using hi) (covered_bounds hs hne hp)
      exact ⟨off, off, by simpa using o1, by simpa using o2, by simpa using o1, by simp⟩
  obtain ⟨off, off', o1, o2, o3, o4⟩ := ho
  have hmem : ∀ z ∈ ranges.flatMap zrange, ∃ r ∈ ranges, r.1 ≤ z ∧ z ≤ r.2 := by
    intro z hz
    obtain ⟨r, hr1, hr2⟩ := List.mem_flatMap.1 hz
    exact ⟨r, hr1, (zrange_mem r z).1 hr2⟩
  obtain ⟨c, c1, c2, c3⟩ := setAll_ok (fun t _ => Res.at_ base t >>= fun c => if s.offsets then Res.at_ off' t >>= fun o => .ok (c + o) else .ok c)
    (fun t _ => base.getD t 0 + (if s.offsets then off'.getD t 0 else 0)) (ranges.flatMap zrange) (flat_nodup hpw) (List.replicate s.cont.length 0)
    (by
      intro z hz
      obtain ⟨r, h1, h2, h3⟩ := hmem z hz
      have := hr r h1
      simp only [List.length_replicate]
      omega)
    (by
      intro z hz y
      obtain ⟨r, h1, h2, h3⟩ := hmem z hz
      have := hr r h1
      have hl : z.toNat < base.length := by omega
      rw [Res.at_of_lt hl, Res.bind_ok, List.getD_eq_getElem _ _ hl]
      cases hso : s.offsets with
      | false => simp
      | true =>
        have hlo : z.toNat < off'.length := by rw [o4 hso, o2]; omega
        rw [if_pos rfl, if_pos rfl, Res.at_of_lt hlo, Res.bind_ok, List.getD_eq_getElem _ _ hlo])
  refine ⟨off, c, o1, o2, ?_, by rw [c2, List.length_replicate, hc], ?_⟩
  · unfold contUnder
    rw [b1, Res.bind_ok, o3, Res.bind_ok]
    exact c1
  · intro r hrr p hp1 hp2
    have hpl : p < s.axis.length := by have := hr r hrr; omega
    have := (c3 p).1 (List.mem_flatMap.2 ⟨r, hrr, (zrange_mem r p).2 ⟨hp1, hp2⟩⟩)
    rw [List.getD_eq_getElem?_getD, this, List.getElem?_replicate, if_pos (show p < s.cont.length by omega), Option.map_some, Option.getD_some, List.getD_eq_getElem?_getD,
      b3 r hrr p hp1 hp2, ← List.getD_eq_getElem?_getD]
    cases hso : s.offsets with
    | false =>
      rw [hso] at o1
      simp only [Bool.false_eq_true, if_false] at o1
      rw [o1]
      simp
    | true => rw [if_pos rfl, o4 hso]

/-- **C159** The flux of a list of lines by direct integration, for lines whose position and width are available in the spectrum: the trapezium integral of the
observed flux minus the continuum (and minus the polynomials of the elements, if they are used) over the samples of the windows of the lines, the windows that
meet being joined so that no step is counted twice; the error is the sum of the squared errors of the steps. The flag that asks for the subtraction of the
absorption lines has no effect on lines in range of elements that are not absorption elements, the only ones it is used for. -/
theorem C159_flux (undef : G) (nsig : K) (es : List (El K G)) (geom : Geom K) (lr : Range K) (err : List K) (lines : List (Nat × Nat)) (sub : Bool) (s : St K)
    (hs : SAxis.Increasing s.axis) (h2 : 2 ≤ s.axis.length) (hc : s.cont.length = s.axis.length) (hy : s.spc.length = s.axis.length)
    (he : err.length = s.axis.length) (hp : Prepared s.axis es) (hl : lines ≠ [])
    (hg : ∀ q ∈ lines, q.1 < es.length ∧ ∃ mu sigma, geom q.1 q.2 = .ok (mu, sigma))
    (hsub : sub = true → ∀ q ∈ lines, LineIn nsig s.axis lr es geom q.1 q.2 ∧ ∀ e, es[q.1]? = some e → e.base.type ≠ .absorption) :
    ∃ (off : List K) (ranges : List (Nat × Nat)),
      (if s.offsets then addOffsets undef (es.map (·.base)) s.axis (List.replicate s.axis.length 0) (lines.map (·.1)) .all = .ok off
        else off = List.replicate s.axis.length 0) ∧
      fluxDI undef nsig es geom lr err (lines.map (·.1)) (lines.map (·.2)) sub s =
        .ok ((ranges.map fun r => Flux.trapez s.axis ((List.range s.axis.length).map fun p => s.spc.getD p 0 - (s.cont.getD p 0 + off.getD p 0)) r.1 r.2).sum,
          (ranges.map fun r => Flux.trapezErr s.axis err r.1 r.2).sum) ∧
      (∀ r ∈ ranges, r.1 ≤ r.2 ∧ r.2 < s.axis.length) ∧ ranges.Pairwise (fun a b => a.2 < b.1) ∧
      ∀ p : Nat, (∃ r ∈ ranges, r.1 ≤ p ∧ p ≤ r.2) ↔
        ∃ q ∈ lines, ∃ mu sigma, geom q.1 q.2 = .ok (mu, sigma) ∧ InWindow s.axis lr mu (sigma * nsig) p := by
  have hne : s.axis ≠ [] := by intro h; rw [h] at h2; simp at h2
  obtain ⟨rs, u1, u2, u3, u4, u5⟩ := underLines_ok nsig s.axis hs hne lr geom lines hl (fun q hq => (hg q hq).2)
  obtain ⟨off, c, c1, c2, c3, c4, c5⟩ := contUnder_ok undef es (lines.map (·.1)) sub rs s hs hne hc hp
    (by intro i hi; obtain ⟨q, hq, rfl⟩ := List.mem_map.1 hi; exact (hg q hq).1) u3 u4
    (by
      intro hsb
      refine ⟨?_, ?_⟩
      · intro i hi e hee
        obtain ⟨q, hq, rfl⟩ := List.mem_map.1 hi
        exact (hsub hsb q hq).2 e hee
      · intro r hr p hp1 hp2
        obtain ⟨q, hq, mu, sigma, hgq, hw⟩ := (u5 p).1 ⟨r, hr, hp1, hp2⟩
        obtain ⟨e, he1, he2⟩ := lineIn_covered hs hne (hsub hsb q hq).1 hgq hw
        exact ⟨q.1, List.mem_map.2 ⟨q, hq, rfl⟩, e, he1, he2⟩)
  have hmem : ∀ z ∈ rs.flatMap zrange, ∃ r ∈ rs, r.1 ≤ z ∧ z ≤ r.2 := by
    intro z hz
    obtain ⟨r, hr1, hr2⟩ := List.mem_flatMap.1 hz
    exact ⟨r, hr1, (zrange_mem r z).1 hr2⟩
  obtain ⟨f, f1, f2, f3⟩ := setAll_ok (fun t y => Res.at_ c t >>= fun v => .ok (y - v)) (fun t y => y - c.getD t 0) (rs.flatMap zrange) (flat_nodup u3) s.spc
    (by intro z hz; obtain ⟨r, h1, h2, h3⟩ := hmem z hz; have := u4 r h1; omega)
    (by
      intro z hz y
      obtain ⟨r, h1, h2, h3⟩ := hmem z hz
      have := u4 r h1
      have hl : z.toNat < c.length := by omega
      rw [Res.at_of_lt hl, Res.bind_ok, List.getD_eq_getElem _ _ hl])
  have hI := Flux.C52_integrate s.axis f err (rs.map fun r => (r.1.toNat, (max r.1 r.2).toNat)) h2 (by rw [f2, hy]) he (by
    intro r hr
    obtain ⟨q, hq, rfl⟩ := List.mem_map.1 hr
    have := u4 q hq
    simp only
    omega)
  set D : List K := (List.range s.axis.length).map fun p => s.spc.getD p 0 - (s.cont.getD p 0 + off.getD p 0) with hD
  have hfD : ∀ r ∈ rs, ∀ p : Nat, r.1 ≤ p → (p : ℤ) ≤ r.2 → f.getD p 0 = D.getD p 0 := by
    intro r hr p hp1 hp2
    have hpl : p < s.axis.length := by have := u4 r hr; omega
    have := (f3 p).1 (List.mem_flatMap.2 ⟨r, hr, (zrange_mem r p).2 ⟨hp1, hp2⟩⟩)
    rw [List.getD_eq_getElem?_getD, this, List.getElem?_eq_getElem (by omega), Option.map_some, Option.getD_some, c5 r hr p hp1 hp2, hD]
    rw [List.getD_eq_getElem (List.map _ _) _ (by simpa using hpl), List.getElem_map, List.getElem_range, List.getD_eq_getElem s.spc _ (by omega)]
  refine ⟨off, (rs.filter fun r => decide (r.1 ≤ r.2)).map fun r => (r.1.toNat, r.2.toNat), c1, ?_, ?_, ?_, ?_⟩
  · unfold fluxDI
    rw [if_neg (by simp), u1, Res.bind_ok, if_neg u2, c3, Res.bind_ok, f1, Res.bind_ok, hI]
    have hsum : ∀ (l : List (ℤ × ℤ)), (∀ r ∈ l, r ∈ rs) →
        ((l.map fun r => (r.1.toNat, (max r.1 r.2).toNat)).map fun r => Flux.trapez s.axis f r.1 r.2).sum =
          (((l.filter fun r => decide (r.1 ≤ r.2)).map fun r => (r.1.toNat, r.2.toNat)).map fun r => Flux.trapez s.axis D r.1 r.2).sum ∧
        ((l.map fun r => (r.1.toNat, (max r.1 r.2).toNat)).map fun r => Flux.trapezErr s.axis err r.1 r.2).sum =
          (((l.filter fun r => decide (r.1 ≤ r.2)).map fun r => (r.1.toNat, r.2.toNat)).map fun r => Flux.trapezErr s.axis err r.1 r.2).sum := by
      intro l
      induction l with
      | nil => intro _; simp
      | cons r l ih =>
        intro hl
        obtain ⟨i1, i2⟩ := ih (fun r hr => hl r (by simp [hr]))
        have hrr := hl r (by simp)
        by_cases h : r.1 ≤ r.2
        · rw [List.filter_cons_of_pos (by simpa using h)]
          simp only [List.map_cons, List.sum_cons]
          rw [i1, i2, max_eq_right h, trapez_congr s.axis f D r.1.toNat r.2.toNat (fun p h1 h2 => hfD r hrr p (by have := u4 r hrr; omega) (by have := u4 r hrr; omega))]
          exact ⟨rfl, rfl⟩
        · rw [List.filter_cons_of_neg (by simpa using h)]
          simp only [List.map_cons, List.sum_cons]
          rw [i1, i2, max_eq_left (by omega)]
          constructor
          · simp [Flux.trapez]
          · simp [Flux.trapezErr]
    obtain ⟨a1, a2⟩ := hsum rs (fun _ h => h)
    rw [a1, a2]
  · intro r hr
    obtain ⟨q, hq, rfl⟩ := List.mem_map.1 hr
    rw [List.mem_filter, decide_eq_true_iff] at hq
    have := u4 q hq.1
    simp only
    omega
  · rw [List.pairwise_map]
    have := (u3.filter fun r => decide (r.1 ≤ r.2))
    refine List.Pairwise.imp_of_mem ?_ this
    intro a b ha hb hab
    rw [List.mem_filter, decide_eq_true_iff] at ha hb
    have := u4 a ha.1
    have := u4 b hb.1
    simp only
    omega
  · intro p
    rw [← u5 p]
    constructor
    · rintro ⟨r, hr, h3, h4⟩
      obtain ⟨q, hq, rfl⟩ := List.mem_map.1 hr
      rw [List.mem_filter, decide_eq_true_iff] at hq
      have := u4 q hq.1
      simp only at h3 h4
      exact ⟨q, hq.1, by omega, by omega⟩
    · rintro ⟨r, hr, h3, h4⟩
      have := u4 r hr
      exact ⟨(r.1.toNat, r.2.toNat), List.mem_map.2 ⟨r, List.mem_filter.2 ⟨hr, by rw [decide_eq_true_iff]; omega⟩, rfl⟩, by simp only; omega, by simp only; omega⟩

/-- **C159, refusals.** Lists of different sizes are refused, and so is an empty list of lines, with the error of the union of no range (the check of an empty union that
follows is never reached). -/
theorem C159_refuses (undef : G) (nsig : K) (es : List (El K G)) (geom : Geom K) (lr : Range K) (err : List K) (eIdx subIdx : List Nat) (sub : Bool) (s : St K) :
    (eIdx.length ≠ subIdx.length → fluxDI undef nsig es geom lr err eIdx subIdx sub s = .throw .INTERNAL_ERROR) ∧
    (eIdx = [] → subIdx = [] → fluxDI undef nsig es geom lr err eIdx subIdx sub s = .throw .EMPTY_LIST) ∧
    ∀ rs, underLines nsig s.axis lr geom eIdx subIdx = .ok rs → rs ≠ [] := by
  refine ⟨fun h => by unfold fluxDI; rw [if_pos h], ?_, ?_⟩
  · rintro rfl rfl
    rfl
  · intro rs h hc
    subst hc
    unfold underLines at h
    obtain ⟨ws, h1, h⟩ := Res.bind_eq_ok.1 h
    have hl := Res.tab_length _ h1
    split at h
    · rename_i h2
      cases h
      rw [h2] at hl
      cases hl
    · unfold joinZ at h
      obtain ⟨l, h3, h⟩ := Res.bind_eq_ok.1 h
      have hl0 : l = [] := by
        have : l.map (fun r => (r.b, r.e)) = [] := Res.ok.inj h
        exact List.map_eq_nil_iff.1 this
      subst hl0
      unfold Range.joinIntersections at h3
      split at h3
      · cases h3
      · cases h3
      · split at h3
        · cases h3
        · rename_i c cs _
          have : ∀ (cs : List (Range ℤ)) (c : Range ℤ), Range.joinGo c cs ≠ [] := by
            intro cs
            induction cs with
            | nil => intro c; simp [Range.joinGo]
            | cons d cs ih =>
              intro c
              unfold Range.joinGo
              split
              · exact ih _
              · simp
          simp only [Res.ok.injEq] at h3
          exact this cs c h3

end DirInt
end Amazed
