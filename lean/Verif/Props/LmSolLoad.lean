import Verif.Props.LmSolProps

set_option linter.unusedVariables false
set_option linter.unusedSectionVars false

/-! # Loading a solution (C162) and further properties of C161 -/

namespace Amazed
namespace LmSol
open Amp EltList

variable {K : Type} [Field K] [LinearOrder K] [IsStrictOrderedRing K] {G : Type}

/-- The vectors of an element have one entry per line. -/
def WF (es : List (Elm K G)) : Prop :=
  ∀ e ∈ es, e.fa.length = e.ids.length ∧ e.fastd.length = e.ids.length ∧ e.off.length = e.ids.length ∧ e.catOff.length = e.ids.length

theorem lineIdx_spec {e : Elm K G} {id k : Nat} (h : e.lineIdx id = some k) : e.ids[k]? = some id := by
  unfold Elm.lineIdx at h
  rw [List.findIdx?_eq_some_iff_getElem] at h
  obtain ⟨hk, h1, _⟩ := h
  rw [List.getElem?_eq_getElem hk]
  simpa using h1

theorem find_spec {es : List (Elm K G)} {id i k : Nat} (h : find es id = some (i, k)) : ∃ el, es[i]? = some el ∧ el.lineIdx id = some k := by
  unfold find at h
  rw [Option.bind_eq_some_iff] at h
  obtain ⟨j, h1, h2⟩ := h
  rw [Option.bind_eq_some_iff] at h2
  obtain ⟨el, h3, h4⟩ := h2
  rw [Option.map_eq_some_iff] at h4
  obtain ⟨k', h5, h6⟩ := h4
  cases h6
  exact ⟨el, h3, h5⟩

/-- A line held by an element is found. -/
theorem find_isSome {es : List (Elm K G)} {e : Elm K G} (he : e ∈ es) {id : Nat} (hid : id ∈ e.ids) : ∃ i k, find es id = some (i, k) := by
  have hl : ∀ e : Elm K G, id ∈ e.ids → (e.lineIdx id).isSome = true := by
    intro e h
    unfold Elm.lineIdx
    rw [List.findIdx?_isSome, List.any_eq_true]
    exact ⟨id, h, by simp⟩
  unfold find
  have : (es.findIdx? fun e => (e.lineIdx id).isSome).isSome = true := by
    rw [List.findIdx?_isSome, List.any_eq_true]
    exact ⟨e, he, hl e hid⟩
  obtain ⟨i, hi⟩ := Option.isSome_iff_exists.1 this
  rw [hi, Option.bind_some]
  rw [List.findIdx?_eq_some_iff_getElem] at hi
  obtain ⟨h1, h2, _⟩ := hi
  rw [List.getElem?_eq_getElem h1, Option.bind_some]
  obtain ⟨k, hk⟩ := Option.isSome_iff_exists.1 h2
  exact ⟨i, k, by rw [hk]; rfl⟩

/-- **C161, no error** The extraction succeeds when the direct integrations succeed and each line in range of the observation is in range of one of its spectra. -/
theorem C161_total (env : Env K) (es : List (Elm K G)) (rest : List Rest) (hw : WF es) (hdi : ∀ a b c, ∃ d, env.di a b c = .ok d)
    (hu : ∀ i k, env.out i k = false → (env.unit i k).isSome = true) : ∃ s, extract env es rest = .ok s := by
  obtain ⟨s, h, _⟩ := foldL_inv (f := fun r s => step env es r s) (fun _ _ => True) rest []
    (⟨[], (⟨[], [], 0, 0⟩, none), (⟨[], [], 0, 0⟩, none)⟩ : St K G) trivial (by
    intro pre r s _ _
    unfold step
    cases hf : find es r.id with
    | none => exact ⟨_, rfl, trivial⟩
    | some ek =>
      obtain ⟨i, k⟩ := ek
      simp only
      by_cases ho : env.out i k = true
      · rw [if_pos ho]; exact ⟨_, rfl, trivial⟩
      · rw [if_neg ho]
        obtain ⟨el, h1, h2⟩ := find_spec hf
        obtain ⟨w1, w2, w3, _⟩ := hw el (List.mem_of_getElem? h1)
        have hk := (List.getElem?_eq_some_iff.1 (lineIdx_spec h2)).1
        rw [Res.at_eq_ok.2 h1, Res.bind_ok]
        unfold inRange
        rw [Res.at_of_lt (by omega), Res.bind_ok, Res.at_of_lt (by omega), Res.bind_ok, Res.at_of_lt (by omega), Res.bind_ok]
        cases hlv : env.level with
        | false => rw [if_neg (by simp)]; exact ⟨_, rfl, trivial⟩
        | true =>
          rw [if_pos rfl]
          have h3 : ∃ f, lineFlux env r.emission i k el.fa[k] el.fastd[k] (env.cont i k) = .ok f := by
            unfold lineFlux
            split
            · obtain ⟨u, hu'⟩ := Option.isSome_iff_exists.1 (hu i k (by simpa using ho))
              rw [hu']; exact ⟨_, rfl⟩
            · exact ⟨_, rfl⟩
          obtain ⟨f, hf'⟩ := h3
          obtain ⟨d, hd⟩ := hdi [i] [k] r.emission
          have h4 : ∀ n a, ∃ x, addCplx env n i k f.2.1 f.2.2 a = .ok x := by
            intro n a
            unfold addCplx
            simp only
            split
            · obtain ⟨d', hd'⟩ := hdi (a.1.e ++ [i]) (a.1.k ++ [k]) false
              rw [hd', Res.bind_ok]; exact ⟨_, rfl⟩
            · exact ⟨_, rfl⟩
          have h5 : ∃ s', complexes env r i k f.2.1 f.2.2 s = .ok s' := by
            unfold complexes
            split
            · obtain ⟨x, hx⟩ := h4 3 s.ha
              rw [hx, Res.bind_ok]; exact ⟨_, rfl⟩
            · split
              · obtain ⟨x, hx⟩ := h4 2 s.oii
                rw [hx, Res.bind_ok]; exact ⟨_, rfl⟩
              · exact ⟨_, rfl⟩
          obtain ⟨s', hs'⟩ := h5
          rw [hf', Res.bind_ok, hd, Res.bind_ok, hs', Res.bind_ok]
          exact ⟨_, rfl, trivial⟩)
  exact ⟨s, h⟩

/-- **C161, sign** The flux of an emission line is never negative, that of an absorption line never positive. -/
theorem C161_sign (env : Env K) (es : List (Elm K G)) (rest : List Rest) (s : St K G) (h : extract env es rest = .ok s)
    (hu : ∀ i k sig u, env.unit i k = some (sig, u) → 0 ≤ u) (j : Nat) (r : Rest) (row : Row K G) (hr : rest[j]? = some r) (hrow : s.rows[j]? = some row) (f : K)
    (hf : row.flux = some f) : if r.emission then 0 ≤ f else f ≤ 0 := by
  obtain ⟨h1, h2, h3⟩ := (C161_solution env es rest s h).2.1 j r row hr hrow
  cases hfd : find es r.id with
  | none => rw [h1 hfd] at hf; cases hf
  | some ek =>
    obtain ⟨i, k⟩ := ek
    by_cases ho : env.out i k = true
    · rw [h2 i k hfd ho] at hf; cases hf
    · obtain ⟨el, q1, q2⟩ := find_spec hfd
      have hin := h3 i k el ⟨hfd, q1, by simpa using ho⟩
      cases hlv : env.level with
      | false => rw [(hin.brief hlv).1] at hf; cases hf
      | true =>
        by_cases hp : ∃ x, row.amp = some x ∧ 0 ≤ x
        · obtain ⟨sig, u, u1, u2, u3⟩ := hin.flux hlv hp
          obtain ⟨x, x1, x2⟩ := hp
          have hu0 := hu i k sig u u1
          have := u3 x x1 x2
          cases hem : r.emission with
          | true =>
            rw [hem] at this
            simp only [if_true] at this ⊢
            rw [hf] at this
            have e := this.1
            simp only [Option.some.injEq] at e
            rw [e]; positivity
          | false =>
            rw [hem] at this
            simp only [Bool.false_eq_true, if_false] at this ⊢
            obtain ⟨t1, t2, _⟩ := this
            cases hc : (env.cont i k).1 with
            | none => have e := t2 hc; rw [hf] at e; simp only [Option.some.injEq] at e; rw [e]
            | some c0 =>
              have e := (t1 c0 hc).1
              rw [hf] at e
              simp only [Option.some.injEq] at e
              rw [e]
              have : 0 ≤ x * max 0 c0 * u := by have := le_max_left 0 c0; positivity
              linarith
        · rw [(hin.noFlux hlv (by intro x hx; by_contra hc; exact hp ⟨x, hx, not_lt.1 hc⟩)).1] at hf; cases hf

/-! ## Loading -/

/-- The same lines, limits and catalog offsets. -/
def Same (a b : Elm K G) : Prop := a.ids = b.ids ∧ a.emission = b.emission ∧ a.absLimit = b.absLimit ∧ a.catOff = b.catOff

/-- The absorption limit holds for the fitted amplitudes. -/
def Capped (e : Elm K G) : Prop := e.emission = false → e.absLimit > 0 → ∀ a, some a ∈ e.fa → a ≤ e.absLimit

/-- Some of the lines holds line `k` of element `i` in range. -/
def HitLine (env : Env K) (es : List (Elm K G)) (l : List Rest) (i k : Nat) : Prop := ∃ r ∈ l, find es r.id = some (i, k) ∧ env.out i k = false

/-- Some of the lines holds a line of element `i` in range. -/
def HitElt (env : Env K) (es : List (Elm K G)) (l : List Rest) (i : Nat) : Prop := ∃ k, HitLine env es l i k

/-- What an element holds after loading the solution of `el`: the values of `el` for the lines in range, nothing for the others. -/
structure Loaded (env : Env K) (es : List (Elm K G)) (l : List Rest) (i : Nat) (el e2 : Elm K G) : Prop where
  same : Same e2 el
  len : e2.fa.length = el.ids.length ∧ e2.fastd.length = el.ids.length ∧ e2.off.length = el.ids.length
  line : ∀ k, HitLine env es l i k → e2.fa[k]? = el.fa[k]? ∧ e2.fastd[k]? = el.fastd[k]? ∧ e2.off[k]? = el.off[k]?
  noLine : ∀ k, k < el.ids.length → ¬ HitLine env es l i k → e2.fa[k]? = some none ∧ e2.fastd[k]? = some none ∧ e2.off[k]? = (el.catOff[k]?).map some
  elt : HitElt env es l i → e2.vel = el.vel ∧ e2.group = el.group ∧ e2.poly = if env.offsets then el.poly else (some 0, some 0, some 0)
  noElt : ¬ HitElt env es l i → e2.vel = none ∧ e2.group = none ∧ e2.poly = (some 0, some 0, some 0)

theorem setAmp_capped {el : Elm K G} (hc : Capped el) {a : Option K} (ha : a ∈ el.fa) {e2 : Elm K G} (hs : Same e2 el) :
    (if e2.emission = false ∧ e2.absLimit > 0 ∧ vGt a (some e2.absLimit) = true then some e2.absLimit else a) = a := by
  rw [if_neg]
  rintro ⟨h1, h2, h3⟩
  rw [hs.2.1] at h1
  rw [hs.2.2.1] at h2 h3
  cases a with
  | none => simp [vGt] at h3
  | some x =>
    simp only [vGt, decide_eq_true_iff] at h3
    exact absurd (hc h1 h2 x ha) (not_le.2 h3)

theorem hit_snoc {env : Env K} {es : List (Elm K G)} {l : List Rest} {r : Rest} {i k : Nat} :
    HitLine env es (l ++ [r]) i k ↔ HitLine env es l i k ∨ (find es r.id = some (i, k) ∧ env.out i k = false) := by
  unfold HitLine
  constructor
  · rintro ⟨q, hq, h⟩
    rw [List.mem_append, List.mem_singleton] at hq
    rcases hq with hq | rfl
    · exact Or.inl ⟨q, hq, h⟩
    · exact Or.inr h
  · rintro (⟨q, hq, h⟩ | h)
    · exact ⟨q, by simp [hq], h⟩
    · exact ⟨r, by simp, h⟩

theorem vel_setVel (e : Elm K G) (v : Option K) : (e.setVel v).vel = v := by
  unfold Elm.setVel Elm.vel
  cases h : e.emission <;> simp

theorem setVel_fields (e : Elm K G) (v : Option K) : (e.setVel v).ids = e.ids ∧ (e.setVel v).emission = e.emission ∧ (e.setVel v).absLimit = e.absLimit ∧
    (e.setVel v).catOff = e.catOff ∧ (e.setVel v).fa = e.fa ∧ (e.setVel v).fastd = e.fastd ∧ (e.setVel v).off = e.off ∧ (e.setVel v).poly = e.poly := by
  unfold Elm.setVel
  split <;> simp

/-- **C162, loading** Loading the solution extracted from a set of elements into elements of the same lines (in any state): each line in range has the amplitude, the error and
the offset of the solution, each element with a line in range its velocity, group and polynomial; all the other values are reset. -/
theorem C162_load (env : Env K) (es es0 : List (Elm K G)) (rest : List Rest) (s : St K G) (hex : extract env es rest = .ok s) (hw : WF es) (hw0 : WF es0)
    (hcap : ∀ e ∈ es, Capped e) (hlen : es0.length = es.length) (hsame : ∀ (i : Nat) a b, es0[i]? = some a → es[i]? = some b → Same a b)
    (hlv : env.offsets = true → env.level = true) :
    ∃ es2, load env.offsets es0 rest s.rows = .ok es2 ∧ es2.length = es.length ∧
      ∀ (i : Nat) el, es[i]? = some el → ∃ e2, es2[i]? = some e2 ∧ Loaded env es rest i el e2 := by
  obtain ⟨hrl, hrs, _⟩ := C161_solution env es rest s hex
  let P : List (Rest × Row K G) → List (Elm K G) × List Bool → Prop := fun pre st =>
    st.1.length = es.length ∧ st.2.length = es.length ∧
    (∀ (i : Nat) el, es[i]? = some el → ∃ e2, st.1[i]? = some e2 ∧ Loaded env es (pre.map (·.1)) i el e2) ∧
    ∀ (i : Nat) d, st.2[i]? = some d → (d = true ↔ HitElt env es (pre.map (·.1)) i)
  have init : P [] (es0.map Elm.reset, List.replicate es0.length false) := by
    refine ⟨by simp [hlen], by simp [hlen], ?_, ?_⟩
    · intro i el hel
      obtain ⟨hi, _⟩ := List.getElem?_eq_some_iff.1 hel
      have hi0 : i < es0.length := by omega
      have h0 : es0[i]? = some es0[i] := List.getElem?_eq_getElem hi0
      have hsm := hsame i _ el h0 hel
      obtain ⟨w1, w2, w3, w4⟩ := hw0 es0[i] (List.getElem_mem hi0)
      have hnl : ∀ k, ¬ HitLine env es ([] : List Rest) i k := by rintro k ⟨r, hr, _⟩; simp at hr
      refine ⟨es0[i].reset, by rw [List.getElem?_map, h0]; rfl, ?_⟩
      refine ⟨hsm, ?_, fun k h => absurd h (hnl k), ?_, fun h => absurd h (by rintro ⟨k, hk⟩; exact hnl k hk), ?_⟩
      · simp only [Elm.reset, List.length_replicate, List.length_map]
        rw [hsm.1] at w4
        exact ⟨by rw [hsm.1], by rw [hsm.1], w4⟩
      · intro k hk _
        simp only [Elm.reset]
        rw [List.getElem?_replicate, if_pos (by rw [hsm.1]; exact hk), List.getElem?_map, hsm.2.2.2]
        exact ⟨rfl, rfl, rfl⟩
      · intro _
        refine ⟨?_, rfl, rfl⟩
        unfold Elm.vel Elm.reset
        simp
    · intro i d hd
      rw [List.getElem?_replicate] at hd
      split at hd
      · simp only [Option.some.injEq] at hd
        subst hd
        simp only [Bool.false_eq_true, false_iff]
        rintro ⟨k, r, hr, _⟩
        simp at hr
      · cases hd
  obtain ⟨st, h1, h2⟩ := foldL_inv (f := fun rr s => loadStep env.offsets rr s) P (rest.zip s.rows) [] _ init (by
    intro pre rr st hmem hP
    obtain ⟨p1, p2, p3, p4⟩ := hP
    obtain ⟨r, row⟩ := rr
    have hspec : RowSpec env es r row := by
      obtain ⟨j, hj, he⟩ := List.getElem_of_mem hmem
      rw [List.length_zip] at hj
      rw [List.getElem_zip] at he
      cases he
      exact hrs j _ _ (List.getElem?_eq_getElem (by omega)) (List.getElem?_eq_getElem (by omega))
    have skip : (∀ i k, ¬ (find es r.id = some (i, k) ∧ env.out i k = false)) → P (pre ++ [(r, row)]) st := by
      intro hn
      have hh : ∀ i k, HitLine env es ((pre ++ [(r, row)]).map (·.1)) i k ↔ HitLine env es (pre.map (·.1)) i k := by
        intro i k
        rw [List.map_append]
        simp only [List.map_cons, List.map_nil]
        rw [hit_snoc]
        exact ⟨fun h => h.resolve_right (hn i k), Or.inl⟩
      have he : ∀ i, HitElt env es ((pre ++ [(r, row)]).map (·.1)) i ↔ HitElt env es (pre.map (·.1)) i := fun i => exists_congr (hh i)
      refine ⟨p1, p2, ?_, fun i d hd => (p4 i d hd).trans (he i).symm⟩
      intro i el hel
      obtain ⟨e2, q1, q2⟩ := p3 i el hel
      exact ⟨e2, q1, q2.same, q2.len, fun k hk => q2.line k ((hh i k).1 hk), fun k hk hnk => q2.noLine k hk (fun h => hnk ((hh i k).2 h)),
        fun h => q2.elt ((he i).1 h), fun h => q2.noElt (fun h' => h ((he i).2 h'))⟩
    cases hf : find es r.id with
    | none =>
      have hrow := hspec.1 hf
      refine ⟨st, ?_, skip (by rintro i k ⟨hh, _⟩; rw [hf] at hh; cases hh)⟩
      unfold loadStep
      simp only [hrow, Row.default]
    | some ek =>
      obtain ⟨i, k⟩ := ek
      by_cases ho : env.out i k = true
      · have hrow := hspec.2.1 i k hf ho
        refine ⟨st, ?_, skip (by rintro i' k' ⟨hh, hh2⟩; rw [hf] at hh; cases hh; rw [ho] at hh2; cases hh2)⟩
        unfold loadStep
        simp only [hrow, Row.default, if_true]
      · have ho' : env.out i k = false := by simpa using ho
        obtain ⟨el, hel, hli⟩ := find_spec hf
        have hin := hspec.2.2 i k el ⟨hf, hel, ho'⟩
        obtain ⟨e2, q1, q2⟩ := p3 i el hel
        have hil := (List.getElem?_eq_some_iff.1 hel).1
        have hkl := (List.getElem?_eq_some_iff.1 (lineIdx_spec hli)).1
        have hli2 : e2.lineIdx r.id = some k := by unfold Elm.lineIdx at hli ⊢; rw [q2.same.1]; exact hli
        set e1 : Elm K G := { e2.setAmp k row.amp row.ampErr with off := e2.off.set k row.off } with he1
        have hd : st.2[i]? = some (st.2[i]'(by omega)) := List.getElem?_eq_getElem (by omega)
        have hcapk : (if e2.emission = false ∧ e2.absLimit > 0 ∧ vGt row.amp (some e2.absLimit) = true then some e2.absLimit else row.amp) = row.amp :=
          setAmp_capped (hcap el (List.mem_of_getElem? hel)) (List.mem_of_getElem? hin.amp) q2.same
        have hfa : e1.fa = e2.fa.set k row.amp := by rw [he1]; simp only [Elm.setAmp]; rw [hcapk]
        -- the state after the line
        have key : ∀ e3 : Elm K G, ∀ d' : List Bool, e3.ids = e1.ids → e3.emission = e1.emission → e3.absLimit = e1.absLimit → e3.catOff = e1.catOff →
            e3.fa = e1.fa → e3.fastd = e1.fastd → e3.off = e1.off →
            (e3.vel = el.vel ∧ e3.group = el.group ∧ e3.poly = if env.offsets then el.poly else (some 0, some 0, some 0)) →
            d'.length = es.length → (∀ j d, d'[j]? = some d → j ≠ i → st.2[j]? = some d) → (∀ d, d'[i]? = some d → d = true) →
            P (pre ++ [(r, row)]) (st.1.set i e3, d') := by
          intro e3 d' t1 t2 t3 t4 t5 t6 t7 t8 t9 t10 t11
          have hh : ∀ i' k', HitLine env es ((pre ++ [(r, row)]).map (·.1)) i' k' ↔ HitLine env es (pre.map (·.1)) i' k' ∨ (i' = i ∧ k' = k) := by
            intro i' k'
            rw [List.map_append]
            simp only [List.map_cons, List.map_nil]
            rw [hit_snoc, hf]
            constructor
            · rintro (h | ⟨h, _⟩)
              · exact Or.inl h
              · cases h; exact Or.inr ⟨rfl, rfl⟩
            · rintro (h | ⟨rfl, rfl⟩)
              · exact Or.inl h
              · exact Or.inr ⟨rfl, ho'⟩
          refine ⟨by simp [p1], t9, ?_, ?_⟩
          · intro j elj hj
            by_cases hji : j = i
            · subst hji
              rw [hel] at hj
              simp only [Option.some.injEq] at hj
              subst hj
              refine ⟨e3, by rw [List.getElem?_set_self (by omega)], ?_⟩
              have hsm : Same e3 el := by
                obtain ⟨s1, s2, s3, s4⟩ := q2.same
                exact ⟨t1.trans s1, t2.trans s2, t3.trans s3, t4.trans s4⟩
              refine ⟨hsm, ?_, ?_, ?_, fun _ => t8, fun h => absurd ⟨k, (hh j k).2 (Or.inr ⟨rfl, rfl⟩)⟩ h⟩
              · rw [t5, t6, t7, hfa, he1]
                simp only [Elm.setAmp, List.length_set]
                exact q2.len
              · intro k' hk'
                rw [t5, t6, t7, hfa, he1]
                simp only [Elm.setAmp]
                by_cases hkk : k' = k
                · subst hkk
                  rw [List.getElem?_set_self (by rw [q2.len.1]; exact hkl), List.getElem?_set_self (by rw [q2.len.2.1]; exact hkl),
                    List.getElem?_set_self (by rw [q2.len.2.2]; exact hkl), hin.amp, hin.ampErr, hin.off]
                  exact ⟨rfl, rfl, rfl⟩
                · rw [List.getElem?_set_ne (by omega), List.getElem?_set_ne (by omega), List.getElem?_set_ne (by omega)]
                  rcases (hh j k').1 hk' with h | h
                  · exact q2.line k' h
                  · exact absurd h.2 hkk
              · intro k' hk' hn
                have hkk : k' ≠ k := by rintro rfl; exact hn ((hh j k').2 (Or.inr ⟨rfl, rfl⟩))
                rw [t5, t6, t7, hfa, he1]
                simp only [Elm.setAmp]
                rw [List.getElem?_set_ne (by omega), List.getElem?_set_ne (by omega), List.getElem?_set_ne (by omega)]
                exact q2.noLine k' hk' (fun h => hn ((hh j k').2 (Or.inl h)))
            · obtain ⟨e2', r1, r2⟩ := p3 j elj hj
              have hhj : ∀ k', HitLine env es ((pre ++ [(r, row)]).map (·.1)) j k' ↔ HitLine env es (pre.map (·.1)) j k' := by
                intro k'; rw [hh]; exact ⟨fun h => h.resolve_right (fun h => hji h.1), Or.inl⟩
              have hej : HitElt env es ((pre ++ [(r, row)]).map (·.1)) j ↔ HitElt env es (pre.map (·.1)) j := exists_congr hhj
              exact ⟨e2', by rw [List.getElem?_set_ne (by omega)]; exact r1, r2.same, r2.len, fun k hk => r2.line k ((hhj k).1 hk),
                fun k hk hnk => r2.noLine k hk (fun h => hnk ((hhj k).2 h)), fun h => r2.elt (hej.1 h), fun h => r2.noElt (fun h' => h (hej.2 h'))⟩
          · intro j d hd'
            by_cases hji : j = i
            · subst hji
              rw [t11 d hd']
              simp only [true_iff]
              exact ⟨k, (hh j k).2 (Or.inr ⟨rfl, rfl⟩)⟩
            · refine (p4 j d (t10 j d hd' hji)).trans (exists_congr fun k' => ?_)
              rw [hh]; exact ⟨Or.inl, fun h => h.resolve_right (fun h => hji h.1)⟩
        by_cases hdone : st.2[i]'(by omega) = true
        · have helt := q2.elt ((p4 i _ hd).1 hdone)
          refine ⟨(st.1.set i e1, st.2), ?_, key e1 st.2 rfl rfl rfl rfl rfl rfl rfl ?_ p2 (fun j d h _ => h) (fun d h => ?_)⟩
          · unfold loadStep
            simp only [hin.elt, hin.inside, Bool.false_eq_true, if_false]
            rw [Res.at_eq_ok.2 q1, Res.bind_ok]
            simp only [hli2]
            rw [Res.at_eq_ok.2 hd, Res.bind_ok, if_pos hdone]
          · exact helt
          · rw [hd] at h; simp only [Option.some.injEq] at h; rw [← h]; exact hdone
        · have hne : ¬ HitElt env es (pre.map (·.1)) i := fun h => hdone ((p4 i _ hd).2 h)
          have hpoly := (q2.noElt hne).2.2
          obtain ⟨v1, v2, v3, v4, v5, v6, v7, v8⟩ := setVel_fields e1 row.vel
          have hcommon : ∀ (o : Bool), (e1.setCommon o row).ids = e1.ids ∧ (e1.setCommon o row).emission = e1.emission ∧ (e1.setCommon o row).absLimit = e1.absLimit ∧
              (e1.setCommon o row).catOff = e1.catOff ∧ (e1.setCommon o row).fa = e1.fa ∧ (e1.setCommon o row).fastd = e1.fastd ∧ (e1.setCommon o row).off = e1.off ∧
              (e1.setCommon o row).vel = row.vel ∧ (e1.setCommon o row).group = row.group ∧ (e1.setCommon o row).poly = if o then row.poly else e1.poly := by
            intro o
            have hv := vel_setVel e1 row.vel
            unfold Elm.setCommon
            cases o with
            | false => exact ⟨v1, v2, v3, v4, v5, v6, v7, hv, rfl, v8⟩
            | true => exact ⟨v1, v2, v3, v4, v5, v6, v7, hv, rfl, rfl⟩
          obtain ⟨c1, c2, c3, c4, c5, c6, c7, c8, c9, c10⟩ := hcommon env.offsets
          refine ⟨(st.1.set i (e1.setCommon env.offsets row), st.2.set i true), ?_, key _ _ c1 c2 c3 c4 c5 c6 c7 ?_ (by simp [p2]) (fun j d h hji => ?_) (fun d h => ?_)⟩
          · unfold loadStep
            simp only [hin.elt, hin.inside, Bool.false_eq_true, if_false]
            rw [Res.at_eq_ok.2 q1, Res.bind_ok]
            simp only [hli2]
            rw [Res.at_eq_ok.2 hd, Res.bind_ok, if_neg hdone]
          · refine ⟨c8.trans hin.vel, c9.trans hin.group, ?_⟩
            rw [c10]
            cases hoff : env.offsets with
            | false =>
              simp only [Bool.false_eq_true, if_false]
              exact hpoly
            | true =>
              simp only [if_true]
              rw [hin.poly (hlv hoff), hoff, if_pos rfl]
          · rw [List.getElem?_set_ne (by omega)] at h; exact h
          · rw [List.getElem?_set_self (by omega)] at h
            simp only [Option.some.injEq] at h
            exact h.symm)
  refine ⟨st.1, ?_, h2.1, ?_⟩
  · unfold load
    rw [h1, Res.bind_ok]
  · intro i el hel
    obtain ⟨e2, q1, q2⟩ := h2.2.2.1 i el hel
    refine ⟨e2, q1, ?_⟩
    have hm : (([] : List (Rest × Row K G)) ++ rest.zip s.rows).map (fun q => q.1) = rest := by
      rw [List.nil_append]
      exact List.map_fst_zip (by omega)
    rw [hm] at q2
    exact q2

/-- The element and the index of a line depend only on the identifiers. -/
theorem find_congr (id : Nat) {a b : List (Elm K G)} (h : a.map (·.ids) = b.map (·.ids)) : find a id = find b id := by
  have key : ∀ es : List (Elm K G), find es id = ((es.map (·.ids)).findIdx? fun l => (l.findIdx? (· == id)).isSome).bind fun i =>
      ((es.map (·.ids))[i]?).bind fun l => (l.findIdx? (· == id)).map fun k => (i, k) := by
    intro es
    unfold find Elm.lineIdx
    rw [List.findIdx?_map]
    refine congrArg _ (funext fun i => ?_)
    rw [List.getElem?_map]
    cases es[i]? <;> rfl
  rw [key, key, h]

theorem foldL_congr {α σ : Type} {f g : α → σ → Res σ} : ∀ (l : List α), (∀ a ∈ l, ∀ s, f a s = g a s) → ∀ s, foldL f l s = foldL g l s := by
  intro l
  induction l with
  | nil => intro _ s; rfl
  | cons a l ih =>
    intro h s
    unfold foldL
    rw [h a (by simp) s]
    cases g a s with
    | ok s1 => rw [Res.bind_ok, Res.bind_ok]; exact ih (fun a ha => h a (by simp [ha])) s1
    | throw e => rfl
    | ub => rfl

theorem at_congr {α : Type} {a b : List α} {k : Nat} (h : a[k]? = b[k]?) : Res.at_ a k = Res.at_ b k := by
  cases hb : b[k]? with
  | none => rw [Res.at_eq_ub.2 (List.getElem?_eq_none_iff.1 (h.trans hb)), Res.at_eq_ub.2 (List.getElem?_eq_none_iff.1 hb)]
  | some x => rw [Res.at_eq_ok.2 (h.trans hb), Res.at_eq_ok.2 hb]

/-- **C162, round trip** Loading a solution and extracting again, with the same view of the spectra, gives the same solution. -/
theorem C162_roundtrip (env : Env K) (es es0 : List (Elm K G)) (rest : List Rest) (s : St K G) (hex : extract env es rest = .ok s) (hw : WF es) (hw0 : WF es0)
    (hcap : ∀ e ∈ es, Capped e) (hlen : es0.length = es.length) (hsame : ∀ (i : Nat) a b, es0[i]? = some a → es[i]? = some b → Same a b)
    (hlv : env.offsets = true → env.level = true) :
    ∃ es2, load env.offsets es0 rest s.rows = .ok es2 ∧ extract env es2 rest = .ok s := by
  obtain ⟨es2, h1, h2, h3⟩ := C162_load env es es0 rest s hex hw hw0 hcap hlen hsame hlv
  refine ⟨es2, h1, ?_⟩
  rw [← hex]
  unfold extract
  have hids : es2.map (·.ids) = es.map (·.ids) := by
    apply List.ext_getElem?
    intro i
    rw [List.getElem?_map, List.getElem?_map]
    cases he : es[i]? with
    | none =>
      rw [List.getElem?_eq_none (by rw [List.getElem?_eq_none_iff] at he; omega)]
    | some el =>
      obtain ⟨e2, q1, q2⟩ := h3 i el he
      rw [q1, Option.map_some, Option.map_some, q2.same.1]
  apply foldL_congr
  intro r hr st
  unfold step
  rw [find_congr r.id hids]
  cases hf : find es r.id with
  | none => rfl
  | some ek =>
    obtain ⟨i, k⟩ := ek
    simp only
    by_cases ho : env.out i k = true
    · rw [if_pos ho, if_pos ho]
    · rw [if_neg ho, if_neg ho]
      obtain ⟨el, g1, g2⟩ := find_spec hf
      obtain ⟨e2, q1, q2⟩ := h3 i el g1
      have hit : HitLine env es rest i k := ⟨r, hr, hf, by simpa using ho⟩
      obtain ⟨c1, c2, c3⟩ := q2.line k hit
      obtain ⟨d1, d2, d3⟩ := q2.elt ⟨k, hit⟩
      rw [Res.at_eq_ok.2 g1, Res.at_eq_ok.2 q1, Res.bind_ok, Res.bind_ok]
      unfold inRange
      rw [at_congr c1, at_congr c2, at_congr c3]
      have hb : ∀ a ae o, baseRow env e2 i k a ae o = baseRow env el i k a ae o := by
        intro a ae o; unfold baseRow; rw [d1, d2]
      have hfu : ∀ row f d, fullRow env e2 i k row f d = fullRow env el i k row f d := by
        intro row f d
        unfold fullRow
        cases hoff : env.offsets with
        | false => simp
        | true => rw [hoff, if_pos rfl] at d3; rw [d3]
      simp only [hb, hfu]

/-- **C161, valid lines** The test of the validity of a line throws on an empty solution; otherwise it holds exactly for the lines of the solution that are in range with a positive
amplitude. -/
theorem C161_valid (rows : List (Row K G)) :
    (rows = [] → ∀ i, isLineValid rows i = .throw .INTERNAL_ERROR) ∧
    ∀ i (row : Row K G), rows[i]? = some row → ∃ b, isLineValid rows i = .ok b ∧ (b = true ↔ row.outside = false ∧ ∃ x, row.amp = some x ∧ 0 < x) := by
  constructor
  · rintro rfl i; rfl
  · intro i row hr
    unfold isLineValid
    rw [if_neg (by rintro rfl; simp at hr), Res.at_eq_ok.2 hr, Res.bind_ok]
    refine ⟨_, rfl, ?_⟩
    cases ha : row.amp with
    | none => simp [vGt]
    | some x => simp [vGt]

/-! ## A concrete case -/

/-- An emission element with two lines, the second out of range, and an absorption element with one line. -/
def exEs : List (Elm ℚ Nat) :=
  [⟨[3, 5], true, 0, [0, 0], [some 2, some 7], [some 1, some 1], [some 10, some 20], some 100, some 300, some 4, (some 1, some 2, some 3)⟩,
   ⟨[8], false, 1, [0], [some (1 / 2)], [some (1 / 4)], [some 5], some 100, some 300, none, (some 0, some 0, some 0)⟩]

def exRest : List Rest := [⟨3, true, .oii⟩, ⟨5, true, .oii⟩, ⟨8, false, .other⟩, ⟨9, true, .other⟩]

def exEnv : Env ℚ :=
  ⟨fun e k => e == 0 && k == 1, fun e k => 4000 + 100 * e, fun _ => some 1, fun _ _ => (some 6, some 1), fun _ _ => some (2, 5), fun _ _ _ => .ok (some (12, 3)), true, true, true,
   id, id⟩

/-- The elements before loading: another state. -/
def exEs0 : List (Elm ℚ Nat) :=
  [⟨[3, 5], true, 0, [0, 0], [none, some 1], [none, some 1], [some 0, some 0], none, none, none, (none, none, none)⟩,
   ⟨[8], false, 1, [0], [some 1], [none], [some 0], none, none, some 7, (none, none, none)⟩]

/-- Fluxes of the extracted solution: 2·5 = 10 for the emission line, nothing out of range, −(1/2·6)·5 = −15 for the absorption line. -/
example : (match extract exEnv exEs exRest with
    | .ok s => decide (s.rows.map (·.flux) = [some 10, none, some (-15), none]) && decide (s.rows.map (·.elt) = [some 0, some 0, some 1, none])
    | _ => false) = true := by decide +kernel

theorem ex_hyp : WF exEs ∧ WF exEs0 ∧ (∀ e ∈ exEs, Capped e) ∧ exEs0.length = exEs.length ∧ (∀ (i : Nat) a b, exEs0[i]? = some a → exEs[i]? = some b → Same a b) := by
  refine ⟨?_, ?_, ?_, rfl, ?_⟩
  · intro e he; simp only [exEs, List.mem_cons, List.not_mem_nil, or_false] at he; rcases he with rfl | rfl <;> simp
  · intro e he; simp only [exEs0, List.mem_cons, List.not_mem_nil, or_false] at he; rcases he with rfl | rfl <;> simp
  · intro e he
    simp only [exEs, List.mem_cons, List.not_mem_nil, or_false] at he
    rcases he with rfl | rfl
    · intro h; simp at h
    · intro _ _ a ha
      simp only [List.mem_cons, Option.some.injEq, List.not_mem_nil, or_false] at ha
      subst ha; norm_num
  · intro i a b ha hb
    match i with
    | 0 => simp [exEs, exEs0] at ha hb; subst ha hb; simp [Same]
    | 1 => simp [exEs, exEs0] at ha hb; subst ha hb; simp [Same]
    | i + 2 => simp [exEs] at hb

/-- The hypotheses of the round trip hold for the concrete case. -/
example : ∃ s es2, extract exEnv exEs exRest = .ok s ∧ load true exEs0 exRest s.rows = .ok es2 ∧ extract exEnv es2 exRest = .ok s := by
  obtain ⟨w1, w2, w3, w4, w5⟩ := ex_hyp
  obtain ⟨s, hs⟩ := C161_total exEnv exEs exRest w1 (fun _ _ _ => ⟨_, rfl⟩) (fun _ _ _ => rfl)
  obtain ⟨es2, h1, h2⟩ := C162_roundtrip exEnv exEs exEs0 exRest s hs w1 w2 w3 w4 w5 (fun _ => rfl)
  exact ⟨s, es2, hs, h1, h2⟩

/-- After a brief extraction (`opt_level` 0) with amplitude offsets, loading gives NaN polynomials: the round trip needs the full extraction. -/
example : (match extract { exEnv with level := false } exEs exRest with
    | .ok s => (match load true exEs0 exRest s.rows with
      | .ok es2 => decide (es2.map (·.poly) = [(none, none, none), (none, none, none)])
      | _ => false)
    | _ => false) = true := by decide +kernel

end LmSol
end Amazed
