import Verif.Props.TplRatioProps
import Mathlib.Tactic.FieldSimp

set_option linter.unusedVariables false
set_option linter.unusedSectionVars false

/-! # C94-C96: amplitudes of line ratio catalogs -/

namespace Amazed
namespace TplRatio

variable {K : Type} [Field K] [LinearOrder K] [IsStrictOrderedRing K]

/-! ## C94: what is kept of a fit and restored at the end -/

/-- Line `i` of the element has a positive amplitude and is inside the range of some spectrum. -/
def Pos (e : Amp.Elt K) (i : Nat) : Prop := ∃ a, e.fa[i]? = some (some a) ∧ 0 < a ∧ e.gOutsideLine[i]? = some false

/-- All the vectors of the element have its number of lines. -/
structure Sized (e : Amp.Elt K) : Prop where
  nominal : e.nominal.length = e.lines.length
  fa : e.fa.length = e.lines.length
  fastd : e.fastd.length = e.lines.length
  out : e.gOutsideLine.length = e.lines.length

theorem vGt_zero (a : Option K) : Amp.vGt a (some 0) = true ↔ ∃ x, a = some x ∧ 0 < x := by
  cases a with
  | none => simp [Amp.vGt]
  | some x => simp [Amp.vGt]

theorem keepFrom_pos (e : Amp.Elt K) (hs : Sized e) (i : Nat) (a nom : K) (s : Option K) (ha : e.fa[i]? = some (some a)) (hp : 0 < a)
    (ho : e.gOutsideLine[i]? = some false) (hn : e.nominal[i]? = some nom) (hn0 : nom ≠ 0) (hst : e.fastd[i]? = some s) :
    ∀ n k, k ≤ i → i < k + n → (∀ j, k ≤ j → j < i → ¬ Pos e j) → k + n ≤ e.lines.length →
      keepFrom e k n = .ok ⟨some (a / nom), s.map (· / nom), true⟩ := by
  intro n
  induction n with
  | zero => intro k h1 h2; omega
  | succ n ih =>
    intro k h1 h2 h3 h4
    unfold keepFrom
    have l1 : k < e.fa.length := by rw [hs.fa]; omega
    have l2 : k < e.gOutsideLine.length := by rw [hs.out]; omega
    rw [Res.at_of_lt l1, Res.bind_ok, Res.at_of_lt l2, Res.bind_ok]
    by_cases hk : k = i
    · subst hk
      have e1 : e.fa[k] = some a := by rw [List.getElem?_eq_getElem l1] at ha; simpa using ha
      have e2 : e.gOutsideLine[k] = false := by rw [List.getElem?_eq_getElem l2] at ho; simpa using ho
      rw [if_pos ⟨by rw [e1, vGt_zero]; exact ⟨a, rfl, hp⟩, e2⟩]
      rw [Res.at_eq_ok.2 hst, Res.bind_ok, Res.at_eq_ok.2 hn, Res.bind_ok, e1]
      cases s <;> simp [Amp.vDiv, hn0, Res.bind_ok]
    · rw [if_neg]
      · exact ih (k + 1) (by omega) (by omega) (fun j hj => h3 j (by omega)) (by omega)
      · rintro ⟨g1, g2⟩
        obtain ⟨x, hx, hx0⟩ := (vGt_zero _).1 g1
        exact h3 k (le_refl _) (by omega) ⟨x, by rw [List.getElem?_eq_getElem l1, hx], hx0, by rw [List.getElem?_eq_getElem l2, g2]⟩

theorem keepFrom_none (e : Amp.Elt K) (hs : Sized e) : ∀ n k, (∀ j, k ≤ j → j < k + n → ¬ Pos e j) → k + n ≤ e.lines.length →
    keepFrom e k n = .ok ⟨some 0, none, false⟩ := by
  intro n
  induction n with
  | zero => intros; rfl
  | succ n ih =>
    intro k h3 h4
    unfold keepFrom
    have l1 : k < e.fa.length := by rw [hs.fa]; omega
    have l2 : k < e.gOutsideLine.length := by rw [hs.out]; omega
    rw [Res.at_of_lt l1, Res.bind_ok, Res.at_of_lt l2, Res.bind_ok, if_neg]
    · exact ih (k + 1) (fun j hj hj2 => h3 j (by omega) (by omega)) (by omega)
    · rintro ⟨g1, g2⟩
      obtain ⟨x, hx, hx0⟩ := (vGt_zero _).1 g1
      exact h3 k (le_refl _) (by omega) ⟨x, by rw [List.getElem?_eq_getElem l1, hx], hx0, by rw [List.getElem?_eq_getElem l2, g2]⟩

/-- **C94, what is kept.** The amplitude and the error of an element kept for a catalog are those of its first line of positive amplitude inside the
range, divided by the nominal amplitude of that line in the catalog. -/
theorem C94_keep (e : Amp.Elt K) (hs : Sized e) (i : Nat) (a nom : K) (s : Option K) (ha : e.fa[i]? = some (some a)) (hp : 0 < a)
    (ho : e.gOutsideLine[i]? = some false) (hn : e.nominal[i]? = some nom) (hn0 : nom ≠ 0) (hst : e.fastd[i]? = some s)
    (hfirst : ∀ j, j < i → ¬ Pos e j) : keep e = .ok ⟨some (a / nom), s.map (· / nom), true⟩ := by
  have hi : i < e.lines.length := by
    rw [← hs.fa]
    by_contra hc
    rw [List.getElem?_eq_none (by omega)] at ha
    cases ha
  exact keepFrom_pos e hs i a nom s ha hp ho hn hn0 hst _ 0 (by omega) (by omega) (fun j _ hj => hfirst j hj) (by omega)

/-- **C94, nothing to keep.** Without such a line the amplitude kept is 0 and the error is undefined. -/
theorem C94_keep_none (e : Amp.Elt K) (hs : Sized e) (h : ∀ j, ¬ Pos e j) : keep e = .ok ⟨some 0, none, false⟩ :=
  keepFrom_none e hs _ 0 (fun j _ _ => h j) (by omega)

theorem setNominal_same (amps : List K) (e : Amp.Elt K) (h : amps.length = e.lines.length) :
    setNominal amps e = .ok { e with nominal := amps } := by
  unfold setNominal
  rw [Res.tab_ok (h := fun i => (amps[i]?).getD 0) e.lines.length (fun i hi => by
    rw [Res.at_of_lt (show i < amps.length by omega)]
    simp [List.getElem?_eq_getElem (show i < amps.length by omega)])]
  rw [Res.bind_ok]
  have : (List.range e.lines.length).map (fun i => (amps[i]?).getD 0) = amps := by
    apply List.ext_getElem?
    intro i
    rw [List.getElem?_map]
    by_cases hi : i < amps.length
    · rw [List.getElem?_range (by omega), List.getElem?_eq_getElem hi]; simp [List.getElem?_eq_getElem hi]
    · rw [List.getElem?_eq_none (by omega : amps.length ≤ i), List.getElem?_eq_none (by simp; omega)]; rfl
  rw [this]

/-- `setAmplitude` reads only the lines, the nominal amplitudes, the flags over all spectra and the absorption limit. -/
theorem setAmplitude_congr (e e' : Amp.Elt K) (A S : Option K) (h1 : e'.lines.length = e.lines.length) (h2 : e'.nominal = e.nominal)
    (h3 : e'.gOutside = e.gOutside) (h4 : e'.gOutsideLine = e.gOutsideLine) (h5 : e'.absLimit = e.absLimit) (h6 : e'.isEmission = e.isEmission)
    (e1 : Amp.Elt K) (h : Amp.setAmplitude e A S = .ok e1) :
    ∃ e2, Amp.setAmplitude e' A S = .ok e2 ∧ e2.fa = e1.fa ∧ e2.fastd = e1.fastd ∧ e2.nominal = e'.nominal := by
  unfold Amp.setAmplitude at h ⊢
  rw [h3]
  split at h
  · rename_i hc
    rw [if_pos hc]
    cases h
    exact ⟨_, rfl, by simp [h1], by simp [h1], rfl⟩
  · rename_i hc
    rw [if_neg hc]
    obtain ⟨l, g1, g2⟩ := Res.bind_eq_ok.1 h
    cases g2
    have : (fun i => Res.at_ e'.gOutsideLine i >>= fun o =>
        if o then (.ok (none, none) : Res (Option K × Option K))
        else Res.at_ e'.nominal i >>= fun n => .ok (Amp.capAbs e' (Amp.vMul A (some n)), Amp.vMul S (some n))) =
        (fun i => Res.at_ e.gOutsideLine i >>= fun o =>
        if o then .ok (none, none)
        else Res.at_ e.nominal i >>= fun n => .ok (Amp.capAbs e (Amp.vMul A (some n)), Amp.vMul S (some n))) := by
      funext i
      rw [h4, h2]
      unfold Amp.capAbs
      rw [h5, h6]
    rw [this, h1, g1, Res.bind_ok]
    exact ⟨_, rfl, rfl, rfl, rfl⟩

/-- **C94, restoration.** Let a fit with a catalog set the amplitude of an element to `A > 0` (error `S`), with non-negative nominal amplitudes, one of
them positive for a line inside the range, and no line capped by the absorption limit. Then what is kept of the element is `A` and `S`, and
restoring it at the end, in whatever state later fits left the amplitudes and the nominal amplitudes, gives back the same amplitudes and errors. -/
theorem C94_restore_partial (e : Amp.Elt K) (hn : e.nominal.length = e.lines.length) (ho : e.gOutsideLine.length = e.lines.length)
    (hg : e.gOutside = false) (hpos : ∀ x ∈ e.nominal, 0 ≤ x) (A : K) (S : Option K) (hA : 0 < A)
    (hin : ∃ (i : Nat) (x : K), e.nominal[i]? = some x ∧ 0 < x ∧ e.gOutsideLine[i]? = some false)
    (hcap : e.isEmission = false → 0 < e.absLimit → ∀ x ∈ e.nominal, A * x ≤ e.absLimit) :
    ∃ e1, Amp.setAmplitude e (some A) S = .ok e1 ∧ keep e1 = .ok ⟨some A, S, true⟩ ∧
      ∀ e' : Amp.Elt K, e'.lines.length = e.lines.length → e'.gOutside = e.gOutside → e'.gOutsideLine = e.gOutsideLine →
        e'.absLimit = e.absLimit → e'.isEmission = e.isEmission →
        ∃ e2, restore e.nominal ⟨some A, S, true⟩ e' = .ok e2 ∧ e2.fa = e1.fa ∧ e2.fastd = e1.fastd ∧ e2.nominal = e.nominal := by
  have hset : ∃ e1, Amp.setAmplitude e (some A) S = .ok e1 ∧ e1.lines = e.lines ∧ e1.nominal = e.nominal ∧ e1.gOutsideLine = e.gOutsideLine ∧
      e1.fa.length = e.lines.length ∧ e1.fastd.length = e.lines.length ∧
      ∀ (i : Nat) (x : K) (o : Bool), e.nominal[i]? = some x → e.gOutsideLine[i]? = some o →
        e1.fa[i]? = some (if o then none else some (A * x)) ∧ e1.fastd[i]? = some (if o then none else S.map (· * x)) := by
    unfold Amp.setAmplitude
    rw [if_neg (by rw [hg]; simp)]
    let val : Nat → Option K × Option K := fun i =>
      if (e.gOutsideLine[i]?).getD true then (none, none)
      else (some (A * (e.nominal[i]?).getD 0), S.map (· * (e.nominal[i]?).getD 0))
    rw [Res.tab_ok (h := val) e.lines.length (fun i hi => by
      have l1 : i < e.gOutsideLine.length := by omega
      have l2 : i < e.nominal.length := by omega
      rw [Res.at_of_lt l1, Res.bind_ok]
      simp only [val, List.getElem?_eq_getElem l1, Option.getD_some]
      by_cases hb : e.gOutsideLine[i] = true
      · rw [if_pos hb, if_pos hb]
      · rw [if_neg hb, if_neg hb, Res.at_of_lt l2, Res.bind_ok]
        simp only [List.getElem?_eq_getElem l2, Option.getD_some, Res.ok.injEq, Prod.mk.injEq]
        constructor
        · unfold Amp.capAbs
          rw [if_neg]
          · rfl
          · rintro ⟨c1, c2, c3⟩
            simp only [Amp.vMul, Amp.vGt, decide_eq_true_eq] at c3
            exact absurd (hcap c1 c2 _ (List.getElem_mem l2)) (not_le.2 c3)
        · cases S <;> rfl), Res.bind_ok]
    refine ⟨_, rfl, rfl, rfl, rfl, by simp, by simp, ?_⟩
    intro i x o hx hoi
    have hi : i < e.lines.length := by
      by_contra hc
      rw [List.getElem?_eq_none (by omega)] at hx
      cases hx
    simp only [List.map_map, List.getElem?_map, List.getElem?_range hi, Option.map_some, Function.comp, val, hx, hoi, Option.getD_some]
    cases o <;> simp
  obtain ⟨e1, g1, g2, g3, g4, g5, g6, g7⟩ := hset
  refine ⟨e1, g1, ?_, ?_⟩
  · -- the first line inside the range with a positive nominal amplitude
    classical
    have hex : ∃ i, ∃ x : K, e.nominal[i]? = some x ∧ 0 < x ∧ e.gOutsideLine[i]? = some false := hin
    let i := Nat.find hex
    obtain ⟨x, q1, q2, q3⟩ := Nat.find_spec hex
    have hf := (g7 _ x false q1 q3)
    simp only [Bool.false_eq_true, if_false] at hf
    have hs : Sized e1 := ⟨by rw [g3, g2, hn], by rw [g5, g2], by rw [g6, g2], by rw [g4, g2, ho]⟩
    have := C94_keep e1 hs (Nat.find hex) (A * x) x (S.map (· * x)) hf.1 (mul_pos hA q2) (by rw [g4]; exact q3) (by rw [g3]; exact q1)
      (ne_of_gt q2) hf.2 (by
        rintro j hj ⟨a, a1, a2, a3⟩
        rw [g4] at a3
        have hjl : j < e.nominal.length := by
          rw [hn, ← ho]
          by_contra hc
          rw [List.getElem?_eq_none (by omega)] at a3
          cases a3
        have hj2 := (g7 j e.nominal[j] false (List.getElem?_eq_getElem hjl) a3).1
        rw [a1] at hj2
        simp only [Bool.false_eq_true, if_false, Option.some.injEq] at hj2
        have h0 : 0 < e.nominal[j] := by
          rcases (hpos _ (List.getElem_mem hjl)).lt_or_eq with h | h
          · exact h
          · rw [← h, mul_zero] at hj2; exact absurd a2 (by rw [hj2]; exact lt_irrefl _)
        exact Nat.find_min hex hj ⟨_, List.getElem?_eq_getElem hjl, h0, a3⟩)
    rw [this]
    have hx0 : x ≠ 0 := ne_of_gt q2
    rw [mul_div_assoc, div_self hx0, mul_one]
    congr 2
    cases S with
    | none => rfl
    | some s => simp [mul_div_assoc, div_self hx0]
  · intro e' a1 a2 a3 a4 a5
    unfold restore
    rw [setNominal_same _ _ (by rw [a1, hn]), Res.bind_ok]
    obtain ⟨e2, b1, b2, b3, b4⟩ := setAmplitude_congr e { e' with nominal := e.nominal } (some A) S a1 rfl a2 a3 a4 a5 e1 g1
    exact ⟨e2, b1, b2, b3, b4⟩

/-- Example for C94: two lines of nominal amplitudes 2 and 1, the first outside the range, fitted amplitude 3. -/
def exElt : Amp.Elt ℚ := ⟨[⟨"a", .strong⟩, ⟨"b", .strong⟩], .emission, true, [2, 1], [none, none], [none, none], 0, false, [true, false], false, [true, false]⟩

example : exElt.nominal.length = exElt.lines.length ∧ exElt.gOutsideLine.length = exElt.lines.length ∧ (∀ x ∈ exElt.nominal, 0 ≤ x) ∧
    (∃ (i : Nat) (x : ℚ), exElt.nominal[i]? = some x ∧ 0 < x ∧ exElt.gOutsideLine[i]? = some false) :=
  ⟨rfl, rfl, by decide, 1, 1, rfl, by norm_num, rfl⟩

example : ((Amp.setAmplitude exElt (some 3) (some 1)).bind keep) = .ok ⟨some 3, some 1, true⟩ := by decide +kernel

/-- **C94: the property fails for a null amplitude.** The error of an element of amplitude 0 is lost when the best catalog is restored. -/
theorem C94_null_counterexample :
    ((Amp.setAmplitude exElt (some 0) (some 1)).bind fun e1 => (keep e1).bind fun k => (restore exElt.nominal k e1).bind fun e2 =>
      .ok ((e1.fa, e1.fastd), (e2.fa, e2.fastd))) =
      .ok (([none, some 0], [none, some 1]), ([none, some 0], [none, none])) := by decide +kernel

/-- **C94: the property fails for capped absorption lines.** With nominal amplitudes 2 and 1, amplitude 1 and the limit 1 the fit gives both lines
amplitude 1; the restored amplitudes are 1 and 1/2. -/
theorem C94_capped_counterexample :
    let e : Amp.Elt ℚ := ⟨[⟨"a", .strong⟩, ⟨"b", .strong⟩], .absorption, false, [2, 1], [none, none], [none, none], 1, false, [false, false], false, [false, false]⟩
    ((Amp.setAmplitude e (some 1) (some 1)).bind fun e1 => (keep e1).bind fun k => (restore e.nominal k e1).bind fun e2 =>
      .ok (e1.fa, e2.fa)) = .ok ([some 1, some 1], [some 1, some (1 / 2)]) := by decide +kernel

/-! ## C95: nominal amplitudes of the catalogs -/

/-- The line of a catalog with an identifier, for catalogs with unique identifiers (a `std::map`). -/
def HasLine (cat : List (CatLine K)) (l : CatLine K) : Prop := l ∈ cat ∧ ∀ l' ∈ cat, l'.id = l.id → l' = l

theorem lineAt_ok {cat : List (CatLine K)} (hu : ∀ a ∈ cat, ∀ b ∈ cat, a.id = b.id → a = b) (id : Int) (l : CatLine K) :
    lineAt cat id = .ok l ↔ l ∈ cat ∧ l.id = id := by
  unfold lineAt
  cases hf : cat.find? (fun l => decide (l.id = id)) with
  | none =>
    rw [List.find?_eq_none] at hf
    simp only [reduceCtorEq, false_iff]
    rintro ⟨h1, h2⟩
    exact hf l h1 (by simpa using h2)
  | some a =>
    have h1 := List.mem_of_find?_eq_some hf
    have h2 := List.find?_some hf
    simp only [decide_eq_true_eq] at h2
    simp only [Res.ok.injEq]
    constructor
    · rintro rfl; exact ⟨h1, h2⟩
    · rintro ⟨h3, h4⟩; exact hu a h1 l h3 (by rw [h2, h4])

/-- **C95, amplitudes.** When the catalog has a line for each line of the element, `InitLineCorrespondingAmplitudes` gives to each line the nominal
amplitude of the line of the catalog with the same identifier, times the dust coefficient at its rest wavelength for an emission element when the
dust fit is enabled. -/
theorem C95_amplitudes (ismFit em : Bool) (dust : K → K) (cat : List (CatLine K)) (hu : ∀ a ∈ cat, ∀ b ∈ cat, a.id = b.id → a = b)
    (ids : List Int) (hids : ∀ id ∈ ids, ∃ l ∈ cat, l.id = id) :
    ∃ out, corrAmps ismFit em (some fun x => .ok (dust x)) cat ids = .ok out ∧ out.length = ids.length ∧
      ∀ (i : Nat) id l, ids[i]? = some id → l ∈ cat → l.id = id →
        out[i]? = some (if ismFit = true ∧ em = true then l.nom * dust l.pos else l.nom) := by
  unfold corrAmps
  have hline : ∀ i, i < ids.length → ∃ l, lineAt cat ((ids[i]?).getD 0) = .ok l := by
    intro i hi
    rw [List.getElem?_eq_getElem hi]
    obtain ⟨l, h1, h2⟩ := hids _ (List.getElem_mem hi)
    exact ⟨l, (lineAt_ok hu _ _).2 ⟨h1, h2⟩⟩
  classical
  let val : Nat → K := fun i => match lineAt cat ((ids[i]?).getD 0) with
    | .ok l => if ismFit = true ∧ em = true then l.nom * dust l.pos else l.nom
    | _ => 0
  rw [Res.tab_ok (h := val) ids.length (fun i hi => by
    obtain ⟨l, hl⟩ := hline i hi
    rw [Res.at_of_lt hi, Res.bind_ok]
    simp only [List.getElem?_eq_getElem hi, Option.getD_some] at hl
    unfold corrAmp
    simp only [val, List.getElem?_eq_getElem hi, Option.getD_some, hl, Res.bind_ok]
    cases ismFit <;> cases em <;> simp)]
  refine ⟨_, rfl, by simp, ?_⟩
  intro i id l hi hl hid
  have hlt : i < ids.length := by
    by_contra hc
    rw [List.getElem?_eq_none (by omega)] at hi
    cases hi
  rw [List.getElem?_map, List.getElem?_range hlt]
  simp only [Option.map_some, val, hi, Option.getD_some, (lineAt_ok hu id l).2 ⟨hl, hid⟩]

/-- **C95, missing lines.** A line of the model without a line of the same identifier in a ratio catalog stops the construction with an exception. -/
theorem C95_missing (ismFit em : Bool) (dust : K → K) (cat : List (CatLine K)) (hu : ∀ a ∈ cat, ∀ b ∈ cat, a.id = b.id → a = b)
    (ids : List Int) (hids : ∃ id ∈ ids, ∀ l ∈ cat, l.id ≠ id) :
    corrAmps ismFit em (some fun x => .ok (dust x)) cat ids = .throw .STD_OUT_OF_RANGE := by
  unfold corrAmps
  have hstep : ∀ id, (∃ v, corrAmp ismFit em (some fun x => .ok (dust x)) cat id = .ok v) ∨
      corrAmp ismFit em (some fun x => .ok (dust x)) cat id = .throw .STD_OUT_OF_RANGE := by
    intro id
    unfold corrAmp
    cases hl : lineAt cat id with
    | ok l =>
      left
      rw [Res.bind_ok]
      cases ismFit <;> cases em <;> exact ⟨_, rfl⟩
    | throw e =>
      right
      rw [Res.bind_throw]
      unfold lineAt at hl
      split at hl <;> cases hl
      rfl
    | ub =>
      unfold lineAt at hl
      split at hl <;> cases hl
  obtain ⟨id, h1, h2⟩ := hids
  obtain ⟨j, hj, hje⟩ := List.getElem_of_mem h1
  have key : ∀ n, n ≤ ids.length → (∃ out, Res.tab (fun i => Res.at_ ids i >>= fun id => corrAmp ismFit em (some fun x => .ok (dust x)) cat id) n = .ok out ∧ n ≤ j) ∨
      Res.tab (fun i => Res.at_ ids i >>= fun id => corrAmp ismFit em (some fun x => .ok (dust x)) cat id) n = .throw .STD_OUT_OF_RANGE := by
    intro n
    induction n with
    | zero => intro _; left; exact ⟨[], rfl, by omega⟩
    | succ n ih =>
      intro hn
      rcases ih (by omega) with ⟨out, q1, q2⟩ | q
      · unfold Res.tab
        rw [q1, Res.bind_ok, Res.at_of_lt (show n < ids.length by omega), Res.bind_ok]
        rcases hstep ids[n] with ⟨v, hv⟩ | hv
        · rw [hv, Res.bind_ok]
          left
          refine ⟨_, rfl, ?_⟩
          by_contra hc
          have hnj : n = j := by omega
          subst hnj
          rw [hje] at hv
          unfold corrAmp at hv
          obtain ⟨l, g1, _⟩ := Res.bind_eq_ok.1 hv
          obtain ⟨g2, g3⟩ := (lineAt_ok hu id l).1 g1
          exact h2 l g2 g3
        · rw [hv, Res.bind_throw]
          right; rfl
      · right
        unfold Res.tab
        rw [q, Res.bind_throw]
  rcases key ids.length (le_refl _) with ⟨_, _, q⟩ | q
  · omega
  · exact q

example : corrAmps (K := ℚ) true true (some fun x => .ok (1 / x)) [⟨3, 10, 5⟩, ⟨7, 20, 4⟩] [7, 3] = .ok [1 / 5, 1 / 2] ∧
    corrAmps (K := ℚ) true false (some fun x => .ok (1 / x)) [⟨3, 10, 5⟩, ⟨7, 20, 4⟩] [7, 3] = .ok [4, 5] ∧
    corrAmps (K := ℚ) true true (some fun x => .ok (1 / x)) [⟨3, 10, 5⟩] [3, 7] = .throw .STD_OUT_OF_RANGE := by decide +kernel

/-! ## C96: correction of fitted amplitudes -/

/-- The chi2 between amplitudes `A·t` and fitted amplitudes (specification). -/
def chi2 (A : K) : List (K × K × K) → K
  | [] => 0
  | p :: l => ((p.1 - A * p.2.2) / p.2.1) ^ 2 + chi2 A l

/-- Sum of a weighted product. -/
def cross : List (K × K × K) → K
  | [] => 0
  | p :: l => p.1 * p.2.2 / (p.2.1 * p.2.1) + cross l

def norm2 : List (K × K × K) → K
  | [] => 0
  | p :: l => p.2.2 * p.2.2 / (p.2.1 * p.2.1) + norm2 l

theorem fitSums_eq : ∀ l : List (K × K × K), (∀ p ∈ l, p.2.1 ≠ 0) →
    fitSums (l.map (·.1)) (l.map (·.2.1)) (l.map (·.2.2)) = .ok (cross l, norm2 l)
  | [], _ => rfl
  | p :: l, h => by
    have ih := fitSums_eq l (fun q hq => h q (by simp [hq]))
    simp only [List.map_cons, fitSums]
    rw [if_neg (h p (by simp)), ih, Res.bind_ok]
    rw [mul_one_div, mul_one_div, add_comm, add_comm (norm2 l)]
    rfl

theorem fitChi_eq (A : K) : ∀ l : List (K × K × K), (∀ p ∈ l, p.2.1 ≠ 0) →
    fitChi A (l.map (·.1)) (l.map (·.2.1)) (l.map (·.2.2)) = chi2 A l
  | [], _ => rfl
  | p :: l, h => by
    have ih := fitChi_eq A l (fun q hq => h q (by simp [hq]))
    have h0 := h p (by simp)
    simp only [List.map_cons, fitChi, ih, chi2]
    congr 1
    field_simp

theorem chi2_expand (A B : K) : ∀ l : List (K × K × K), (∀ p ∈ l, p.2.1 ≠ 0) →
    chi2 B l = chi2 A l + (B - A) * (B - A) * norm2 l - 2 * (B - A) * (cross l - A * norm2 l)
  | [], _ => by simp [chi2, norm2, cross]
  | p :: l, h => by
    have ih := chi2_expand A B l (fun q hq => h q (by simp [hq]))
    have h0 := h p (by simp)
    simp only [chi2, norm2, cross, ih]
    field_simp
    ring

theorem norm2_nonneg : ∀ l : List (K × K × K), 0 ≤ norm2 l
  | [] => le_refl _
  | p :: l => add_nonneg (div_nonneg (mul_self_nonneg _) (mul_self_nonneg _)) (norm2_nonneg l)

/-- **C96, least squares.** With non-zero errors, `computeFitValue` returns -1 if no line counts in both the model and the catalog, and otherwise the
chi2 of the amplitude that minimises it over all amplitudes, with the amplitudes of the catalog scaled by it. `l` lists, line by line, fitted
amplitude, error and nominal amplitude. -/
theorem C96_least_squares (l : List (K × K × K)) (h : ∀ p ∈ l, p.2.1 ≠ 0) :
    (fitValue (l.map (·.1)) (l.map (·.2.1)) (l.map (·.2.2)) = .ok (-1, none) ∧ (cross l = 0 ∨ norm2 l = 0)) ∨
    ∃ A, fitValue (l.map (·.1)) (l.map (·.2.1)) (l.map (·.2.2)) = .ok (chi2 A l, some (l.map fun p => p.2.2 * A)) ∧ ∀ B, chi2 A l ≤ chi2 B l := by
  unfold fitValue
  rw [fitSums_eq l h, Res.bind_ok]
  simp only
  by_cases hz : cross l = 0 ∨ norm2 l = 0
  · rw [if_pos hz]
    exact Or.inl ⟨rfl, hz⟩
  · rw [if_neg hz]
    right
    push Not at hz
    refine ⟨cross l / norm2 l, ?_, ?_⟩
    · rw [fitChi_eq _ l h, List.map_map]; rfl
    · intro B
      rw [chi2_expand (cross l / norm2 l) B l h]
      have : cross l - cross l / norm2 l * norm2 l = 0 := by rw [div_mul_cancel₀ _ hz.2, sub_self]
      rw [this, mul_zero, sub_zero]
      have := mul_nonneg (mul_self_nonneg (B - cross l / norm2 l)) (norm2_nonneg l)
      linarith

/-- **C96: the property fails.** Whenever a best catalog is found and one line has a non-negative amplitude and a positive error, `GetBestFit` writes
in the vector it has just emptied. -/
theorem C96_out_of_bounds_counterexample (amps errs : List K) (tpls : List (List K)) (b : Nat × K × List K)
    (hb : bestFrom amps errs 0 tpls none = .ok (some b)) (i : Nat) (a e : K) (ha : amps[i]? = some a) (he : errs[i]? = some e)
    (ha0 : 0 ≤ a) (he0 : 0 < e) : getBestFit amps errs tpls = .ub := by
  unfold getBestFit
  rw [if_neg (by rintro rfl; simp at ha), hb, Res.bind_ok]
  simp only
  rw [if_pos]
  rw [List.any_eq_true]
  refine ⟨true, ?_, rfl⟩
  refine List.mem_of_getElem? (i := i) ?_
  rw [List.getElem?_zipWith, ha, he]
  simp [maskAt, ha0, he0]

example : getBestFit (K := ℚ) [2, 3] [1, 1] [[1, 1], [2, 1]] = .ub ∧ bestFrom (K := ℚ) [2, 3] [1, 1] 0 [[1, 1], [2, 1]] none = .ok (some (0, 1 / 2, [5 / 2, 5 / 2])) := by
  decide +kernel

/-- **C96: an exact catalog is refused.** A catalog in the ratio of the fitted amplitudes (chi2 = 0) is not a best fit. -/
theorem C96_exact_counterexample : bestFrom (K := ℚ) [2, 4] [1, 1] 0 [[1, 2]] none = .ok none ∧ getBestFit (K := ℚ) [2, 4] [1, 1] [[1, 2]] = .ok none := by
  decide +kernel

/-- The best catalog so far: the first of smallest positive chi2. -/
theorem C96_best_partial (amps errs : List K) : ∀ (tpls : List (List K)) (out : Option (Nat × K × List K)),
    bestFrom amps errs 0 tpls none = .ok out →
    (∀ (i : Nat) t v l, tpls[i]? = some t → fitValue amps errs t = .ok (v, some l) → 0 < v → ∃ b, out = some b ∧ b.2.1 ≤ v) ∧
    (∀ b, out = some b → ∃ t, tpls[b.1]? = some t ∧ fitValue amps errs t = .ok (b.2.1, some b.2.2) ∧ 0 < b.2.1) := by
  have gen : ∀ (tpls : List (List K)) (n : Nat) (b0 out : Option (Nat × K × List K)), bestFrom amps errs n tpls b0 = .ok out →
      ((∀ (i : Nat) t v l, tpls[i]? = some t → fitValue amps errs t = .ok (v, some l) → 0 < v → ∃ b, out = some b ∧ b.2.1 ≤ v) ∧
      (∀ b', b0 = some b' → ∃ b, out = some b ∧ b.2.1 ≤ b'.2.1) ∧
      (∀ b, out = some b → b0 = some b ∨ ∃ (i : Nat) (t : List K), b.1 = n + i ∧ tpls[i]? = some t ∧ fitValue amps errs t = .ok (b.2.1, some b.2.2) ∧ 0 < b.2.1)) := by
    intro tpls
    induction tpls with
    | nil =>
      intro n b0 out h
      unfold bestFrom at h
      cases h
      refine ⟨by simp, fun b' hb' => ⟨b', hb', le_refl _⟩, fun b hb => Or.inl hb⟩
    | cons t ts ih =>
      intro n b0 out h
      unfold bestFrom at h
      obtain ⟨f, h1, h2⟩ := Res.bind_eq_ok.1 h
      obtain ⟨i1, i2, i3⟩ := ih _ _ _ h2
      have hmono : ∀ b', b0 = some b' → ∃ b, bestFrom.bestOf n f b0 = some b ∧ b.2.1 ≤ b'.2.1 := by
        rintro b' rfl
        unfold bestFrom.bestOf
        cases f.2 with
        | none => exact ⟨b', rfl, le_refl _⟩
        | some l =>
          simp only
          split
          · split
            · rename_i hh; exact ⟨_, rfl, le_of_lt hh⟩
            · exact ⟨b', rfl, le_refl _⟩
          · exact ⟨b', rfl, le_refl _⟩
      refine ⟨?_, ?_, ?_⟩
      · intro i t' v l ht hf hv
        cases i with
        | zero =>
          simp only [List.getElem?_cons_zero, Option.some.injEq] at ht
          subst ht
          rw [h1] at hf
          simp only [Res.ok.injEq] at hf
          subst hf
          have : ∃ b, bestFrom.bestOf n (v, some l) b0 = some b ∧ b.2.1 ≤ v := by
            unfold bestFrom.bestOf
            simp only
            rw [if_pos hv]
            cases b0 with
            | none => exact ⟨_, rfl, le_refl _⟩
            | some b' =>
              simp only
              split
              · exact ⟨_, rfl, le_refl _⟩
              · rename_i hh; exact ⟨_, rfl, not_lt.1 hh⟩
          obtain ⟨b, hb1, hb2⟩ := this
          obtain ⟨b', q1, q2⟩ := i2 b hb1
          exact ⟨b', q1, le_trans q2 hb2⟩
        | succ i => exact i1 i t' v l (by simpa using ht) hf hv
      · intro b' hb'
        obtain ⟨b, q1, q2⟩ := hmono b' hb'
        obtain ⟨b2, q3, q4⟩ := i2 b q1
        exact ⟨b2, q3, le_trans q4 q2⟩
      · intro b hb
        rcases i3 b hb with h3 | ⟨i, t', q1, q2, q3, q4⟩
        · unfold bestFrom.bestOf at h3
          obtain ⟨v, o⟩ := f
          cases o with
          | none => exact Or.inl h3
          | some l =>
            simp only at h3
            split at h3
            · rename_i hv
              have fin : (some (n, v, l) : Option (Nat × K × List K)) = some b →
                  ∃ (i : Nat) (t' : List K), b.1 = n + i ∧ (t :: ts)[i]? = some t' ∧ fitValue amps errs t' = .ok (b.2.1, some b.2.2) ∧ 0 < b.2.1 := by
                intro hq
                cases hq
                exact ⟨0, t, rfl, rfl, h1, hv⟩
              cases b0 with
              | none => exact Or.inr (fin h3)
              | some b' =>
                simp only at h3
                split at h3
                · exact Or.inr (fin h3)
                · exact Or.inl h3
            · exact Or.inl h3
        · exact Or.inr ⟨i + 1, t', by omega, by simpa using q2, q3, q4⟩
  intro tpls out h
  obtain ⟨g1, g2, g3⟩ := gen tpls 0 none out h
  refine ⟨g1, ?_⟩
  intro b hb
  rcases g3 b hb with h4 | ⟨i, t, q1, q2, q3, q4⟩
  · cases h4
  · rw [Nat.zero_add] at q1
    exact ⟨t, by rw [q1]; exact q2, q3, q4⟩

end TplRatio
end Amazed
