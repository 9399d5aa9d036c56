import Verif.Props.TplCombEx

/-! # Template combination: C136 (units), C137 (masks) -/

set_option linter.unusedSectionVars false
set_option linter.unusedVariables false

namespace Amazed
namespace TplComb

open TplFit

variable {K : Type} [Field K] [LinearOrder K] [IsStrictOrderedRing K]

/-! ## Specification -/

/-- The amplitudes and their errors are multiplied by `s`. -/
def scaleLast (s : K) (l : Last K) : Last K := { l with amps := l.amps.map (· * s), errs := l.errs.map (Option.map (· * s)) }

/-- The amplitudes and their errors are multiplied by `s`, the rest is the same. -/
def scaleResult (s : K) (r : Result K) : Result K := { r with last := r.last.map (scaleLast s) }

/-- The same spectrum in other units. -/
def Env.scaled (v : Env K) (s : K) : Env K := { v with flux := v.flux.map (· * s), err := v.err.map (· * s) }

/-! ## The components are used through their templates only -/

/-- Another spectrum in a component. -/
def re (F E : List K) (M : List Nat) (o : Slot K) : Slot K := { o with flux := F, err := E, mask := M }

theorem bind_assoc' {α β γ : Type} (x : Res α) (f : α → Res β) (g : β → Res γ) : ((x >>= f) >>= g) = (x >>= fun a => f a >>= g) := by
  cases x <;> rfl

theorem mapSlots_re {β : Type} {F E : List K} {M : List Nat} {f : Slot K → Res (β × Slot K)}
    (hf : ∀ o, f (re F E M o) = f o >>= fun r => .ok (r.1, re F E M r.2)) : ∀ ss : List (Slot K),
    mapSlots f (ss.map (re F E M)) = mapSlots f ss >>= fun r => .ok (r.1, r.2.map (re F E M)) := by
  intro ss
  induction ss with
  | nil => rfl
  | cons o ss ih =>
    rw [List.map_cons]
    unfold mapSlots
    rw [hf, ih]
    cases f o with
    | ub => rfl
    | throw _ => rfl
    | ok r =>
      cases mapSlots f ss with
      | ub => rfl
      | throw _ => rfl
      | ok rs => rfl

theorem dustSlot_re {F E : List K} {M : List Nat} {op : Opt K} {k : Int} (o : Slot K) :
    dustSlot op k (re F E M o) = dustSlot op k o >>= fun r => .ok (r.1, re F E M r.2) := by
  unfold dustSlot re
  simp only
  cases (Tpl.applyDust op.c o.t k).2 <;> rfl

theorem igmSlot_re {F E : List K} {M : List Nat} {op : Opt K} {k : Int} (o : Slot K) :
    igmSlot op k (re F E M o) = igmSlot op k o >>= fun r => .ok (r.1, re F E M r.2) := by
  unfold igmSlot re
  simp only
  cases (Tpl.applyIgm op.c o.t k).2 <;> rfl

theorem initSlot_re {F E : List K} {M : List Nat} {op : Opt K} {hd hi : Bool} (o : Slot K) :
    initSlot op hd hi (re F E M o) = initSlot op hd hi o >>= fun r => .ok (r.1, re F E M r.2) := by
  unfold initSlot re
  simp only
  cases (Tpl.init op.c { o.t with hasDust := o.t.hasDust || hd, hasIgm := o.t.hasIgm || hi } o.kStart o.kEnd op.z).2 <;> rfl

theorem mapL_map {α β γ : Type} (f : β → Res γ) (g : α → β) : ∀ l : List α, SvdFit.mapL f (l.map g) = SvdFit.mapL (fun a => f (g a)) l := by
  intro l
  induction l with
  | nil => rfl
  | cons a l ih => rw [List.map_cons]; unfold SvdFit.mapL; rw [ih]

theorem lastOf_scale {sq : K → K} {norm s : K} {n : Nat} {f : LsFit K} : lastOf sq (norm * s) n f = scaleLast s (lastOf sq norm n f) := by
  unfold lastOf scaleLast
  simp only [List.map_map]
  congr 1
  · apply List.map_congr_left
    intro i _
    simp only [Function.comp, mul_assoc]
  · apply List.map_congr_left
    intro i _
    simp only [Function.comp, Option.map_map]
    congr 1
    funext x
    simp only [Function.comp, mul_assoc]

theorem dustAll_re {F E : List K} {M : List Nat} {op : Opt K} {k : Int} (ss : List (Slot K)) :
    dustAll op k (ss.map (re F E M)) = dustAll op k ss >>= fun r => .ok (r.map (re F E M)) := by
  unfold dustAll
  cases op.dust with
  | false => rfl
  | true =>
    rw [if_pos rfl, if_pos rfl, mapSlots_re dustSlot_re]
    cases mapSlots (dustSlot op k) ss <;> rfl

theorem igmAll_re {F E : List K} {M : List Nat} {op : Opt K} {lo : K} {k : Int} (ss : List (Slot K)) :
    igmAll op lo k (ss.map (re F E M)) = igmAll op lo k ss >>= fun r => .ok (r.1, r.2.map (re F E M)) := by
  unfold igmAll
  cases op.igm with
  | false => rfl
  | true =>
    rw [if_pos rfl, if_pos rfl]
    by_cases h : 1216 < lo / (1 + op.z)
    · rw [if_pos h, if_pos h]; rfl
    · rw [if_neg h, if_neg h, mapSlots_re igmSlot_re]
      cases mapSlots (igmSlot op k) ss <;> rfl

theorem equations_re {F E : List K} {M : List Nat} {a : Nat} {data : List (K × K)} (ss : List (Slot K)) :
    equations (ss.map (re F E M)) a data = equations ss a data := by
  unfold equations
  congr 1
  funext i
  unfold row
  rw [mapL_map]
  rfl

/-- The state of the loops in other units. -/
def reSt (F E : List K) (M : List Nat) (s : K) (st : List (Slot K) × Result K) : List (Slot K) × Result K := (st.1.map (re F E M), scaleResult s st.2)

theorem dustStep_re {F E : List K} {M : List Nat} {s : K} {sq : K → K} {solve : Solver K} {norm : K} {a : Nat} {data : List (K × K)} {op : Opt K} {A : Bool} {kM : Nat}
    {mi : Int} {kE : Nat} (st : List (Slot K) × Result K) : dustStep sq solve (norm * s) a data op A kM mi kE (reSt F E M s st) =
      dustStep sq solve norm a data op A kM mi kE st >>= fun p => .ok (reSt F E M s p) := by
  unfold dustStep reSt scaleResult
  simp only
  cases Res.at_ op.ebmv kE with
  | ub => rfl
  | throw _ => rfl
  | ok k =>
    simp only [Res.bind_ok]
    rw [dustAll_re]
    cases dustAll op k st.1 with
    | ub => rfl
    | throw _ => rfl
    | ok slots =>
      simp only [Res.bind_ok]
      rw [equations_re, List.length_map]
      cases equations slots a data with
      | ub => rfl
      | throw _ => rfl
      | ok eqs =>
        simp only [Res.bind_ok]
        cases solve slots.length eqs with
        | ub => rfl
        | throw _ => rfl
        | ok f =>
          simp only [Res.bind_ok]
          by_cases hl : slots.length < 2
          · rw [if_pos hl, if_pos hl]; rfl
          · rw [if_neg hl, if_neg hl, lastOf_scale]
            cases setTbl st.2.tbl kE kM ⟨f.chi2, some (if op.dust then op.ebmvValue k else -1), if A then mi else -1⟩ <;> rfl

theorem foldN_re {σ : Type} {f g : Nat → σ → Res σ} {φ : σ → σ} (h : ∀ k s, g k (φ s) = f k s >>= fun s' => .ok (φ s')) : ∀ (n k : Nat) (s : σ),
    Res.foldN g k n (φ s) = Res.foldN f k n s >>= fun s' => .ok (φ s') := by
  intro n
  induction n with
  | zero => intro k s; rfl
  | succ n ih =>
    intro k s
    unfold Res.foldN
    rw [h]
    cases f k s with
    | ub => rfl
    | throw _ => rfl
    | ok s' => exact ih (k + 1) s'

theorem igmLoop_re {F E : List K} {M : List Nat} {s : K} {sq : K → K} {solve : Solver K} {norm : K} {a : Nat} {data : List (K × K)} {op : Opt K} {lo : K} : ∀ (n kM : Nat)
    (skip : Bool) (st : List (Slot K) × Result K), igmLoop sq solve (norm * s) a data op lo kM n skip (reSt F E M s st) =
      igmLoop sq solve norm a data op lo kM n skip st >>= fun r => .ok (scaleResult s r) := by
  intro n
  induction n with
  | zero => intro kM skip st; rfl
  | succ n ih =>
    intro kM skip st
    unfold igmLoop
    by_cases hs : skip = true
    · rw [if_pos hs, if_pos hs]; rfl
    · rw [if_neg hs, if_neg hs]
      cases Res.at_ op.meiksin kM with
      | ub => rfl
      | throw _ => rfl
      | ok mi =>
        simp only [Res.bind_ok]
        have e1 : (reSt F E M s st).1 = st.1.map (re F E M) := rfl
        rw [e1, igmAll_re]
        cases igmAll op lo mi st.1 with
        | ub => rfl
        | throw _ => rfl
        | ok q =>
          simp only [Res.bind_ok]
          have := foldN_re (f := dustStep sq solve norm a data op q.1 kM mi) (g := dustStep sq solve (norm * s) a data op q.1 kM mi) (φ := reSt F E M s)
            (fun k st => dustStep_re st) op.ebmv.length 0 (q.2, st.2)
          have e2 : (q.2.map (re F E M), (reSt F E M s st).2) = reSt F E M s (q.2, st.2) := rfl
          rw [e2, this]
          cases Res.foldN (dustStep sq solve norm a data op q.1 kM mi) 0 op.ebmv.length (q.2, st.2) with
          | ub => rfl
          | throw _ => rfl
          | ok st' => simp only [Res.bind_ok]; exact ih _ _ _

/-! ## The theorem -/

theorem normFactor_total {tiny : K} {flux : List K} {a : Nat} : ∀ n : Nat, a + n ≤ flux.length → ∃ m, normFactor tiny flux a n = .ok m := by
  intro n
  induction n with
  | zero => intro _; exact ⟨_, rfl⟩
  | succ n ih =>
    intro h
    obtain ⟨m, hm⟩ := ih (by omega)
    unfold normFactor
    rw [hm, Res.bind_ok, Res.at_of_lt (by omega), Res.bind_ok]
    exact ⟨_, rfl⟩

theorem getD_scale {s : K} (l : List K) (j : Nat) : (l.map (· * s)).getD j 0 = l.getD j 0 * s := by
  rw [List.getD_eq_getElem?_getD, List.getD_eq_getElem?_getD, List.getElem?_map]
  cases l[j]? <;> simp

theorem normFactor_scale {tiny s : K} (ht : 0 < tiny) (hs : 0 < s) {flux : List K} {a n : Nat} {m m' : K} (h : normFactor tiny flux a n = .ok m)
    (h' : normFactor tiny (flux.map (· * s)) a n = .ok m') (hw : ∃ i : Nat, i < n ∧ tiny ≤ |flux.getD (i + a) 0| ∧ tiny ≤ |flux.getD (i + a) 0| * s) : m' = m * s := by
  obtain ⟨-, a1, a2, a3⟩ := normFactor_pos ht n h
  obtain ⟨-, b1, b2, b3⟩ := normFactor_pos ht n h'
  obtain ⟨i, hi, w1, w2⟩ := hw
  have b2' : ∀ i : Nat, i < n → |flux.getD (i + a) 0| * s ≤ m' := by
    intro i hi
    have := b2 i hi
    rw [getD_scale, abs_mul, abs_of_pos hs] at this
    exact this
  apply le_antisymm
  · rcases b3 with h | ⟨j, hj, h⟩
    · have := a2 i hi
      nlinarith
    · rw [h, getD_scale, abs_mul, abs_of_pos hs]
      exact mul_le_mul_of_nonneg_right (a2 j hj) hs.le
  · rcases a3 with h | ⟨j, hj, h⟩
    · have h1 := a2 i hi
      have h2 := b2' i hi
      nlinarith
    · rw [h]; exact b2' j hj

theorem datum_scale {s norm : K} (hs : 0 < s) {flux err : List K} {a i : Nat} :
    datum (flux.map (· * s)) (err.map (· * s)) (norm * s) a i = datum flux err norm a i := by
  unfold datum Res.at_
  rw [List.getElem?_map, List.getElem?_map]
  cases flux[i + a]? with
  | none => rfl
  | some y =>
    cases err[i + a]? with
    | none => rfl
    | some e =>
      simp only [Option.map_some, Res.bind_ok]
      by_cases h : e = 0
      · rw [if_pos h, if_pos (by rw [h, zero_mul])]
      · rw [if_neg h, if_neg (mul_ne_zero h hs.ne'), mul_div_mul_right _ _ hs.ne', mul_div_mul_right _ _ hs.ne']

theorem initAll_re {F E : List K} {M : List Nat} {op : Opt K} (ss : List (Slot K)) :
    initAll op (ss.map (re F E M)) = initAll op ss >>= fun r => .ok (r.map (re F E M)) := by
  unfold initAll
  by_cases h : (op.igm || op.dust) = true
  · rw [if_pos h, if_pos h, mapSlots_re initSlot_re]
    cases mapSlots (initSlot op false false) ss <;> rfl
  · rw [if_neg h, if_neg h]; rfl

theorem readIgmEnd_re {F E : List K} {M : List Nat} {op : Opt K} (ss : List (Slot K)) : readIgmEnd op (ss.map (re F E M)) = readIgmEnd op ss := by
  unfold readIgmEnd Res.at_
  rw [List.getElem?_map]
  cases ss[0]? <;> rfl

/-- What both changes have in common: another spectrum with the same normalised data. -/
theorem fitSlots_re {v v' : Env K} {s : K} {z lo : K} {ij : Nat × Nat} {F E : List K} {M : List Nat} {ss : List (Slot K)}
    (h1 : v'.op z = v.op z) (h2 : v'.sq = v.sq) (h3 : v'.solve = v.solve) (h4 : v'.ebmv = v.ebmv) (h5 : v'.meiksin = v.meiksin) (h6 : v'.big = v.big)
    (hn : normFactor v'.tiny v'.flux ij.1 (ij.2 + 1 - ij.1) = normFactor v.tiny v.flux ij.1 (ij.2 + 1 - ij.1) >>= fun m => .ok (m * s))
    (hd : ∀ m i, datum v'.flux v'.err (m * s) ij.1 i = datum v.flux v.err m ij.1 i) :
    fitSlots v' z lo ij (ss.map (re F E M)) = fitSlots v z lo ij ss >>= fun r => .ok (scaleResult s r) := by
  unfold fitSlots
  rw [h1, h2, h3, h4, h5, h6, initAll_re]
  cases initAll (v.op z) ss with
  | ub => rfl
  | throw _ => rfl
  | ok os =>
    simp only [Res.bind_ok]
    rw [readIgmEnd_re]
    cases readIgmEnd (v.op z) os with
    | ub => rfl
    | throw _ => rfl
    | ok u =>
      simp only [Res.bind_ok]
      by_cases hE : v.ebmv = []
      · rw [if_pos hE, if_pos hE]; rfl
      rw [if_neg hE, if_neg hE, hn]
      cases normFactor v.tiny v.flux ij.1 (ij.2 + 1 - ij.1) with
      | ub => rfl
      | throw _ => rfl
      | ok m =>
        simp only [Res.bind_ok]
        rw [show datum v'.flux v'.err (m * s) ij.1 = datum v.flux v.err m ij.1 from funext (hd m)]
        cases Res.tab (datum v.flux v.err m ij.1) (ij.2 + 1 - ij.1) with
        | ub => rfl
        | throw _ => rfl
        | ok data =>
          simp only [Res.bind_ok]
          have := igmLoop_re (F := F) (E := E) (M := M) (s := s) (sq := v.sq) (solve := v.solve) (norm := m) (a := ij.1) (data := data) (op := v.op z) (lo := lo) v.meiksin.length
            0 false (os, ⟨none, none, List.replicate v.ebmv.length (List.replicate v.meiksin.length ⟨v.big, none, -1⟩)⟩)
          rw [show (os.map (re F E M), (⟨none, none, List.replicate v.ebmv.length (List.replicate v.meiksin.length ⟨v.big, none, -1⟩)⟩ : Result K)) =
            reSt F E M s (os, ⟨none, none, List.replicate v.ebmv.length (List.replicate v.meiksin.length ⟨v.big, none, -1⟩)⟩) from rfl, this]
          cases igmLoop v.sq v.solve m ij.1 data (v.op z) lo 0 v.meiksin.length false
            (os, ⟨none, none, List.replicate v.ebmv.length (List.replicate v.meiksin.length ⟨v.big, none, -1⟩)⟩) with
          | ub => rfl
          | throw _ => rfl
          | ok r =>
            simp only [Res.bind_ok]
            cases hb : r.best with
            | none => simp only [scaleResult, hb, Res.bind_throw]
            | some q => simp only [scaleResult, hb, Res.bind_ok]

/-- **C136** The fit does not depend on the units of the spectrum: with the flux and the errors multiplied by a positive number, the fit has the same outcome, with
the same chi2, E(B-V), IGM index, signal to noise ratio, tables, significances and covariances, and the amplitudes and their errors multiplied by the same
number. The spectrum must have a sample in the range of the fit that is not below `DBL_MIN` in both units. -/
theorem C136_scale {v : Env K} {s : K} (hs : 0 < s) (ht : 0 < v.tiny) (hf : v.flux.length = v.axis.length) (hax : v.axis.Pairwise (· < ·)) {lr : Range K} {thr z : K} {mask : List Nat}
    (hN : ∀ rb ij, rebinTemplates v.reb v.axis v.tpls z lr thr = .ok rb → Range.closedIdx rb.range (restAxis v.axis z) = .ok ij →
      ∃ (j : Nat) (y : K), ij.1 ≤ j ∧ j ≤ ij.2 ∧ v.flux[j]? = some y ∧ v.tiny ≤ |y| ∧ v.tiny ≤ |y| * s) :
    basicFit (v.scaled s) lr thr mask z = basicFit v lr thr mask z >>= fun p => .ok (p.1, scaleResult s p.2) := by
  unfold basicFit
  have e1 : (v.scaled s).flux.length = v.flux.length := by simp [Env.scaled]
  rw [e1]
  by_cases hm : mask.length ≠ v.flux.length
  · rw [if_pos hm, if_pos hm]; rfl
  rw [if_neg hm, if_neg hm]
  have e2 : rebinTemplates (v.scaled s).reb (v.scaled s).axis (v.scaled s).tpls z lr thr = rebinTemplates v.reb v.axis v.tpls z lr thr := rfl
  rw [e2]
  cases hrb : rebinTemplates v.reb v.axis v.tpls z lr thr with
  | ub => rfl
  | throw _ => rfl
  | ok rb =>
    simp only [Res.bind_ok]
    by_cases hne : rb.fluxes = []
    · rw [if_pos hne, if_pos hne]; rfl
    rw [if_neg hne, if_neg hne]
    have e3 : (v.scaled s).axis = v.axis := rfl
    rw [e3]
    cases hij : Range.closedIdx rb.range (restAxis v.axis z) with
    | ub => rfl
    | throw _ => rfl
    | ok ij =>
      simp only [Res.bind_ok]
      have hp := (C133_range hrb).1
      obtain ⟨c1, -⟩ := C03_closed rb.range _ (restAxis_sorted hp hax)
      obtain ⟨c2, c3, -⟩ := c1 ij.1 ij.2 hij
      have hlen : (restAxis v.axis z).length = v.axis.length := by simp [restAxis]
      have e4 : (v.scaled s).slots z mask ij rb.fluxes = (v.slots z mask ij rb.fluxes).map (re (v.flux.map (· * s)) (v.err.map (· * s)) mask) := by
        unfold Env.slots
        rw [List.map_map]
        rfl
      rw [e4, fitSlots_re (v := v) (v' := v.scaled s) (s := s) rfl rfl rfl rfl rfl rfl ?_ (fun m i => datum_scale hs)]
      · cases fitSlots v z rb.range.b ij (v.slots z mask ij rb.fluxes) <;> rfl
      · obtain ⟨m, hm⟩ := normFactor_total (tiny := v.tiny) (flux := v.flux) (a := ij.1) (ij.2 + 1 - ij.1) (by omega)
        obtain ⟨m', hm'⟩ := normFactor_total (tiny := v.tiny) (flux := v.flux.map (· * s)) (a := ij.1) (ij.2 + 1 - ij.1) (by rw [List.length_map]; omega)
        show normFactor v.tiny (v.flux.map (· * s)) ij.1 (ij.2 + 1 - ij.1) = _
        rw [hm, hm', Res.bind_ok]
        obtain ⟨j, y, j1, j2, j3, j4, j5⟩ := hN rb ij hrb hij
        have hy : v.flux.getD (j - ij.1 + ij.1) 0 = y := by rw [Nat.sub_add_cancel j1, List.getD_eq_getElem?_getD, j3]; rfl
        rw [normFactor_scale ht hs hm hm' ⟨j - ij.1, by omega, by rw [hy]; exact ⟨j4, j5⟩⟩]

/-- **C137** The values of the additional masks have no effect: two masks of one size give the same fit. -/
theorem C137_mask_unused (v : Env K) (lr : Range K) (thr z : K) (mask mask' : List Nat) (h : mask.length = mask'.length) :
    basicFit v lr thr mask z = basicFit v lr thr mask' z := by
  unfold basicFit
  rw [h]
  by_cases hm : mask'.length ≠ v.flux.length
  · rw [if_pos hm, if_pos hm]
  rw [if_neg hm, if_neg hm]
  congr 1
  funext rb
  by_cases hne : rb.fluxes = []
  · rw [if_pos hne, if_pos hne]
  rw [if_neg hne, if_neg hne]
  congr 1
  funext ij
  have e4 : v.slots z mask ij rb.fluxes = (v.slots z mask' ij rb.fluxes).map (re v.flux v.err mask) := by
    unfold Env.slots
    rw [List.map_map]
    rfl
  rw [e4, fitSlots_re (s := 1) rfl rfl rfl rfl rfl rfl ?_ ?_]
  · have hid : ∀ r : Result K, scaleResult 1 r = r := by
      intro r
      have : scaleLast (1 : K) = id := by
        funext l
        simp [scaleLast]
      cases r
      simp [scaleResult, this]
    simp only [hid]
    cases fitSlots v z rb.range.b ij (v.slots z mask' ij rb.fluxes) <;> rfl
  · simp only [mul_one]
    cases normFactor v.tiny v.flux ij.1 (ij.2 + 1 - ij.1) <;> rfl
  · intro m i
    rw [mul_one]

/-! ## The covariance matrix -/

theorem dustStep_last {sq : K → K} {solve : Solver K} {norm : K} {a : Nat} {data : List (K × K)} {op : Opt K} {A : Bool} {kM : Nat} {mi : Int} {kE : Nat}
    {st st' : List (Slot K) × Result K} (h : dustStep sq solve norm a data op A kM mi kE st = .ok st') : ∃ n f, st'.2.last = some (lastOf sq norm n f) := by
  unfold dustStep at h
  obtain ⟨k, -, h⟩ := Res.bind_eq_ok.1 h
  obtain ⟨slots, h1, h⟩ := Res.bind_eq_ok.1 h
  obtain ⟨eqs, -, h⟩ := Res.bind_eq_ok.1 h
  obtain ⟨f, -, h⟩ := Res.bind_eq_ok.1 h
  split at h
  · cases h
  · simp only at h
    obtain ⟨tbl, -, h⟩ := Res.bind_eq_ok.1 h
    cases h
    exact ⟨_, _, rfl⟩

theorem igmLoop_last {sq : K → K} {solve : Solver K} {norm : K} {a : Nat} {data : List (K × K)} {op : Opt K} {lo : K} : ∀ (n kM : Nat) (skip : Bool)
    (st : List (Slot K) × Result K) (r : Result K), igmLoop sq solve norm a data op lo kM n skip st = .ok r →
      (∀ l, st.2.last = some l → ∃ n f, l = lastOf sq norm n f) → ∀ l, r.last = some l → ∃ n f, l = lastOf sq norm n f := by
  intro n
  induction n with
  | zero => intro kM skip st r h hst; cases h; exact hst
  | succ n ih =>
    intro kM skip st r h hst
    unfold igmLoop at h
    by_cases hs : skip = true
    · rw [if_pos hs] at h; cases h; exact hst
    · rw [if_neg hs] at h
      obtain ⟨mi, -, h⟩ := Res.bind_eq_ok.1 h
      obtain ⟨s, -, h⟩ := Res.bind_eq_ok.1 h
      obtain ⟨st', hf, h⟩ := Res.bind_eq_ok.1 h
      refine ih _ _ _ _ h ?_
      exact Res.foldN_inv_ok (P := fun _ (st : List (Slot K) × Result K) => ∀ l, st.2.last = some l → ∃ n f, l = lastOf sq norm n f) op.ebmv.length 0 (s.2, st.2) st' hst
        (fun k a b _ _ _ hab l hl => by
          obtain ⟨n, f, e⟩ := dustStep_last hab
          rw [e] at hl
          cases hl
          exact ⟨n, f, rfl⟩) hf

/-- **C136** The reported covariances are in other units than the amplitudes: the square of the error of an amplitude is its reported covariance times the square of
the normalisation, which is the largest absolute flux of the fit (at least `DBL_MIN`). -/
theorem C136_covariance {v : Env K} (hsq : IsSqrt v.sq) (ht : 0 < v.tiny) {lr : Range K} {thr z : K} {mask : List Nat} {ov : Option K} {r : Result K} {l : Last K}
    (h : basicFit v lr thr mask z = .ok (ov, r)) (hl : r.last = some l) :
    ∃ (rb : Rebinned K) (ij : Nat × Nat) (norm : K), rebinTemplates v.reb v.axis v.tpls z lr thr = .ok rb ∧ Range.closedIdx rb.range (restAxis v.axis z) = .ok ij ∧
      (∀ j : Nat, ij.1 ≤ j → j ≤ ij.2 → |v.flux.getD j 0| ≤ norm) ∧ (norm = v.tiny ∨ ∃ j : Nat, ij.1 ≤ j ∧ j ≤ ij.2 ∧ norm = |v.flux.getD j 0|) ∧
      ∀ (i : Nat) (e c : K) (row : List K), l.errs[i]? = some (some e) → l.cov[i]? = some row → row[i]? = some c → e ^ 2 = norm ^ 2 * c := by
  unfold basicFit at h
  split at h
  · cases h
  obtain ⟨rb, h1, h⟩ := Res.bind_eq_ok.1 h
  split at h
  · cases h
  obtain ⟨ij, h2, h⟩ := Res.bind_eq_ok.1 h
  obtain ⟨r', h3, h⟩ := Res.bind_eq_ok.1 h
  cases h
  unfold fitSlots at h3
  obtain ⟨ss, h4, h3⟩ := Res.bind_eq_ok.1 h3
  obtain ⟨u, -, h3⟩ := Res.bind_eq_ok.1 h3
  by_cases hE : v.ebmv = []
  · rw [if_pos hE] at h3; cases h3
  rw [if_neg hE] at h3
  obtain ⟨norm, hn, h3⟩ := Res.bind_eq_ok.1 h3
  obtain ⟨data, -, h3⟩ := Res.bind_eq_ok.1 h3
  obtain ⟨r', h6, h7⟩ := Res.bind_eq_ok.1 h3
  have hr : r' = r := by
    split at h7
    · cases h7
    · cases h7; rfl
  subst hr
  obtain ⟨n, f, rfl⟩ := igmLoop_last _ _ _ _ _ h6 (fun l hl => by cases hl) l hl
  obtain ⟨-, n1, n2, n3⟩ := normFactor_pos ht _ hn
  refine ⟨rb, ij, norm, h1, h2, fun j j1 j2 => ?_, ?_, fun i e c row he hc hr => ?_⟩
  · have := n2 (j - ij.1) (by omega)
    rwa [Nat.sub_add_cancel j1] at this
  · rcases n3 with h | ⟨i, hi, h⟩
    · exact Or.inl h
    · exact Or.inr ⟨i + ij.1, by omega, by omega, h⟩
  · unfold lastOf at he hc
    simp only [List.getElem?_map, Option.map_eq_some_iff] at he hc
    obtain ⟨i', hi', x, hx, hxe⟩ := he
    obtain ⟨i'', hi'', rfl⟩ := hc
    have e1 : i < n ∧ i' = i := by
      obtain ⟨q1, q2⟩ := List.getElem?_eq_some_iff.1 hi'
      simp at q1 q2
      exact ⟨q1, q2.symm⟩
    have e2 : i'' = i := by
      obtain ⟨q1, q2⟩ := List.getElem?_eq_some_iff.1 hi''
      simp at q2
      exact q2.symm
    obtain ⟨hin, rfl⟩ := e1
    subst e2
    rw [List.getElem?_map, List.getElem?_range hin, Option.map_some, Option.some.injEq] at hr
    subst hr
    unfold osq at hx
    split at hx
    · cases hx
    · rename_i hneg
      cases hx
      have := (hsq _ (not_lt.1 hneg)).2
      rw [← hxe, mul_pow, sq (v.sq _), this]
      ring

-- The hypotheses of `C136_scale` hold for the environment of the examples, in units ten times smaller.
example : ∀ rb ij, rebinTemplates (exEnv [0]).reb (exEnv [0]).axis (exEnv [0]).tpls 0 ⟨1, 4⟩ (1 / 2) = .ok rb → Range.closedIdx rb.range (restAxis (exEnv [0]).axis 0) = .ok ij →
      ∃ (j : Nat) (y : ℚ), ij.1 ≤ j ∧ j ≤ ij.2 ∧ (exEnv [0]).flux[j]? = some y ∧ (exEnv [0]).tiny ≤ |y| ∧ (exEnv [0]).tiny ≤ |y| * 10 := by
  intro rb ij h1 h2
  have hp := (C133_range h1).1
  obtain ⟨c1, -⟩ := C03_closed rb.range _ (restAxis_sorted (axis := (exEnv [0]).axis) hp (exEnv_ok [0]).axis)
  obtain ⟨c2, c3, -⟩ := c1 ij.1 ij.2 h2
  have hl : (restAxis (exEnv [0]).axis 0).length = 4 := rfl
  have key : ∀ j : Nat, j < 4 → ∃ y : ℚ, (exEnv [0]).flux[j]? = some y ∧ (exEnv [0]).tiny ≤ |y| ∧ (exEnv [0]).tiny ≤ |y| * 10 := by
    intro j hj
    have : j = 0 ∨ j = 1 ∨ j = 2 ∨ j = 3 := by omega
    rcases this with rfl | rfl | rfl | rfl
    · exact ⟨5, rfl, by norm_num [exEnv], by norm_num [exEnv]⟩
    · exact ⟨8, rfl, by norm_num [exEnv], by norm_num [exEnv]⟩
    · exact ⟨7, rfl, by norm_num [exEnv], by norm_num [exEnv]⟩
    · exact ⟨10, rfl, by norm_num [exEnv], by norm_num [exEnv]⟩
  obtain ⟨y, k⟩ := key ij.1 (by omega)
  exact ⟨ij.1, y, le_rfl, c2, k⟩

example : view (basicFit ((exEnv [0]).scaled 10) ⟨1, 4⟩ (1 / 2) [1, 1, 1, 1] 0) = some (some (0, 0), some [20, 30]) := by decide +kernel

end TplComb
end Amazed
