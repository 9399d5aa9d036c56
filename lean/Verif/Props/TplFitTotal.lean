import Mathlib.Algebra.Order.Field.Rat
import Verif.Props.TplFitProps

/-! # C65: the fit of a template returns; cases in which it does not or is wrong -/

set_option linter.unusedSectionVars false
set_option linter.unusedVariables false

namespace Amazed
namespace TplFit

variable {K : Type} [Field K] [LinearOrder K] [IsStrictOrderedRing K]

theorem Res.tab_total {α : Type} {g : Nat → Res α} (n : Nat) (h : ∀ i, i < n → ∃ a, g i = .ok a) :
    ∃ l, Res.tab g n = .ok l := by
  induction n with
  | zero => exact ⟨[], rfl⟩
  | succ n ih =>
    obtain ⟨l, hl⟩ := ih (fun i hi => h i (by omega))
    obtain ⟨a, ha⟩ := h n (by omega)
    exact ⟨l ++ [a], by unfold Res.tab; rw [hl, Res.bind_ok, ha, Res.bind_ok]⟩

theorem applyLoop_total {axis noExt flux coeff other : List K} {f : K → Res K} {a b : Nat} (h1 : noExt.length = axis.length)
    (h2 : flux.length = axis.length) (h3 : coeff.length = axis.length) (h4 : other.length = axis.length)
    (hf : ∀ (j : Nat) w, a ≤ j → j ≤ b → axis[j]? = some w → ∃ v, f w = .ok v) :
    ∃ r, Tpl.applyLoop axis noExt flux coeff other f a b = .ok r := by
  unfold Tpl.applyLoop
  obtain ⟨d, hd⟩ := Res.tab_total (g := fun k => Res.at_ coeff k >>= fun old =>
    if a ≤ k ∧ k ≤ b then Res.at_ axis k >>= f else .ok old) coeff.length (by
      intro k hk
      rw [Res.at_of_lt hk, Res.bind_ok]
      split
      · rename_i hab
        have hka : k < axis.length := by omega
        rw [Res.at_of_lt hka, Res.bind_ok]
        exact hf k _ hab.1 hab.2 (List.getElem?_eq_getElem hka)
      · exact ⟨_, rfl⟩)
  rw [hd, Res.bind_ok]
  have hdl := Res.tab_length _ hd
  obtain ⟨x, hx⟩ := Res.tab_total (g := fun k => Res.at_ flux k >>= fun old =>
    if a ≤ k ∧ k ≤ b then
      Res.at_ noExt k >>= fun x => Res.at_ d k >>= fun p => Res.at_ other k >>= fun q => .ok (x * p * q)
    else .ok old) flux.length (by
      intro k hk
      rw [Res.at_of_lt hk, Res.bind_ok]
      split
      · rw [Res.at_of_lt (l := noExt) (by omega), Res.bind_ok, Res.at_of_lt (l := d) (by omega), Res.bind_ok,
          Res.at_of_lt (l := other) (by omega), Res.bind_ok]
        exact ⟨_, rfl⟩
      · exact ⟨_, rfl⟩)
  rw [hx, Res.bind_ok]
  exact ⟨_, rfl⟩

/-- Applying a dust index returns. -/
theorem Rel.dust_total {op : Opt K} {hd hi : Bool} {o : Obs K} (ho : o.Ok) {kd i : Int} {s : Slot K}
    (h : Rel op hd hi o kd i s) (hop : op.dust = true) (hhd : hd = true) {k : Int}
    (hc : 0 ≤ k → ∀ w, ∃ v, op.c.dust k w = .ok v) : ∃ r, dustSlot op k s = .ok r := by
  have hon := h.inv.on o.kStart o.kEnd op.z kd i (by simp [hop])
  obtain ⟨h1, h2, h3, h4, h5, h6, h7, h8, h9, h10, h11, h12, h13, h14⟩ := hon
  have hdust : s.t.hasDust = true := h.inv.hd_eq.trans hhd
  have hb : s.t.noExt.length = s.t.axis.length := by rw [h1, h.inv.axis_eq]; exact h.inv.blen
  obtain ⟨r, hr⟩ := applyLoop_total (axis := s.t.axis) (noExt := s.t.noExt) (flux := s.t.flux) (coeff := s.t.dustC)
    (other := s.t.igmC) (f := fun w => if k > -1 then op.c.dust k w else .ok 1) (a := s.t.kstart) (b := s.t.kend) hb
    (by rw [h.inv.axis_eq]; exact h.inv.flen) (by rw [h.inv.axis_eq]; exact h10) (by rw [h.inv.axis_eq]; exact h11)
    (by
      intro j w _ _ _
      split
      · exact hc (by omega) w
      · exact ⟨1, rfl⟩)
  unfold dustSlot Tpl.applyDust
  rw [if_neg (by simp [Tpl.enabled, h2, hdust])]
  by_cases hk : s.t.kDust = k
  · rw [if_pos hk]; exact ⟨_, rfl⟩
  · rw [if_neg hk]
    simp only [hr]
    exact ⟨_, rfl⟩

/-- Applying an IGM index returns. -/
theorem Rel.igm_total {op : Opt K} {hd hi : Bool} {o : Obs K} (ho : o.Ok) {kd i : Int} {s : Slot K}
    (h : Rel op hd hi o kd i s) (hop : op.igm = true) (hhi : hi = true) {k : Int}
    (hc : 0 ≤ k → ∃ zi, op.c.zIndex op.z = some zi ∧ ∀ w, ∃ v, op.c.igm zi k w = .ok v) : ∃ r, igmSlot op k s = .ok r := by
  have hon := h.inv.on o.kStart o.kEnd op.z kd i (by simp [hop])
  obtain ⟨h1, h2, h3, h4, h5, h6, h7, h8, h9, h10, h11, h12, h13, h14⟩ := hon
  have hig : s.t.hasIgm = true := h.inv.hi_eq.trans hhi
  have hb : s.t.noExt.length = s.t.axis.length := by rw [h1, h.inv.axis_eq]; exact h.inv.blen
  unfold igmSlot Tpl.applyIgm
  rw [if_neg (by simp [Tpl.enabled, h2, hig])]
  by_cases hk : s.t.igmIdx = k
  · rw [if_pos hk]; exact ⟨_, rfl⟩
  · rw [if_neg hk]
    simp only
    cases he : s.t.igmEnd with
    | none => exact ⟨_, rfl⟩
    | some e =>
      obtain ⟨r, hr⟩ := applyLoop_total (axis := s.t.axis) (noExt := s.t.noExt) (flux := s.t.flux) (coeff := s.t.igmC)
        (other := s.t.dustC) (f := Tpl.igmCoeff op.c s.t.zIdx k) (a := s.t.kstart) (b := e) hb
        (by rw [h.inv.axis_eq]; exact h.inv.flen) (by rw [h.inv.axis_eq]; exact h11) (by rw [h.inv.axis_eq]; exact h10)
        (by
          intro j w _ _ _
          unfold Tpl.igmCoeff
          split
          · obtain ⟨zi, z1, z2⟩ := hc (by omega)
            rw [(h12 hhi).2.1, z1]
            exact z2 w
          · exact ⟨1, rfl⟩)
      simp only [hr]
      exact ⟨_, rfl⟩

/-- What a fit needs to return. -/
structure Ready (op : Opt K) (obs : List (Obs K)) (hd hi : Bool) : Prop where
  dust : op.dust = true → hd = true
  igm : op.igm = true → hi = true
  /-- several IGM curves: the extinctions must be initialised -/
  fast : op.fast = true → hi = true ∧ (op.dust = true ∨ op.igm = true)
  dustCurve : op.dust = true → ∀ k ∈ op.ebmv, 0 ≤ k → ∀ w, ∃ v, op.c.dust k w = .ok v
  igmCurve : hi = true → ∃ zi, op.c.zIndex op.z = some zi ∧ ∀ i ∈ op.meiksin, 0 ≤ i → ∀ w, ∃ v, op.c.igm zi i w = .ok v
  prior : op.applyPrior = true → ∀ k ∈ op.ebmv, 0 ≤ k ∧ k < op.priors.length
  nonNull : ∀ o ∈ obs, ∀ k ∈ op.ebmv, ∀ i ∈ op.meiksin, ∃ s ∈ o.all (dustFun op k) (igmFun op i), s.x ≠ 0

theorem mapSlots_total {β : Type} {f : Slot K → Res (β × Slot K)} {R : Obs K → Slot K → Prop} :
    ∀ {obs : List (Obs K)} {ss : List (Slot K)}, (∀ o ∈ obs, ∀ s, R o s → ∃ r, f s = .ok r) →
    List.Forall₂ R obs ss → ∃ r, mapSlots f ss = .ok r := by
  intro obs
  induction obs with
  | nil => intro ss _ h; cases h; exact ⟨_, rfl⟩
  | cons o obs ih =>
    intro ss hf h
    cases h with
    | cons h1 h2 =>
      obtain ⟨r, e1⟩ := hf o (by simp) _ h1
      obtain ⟨rs, e2⟩ := ih (fun o ho => hf o (by simp [ho])) h2
      unfold mapSlots
      rw [e1, Res.bind_ok, e2, Res.bind_ok]
      exact ⟨_, rfl⟩

theorem weight_pos {l : List (Sample K)} (he : ∀ s ∈ l, s.e ≠ 0) (hx : ∃ s ∈ l, s.x ≠ 0) : 0 < weight l := by
  obtain ⟨s, hs, hx⟩ := hx
  have hall : ∀ v ∈ l.map (fun s : Sample K => (s.x / s.e) ^ 2), 0 ≤ v := by
    intro v hv
    obtain ⟨s, -, rfl⟩ := List.mem_map.1 hv
    positivity
  have h1 := List.single_le_sum hall _ (List.mem_map.2 ⟨s, hs, rfl⟩)
  have h2 : 0 < (s.x / s.e) ^ 2 := by
    have := he s hs
    positivity
  exact lt_of_lt_of_le h2 h1

theorem Rel.igmEnd_total {op : Opt K} {hd hi : Bool} {o : Obs K} {kd i : Int} {s : Slot K} (h : Rel op hd hi o kd i s)
    (hhi : hi = true) (hact : op.dust = true ∨ op.igm = true) : ∃ e, igmEndIdx s.t = .ok e := by
  have hon := h.inv.on o.kStart o.kEnd op.z kd i (by simp [hact])
  unfold igmEndIdx
  rw [if_neg (by simp [Tpl.enabled, hon.2.1, h.inv.hi_eq, hhi])]
  exact ⟨_, rfl⟩

theorem fold_ok {o : Obs K} (ho : o.Ok) {d g : K → K} {s : Slot K} (ha : Agree o d g s) (fast : Bool) (e : Int) (n : Nat)
    (hn : o.kStart + n ≤ o.kEnd + 1) (a : Acc K) : ∃ r, Res.foldN (crossBody fast e s) o.kStart n a = .ok r := by
  obtain ⟨r, h, _⟩ := crossFold_any ho ha fast e n o.kStart a le_rfl hn
  exact ⟨r, h⟩

theorem Rel.cross_total {op : Opt K} {hd hi : Bool} {o : Obs K} (ho : o.Ok) {kd i : Int} {s : Slot K}
    (h : Rel op hd hi o kd i s) {kM kE : Nat} (hfa : op.fast = true → hi = true ∧ (op.dust = true ∨ op.igm = true))
    (hkE : op.fast = true → kE < s.out.length) (hlast : op.fast = true → 0 < kM → endIdx op o < o.kEnd)
    (hout : op.fast = true → 0 < kM → s.out[kE]? = some (above op o (dustFun op kd)))
    (hw : 0 < weight (o.all (dustFun op kd) (igmFun op i))) : ∃ r, crossProducts op.fast kM kE s = .ok r := by
  have ha := h.agree ho
  have hle := ho.le
  unfold crossProducts
  cases hf : op.fast with
  | false =>
    simp only [Bool.false_eq_true, if_false, false_and, Res.bind_ok]
    rw [h.kStart, h.kEnd, show (((o.kEnd : Int) + 1 - o.kStart).toNat) = o.kEnd + 1 - o.kStart by omega]
    obtain ⟨r, r1, r2⟩ := crossFold_any ho ha false (-1) (o.kEnd + 1 - o.kStart) o.kStart ⟨Sums.zero, Sums.zero, false⟩ le_rfl (by omega)
    rw [r1, Res.bind_ok, Sums.zero_add] at *
    change r.sums = sumsOf (o.all (dustFun op kd) (igmFun op i)) at r2
    rw [if_neg (by rw [r2, ← weight_sums]; exact ne_of_gt hw)]
    exact ⟨_, rfl⟩
  | true =>
    obtain ⟨hhi, hact⟩ := hfa hf
    obtain ⟨e, he⟩ := h.igmEnd_total hhi hact
    have hee := h.igmEnd he
    simp only [if_true, true_and]
    rw [he, Res.bind_ok]
    subst hee
    rcases Nat.eq_zero_or_pos kM with hk | hk
    · subst hk
      simp only [lt_irrefl, if_false]
      rw [h.kStart, h.kEnd, show (((o.kEnd : Int) + 1 - o.kStart).toNat) = o.kEnd + 1 - o.kStart by omega]
      obtain ⟨r, r1, r2⟩ := crossFold_any ho ha true (endIdx op o) (o.kEnd + 1 - o.kStart) o.kStart ⟨Sums.zero, Sums.zero, false⟩ le_rfl (by omega)
      rw [r1, Res.bind_ok]
      rw [Sums.zero_add] at r2
      change r.sums = sumsOf (o.all (dustFun op kd) (igmFun op i)) at r2
      simp only [if_true, if_pos (hkE hf), Res.bind_ok]
      rw [if_neg (by rw [r2, ← weight_sums]; exact ne_of_gt hw)]
      exact ⟨_, rfl⟩
    · rw [if_pos hk, h.kStart]
      have hl := hlast hf hk
      have hge := endIdx_ge op o
      have hbl : o.kStart + below o (endIdx op o) ≤ o.kEnd + 1 := by unfold below; omega
      change ∃ r, (Res.foldN (crossBody true (endIdx op o) s) o.kStart (below o (endIdx op o)) ⟨Sums.zero, Sums.zero, false⟩ >>= _) = _
      obtain ⟨r, r1, r2⟩ := crossFold_any ho ha true (endIdx op o) (below o (endIdx op o)) o.kStart ⟨Sums.zero, Sums.zero, false⟩ le_rfl hbl
      rw [r1, Res.bind_ok, if_neg (by omega), Res.at_eq_ok.2 (hout hf hk), Res.bind_ok, Res.bind_ok]
      rw [Sums.zero_add] at r2
      have hsp := all_split op ho (dustFun op kd) i hl
      rw [if_neg (by
        simp only [r2]
        rw [← hsp, ← weight_sums]; exact ne_of_gt hw)]
      exact ⟨_, rfl⟩

theorem weight_allSamples_pos {obs : List (Obs K)} (hne : obs ≠ []) {d g : K → K} (h : ∀ o ∈ obs, 0 < weight (o.all d g)) :
    0 < weight (allSamples obs d g) := by
  induction obs with
  | nil => exact absurd rfl hne
  | cons o obs ih =>
    have e : weight (allSamples (o :: obs) d g) = weight (o.all d g) + weight (allSamples obs d g) := by
      simp [weight, allSamples]
    rw [e]
    have h1 := h o (by simp)
    have h2 := weight_nonneg (allSamples obs d g)
    linarith

/-- One iteration of the loop on the dust indices returns. -/
theorem dustStep_total {sq : K → K} {op : Opt K} {obs : List (Obs K)} (hne : obs ≠ [])
    (hobs : ∀ o ∈ obs, o.Ok) (hlast : op.fast = true → op.igm = true → ∀ o ∈ obs, op.c.igmMax < o.axis[o.kEnd]?.getD 0)
    {hd hi : Bool} (hrdy : Ready op obs hd hi) {skip : Bool} {kM kE : Nat} {mi i : Int} (hmi : op.meiksin[kM]? = some mi)
    (hi' : op.igm = true → i = mi) (hkM : op.igm = false → kM = 0) (hkE : kE < op.ebmv.length)
    {os : List (Slot K) × Result K}
    (hS : List.Forall₂ (SlotInv op hd hi i kM kE) obs os.1) (hR : RInv op obs skip kM kE os.2) :
    ∃ os', TplFit.dustStep sq op skip kM mi kE os = .ok os' := by
  have hmem := List.getElem_mem hkE
  have hget : op.ebmv[kE]? = some op.ebmv[kE] := List.getElem?_eq_getElem hkE
  have hmmem := List.mem_of_getElem? hmi
  unfold TplFit.dustStep
  rw [Res.at_of_lt hkE, Res.bind_ok]
  set k := op.ebmv[kE] with hk
  simp only
  -- the dust
  have hdust : ∃ slots, (if op.dust then mapSlots (dustSlot op k) os.1 >>= fun r => .ok r.2 else .ok os.1) = .ok slots ∧
      List.Forall₂ (fun o s => SlotInv op hd hi i kM kE o s ∧ ∃ kd, Rel op hd hi o kd i s ∧ dustFun op kd = dustFun op k)
        obs slots := by
    cases hdu : op.dust with
    | false =>
      refine ⟨os.1, rfl, hS.imp ?_⟩
      intro o s hs
      obtain ⟨kd, hkd⟩ := hs.1
      exact ⟨hs, kd, hkd, dustFun_off hdu _ _⟩
    | true =>
      obtain ⟨r, hr⟩ := mapSlots_total (f := dustSlot op k) (by
        rintro o ho s ⟨⟨kd, hkd⟩, _⟩
        exact hkd.dust_total (hobs o ho) hdu (hrdy.dust hdu) (hrdy.dustCurve hdu k hmem)) hS
      refine ⟨r.2, by simp only [if_true]; rw [hr]; rfl, ?_⟩
      refine (mapSlots_ok (Q := fun _ _ => True) (bs := r.1) (ss' := r.2) ?_ hS hr).1
      intro o ho s b s' hs hf
      obtain ⟨⟨kd, hkd⟩, hout⟩ := hs
      obtain ⟨q1, q2⟩ := hkd.dustStep (hobs o ho) hdu hf
      refine ⟨⟨⟨⟨k, q1⟩, ?_⟩, k, q1, rfl⟩, trivial⟩
      rw [q2]; exact hout
  obtain ⟨slots, e1, hS1⟩ := hdust
  rw [e1, Res.bind_ok]
  -- the prior
  have hprior : ∃ p, (if op.applyPrior then Res.atZ op.priors k else .ok Prior.empty) = .ok p := by
    cases hap : op.applyPrior with
    | false => exact ⟨_, rfl⟩
    | true =>
      obtain ⟨p1, p2⟩ := hrdy.prior hap k hmem
      simp only [if_true, Res.atZ]
      rw [if_neg (by omega), Res.at_of_lt (by omega)]
      exact ⟨_, rfl⟩
  obtain ⟨p, e2⟩ := hprior
  rw [e2, Res.bind_ok]
  -- the sums
  have hendlt : ∀ o ∈ obs, op.fast = true → op.igm = true → endIdx op o < o.kEnd := by
    intro o ho q1 q2
    have := hlast q1 q2 o ho
    by_contra hc
    have := (endIdx_spec op (hobs o ho) (hobs o ho).le le_rfl).1 (by omega)
    exact absurd this (not_le.2 (by assumption))
  have higm : igmFun op i = igmFun op mi := by
    cases hig : op.igm with
    | false => exact igmFun_off hig _ _
    | true => rw [hi' hig]
  have hwpos : ∀ o ∈ obs, 0 < weight (o.all (dustFun op k) (igmFun op mi)) := by
    intro o ho
    refine weight_pos (fun s hs => ?_) (hrdy.nonNull o ho k hmem mi hmmem)
    exact sample_err (obs := [o]) (by simpa using hobs o ho) (dustFun op k) (igmFun op mi) s (by simpa [allSamples] using hs)
  have hig0 : 0 < kM → op.igm = true := by
    intro h; by_contra hc; have := hkM (by simpa using hc); omega
  obtain ⟨cp, hcp⟩ := mapSlots_total (f := crossProducts op.fast kM kE) (by
    rintro o ho s ⟨hs, kd, hkd, hdf⟩
    refine hkd.cross_total (hobs o ho) hrdy.fast ?_ ?_ ?_ ?_
    · intro hfa; rw [(hs.2 hfa).1]; exact hkE
    · intro hfa hp; exact hendlt o ho hfa (hig0 hp)
    · intro hfa hp; rw [hdf]; exact (hs.2 hfa).2 (hig0 hp) kE k hget (Or.inl hp)
    · rw [hdf, higm]; exact hwpos o ho) hS1
  rw [hcp, Res.bind_ok]
  have hsums : List.Forall₂ (fun o q => q = sumsOf (o.all (dustFun op k) (igmFun op mi)) ∧ q.t ≠ 0) obs cp.1 := by
    refine (mapSlots_ok (R' := fun _ _ => True) ?_ hS1 (show mapSlots (crossProducts op.fast kM kE) slots = .ok (cp.1, cp.2) from hcp)).2
    rintro o ho s q s' ⟨hs, kd, hkd, hdf⟩ hf
    refine ⟨trivial, ?_⟩
    by_cases hfull : op.fast = false ∨ kM = 0
    · obtain ⟨q1, q2, _⟩ := crossProducts_full (hobs o ho) hkd hfull hf
      exact ⟨by rw [q1, hdf, higm], q2⟩
    · push Not at hfull
      have hfa : op.fast = true := by simpa using hfull.1
      have hpos : 0 < kM := Nat.pos_of_ne_zero hfull.2
      rw [hfa] at hf
      obtain ⟨q1, q2, _⟩ := crossProducts_next (hobs o ho) hkd hpos (hendlt o ho hfa (hig0 hpos))
        (by rw [hdf]; exact (hs.2 hfa).2 (hig0 hpos) kE k hget (Or.inl hpos)) hf
      exact ⟨by rw [q1, hdf, higm], q2⟩
  rw [sums_all hsums]
  have hT := weight_allSamples_pos hne hwpos
  rw [weight_sums] at hT
  have hchi : ∃ f, amplChi2 sq op.thr p (sumsOf (allSamples obs (dustFun op k) (igmFun op mi))) = .ok f := by
    unfold amplChi2
    simp only
    rw [if_neg (ne_of_gt hT), if_neg (not_lt.2 hT.le)]
    exact ⟨_, rfl⟩
  obtain ⟨f, e4⟩ := hchi
  rw [e4, Res.bind_ok]
  have hset : ∀ v : Entry K, ∃ t, setTbl os.2.tbl kE kM v = .ok t := by
    intro v
    unfold setTbl
    have hlt : kE < os.2.tbl.length := by rw [hR.tlen]; exact hkE
    rw [Res.at_of_lt hlt, Res.bind_ok, if_pos (by
      rw [hR.rlen _ (List.getElem_mem hlt)]; exact (List.getElem?_eq_some_iff.1 hmi).1)]
    exact ⟨_, rfl⟩
  obtain ⟨t, e5⟩ := hset ⟨f.chi2, some (if op.dust then op.ebmvValue k else -1), mi⟩
  rw [e5, Res.bind_ok]
  exact ⟨_, rfl⟩

theorem igmPart_total {op : Opt K} {obs : List (Obs K)} (hobs : ∀ o ∈ obs, o.Ok) {hd hi : Bool} (hrdy : Ready op obs hd hi)
    {kM : Nat} {skip : Bool} {os : List (Slot K) × Result K} (h : LInv op obs hd hi kM skip os) {mi : Int}
    (hmi : op.meiksin[kM]? = some mi) : ∃ s, igmPart op kM skip mi os.1 = .ok s := by
  unfold igmPart
  cases hig : op.igm with
  | false => exact ⟨_, rfl⟩
  | true =>
    obtain ⟨zi, z1, z2⟩ := hrdy.igmCurve (hrdy.igm hig)
    obtain ⟨r, hr⟩ := mapSlots_total (f := igmSlot op mi) (by
      rintro o ho s ⟨i, ⟨kd, hkd⟩, _⟩
      exact hkd.igm_total (hobs o ho) hig (hrdy.igm hig) (fun hk => ⟨zi, z1, z2 mi (List.mem_of_getElem? hmi) hk⟩)) h.slots
    simp only [if_true]
    rw [hr, Res.bind_ok]
    exact ⟨_, rfl⟩

theorem igmLoop_total {sq : K → K} (hsq : IsSqrt sq) {op : Opt K} {obs : List (Obs K)} (hne : obs ≠ [])
    (hobs : ∀ o ∈ obs, o.Ok) (hlast : op.fast = true → op.igm = true → ∀ o ∈ obs, op.c.igmMax < o.axis[o.kEnd]?.getD 0)
    (hebmv : op.ebmv ≠ []) {hd hi : Bool} (hrdy : Ready op obs hd hi) (n : Nat) :
    ∀ (kM : Nat) (skip : Bool) (os : List (Slot K) × Result K), kM + n = op.meiksin.length → LInv op obs hd hi kM skip os →
      ∃ r, igmLoop sq op kM n skip os = .ok r := by
  induction n with
  | zero => intro kM skip os _ _; exact ⟨_, rfl⟩
  | succ n ih =>
    intro kM skip os hn hL
    unfold igmLoop
    split
    · exact ⟨_, rfl⟩
    rename_i hc
    have hlt : kM < op.meiksin.length := by omega
    have hmi : op.meiksin[kM]? = some op.meiksin[kM] := List.getElem?_eq_getElem hlt
    rw [Res.at_of_lt hlt, Res.bind_ok]
    obtain ⟨s, hs⟩ := igmPart_total hobs hrdy hL hmi
    have hs' := hs
    unfold igmPart at hs'
    rw [hs', Res.bind_ok]
    obtain ⟨i, k1, k2, k3, hR'⟩ := igmPart_inv hobs hL hs
    obtain ⟨os', e1, l1, l2⟩ := Res.foldN_inv (f := dustStep sq op s.1 kM op.meiksin[kM])
      (P := fun kE (os : List (Slot K) × Result K) => List.Forall₂ (SlotInv op hd hi i kM kE) obs os.1 ∧ RInv op obs s.1 kM kE os.2)
      op.ebmv.length 0 (s.2, os.2) ⟨k1, hR'⟩ (by
        intro kE a _ hlt' hab
        obtain ⟨b, hb⟩ := dustStep_total (sq := sq) hne hobs hlast hrdy hmi k2 (hL.igmOff hc) (by omega) hab.1 hab.2
        exact ⟨b, hb, dustStep_inv hsq hne hobs hlast hmi k2 (hL.igmOff hc) hab.1 hab.2 hb⟩)
    rw [Nat.zero_add] at l1 l2
    rw [e1, Res.bind_ok]
    exact ih (kM + 1) s.1 os' (by omega) (next_inv hebmv hL hc k3 l1 l2)

theorem tplInit_total {c : Tpl.Curves K} {t : Tpl.T K} {a b : Nat} {z : K} (h1 : a ≤ b) (h2 : b < t.axis.length)
    (hext : t.hasDust = true ∨ t.hasIgm = true) (hz : t.hasIgm = true → c.zIndex z ≠ none) :
    (Tpl.init c t a b z).2 = .ok () := by
  unfold Tpl.init
  rw [if_neg (by rintro ⟨q1, q2⟩; rw [q1, q2] at hext; simp at hext), if_neg (by omega), if_neg (by omega)]
  simp only
  rw [if_neg (by omega)]
  cases hh : t.hasIgm with
  | false => simp
  | true =>
    have := hz hh
    simp [this]

theorem init_total {op : Opt K} {hd0 hi0 hd hi : Bool} {o : Obs K} (ho : o.Ok) (hext : (hd0 || hd) = true ∨ (hi0 || hi) = true)
    (hz : (hi0 || hi) = true → op.c.zIndex op.z ≠ none) : ∃ r, initSlot op hd hi (o.slot hd0 hi0) = .ok r := by
  have := tplInit_total (c := op.c) (t := { Tpl.make o.axis o.base hd0 hi0 with hasDust := hd0 || hd, hasIgm := hi0 || hi })
    (z := op.z) ho.le ho.lt hext hz
  refine ⟨_, Res.bind_eq_ok.2 ⟨(), this, rfl⟩⟩

/-- **C65** The fit of a template at one redshift returns and its result is right: with extinction curves defined at every
wavelength, the extinction objects asked for, a template with a non null unmasked sample in each observation, and, with
several IGM curves, extinctions that are initialised and fit ranges that end above the IGM range. -/
theorem C65_total_partial {sq : K → K} (hsq : IsSqrt sq) {big : K} {c : Tpl.Curves K} {z : K} {ebmvValue : Int → K}
    {hasDust hasIgm : Bool} {nEbmv : Nat} {thr : K} {optIgm optDust : Bool} {priors : List (Prior K)}
    {meiksin ebmv : List Int} {los : List K} {obs : List (Obs K)} (hne : obs ≠ []) (hobs : ∀ o ∈ obs, o.Ok)
    (hebmv : ebmv ≠ []) (hmk : meiksin ≠ [])
    (hrdy : Ready (theOpt c z ebmvValue hasDust nEbmv thr optIgm optDust priors meiksin ebmv los) obs hasDust hasIgm)
    (hlast : 1 < meiksin.length → optIgm = true → igmIsInRange los = true → ∀ o ∈ obs, c.igmMax < o.axis[o.kEnd]?.getD 0) :
    ∃ r, basicFit sq big c z ebmvValue hasDust nEbmv hasIgm thr optIgm optDust priors meiksin ebmv los
      (obs.map (Obs.slot false false)) = .ok r ∧
      FitTable (theOpt c z ebmvValue hasDust nEbmv thr optIgm optDust priors meiksin ebmv los) obs r := by
  have key : ∃ r, basicFit sq big c z ebmvValue hasDust nEbmv hasIgm thr optIgm optDust priors meiksin ebmv los
      (obs.map (Obs.slot false false)) = .ok r := by
    unfold basicFit
    rw [if_neg hebmv]
    simp only
    set op := theOpt c z ebmvValue hasDust nEbmv thr optIgm optDust priors meiksin ebmv los with hop
    change ∃ r, ((if optDust || (optIgm && igmIsInRange los) then
      mapSlots (initSlot op hasDust hasIgm) (obs.map (Obs.slot false false)) >>= fun r => .ok r.2
      else .ok (obs.map (Obs.slot false false))) >>= _) = _
    have hlast' : op.fast = true → op.igm = true → ∀ o ∈ obs, op.c.igmMax < o.axis[o.kEnd]?.getD 0 := by
      intro q1 q2
      have q3 : (optIgm && igmIsInRange los) = true := q2
      rw [Bool.and_eq_true] at q3
      exact hlast (by simpa [hop, theOpt] using q1) q3.1 q3.2
    have hrel : ∃ hd hi os, (if optDust || (optIgm && igmIsInRange los) then
        mapSlots (initSlot op hasDust hasIgm) (obs.map (Obs.slot false false)) >>= fun r => .ok r.2
        else .ok (obs.map (Obs.slot false false))) = .ok os ∧
        List.Forall₂ (fun o s => Rel op hd hi o (-1) (-1) s) obs os ∧ Ready op obs hd hi := by
      by_cases hact : (optDust || (optIgm && igmIsInRange los)) = true
      · rw [if_pos hact]
        have hact' : op.dust = true ∨ op.igm = true := by
          rw [Bool.or_eq_true] at hact; exact hact
        have hext : (false || hasDust) = true ∨ (false || hasIgm) = true := by
          simp only [Bool.false_or]
          exact hact'.imp hrdy.dust hrdy.igm
        obtain ⟨rr, hrr⟩ := mapSlots_total (R := fun o s => s = o.slot false false) (f := initSlot op hasDust hasIgm) (by
          rintro o ho s rfl
          refine init_total (hobs o ho) hext ?_
          intro hh
          obtain ⟨zi, z1, _⟩ := hrdy.igmCurve (by simpa using hh)
          rw [z1]; simp) (forall2_slots obs (fun o _ => rfl))
        refine ⟨hasDust, hasIgm, rr.2, by rw [hrr, Res.bind_ok], ?_, hrdy⟩
        refine (mapSlots_ok (R := fun o s => s = o.slot false false) (Q := fun _ _ => True)
          (bs := rr.1) (ss' := rr.2) ?_ (forall2_slots obs (fun o _ => rfl)) hrr).1
        rintro o ho s b s' rfl hf
        have := initSlot_inv (hobs o ho) hact' hf
        simp only [Bool.false_or] at this
        exact ⟨this, trivial⟩
      · rw [if_neg hact]
        have hact' : ¬ (op.dust = true ∨ op.igm = true) := by
          rw [Bool.or_eq_true] at hact; exact hact
        refine ⟨false, false, _, rfl, forall2_slots obs (fun o ho => ?_), ?_⟩
        · have h0 := Tpl.inv_make op.c o.axis o.base false false (hobs o ho).base_len
          refine ⟨rfl, rfl, rfl, rfl, rfl, ?_, fun _ => rfl, fun _ => rfl, fun _ hx => by omega⟩
          rw [if_neg hact']; exact h0
        · exact ⟨fun h => absurd (Or.inl h) hact', fun h => absurd (Or.inr h) hact', fun h => absurd (hrdy.fast h).2 hact',
            hrdy.dustCurve, fun h => (by cases h), hrdy.prior, hrdy.nonNull⟩
    obtain ⟨hd, hi, os, e1, hrel, hrdy'⟩ := hrel
    rw [e1, Res.bind_ok]
    have hstart := start_inv (big := big) hrel
    obtain ⟨r, hr⟩ := igmLoop_total hsq hne hobs hlast' hebmv hrdy' meiksin.length 0 true _ (by simp [hop, theOpt]) hstart
    have hft := igmLoop_inv hsq hne hobs hlast' hebmv meiksin.length 0 true _ r (by simp [hop, theOpt])
      (by have := List.length_pos_iff.2 hmk; omega) hstart hr
    obtain ⟨a, b, k, i, f, m, _, _, _, hb, _⟩ := hft.best
    refine ⟨r, ?_⟩
    refine Res.bind_eq_ok.2 ⟨r, hr, ?_⟩
    rw [hb]
  obtain ⟨r, hr⟩ := key
  exact ⟨r, hr, C65_fit_partial hsq hne hobs hlast hr⟩

/-! ## A concrete case -/

/-- Dust curves `1/(k+1)` and IGM curves `1/(i+2)` up to 1215. -/
noncomputable def exC : Tpl.Curves ℝ := ⟨fun k _ => .ok (1 / (k + 1)), fun _ => some 0, fun _ i _ => .ok (1 / (i + 2)), 1215⟩

def exO : Obs ℝ := ⟨[1000, 1200, 1300], [1, 2, 3], [2, 4, 5], [1, 1, 2], [1, 0, 1], 0, 2⟩

theorem exO_ok : exO.Ok where
  sorted := by simp [exO]; norm_num
  base_len := rfl
  flux_len := rfl
  err_len := rfl
  mask_len := rfl
  le := by simp [exO]
  lt := by simp [exO]
  err_ne := by
    intro j _ hj e he
    simp only [exO] at hj he
    rcases (show j = 0 ∨ j = 1 ∨ j = 2 by omega) with rfl | rfl | rfl <;> simp at he <;> rw [← he] <;> norm_num

/-- The fit of two dust and two IGM configurations of one observation returns the table and its minimum. -/
example : ∃ r, basicFit Real.sqrt (10 ^ 300) exC 3 (fun k => k) true 2 true 0 true true [] [0, 1] [0, 1] [1000]
    ([exO].map (Obs.slot false false)) = .ok r ∧
    FitTable (theOpt exC 3 (fun k => k) true 2 0 true true [] [0, 1] [0, 1] [1000]) [exO] r := by
  refine C65_total_partial isSqrt_real (by simp) (by simpa using exO_ok) (by simp) (by simp) ?_ ?_
  · refine ⟨fun _ => rfl, fun _ => rfl, fun _ => ⟨rfl, Or.inl rfl⟩, fun _ k _ _ w => ⟨_, rfl⟩, fun _ => ⟨0, rfl, fun i _ _ w => ⟨_, rfl⟩⟩,
      fun h => ?_, ?_⟩
    · simp [theOpt] at h
    · intro o ho k hk i hi
      simp only [List.mem_singleton] at ho
      subst ho
      have e : (exO.all (dustFun (theOpt exC 3 (fun k => k) true 2 0 true true [] [0, 1] [0, 1] [1000]) k)
          (igmFun (theOpt exC 3 (fun k => k) true 2 0 true true [] [0, 1] [0, 1] [1000]) i)) =
          [⟨2, 1 * dustFun (theOpt exC 3 (fun k => k) true 2 0 true true [] [0, 1] [0, 1] [1000]) k 1000 * igmFun (theOpt exC 3 (fun k => k) true 2 0 true true [] [0, 1] [0, 1] [1000]) i 1000, 1⟩,
           ⟨5, 3 * dustFun (theOpt exC 3 (fun k => k) true 2 0 true true [] [0, 1] [0, 1] [1000]) k 1300 * igmFun (theOpt exC 3 (fun k => k) true 2 0 true true [] [0, 1] [0, 1] [1000]) i 1300, 2⟩] := by
        simp [Obs.all, Obs.samples, exO, List.range'_succ]
      rw [e]
      refine ⟨_, List.mem_cons_of_mem _ (List.mem_singleton.2 rfl), ?_⟩
      have hk0 : k = 0 ∨ k = 1 := by simpa [theOpt] using hk
      have h1 : igmFun (theOpt exC 3 (fun k => k) true 2 0 true true [] [0, 1] [0, 1] [1000]) i 1300 = 1 := by
        unfold igmFun
        rw [if_neg]
        rintro ⟨-, -, h⟩
        simp only [theOpt, exC] at h
        norm_num at h
      have h2 : dustFun (theOpt exC 3 (fun k => k) true 2 0 true true [] [0, 1] [0, 1] [1000]) k 1300 ≠ 0 := by
        rcases hk0 with rfl | rfl <;> simp [dustFun, theOpt, exC, val]
      simp only [h1]
      simp [h2]
  · intro _ _ _ o ho
    simp only [List.mem_singleton] at ho
    subst ho
    simp [exO, exC]; norm_num

/-! ## Cases in which the fit is wrong or fails -/

/-- IGM and dust curves equal to 1. -/
def ctC : Tpl.Curves ℚ := ⟨fun _ _ => .ok 1, fun _ => some 0, fun _ _ _ => .ok 1, 1215⟩

/-- A fit range within the IGM range. -/
def ctO : Obs ℚ := ⟨[1000, 1100], [1, 1], [1, 2], [1, 1], [1, 1], 0, 1⟩

/-- Two IGM curves equal to 1 everywhere and a fit range that is entirely within the IGM range: the two configurations are
the same model, but the chi2 of the second is twice the one of the first, because the sums outside the IGM range kept at
the first one are those of the whole range. -/
theorem C65_fast_counterexample :
    (basicFit (fun _ => (1 : ℚ)) 1000 ctC 3 (fun k => k) true 1 true 0 true false [] [0, 1] [-1] [1000]
      [ctO.slot false false] >>= fun r => .ok (r.tbl.map (fun row => row.map (fun e => e.chi2)))) = .ok [[1 / 2, 1]] := by
  decide +kernel

/-- IGM fit with two curves and no dust fit, the rest range beginning above 1216: the fit throws. -/
theorem C65_igm_out_of_range_counterexample :
    basicFit (fun _ => (1 : ℚ)) 1000 ctC 3 (fun k => k) true 1 true 0 true false [] [0, 1] [-1] [1300]
      [(⟨[1300, 1400], [1, 1], [1, 2], [1, 1], [1, 1], 0, 1⟩ : Obs ℚ).slot false false] = .throw .INTERNAL_ERROR := by
  decide +kernel

/-- A prior for each dust value and no dust fit: the prior of index -1 is read. -/
theorem C65_prior_without_dust_counterexample :
    basicFit (fun _ => (1 : ℚ)) 1000 ctC 3 (fun k => k) true 1 true 0 false false [⟨1, 1, 1, 1, 1, 1, 1, 1⟩] [0] [-1] [1300]
      [(⟨[1300, 1400], [1, 1], [1, 2], [1, 1], [1, 1], 0, 1⟩ : Obs ℚ).slot false false] = .ub := by
  decide +kernel

end TplFit
end Amazed
