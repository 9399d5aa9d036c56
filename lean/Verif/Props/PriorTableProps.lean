import Verif.Model.PriorTable
import Mathlib.Tactic.Linarith
import Mathlib.Tactic.NormNum
import Mathlib.Tactic.Positivity

/-! # C31: prior table lookups -/

namespace Amazed
namespace PriorHelper

instance : Nonempty TZE := ⟨⟨0, 0, 0⟩⟩

/-- The tables have the announced shape: one `24 × 10` table per template, 24 redshift priors. -/
structure Shaped (h : PriorHelper) : Prop where
  count : h.data.length = h.names.length
  rows : ∀ t ∈ h.data, t.length = 24
  cols : ∀ t ∈ h.data, ∀ r ∈ t, r.length = 10
  pz : h.pz.length = 24

/-- `z` is in the range where `(z - z0)/dz` can be converted to a 32 bit integer. -/
def Sane (z : ℝ) : Prop := -500000000 < z ∧ z < 500000000

theorem toInt32_sane {z : ℝ} (hz : Sane z) :
    ∃ t, toInt32 ((z - 0) / dz) = .ok t ∧ t = (if 0 ≤ 4 * z then ⌊4 * z⌋ else ⌈4 * z⌉) := by
  obtain ⟨h1, h2⟩ := hz
  have e : (z - 0) / dz = 4 * z := by unfold dz; ring
  unfold toInt32
  rw [e]
  refine ⟨_, if_pos ?_, rfl⟩
  split
  · constructor
    · rw [Int.le_floor]; push_cast; linarith
    · rw [Int.floor_lt]; push_cast; linarith
  · constructor
    · have := Int.le_ceil (4 * z)
      have h3 : (-2147483648 : ℝ) ≤ (⌈4 * z⌉ : ℤ) := by linarith
      exact_mod_cast h3
    · have : ⌈4 * z⌉ ≤ 0 := by rw [Int.ceil_le]; push_cast; linarith
      omega

theorem templateIndex_spec (h : PriorHelper) (name : String) :
    (∃ i, h.templateIndex name = .ok i ∧ h.names[i]? = some name ∧ i < h.names.length) ∨
    (h.templateIndex name = .throw .INTERNAL_ERROR ∧ name ∉ h.names) := by
  unfold templateIndex
  cases hf : h.names.findIdx? (· == name) with
  | none =>
    right
    refine ⟨rfl, ?_⟩
    intro hm
    rw [List.findIdx?_eq_none_iff] at hf
    have := hf name hm
    simp at this
  | some i =>
    left
    rw [List.findIdx?_eq_some_iff_getElem] at hf
    obtain ⟨hi, h1, _⟩ := hf
    refine ⟨i, rfl, ?_, hi⟩
    rw [List.getElem?_eq_getElem hi]
    simpa using h1

theorem fillOne_ne_ub {h : PriorHelper} (hs : h.Shaped) {idz : Int} (h0 : 0 ≤ idz) (h1 : idz < 24) (d : TZE) :
    h.fillOne idz d ≠ .ub := by
  unfold fillOne
  split
  · simp
  · unfold Res.atZ
    rw [if_neg (by omega), Res.at_of_lt (by rw [hs.pz]; omega)]
    simp

theorem rowAt_index_ne_ub {h : PriorHelper} (hs : h.Shaped) {i : Nat} (hi : i < h.names.length)
    {mode : Int} {z : ℝ} (hub : redshiftIndex z mode ≠ .ub)
    (hr : ∀ idz, redshiftIndex z mode = .ok idz → 0 ≤ idz ∧ idz < 24) :
    h.rowAt i mode z ≠ .ub := by
  unfold rowAt
  cases hx : redshiftIndex z mode with
  | ub => exact absurd hx hub
  | throw e => simp
  | ok idz =>
    obtain ⟨h0, h1⟩ := hr idz hx
    have hi' : i < h.data.length := by rw [hs.count]; exact hi
    rw [Res.bind_ok, Res.at_of_lt hi', Res.bind_ok]
    have hlen := hs.rows _ (List.getElem_mem hi')
    unfold Res.atZ
    rw [if_neg (by omega), Res.at_of_lt (by rw [hlen]; omega), Res.bind_ok]
    exact Res.mapL_ne_ub _ (fun d _ => fillOne_ne_ub hs h0 h1 d)

theorem redshiftIndex_mode1 {z : ℝ} (hz : Sane z) :
    redshiftIndex z 1 ≠ .ub ∧ ∀ idz, redshiftIndex z 1 = .ok idz → 0 ≤ idz ∧ idz < 24 := by
  obtain ⟨t, h1, _⟩ := toInt32_sane hz
  unfold redshiftIndex
  rw [h1, Res.bind_ok, if_pos rfl]
  by_cases hc : t < 0 ∨ t ≥ (nZ : Int)
  · rw [if_pos hc]; simp
  · rw [if_neg hc]
    refine ⟨by simp, ?_⟩
    intro idz he
    cases he
    unfold nZ at hc; omega

theorem redshiftIndex_mode0 {z : ℝ} (hz : Sane z) :
    redshiftIndex z 0 = .ok (min (max (if 0 ≤ 4 * z then ⌊4 * z⌋ else ⌈4 * z⌉) 0) 24) := by
  obtain ⟨t, h1, h2⟩ := toInt32_sane hz
  unfold redshiftIndex
  rw [h1, Res.bind_ok, if_neg (by norm_num), if_pos rfl, h2]
  rfl

/-- The redshift bin of `z`, as a user understands it: bin `k` is `[0.25 k, 0.25 (k+1))`. -/
def InBin (k : Nat) (z : ℝ) : Prop := (k : ℝ) / 4 ≤ z ∧ z < ((k : ℝ) + 1) / 4

theorem floor_of_inBin {k : Nat} {z : ℝ} (h : InBin k z) : 0 ≤ 4 * z ∧ ⌊4 * z⌋ = (k : Int) := by
  obtain ⟨h1, h2⟩ := h
  have hk : (0 : ℝ) ≤ k := Nat.cast_nonneg k
  refine ⟨by linarith, ?_⟩
  rw [Int.floor_eq_iff]
  constructor
  · push_cast; linarith
  · push_cast; linarith

/-- **C31, rejecting mode.** On a well shaped table, asking for redshifts with the rejecting mode
never reads outside the table, whatever the redshifts. -/
theorem tplPriorData_mode1_safe (h : PriorHelper) (hs : h.Shaped) (name : String) (zs : List ℝ)
    (hz : ∀ z ∈ zs, Sane z) : h.tplPriorData name zs 1 ≠ .ub := by
  unfold tplPriorData
  split
  · simp
  · split
    · simp
    · rcases h.templateIndex_spec name with ⟨i, h1, _, h3⟩ | ⟨h1, _⟩
      · rw [h1, Res.bind_ok]
        refine Res.mapL_ne_ub _ (fun z hzm => ?_)
        obtain ⟨h4, h5⟩ := redshiftIndex_mode1 (hz z hzm)
        exact rowAt_index_ne_ub hs h3 h4 h5
      · rw [h1]; simp

/-- **C31, clamping mode, below 6.** On a well shaped table, asking for redshifts with the default
(clamping) mode never reads outside the table when every redshift is below 6. What is missing from
the claim: redshifts at or above 6, see `tplPriorData_mode0_overrun`. -/
theorem tplPriorData_mode0_safe_partial (h : PriorHelper) (hs : h.Shaped) (name : String) (zs : List ℝ)
    (hz : ∀ z ∈ zs, Sane z ∧ z < 6) : h.tplPriorData name zs 0 ≠ .ub := by
  unfold tplPriorData
  split
  · simp
  · split
    · simp
    · rcases h.templateIndex_spec name with ⟨i, h1, _, h3⟩ | ⟨h1, _⟩
      · rw [h1, Res.bind_ok]
        refine Res.mapL_ne_ub _ (fun z hzm => ?_)
        obtain ⟨h4, h5⟩ := hz z hzm
        refine rowAt_index_ne_ub hs h3 (by rw [redshiftIndex_mode0 h4]; simp) ?_
        intro idz he
        rw [redshiftIndex_mode0 h4] at he
        cases he
        have : (if 0 ≤ 4 * z then ⌊4 * z⌋ else ⌈4 * z⌉) < 24 := by
          split
          · rw [Int.floor_lt]; push_cast; linarith
          · have : ⌈4 * z⌉ ≤ 0 := by rw [Int.ceil_le]; push_cast; linarith
            omega
        omega
      · rw [h1]; simp

/-- **C31 is false of the clamping mode at 6 and above**: the documentation promises the last bin,
the code reads one row past the table. -/
theorem tplPriorData_mode0_overrun (h : PriorHelper) (hs : h.Shaped) (hi : h.initFailed = false)
    (hb : 0 < h.betaA ∨ 0 < h.betaTE ∨ 0 < h.betaZ) (name : String) (hn : name ∈ h.names)
    (z : ℝ) (hz : Sane z) (h6 : 6 ≤ z) (zs : List ℝ) : h.tplPriorData name (z :: zs) 0 = .ub := by
  unfold tplPriorData
  rw [if_neg (by rintro ⟨h1, h2, h3⟩; rcases hb with h | h | h <;> linarith), hi]
  simp only [Bool.false_eq_true, if_false]
  rcases h.templateIndex_spec name with ⟨i, h1, _, h3⟩ | ⟨_, h1⟩
  · rw [h1, Res.bind_ok]
    have hi' : i < h.data.length := by rw [hs.count]; exact h3
    have hx : h.rowAt i 0 z = .ub := by
      unfold rowAt
      rw [redshiftIndex_mode0 hz, Res.bind_ok, Res.at_of_lt hi', Res.bind_ok]
      have h24 : (24 : ℤ) ≤ ⌊4 * z⌋ := by rw [Int.le_floor]; push_cast; linarith
      rw [if_pos (by linarith), max_eq_left (by omega), min_eq_right h24]
      unfold Res.atZ
      rw [if_neg (by omega)]
      have hlen := hs.rows _ (List.getElem_mem hi')
      rw [Res.at_eq_ub.2 (by rw [hlen]; decide)]
      rfl
    unfold Res.mapL
    rw [hx]; rfl
  · exact absurd hn h1

/-- What the lookup returns for one redshift: the table row of its bin, with the log priors. -/
theorem rowAt_inBin (h : PriorHelper) (hs : h.Shaped) {i : Nat} (hi : i < h.data.length) (mode : Int)
    (hm : mode = 0 ∨ mode = 1) {k : Nat} (hk : k < 24) {z : ℝ} (hz : InBin k z)
    (hpos : ∀ t ∈ h.data, ∀ r ∈ t, ∀ d ∈ r, 0 < d.tze) :
    ∃ out row, h.rowAt i mode z = .ok out ∧ (h.data[i])[k]? = some row ∧ out.map (·.src) = row ∧
      (∀ o ∈ out, o.logTE = Real.log o.src.tze ∧ o.betaA = h.betaA ∧ o.betaTE = h.betaTE ∧
        o.betaZ = h.betaZ ∧ ∃ p, h.pz[k]? = some p ∧ (0 < p → o.logZ = Real.log (4 * p)) ∧ (p ≤ 0 → o.logZ = 0)) := by
  obtain ⟨h1, h2⟩ := floor_of_inBin hz
  have hk' : (k : ℝ) < 24 := by exact_mod_cast hk
  have hk0 : (0 : ℝ) ≤ k := Nat.cast_nonneg k
  have hsane : Sane z := by
    obtain ⟨h3, h4⟩ := hz
    constructor <;> linarith
  have hidx : redshiftIndex z mode = .ok (k : Int) := by
    rcases hm with hm | hm
    · subst hm
      rw [redshiftIndex_mode0 hsane, if_pos h1, h2, max_eq_left (by omega), min_eq_left (by omega)]
    · subst hm
      obtain ⟨t, h3, h4⟩ := toInt32_sane hsane
      rw [if_pos h1, h2] at h4
      unfold redshiftIndex
      rw [h3, Res.bind_ok, if_pos rfl, h4, if_neg (by unfold nZ; omega)]
  have hlen := hs.rows _ (List.getElem_mem hi)
  have hk2 : k < (h.data[i]).length := by rw [hlen]; exact hk
  have hpzk : k < h.pz.length := by rw [hs.pz]; exact hk
  unfold rowAt
  rw [hidx, Res.bind_ok, Res.at_of_lt hi, Res.bind_ok]
  unfold Res.atZ
  rw [if_neg (by omega), Int.toNat_natCast, Res.at_of_lt hk2, Res.bind_ok]
  let g : TZE → TZEOut := fun d =>
    { src := d
      logA := if d.sigma > 0 then -(1 / 2) * Real.log (2 * Real.pi) - Real.log d.sigma
              else Real.log (1 / deltaA)
      logTE := Real.log d.tze
      logZ := if h.pz[k] > 0 then Real.log (h.pz[k] / dz) else 0
      betaA := h.betaA, betaTE := h.betaTE, betaZ := h.betaZ }
  have hfill : ∀ d ∈ (h.data[i])[k], h.fillOne (k : Int) d = .ok (g d) := by
    intro d hd
    have := hpos _ (List.getElem_mem hi) _ (List.getElem_mem hk2) d hd
    unfold fillOne
    rw [if_neg (not_le.2 this)]
    unfold Res.atZ
    rw [if_neg (by omega), Int.toNat_natCast, Res.at_of_lt hpzk, Res.bind_ok]
  refine ⟨_, (h.data[i])[k], Res.mapL_ok _ hfill, List.getElem?_eq_getElem hk2, ?_, ?_⟩
  · rw [List.map_map]
    have : (fun o : TZEOut => o.src) ∘ g = id := rfl
    rw [this, List.map_id]
  · intro o ho
    obtain ⟨d, _, rfl⟩ := List.mem_map.1 ho
    refine ⟨rfl, rfl, rfl, rfl, h.pz[k], List.getElem?_eq_getElem hpzk, ?_, ?_⟩
    · intro hp
      show (if h.pz[k] > 0 then Real.log (h.pz[k] / dz) else 0) = _
      rw [if_pos hp]
      congr 1
      unfold dz; ring
    · intro hp
      show (if h.pz[k] > 0 then Real.log (h.pz[k] / dz) else 0) = _
      rw [if_neg (not_lt.2 hp)]

/-- **C31, values.** For redshifts in the covered range `[0, 6)`, both modes return for each redshift,
in order, the table row of the bin `[0.25 k, 0.25 (k+1))` of that redshift. -/
theorem tplPriorData_values (h : PriorHelper) (hs : h.Shaped) (hi : h.initFailed = false)
    (hb : 0 < h.betaA ∨ 0 < h.betaTE ∨ 0 < h.betaZ)
    (hpos : ∀ t ∈ h.data, ∀ r ∈ t, ∀ d ∈ r, 0 < d.tze)
    (name : String) (hn : name ∈ h.names) (mode : Int) (hm : mode = 0 ∨ mode = 1)
    (zs : List ℝ) (hz : ∀ z ∈ zs, 0 ≤ z ∧ z < 6) :
    ∃ out, ∃ i : Nat, h.tplPriorData name zs mode = .ok out ∧ out.length = zs.length ∧
      h.names[i]? = some name ∧
      ∀ (j : Nat) z, zs[j]? = some z → ∃ k t row o, k < 24 ∧ InBin k z ∧ h.data[i]? = some t ∧ t[k]? = some row ∧
        out[j]? = some o ∧ o.map (·.src) = row := by
  unfold tplPriorData
  rw [if_neg (by rintro ⟨h1, h2, h3⟩; rcases hb with h | h | h <;> linarith), hi]
  simp only [Bool.false_eq_true, if_false]
  rcases h.templateIndex_spec name with ⟨i, h1, h2, h3⟩ | ⟨_, h1⟩
  · rw [h1, Res.bind_ok]
    have hi' : i < h.data.length := by rw [hs.count]; exact h3
    have hbin : ∀ z, 0 ≤ z ∧ z < 6 → ∃ k, k < 24 ∧ InBin k z := by
      rintro z ⟨hz0, hz6⟩
      refine ⟨⌊4 * z⌋.toNat, ?_, ?_⟩
      · have : ⌊4 * z⌋ < 24 := by rw [Int.floor_lt]; push_cast; linarith
        omega
      · have h0 : 0 ≤ ⌊4 * z⌋ := by rw [Int.le_floor]; push_cast; linarith
        have e : ((⌊4 * z⌋.toNat : ℕ) : ℝ) = (⌊4 * z⌋ : ℝ) := by
          have : ((⌊4 * z⌋.toNat : ℕ) : ℤ) = ⌊4 * z⌋ := Int.toNat_of_nonneg h0
          exact_mod_cast congrArg (fun n : ℤ => (n : ℝ)) this
        unfold InBin
        rw [e]
        have h5 := Int.floor_le (4 * z)
        have h6 := Int.lt_floor_add_one (4 * z)
        constructor <;> linarith
    have hall : ∀ z ∈ zs, ∃ o, h.rowAt i mode z = .ok o := by
      intro z hzm
      obtain ⟨k, hk, hkz⟩ := hbin z (hz z hzm)
      obtain ⟨o, _, ho, _⟩ := rowAt_inBin h hs hi' mode hm hk hkz hpos
      exact ⟨o, ho⟩
    choose! g hg using hall
    refine ⟨_, i, Res.mapL_ok zs hg, by simp, h2, ?_⟩
    intro j z hj
    have hzm : z ∈ zs := List.mem_of_getElem? hj
    obtain ⟨k, hk, hkz⟩ := hbin z (hz z hzm)
    obtain ⟨o, row, ho, hrow, hsrc, _⟩ := rowAt_inBin h hs hi' mode hm hk hkz hpos
    refine ⟨k, h.data[i], row, o, hk, hkz, List.getElem?_eq_getElem hi', hrow, ?_, hsrc⟩
    rw [List.getElem?_map, hj]
    have := hg z hzm
    rw [ho] at this
    cases this
    rfl
  · exact absurd hn h1

/-- **C31, rejecting mode.** A redshift at or above 6, or at or below -0.25, is refused. (A redshift
strictly between -0.25 and 0 is not refused: it is truncated to bin 0, `tplPriorData_mode1_negative`.) -/
theorem tplPriorData_mode1_refuses (h : PriorHelper) (hi : h.initFailed = false)
    (name : String) (z : ℝ) (hz : Sane z) (h6 : 6 ≤ z ∨ z ≤ -(1 / 4)) (zs : List ℝ) :
    h.tplPriorData name (z :: zs) 1 = .throw .INTERNAL_ERROR := by
  unfold tplPriorData
  split
  · rfl
  rw [hi]
  simp only [Bool.false_eq_true, if_false]
  rcases h.templateIndex_spec name with ⟨i, h1, _, h3⟩ | ⟨h1, _⟩
  · rw [h1, Res.bind_ok]
    obtain ⟨t, h4, h5⟩ := toInt32_sane hz
    unfold Res.mapL rowAt redshiftIndex
    rw [h4, Res.bind_ok, if_pos rfl, if_pos]
    · rfl
    · rcases h6 with h6 | h6
      · right
        rw [h5, if_pos (by linarith)]
        unfold nZ
        rw [ge_iff_le, Int.le_floor]; push_cast; linarith
      · left
        rw [h5, if_neg (by linarith)]
        have : ⌈4 * z⌉ ≤ -1 := by rw [Int.ceil_le]; push_cast; linarith
        omega
  · rw [h1]; rfl

/-- The rejecting mode accepts redshifts in `(-0.25, 0)`, outside the prior range: the conversion
truncates toward zero. -/
theorem redshiftIndex_mode1_negative (z : ℝ) (h1 : -(1 / 4) < z) (h2 : z < 0) :
    redshiftIndex z 1 = .ok 0 := by
  obtain ⟨t, h4, h5⟩ := toInt32_sane (z := z) ⟨by linarith, by linarith⟩
  have ht : t = 0 := by
    rw [h5, if_neg (by linarith), Int.ceil_eq_iff]
    constructor <;> push_cast <;> linarith
  unfold redshiftIndex
  rw [h4, Res.bind_ok, if_pos rfl, ht]
  rfl

/-- **C31.** The single value lookup checks its extinction index and stays in the table. -/
theorem tzePriorData_mode1_safe (h : PriorHelper) (hs : h.Shaped) (hi : h.initFailed = false)
    (name : String) (ebv : Int) (z : ℝ) (hz : Sane z) : h.tzePriorData name ebv z 1 ≠ .ub := by
  unfold tzePriorData
  by_cases he : ebv < 0 ∨ ebv > (nEbv : Int) - 1
  · rw [if_pos he]; simp
  · rw [if_neg he]
    have hsafe := h.tplPriorData_mode1_safe hs name [z] (by simpa using hz)
    cases hd : h.tplPriorData name [z] 1 with
    | ub => exact absurd hd hsafe
    | throw e => simp
    | ok d =>
      rw [Res.bind_ok]
      unfold tplPriorData at hd
      split at hd
      · cases hd
      rw [hi] at hd
      simp only [Bool.false_eq_true, if_false] at hd
      obtain ⟨i, h1, h2⟩ := Res.bind_eq_ok.1 hd
      have hilt : i < h.data.length := by
        rcases h.templateIndex_spec name with ⟨i', h3, _, h4⟩ | ⟨h3, _⟩
        · rw [h1] at h3; cases h3; rw [hs.count]; exact h4
        · rw [h1] at h3; cases h3
      obtain ⟨h3, h4⟩ := Res.mapL_eq_ok h2
      obtain ⟨row, h5, h6⟩ := h4 0 z rfl
      have : Res.at_ d 0 = .ok row := Res.at_eq_ok.2 h5
      rw [this, Res.bind_ok]
      have hrow : row.length = 10 := by
        unfold rowAt at h6
        obtain ⟨idz, h7, h8⟩ := Res.bind_eq_ok.1 h6
        obtain ⟨t, h9, h10⟩ := Res.bind_eq_ok.1 h8
        obtain ⟨r, h11, h12⟩ := Res.bind_eq_ok.1 h10
        have ht : t ∈ h.data := List.mem_of_getElem? (Res.at_eq_ok.1 h9)
        have hr : r ∈ t := by
          unfold Res.atZ at h11
          split at h11
          · cases h11
          · exact List.mem_of_getElem? (Res.at_eq_ok.1 h11)
        rw [(Res.mapL_eq_ok h12).1, hs.cols t ht r hr]
      unfold Res.atZ
      unfold nEbv at he
      rw [if_neg (by omega), Res.at_of_lt (by omega)]
      simp

/-- When the prior directory does not exist, the bulk lookup answers with an empty list but the single
value lookup reads the first element of that empty list. -/
theorem tzePriorData_initFailed (h : PriorHelper) (hi : h.initFailed = true)
    (hb : 0 < h.betaA ∨ 0 < h.betaTE ∨ 0 < h.betaZ) (name : String) (ebv : Int)
    (he : 0 ≤ ebv ∧ ebv < 10) (z : ℝ) (mode : Int) :
    h.tplPriorData name [z] mode = .ok [] ∧ h.tzePriorData name ebv z mode = .ub := by
  have h1 : h.tplPriorData name [z] mode = .ok [] := by
    unfold tplPriorData
    rw [if_neg (by rintro ⟨h1, h2, h3⟩; rcases hb with h | h | h <;> linarith), if_pos hi]
  refine ⟨h1, ?_⟩
  unfold tzePriorData
  rw [if_neg (by unfold nEbv; omega), h1]
  rfl

/-! ## Loading -/

/-- A file with at least 24 lines of ten values. -/
def FileOk (f : List (List ℝ)) : Prop := 24 ≤ f.length ∧ ∀ r ∈ f, r.length = 10

/-- **C31, loading.** Loading prior files with at least 24 lines of ten values each, and a redshift
prior of exactly 24 lines, gives well shaped tables; a redshift prior of another length is refused. -/
theorem init_shaped (a b c : ℝ) (fs : List TplFiles) (pz : List ℝ)
    (hf : ∀ f ∈ fs, FileOk f.ezt ∧ FileOk f.mean ∧ FileOk f.sigma) :
    (pz.length = 24 → ∃ h, init a b c fs pz = .ok h ∧ h.Shaped ∧ h.names = fs.map (·.name) ∧ h.initFailed = false) ∧
    (pz.length ≠ 24 → init a b c fs pz = .throw .INTERNAL_ERROR) := by
  have hcell : ∀ f ∈ fs, ∀ kz, kz < 24 → ∀ ke, ke < 10 → ∃ t, cell f kz ke = .ok t := by
    intro f hfm kz hkz ke hke
    obtain ⟨⟨h1, h2⟩, ⟨h3, h4⟩, ⟨h5, h6⟩⟩ := hf f hfm
    unfold cell
    rw [Res.at_of_lt (by omega), Res.bind_ok,
      Res.at_of_lt (by rw [h2 _ (List.getElem_mem _)]; exact hke), Res.bind_ok,
      Res.at_of_lt (by omega), Res.bind_ok,
      Res.at_of_lt (by rw [h4 _ (List.getElem_mem _)]; exact hke), Res.bind_ok,
      Res.at_of_lt (by omega), Res.bind_ok,
      Res.at_of_lt (by rw [h6 _ (List.getElem_mem _)]; exact hke), Res.bind_ok]
    exact ⟨_, rfl⟩
  have htab : ∀ f ∈ fs, ∃ t, tableOf f = .ok t := by
    intro f hfm
    have hrow : ∀ kz, kz < nZ → ∃ r, Res.tab (fun ke => cell f kz ke) nEbv = .ok r := by
      intro kz hkz
      have := fun ke (h : ke < nEbv) => hcell f hfm kz hkz ke h
      choose! g hg using this
      exact ⟨_, Res.tab_ok nEbv hg⟩
    choose! g hg using hrow
    exact ⟨_, Res.tab_ok nZ hg⟩
  have hshape : ∀ f t, tableOf f = .ok t → t.length = 24 ∧ ∀ r ∈ t, r.length = 10 := by
    intro f t h
    have hl := Res.tab_length nZ h
    refine ⟨hl, ?_⟩
    intro r hr
    obtain ⟨i, hi, hri⟩ := List.getElem_of_mem hr
    obtain ⟨r', h1, h2⟩ := Res.tab_get nZ h i (by omega)
    rw [List.getElem?_eq_getElem hi, hri] at h1
    cases h1
    exact Res.tab_length nEbv h2
  choose! g hg using htab
  unfold init
  rw [Res.mapL_ok fs hg, Res.bind_ok]
  constructor
  · intro hp
    rw [if_neg (by unfold nZ; omega)]
    refine ⟨_, rfl, ⟨by simp, ?_, ?_, by simpa using hp⟩, rfl, rfl⟩
    · intro t ht
      obtain ⟨f, hfm, rfl⟩ := List.mem_map.1 ht
      exact (hshape f _ (hg f hfm)).1
    · intro t ht
      obtain ⟨f, hfm, rfl⟩ := List.mem_map.1 ht
      exact (hshape f _ (hg f hfm)).2
  · intro hp
    rw [if_pos (by unfold nZ; exact hp)]

/-- **C31, content.** After a successful loading, the table of each template holds, for every redshift bin and every dust
bin, the values of its own three files (the non positive ones replaced by 0), and the redshift prior those of its file (the
negative ones replaced by 0). -/
theorem init_content (a b c : ℝ) (fs : List TplFiles) (pz : List ℝ) (h : PriorHelper) (hok : init a b c fs pz = .ok h) :
    h.betaA = a ∧ h.betaTE = b ∧ h.betaZ = c ∧ (∀ (k : Nat) x, pz[k]? = some x → h.pz[k]? = some (max x 0)) ∧
    ∀ (i : Nat) f, fs[i]? = some f → h.names[i]? = some f.name ∧
      ∃ t, h.data[i]? = some t ∧ ∀ kz ke, kz < 24 → ke < 10 →
        ∃ row e r1 r2 r3 x1 x2 x3, t[kz]? = some row ∧ row[ke]? = some e ∧
          f.ezt[kz]? = some r1 ∧ r1[ke]? = some x1 ∧ f.mean[kz]? = some r2 ∧ r2[ke]? = some x2 ∧
          f.sigma[kz]? = some r3 ∧ r3[ke]? = some x3 ∧
          e.tze = max x1 0 ∧ e.mean = max x2 0 ∧ e.sigma = max x3 0 := by
  unfold init at hok
  obtain ⟨data, h1, h2⟩ := Res.bind_eq_ok.1 hok
  split at h2
  · cases h2
  cases h2
  obtain ⟨h3, h4⟩ := Res.mapL_eq_ok h1
  refine ⟨rfl, rfl, rfl, ?_, ?_⟩
  · intro k x hx
    simp only [List.getElem?_map, hx, Option.map_some, pzValue]
    split_ifs with h0
    · rw [max_eq_right h0.le]
    · rw [max_eq_left (not_lt.1 h0)]
  · intro i f hf
    refine ⟨by simp [hf], ?_⟩
    obtain ⟨t, ht, htab⟩ := h4 i f hf
    refine ⟨t, ht, fun kz ke hkz hke => ?_⟩
    obtain ⟨row, e1, e2⟩ := Res.tab_get nZ htab kz hkz
    obtain ⟨e, e3, e4⟩ := Res.tab_get nEbv e2 ke hke
    unfold cell at e4
    obtain ⟨r1, p1, e4⟩ := Res.bind_eq_ok.1 e4
    obtain ⟨x1, p2, e4⟩ := Res.bind_eq_ok.1 e4
    obtain ⟨r2, p3, e4⟩ := Res.bind_eq_ok.1 e4
    obtain ⟨x2, p4, e4⟩ := Res.bind_eq_ok.1 e4
    obtain ⟨r3, p5, e4⟩ := Res.bind_eq_ok.1 e4
    obtain ⟨x3, p6, e4⟩ := Res.bind_eq_ok.1 e4
    cases e4
    have hez : ∀ x, ezValue x = max x 0 := by
      intro x
      unfold ezValue
      split_ifs with h0
      · rw [max_eq_right h0]
      · rw [max_eq_left (not_le.1 h0).le]
    exact ⟨row, _, r1, r2, r3, x1, x2, x3, e1, e3, Res.at_eq_ok.1 p1, Res.at_eq_ok.1 p2, Res.at_eq_ok.1 p3,
      Res.at_eq_ok.1 p4, Res.at_eq_ok.1 p5, Res.at_eq_ok.1 p6, hez _, hez _, hez _⟩

/-- A template prior file with fewer than 24 lines is not detected: it is read past its end. -/
theorem init_short_file (a b c : ℝ) (f : TplFiles) (fs : List TplFiles) (pz : List ℝ)
    (hrows : ∀ r ∈ f.ezt, r.length = 10) (hm : FileOk f.mean) (hsg : FileOk f.sigma)
    (hshort : f.ezt.length < 24) : init a b c (f :: fs) pz = .ub := by
  have hrow : Res.tab (fun ke => cell f f.ezt.length ke) nEbv = .ub := by
    refine Res.tab_ub nEbv 0 (by unfold nEbv; omega) (by intro i hi; omega) ?_
    unfold cell
    rw [Res.at_eq_ub.2 (le_refl _)]; rfl
  have htab : tableOf f = .ub := by
    refine Res.tab_ub nZ f.ezt.length hshort ?_ hrow
    intro kz hkz
    obtain ⟨h3, h4⟩ := hm
    obtain ⟨h5, h6⟩ := hsg
    have : ∀ ke, ke < nEbv → ∃ t, cell f kz ke = .ok t := by
      intro ke hke
      unfold cell
      rw [Res.at_of_lt (by omega), Res.bind_ok,
        Res.at_of_lt (by rw [hrows _ (List.getElem_mem _)]; exact hke), Res.bind_ok,
        Res.at_of_lt (by omega), Res.bind_ok,
        Res.at_of_lt (by rw [h4 _ (List.getElem_mem _)]; exact hke), Res.bind_ok,
        Res.at_of_lt (by omega), Res.bind_ok,
        Res.at_of_lt (by rw [h6 _ (List.getElem_mem _)]; exact hke), Res.bind_ok]
      exact ⟨_, rfl⟩
    choose! g hg using this
    exact ⟨_, Res.tab_ok nEbv hg⟩
  unfold init Res.mapL
  rw [htab]; rfl

/-! ## Examples: the hypotheses are met -/

/-- Files of one template, 24 lines of ten ones. -/
noncomputable def exFiles : TplFiles :=
  { name := "t", ezt := List.replicate 24 (List.replicate 10 1),
    mean := List.replicate 24 (List.replicate 10 1), sigma := List.replicate 24 (List.replicate 10 1) }

example : ∃ h, init 1 1 1 [exFiles] (List.replicate 24 1) = .ok h ∧ h.Shaped ∧ h.names = ["t"] ∧
    h.initFailed = false := by
  have := (init_shaped 1 1 1 [exFiles] (List.replicate 24 1) (by
    intro f hf
    rw [List.mem_singleton] at hf
    subst hf
    unfold exFiles FileOk
    simp)).1 (by simp)
  simpa [exFiles] using this

example : Sane 7 ∧ Sane (-3) ∧ InBin 4 (1.1) := by
  unfold Sane InBin; norm_num

example : init 1 1 1 [{ exFiles with ezt := [] }] (List.replicate 24 1) = .ub :=
  init_short_file 1 1 1 { exFiles with ezt := [] } [] _ (by simp)
    (by unfold FileOk exFiles; simp)
    (by unfold FileOk exFiles; simp) (by simp)

end PriorHelper
end Amazed
