import Verif.Model.Loop
import Mathlib.Algebra.Order.Archimedean.Real.Basic
import Mathlib.Analysis.SpecialFunctions.Log.Basic
import Mathlib.Analysis.SpecialFunctions.Trigonometric.Basic

/-! # Template prior tables (`src/lib/statistics/priorhelper.cpp`, `statistics/priorhelper.h`) -/

namespace Amazed

namespace Res

/-- `for (x : l) out.push_back(f(x))`. -/
def mapL {α β : Type} (f : α → Res β) : List α → Res (List β)
  | [] => .ok []
  | a :: l => f a >>= fun b => mapL f l >>= fun bs => .ok (b :: bs)

theorem mapL_ok {α β : Type} {f : α → Res β} {g : α → β} :
    ∀ (l : List α), (∀ a ∈ l, f a = .ok (g a)) → mapL f l = .ok (l.map g)
  | [], _ => rfl
  | a :: l, h => by
    unfold mapL
    rw [h a (by simp), bind_ok, mapL_ok l (fun b hb => h b (by simp [hb])), bind_ok]
    rfl

theorem mapL_ne_ub {α β : Type} {f : α → Res β} :
    ∀ (l : List α), (∀ a ∈ l, f a ≠ .ub) → mapL f l ≠ .ub
  | [], _ => by simp [mapL]
  | a :: l, h => by
    have ih := mapL_ne_ub l (fun b hb => h b (by simp [hb]))
    have ha := h a (by simp)
    unfold mapL
    cases h1 : f a with
    | ub => exact absurd h1 ha
    | throw e => simp
    | ok b =>
      cases h2 : mapL f l with
      | ub => exact absurd h2 ih
      | throw e => simp
      | ok b => simp

theorem mapL_eq_ok {α β : Type} {f : α → Res β} :
    ∀ {l : List α} {bs : List β}, mapL f l = .ok bs →
      bs.length = l.length ∧ ∀ (i : Nat) a, l[i]? = some a → ∃ b, bs[i]? = some b ∧ f a = .ok b
  | [], bs, h => by
    unfold mapL at h; cases h; simp
  | a :: l, bs, h => by
    unfold mapL at h
    obtain ⟨b, h1, h2⟩ := bind_eq_ok.1 h
    obtain ⟨bs', h3, h4⟩ := bind_eq_ok.1 h2
    cases h4
    obtain ⟨h5, h6⟩ := mapL_eq_ok h3
    refine ⟨by simp [h5], ?_⟩
    intro i x hx
    cases i with
    | zero => simp at hx; subst hx; exact ⟨b, by simp, h1⟩
    | succ i => simp at hx; simpa using h6 i x hx

end Res

/-- One prior value of the table: `priorTZE`, `A_sigma`, `A_mean` of `CPriorHelper::SPriorTZE`
(priorhelper.h:56-59). -/
structure TZE where
  tze : ℝ
  sigma : ℝ
  mean : ℝ

/-- `SPriorTZE` after `fillPriorDataPerZ` (priorhelper.h:56-67). -/
structure TZEOut where
  src : TZE
  logA : ℝ
  logTE : ℝ
  logZ : ℝ
  betaA : ℝ
  betaTE : ℝ
  betaZ : ℝ

/-- `CPriorHelper` (priorhelper.h:104-123). The constants `m_nZ = 24`, `m_dz = 0.25`, `m_z0 = 0`,
`m_nEbv = 10`, `m_deltaA` are never modified and are inlined. -/
structure PriorHelper where
  initFailed : Bool
  betaA : ℝ
  betaTE : ℝ
  betaZ : ℝ
  names : List String
  data : List (List (List TZE))
  pz : List ℝ

namespace PriorHelper

/-- `m_nZ` (priorhelper.h:108). -/
def nZ : Nat := 24
/-- `m_nEbv` (priorhelper.h:112). -/
def nEbv : Nat := 10
/-- `m_dz` (priorhelper.h:109). -/
noncomputable def dz : ℝ := 1 / 4
/-- `m_deltaA` (priorhelper.h:114). -/
noncomputable def deltaA : ℝ := 1 / 10 ^ 13 - 1 / 10 ^ 20

open Classical in
/-- Conversion `Int32(x)` of a finite double: truncation toward zero, undefined when the truncated
value is not representable. -/
noncomputable def toInt32 (x : ℝ) : Res Int :=
  let t := if 0 ≤ x then ⌊x⌋ else ⌈x⌉
  if -2147483648 ≤ t ∧ t < 2147483648 then .ok t else .ub

/-- `getRedshiftIndex` (priorhelper.cpp:406-420). -/
noncomputable def redshiftIndex (z : ℝ) (mode : Int) : Res Int :=
  toInt32 ((z - 0) / dz) >>= fun idz =>
  if mode = 1 then
    if idz < 0 ∨ idz ≥ nZ then .throw .INTERNAL_ERROR else .ok idz
  else if mode = 0 then .ok (min (max idz 0) nZ)
  else .ok idz

/-- `getTemplateIndex` (priorhelper.cpp:395-404). -/
def templateIndex (h : PriorHelper) (name : String) : Res Nat :=
  match h.names.findIdx? (· == name) with
  | some i => .ok i
  | none => .throw .INTERNAL_ERROR

open Classical in
/-- Body of the loop of `fillPriorDataPerZ` (priorhelper.cpp:355-376). The check of `logPTE` being a
valid float never fails on a positive finite value and is left out. -/
noncomputable def fillOne (h : PriorHelper) (idz : Int) (d : TZE) : Res TZEOut :=
  if d.tze ≤ 0 then .throw .INTERNAL_ERROR
  else
    Res.atZ h.pz idz >>= fun p =>
    .ok { src := d
          logA := if d.sigma > 0 then -(1 / 2) * Real.log (2 * Real.pi) - Real.log d.sigma
                  else Real.log (1 / deltaA)
          logTE := Real.log d.tze
          logZ := if p > 0 then Real.log (p / dz) else 0
          betaA := h.betaA, betaTE := h.betaTE, betaZ := h.betaZ }

/-- One iteration of the loop of `GetTplPriorData` (priorhelper.cpp:345-350). -/
noncomputable def rowAt (h : PriorHelper) (idx : Nat) (mode : Int) (z : ℝ) : Res (List TZEOut) :=
  redshiftIndex z mode >>= fun idz =>
  Res.at_ h.data idx >>= fun t =>
  Res.atZ t idz >>= fun row =>
  Res.mapL (h.fillOne idz) row

open Classical in
/-- `GetTplPriorData` (priorhelper.cpp:322-351). -/
noncomputable def tplPriorData (h : PriorHelper) (name : String) (zs : List ℝ) (mode : Int) :
    Res (List (List TZEOut)) :=
  if h.betaA ≤ 0 ∧ h.betaTE ≤ 0 ∧ h.betaZ ≤ 0 then .throw .INTERNAL_ERROR
  else if h.initFailed then .ok []
  else h.templateIndex name >>= fun idx => Res.mapL (h.rowAt idx mode) zs

/-- `GetTZEPriorData` (priorhelper.cpp:379-393). -/
noncomputable def tzePriorData (h : PriorHelper) (name : String) (ebv : Int) (z : ℝ) (mode : Int) :
    Res TZEOut :=
  if ebv < 0 ∨ ebv > (nEbv : Int) - 1 then .throw .INTERNAL_ERROR
  else
    h.tplPriorData name [z] mode >>= fun d =>
    Res.at_ d 0 >>= fun row => Res.atZ row ebv

/-! ## Loading -/

/-- The content of the prior files of one template, as read by `operator>>`: the number of
non-comment lines of each file, and their first ten values (a value that cannot be read is 0). -/
structure TplFiles where
  name : String
  ezt : List (List ℝ)
  mean : List (List ℝ)
  sigma : List (List ℝ)

open Classical in
/-- Value kept by `loadFileEZ` (priorhelper.cpp:268-272): non positive values become
`m_priorminval = 0`. -/
noncomputable def ezValue (x : ℝ) : ℝ := if x ≤ 0 then 0 else x

/-- `setEZTData`, `setAGaussmeanData`, `setAGausssigmaData` (priorhelper.cpp:199-236) on one template,
after `loadFileEZ`: element `(kz, ke)`. The three loops over the table are done together. -/
noncomputable def cell (f : TplFiles) (kz ke : Nat) : Res TZE :=
  Res.at_ f.ezt kz >>= fun r1 => Res.at_ r1 ke >>= fun x1 =>
  Res.at_ f.mean kz >>= fun r2 => Res.at_ r2 ke >>= fun x2 =>
  Res.at_ f.sigma kz >>= fun r3 => Res.at_ r3 ke >>= fun x3 =>
  .ok { tze := ezValue x1, mean := ezValue x2, sigma := ezValue x3 }

/-- The table of one template. -/
noncomputable def tableOf (f : TplFiles) : Res (List (List TZE)) :=
  Res.tab (fun kz => Res.tab (fun ke => cell f kz ke) nEbv) nZ

open Classical in
/-- Value kept by `loadFileZ` (priorhelper.cpp:300-302). -/
noncomputable def pzValue (x : ℝ) : ℝ := if x < 0 then 0 else x

/-- `Init` (priorhelper.cpp:53-128) on a prior directory with the given files; a missing file of a
pair is an exception before anything is loaded and is not represented. `betas` are those of the
object. The files are read in the same order per kind in the code; here per template. -/
noncomputable def init (betaA betaTE betaZ : ℝ) (fs : List TplFiles) (pzLines : List ℝ) : Res PriorHelper :=
  Res.mapL tableOf fs >>= fun data =>
  if pzLines.length ≠ nZ then .throw .INTERNAL_ERROR
  else .ok { initFailed := false, betaA := betaA, betaTE := betaTE, betaZ := betaZ,
             names := fs.map (·.name), data := data, pz := pzLines.map pzValue }

end PriorHelper
end Amazed
