import Mathlib.Algebra.Order.Field.Basic
import Verif.Model.SpectralAxis
import Verif.Model.Loop

/-! # Air / vacuum wavelength conversion (`src/lib/line/airvacuum.cpp`, `line/airvacuum.h`,
`src/lib/spectrum/spectralaxis.cpp:50-87`)

Wavelengths are elements of a linearly ordered field: rounding, NaN and infinities are not represented, a division by
zero is reported as `ub`. Log messages are not modelled, the warning of the iterated inversion is a returned flag. -/

namespace Amazed
namespace AirVac

variable {K : Type} [Field K] [LinearOrder K]

/-- `CAirVacuum`: the coefficients (airvacuum.h:69-73), the range accepted by the override of `CheckWaveRange`
(airvacuum.cpp:177-245) and whether `AirToVac` is overridden (airvacuum.h:124). -/
structure Conv (K : Type) where
  a : K
  b1 : K
  b2 : K
  c1 : K
  c2 : K
  lo : K
  hi : Option K
  direct : Bool

/-- `CAirVacEdlen1953` (airvacuum.h:81-87, airvacuum.cpp:177-186). -/
def edlen1953 : Conv K :=
  ⟨64328 / 10 ^ 9, 294981 / 10 ^ 7, 25540 / 10 ^ 8, 146, 41, 2000, none, false⟩

/-- `CAirVacEdlen1966` (airvacuum.h:89-95, airvacuum.cpp:188-197). -/
def edlen1966 : Conv K :=
  ⟨834213 / 10 ^ 10, 2406030 / 10 ^ 8, 15997 / 10 ^ 8, 130, 389 / 10, 2000, none, false⟩

/-- `CAirVacPeckReeder1972` (airvacuum.h:97-103, airvacuum.cpp:199-213). -/
def peckReeder1972 : Conv K :=
  ⟨0, 5791817 / 10 ^ 8, 167909 / 10 ^ 8, 2380185 / 10 ^ 4, 57362 / 10 ^ 3, 3000, some 19000, false⟩

/-- `CAirVacCiddor1996` (airvacuum.h:105-111, airvacuum.cpp:215-229). -/
def ciddor1996 : Conv K :=
  ⟨0, 5792105 / 10 ^ 8, 167917 / 10 ^ 8, 2380185 / 10 ^ 4, 57362 / 10 ^ 3, 3000, some 19000, false⟩

/-- `CAirVacMorton2000` (airvacuum.h:117-125, airvacuum.cpp:231-245). -/
def morton2000 : Conv K :=
  ⟨834254 / 10 ^ 10, 2406147 / 10 ^ 8, 15998 / 10 ^ 8, 130, 389 / 10, 3000, some 19000, true⟩

/-- `CAirVacuumConverter::Get` (airvacuum.cpp:48-64). -/
def get (name : String) : Res (Conv K) :=
  if name = "edlen1953" then .ok edlen1953
  else if name = "edlen1966" then .ok edlen1966
  else if name = "PeckReeder1972" then .ok peckReeder1972
  else if name = "ciddor1996" then .ok ciddor1996
  else if name = "morton2000" then .ok morton2000
  else .throw .UNKNOWN_AIR_VACUUM_CONVERSION

/-- `*std::min_element`, `none` for an empty list: the first of the smallest elements. -/
def minElem : List K → Option K
  | [] => none
  | x :: l => some (l.foldl (fun m y => if y < m then y else m) x)

/-- `*std::max_element` with the comparison `lt`: the first of the largest elements. -/
def maxElemBy (lt : K → K → Bool) : List K → Option K
  | [] => none
  | x :: l => some (l.foldl (fun m y => if lt m y then y else m) x)

/-- `CheckWaveRange` of the five classes (airvacuum.cpp:177-245). -/
def checkWaveRange (c : Conv K) (wave : List K) : Res Unit :=
  match minElem wave with
  | none => .throw .INTERNAL_ERROR
  | some m =>
    if m < c.lo then .throw .INTERNAL_ERROR
    else
      match c.hi with
      | none => .ok ()
      | some h =>
        match maxElemBy (fun x y => decide (x < y)) wave with
        | none => .ub
        | some mx => if h < mx then .throw .INTERNAL_ERROR else .ok ()

/-- `1. + a + b1 / (c1 - s) + b2 / (c2 - s)` with `s = 1e8 / (w * w)` (airvacuum.cpp:144-148, 165-168). -/
def indexAt (a b1 b2 c1 c2 w : K) : Res K :=
  if w * w = 0 then .ub
  else
    let s := 10 ^ 8 / (w * w)
    if c1 - s = 0 ∨ c2 - s = 0 then .ub
    else .ok (1 + a + b1 / (c1 - s) + b2 / (c2 - s))

/-- `AirRefractiveIndex` (airvacuum.cpp:164-175). -/
def airRefractiveIndex (c : Conv K) (wave : List K) : Res (List K) :=
  Res.tab (fun i => Res.at_ wave i >>= fun w => indexAt c.a c.b1 c.b2 c.c1 c.c2 w) wave.length

/-- `std::transform` with `std::divides` (airvacuum.cpp:78-79). -/
def divLists (x y : List K) : Res (List K) :=
  Res.tab (fun i => Res.at_ x i >>= fun a => Res.at_ y i >>= fun b => if b = 0 then .ub else .ok (a / b)) x.length

/-- `std::transform` with `std::minus` (airvacuum.cpp:102-103, 106-107). -/
def subLists (x y : List K) : Res (List K) :=
  Res.tab (fun i => Res.at_ x i >>= fun a => Res.at_ y i >>= fun b => .ok (a - b)) x.length

/-- `std::transform` with `std::multiplies` (airvacuum.cpp:155-156). -/
def mulLists (x y : List K) : Res (List K) :=
  Res.tab (fun i => Res.at_ x i >>= fun a => Res.at_ y i >>= fun b => .ok (a * b)) x.length

/-- `VacToAir` (airvacuum.cpp:66-82). -/
def vacToAir (c : Conv K) (waveVac : List K) : Res (List K) :=
  checkWaveRange c waveVac >>= fun _ =>
  airRefractiveIndex c waveVac >>= fun n =>
  divLists waveVac n

/-- What the iterated inversion returns: the vacuum wavelengths and whether the warning
`AIR_VACUUM_REACHED_MAX_ITERATIONS` is emitted. -/
structure Inv (K : Type) where
  vac : List K
  warn : Bool
deriving DecidableEq, Repr

/-- The `do … while` loop (airvacuum.cpp:99-116) and the warning (118-123): `k` is the number of iterations that are
still allowed, this one included; `precision` is the *signed* value of the element of largest magnitude. -/
def invLoop [IsStrictOrderedRing K] (c : Conv K) (waveAir : List K) : Nat → List K → Res (Inv K)
  | 0, waveVac => .ok ⟨waveVac, true⟩
  | k + 1, waveVac =>
    vacToAir c waveVac >>= fun d0 =>
    subLists d0 waveAir >>= fun delta =>
    subLists waveVac delta >>= fun vac' =>
    match maxElemBy (fun x y => decide (|x| < |y|)) delta with
    | none => .ub
    | some precision =>
      if precision ≤ 1 / 10 ^ 9 then .ok ⟨vac', false⟩ else invLoop c waveAir k vac'

/-- `CAirVacuum::AirToVac` (airvacuum.cpp:84-126) and `CAirVacMorton2000::AirToVac` (136-159). -/
def airToVac [IsStrictOrderedRing K] (c : Conv K) (waveAir : List K) : Res (Inv K) :=
  checkWaveRange c waveAir >>= fun _ =>
  if c.direct then
    Res.tab (fun i => Res.at_ waveAir i >>= fun w =>
      indexAt (8336624212083 / 10 ^ 17) (2408926869968 / 10 ^ 14) (1599740894897 / 10 ^ 16)
        (1301065924522 / 10 ^ 10) (3892568793293 / 10 ^ 11) w) waveAir.length >>= fun n =>
    mulLists waveAir n >>= fun v => .ok ⟨v, false⟩
  else invLoop c waveAir 30 waveAir

/-- The constructors of `CSpectrumSpectralAxis` taking a conversion name, with `convertToVacuum`
(spectralaxis.cpp:56-85): the cached properties are still `indeterminate`. -/
def makeAxis [IsStrictOrderedRing K] (samples : List K) (airVacuum : String) : Res (SAxis K) :=
  if airVacuum ≠ "" then
    get airVacuum >>= fun c => airToVac c samples >>= fun r => .ok ⟨r.vac, none, none⟩
  else .ok (SAxis.ofList samples)

end AirVac
end Amazed
