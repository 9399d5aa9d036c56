import Verif.Model.EltSupport
import Verif.Model.Amp
import Mathlib.Data.List.Sort

set_option linter.unusedVariables false

/-! # Lists of line elements

`RedshiftLibrary/src/lib/linemodel/elementlist.cpp` and the grouping loop of `hybridfitter.cpp`.

Indexes of elements are natural numbers (a negative one would be an undefined access). Names of groups are elements of a
linearly ordered type, which is what `std::map` uses of `std::string`. -/

namespace Amazed
namespace EltList

/-- Range-based `for` over a list. -/
def foldL {α σ : Type} (f : α → σ → Res σ) : List α → σ → Res σ
  | [], s => .ok s
  | a :: l, s => f a s >>= fun s' => foldL f l s'

/-- `std::unique` followed by `erase`: of consecutive equal elements one is kept. -/
def uniq {α : Type} [DecidableEq α] : List α → List α
  | [] => []
  | [a] => [a]
  | a :: b :: l => if a = b then uniq (b :: l) else a :: uniq (b :: l)

/-- `std::sort` followed by `std::unique` and `erase` on a vector of integers; on a total order all the sorts agree. -/
def sortUniq {α : Type} [LinearOrder α] (l : List α) : List α := uniq (l.insertionSort (· ≤ ·))

/-- `m[k].push_back(v)` on a `std::map` from a key to a vector; the map is the list of its entries in the order of the
keys. -/
def mapPush {G V : Type} [LinearOrder G] (k : G) (v : V) : List (G × List V) → List (G × List V)
  | [] => [(k, [v])]
  | (k', l) :: m => if k < k' then (k, [v]) :: (k', l) :: m
    else if k = k' then (k', l ++ [v]) :: m
    else (k', l) :: mapPush k v m

variable {K G : Type} [Field K] [LinearOrder K] [IsStrictOrderedRing K] [LinearOrder G]

/-- What these functions read of an element: supports in the current spectrum, type, fitting group, value of its
polynomial (`CPolynomCoeffs::getValue`), observed position and window size of its lines, velocity groups and types of
its lines. -/
structure E (K G : Type) where
  sup : EltSup.Elt
  type : Amp.LType
  group : G
  poly : K → K
  mu : Nat → K
  win : Nat → K
  lines : List (Amp.LType × G)

/-- `for (j = begin; j <= end; j++) indexes.push_back(j)` (elementlist.cpp:319-322). -/
def zrange (r : ℤ × ℤ) : List ℤ := (List.range (r.2 - r.1 + 1).toNat).map fun (k : Nat) => r.1 + k

/-- `getSupportIndexes` (elementlist.cpp:303-327). -/
def supportIndexes (es : List (E K G)) (idx : List Nat) : Res (List ℤ) :=
  foldL (fun i acc => Res.at_ es i >>= fun e =>
    if e.sup.outside then .ok acc else .ok (acc ++ e.sup.getSupport)) idx [] >>= fun sup =>
  .ok (sortUniq (sup.flatMap zrange))

/-- `lineTypeFilter != nType_All && lineTypeFilter != lineType` (elementlist.cpp:468). -/
def typeKept (filter type : Amp.LType) : Bool := decide (filter = .all) || decide (filter = type)

/-- `getFittingGroups` (elementlist.cpp:452-483); `undef` is `undefStr`. -/
def fittingGroups (undef : G) (es : List (E K G)) (idx : List Nat) (filter : Amp.LType) : Res (List (G × List Nat)) :=
  foldL (fun i m => Res.at_ es i >>= fun e =>
    if typeKept filter e.type = false then .ok m
    else if e.group = undef then .ok m
    else .ok (mapPush e.group i m)) (if idx = [] then List.range es.length else idx) []

/-- The loop on the samples of a group (elementlist.cpp:350-353): flux and mask. -/
def offsetSamples (poly : K → K) (axis : List K) : List ℤ → List K × List K → Res (List K × List K) :=
  foldL (fun s st => if s < 0 then .ub else
    Res.at_ st.1 s.toNat >>= fun y => Res.at_ axis s.toNat >>= fun x => Res.at_ st.2 s.toNat >>= fun m =>
    .ok (st.1.set s.toNat (y + poly x * m), st.2.set s.toNat 0))

/-- The body of the loop on the groups (elementlist.cpp:344-353). -/
def offsetGroup (es : List (E K G)) (axis : List K) (g : List Nat) (st : List K × List K) : Res (List K × List K) :=
  supportIndexes es g >>= fun samples =>
  Res.at_ g 0 >>= fun i => Res.at_ es i >>= fun e =>
  offsetSamples e.poly axis samples st

/-- `addToSpectrumAmplitudeOffset` (elementlist.cpp:329-355). -/
def addOffsets (undef : G) (es : List (E K G)) (axis flux : List K) (idx : List Nat) (filter : Amp.LType) : Res (List K) :=
  fittingGroups undef es idx filter >>= fun groups =>
  foldL (fun g st => offsetGroup es axis g.2 st) groups (flux, List.replicate flux.length 1) >>= fun st => .ok st.1

/-- `GetModelValidElementsIndexes` (elementlist.cpp:68-80). -/
def validIndexes (es : List (E K G)) (disabled : List Nat) : List Nat :=
  (List.range es.length).filter fun i => match es[i]? with
    | none => false
    | some e => !e.sup.outside && !disabled.contains i

/-- The test on two lines (elementlist.cpp:209-229). -/
def linesOverlap (muR winR muE winE thres : K) : Bool :=
  decide (max (muR - winR / 2) (muE - winE / 2) - min (muR + winR / 2) (muE + winE / 2) < -(winR * thres))

/-- The loop on the lines of the reference element with its `break` (elementlist.cpp:203-233): was the element pushed? -/
def lineHits (r e : E K G) (thres : K) (k : Nat) : Bool :=
  (List.range r.sup.n).any fun l => !(r.sup.theo l).out && linesOverlap (r.mu l) (r.win l) (e.mu k) (e.win k) thres

/-- The pushes of element `i` by the loop on its lines (elementlist.cpp:199-234). -/
def pushes (r e : E K G) (thres : K) (i : Nat) : List Nat :=
  (List.range e.sup.n).flatMap fun k => if !(e.sup.theo k).out && lineHits r e thres k then [i] else []

/-- `getOverlappingElements` (elementlist.cpp:164-240). -/
def overlapping (es : List (E K G)) (ind : Nat) (excluded : List Nat) (thres : K) : Res (List Nat) :=
  Res.at_ es ind >>= fun r =>
  if r.sup.outside then .ok [ind]
  else Res.foldN (fun i acc => Res.at_ es i >>= fun e =>
    if i = ind then .ok (acc ++ [ind])
    else if e.type ≠ r.type then .ok acc
    else if e.sup.outside then .ok acc
    else if i ∈ excluded then .ok acc
    else .ok (acc ++ pushes r e thres i)) 0 es.length [] >>= fun l => .ok (sortUniq l)

/-- The loop of `fitAmplitudesHybrid` (hybridfitter.cpp:127-173) as a function of the groups it fits: each group is the
element it starts from and the elements fitted with it; the first component of the state is `indexesFitted`. -/
def hybridStep (es : List (E K G)) (thres : K) (i : Nat) (st : List Nat × List (Nat × List Nat)) :
    Res (List Nat × List (Nat × List Nat)) :=
  if i ∈ st.1 then .ok st
  else overlapping es i st.1 thres >>= fun o => .ok (st.1 ++ o, st.2 ++ [(i, o)])

/-- The groups fitted by `fitAmplitudesHybrid` (hybridfitter.cpp:120-173) in order. -/
def hybridGroups (es : List (E K G)) (disabled : List Nat) (thres : K) : Res (List (Nat × List Nat)) :=
  foldL (hybridStep es thres) (validIndexes es disabled) ([], []) >>= fun st => .ok st.2

/-- The tag of the lines of one element (elementlist.cpp:122-130): `single` is `"single_" + line.GetStrID()`, given per
line as the group name when the velocity group is undefined. -/
def velTags (type : Amp.LType) (e : E K G) : List G := (e.lines.filter fun l => decide (type = l.1)).map (·.2)

/-- `GetModelVelfitGroups` (elementlist.cpp:113-154). The loop that removes the duplicates works on copies
(`for (auto [_, group] : tag_groups)`) and has no effect. -/
def velfitGroups (es : List (E K G)) (disabled : List Nat) (type : Amp.LType) : Res (List (List Nat)) :=
  foldL (fun i m => Res.at_ es i >>= fun e => .ok ((velTags type e).foldl (fun m t => mapPush t i m) m))
    (validIndexes es disabled) [] >>= fun m => .ok (m.map (·.2))

end EltList
end Amazed
