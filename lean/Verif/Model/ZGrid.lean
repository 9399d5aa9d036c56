import Verif.Model.Grid

/-! # Redshift grid refinement (`src/lib/common/zgridparam.cpp`, `common/vectorOperations.h`) -/

namespace Amazed

/-- `insertWithDuplicates(dest, pos, src, ndup)` (vectorOperations.h:48-57): insert the first
`src.size() - ndup` elements at `pos`, then overwrite the following `ndup` elements with the rest.
Undefined if `ndup < 0`, if `ndup > src.size()` (iterator before `begin()`), if `pos` is not an
insertion point or if the copy runs past the end. -/
def insertWithDuplicates {β : Type*} (dest : List β) (pos : Nat) (src : List β) (ndup : Nat) :
    Res (List β) :=
  if src.length < ndup ∨ dest.length < pos ∨ dest.length < pos + ndup then .ub
  else
    let ninsert := src.length - ndup
    let inserted := dest.take pos ++ src.take ninsert ++ dest.drop pos
    .ok (inserted.take (pos + ninsert) ++ src.drop ninsert ++ inserted.drop (pos + ninsert + ndup))

/-- `insertWithDuplicates(dest, pos, count, value, ndup)` (vectorOperations.h:59-67). -/
def insertValueWithDuplicates {β : Type*} (dest : List β) (pos count : Nat) (value : β)
    (ndup : Nat) : Res (List β) :=
  insertWithDuplicates dest pos (List.replicate count value) ndup

section
variable {K : Type*} [AddCommGroup K] [LinearOrder K]

/-- `if (b) v.front() = x` and `if (b) v.back() = x` of `insertSubgrid` (zgridparam.cpp:85-88). -/
def patchEnds (front back : Option K) (sub : List K) : List K :=
  let s1 := match front with | some x => sub.modify 0 (fun _ => x) | none => sub
  match back with | some x => s1.modify (s1.length - 1) (fun _ => x) | none => s1

/-- `CZGridListParams::insertSubgrid(subgrid, zgrid)` (zgridparam.cpp:73-94); `eps` is the constant
`1E-8`. The result is the new `zgrid` and the returned `(imin, ndup)`. The range built from an empty
`zgrid` has bounds 0, which does not matter since `getClosedIntervalIndices` then throws. -/
def insertSubgrid (eps : K) (sub zgrid : List K) : Res (List K × Nat × Nat) :=
  match sub[0]?, sub[sub.length - 1]? with
  | some sf, some sb =>
    match zgrid[0]?, zgrid[zgrid.length - 1]? with
    | some zf, some zb =>
      let re : Range K := ⟨sf - eps, sb + eps⟩
      let rng := (Range.intersect re ⟨zf, zb⟩ re).2
      match rng.closedIdx zgrid with
      | .ok (imin, imax) =>
        let sub' := patchEnds (if rng.b = zf then some zf else none)
          (if rng.e = zb then some zb else none) sub
        let ndup := imax - imin + 1
        match insertWithDuplicates zgrid imin sub' ndup with
        | .ok z => .ok (z, imin, ndup)
        | .throw er => .throw er
        | .ub => .ub
      | .throw er => .throw er
      | .ub => .ub
    | _, _ => .throw .EMPTY_LIST
  | _, _ => .ub

/-- The loop of `CZGridListParams::getZGrid` (zgridparam.cpp:64-69), given the main grid and the
subgrids already generated by `CZGridParam::getZGrid`. -/
def insertSubgrids (eps : K) (zgrid : List K) : List (List K) → Res (List K)
  | [] => .ok zgrid
  | s :: ss =>
    match insertSubgrid eps s zgrid with
    | .ok (z, _, _) => insertSubgrids eps z ss
    | .throw er => .throw er
    | .ub => .ub

end
end Amazed
