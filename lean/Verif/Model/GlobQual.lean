import Verif.Tactics
/-!
# The qualifiers of a global in the list of a function

Models `optGlobQuals` and `globIdListExpr` (src/cgrammar.y:761-782), `clabstract_createGlobal` (src/clabstract.c:266-284)
and `reflectGlobalQualifiers` (src/clabstract.c:187-264) for the qualifiers that the grammar has there; with
`sstate_fromQual` (src/varKinds.c:323-339) and `sRef_isKilledGlob` (src/Headers/sRef.h:466-469).

Simplifications: the reference is a variable that is known, so that `sRef_setDefState` sets its state and no other
(src/sRef.c:5386-5425). The four questions about its type are one value. The branches for null qualifiers and others,
which the grammar does not allow, are left out.
-/
namespace Splint.GlobQual

/-- `globQual` -/
inductive Qual where
  | undef | killed | out | inn | part
deriving DecidableEq, Repr

/-- `sstate`; `before` is any that has nothing to do with lists of globals -/
inductive SState where
  | before | undefGlob | killed | undefKilled | allocated | defined | part
deriving DecidableEq, Repr

/-- `qual_isGlobalQual` -/
def Qual.isGlobal : Qual → Bool
  | .undef | .killed => true
  | _ => false

/-- `sstate_fromQual` -/
def fromQual : Qual → SState
  | .out => .allocated
  | .inn => .defined
  | .part => .part
  | .undef => .undefGlob
  | .killed => .killed

/-- `optGlobQuals` (src/cgrammar.y:765-768): the rule is right recursive, and the qualifier is added behind those that
follow it -/
def optGlobQuals : List Qual → List Qual
  | [] => []
  | q :: qs => optGlobQuals qs ++ [q]

/-- the state, and the qualifiers reported as "used on non-pointer or struct" -/
abbrev Res := SState × List Qual

/-- the body of the loop; `okType`: a pointer, array, struct or union, unknown, or abstract -/
def step (okType : Bool) (r : Res) (q : Qual) : Res :=
  if q.isGlobal then
    let d := fromQual q
    (if (r.1 == .undefGlob && d == .killed) || (r.1 == .killed && d == .undefGlob) then .undefKilled else d, r.2)
  else (fromQual q, if okType then r.2 else r.2 ++ [q])

/-- `reflectGlobalQualifiers` -/
def reflect (okType : Bool) (s : SState) (quals : List Qual) : Res := quals.foldl (step okType) (s, [])

/-- `globIdListExpr`: the qualifiers as they are written, for a variable with a state -/
def globIdListExpr (okType : Bool) (s : SState) (written : List Qual) : Res := reflect okType s (optGlobQuals written)

/-- `sRef_isKilledGlob` -/
def isKilledGlob (s : SState) : Bool := s == .killed || s == .undefKilled

end Splint.GlobQual
