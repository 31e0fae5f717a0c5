import Verif.Model.CExpr
/-!
Bounds constraints: src/constraintResolve.c, and the parts of src/constraint.c it uses.

Simplifications: alternatives (`or`), the original constraint (`orig`), the generating expression and
the marks `post` and `fcnPre` are left out; constraints are values; the relations `NONNEGATIVE` and
`POSITIVE`, on which the modelled functions stop the program, are left out; undefined constraints do
not occur.  See Model/CExpr.lean for expressions.
-/
namespace Splint.Bounds

/-- `arithType` (Headers/constraint.h:5-9) -/
inductive Ar where
  | lt | lte | gt | gte | eq
  deriving DecidableEq, Repr

/-- `struct s_constraint` (Headers/constraint.h:11-20) -/
structure Constraint where
  l : Expr
  ar : Ar
  r : Expr
  deriving DecidableEq, Repr

open Expr

namespace Constraint

/-- `constraint_tooDeep`, with `constraint_getDepth` (constraint.c:1191-1226) -/
def tooDeep (c : Constraint) : Bool :=
  let l := c.l.depth
  let r := c.r.depth
  decide ((if l > r then l else r) ≥ 20)

/-- `flipAr` (constraintResolve.c:1479-1497) -/
def flipAr : Ar → Ar
  | .lt => .gt
  | .lte => .gte
  | .eq => .eq
  | .gt => .lt
  | .gte => .lte

/-- `constraint_swapLeftRight` (constraintResolve.c:1499-1511) -/
def swap (c : Constraint) : Constraint := ⟨c.r, flipAr c.ar, c.l⟩

/-- `constraint_solve` (constraintResolve.c:1467-1477) with `constraintExpr_solveBinaryExpr`
(constraintExpr.c:1331-1376) -/
def solve (c : Constraint) : Constraint :=
  match c.l with
  | .bin .plus a b => ⟨a, c.ar, .bin .minus c.r b⟩
  | .bin .minus a b => ⟨a, c.ar, .bin .plus c.r b⟩
  | _ => c

/-- simplification of both sides -/
def both (sim : Nat → Nat → Bool) (c : Constraint) : Constraint :=
  ⟨simplify sim c.l, c.ar, simplify sim c.r⟩

/-- the first part of `constraint_simplify` (constraintResolve.c:1525-1537) -/
def step (sim : Nat → Nat → Bool) (c : Constraint) : Constraint :=
  let c := both sim c
  match c.l with
  | .bin _ _ _ => both sim (solve c)
  | _ => c

/-- `constraint_simplify` (constraintResolve.c:1515-1550) with a bound on the number of times the
sides are exchanged; `none` if that is exceeded.  That it is not, for a bound that depends on the
constraint only, is proved (C30). -/
def simplifyN (sim : Nat → Nat → Bool) : Nat → Constraint → Option Constraint
  | 0, _ => none
  | n + 1, c =>
    if tooDeep c then some c
    else
      let c := step sim c
      if (isLit c.l).isSome && (isLit c.r).isNone then simplifyN sim n (swap c) else some c

def bound (c : Constraint) : Nat := 16 * (size c.l + size c.r)

/-- `constraint_simplify` -/
def simplify (sim : Nat → Nat → Bool) (c : Constraint) : Constraint :=
  (simplifyN sim (bound c) c).getD c

/-- `constraintTerm_getsRef` of both, cmpValued (constraintResolve.c:859-872) -/
def sameRef (sim : Nat → Nat → Bool) : Option Nat → Option Nat → Bool
  | some r, some s => sim r s
  | none, none => true
  | _, _ => false

/-- `sizeofBufComp` (constraintResolve.c:829-873); `none` if the data of an expression that is not a
term are read as those of a term, which happens if just one of the two is a term. -/
def sizeofBufComp (sim : Nat → Nat → Bool) : Expr → Expr → Option Bool
  | .term t, .term (.node n) =>
    match n.sizeOf with
    | some s => some (sameRef sim s t.getRef)
    | none => some false
  | _, .term (.node n) =>
    match n.sizeOf with
    | some _ => none
    | none => some false
  | _, .term _ => some false
  | .term _, _ => none
  | _, _ => some false

/-- `sizeOfMaxSet` (constraintResolve.c:882-960): is it `maxSet(buf) R sizeof(buf) - 1`? -/
def sizeOfMaxSet (sim : Nat → Nat → Bool) (c : Constraint) : Option Bool :=
  match c.ar with
  | .lt | .gt => some false
  | .eq | .gte | .lte =>
    match c.l, c.r with
    | .un .maxSet buf1, .bin op buf2 con =>
      match con.value with
      | some i =>
        if i == (match op with | .minus => 1 | .plus => -1) then sizeofBufComp sim buf1 buf2
        else some false
      | none => some false
    | _, _ => some false

/-- what the comparison of two values says about each relation -/
def cmp : Ar → Int → Bool
  | .eq, c => c == 0
  | .gt, c => c > 0
  | .gte, c => c ≥ 0
  | .lte, c => c ≤ 0
  | .lt, c => c < 0

/-- `constraint_isAlwaysTrue` (constraintResolve.c:965-1066); `none` if it reads invalid data -/
def isAlwaysTrue (sim : Nat → Nat → Bool) (c : Constraint) : Option Bool :=
  (sizeOfMaxSet sim c).map fun z =>
    z ||
    match c.l.value, c.r.value with
    | some x, some y => cmp c.ar (cmpValue x y)
    | _, _ =>
      if similar sim c.l c.r && (c.ar == .eq || c.ar == .gte || c.ar == .lte) then true
      else
        let p := propagate c.r
        if similar sim c.l p.1 && p.2.1 then
          match c.ar with
          | .eq => p.2.2 == 0
          | .lt => decide (p.2.2 > 0)
          | .lte => decide (p.2.2 ≥ 0)
          | .gte => decide (p.2.2 ≤ 0)
          | .gt => decide (p.2.2 < 0)
        else false

/-- `arithType_canResolve` (constraintResolve.c:800-826) -/
def canResolve : Ar → Ar → Bool
  | .gte, a => a == .gt || a == .gte || a == .eq
  | .gt, a => a == .gt || a == .gte || a == .eq
  | .eq, a => a == .eq
  | .lt, a => a == .lt || a == .lte || a == .eq
  | .lte, a => a == .lt || a == .lte || a == .eq

/-- the common part of `rangeCheck` for `GTE` and `GT`, and with `flip` for `LTE` and `LT`
(constraintResolve.c:1083-1122, 1132-1172) -/
def rangeValues (sim : Nat → Nat → Bool) (flip : Bool) (e1 e2 : Expr) : Bool :=
  match e1.value, e2.value with
  | some x, some y =>
    if flip then decide (cmpValue y x ≤ 0) else decide (cmpValue y x ≥ 0)
  | _, _ =>
    let p1 := propagate e1
    let p2 := propagate e2
    let c1 := if p1.2.1 then p1.2.2 else 0
    let c2 := if p2.2.1 then p2.2.2 else 0
    (p1.2.1 || p2.2.1) && ((if flip then decide (c1 ≥ c2) else decide (c1 ≤ c2))
      && similar sim p1.1 p2.1)

/-- `rangeCheck` (constraintResolve.c:1068-1180): does `x ar2 e2` give `x ar1 e1`? -/
def rangeCheck (sim : Nat → Nat → Bool) (ar1 : Ar) (e1 : Expr) (ar2 : Ar) (e2 : Expr) : Bool :=
  canResolve ar1 ar2 &&
  match ar1 with
  | .gte => similar sim e1 e2 || rangeValues sim false e1 e2
  | .gt => rangeValues sim false e1 e2
  | .eq => similar sim e1 e2
  | .lte => similar sim e1 e2 || rangeValues sim true e1 e2
  | .lt => rangeValues sim true e1 e2

/-- `constraintResolve_satisfies` (constraintResolve.c:745-772): does `post` give `pre`? -/
def satisfies (sim : Nat → Nat → Bool) (pre post : Constraint) : Option Bool :=
  (isAlwaysTrue sim pre).map fun t =>
    t || (similar sim pre.l post.l && rangeCheck sim pre.ar pre.r post.ar post.r)

/-- `constraintList_resolve` (constraintResolve.c:775-798): is `c` given by one of the facts? -/
def resolve (sim : Nat → Nat → Bool) (c : Constraint) : List Constraint → Option Bool
  | [] => some false
  | p :: ps => (satisfies sim c p).bind fun s => if s then some true else resolve sim c ps

/-- `constraint_searchandreplace` (constraintResolve.c:1182-1194) -/
def replace (sim : Nat → Nat → Bool) (old new : Expr) (c : Constraint) : Constraint :=
  ⟨Expr.replace sim old new c.l, c.ar, Expr.replace sim old new c.r⟩

/-- `constraint_search` (constraintResolve.c:1196-1206) -/
def search (sim : Nat → Nat → Bool) (old : Expr) (c : Constraint) : Bool :=
  Expr.search sim old c.l || Expr.search sim old c.r

/-- `constraintTerm_isExprNode` of a term -/
def isNodeTerm : Expr → Bool
  | .term (.node _) => true
  | _ => false

/-- `constraint_conflict` (constraintResolve.c:636-687) -/
def conflict (sim : Nat → Nat → Bool) (c1 c2 : Constraint) : Bool :=
  (similar sim c1.l c2.l && (c1.ar == .eq && c2.ar == .eq))
  || ((c1.ar == .eq && c2.ar == .eq) && (Expr.search sim c2.r c1.l && isNodeTerm c1.l))
  || (tooDeep c1 || tooDeep c2)

/-- `constraint_adjust` (constraintResolve.c:1209-1243): an equality that contains itself is turned
round, depending on the source locations, which are the parameter `closer`. -/
def adjust (sim : Nat → Nat → Bool) (closer : Constraint → Constraint → Bool)
    (s old : Constraint) : Constraint :=
  if Expr.search sim s.l s.r && closer old s then simplify sim ⟨s.r, s.ar, s.l⟩ else s

/-- the loop of `constraint_substitute` (constraintResolve.c:1404-1427) -/
def substituteIn (sim : Nat → Nat → Bool) (closer : Constraint → Constraint → Bool) :
    Constraint → List Constraint → Constraint
  | c, [] => c
  | c, p :: ps =>
    if p.ar == .eq && !conflict sim c p then
      let q := adjust sim closer p c
      substituteIn sim closer (replace sim q.l q.r c) ps
    else substituteIn sim closer c ps

/-- `constraint_substitute` (constraintResolve.c:1400-1431) -/
def substitute (sim : Nat → Nat → Bool) (closer : Constraint → Constraint → Bool)
    (c : Constraint) (p : List Constraint) : Constraint :=
  simplify sim (substituteIn sim closer c p)

/-- `constraintExpr_makeIncConstraintExpr`, `constraintExpr_makeDecConstraintExpr`
(constraintExpr.c:872-881, 911-920) -/
def inc (e : Expr) : Expr := .bin .plus e (.lit 1)
def dec (e : Expr) : Expr := .bin .minus e (.lit 1)

/-- the loop of `inequalitySubstitute` (constraintResolve.c:1259-1283): `x >= y` with the fact
`b < y` becomes `x >= b + 1` -/
def inequalityIn (sim : Nat → Nat → Bool) : Constraint → List Constraint → Constraint
  | c, [] => c
  | c, p :: ps =>
    inequalityIn sim (if p.ar == .lt && similar sim p.r c.r then { c with r := inc p.l } else c) ps

/-- `inequalitySubstitute` (constraintResolve.c:1252-1287) -/
def inequality (sim : Nat → Nat → Bool) (c : Constraint) (p : List Constraint) : Constraint :=
  if c.ar == .gte then simplify sim (inequalityIn sim c p) else c

/-- the loop of `inequalitySubstituteUnsound` (constraintResolve.c:1369-1394) -/
def unsoundIn (sim : Nat → Nat → Bool) : Constraint → List Constraint → Constraint
  | c, [] => c
  | c, p :: ps =>
    unsoundIn sim
      (match p.ar with
        | .lte => { c with l := Expr.replace sim p.l p.r c.l }
        | .lt => { c with l := Expr.replace sim p.l (dec p.r) c.l }
        | _ => c) ps

/-- `inequalitySubstituteUnsound` (constraintResolve.c:1361-1398) -/
def unsound (sim : Nat → Nat → Bool) (c : Constraint) (p : List Constraint) : Constraint :=
  if c.ar == .gte then simplify sim (unsoundIn sim c p) else c

/-- the loop of `reflectChangesNoOr` (constraintResolve.c:276-304) for one requirement: `some none`
if it is dropped -/
def reflectOne (sim : Nat → Nat → Bool) (closer : Constraint → Constraint → Bool)
    (post : List Constraint) (c : Constraint) : Option (Option Constraint) :=
  (resolve sim c post).bind fun r1 =>
    if r1 then some none
    else
      let t := substitute sim closer c post
      (resolve sim t post).bind fun r2 =>
        if r2 then some none
        else
          let t2 := inequality sim t post
          (resolve sim t2 post).bind fun r3 =>
            if r3 then some none
            else
              let t3 := unsound sim t2 post
              (resolve sim t3 post).bind fun r4 => if r4 then some none else some (some t3)

/-- `reflectChangesNoOr` (constraintResolve.c:264-308), without `constraintList_add`'s merging -/
def reflect (sim : Nat → Nat → Bool) (closer : Constraint → Constraint → Bool)
    (post : List Constraint) : List Constraint → Option (List Constraint)
  | [] => some []
  | c :: cs =>
    (reflectOne sim closer post c).bind fun r =>
      (reflect sim closer post cs).map fun rs => r.toList ++ rs

/-- `constraintList_subsumeEnsures` (constraintResolve.c:224-245) -/
def subsume (sim : Nat → Nat → Bool) (facts : List Constraint) :
    List Constraint → Option (List Constraint)
  | [] => some []
  | c :: cs =>
    (resolve sim c facts).bind fun r =>
      (subsume sim facts cs).map fun rs => if r then rs else c :: rs

end Constraint
end Splint.Bounds
