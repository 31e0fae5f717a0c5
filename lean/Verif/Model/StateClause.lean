import Verif.Tactics
/-!
# State clauses of functions

Model of the clauses `uses`, `defines`, `allocates`, `releases`, `sets`, `requires q` and `ensures q` (src/stateClause.c), of what is assumed of
parameters at the entry of a function (usymtab.c:2284-2355), of the checks of the arguments of a call
(`checkPassstateClauseList`, transferChecks.c:1786-1857, and `checkRequiresClause`, exprNode.c:3610-3745), of what is assumed after a call
(`uentry_returnedRef`, uentry.c:10806-10847, `reflectEnsuresClause`, exprNode.c:3262-3369), and of the checks at a return
(`transferChecks_return`, transferChecks.c:1654-1762, and usymtab.c:4176-4297).

Simplifications: a reference is a parameter or the result with a number for the path from it (0 is the parameter or result itself); at a call
it stands for the storage of the argument, at a return for that of the returned expression.  References that are not equal do not
influence each other (no aliases, setting a part does not change the whole), and no reference is an element of an array at an unknown
index.  All references are valid and none is a constant.  Global variables are not kept in clauses (clabstract.c:2155-2169), and clauses without
references, which are for the global state, are left out.  The arguments are not of the states that are reported before the
clauses are looked at (transferChecks.c:2060-2104).  An internal bug report is `none`.
-/
namespace Splint.StateClause

/-- `sstate` -/
inductive Def
  | unknown | unuseable | undefined | mundefined | allocated | pdefined | defined | part | dead | hoffa | fixed | reldef
  | undefglob | killed | undefkilled | special
  deriving DecidableEq, Repr

/-- `alkind` -/
inductive Al
  | unknown | error | only | imponly | keep | kept | temp | imptemp | shared | unique | returned | fresh | stack | refcounted | refs
  | killref | newref | owned | dependent | impdependent | static | loc
  deriving DecidableEq, Repr

/-- `exkind` -/
inductive Ex
  | unknown | normal | exposed | observer
  deriving DecidableEq, Repr

/-- `nstate` -/
inductive Nul
  | error | unknown | notnull | mnotnull | relnull | constnull | posnull | defnull | absnull
  deriving DecidableEq, Repr

/-- the state of a storage; `sharable` says if its type is visibly sharable, `parts` is the answer of `checkDefined`, `strict` that of the flag
`strictusereleased`, and `user` are the user-defined states, where -1 is the error state -/
structure St where
  df : Def
  al : Al
  oal : Al
  ex : Ex
  nul : Nul
  sharable : Bool
  parts : Bool
  strict : Bool
  user : Nat → Int

inductive Base
  | param (n : Nat)
  | result
  deriving DecidableEq, Repr

structure Ref where
  base : Base
  path : Nat
  deriving DecidableEq, Repr

abbrev Store := Ref → St

def Store.set (σ : Store) (r : Ref) (s : St) : Store := fun q => if q = r then s else σ q

/-- the qualifiers that are accepted: cgrammar.y:1341-1359 -/
inductive Qual
  | owned | dependent | yield | temp | only | keep | kept | shared | unique | null | isnull | relnull | notnull | exposed | observer | nullterminated
  | user (key : Nat) (value : Int)
  deriving DecidableEq, Repr

inductive Plain
  | uses | defines | allocates | releases | sets
  deriving DecidableEq, Repr

/-- `stateClause_createPlain` (with `TK_BOTH`) and `stateClause_create` (with `TK_BEFORE` or `TK_AFTER`), stateClause.c:66-99, 681-705 -/
inductive Clause
  | plain (k : Plain) (refs : List Ref)
  | before (q : Qual) (refs : List Ref)
  | after (q : Qual) (refs : List Ref)
  deriving DecidableEq, Repr

def Clause.refs : Clause → List Ref
  | .plain _ l => l
  | .before _ l => l
  | .after _ l => l

/-- stateClause.c:106-109 -/
def Clause.isBefore : Clause → Bool
  | .after .. => false
  | _ => true

/-- stateClause.c:111-114 -/
def Clause.isAfter : Clause → Bool
  | .before .. => false
  | _ => true

/-! ### Tests (sRef.c) -/

/-- `sRef_isValidLvalue`, 4719-4769 (not a conjunction), made strict: 4707-4710 -/
def strictReadable (s : St) : Bool :=
  if s.df = .hoffa then !s.strict
  else s.df = .defined || s.df = .fixed || s.df = .reldef || s.df = .pdefined || s.df = .part || s.df = .special || s.df = .allocated || s.df = .killed
    || s.df = .unknown

/-- 9827-9831 -/
def definitelyNull (s : St) : Bool := s.nul = .defnull || s.nul = .constnull

/-- 4702-4705, 8138-8149 -/
def hasNoStorage (s : St) : Bool := !(strictReadable s && s.sharable) || definitelyNull s

/-- 4667-4673 -/
def isNotUndefined (s : St) : Bool := s.df ≠ .undefined && s.df ≠ .unuseable && s.df ≠ .dead

/-- 9833-9836 -/
def isAllocated (s : St) : Bool := s.df = .allocated

/-- 4908-4932 -/
def isReallyDefined (s : St) : Bool :=
  if s.df = .defined || s.df = .reldef || s.df = .part then true
  else if s.df = .allocated || s.df = .pdefined then s.parts
  else false

/-- 8068-8089 -/
def isDeadStorage (s : St) : Bool :=
  if s.df = .dead || s.df = .unuseable || s.df = .undefined || s.df = .unknown then true else definitelyNull s

/-- stateClause.c:171-193, 219-236 -/
def qualTest : Qual → Option (St → Bool)
  | .only => some fun s => s.al = .only || s.al = .imponly
  | .shared => some fun s => s.al = .shared
  | .dependent => some fun s => s.al = .dependent || s.al = .impdependent
  | .owned => some fun s => s.al = .owned
  | .observer => some fun s => s.ex = .observer
  | .exposed => some fun s => s.ex = .exposed
  | .notnull => some fun s => s.nul = .mnotnull || s.nul = .notnull
  | .isnull => some definitelyNull
  | _ => none

/-- `stateClause_getPreTestFunction`, stateClause.c:155-196 -/
def preTest : Clause → Option (St → Bool)
  | .plain .uses _ => some strictReadable
  | .plain .allocates _ => some hasNoStorage
  | .plain .defines _ => some hasNoStorage
  | .plain .sets _ => some isNotUndefined
  | .plain .releases _ => some isNotUndefined
  | .before q _ => qualTest q
  | .after q _ => qualTest q

/-- `stateClause_getPostTestFunction`, stateClause.c:198-239 (no function is a test that always succeeds) -/
def postTest : Clause → Option (St → Bool)
  | .plain .uses _ => some fun _ => true
  | .plain .allocates _ => some isAllocated
  | .plain .defines _ => some isReallyDefined
  | .plain .sets _ => some isReallyDefined
  | .plain .releases _ => some isDeadStorage
  | .before _ _ => none
  | .after q _ => qualTest q

/-- `sRef_checkMetaStateValue`, sRef.c:9951-9975 -/
def userTest (k : Nat) (v : Int) (s : St) : Bool := s.user k = -1 || s.user k = v

/-! ### Effects (sRef.c) -/

/-- 5137-5148 -/
def setUndefined (s : St) : St := { s with df := .undefined, parts := false }
/-- 5150-5259, 5276-5279, 5318-5324 -/
def setDefined (s : St) : St := { s with df := .defined }
/-- 5386-5432 -/
def setAllocated (s : St) : St := { s with df := .allocated, parts := false }
/-- `sRef_killAux`, `sRef_kill`, 5726-5755, 5793-5816 -/
def kill (s : St) : St := if s.al = .shared then s else { s with df := .dead, al := s.oal, parts := false }
def setUser (k : Nat) (v : Int) (s : St) : St := { s with user := fun k' => if k' = k then v else s.user k' }

/-- stateClause.c:289-311, 341-361 -/
def qualSet : Qual → Option (St → St)
  | .only => some fun s => { s with al := .only }
  | .shared => some fun s => { s with al := .shared }
  | .dependent => some fun s => { s with al := .dependent }
  | .owned => some fun s => { s with al := .owned }
  | .observer => some fun s => { s with ex := .observer }
  | .exposed => some fun s => { s with ex := .exposed }
  | .notnull => some fun s => { s with nul := .notnull }
  | .isnull => some fun s => { s with nul := .defnull }
  | _ => none

/-- `stateClause_getEntryFunction`, stateClause.c:270-320 -/
def entryFn : Clause → Option (St → St)
  | .plain .uses _ => some setDefined
  | .plain .allocates _ => some setUndefined
  | .plain .defines _ => some setUndefined
  | .plain .sets _ => some setAllocated
  | .plain .releases _ => some setDefined
  | .before q _ => qualSet q
  | .after _ _ => some id

/-- `stateClause_getEffectFunction`, stateClause.c:322-370 -/
def effectFn : Clause → Option (St → St)
  | .plain .uses _ => some id
  | .plain .allocates _ => some setAllocated
  | .plain .defines _ => some setDefined
  | .plain .sets _ => some setDefined
  | .plain .releases _ => some kill
  | .before _ _ => some id
  | .after q _ => qualSet q

/-- `stateClause_getReturnEffectFunction`, stateClause.c:372-402 -/
def returnEffectFn : Clause → St → St
  | .after .only _ => kill
  | _ => id

/-- `stateClause_getStateFunction` with `stateClause_getStateParameter`, stateClause.c:742-833 -/
def stateFn : Qual → Option (St → St)
  | .notnull => some fun s => { s with nul := .mnotnull }
  | .isnull => some fun s => { s with nul := .defnull }
  | .null => some fun s => { s with nul := .posnull }
  | .relnull => some fun s => { s with nul := .relnull }
  | .exposed => some fun s => { s with ex := .exposed }
  | .observer => some fun s => { s with ex := .observer }
  | .only => some fun s => { s with al := .only, parts := false }
  | .temp => some fun s => { s with al := .temp, parts := false }
  | .owned => some fun s => { s with al := .owned, parts := false }
  | .shared => some fun s => { s with al := .shared, parts := false }
  | .unique => some fun s => { s with al := .unique, parts := false }
  | .dependent => some fun s => { s with al := .dependent, parts := false }
  | .keep => some fun s => { s with al := .keep, parts := false }
  | .kept => some fun s => { s with al := .kept, parts := false }
  | _ => none

/-! ### The function -/

def Ref.isParam (r : Ref) : Bool := match r.base with | .param _ => true | .result => false

/-- applies `f` to the references that satisfy `p` -/
def setRefs (p : Ref → Bool) (f : St → St) : List Ref → Store → Store
  | [], σ => σ
  | r :: rs, σ => setRefs p f rs (if p r then σ.set r (f (σ r)) else σ)

/-- At the entry: usymtab.c:2288-2355 -/
def enter : List Clause → Store → Option Store
  | [], σ => some σ
  | c :: cs, σ =>
    if c.isBefore then
      match c with
      | .before (.user k v) rs => enter cs (setRefs Ref.isParam (setUser k v) rs σ)
      | c =>
        if c.refs.any Ref.isParam then
          match entryFn c with
          | some f => enter cs (setRefs Ref.isParam f c.refs σ)
          | none => none
        else enter cs σ
    else enter cs σ

/-- the references that satisfy `p` but fail the test, with the number of the clause -/
def failing (j : Nat) (p : Ref → Bool) (t : St → Bool) (rs : List Ref) (σ : Store) : List (Nat × Ref) :=
  (rs.filter fun r => p r && !t (σ r)).map fun r => (j, r)

/-- Parameters at the end of the function: usymtab.c:4180-4295 -/
def leave : Nat → List Clause → Store → Option (List (Nat × Ref))
  | _, [], _ => some []
  | j, c :: cs, σ =>
    if c.isAfter then
      match c with
      | .after (.user k v) rs => (leave (j + 1) cs σ).map (failing j Ref.isParam (userTest k v) rs σ ++ ·)
      | c =>
        match postTest c with
        | some t => (leave (j + 1) cs σ).map (failing j Ref.isParam t c.refs σ ++ ·)
        | none => none
    else leave (j + 1) cs σ

/-- tests and then changes, one reference after the other -/
def testSet (j : Nat) (p : Store → Ref → Bool) (t : St → Bool) (f : St → St) : List Ref → Store → Store × List (Nat × Ref)
  | [], σ => (σ, [])
  | r :: rs, σ =>
    if p σ r then
      let (σ', l) := testSet j p t f rs (σ.set r (f (σ r)))
      (σ', (if t (σ r) then [] else [(j, r)]) ++ l)
    else testSet j p t f rs σ

def resultRoot : Ref := ⟨.result, 0⟩

/-- The returned expression: transferChecks.c:1656-1762 -/
def giveBack : Nat → List Clause → Store → Option (Store × List (Nat × Ref))
  | _, [], σ => some (σ, [])
  | j, c :: cs, σ =>
    if c.isAfter then
      match c with
      | .after (.user k v) rs =>
        (giveBack (j + 1) cs σ).map fun (σ', l) => (σ', failing j (fun r => !r.isParam) (userTest k v) rs σ ++ l)
      | c =>
        match postTest c with
        | some t =>
          let (σ1, l1) := testSet j (fun σ r => !r.isParam && !definitelyNull (σ resultRoot)) t (returnEffectFn c) c.refs σ
          (giveBack (j + 1) cs σ1).map fun (σ', l) => (σ', l1 ++ l)
        | none => none
    else giveBack (j + 1) cs σ

/-! ### The call -/

/-- `checkPassstateClauseList` for argument `i`, transferChecks.c:1786-1857 -/
def passArg (i : Nat) : Nat → List Clause → Store → Option (Store × List (Nat × Ref))
  | _, [], σ => some (σ, [])
  | j, c :: cs, σ =>
    if c.isBefore then
      match preTest c, effectFn c with
      | some t, some f =>
        let (σ1, l1) := testSet j (fun _ r => r.base = .param i) t f c.refs σ
        (passArg i (j + 1) cs σ1).map fun (σ', l) => (σ', l1 ++ l)
      | _, _ => none
    else passArg i (j + 1) cs σ

/-- `stateClauseList_checkAll` makes the parameters special that are in clauses: stateClauseList.c:338-342 -/
def special (cs : List Clause) (i : Nat) : Bool := cs.any fun c => c.refs.any fun r => r.base = .param i

/-- `checkArgs` calls `transferChecks_passParam` for the arguments in order; only those of special parameters are of interest
(transferChecks.c:2060-2109) -/
def passArgs (cs : List Clause) : List Nat → Store → Option (Store × List (Nat × Ref))
  | [], σ => some (σ, [])
  | i :: is, σ =>
    if special cs i then
      match passArg i 0 cs σ with
      | some (σ1, l1) => (passArgs cs is σ1).map fun (σ', l) => (σ', l1 ++ l)
      | none => none
    else passArgs cs is σ

/-- `checkRequiresClause`, exprNode.c:3610-3745 -/
def require : Nat → List Clause → Store → Option (Store × List (Nat × Ref))
  | _, [], σ => some (σ, [])
  | j, .before (.user k v) rs :: cs, σ =>
    if rs.any fun r => !r.isParam then none
    else (require (j + 1) cs σ).map fun (σ', l) => (σ', failing j Ref.isParam (userTest k v) rs σ ++ l)
  | j, .before q rs :: cs, σ =>
    match stateFn q with
    | some f => require (j + 1) cs (setRefs Ref.isParam f rs σ)
    | none => none
  | j, _ :: cs, σ => require (j + 1) cs σ

/-- the result is made special by a clause that is not only for the state before: stateClauseList.c:300-322 -/
def specialResult (cs : List Clause) : Bool := cs.any fun c => c.isAfter && c.refs.any fun r => !r.isParam

/-- `uentry_returnedRef` for a special result, uentry.c:10824-10845 -/
def returned : List Clause → Store → Option Store
  | [], σ => some σ
  | c :: cs, σ =>
    if c.isAfter then
      match effectFn c with
      | some f => returned cs (setRefs (fun r => !r.isParam) f c.refs σ)
      | none => none
    else returned cs σ

/-- sets a user-defined state; for the result it is that of the result itself: exprNode.c:3312-3327 -/
def setUsers (k : Nat) (v : Int) : List Ref → Store → Store
  | [], σ => σ
  | r :: rs, σ =>
    let r' := if r.isParam then r else resultRoot
    setUsers k v rs (σ.set r' (setUser k v (σ r')))

/-- `reflectEnsuresClause`, exprNode.c:3280-3369 -/
def reflect : List Clause → Store → Option Store
  | [], σ => some σ
  | .after (.user k v) rs :: cs, σ => reflect cs (setUsers k v rs σ)
  | .after q rs :: cs, σ =>
    match stateFn q with
    | some f => reflect cs (setRefs (fun _ => true) f rs σ)
    | none => none
  | _ :: cs, σ => reflect cs σ

/-- `functionCallSafe`, exprNode.c:3797-3927: the argument numbers are `0`, ..., `n - 1` -/
def call (n : Nat) (cs : List Clause) (σ : Store) : Option (Store × List (Nat × Ref)) :=
  match passArgs cs (List.range n) σ with
  | none => none
  | some (σ1, l1) =>
    match require 0 cs σ1 with
    | none => none
    | some (σ2, l2) =>
      match (if specialResult cs then returned cs σ2 else some σ2) with
      | none => none
      | some σ3 => (reflect cs σ3).map fun σ4 => (σ4, l1 ++ l2)

end Splint.StateClause
