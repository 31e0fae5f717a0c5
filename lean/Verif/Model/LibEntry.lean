import Verif.Model.LibRef
import Verif.Model.MultiVal
/-!
# Entries and types in library files

Model of src/uentry.c:4268-4289 (`advanceField`, `advanceName`, `vkind_fromInt`), 4771-5062
(`uentry_undump`), 5065-5300 (`uentry_dump`, `uentry_dumpParam`, `uentry_dumpAux`),
src/uentryList.c:556-649 (`uentryList_dumpParams`, `uentryList_dumpFields`,
`uentryList_undumpFields`, `uentryList_undump`), src/qual.c:196-216 (`qual_abstractFromCodeChar`,
`qual_abstractCode`), 237-272 (`qual_dump`, `qual_undump`), src/annotationInfo.c:149-176
(`annotationInfo_dump`, `annotationInfo_undump`), src/warnClause.c:121-165 (`warnClause_dump`,
`warnClause_undump`), src/flagSpec.c:125-155 (`flagSpec_dump`, `flagSpec_undump`),
src/stateClause.c:574-597 (`stateClause_dump`, `stateClause_undump`),
src/stateClauseList.c:172-205 (`stateClauseList_dump`, `stateClauseList_undump`),
src/globSet.c:124-165 (`globSet_dump`, `globSet_undump`), src/sRef.c:2398-2450 and 2649-2687
(`sRef_undumpGlobal`, `sRef_dumpGlobal`), src/enumNameList.c:206-258 (`enumNameList_dump`,
`enumNameList_undump`), src/ctbase.i:890-1055 and 1075-1145 (`ctbase_undump`, `ctbase_dump`),
src/cttable.i:111-204 (`ctentry_dump`, `ctentry_undump`), src/reader.c:142-181
(`reader_readUntil`, `reader_readUntilOne`) and the range checks of src/varKinds.c:31-69 and 619-626
(`alkind_fromInt`, `nstate_fromInt`, `sstate_fromInt`, `exkind_fromInt`, `exitkind_fromInt`),
src/uentry.c:519-526 (`specCode_fromInt`), src/ctype.c:80-90 (`ctkind_fromInt`) and
src/cprim.c:42-50 (`cprim_fromInt`).

Simplifications:
* an entry is what is written of it; what is read is what is given to `uentry_make…Base`
  (uentry.c:4291-4764), except that `uentry_makeEndIterBase` takes no type, which is modelled;
* states, kinds and codes are the numbers of their enumerations; a name that is not defined is `[]`;
* constants are in Model/MultiVal (`ConstRec`) and left out here;
* sets of storage references are the lists of their elements, see Model/LibRef, with its
  simplifications about references and types;
* numbers of entries (`usymtab_convertId`, `usymtab_convertTypeId`) are those in the library;
* which annotations are known (`context_lookupAnnotation`) is a parameter;
* `setTagNo` (ctbase.i:970, 998, 1021), which lets the numbers of unnamed tags go on, is left out;
* the outcome `none` is a fatal error, a failed assertion, an internal bug report, or reading behind
  the end of the line.
-/
namespace Splint.LibEntry
open Reader Lib

/-- `SS_UNKNOWN`, `SS_DEFINED`, `SS_LAST`, varKinds.h:12-36. -/
def ssUnknown : Int := 0
def ssDefined : Int := 6
def ssLast : Int := 16
/-- `AK_UNKNOWN`, `AK_IMPTEMP`, `AK_LOCAL`, varKinds.h:77-102. -/
def akUnknown : Int := 0
def akImpTemp : Int := 7
def akLocal : Int := 21
/-- `XO_UNKNOWN`, `XO_OBSERVER`, varKinds.h:104-109. -/
def xoUnknown : Int := 0
def xoObserver : Int := 3
/-- `CH_UNKNOWN`, uentry.h:42. -/
def chUnknown : Int := 0
/-- `VKPARAM`, `VKLAST`, uentry.h:23-38. -/
def vkParam : Int := 2
def vkLast : Int := 11
/-- `XK_UNKNOWN`, `XK_LAST`, varKinds.h:201-219. -/
def xkUnknown : Int := 1
def xkLast : Int := 12
/-- `SPC_NONE`, `SPC_LAST`, uentry.h:82-89. -/
def spcNone : Int := 0
def spcLast : Int := 4
/-- `QU_UNKNOWN`, `QU_USERANNOT`, qual.h:20-47. -/
def quUnknown : Int := 0
def quUserAnnot : Int := 66

/-- `qual`: one of the built-in ones by its number, or a user's annotation. -/
inductive Qual where
  | plain (n : Int)
  | annot (name : List Char)
  deriving DecidableEq, Repr

/-- The `qual` that says whether a type is abstract. -/
inductive Abs where
  | unknown | abstr | numAbstract | concrete
  deriving DecidableEq, Repr

/-- A reference in a list of globals. -/
inductive GRef where
  | undef
  | glob (n ds ns : Int)
  | special (k : Int)
  | unknown
  deriving DecidableEq, Repr

/-- `warnClause`: names of flags, and the message. -/
structure Warn where
  flag : List Char
  flags : List (List Char)
  msg : Option (List Char)
  deriving DecidableEq, Repr

/-- `stateClause`. -/
structure Clause where
  state : Int
  kind : Int
  squal : Qual
  refs : List Ref
  deriving DecidableEq, Repr

/-- What is written of a function. -/
structure Fcn where
  ds : Int
  ns : Int
  exit : Int
  spec : Int
  nullPred : Qual
  hasGlobs : Bool
  globs : List GRef
  hasMods : Bool
  mods : List Ref
  ak : Int
  ex : Int
  access : Int
  warn : Option Warn
  clauses : Option (List Clause)
  deriving DecidableEq, Repr

/-- `KSTRUCTTAG`, `KUNIONTAG`, `KENUMTAG`. -/
inductive Tag where
  | struct | union | enum
  deriving DecidableEq, Repr

/-- `ekind`, ekind.h:11-18, without those of constants. -/
inductive Kind where
  | datatype | var | fcn | iter | endIter | tag (t : Tag)
  deriving DecidableEq, Repr

/-- `uentry`, as far as it is written. -/
inductive Entry where
  | elips
  | var (ct vk ds ns ak ex ch : Int) (name : List Char)
  | datatype (ct : Int) (abs : Abs) (mt : Ynm) (ds ns ak ex rt : Int) (name : List Char)
  | fcn (ct : Int) (f : Fcn) (name : List Char)
  | iter (ct access : Int) (name : List Char)
  | endIter (ct access : Int) (name : List Char)
  | tag (t : Tag) (ct rt : Int) (name : List Char)
  deriving DecidableEq, Repr

/-! ## Writing -/

/-- `qual_dump`, qual.c:237-251. -/
def Qual.dump : Qual → List Char
  | .plain n => intText n
  | .annot a => intText quUserAnnot ++ '.' :: a

/-- `qual_abstractCode`, qual.c:207-216. -/
def Abs.code : Abs → Char
  | .unknown => '-' | .abstr => 'a' | .numAbstract => 'n' | .concrete => 'c'

/-- `sRef_dumpGlobal`, sRef.c:2649-2687. -/
def GRef.dump : GRef → List Char
  | .undef => ['-']
  | .glob n ds ns => 'g' :: (intText n ++ '@' :: (intText ds ++ '@' :: intText ns))
  | .special k => 's' :: intText k
  | .unknown => ['u']

/-- Texts with commas between them, as in enumNameList.c:206-221 and globSet.c:124-145. -/
def commas : List (List Char) → List Char
  | [] => []
  | [t] => t
  | t :: ts => t ++ ',' :: commas ts

/-- `flagSpec_dump`, flagSpec.c:125-139. -/
def flagText (f : List Char) : List (List Char) → List Char
  | [] => f
  | g :: gs => f ++ '|' :: flagText g gs

/-- `warnClause_dump`, warnClause.c:121-138. -/
def Warn.dump (w : Warn) : List Char :=
  flagText w.flag w.flags ++ '#' :: (match w.msg with
    | some m => m ++ ['#']
    | none => ['.', '#'])

/-- `stateClause_dump`, stateClause.c:574-581. -/
def Clause.dump (c : Clause) : List Char :=
  intText c.state ++ '.' :: (intText c.kind ++ '.' :: (c.squal.dump ++ '.' :: Ref.dumpList c.refs))

/-- `stateClauseList_dump`, stateClauseList.c:172-184. -/
def clausesText : List Clause → List Char
  | [] => []
  | c :: cs => c.dump ++ '$' :: clausesText cs

/-- `bool_dump`, bool.h:46. -/
def boolText (b : Bool) : List Char := if b then ['1'] else ['0']

/-- uentry.c:5102-5150, the state of a variable. -/
def varText (ds ns ak ex ch : Int) : List Char :=
  if ds = ssUnknown ∧ ns = nsUnknown ∧ ak = akImpTemp ∧ ex = xoUnknown ∧ ch = chUnknown then ['$']
  else if ds = ssDefined ∧ ns = nsUnknown ∧ ak = akImpTemp ∧ ex = xoUnknown ∧ ch = chUnknown then
    ['&']
  else if ds = ssUnknown ∧ ns = nsUnknown ∧ ak = akUnknown ∧ ex = xoUnknown ∧ ch = chUnknown then
    ['^']
  else if ex = xoUnknown ∧ ch = chUnknown then
    intText ds ++ '@' :: (intText ns ++ '@' :: (intText ak ++ ['&']))
  else
    intText ds ++ '@' :: (intText ns ++ '@' :: (intText ak ++ '@' :: (intText ex ++ '@' ::
      intText ch)))

namespace Fcn

/-- `sdump`, uentry.c:5199-5217. -/
def stateText (f : Fcn) : List Char :=
  if f.ds = ssDefined ∧ f.ns = nsUnknown ∧ f.exit = xkUnknown ∧ f.spec = spcNone
      ∧ f.nullPred = .plain quUnknown then ['$']
  else
    '@' :: (intText f.ds ++ '@' :: (intText f.ns ++ '@' :: (intText f.exit ++ '@' ::
      (intText f.spec ++ '@' :: f.nullPred.dump))))

/-- `gdump`, uentry.c:5219-5236. -/
def globText (f : Fcn) : List Char :=
  if f.hasGlobs = false ∧ f.hasMods = false then ['$']
  else if f.hasGlobs ∧ f.globs = [] ∧ f.hasMods ∧ f.mods = [] then ['^']
  else
    '@' :: (boolText f.hasGlobs ++ '@' :: (commas (f.globs.map GRef.dump) ++ '@' ::
      (boolText f.hasMods ++ '@' :: Ref.dumpList f.mods)))

/-- `adump`, uentry.c:5238-5245. -/
def aliasText (f : Fcn) : List Char :=
  if f.ak = akUnknown ∧ f.ex = xoUnknown then ['$']
  else '@' :: (intText f.ak ++ '@' :: intText f.ex)

/-- `xdump`, uentry.c:5247-5257. -/
def extraText (f : Fcn) : List Char :=
  (match f.warn with | some w => '@' :: 'W' :: ':' :: w.dump | none => []) ++
  (match f.clauses with | some l => '@' :: 'S' :: ':' :: clausesText l | none => [])

end Fcn

/-- `uentry_dumpAux`, uentry.c:5080-5300. -/
def Entry.dump (isParam : Bool) : Entry → List Char
  | .elips => ['!', '.']
  | .var ct vk ds ns ak ex ch name =>
    typeText ct ++ '|' ::
      ((if vk ≠ vkParam then '@' :: (intText vk ++ ['|']) else []) ++
        (varText ds ns ak ex ch ++ '#' :: (if isParam then [] else name)))
  | .datatype ct abs mt ds ns ak ex rt name =>
    typeText ct ++ '@' :: abs.code :: '@' :: mt.code :: '@' :: (intText ds ++ '@' ::
      (intText ns ++ '@' :: (intText ak ++ '@' :: (intText ex ++ '@' :: (typeText rt ++ '#' ::
        name)))))
  | .fcn ct f name =>
    typeText ct ++ (f.stateText ++ (f.globText ++ (f.aliasText ++ '@' :: (intText f.access ++
      (f.extraText ++ '#' :: name)))))
  | .iter ct access name => typeText ct ++ '@' :: (intText access ++ '#' :: name)
  | .endIter ct access name => typeText ct ++ '@' :: (intText access ++ '#' :: name)
  | .tag _ ct rt name => typeText ct ++ '@' :: (typeText rt ++ '#' :: name)

/-! ## Reading -/

/-- The rest of the state the reading depends on. -/
structure Env where
  /-- `sRef_equivalent` -/
  eqv : Ref → Ref → Bool
  /-- `tistableentries`: sets of types read -/
  sets : Int
  /-- `context_lookupAnnotation` -/
  known : List Char → Bool

/-- A number within bounds: `reader_getInt` with one of the range checks. -/
def number (lo hi : Int) (s : List Char) : Option (Int × List Char) := do
  let (n, s) ← getInt s
  if lo ≤ n ∧ n ≤ hi then some (n, s) else none

/-- `advanceField` and a number within bounds. -/
def field (lo hi : Int) (s : List Char) : Option (Int × List Char) := do
  let s ← checkChar '@' s
  number lo hi s

/-- `reader_readUntil`, reader.c:142-160. -/
def readUntil (x : Char) (s : List Char) : Option (List Char × List Char) :=
  if x ∈ s ∧ s.takeWhile (· ≠ x) ≠ [] then some (s.takeWhile (· ≠ x), s.dropWhile (· ≠ x)) else none

/-- `qual_undump`, qual.c:254-272, with `annotationInfo_undump`, annotationInfo.c:155-176, and
`qual_createPlain`, qual.c:81-86. -/
def Qual.undump (env : Env) (s : List Char) : Option (Qual × List Char) := do
  let (n, s) ← getInt s
  if n = quUserAnnot then
    let s ← checkChar '.' s
    let (a, s) ← readUntil '.' s
    if env.known a then some (.annot a, s) else none
  else if 0 ≤ n ∧ n ≤ quUserAnnot then some (.plain n, s) else none

/-- `qual_abstractFromCodeChar`, qual.c:196-205. -/
def Abs.ofCode (c : Char) : Option Abs :=
  if c = '-' then some .unknown
  else if c = 'a' then some .abstr
  else if c = 'n' then some .numAbstract
  else if c = 'c' then some .concrete
  else none

/-- `sRef_undumpGlobal`, sRef.c:2398-2450. -/
def GRef.undump (s : List Char) : Option (GRef × List Char) :=
  match s with
  | 'g' :: s => do
    let (n, s) ← getInt s
    let (ds, s) ← field ssUnknown (ssLast - 1) s
    let (ns, s) ← field (-1) 7 s
    some (.glob n ds ns, s)
  | 's' :: s => do let (k, s) ← number 0 3 s; some (.special k, s)
  | '-' :: s => some (.undef, s)
  | 'u' :: s => some (.unknown, s)
  | 'x' :: s => some (.unknown, s)
  | _ => none

/-- `globSet_undump`, globSet.c:148-165; the number bounds the rounds. -/
def undumpGlobsN : Nat → List Char → Option (List GRef × List Char)
  | 0, _ => none
  | k + 1, s =>
    match s with
    | [] => none
    | c :: s' =>
      if Ref.isEnd c then some ([], c :: s')
      else do
        let (g, s) ← GRef.undump (c :: s')
        let (gs, s) ← undumpGlobsN k (optCheckChar ',' s).2
        some (g :: gs, s)

def undumpGlobs (s : List Char) : Option (List GRef × List Char) := undumpGlobsN (s.length + 1) s

/-- `reader_readUntilOne (s, "#|")`, reader.c:163-181. -/
def flagName (s : List Char) : Option (List Char × List Char) :=
  let t := s.takeWhile fun c => !(c = '#' || c = '|')
  let r := s.dropWhile fun c => !(c = '#' || c = '|')
  if r ≠ [] ∧ t ≠ [] then some (t, r) else none

/-- `flagSpec_undump`, flagSpec.c:142-155; the number bounds the flags. -/
def undumpFlagsN : Nat → List Char → Option (List Char × List (List Char) × List Char)
  | 0, _ => none
  | k + 1, s => do
    let (f, s) ← flagName s
    match optCheckChar '|' s with
    | (true, s) => do
      let (g, gs, s) ← undumpFlagsN k s
      some (f, g :: gs, s)
    | (false, s) => some (f, [], s)

/-- `warnClause_undump`, warnClause.c:141-165. -/
def Warn.undump (s : List Char) : Option (Warn × List Char) := do
  let (f, fs, s) ← undumpFlagsN (s.length + 1) s
  let s ← checkChar '#' s
  match optCheckChar '.' s with
  | (true, s) => do
    let s ← checkChar '#' s
    some (⟨f, fs, none⟩, s)
  | (false, s) => do
    let (m, s) ← readUntil '#' s
    let s ← checkChar '#' s
    some (⟨f, fs, some m⟩, s)

/-- `stateClause_undump`, stateClause.c:583-597. -/
def Clause.undump (env : Env) (s : List Char) : Option (Clause × List Char) := do
  let (st, s) ← getInt s
  let s ← checkChar '.' s
  let (k, s) ← getInt s
  let s ← checkChar '.' s
  let (q, s) ← Qual.undump env s
  let s ← checkChar '.' s
  let (rs, s) ← Ref.undumpList env.eqv s
  some (⟨st, k, q, rs⟩, s)

/-- `stateClauseList_undump`, stateClauseList.c:186-205; the number bounds the clauses. -/
def undumpClausesN (env : Env) : Nat → List Char → Option (List Clause × List Char)
  | 0, _ => none
  | k + 1, s =>
    match s with
    | [] => none
    | c :: s' =>
      if c = '#' ∨ c = '@' then some ([], c :: s')
      else do
        let (x, s) ← Clause.undump env (c :: s')
        let s ← checkChar '$' s
        let (xs, s) ← undumpClausesN env k s
        some (x :: xs, s)

/-- The loop of uentry.c:4951-4968; the number bounds its rounds. -/
def extrasN (env : Env) : Nat → Option Warn → Option (List Clause) → List Char →
    Option (Option Warn × Option (List Clause) × List Char)
  | 0, _, _, _ => none
  | k + 1, w, cl, s =>
    match optCheckChar '@' s with
    | (false, s) => some (w, cl, s)
    | (true, s) =>
      match optCheckChar 'W' s with
      | (true, s) => do
        let s ← checkChar ':' s
        let (w, s) ← Warn.undump s
        extrasN env k (some w) cl s
      | (false, s) =>
        match optCheckChar 'S' s with
        | (true, s) => do
          let s ← checkChar ':' s
          let (cl, s) ← undumpClausesN env (s.length + 1) s
          extrasN env k w (some cl) s
        | (false, _) => none

/-- uentry.c:4799-4808. -/
def undumpVKind (s : List Char) : Option (Int × List Char) :=
  match optCheckChar '@' s with
  | (true, s) => do
    let (vk, s) ← number 0 vkLast s
    let s ← checkChar '|' s
    some (vk, s)
  | (false, s) => some (vkParam, s)

/-- uentry.c:4810-4854: the state of a variable. -/
def undumpVar (s : List Char) : Option ((Int × Int × Int × Int × Int) × List Char) :=
  match optCheckChar '$' s with
  | (true, s) => some ((ssUnknown, nsUnknown, akImpTemp, xoUnknown, chUnknown), s)
  | (false, s) =>
    match optCheckChar '&' s with
    | (true, s) => some ((ssDefined, nsUnknown, akImpTemp, xoUnknown, chUnknown), s)
    | (false, s) =>
      match optCheckChar '^' s with
      | (true, s) => some ((ssUnknown, nsUnknown, akImpTemp, xoUnknown, chUnknown), s)
      | (false, s) => do
        let (ds, s) ← number ssUnknown (ssLast - 1) s
        let (ns, s) ← field (-1) 7 s
        let (ak, s) ← field akUnknown akLocal s
        match optCheckChar '&' s with
        | (true, s) => some ((ds, ns, ak, xoUnknown, chUnknown), s)
        | (false, s) => do
          let (ex, s) ← field xoUnknown xoObserver s
          let s ← checkChar '@' s
          let (ch, s) ← getInt s
          some ((ds, ns, ak, ex, ch), s)

/-- `advanceName` and `reader_getStringWord`. -/
def undumpName (s : List Char) : Option (List Char × List Char) := do
  let s ← checkChar '#' s
  let (w, s) := getWord s
  some (w.getD [], s)

/-- uentry.c:4906-4921. -/
def undumpState (env : Env) (s : List Char) : Option ((Int × Int × Int × Int × Qual) × List Char) :=
  match optCheckChar '$' s with
  | (true, s) => some ((ssDefined, nsUnknown, xkUnknown, spcNone, .plain quUnknown), s)
  | (false, s) => do
    let (ds, s) ← field ssUnknown (ssLast - 1) s
    let (ns, s) ← field (-1) 7 s
    let (xc, s) ← field 0 xkLast s
    let (sc, s) ← field spcNone (spcLast - 1) s
    let s ← checkChar '@' s
    let (q, s) ← Qual.undump env s
    some ((ds, ns, xc, sc, q), s)

/-- uentry.c:4923-4943. -/
def undumpGlobMods (env : Env) (s : List Char) :
    Option ((Bool × List GRef × Bool × List Ref) × List Char) :=
  match optCheckChar '$' s with
  | (true, s) => some ((false, [], false, []), s)
  | (false, s) =>
    match optCheckChar '^' s with
    | (true, s) => some ((true, [], true, []), s)
    | (false, s) => do
      let s ← checkChar '@' s
      let (hg, s) ← getInt s
      let s ← checkChar '@' s
      let (gs, s) ← undumpGlobs s
      let s ← checkChar '@' s
      let (hm, s) ← getInt s
      let s ← checkChar '@' s
      let (ms, s) ← Ref.undumpList env.eqv s
      some ((decide (hg ≠ 0), gs, decide (hm ≠ 0), ms), s)

/-- uentry.c:4945-4954. -/
def undumpAlias (s : List Char) : Option ((Int × Int) × List Char) :=
  match optCheckChar '$' s with
  | (true, s) => some ((akUnknown, xoUnknown), s)
  | (false, s) => do
    let (ak, s) ← field akUnknown akLocal s
    let (ex, s) ← field xoUnknown xoObserver s
    some ((ak, ex), s)

/-- Behind the type: the `switch` of uentry.c:4788-5058. -/
def undumpBody (env : Env) (ct : Int) (k : Kind) (s : List Char) : Option (Entry × List Char) :=
  match k with
  | .var => do
    let s ← checkChar '|' s
    let (vk, s) ← undumpVKind s
    let ((ds, ns, ak, ex, ch), s) ← undumpVar s
    let (name, s) ← undumpName s
    some (.var ct vk ds ns ak ex ch name, s)
  | .datatype => do
    let s ← checkChar '@' s
    let (c, s) ← loadChar s
    let abs ← Abs.ofCode c
    let s ← checkChar '@' s
    let (c, s) ← loadChar s
    let mt ← Ynm.ofCode c
    let (ds, s) ← field ssUnknown (ssLast - 1) s
    let (ns, s) ← field (-1) 7 s
    let (ak, s) ← field akUnknown akLocal s
    let (ex, s) ← field xoUnknown xoObserver s
    let s ← checkChar '@' s
    let (rt, s) ← getInt s
    let (name, s) ← undumpName s
    some (.datatype ct abs mt ds ns ak ex rt name, s)
  | .fcn => do
    let ((ds, ns, xc, sc, q), s) ← undumpState env s
    let ((hg, gs, hm, ms), s) ← undumpGlobMods env s
    let ((ak, ex), s) ← undumpAlias s
    let (access, s) ← field 0 (env.sets - 1) s
    let (w, cl, s) ← extrasN env (s.length + 1) none none s
    let (name, s) ← undumpName s
    some (.fcn ct ⟨ds, ns, xc, sc, q, hg, gs, hm, ms, ak, ex, access, w, cl⟩ name, s)
  | .iter => do
    let (access, s) ← field 0 (env.sets - 1) s
    let (name, s) ← undumpName s
    some (.iter ct access name, s)
  | .endIter => do
    let (access, s) ← field 0 (env.sets - 1) s
    let (name, s) ← undumpName s
    some (.endIter 0 access name, s)
  | .tag t => do
    let s ← checkChar '@' s
    let (rt, s) ← getInt s
    let (name, s) ← undumpName s
    some (.tag t ct rt name, s)

/-- `uentry_undump`, uentry.c:4771-5062. -/
def Entry.undump (env : Env) (k : Kind) (s : List Char) : Option (Entry × List Char) :=
  match optCheckChar '!' s with
  | (true, s) => do
    let s ← checkChar '.' s
    some (.elips, s)
  | (false, s) => do
    let (ct, s) ← getInt s
    undumpBody env ct k s

/-! ## Types -/

/-- `ctbase`; `undefined` is the null pointer. -/
inductive Base where
  | undefined | unknown | bool
  | prim (p : Int)
  | user (t : Int) | abst (t : Int) | numAbst (t : Int)
  | ptr (ct : Int) | array (ct : Int) | fixedArray (ct size : Int)
  | fcn (ct : Int) (params : List Entry)
  | struct (name : List Char) (fields : List Entry)
  | union (name : List Char) (fields : List Entry)
  | enum (tag : List Char) (members : List (List Char))
  | conj (isExplicit : Bool) (a b : Int)
  | expFcn (ct : Int)
  | enumList (members : List (List Char))
  deriving DecidableEq, Repr

/-- `uentryList_dumpParams`, uentryList.c:556-569. -/
def paramsText : List Entry → List Char
  | [] => []
  | e :: es => e.dump true ++ ',' :: paramsText es

/-- `uentryList_dumpFields`, uentryList.c:572-594. -/
def fieldsText : List Entry → List Char
  | [] => []
  | .var ct vk ds ns ak ex ch name :: es =>
    Entry.dump false (.var ct vk ds ns ak ex ch name) ++ ',' :: fieldsText es
  | e :: es => '!' :: (e.dump false ++ ',' :: fieldsText es)

/-- `ctbase_dump`, ctbase.i:1075-1145. -/
def Base.dump : Base → List Char
  | undefined => ['?']
  | unknown => ['u']
  | bool => ['b']
  | prim p => 'p' :: (intText p ++ ['|'])
  | user t => 's' :: (intText t ++ ['|'])
  | abst t => 'a' :: (intText t ++ ['|'])
  | numAbst t => 'n' :: (intText t ++ ['|'])
  | ptr ct => 't' :: (typeText ct ++ ['|'])
  | array ct => 'y' :: (typeText ct ++ ['|'])
  | fixedArray ct n => 'F' :: (typeText ct ++ '/' :: (intText n ++ ['|']))
  | fcn ct ps => 'f' :: (typeText ct ++ ' ' :: '(' :: (paramsText ps ++ [')']))
  | struct name fs => 'S' :: (name ++ '{' :: (fieldsText fs ++ ['}']))
  | union name fs => 'U' :: (name ++ '{' :: (fieldsText fs ++ ['}']))
  | enum tag ms => 'e' :: (tag ++ '{' :: (commas ms ++ ['}']))
  | conj x a b => 'C' :: (boolText x ++ '.' :: (typeText a ++ '/' :: (typeText b ++ ['|'])))
  | expFcn _ => ['?']
  | enumList _ => ['u']

/-- `uentryList_undump`, uentryList.c:620-649; the number bounds the parameters. -/
def undumpParamsN (env : Env) : Nat → List Char → Option (List Entry × List Char)
  | 0, _ => none
  | k + 1, s =>
    match s with
    | [] => none
    | c :: s' =>
      if c = '#' ∨ c = '@' ∨ c = ')' then do
        let s ← checkChar ')' (c :: s')
        some ([], s)
      else do
        let (e, s) ← Entry.undump env .var (c :: s')
        let s ← checkChar ',' s
        let (es, s) ← undumpParamsN env k s
        some (e :: es, s)

/-- `uentryList_undumpFields`, uentryList.c:597-617; the number bounds the fields. -/
def undumpFieldsN (env : Env) : Nat → List Char → Option (List Entry × List Char)
  | 0, _ => none
  | k + 1, s =>
    match s with
    | [] => none
    | c :: s' =>
      if c = '}' then some ([], s')
      else do
        let (e, s) ← if c = '!' then Entry.undump env .fcn s' else Entry.undump env .var (c :: s')
        let s ← checkChar ',' s
        let (es, s) ← undumpFieldsN env k s
        some (e :: es, s)

/-- The loop of `enumNameList_undump`, enumNameList.c:232-255: it looks for a comma in all of the
line first. The number bounds the rounds. -/
def undumpNamesN : Nat → List Char → Option (List (List Char) × List Char)
  | 0, _ => none
  | k + 1, s =>
    if ',' ∈ s then do
      let (ns, r) ← undumpNamesN k ((s.dropWhile (· ≠ ',')).drop 1)
      some (s.takeWhile (· ≠ ',') :: ns, r)
    else if '}' ∈ s then some ([s.takeWhile (· ≠ '}')], (s.dropWhile (· ≠ '}')).drop 1)
    else none

/-- `enumNameList_undump`, enumNameList.c:224-258. -/
def undumpNames (s : List Char) : Option (List (List Char) × List Char) :=
  match s with
  | '}' :: s => some ([], s)
  | s => undumpNamesN (s.length + 1) s

/-- `strchr (*c, x)`, with what is before and behind. -/
def splitAt (x : Char) (s : List Char) : Option (List Char × List Char) :=
  if x ∈ s then some (s.takeWhile (· ≠ x), (s.dropWhile (· ≠ x)).drop 1) else none

/-- A number and a bar. -/
def numBar (s : List Char) : Option (Int × List Char) := do
  let (n, s) ← getInt s
  let s ← checkChar '|' s
  some (n, s)

/-- `ctbase_undump`, ctbase.i:890-1055. -/
def Base.undump (env : Env) (s : List Char) : Option (Base × List Char) :=
  match s with
  | '?' :: s => some (undefined, s)
  | 'u' :: s => some (unknown, s)
  | 'b' :: s => some (bool, s)
  | 'p' :: s => do
    let (p, s) ← number 0 18 s
    let s ← checkChar '|' s
    some (prim p, s)
  | 's' :: s => do let (t, s) ← numBar s; some (user t, s)
  | 'a' :: s => do let (t, s) ← numBar s; some (abst t, s)
  | 'n' :: s => do let (t, s) ← numBar s; some (numAbst t, s)
  | 't' :: s => do let (t, s) ← numBar s; some (ptr t, s)
  | 'y' :: s => do let (t, s) ← numBar s; some (array t, s)
  | 'F' :: s => do
    let (ct, s) ← getInt s
    let s ← checkChar '/' s
    let (n, s) ← numBar s
    some (fixedArray ct n, s)
  | 'f' :: s => do
    let (t, s) ← splitAt '(' s
    let (ct, _) ← getInt t
    let (ps, s) ← undumpParamsN env (s.length + 1) s
    some (fcn ct ps, s)
  | 'S' :: s => do
    let (name, s) ← splitAt '{' s
    let (fs, s) ← undumpFieldsN env (s.length + 1) s
    some (struct name fs, s)
  | 'U' :: s => do
    let (name, s) ← splitAt '{' s
    let (fs, s) ← undumpFieldsN env (s.length + 1) s
    some (union name fs, s)
  | 'e' :: s => do
    let (tag, s) ← splitAt '{' s
    let (ms, s) ← undumpNames s
    some (enum tag ms, s)
  | 'C' :: s => do
    let (x, s) ← getInt s
    let s ← checkChar '.' s
    let (a, s) ← getInt s
    let s ← checkChar '/' s
    let (b, s) ← numBar s
    some (conj (decide (x ≠ 0)) a b, s)
  | _ => none

/-- `ctentry`: an entry of the table of types. -/
structure TEntry where
  kind : Int
  base : Base
  bt : Int
  ptr : Int
  array : Int
  deriving DecidableEq, Repr

/-- `ctype_undefined` and `ctype_dne`, lctype.h:75-99. -/
def ctUndefined : Int := -2
def ctDne : Int := -1

namespace TEntry

/-- `ctentry_dump`, cttable.i:111-155. -/
def dump (e : TEntry) : List Char :=
  intText e.kind ++ ' ' :: (e.base.dump ++
    (if e.ptr = ctDne ∧ e.array = ctDne ∧ e.bt = ctDne then ['&']
     else if e.bt = ctUndefined ∧ e.array = ctDne then
       if e.ptr = ctDne then ['!'] else '^' :: intText e.ptr
     else if e.ptr = ctDne ∧ e.array = ctDne then intText e.bt ++ ['&']
     else intText e.bt ++ ' ' :: (intText e.ptr ++ ' ' :: intText e.array)))

/-- cttable.i:168-200. -/
def undumpTail (s : List Char) : Option (Int × Int × Int) :=
  match optCheckChar '&' s with
  | (true, _) => some (ctDne, ctDne, ctDne)
  | (false, s) =>
    match optCheckChar '!' s with
    | (true, _) => some (ctUndefined, ctDne, ctDne)
    | (false, s) =>
      match optCheckChar '^' s with
      | (true, s) => do let (p, _) ← getInt s; some (ctUndefined, p, ctDne)
      | (false, s) => do
        let (b, s) ← getInt s
        match optCheckChar '&' s with
        | (true, _) => some (b, ctDne, ctDne)
        | (false, s) => do
          let (p, s) ← getInt s
          let (a, _) ← getInt s
          some (b, p, a)

/-- `ctentry_undump`, cttable.i:159-204. -/
def undump (env : Env) (s : List Char) : Option TEntry := do
  let (k, s) ← number (-3) 3 s
  let (base, s) ← Base.undump env s
  let (b, p, a) ← undumpTail s
  some ⟨k, base, b, p, a⟩

end TEntry
end Splint.LibEntry
