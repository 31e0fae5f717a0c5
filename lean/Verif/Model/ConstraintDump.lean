import Verif.Model.LibRef
import Verif.Model.Constraint
/-!
# Bounds constraints in library files

Model of src/constraintTerm.c:547-735 (`constraintTerm_dump`, `constraintTerm_undump`),
src/constraintExpr.c:2140-2331 (`constraintExpr_dump`, `constraintExpr_undump` with the functions for
unary and binary expressions), src/constraint.c:1062-1143 (`constraint_undump`, `constraint_dump`),
src/constraintList.c:89-111 (`constraintList_add`), 588-638 (`constraintList_undump`,
`constraintList_dump`) and the parts of `usymtab_dump` and `usymtab_load` for the constraints of
functions (src/usymtab.c:1841-1884 and 2030-2095).

Simplifications:
* of a term there is what is written; a name stands for the entry that `usymtab_lookup` finds for it
  (the entries of the library are loaded before);
* the recorded cast of an expression, the expression a constraint was made from and its `orig` are
  left out: the first two are not written, and reading makes the third from the constraint;
* whether a constraint is resolved by those before it (`constraintList_resolve`) is a parameter;
* a file is its characters; `fgets` reads at most `MAX_DUMP_LINE_LENGTH - 1` of them;
* the outcome `none` is a fatal error, a failed assertion, an internal bug report, or reading behind
  the end of a line.
-/
namespace Splint.Lib
open Reader Bounds

/-- What a term is: `constraintTermType` with the cases of constraintTerm.c:562-607. -/
inductive LTerm where
  /-- `CTT_EXPR`: an expression, of which only the name of its entry is written -/
  | expr (name : List Char)
  /-- `CTT_SREF` with `sRef_isResult`; the type is not written -/
  | result (ct : Int)
  /-- `CTT_SREF` with `sRef_isParam` -/
  | param (ct n : Int)
  /-- `CTT_SREF` with `sRef_isField`; when read, any reference written as text -/
  | ref (r : Ref)
  /-- `CTT_SREF`, anything else -/
  | named (name : List Char)
  /-- `CTT_INTLITERAL` -/
  | lit (n : Int)
  deriving DecidableEq, Repr

/-- `struct s_constraintExpr`. -/
inductive LExpr where
  | term (t : LTerm)
  | un (op : UnOp) (e : LExpr)
  | bin (op : BinOp) (a b : LExpr)
  deriving DecidableEq, Repr

/-- `struct s_constraint`, Headers/constraint.h:11-20; `alt` are the constraints of the chain `or`. -/
structure LCon where
  pre : Bool
  post : Bool
  ar : Ar
  l : LExpr
  r : LExpr
  alt : List (Ar × LExpr × LExpr) := []
  deriving DecidableEq, Repr

/-- `MAX_DUMP_LINE_LENGTH`, Headers/constants.h:79. -/
def maxLine : Nat := 16384

/-- At most `k` characters, up to and with the first newline. -/
def line : List Char → Nat → List Char × List Char
  | [], _ => ([], [])
  | c :: f, k =>
    if k = 0 then ([], c :: f)
    else if c = '\n' then ([c], f)
    else ((c :: (line f (k - 1)).1), (line f (k - 1)).2)

/-- `fgets (os, MAX_DUMP_LINE_LENGTH, f)`. -/
def fgets (f : List Char) : Option (List Char × List Char) :=
  if f = [] then none else some (line f (maxLine - 1))

/-- A line with a number. -/
def numLine (n : Int) : List Char := intText n ++ ['\n']

/-- `strcmp` with a word of the program. -/
def wResult : List Char := ['R', 'e', 's', 'u', 'l', 't']
def wParam : List Char := ['P', 'a', 'r', 'a', 'm']
def wRef : List Char := ['s', 'R', 'e', 'f', '_', 'd', 'u', 'm', 'p']

/-- The line of a term, constraintTerm.c:562-612. -/
def LTerm.text : LTerm → List Char
  | .expr w => w
  | .result _ => wResult
  | .param ct n => wParam ++ ' ' :: (typeText ct ++ ' ' :: intText n)
  | .ref r => wRef ++ ' ' :: r.dump
  | .named w => w
  | .lit n => intText n

/-- `(int) kind`, Headers/constraintTerm.h:13-17. -/
def LTerm.kind : LTerm → Int
  | .expr _ => 1
  | .lit _ => 3
  | _ => 2

/-- `constraintTerm_dump`, constraintTerm.c:547-616. -/
def LTerm.dump (t : LTerm) : List Char := numLine t.kind ++ (t.text ++ ['\n'])

/-- `ctype_unknown`, Headers/cprim.h:21. -/
def ctUnknown : Int := 0

/-- The part of `constraintTerm_undump` for a reference, constraintTerm.c:643-690. -/
def readRef (eqv : Ref → Ref → Bool) (s : List Char) : Option LTerm :=
  match getWord s with
  | (none, _) => none
  | (some w, s) =>
    if w = wResult then some (.result ctUnknown)
    else if w = wParam then do
      let s ← checkChar ' ' s
      let (w2, s) := getWord s
      let (n, _) ← getInt s
      let w2 ← w2
      let (ct, _) ← getInt w2
      if -1 ≤ n then some (.param ct n) else none
    else if w = wRef then do
      let s ← checkChar ' ' s
      let (r, _) ← Ref.undump eqv s
      some (.ref r)
    else some (.named w)

/-- `constraintTerm_undump`, constraintTerm.c:619-735. -/
def LTerm.undump (eqv : Ref → Ref → Bool) (f : List Char) : Option (LTerm × List Char) := do
  let (s, f) ← fgets f
  let (k, _) ← getInt s
  let (s, f) ← fgets f
  if k = 2 then do
    let t ← readRef eqv s
    some (t, f)
  else if k = 1 then
    match getWord s with
    | (none, _) => none
    | (some w, _) => some (.named w, f)
  else if k = 3 then do
    let (n, _) ← getInt s
    some (.lit n, f)
  else none

/-- `constraintExprUnaryOpKind`, Headers/constraintExprData.h:12-19. -/
def unNum : UnOp → Int
  | .maxSet => 1 | .minSet => 2 | .maxRead => 3 | .minRead => 4

def unOf (n : Int) : Option UnOp :=
  if n = 1 then some .maxSet else if n = 2 then some .minSet else if n = 3 then some .maxRead
  else if n = 4 then some .minRead else none

/-- `constraintExprBinaryOpKind`, Headers/constraintExprData.h:4-9. -/
def binNum : BinOp → Int
  | .plus => 1 | .minus => 2

def binOf (n : Int) : Option BinOp :=
  if n = 1 then some .plus else if n = 2 then some .minus else none

/-- `constraintExpr_dump`, constraintExpr.c:2260-2289, `unaryExpr_dump`, 2215-2228, and
`binaryExpr_dump`, 2140-2160. -/
def LExpr.dump : LExpr → List Char
  | .term t => numLine 2 ++ t.dump
  | .un op e => numLine 1 ++ (numLine (unNum op) ++ e.dump)
  | .bin op a b => numLine 0 ++ (numLine (binNum op) ++
      ('e' :: '1' :: '\n' :: (a.dump ++ ('e' :: '2' :: '\n' :: b.dump))))

/-- `constraintExpr_undump`, constraintExpr.c:2291-2331, `unaryExpr_undump`, 2230-2258, and
`binaryExpr_undump`, 2163-2212. The number bounds the nesting. -/
def LExpr.readN (eqv : Ref → Ref → Bool) : Nat → List Char → Option (LExpr × List Char)
  | 0, _ => none
  | n + 1, f => do
    let (s, f) ← fgets f
    let (k, _) ← getInt s
    if k = 2 then do
      let (t, f) ← LTerm.undump eqv f
      some (.term t, f)
    else if k = 1 then do
      let (s, f) ← fgets f
      let (o, _) ← getInt s
      let op ← unOf o
      let (e, f) ← readN eqv n f
      some (.un op e, f)
    else if k = 0 then do
      let (s, f) ← fgets f
      let (o, _) ← getInt s
      let op ← binOf o
      let (s, f) ← fgets f
      let s ← checkChar 'e' s
      let _ ← checkChar '1' s
      let (a, f) ← readN eqv n f
      let (s, f) ← fgets f
      let s ← checkChar 'e' s
      let _ ← checkChar '2' s
      let (b, f) ← readN eqv n f
      some (.bin op a b, f)
    else none

def LExpr.undump (eqv : Ref → Ref → Bool) (f : List Char) : Option (LExpr × List Char) :=
  LExpr.readN eqv (f.length + 1) f

/-- `arithType`, Headers/constraint.h:5-9. -/
def arNum : Ar → Int
  | .lt => 0 | .lte => 1 | .gt => 2 | .gte => 3 | .eq => 4

def arOf (n : Int) : Option Ar :=
  if n = 0 then some .lt else if n = 1 then some .lte else if n = 2 then some .gt
  else if n = 3 then some .gte else if n = 4 then some .eq else none

def boolNum (b : Bool) : Int := if b then 1 else 0

/-- `constraint_dump`, constraint.c:1121-1143. -/
def LCon.dump (c : LCon) : List Char :=
  intText (boolNum c.pre) ++ '@' :: (intText (boolNum c.post) ++ '@' :: (numLine (arNum c.ar) ++
    'l' :: '\n' :: (c.l.dump ++ 'r' :: '\n' :: c.r.dump)))

/-- `constraint_undump`, constraint.c:1062-1118. -/
def LCon.undump (eqv : Ref → Ref → Bool) (f : List Char) : Option (LCon × List Char) := do
  let (s, f) ← fgets f
  let (p, s) ← getInt s
  let s ← checkChar '@' s
  let (q, s) ← getInt s
  let s ← checkChar '@' s
  let (a, _) ← getInt s
  let ar ← arOf a
  let (s, f) ← fgets f
  let _ ← checkChar 'l' s
  let (l, f) ← LExpr.undump eqv f
  let (s, f) ← fgets f
  let _ ← checkChar 'r' s
  let (r, f) ← LExpr.undump eqv f
  some (⟨p ≠ 0, q ≠ 0, ar, l, r, []⟩, f)

/-- `constraintList_dump`, constraintList.c:628-638. -/
def dumpCons : List LCon → List Char
  | [] => []
  | c :: l => 'C' :: '\n' :: (c.dump ++ dumpCons l)

/-- `constraintList_add`, constraintList.c:89-111; the list is in the order of insertion. -/
def addCon (res : LCon → List LCon → Bool) (l : List LCon) (c : LCon) : List LCon :=
  if res c l then l else l ++ [c]

/-- `constraintList_undump`, constraintList.c:588-625. -/
def readConsN (eqv : Ref → Ref → Bool) (res : LCon → List LCon → Bool) :
    Nat → List LCon → List Char → Option (List LCon × List Char)
  | 0, _, _ => none
  | n + 1, l, f =>
    match fgets f with
    | none => some (l, [])
    | some (s, f) =>
      if s.head? = some ';' then some (l, f)
      else
        if (getWord s).1 = some ['C'] then do
          let (c, f) ← LCon.undump eqv f
          readConsN eqv res n (addCon res l c) f
        else none

def undumpCons (eqv : Ref → Ref → Bool) (res : LCon → List LCon → Bool) (f : List Char) :
    Option (List LCon × List Char) :=
  readConsN eqv res (f.length + 1) [] f

/-- The constraints of one function. -/
structure FcnCons where
  name : List Char
  pre : Option (List LCon)
  post : Option (List LCon)
  deriving DecidableEq, Repr

def wPre : List Char := ['p', 'r', 'e', ':']
def wPost : List Char := ['p', 'o', 's', 't', ':']
def wEmpty : List Char := ['E', 'M', 'P', 'T', 'Y']
def wEnd : List Char :=
  [';', ';', ' ', 'e', 'n', 'd', ' ', 'p', 'r', 'e', 'c', 'o', 'n', 'd', 'i', 't', 'i', 'o', 'n',
   ' ', 'c', 'o', 'n', 's', 't', 'r', 'a', 'i', 'n', 't', 's']

/-- usymtab.c:1859-1868 and 1870-1879. -/
def dumpPart (w : List Char) : Option (List LCon) → List Char
  | some l => w ++ '\n' :: (dumpCons l ++ (wEnd ++ ['\n']))
  | none => w ++ (wEmpty ++ ['\n'])

/-- usymtab.c:1855-1881: nothing is written for a function without constraints. -/
def FcnCons.dump (u : FcnCons) : List Char :=
  if u.pre.isNone && u.post.isNone then []
  else u.name ++ '\n' :: (dumpPart wPre u.pre ++ dumpPart wPost u.post)

def dumpFcns : List FcnCons → List Char
  | [] => []
  | u :: us => u.dump ++ dumpFcns us

/-- usymtab.c:2059-2090: a part of the constraints of a function. -/
def readPart (eqv : Ref → Ref → Bool) (res : LCon → List LCon → Bool) (w : List Char)
    (f : List Char) : Option (Option (List LCon) × List Char) := do
  let (s, f) ← fgets f
  if (getWord s).1 = some w then do
    let (l, f) ← undumpCons eqv res f
    some (some l, f)
  else if (getWord s).1 = some (w ++ wEmpty) then some (none, f)
  else none

/-- The loop of usymtab.c:2042-2094; `known` are the names with an entry. Returns what is set, in
order. -/
def readFcnsN (eqv : Ref → Ref → Bool) (res : LCon → List LCon → Bool) (known : List Char → Bool) :
    Nat → List Char → Option (List FcnCons × List Char)
  | 0, _ => none
  | n + 1, f =>
    match fgets f with
    | none => some ([], [])
    | some (s, f) =>
      if s.head? = some ';' then some ([], f)
      else do
        let w ← (getWord s).1
        if known w then do
          let (p, f) ← readPart eqv res wPre f
          let (q, f) ← readPart eqv res wPost f
          let (us, f) ← readFcnsN eqv res known n f
          some (⟨w, p, q⟩ :: us, f)
        else none

def undumpFcns (eqv : Ref → Ref → Bool) (res : LCon → List LCon → Bool) (known : List Char → Bool)
    (f : List Char) : Option (List FcnCons × List Char) :=
  readFcnsN eqv res known (f.length + 1) f

end Splint.Lib
