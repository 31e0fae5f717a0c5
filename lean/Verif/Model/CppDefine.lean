import Verif.Model.CppMacro
import Verif.Model.FlagTable
/-!
Definitions of macros: `create_definition` (cpplib.c:2216-2451; `cpplib_createDefinition`, 2453-2670, is the
same without `...` alone), `cppReader_checkMacroName` (cpplib.c:2675-2712), `cppReader_define` for the
option `-D` (cpplib.c:655-745), `compare_defs` and `comp_def_part` (cpplib.c:2762-2842), and the warning of
`do_defineAux` (cpplib.c:2852-2930).

Text is a list of characters below 128; the end of the list is the character 0 at `limit`.  Of the messages
only whether there is one is kept.  The flag +gnuextensions is taken to be on, so that `...` gives no
message.  The positions of the definition are not kept.
-/
namespace Splint.CppMacro

/-- `limit - bp > REST_EXTENSION_LENGTH` and `...` is next (cpplib.c:2286-2287) -/
def dots (l : List Char) : Bool := decide (3 < l.length) && ['.', '.', '.'].isPrefixOf l

/-- The end of the name of a parameter (cpplib.c:2315-2327): the name, whether it takes the rest, and what
follows. -/
def argName : List Char → List Char × Bool × List Char
  | [] => ([], false, [])
  | c :: l =>
    if isId c then
      if dots l then ([c], true, l) else (c :: (argName l).1, (argName l).2)
    else ([], false, c :: l)

/-- what becomes of the parameters -/
inductive PRes where
  /-- the parameters, the text after `)`, and whether there is a message -/
  | ok (ps : Params) (after : List Char) (warned : Bool)
  /-- an error; there is no definition -/
  | refused
  /-- the text is read after its end -/
  | beyond
  deriving DecidableEq, Repr

/-- the next parameter (cpplib.c:2268-2329): its name and flag, the text after it, and whether there is a
message -/
def oneParam (rest : Bool) (bp : List Char) : (List Char × Bool) × List Char × Bool :=
  if dots bp then ((c!"__VA_ARGS__", true), bp, rest)
  else (((argName bp).1, (argName bp).2.1), (argName bp).2.2, rest || !(bp.head?.map isStart).getD false)

theorem argName_length (bp : List Char) :
    (argName bp).1.length + (argName bp).2.2.length = bp.length := by
  induction bp with
  | nil => simp [argName]
  | cons c l ih =>
    rw [argName]
    split_ifs <;> simp <;> omega

/-- one pass of the loop -/
inductive Step where
  | beyond
  | refused
  | next (p : List Char × Bool) (warned : Bool) (bp : List Char)
  deriving DecidableEq, Repr

/-- One pass of the loop (cpplib.c:2268-2352), without the search for a parameter of the same name.
`rest`: there was one that takes the rest. -/
def paramStep (rest : Bool) (bp : List Char) : Step :=
  let p := oneParam rest bp
  let rest' := rest || p.1.2
  if rest' && decide (p.2.1.length < 3) then .beyond
  else
    let bp1 := (if rest' then p.2.1.drop 3 else p.2.1).dropWhile isHor
    if p.1.1 = [] || (bp1.head? ≠ some ',' && bp1.head? ≠ some ')') then .refused
    else
      let bp2 := if bp1.head? = some ',' then (bp1.drop 1).dropWhile isHor else bp1
      if bp2 = [] then .refused else .next p.1 p.2.2 bp2

/-- The loop over the parameters (cpplib.c:2265-2368).  `acc`: the parameters so far, the last one first;
`w`: there was a message.  At most the given number of passes is made; each takes a character, so that more
passes than characters make no difference (`params_enough`). -/
def params : Nat → Bool → Params → Bool → List Char → PRes
  | 0, _, _, _, _ => .refused
  | n + 1, rest, acc, w, bp =>
    if bp.head? = some ')' then .ok acc.reverse (bp.drop 1) w
    else
      match paramStep rest bp with
      | .beyond => .beyond
      | .refused => .refused
      | .next p w' bp =>
        if acc.any (fun q => q.1 = p.1) then .refused
        else params n (rest || p.2) (p :: acc) (w || w') bp

/-- the definition -/
structure Made where
  name : List Char
  /-- none for a macro without a list of parameters -/
  params : Option Params
  body : List Char
  warned : Bool
  deriving DecidableEq, Repr

inductive Res where
  | made (m : Made)
  | refused
  | beyond
  deriving DecidableEq, Repr

/-- `cppReader_checkMacroName`: is there a message? -/
def badName (n after : List Char) : Bool :=
  n = [] || (n = ['L'] && (after.head? = some '\'' || after.head? = some '"'))
    || !(n.head?.map isStart).getD false || n = c!"defined"

/-- `create_definition` -/
def create (buf : List Char) : Res :=
  let bp := buf.dropWhile isHor
  let n := bp.takeWhile isId
  let bp := bp.dropWhile isId
  let w := badName n bp
  match bp with
  | '(' :: l =>
    match params (l.length + 1) false [] w (l.dropWhile isHor) with
    | .ok ps after w => .made ⟨n, some ps, after.dropWhile isHor, w⟩
    | .refused => .refused
    | .beyond => .beyond
  | [] => .made ⟨n, none, [], w⟩
  | c :: l => .made (if isHor c then ⟨n, none, l.dropWhile isHor, w⟩ else ⟨n, none, c :: l, true⟩)

/-- removal of backslash and newline (cpplib.c:728-734) -/
def joinLines : List Char → List Char
  | '\\' :: '\n' :: l => joinLines l
  | c :: l => c :: joinLines l
  | [] => []

/-- `cppReader_define`: the text that is defined; none: an error only.  The flag says that there is a
message. -/
def optionD (str : List Char) : Option (List Char × Bool) :=
  match str with
  | [] => none
  | c :: l =>
    if isStart c then
      let l' := l.dropWhile isId
      let n := c :: l.takeWhile isId
      let q : List Char × List Char × Bool :=
        match l' with
        | '(' :: m =>
          let a := m.takeWhile (· ≠ ')')
          match m.dropWhile (· ≠ ')') with
          | d :: m' => (n ++ '(' :: a ++ [d], m', false)
          | [] => (n ++ '(' :: a, [], true)
        | m => (n, m, false)
      match q with
      | (pre, [], w) => some (pre ++ [' ', '1'], w)
      | (pre, '=' :: v, w) => some (pre ++ ' ' :: joinLines v, w)
      | _ => none
    else none

/-! ## Comparison of definitions -/

/-- `comp_def_part`, after the leading and trailing space was left out -/
def compLoop : List Char → List Char → Bool
  | [], [] => false
  | [], _ :: _ => true
  | _ :: _, [] => true
  | a :: l, b :: m =>
    if isSp a && isSp b then compLoop (l.dropWhile isSp) (m.dropWhile isSp)
    else if a = b then compLoop l m
    else true
termination_by l => l.length
decreasing_by
  · have := length_dropWhile_le isSp l
    simp; omega
  · simp

/-- `comp_def_part`: are the parts different? -/
def compPart (first last : Bool) (a b : List Char) : Bool :=
  let start := fun l : List Char => if first then l.dropWhile isSp else l
  let stop := fun l : List Char => if last then (l.reverse.dropWhile isSp).reverse else l
  compLoop (stop (start a)) (stop (start b))

/-- the loop of `compare_defs` over the patterns, and the comparison of what is after it -/
def compSegs (first : Bool) : List (List Char × Pat) → List Char → List (List Char × Pat) → List Char → Bool
  | [], x, [], y => compPart first true x y
  | (x, p) :: s, xl, (y, q) :: t, yl =>
    if !(decide (x = y) || !compPart first false x y)
      || decide (p.arg ≠ q.arg) || decide (p.stringify ≠ q.stringify)
      || decide (p.rawBefore ≠ q.rawBefore) || decide (p.rawAfter ≠ q.rawAfter)
    then true
    else compSegs false s xl t yl
  | _, _, _, _ => true

/-- `argnames`: the names in reverse order, with a comma and a space between them (cpplib.c:2375-2394) -/
def joinNames : List (List Char) → List Char
  | [] => []
  | [n] => n
  | n :: ns => n ++ ',' :: ' ' :: joinNames ns

def argNames (ps : Option Params) : List Char := joinNames ((ps.getD []).reverse.map Prod.fst)

/-- `compare_defs`: are the definitions different? -/
def compareDefs (m1 m2 : Made) : Bool :=
  if m1.params.map List.length ≠ m2.params.map List.length then true
  else if argNames m1.params ≠ argNames m2.params then true
  else
    let d1 := collect (m1.params.getD []) m1.params.isSome m1.body
    let d2 := collect (m2.params.getD []) m2.params.isSome m2.body
    compSegs true d1.segs d1.last d2.segs d2.last

/-- what the name was before -/
inductive Old where
  /-- T_PCSTRING -/
  | key
  | macro' (m : Made) (noExpand : Bool)
  /-- T_CONST -/
  | const
  /-- a built-in like `__LINE__` -/
  | other

/-- is there a message about the redefinition? (cpplib.c:2868-2925); `started`: the options have been read -/
def redefined (started : Bool) (old : Old) (m : Made) : Bool :=
  match old with
  | .key => false
  | .macro' o noExpand => compareDefs m o && !noExpand
  | .const => started
  | .other => true

end Splint.CppMacro
