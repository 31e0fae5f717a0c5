import Verif.Model.Comment
/-!
# Comments for the checker in the scanner

Model of src/cscannerHelp.c: `cscannerHelp_handleLlSpecial` (862-1451) and its tables (59-169), `commentMarkerToken`
(220-237) and `tokenMacroCode` (239-337): what the scanner makes of the text after `%{` (see Model/Comment for how it
gets there).

Simplifications:
* the text is a list of characters without NUL; a string that is changed in place is the text that is left;
* the messages about ends of lines in comments, and `context_addComment`, are not modelled;
* what `flags_identifyFlag` says about a name is a parameter (it is the subject of Model/FlagName), and so are the
  annotations that have been declared;
* numbers of lines are not bounded;
* a failed assertion, and the end of the file, are results of their own.
-/
namespace Splint.Special

abbrev Text := List Char

/-- `s_parsetable` (59-81) -/
def parseTable : List (Text × Text) :=
  [(c!"modifies", c!"QMODIFIES"), (c!"globals", c!"QGLOBALS"), (c!"alt", c!"QALT"), (c!"warn", c!"QWARN"),
   (c!"constant", c!"QCONSTANT"), (c!"function", c!"QFUNCTION"), (c!"iter", c!"QITER"),
   (c!"defines", c!"QDEFINES"), (c!"uses", c!"QUSES"), (c!"allocates", c!"QALLOCATES"), (c!"sets", c!"QSETS"),
   (c!"releases", c!"QRELEASES"), (c!"pre", c!"QPRECLAUSE"), (c!"post", c!"QPOSTCLAUSE"),
   (c!"setBufferSize", c!"QSETBUFFERSIZE"), (c!"setStringLength", c!"QSETSTRINGLENGTH"),
   (c!"testinRange", c!"QTESTINRANGE"), (c!"requires", c!"QPRECLAUSE"), (c!"ensures", c!"QPOSTCLAUSE"),
   (c!"invariant", c!"QINVARIANT")]

/-- `s_keytable` (88-169), with the tokens that `tokenMacroCode` (239-337) makes of them; for QPRINTFLIKE, QSCANFLIKE,
QMESSAGELIKE and QARGSUSED it does something itself -/
def keyTable : List (Text × Text) :=
  [(c!"anytype", c!"QANYTYPE"), (c!"integraltype", c!"QINTEGRALTYPE"),
   (c!"unsignedintegraltype", c!"QUNSIGNEDINTEGRALTYPE"), (c!"signedintegraltype", c!"QSIGNEDINTEGRALTYPE"),
   (c!"out", c!"QOUT"), (c!"in", c!"QIN"), (c!"only", c!"QONLY"), (c!"owned", c!"QOWNED"),
   (c!"dependent", c!"QDEPENDENT"), (c!"partial", c!"QPARTIAL"), (c!"special", c!"QSPECIAL"),
   (c!"truenull", c!"QTRUENULL"), (c!"falsenull", c!"QFALSENULL"), (c!"nullwhentrue", c!"QTRUENULL"),
   (c!"falsewhennull", c!"QFALSENULL"), (c!"keep", c!"QKEEP"), (c!"kept", c!"QKEPT"), (c!"notnull", c!"QNOTNULL"),
   (c!"abstract", c!"QABSTRACT"), (c!"numabstract", c!"QNUMABSTRACT"), (c!"concrete", c!"QCONCRETE"),
   (c!"mutable", c!"QMUTABLE"), (c!"immutable", c!"QIMMUTABLE"), (c!"unused", c!"QUNUSED"),
   (c!"external", c!"QEXTERNAL"), (c!"sef", c!"QSEF"), (c!"unique", c!"QUNIQUE"), (c!"returned", c!"QRETURNED"),
   (c!"exposed", c!"QEXPOSED"), (c!"refcounted", c!"QREFCOUNTED"), (c!"refs", c!"QREFS"),
   (c!"newref", c!"QNEWREF"), (c!"tempref", c!"QTEMPREF"), (c!"killref", c!"QKILLREF"), (c!"null", c!"QNULL"),
   (c!"relnull", c!"QRELNULL"), (c!"nullterminated", c!"QNULLTERMINATED"), (c!"setBufferSize", c!"QSETBUFFERSIZE"),
   (c!"testInRange", c!"QTESTINRANGE"), (c!"isnull", c!"QISNULL"), (c!"MaxSet", c!"QMAXSET"),
   (c!"MaxRead", c!"QMAXREAD"), (c!"maxSet", c!"QMAXSET"), (c!"maxRead", c!"QMAXREAD"), (c!"reldef", c!"QRELDEF"),
   (c!"observer", c!"QOBSERVER"), (c!"exits", c!"QEXITS"), (c!"noreturn", c!"QEXITS"), (c!"mayexit", c!"QMAYEXIT"),
   (c!"maynotreturn", c!"QMAYEXIT"), (c!"trueexit", c!"QTRUEEXIT"), (c!"falseexit", c!"QFALSEEXIT"),
   (c!"noreturnwhentrue", c!"QTRUEEXIT"), (c!"noreturnwhenfalse", c!"QFALSEEXIT"), (c!"neverexit", c!"QNEVEREXIT"),
   (c!"alwaysreturns", c!"QNEVEREXIT"), (c!"temp", c!"QTEMP"), (c!"shared", c!"QSHARED"), (c!"ref", c!"QREF"),
   (c!"unchecked", c!"QUNCHECKED"), (c!"checked", c!"QCHECKED"), (c!"checkmod", c!"QCHECKMOD"),
   (c!"checkedstrict", c!"QCHECKEDSTRICT"), (c!"innercontinue", c!"QINNERCONTINUE"),
   (c!"innerbreak", c!"QINNERBREAK"), (c!"loopbreak", c!"QLOOPBREAK"), (c!"switchbreak", c!"QSWITCHBREAK"),
   (c!"safebreak", c!"QSAFEBREAK"), (c!"fallthrough", c!"QFALLTHROUGH"), (c!"l_fallthrou", c!"QFALLTHROUGH"),
   (c!"l_fallth", c!"QFALLTHROUGH"), (c!"notreached", c!"QNOTREACHED"), (c!"l_notreach", c!"QNOTREACHED"),
   (c!"printflike", c!"QPRINTFLIKE"), (c!"l_printfli", c!"QPRINTFLIKE"), (c!"scanflike", c!"QSCANFLIKE"),
   (c!"messagelike", c!"QMESSAGELIKE"), (c!"l_argsus", c!"QARGSUSED")]

/-- ` `, `\t`, `\n` -/
def blank (c : Char) : Bool := c == ' ' || c == '\t' || c == '\n'

/-- `isspace` -/
def space (c : Char) : Bool := blank c || c == Char.ofNat 11 || c == Char.ofNat 12 || c == '\r'

def sign (c : Char) : Bool := c == '-' || c == '+' || c == '='

/-! ## Reading: 862-946 -/

inductive Read where
  /-- QNOMODS, and what is left -/
  | noMods (rest : Text)
  /-- a token of `s_parsetable`; what follows is read by the grammar -/
  | clause (tok : Text) (rest : Text)
  /-- the text of the comment, and what is left -/
  | body (s : Text) (rest : Text)
  | eof
  /-- an assertion fails -/
  | fails
deriving DecidableEq, Repr

/-- 900-946: the rest of the comment, to the next `%` -/
def readBody (s : Text) (r : Text) : Read :=
  match r.dropWhile (· ≠ '%') with
  | [] => .eof
  | [_] => .fails
  | _ :: c :: r' => if c = '}' then .body (s ++ r.takeWhile (· ≠ '%')) r' else .fails

/-- 873-946: letters, and one character more -/
def read (input : Text) : Read :=
  let word := input.takeWhile Char.isAlpha
  match input.dropWhile Char.isAlpha with
  | [] => .eof
  | ic :: r =>
    if word = [] ∧ ic = '%' then
      match r with
      | c :: r' => if c = '}' then .noMods r' else .fails
      | [] => .fails
    else match parseTable.lookup word with
      | some tok => .clause tok r
      | none => readBody (word ++ [ic]) r

/-! ## Flags: 955-1120 -/

/-- what `flags_identifyFlag` says about the name of a flag -/
inductive Class where
  | skip
  | mode
  | invalid
  | global
  | simple
  /-- `flagcode_hasArgument` -/
  | value
deriving DecidableEq, Repr

inductive Eff where
  /-- "A mode flag cannot be restored." -/
  | modeRestore (name : Text)
  /-- `context_setMode` -/
  | mode (name : Text)
  /-- "Unrecognized option in semantic comment" -/
  | unrecognized (name : Text)
  /-- "Semantic comment attempts to set global flag" -/
  | global (name : Text)
  /-- `context_fileSetFlag` -/
  | set (name : Text) (sgn : Char)
  /-- "A flag for setting a value cannot be restored." -/
  | valueRestore (name : Text)
  /-- "Flag ... must be followed by an argument" -/
  | needArg (name : Text)
  /-- `flags_setValueFlag`, `flags_setStringFlag` -/
  | value (name : Text) (arg : Text)
deriving DecidableEq, Repr

/-- ends the name of a flag -/
def endsName (c : Char) : Bool := sign c || blank c

/-- 1112-1116: what the next flag is read from; `s` begins with the character that ended the name (or is empty) -/
def next (s : Text) : Text :=
  match s with
  | [] => []
  | c :: r => if blank c then r.dropWhile blank else c :: r

/-- 1048-1110: a flag with a value; `s` is what follows the name. What it does, and what is left: the character that
ended the name is written over the last one of the argument. -/
def argument (name : Text) (s : Text) : List Eff × Text :=
  match s with
  | [] => ([.needArg name], [])
  | c :: _ =>
    let r := s.dropWhile space
    let extra := r.takeWhile (!space ·)
    (if extra = [] then [.needArg name] else [.value name extra], c :: r.dropWhile (!space ·))

/-- the loop over the flags; `n` bounds the number of its steps -/
def flags (nocomments : Bool) (cls : Text → Class) : Nat → Text → List Eff
  | n + 1, c :: s =>
    if sign c then
      let name := s.takeWhile (!endsName ·)
      let s' := s.dropWhile (!endsName ·)
      if nocomments then flags nocomments cls n (next s')
      else match cls name with
        | .skip => flags nocomments cls n (next s')
        | .mode => (if c = '=' then .modeRestore name else .mode name) :: flags nocomments cls n (next s')
        | .invalid => .unrecognized name :: flags nocomments cls n (next s')
        | .global => .global name :: flags nocomments cls n (next s')
        | .simple => .set name c :: flags nocomments cls n (next s')
        | .value =>
          if c = '=' then .set name c :: .valueRestore name :: flags nocomments cls n (next s')
          else .set name c :: ((argument name s').1 ++ flags nocomments cls n (next (argument name s').2))
    else []
  | _, _ => []

/-! ## Words: 1130-1451 -/

inductive Result where
  | flags (es : List Eff)
  | token (tok : Text)
  /-- CANNOTATION -/
  | annotation (name : Text)
  | suppressOn
  | suppressOff
  /-- `context_enterSuppressLine`: without a number, -1 -/
  | suppressLine (n : Option Nat)
  | access (types : List Text)
  | noaccess (types : List Text)
  /-- nothing is done -/
  | nothing
  /-- "Semantic comment unrecognized" -/
  | unrecognized
deriving DecidableEq, Repr

structure Cfg where
  nocomments : Bool
  tmpcomments : Bool
  /-- FLG_NOACCESS -/
  noaccess : Bool
  cls : Text → Class
  /-- the annotations that have been declared -/
  annotations : List Text

/-- 1261-1341: the names of types; `n` bounds the number of steps -/
def types : Nat → Text → List Text
  | n + 1, s =>
    match s.dropWhile blank with
    | [] => []
    | t =>
      let tname := t.takeWhile fun c => !(blank c || c == ',')
      match t.dropWhile fun c => !(blank c || c == ',') with
      | [] => [tname]
      | c :: r => tname :: if c ≠ ',' ∧ c ≠ ' ' then [] else types n r
  | 0, _ => []

/-- 1225-1235 -/
def number (ds : Text) : Nat := ds.foldl (fun v c => 10 * v + (c.toNat - '0'.toNat)) 0

/-- 1201-1246: `i`, `t`, with or without a number -/
def suppress (cfg : Cfg) (c : Char) (n : Option Nat) : Result :=
  if cfg.nocomments = false ∧ (c = 'i' ∨ cfg.tmpcomments = true) then .suppressLine n else .nothing

/-- 1180-1451: `t` is the word in small letters, `rest` what follows the character after it -/
def other (cfg : Cfg) (t rest : Text) : Result :=
  if t = c!"ignore" then (if cfg.nocomments then .nothing else .suppressOn)
  else match t with
    | [c] => if c = 'i' ∨ c = 't' then suppress cfg c none else .unrecognized
    | c :: d :: ds =>
      if (c = 'i' ∨ c = 't') ∧ d.isDigit then suppress cfg c (some (number (d :: ds.takeWhile Char.isDigit)))
      else if c :: d :: ds = c!"end" then (if cfg.nocomments then .nothing else .suppressOff)
      else if c :: d :: ds = c!"notfunction" then .nothing
      else if c :: d :: ds = c!"access" then
        if cfg.nocomments = false ∧ cfg.noaccess = false then .access (types (rest.length + 1) rest) else .nothing
      else if c :: d :: ds = c!"noaccess" then
        if cfg.nocomments = false ∧ cfg.noaccess = false then .noaccess (types (rest.length + 1) rest) else .nothing
      else .unrecognized
    | [] => .unrecognized

/-- 1130-1179: `s` is the text of the comment, `lead` the blanks in front of it -/
def word (cfg : Cfg) (lead s : Text) : Result :=
  let w := s.takeWhile (!blank ·)
  match keyTable.lookup (w.map Char.toLower) with
  | some tok => .token tok
  | none =>
    -- `os`, up to the NUL that ends the word
    if lead ++ w ∈ cfg.annotations then .annotation (lead ++ w)
    else other cfg (w.map Char.toLower) ((s.dropWhile (!blank ·)).drop 1)

/-- 948-1451: the text of the comment -/
def interpret (cfg : Cfg) (os : Text) : Result :=
  match os.dropWhile blank with
  | c :: s =>
    if sign c then .flags (flags cfg.nocomments cfg.cls (os.length + 1) (c :: s))
    else word cfg (os.takeWhile blank) (c :: s)
  | [] => word cfg (os.takeWhile blank) []

end Splint.Special
