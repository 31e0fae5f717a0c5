import Verif.Model.Options
/-! What options are to do, from the manual (sections 1.2 and B). -/
namespace Splint.Opt.Spec
open Flag

/-- The name of an option: what comes after the sign and a second `-`. -/
def name : Word → Word
  | _ :: '-' :: n => n
  | _ :: n => n
  | [] => []

/-- The sign. -/
def signed (a : Word) : Prop := ∃ c n, a = c :: n ∧ (c = '-' ∨ c = '+')

/-- The flags recognised by a letter. -/
def letters : List Nat := [FLG_INCLUDEPATH, FLG_SPECPATH, FLG_DEFINE, FLG_UNDEFINE]

/-- The flag takes an argument of its own (the table of flags says which do); the letters and `help`
take what is written together with them. -/
def wantsArgument (f : Nat) : Prop :=
  ∃ r, table[f]? = some r ∧ r.arg ≠ .none ∧ r.arg ≠ .special

/-- The option is followed by an argument: `-I` and `-S` are if nothing is written together with
them. -/
def Wants (a : Word) : Prop :=
  ∃ f, identify (name a) = .flag f
    ∧ (wantsArgument f ∨ (f = FLG_INCLUDEPATH ∨ f = FLG_SPECPATH) ∧ a.length = 2)

/-- What a command line or an options file is made of. -/
inductive Item where
  | file (a : Word)
  | opt (a : Word)
  | optArg (a v : Word)
deriving DecidableEq

def Item.words : Item → List Word
  | .file a => [a]
  | .opt a => [a]
  | .optArg a v => [a, v]

def Item.Ok : Item → Prop
  | .file a => ¬signed a
  | .opt a => signed a ∧ ¬Wants a
  | .optArg a _ => signed a ∧ Wants a

/-- The words of items. -/
def spell (is : List Item) : List Word := is.flatMap Item.words

/-- The item is an option for the initialisation file of LCL, or one with an obsolete name. -/
def Item.ends : Item → Bool
  | .file _ => false
  | .opt a => identify (name a) = .skip
  | .optArg a _ => identify (name a) = .flag FLG_INIT

/-- The items up to the first one that ends the processing, with it. -/
def reached : List Item → List Item
  | [] => []
  | i :: is => if i.ends then [i] else i :: reached is

/-- The obsolete names (`src/flags.c:1180-1276`). -/
def obsolete : List Word :=
  [c!"accessunspec", c!"ansilimits", c!"staticmods", c!"bool", c!"shiftsigned", c!"ansi",
   c!"usestderr", c!"stdio"]

/-- The flags that control the display of messages: "Processed on first pass". -/
def controlsMessages : List Nat :=
  [FLG_SHOWSCAN, FLG_WARNRC, FLG_PARENFILEFORMAT, FLG_MESSAGESTREAMSTDERR, FLG_MESSAGESTREAMSTDOUT,
   FLG_WARNINGSTREAMSTDERR, FLG_WARNINGSTREAMSTDOUT, FLG_ERRORSTREAMSTDERR, FLG_ERRORSTREAMSTDOUT,
   FLG_MESSAGESTREAM, FLG_WARNINGSTREAM, FLG_ERRORSTREAM, FLG_STREAMOVERWRITE]

end Splint.Opt.Spec

namespace Splint.Opt.Spec
open Flag

/-- The item is an option for the flag. -/
def Item.flagIs (f : Nat) : Item → Bool
  | .file _ => false
  | .opt a => identify (name a) = .flag f
  | .optArg a _ => identify (name a) = .flag f

/-- The arguments of options do not look like options. -/
def Item.Calm : Item → Prop
  | .optArg _ v => ¬signed v
  | _ => True

/-- The default options files that are to be read, by the manual: "The -nof flag prevents the
~/.splintrc file from being loaded", "If this flag [-f] is used from the command line, the default
~/.splintrc file is not loaded". -/
def defaultFiles (e : Env) (is : List Item) : List Act :=
  if is.any (Item.flagIs FLG_NOF) || is.any (Item.flagIs FLG_OPTF) then []
  else (e.home ++ e.here).map (.rc · false)

/-- The flags for files that messages are written to. -/
def streams : List Nat := [FLG_MESSAGESTREAM, FLG_WARNINGSTREAM, FLG_ERRORSTREAM]

/-- The item gives a file that messages are written to. -/
def Item.stream : Item → Bool
  | .optArg a _ => streams.any fun f => identify (name a) = .flag f
  | _ => false

/-- What the items do before the default options files are read: those that control messages take
effect, and the options files given with `-f` are read. -/
def Item.early : Item → List Act
  | .file _ => []
  | .opt a =>
    match identify (name a) with
    | .flag f => if f ∈ controlsMessages then [.set f (a.head? = some '+')] else []
    | _ => []
  | .optArg a v =>
    match identify (name a) with
    | .flag f =>
      if f ∈ controlsMessages then [.set f (a.head? = some '+'), .string f v]
      else if f = FLG_OPTF then [.rc v true]
      else []
    | _ => []

end Splint.Opt.Spec

namespace Splint.Opt.Spec

/-- Where a text ends: outside quotes, inside quotes, or inside quotes after a backslash. -/
inductive Place where
  | plain | quoted | escaped
deriving DecidableEq

def Place.step : Place → Char → Place
  | .plain, c => if c = '"' then .quoted else .plain
  | .quoted, c => if c = '\\' then .escaped else if c = '"' then .plain else .quoted
  | .escaped, _ => .quoted

/-- The place after a text that begins outside quotes. -/
def place (s : Word) : Place := s.foldl Place.step .plain

def isBlank (c : Char) : Prop := c = ' ' ∨ c = '\t'

/-- What ends a flag, outside quotes. -/
def isEnd (c : Char) : Prop := isBlank c ∨ c = '\n'

/-- No blank and no end of line outside quotes. -/
def Unbroken (w : Word) : Prop := ∀ p c q, w = p ++ c :: q → place p = .plain → ¬isEnd c

/-- The flags of a line of an options file: separated by blanks outside quotes; a `#` or `;` where a
flag could begin starts a comment. -/
inductive Line : Word → List Word → Prop where
  | nil : Line [] []
  | blank {c : Char} {s : Word} {ws : List Word} (h : isBlank c) : Line s ws → Line (c :: s) ws
  | comment {c : Char} (s : Word) (h : c = '#' ∨ c = ';' ∨ c = '\n') : Line (c :: s) []
  | flag {c : Char} {w rest : Word} {ws : List Word} (hc : ¬(c = '#' ∨ c = ';'))
      (hw : Unbroken (c :: w))
      (hr : rest = [] ∨ place (c :: w) = .plain ∧ ∃ d t, rest = d :: t ∧ isEnd d) :
      Line rest ws → Line ((c :: w) ++ rest) ((c :: w) :: ws)

end Splint.Opt.Spec
