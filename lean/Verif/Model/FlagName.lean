import Verif.Model.FlagTable
/-! Recognising flag names: `src/flags.c`, `canonicalizeFlag` and `flags_identifyFlagAux`. -/
namespace Splint.Flag

/-- `strstr` and the copying that puts `new` in the place of the first occurrence of `old`
(`src/cstring.c:222-247`); `none` if there is no occurrence. -/
def replaceFirst (old new : List Char) : List Char → Option (List Char)
  | [] => none
  | c :: cs =>
    if old.isPrefixOf (c :: cs) then some (new ++ (c :: cs).drop old.length)
    else (replaceFirst old new cs).map (c :: ·)

/-- The loop of `cstring_replaceLit`, `src/cstring.c:222-250`, for at most `n` rounds. -/
def replaceRounds (old new : List Char) : Nat → List Char → List Char
  | 0, s => s
  | n + 1, s =>
    match replaceFirst old new s with
    | none => s
    | some s' => replaceRounds old new n s'

/-- `cstring_replaceLit`, `src/cstring.c:216-252`.  With `new` shorter than `old` every round makes
the text shorter, so that its length bounds the number of rounds (`replaceAll_none`). -/
def replaceAll (old new s : List Char) : List Char := replaceRounds old new s.length s

/-- `transform[]`, `src/flags.c:963-988`. -/
def transforms : List (List Char × List Char) :=
  [(c!"function", c!"fcn"), (c!"variable", c!"var"), (c!"constant", c!"const"),
   (c!"iterator", c!"iter"), (c!"parameter", c!"param"), (c!"unrecognized", c!"unrecog"),
   (c!"qualifier", c!"qual"), (c!"declaration", c!"decl"), (c!"globals", c!"globs"),
   (c!"modifies", c!"mods"), (c!"modify", c!"mod"), (c!"pointer", c!"ptr"), (c!"implies", c!"imp"),
   (c!"implicit", c!"imp"), (c!"implied", c!"imp"), (c!"unconstrained", c!"uncon"),
   (c!"unconst", c!"uncon"), (c!"memory", c!"mem"), (c!"length", c!"len"), (c!"return", c!"ret"),
   (c!"system", c!"sys")]

/-- The characters stripped, `src/flags.c:1002`. -/
def stripped (c : Char) : Bool := c == ' ' || c == '-' || c == '_'

/-- `canonicalizeFlag`, `src/flags.c:957-1004`. -/
def canonicalise (s : List Char) : List Char :=
  (transforms.foldl (fun r t => replaceAll t.1 t.2 r) s).filter fun c => !stripped c

/-- The results of `flags_identifyFlagAux`. -/
inductive Ident where
  | flag (f : Nat)
  | skip
  | modeName
  | invalid
deriving DecidableEq

/-- The synonyms and obsolete flags, `src/flags.c:1063-1276`. -/
def synonyms : List (List Char × Ident) :=
  [(c!"pred", .flag FLG_PREDBOOL), (c!"modobserverstrict", .flag FLG_MODOBSERVERUNCON),
   (c!"czechnames", .flag FLG_CZECH), (c!"slovaknames", .flag FLG_SLOVAK),
   (c!"czechoslovaknames", .flag FLG_CZECHOSLOVAK), (c!"globunspec", .flag FLG_GLOBUNSPEC),
   (c!"globuncon", .flag FLG_GLOBUNSPEC), (c!"modglobsunspec", .flag FLG_MODGLOBSUNSPEC),
   (c!"modglobsuncon", .flag FLG_MODGLOBSUNSPEC), (c!"modglobsnomods", .flag FLG_MODGLOBSUNSPEC),
   (c!"export", .flag FLG_EXPORTANY), (c!"macrospec", .flag FLG_MACRODECL),
   (c!"ansireservedlocal", .flag FLG_ISORESERVEDLOCAL), (c!"warnposix", .flag FLG_WARNPOSIX),
   (c!"defuse", .flag FLG_USEDEF), (c!"macroundef", .flag FLG_MACROUNDEF),
   (c!"showcol", .flag FLG_SHOWCOL), (c!"intbool", .flag FLG_BOOLINT),
   (c!"intchar", .flag FLG_CHARINT), (c!"intenum", .flag FLG_ENUMINT),
   (c!"intlong", .flag FLG_LONGINT), (c!"intshort", .flag FLG_SHORTINT),
   (c!"ansilib", .flag FLG_ANSILIB), (c!"ansistrictlib", .flag FLG_STRICTLIB),
   (c!"skipansiheaders", .flag FLG_SKIPISOHEADERS), (c!"ansireserved", .flag FLG_ISORESERVED),
   (c!"ansireservedinternal", .flag FLG_ISORESERVEDLOCAL), (c!"accessunspec", .skip),
   (c!"ansilimits", .skip), (c!"staticmods", .skip), (c!"bool", .skip), (c!"shiftsigned", .skip),
   (c!"ansi", .skip), (c!"usestderr", .skip), (c!"stdio", .skip)]

/-- `mode_names`, `src/flags.c:181-185`. -/
def modeNames : List (List Char) := [c!"weak", c!"standard", c!"checks", c!"strict"]

/-- The part of `flags_identifyFlagAux` after the canonicalisation, `src/flags.c:1051-1286`. -/
def lookupName (cflag : List Char) : Ident :=
  match table.findIdx? (fun r => r.name == cflag) with
  | some f => .flag f
  | none =>
    match synonyms.lookup cflag with
    | some i => i
    | none => if modeNames.contains cflag then .modeName else .invalid

/-- `flags_identifyFlagAux`, `src/flags.c:1018-1289`.  The warnings about obsolete flags are left
out. -/
def identify (s : List Char) : Ident :=
  match s with
  | [] => .invalid
  | c :: _ =>
    if c = 'I' then .flag FLG_INCLUDEPATH
    else if c = 'S' then .flag FLG_SPECPATH
    else if c = 'D' then .flag FLG_DEFINE
    else if c = 'U' then .flag FLG_UNDEFINE
    else lookupName (canonicalise s)

end Splint.Flag
