import Verif.Model.FlagTable
/-! What the texts of `src/flags.def` (shown by `splint -help`) say the setting of a flag does. -/
namespace Splint.Flag.Spec
open Splint.Flag

/-- Flags that are documented to set others the same way, with the lines of `src/flags.def` that say
so.  Groups named in a group are written out. -/
def groups : List (Nat × List Nat) :=
  [-- 77: sets nullderef, nullpass, nullref, nullassign, and nullstate
   (FLG_NULL, [FLG_NULLDEREF, FLG_NULLPASS, FLG_NULLRET, FLG_NULLASSIGN, FLG_NULLSTATE]),
   -- 460: sets predboolint, predboolptr and predboolothers
   (FLG_PREDBOOL, [FLG_PREDBOOLINT, FLG_PREDBOOLPTR, FLG_PREDBOOLOTHERS]),
   -- 607: set accessmodule, accessfile and accessczech
   (FLG_ACCESSALL, [FLG_ACCESSMODULE, FLG_ACCESSFILE, FLG_ACCESSCZECH]),
   -- 653: sets mustfreefresh and mustfreeonly
   (FLG_MUSTFREE, [FLG_MUSTFREEFRESH, FLG_MUSTFREEONLY]),
   -- 733: sets memimplicit, mustfree, mustdefine, mustnotalias, null, memtrans
   (FLG_MEMCHECKS, [FLG_MEMIMPLICIT, FLG_MUSTFREE, FLG_MUSTFREEFRESH, FLG_MUSTFREEONLY,
     FLG_MUSTDEFINE, FLG_MUSTNOTALIAS, FLG_NULL, FLG_NULLDEREF, FLG_NULLPASS, FLG_NULLRET,
     FLG_NULLASSIGN, FLG_NULLSTATE, FLG_MEMTRANS, FLG_DEPENDENTTRANS, FLG_NEWREFTRANS,
     FLG_ONLYTRANS, FLG_ONLYUNQGLOBALTRANS, FLG_OWNEDTRANS, FLG_FRESHTRANS, FLG_SHAREDTRANS,
     FLG_TEMPTRANS, FLG_KEPTTRANS, FLG_KEEPTRANS, FLG_IMMEDIATETRANS, FLG_REFCOUNTTRANS,
     FLG_STATICTRANS, FLG_UNKNOWNTRANS, FLG_STATICINITTRANS, FLG_UNKNOWNINITTRANS,
     FLG_READONLYTRANS, FLG_EXPOSETRANS, FLG_OBSERVERTRANS]),
   -- 761: sets all *trans flags
   (FLG_MEMTRANS, [FLG_DEPENDENTTRANS, FLG_NEWREFTRANS, FLG_ONLYTRANS, FLG_ONLYUNQGLOBALTRANS,
     FLG_OWNEDTRANS, FLG_FRESHTRANS, FLG_SHAREDTRANS, FLG_TEMPTRANS, FLG_KEPTTRANS, FLG_KEEPTRANS,
     FLG_IMMEDIATETRANS, FLG_REFCOUNTTRANS, FLG_STATICTRANS, FLG_UNKNOWNTRANS, FLG_STATICINITTRANS,
     FLG_UNKNOWNINITTRANS, FLG_READONLYTRANS, FLG_EXPOSETRANS, FLG_OBSERVERTRANS]),
   -- 960: sets globimponly, retimponly, structimponly, specglobimponly, specretimponly and
   -- specstructimponly
   (FLG_ALLIMPONLY, [FLG_GLOBIMPONLY, FLG_RETIMPONLY, FLG_STRUCTIMPONLY, FLG_SPECGLOBIMPONLY,
     FLG_SPECRETIMPONLY, FLG_SPECSTRUCTIMPONLY]),
   -- 968: sets globimponly, retimponly and structimponly
   (FLG_CODEIMPONLY, [FLG_GLOBIMPONLY, FLG_RETIMPONLY, FLG_STRUCTIMPONLY]),
   -- 975: sets specglobimponly, specretimponly and specstructimponly
   (FLG_SPECALLIMPONLY, [FLG_SPECGLOBIMPONLY, FLG_SPECRETIMPONLY, FLG_SPECSTRUCTIMPONLY]),
   -- 1068: sets checkstrictglobalias, checkedglobalias, checkmodglobalias and uncheckedglobalias
   (FLG_GLOBALIAS, [FLG_CHECKSTRICTGLOBALIAS, FLG_CHECKEDGLOBALIAS, FLG_CHECKMODGLOBALIAS,
     FLG_UNCHECKEDGLOBALIAS]),
   -- 1129: sets assignexpose, retexpose, and castexpose
   (FLG_REPEXPOSE, [FLG_ASSIGNEXPOSE, FLG_RETEXPOSE, FLG_CASTEXPOSE]),
   -- 1253: sets modnomods, modglobunspec and modstrictglobsunspec
   (FLG_MODUNSPEC, [FLG_MODNOMODS, FLG_MODGLOBSUNSPEC, FLG_MODSTRICTGLOBSUNSPEC]),
   -- 1562: sets forloopexec, whileloopexec and iterloopexec
   (FLG_LOOPEXEC, [FLG_FORLOOPEXEC, FLG_WHILELOOPEXEC, FLG_ITERLOOPEXEC]),
   -- 1692: Sets looploopbreak, loopswitchbreak, switchloopbreak, switchswitchbreak, and
   -- looploopcontinue
   (FLG_DEEPBREAK, [FLG_LOOPLOOPBREAK, FLG_LOOPSWITCHBREAK, FLG_SWITCHLOOPBREAK,
     FLG_SWITCHSWITCHBREAK, FLG_LOOPLOOPCONTINUE]),
   -- 1811: sets ifempty, whileempty and forempty
   (FLG_ALLEMPTY, [FLG_IFEMPTY, FLG_WHILEEMPTY, FLG_FOREMPTY]),
   -- 1821: sets ifblock, whileblock and forblock
   (FLG_ALLBLOCK, [FLG_IFBLOCK, FLG_WHILEBLOCK, FLG_FORBLOCK]),
   -- 1875: sets retvalint, retvalbool and retvalother
   (FLG_RETVAL, [FLG_RETVALINT, FLG_RETVALBOOL, FLG_RETVALOTHER]),
   -- 1924: sets boundsread and boundswrite
   (FLG_BOUNDS, [FLG_BOUNDSREAD, FLG_BOUNDSWRITE]),
   -- 1931: sets likelyboundsread and likelyboundswrite
   (FLG_LIKELYBOUNDS, [FLG_LIKELYBOUNDSREAD, FLG_LIKELYBOUNDSWRITE]),
   -- 2182: sets macrofcndecl and macroconstdecl
   (FLG_MACRODECL, [FLG_MACROFCNDECL, FLG_MACROCONSTDECL]),
   -- 2240: sets fcnmacros and constmacros
   (FLG_ALLMACROS, [FLG_FCNMACROS, FLG_CONSTMACROS]),
   -- 2329: sets accessczech, czechfunctions, czechvars, czechconstants, czechenums, and czechmacros
   -- (there is no flag czechenums)
   (FLG_CZECH, [FLG_ACCESSCZECH, FLG_CZECHFUNCTIONS, FLG_CZECHVARS, FLG_CZECHCONSTANTS,
     FLG_CZECHMACROS]),
   -- 3616, 3625: check for violations of standard limits (controlnestdepth, stringliterallen,
   -- includenest, numstructfields, numenummembers)
   (FLG_ANSI89LIMITS, [FLG_CONTROLNESTDEPTH, FLG_STRINGLITERALLEN, FLG_INCLUDENEST,
     FLG_NUMSTRUCTFIELDS, FLG_NUMENUMMEMBERS]),
   (FLG_ISO99LIMITS, [FLG_CONTROLNESTDEPTH, FLG_STRINGLITERALLEN, FLG_INCLUDENEST,
     FLG_NUMSTRUCTFIELDS, FLG_NUMENUMMEMBERS])]

/-- The `its4` flags, most severe first (`src/flags.def:4100-4103`). -/
def its4 : List Nat :=
  [FLG_ITS4MOSTRISKY, FLG_ITS4VERYRISKY, FLG_ITS4RISKY, FLG_ITS4MODERATERISK, FLG_ITS4LOWRISK]

/-- The other documented effects. -/
def others (f : Nat) (b : Bool) : List (Nat × Bool) :=
  -- "Turning higher level on, turns on all lower levels", "Turning level off, turns off all higher
  -- levels" (src/context.c:3902, 3923)
  if its4.contains f then
    if b then (its4.dropWhile (· != f)).map (·, true)
    else (its4.takeWhile (· != f)).map (·, false)
  -- 2699: Sets +distinctexternalnames;  2735: Sets +distinctinternalnames
  else if f = FLG_EXTERNALNAMELEN then [(FLG_DISTINCTEXTERNALNAMES, true)]
  else if f = FLG_INTERNALNAMELEN then [(FLG_DISTINCTINTERNALNAMES, true)]
  -- 2711, 2750: If +distinct...names is not set, sets it
  else if f = FLG_EXTERNALNAMECASEINSENSITIVE then
    if b then [(FLG_DISTINCTEXTERNALNAMES, true)] else []
  else if f = FLG_INTERNALNAMECASEINSENSITIVE then
    if b then [(FLG_DISTINCTINTERNALNAMES, true)] else []
  -- 3466: check as partial system (-specundef, -declundef, -exportlocal)
  else if f = FLG_PARTIAL then
    if b then [(FLG_SPECUNDEF, false), (FLG_DECLUNDEF, false), (FLG_EXPORTLOCAL, false)] else []
  else []

/-- "idempotent - always sets to TRUE", `src/flags.c:161`. -/
def own (f : Nat) (b : Bool) : Bool := if (table[f]?).elim false (·.idem) then true else b

/-- The settings documented for `+f` (`b = true`) and `-f` (`b = false`). -/
def documented (f : Nat) (b : Bool) : List (Nat × Bool) :=
  (f, own f b) :: ((groups.lookup f).getD []).map (·, b) ++ others f b

/-- The flags after `+f` or `-f`, given the flags before. -/
def after (flags : Nat → Bool) (f : Nat) (b : Bool) (g : Nat) : Bool :=
  ((documented f b).lookup g).getD (flags g)

/-- The settings that are not as documented:
* `memtrans` leaves four of the flags alone, `memchecks` these and the flags `null` and `mustfree`
  themselves, and sets more;
* `bounds`, `boundsread` and `boundswrite` also set `likelyboundsread`, `likelyboundswrite`;
* `czech` sets `czechtypes` and not `czechmacros`, and `-czech` leaves `accessczech` alone; nothing
  is said of what `slovak`, `czechoslovak` and `exportany` set;
* `macrodecl` sets nothing else;
* `+partial` also turns `topunused` off;
* `+internalnamelookalike` sets `distinctinternalnames`;
* `-externalnamelen` and `-internalnamelen` turn the flag itself on;
* `-grammar` turns the flag off though it is among the idempotent flags. -/
def deviates (f : Nat) (b : Bool) : Bool :=
  [FLG_MEMTRANS, FLG_MEMCHECKS, FLG_BOUNDS, FLG_BOUNDSREAD, FLG_BOUNDSWRITE, FLG_CZECH, FLG_SLOVAK,
   FLG_CZECHOSLOVAK, FLG_EXPORTANY, FLG_MACRODECL].contains f
  || (b && [FLG_PARTIAL, FLG_INTERNALNAMELOOKALIKE].contains f)
  || (!b && [FLG_EXTERNALNAMELEN, FLG_INTERNALNAMELEN, FLG_GRAMMAR].contains f)

/-- The flags that modes set are marked so in the table (`src/flags.c:163`). -/
def isMode (f : Nat) : Bool := (table[f]?).elim false (·.mode)

/-- The modes with the flags they turn on. -/
def modes : List (List Char × List Nat) :=
  [(c!"standard", mode_standard), (c!"weak", mode_weak), (c!"checks", mode_checks),
   (c!"strict", mode_strict)]

/-- What one option of the command line says of flag `g`: nothing, or a setting. -/
inductive Opt where
  | flag (f : Nat) (b : Bool)
  | mode (m : List Char)

def Opt.mentions (o : Opt) (g : Nat) : Option Bool :=
  match o with
  | .flag f b => (documented f b).lookup g
  | .mode m => if isMode g then (modes.lookup m).map (·.contains g) else none

/-- The setting of `g` after a command line: the last option that mentions it. -/
def settled (init : Nat → Bool) (os : List Opt) (g : Nat) : Bool :=
  (os.reverse.findSome? (·.mentions g)).getD (init g)

end Splint.Flag.Spec
