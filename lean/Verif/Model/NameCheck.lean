import Verif.Model.CString
/-!
# Checks on the names of declarations (`src/nameChecks.c`, `src/cstring.c`)

A name is a list of bytes.  `uentry` is replaced by the answers of the predicates that the
checks ask of it, and the table of flags by a function.  A report is a value naming the flag
it is given under and the reason; the text, the location and the suppression by
`optgenerror2` are not modelled.  `hasNameError` is not modelled.  A failed `llassert` is
`none`.
-/
namespace Splint.NameCheck
open Splint

/-- The bytes of a literal. -/
def lit (s : String) : Bytes := s.toList.map fun c => c.toNat.toUInt8

/-- One byte of a literal. -/
def ch (c : Char) : UInt8 := c.toNat.toUInt8

/-- `isupper` in the C locale. -/
def isupper (c : UInt8) : Bool := 65 ≤ c && c ≤ 90
/-- `islower` in the C locale. -/
def islower (c : UInt8) : Bool := 97 ≤ c && c ≤ 122
/-- `isdigit`. -/
def isdigit (c : UInt8) : Bool := 48 ≤ c && c ≤ 57
/-- `isalpha` in the C locale. -/
def isalpha (c : UInt8) : Bool := isupper c || islower c

/-! ## The search in a table -/

/-- The `while` loop of `cstring_bsearch`, cstring.c:849-874, followed by the two assertions of
876-880 and the return.  The answer is the index found, `some none` where there is none;
`none` is a failed assertion or an index outside the table.  `mid` is always
`(high + low + 1) / 2`. -/
def bsearchLoop (key : Bytes) (table : List (Option Bytes)) (low high last : Int) :
    Option (Option Nat) :=
  let n : Int := table.length
  let mid := (high + low + 1) / 2
  if low ≤ high ∧ mid < n then
    if mid = last then none
    else if ¬ (0 ≤ mid ∧ mid < n) then none
    else
      match table[mid.toNat]? with
      | none => none
      | some e =>
        let cmp := cstring_compare (some key) e
        if cmp = 0 then finish mid (some mid.toNat)
        else if cmp < 0 then bsearchLoop key table low (mid - 1) mid
        else bsearchLoop key table (mid + 1) high mid
  else finish mid none
termination_by (high + 1 - low).toNat
decreasing_by all_goals omega
where
  /-- cstring.c:876-882. -/
  finish (mid : Int) (res : Option Nat) : Option (Option Nat) :=
    let n : Int := table.length
    if mid ≠ 0 ∧ mid < n - 1 then
      match table[(mid - 1).toNat]?, table[(mid + 1).toNat]? with
      | some a, some b =>
        if cstring_compare (some key) a > 0 ∧ cstring_compare (some key) b < 0 then some res
        else none
      | _, _ => none
    else some res

/-- `cstring_bsearch`, cstring.c:839-886, for a defined key.  The answer is the index of the entry returned. -/
def bsearch (key : Bytes) (table : List (Option Bytes)) : Option (Option Nat) :=
  bsearchLoop key table 0 table.length (-1)

/-! ## Reserved names -/

/-- Headers/reservedNames.nf. -/
def reservedList : List String :=
  ["BUFSIZ", "CHAR_BIT", "CHAR_MAX", "CHAR_MIN", "CLOCKS_PER_SEC", "DBL_DIG", "DBL_EPSILON",
   "DBL_MANT_DIG", "DBL_MAX", "DBL_MAX_10_EXP", "DBL_MAX_EXP", "DBL_MIN", "DBL_MIN_10_EXP",
   "DBL_MIN_EXP", "EXIT_FAILURE", "EXIT_SUCCESS", "FILE", "FILENAME_MAX", "FLT_DIG",
   "FLT_EPSILON", "FLT_MANT_DIG", "FLT_MAX", "FLT_MAX_10_EXP", "FLT_MAX_EXP", "FLT_MIN",
   "FLT_MIN_10_EXP", "FLT_MIN_EXP", "FLT_RADIX", "FLT_ROUNDS", "FOPEN_MAX", "HUGE_VAL",
   "INT_MAX", "INT_MIN", "LDBL_DIG", "LDBL_EPSILON", "LDBL_MANT_DIG", "LDBL_MAX",
   "LDBL_MAX_10_EXP", "LDBL_MAX_EXP", "LDBL_MIN", "LDBL_MIN_10_EXP", "LDBL_MIN_EXP", "LONG_MAX",
   "LONG_MIN", "L_tmpnam", "MB_CUR_MAX", "MB_LEN_MAX", "NDEBUG", "NULL", "RAND_MAX",
   "SCHAR_MAX", "SCHAR_MIN", "SEEK_CUR", "SEEK_END", "SEEK_SET", "SHRT_MAX", "SHRT_MIN",
   "SIGABRT", "SIGFPE", "SIGILL", "SIGINT", "SIGSEGV", "SIGTERM", "SIG_DFL", "SIG_ERR",
   "SIG_IGN", "TMP_MAX", "UCHAR_MAX", "UINT_MAX", "ULONG_MAX", "USHRT_MAX", "abort", "abs",
   "asctime", "assert", "atexit", "atof", "atoi", "atol", "bsearch", "calloc", "clearerr",
   "clock", "clock_t", "ctime", "currency_symbol", "decimal_point", "difftime", "div", "div_t",
   "errno", "exit", "fclose", "feof", "ferror", "fflush", "fgetc", "fgetpos", "fgets", "fopen",
   "fpos_t", "fprintf", "fputc", "fputs", "frac_digits", "fread", "free", "freopen", "fscanf",
   "fseek", "fsetpos", "ftell", "fwrite", "getc", "getchar", "getenv", "gets", "gmtime",
   "grouping", "int_curr_symbol", "int_frac_digits", "jmp_buf", "labs", "lconv", "ldiv",
   "ldiv_t", "localeconv", "localtime", "longjmp", "malloc", "mblen", "mbstowcs", "mbtowc",
   "mktime", "mon_decimal_point", "mon_grouping", "mon_thousands_sep", "n_cs_precedes",
   "n_sep_by_space", "n_sign_posn", "negative_sign", "offsetof", "p_cs_precedes",
   "p_sep_by_space", "p_sign_posn", "perror", "positive_sign", "printf", "ptrdiff_t", "putc",
   "putchar", "puts", "qsort", "raise", "rand", "realloc", "remove", "rename", "rewind",
   "scanf", "setbuf", "setjmp", "setlocale", "setvbuf", "sig_atomic_t", "signal", "size_t",
   "sprintf", "srand", "sscanf", "stderr", "stdin", "stdout", "system", "thousands_sep", "time",
   "time_t", "tm", "tm_hour", "tm_isdst", "tm_mday", "tm_min", "tm_mon", "tm_sec", "tm_wday",
   "tm_yday", "tm_year", "tmpfile", "tmpnam", "ungetc", "va_arg", "va_end", "va_list",
   "va_start", "vfprintf", "vprintf", "vsprintf", "wchar_t", "wcstombs", "wctomb"]

/-- `reservedNames`, nameChecks.c:1196-1199: `NRESERVEDNAMES` (201) entries, of which the file
gives the first 200; the last is the null pointer. -/
def reservedNames : List (Option Bytes) := reservedList.map (fun s => some (lit s)) ++ [none]

/-- `cppNames`, nameChecks.c:1150-1163: `NCPPNAMES` (39) entries. -/
def cppList : List String :=
  ["and", "and_eq", "asm", "bitand", "bitor", "bool", "catch", "class", "compl", "const_class",
   "delete", "dynamic_cast", "false", "friend", "inline", "mutable", "namespace", "new", "not",
   "not_eq", "operator", "or", "or_eq", "overload", "private", "protected", "public",
   "reinterpret_cast", "static_cast", "template", "this", "throw", "true", "try", "typeid",
   "using", "virtual", "xor", "xor_eq"]

/-- See `cppList`. -/
def cppNames : List (Option Bytes) := cppList.map fun s => some (lit s)

/-- Reasons a name is reported for, one for each message of `checkAnsiName`. -/
inductive Why
  | std | implAny | implTwo | errno | locale | signal | linux | ctype | math | stdlib | string
deriving DecidableEq, Repr

/-- The two flags of `checkAnsiName`. -/
inductive RFlag
  | isoReserved | isoReservedLocal
deriving DecidableEq, Repr

/-- What `checkAnsiName` asks about the declaration: `fileloc_isSystemFile` or
`fileloc_isBuiltin` of its location, `uentry_isFileStatic`, `uentry_isVisibleExternally`,
`uentry_isAnyTag`; and whether `FLG_ISORESERVEDLOCAL` is set. -/
structure RDecl where
  system : Bool
  fileStatic : Bool
  visible : Bool
  tag : Bool
  localFlag : Bool
deriving DecidableEq, Repr

/-- Character `n` (from one) or NUL, as the four initialisations of nameChecks.c:1185-1188. -/
def charAt (name : Bytes) (n : Nat) : UInt8 := name.getD (n - 1) 0

/-- `cstring_equalPrefixLit`, cstring.c:452-462: `strncmp` over the length of the literal. -/
def equalPrefixLit (name : Bytes) (p : String) : Bool := (lit p).isPrefixOf name

/-- nameChecks.c:1409-1439: the names tested when the name has 4, 5 or 6 characters. -/
def math3 : List String := ["cos", "sin", "tan", "exp", "log", "pow"]
/-- See `math3`. -/
def math4 : List String :=
  ["acos", "asin", "atan", "cosh", "sinh", "sqrt", "ceil", "fabs", "fmod", "tanh", "modf"]
/-- See `math3`. -/
def math5 : List String := ["atan2", "floor", "frexp", "ldexp", "log10"]

/-- nameChecks.c:1408-1439. -/
def mathTest (name : Bytes) : Bool :=
  let length := name.length
  let l := name.getLastD 0
  (l == ch 'f' || l == ch 'l') &&
    ((length == 4 && math3.any (equalPrefixLit name)) ||
     (length == 5 && math4.any (equalPrefixLit name)) ||
     (length == 6 && math5.any (equalPrefixLit name)))

/-- `if (c) report`. -/
def rep (c : Bool) (f : RFlag) (w : Why) : List (RFlag × Why) := if c then [(f, w)] else []

/-- `checkAnsiName`, nameChecks.c:1180-1505: the reports given, in order.  `none` where the
search in the table fails an assertion, or where `cstring_lastChar` is asked for the last
character of an empty name. -/
def checkAnsiName (d : RDecl) (name : Bytes) : Option (List (RFlag × Why)) :=
  let length := name.length
  let fchar := charAt name 1
  let schar := charAt name 2
  let tchar := charAt name 3
  let rchar := charAt name 4
  if d.system then some []
  else
    match bsearch name reservedNames with
    | none => none
    | some found =>
      let iso := RFlag.isoReserved
      let r1 := rep found.isSome iso .std
      let r2 :=
        if d.fileStatic || d.visible || d.tag || d.localFlag then
          rep (fchar == ch '_') iso .implAny
        else rep (fchar == ch '_' && (schar == ch '_' || isupper schar)) iso .implTwo
      let r3 := rep (fchar == ch 'E' && (isdigit schar || isupper schar)) iso .errno
      let r4 := rep (decide (length ≥ 4)
        && (fchar == ch 'L' && schar == ch 'C' && tchar == ch '_') && isupper rchar) iso .locale
      let r5 := rep (fchar == ch 'S' && schar == ch 'I' && tchar == ch 'G'
        && ((rchar == ch '_' && (decide (length ≥ 5) && isupper (charAt name 5)))
            || isupper rchar)) iso .signal
      let r6 := rep (fchar == ch 'S' && schar == ch 'A' && tchar == ch '_') iso .linux
      let r := r1 ++ r2 ++ r3 ++ r4 ++ r5 ++ r6
      if (d.visible && !d.tag) || d.localFlag then
        let flg := if d.visible && !d.tag then RFlag.isoReserved else .isoReservedLocal
        if length = 0 then none
        else
          let r7 := rep (((fchar == ch 'i' && schar == ch 's') || (fchar == ch 't' && schar == ch 'o'))
            && islower tchar) flg .ctype
          let r8 := rep (mathTest name) flg .math
          let r9 := rep (fchar == ch 's' && schar == ch 't' && tchar == ch 'r'
            && islower rchar) flg .stdlib
          let r10 := rep (((fchar == ch 'm' && schar == ch 'e' && tchar == ch 'm')
            || (fchar == ch 'w' && schar == ch 'c' && tchar == ch 's')) && islower rchar) flg .string
          some (r ++ r7 ++ r8 ++ r9 ++ r10)
      else some r

/-- `checkCppName`, nameChecks.c:1146-1177: whether the name is reported. -/
def checkCppName (name : Bytes) : Option Bool := (bsearch name cppNames).map (·.isSome)

/-! ## Namespace prefixes -/

/-- `matchPrefixChar`, nameChecks.c:80-111; the codes are in Headers/constants.h:181-203. -/
def matchPrefixChar (nc pc : UInt8) : Bool :=
  if nc == pc then true
  else if pc == ch '^' then isupper nc
  else if pc == ch '&' then islower nc
  else if pc == ch '?' then true
  else if pc == ch '#' then isdigit nc
  else if pc == ch '%' then !isupper nc
  else if pc == ch '~' then !islower nc
  else if pc == ch '$' then isalpha nc
  else if pc == ch '/' then isdigit nc || isalpha nc
  else false

/-- The loop over the prefix in `matchPrefix`, nameChecks.c:126-174.  `rest` is what is left of
the prefix, `n` the position in the name, counted from one, `last` the previous character of
the prefix.  The inner loop over the rest of the name is `List.all`. -/
def matchLoop (name pre : Bytes) : Bytes → Nat → UInt8 → Bool
  | [], _, _ => true
  | pc :: rest, n, last =>
    if pc == ch '*' then (name.drop n).all fun nc => matchPrefixChar nc last
    else if n > name.length then
      decide (name.length > 1) && decide (pre.length ≥ n + 1) && charAt pre (n + 1) == ch '*'
    else if !matchPrefixChar (charAt name n) pc then false
    else matchLoop name pre rest (n + 1) pc

/-- `matchPrefix`, nameChecks.c:113-178. -/
def matchPrefix (name pre : Option Bytes) : Bool :=
  match name, pre with
  | some name, some pre => matchLoop name pre pre 1 0
  | _, _ => true

/-- The namespaces; each stands for the flag `FLG_…PREFIX`. -/
inductive NS
  | macroVar | tag | enum | fileStatic | glob | type | ext | uncheckedMacro | loc | const | iter
deriving DecidableEq, Repr

/-- What `checkPrefix` asks about the declaration, in the order of its tests,
nameChecks.c:248-323. -/
structure PDecl where
  expandedMacro : Bool
  anyTag : Bool
  enumConstant : Bool
  datatype : Bool
  fileStatic : Bool
  globalVariable : Bool
  isVar : Bool
  refParam : Bool
  inMacro : Bool
  anyParam : Bool
  yield : Bool
  constant : Bool
  iter : Bool
  exported : Bool
deriving DecidableEq, Repr

/-- The settings of the flags: for each namespace, whether its flag is set, its string, and
whether the corresponding `…PREFIXEXCLUDE` flag is set. -/
structure PFlags where
  on : NS → Bool
  str : NS → Option Bytes
  exclude : NS → Bool

/-- The outcome of the classification in `checkPrefix`. -/
inductive Kind
  | ns (n : NS)
  /-- The `return` for a parameter that has been checked already. -/
  | skip
  /-- The internal error "What is it". -/
  | bug
deriving DecidableEq, Repr

/-- nameChecks.c:248-323. -/
def classify (d : PDecl) : Kind :=
  if d.expandedMacro then .ns .uncheckedMacro
  else if d.anyTag then .ns .tag
  else if d.enumConstant then .ns .enum
  else if d.datatype then .ns .type
  else if d.fileStatic then .ns .fileStatic
  else if d.globalVariable then .ns .glob
  else if d.isVar then
    if d.refParam then .skip
    else if d.inMacro then
      if d.anyParam then if d.yield then .ns .macroVar else .ns .loc
      else .ns .macroVar
    else .ns .loc
  else if d.constant then .ns .const
  else if d.iter then .ns .iter
  else if d.exported then .ns .ext
  else .bug

/-- nameChecks.c:325-342. -/
def fallBack (on : NS → Bool) (flag : NS) : NS :=
  if flag = .type ∨ flag = .glob ∨ flag = .enum ∨ flag = .const then
    let flag := if flag = .enum then (if on flag then flag else .const) else flag
    if on flag then flag else .ext
  else flag

/-- `excludeCodes`, nameChecks.c:59-71. -/
def excludeCodes : List NS :=
  [.macroVar, .tag, .enum, .fileStatic, .glob, .type, .ext, .uncheckedMacro, .loc]

/-- The `switch` of nameChecks.c:377-418. -/
def excludeCheck (code flag : NS) : Bool :=
  match code with
  | .ext => flag != .ext && flag != .glob && flag != .type && flag != .uncheckedMacro
  | _ => flag != code

/-- The reports of `checkPrefix`. -/
inductive PReport
  /-- The name does not match the prefix of its own namespace. -/
  | own (n : NS)
  /-- The name matches the prefix of another namespace. -/
  | other (n : NS)
deriving DecidableEq, Repr

/-- `checkPrefix`, nameChecks.c:243-444; `none` is the internal error. -/
def checkPrefix (fl : PFlags) (d : PDecl) (name : Bytes) : Option (List PReport) :=
  match classify d with
  | .skip => some []
  | .bug => none
  | .ns k =>
    let flag := fallBack fl.on k
    let r1 := if fl.on flag && !matchPrefix (some name) (fl.str flag) then [.own flag] else []
    let r2 := excludeCodes.filterMap fun code =>
      if fl.exclude code && excludeCheck code flag && (fl.str code).isSome
          && matchPrefix (some name) (fl.str code) then some (PReport.other code) else none
    some (r1 ++ r2)

end Splint.NameCheck
