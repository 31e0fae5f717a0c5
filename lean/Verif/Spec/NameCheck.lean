import Verif.Model.NameCheck
/-!
# Which names are reserved, and what a namespace prefix matches

Written from ISO/IEC 9899:1990 (7.1.3 and 7.13, the numbers of ANSI X3.159 being 4.1.2 and
4.13), from the list of names cited by `nameChecks.c` ("Expert C Programming", which the file
`reservedNames.nf` reproduces), from section 12.2 of the manual (`doc/html/manual.htm`) and
from its figure 23.
-/
namespace Splint.NameCheck.Spec
open Splint Splint.NameCheck

/-- The bytes of a text of ASCII characters. -/
def bytes (s : String) : Bytes := s.toList.map fun c => c.toNat.toUInt8

/-- An uppercase letter. -/
def Upper (c : UInt8) : Prop := 'A'.toNat ≤ c.toNat ∧ c.toNat ≤ 'Z'.toNat
/-- A lowercase letter. -/
def Lower (c : UInt8) : Prop := 'a'.toNat ≤ c.toNat ∧ c.toNat ≤ 'z'.toNat
/-- A digit. -/
def Digit (c : UInt8) : Prop := '0'.toNat ≤ c.toNat ∧ c.toNat ≤ '9'.toNat

/-- The order of the entries of a table: the lexicographic order of the bytes, the null pointer
coming last. -/
def Before : Option Bytes → Option Bytes → Prop
  | some a, some b => a < b
  | some _, none => True
  | none, _ => False

/-- The lengths of table for which the search never looks at the last entry: 1, 4, 5, 10 to 13,
22 to 29, and so on. -/
inductive Missed : Nat → Prop
  | one : Missed 1
  | even (n : Nat) : Missed n → Missed (2 * n + 2)
  | odd (n : Nat) : Missed n → Missed (2 * n + 3)

/-- `name` is the text `p` followed by a character of the class `cls` and then anything. -/
def Then (p : String) (cls : UInt8 → Prop) (name : Bytes) : Prop :=
  ∃ c rest, name = bytes p ++ c :: rest ∧ cls c

/-- `name` begins with the text `p`. -/
def Begins (p : String) (name : Bytes) : Prop := ∃ rest, name = bytes p ++ rest

/-- The functions of `<math.h>` in 1990. -/
def mathFunctions : List String :=
  ["acos", "asin", "atan", "atan2", "ceil", "cos", "cosh", "exp", "fabs", "floor", "fmod",
   "frexp", "ldexp", "log", "log10", "modf", "pow", "sin", "sinh", "sqrt", "tan", "tanh"]

/-- The other functions of the standard library of 1990, header by header. -/
def otherFunctions : List String :=
  -- <ctype.h>
  ["isalnum", "isalpha", "iscntrl", "isdigit", "isgraph", "islower", "isprint", "ispunct",
   "isspace", "isupper", "isxdigit", "tolower", "toupper",
   -- <locale.h>, <setjmp.h>, <signal.h>
   "setlocale", "localeconv", "setjmp", "longjmp", "signal", "raise",
   -- <stdio.h>
   "remove", "rename", "tmpfile", "tmpnam", "fclose", "fflush", "fopen", "freopen", "setbuf",
   "setvbuf", "fprintf", "fscanf", "printf", "scanf", "sprintf", "sscanf", "vfprintf", "vprintf",
   "vsprintf", "fgetc", "fgets", "fputc", "fputs", "getc", "getchar", "gets", "putc", "putchar",
   "puts", "ungetc", "fread", "fwrite", "fgetpos", "fseek", "fsetpos", "ftell", "rewind",
   "clearerr", "feof", "ferror", "perror",
   -- <stdlib.h>
   "atof", "atoi", "atol", "strtod", "strtol", "strtoul", "rand", "srand", "calloc", "free",
   "malloc", "realloc", "abort", "atexit", "exit", "getenv", "system", "bsearch", "qsort", "abs",
   "div", "labs", "ldiv", "mblen", "mbtowc", "wctomb", "mbstowcs", "wcstombs",
   -- <string.h>
   "memcpy", "memmove", "strcpy", "strncpy", "strcat", "strncat", "memcmp", "strcmp", "strcoll",
   "strncmp", "strxfrm", "memchr", "strchr", "strcspn", "strpbrk", "strrchr", "strspn", "strstr",
   "strtok", "memset", "strerror", "strlen",
   -- <time.h>
   "clock", "difftime", "mktime", "time", "asctime", "ctime", "gmtime", "localtime", "strftime"]

/-- The keywords and alternative tokens of C++ (ISO/IEC 14882:1998, 2.11) that are not keywords
of C. -/
def cppWords : List String :=
  ["asm", "bool", "catch", "class", "const_cast", "delete", "dynamic_cast", "explicit", "export",
   "false", "friend", "inline", "mutable", "namespace", "new", "operator", "private",
   "protected", "public", "reinterpret_cast", "static_cast", "template", "this", "throw", "true",
   "try", "typeid", "typename", "using", "virtual", "wchar_t",
   "and", "and_eq", "bitand", "bitor", "compl", "not", "not_eq", "or", "or_eq", "xor", "xor_eq"]

/-- The declaration has external linkage. -/
def External (d : RDecl) : Prop := d.visible = true ∧ d.tag = false

/-- The grounds on which a name is reserved for a declaration. -/
def Grounds (d : RDecl) (name : Bytes) : Why → Prop
  | .std => ∃ s ∈ reservedList, name = bytes s
  | .implAny => (d.fileStatic ∨ d.visible ∨ d.tag ∨ d.localFlag) ∧ Begins "_" name
  | .implTwo => ¬ (d.fileStatic ∨ d.visible ∨ d.tag ∨ d.localFlag) ∧
      (Then "_" Upper name ∨ Begins "__" name)
  | .errno => Then "E" (fun c => Digit c ∨ Upper c) name
  | .locale => Then "LC_" Upper name
  | .signal => Then "SIG" Upper name ∨ Then "SIG_" Upper name
  | .linux => Begins "SA_" name
  | .ctype => (External d ∨ d.localFlag) ∧ (Then "is" Lower name ∨ Then "to" Lower name)
  | .math => (External d ∨ d.localFlag) ∧
      ∃ f ∈ mathFunctions, name = bytes f ++ bytes "f" ∨ name = bytes f ++ bytes "l"
  | .stdlib => (External d ∨ d.localFlag) ∧ Then "str" Lower name
  | .string => (External d ∨ d.localFlag) ∧ (Then "mem" Lower name ∨ Then "wcs" Lower name)

/-- The last four grounds hold for names with external linkage; for other names they are
reported only on request, under a flag of their own. -/
def Under (d : RDecl) (w : Why) (f : RFlag) : Prop :=
  f = if (w = .ctype ∨ w = .math ∨ w = .stdlib ∨ w = .string) ∧ ¬ (d.visible = true ∧ d.tag = false)
      then .isoReservedLocal else .isoReserved

/-! ## Namespace prefixes -/

/-- A character of a name. -/
def IdChar (c : UInt8) : Prop := Upper c ∨ Lower c ∨ Digit c ∨ c = 95

/-- The byte of an ASCII character. -/
def code (c : Char) : UInt8 := c.toNat.toUInt8

/-- Figure 23 of the manual: the characters that a character of a prefix stands for. -/
def InClass (pc nc : UInt8) : Prop :=
  if pc = code '^' then Upper nc
  else if pc = code '&' then Lower nc
  else if pc = code '%' then ¬ Upper nc
  else if pc = code '~' then ¬ Lower nc
  else if pc = code '$' then Upper nc ∨ Lower nc
  else if pc = code '/' then Upper nc ∨ Lower nc ∨ Digit nc
  else if pc = code '?' then True
  else if pc = code '#' then Digit nc
  else nc = pc

/-- The name begins as the characters say. -/
def Fits : Bytes → Bytes → Prop
  | [], _ => True
  | c :: p, x :: name => InClass c x ∧ Fits p name
  | _ :: _, [] => False

/-- Section 12.2: "The `*` character may be used at the end of a prefix string to specify the
rest of the identifier is zero or more characters matching the character immediately before
the `*`." -/
def FitsStar (p : Bytes) (c : UInt8) (name : Bytes) : Prop :=
  Fits p name ∧ ∀ x ∈ name.drop p.length, InClass c x

/-- A prefix without `*`. -/
def Plain (p : Bytes) : Prop := ∀ c ∈ p, c ≠ code '*'

/-! ## Namespaces -/

/-- What is being declared. -/
def Is (d : PDecl) : NS → Prop
  | .uncheckedMacro => d.expandedMacro
  | .tag => ¬ d.expandedMacro ∧ d.anyTag
  | .enum => ¬ d.expandedMacro ∧ ¬ d.anyTag ∧ d.enumConstant
  | .type => ¬ d.expandedMacro ∧ ¬ d.anyTag ∧ ¬ d.enumConstant ∧ d.datatype
  | .fileStatic => Plainly d ∧ d.fileStatic
  | .glob => Plainly d ∧ ¬ d.fileStatic ∧ d.globalVariable
  | .macroVar => Inner d ∧ d.isVar ∧ ¬ d.refParam ∧ d.inMacro ∧ (d.anyParam → d.yield)
  | .loc => Inner d ∧ d.isVar ∧ ¬ d.refParam ∧ (d.inMacro → d.anyParam ∧ ¬ d.yield)
  | .const => Inner d ∧ ¬ d.isVar ∧ d.constant
  | .iter => Inner d ∧ ¬ d.isVar ∧ ¬ d.constant ∧ d.iter
  | .ext => Inner d ∧ ¬ d.isVar ∧ ¬ d.constant ∧ ¬ d.iter ∧ d.exported
where
  /-- Neither a macro, nor a tag, an enumerator or a type. -/
  Plainly (d : PDecl) : Prop :=
    ¬ d.expandedMacro ∧ ¬ d.anyTag ∧ ¬ d.enumConstant ∧ ¬ d.datatype
  /-- Nor a variable of the file or of the program. -/
  Inner (d : PDecl) : Prop := Plainly d ∧ ¬ d.fileStatic ∧ ¬ d.globalVariable

/-- Section 12.2: the contexts an identifier is in, the most specific first. -/
def contexts : NS → List NS
  | .uncheckedMacro => [.uncheckedMacro, .ext]
  | .tag => [.tag]
  | .enum => [.enum, .const, .ext]
  | .type => [.type, .ext]
  | .fileStatic => [.fileStatic]
  | .glob => [.glob, .ext]
  | .macroVar => [.macroVar]
  | .loc => [.loc]
  | .const => [.const, .ext]
  | .iter => [.iter, .ext]
  | .ext => [.ext]

/-- `n` is the first of the contexts whose prefix is defined. -/
def MostSpecific (fl : PFlags) (k n : NS) : Prop :=
  (contexts k).find? (fun m => fl.on m) = some n

/-- The flag of a prefix is set exactly when there is a prefix. -/
def Settings (fl : PFlags) : Prop := ∀ n, fl.on n = (fl.str n).isSome

end Splint.NameCheck.Spec
