import Verif.Model.FlagTable
/-! Spellings of flag names. -/
namespace Splint.Flag.Spec

/-- The punctuation that is ignored in flag names (`src/flags.c:1001`). -/
def punctuation : List Char := [' ', '-', '_']

/-- The name without punctuation. -/
def bare (s : List Char) : List Char := s.filter fun c => !punctuation.contains c

/-- The words that may be written out, with the abbreviations used in flag names
(`src/flags.c:963-988`). -/
def words : List (List Char × List Char) :=
  [(c!"function", c!"fcn"), (c!"variable", c!"var"), (c!"constant", c!"const"),
   (c!"iterator", c!"iter"), (c!"parameter", c!"param"), (c!"unrecognized", c!"unrecog"),
   (c!"qualifier", c!"qual"), (c!"declaration", c!"decl"), (c!"globals", c!"globs"),
   (c!"modifies", c!"mods"), (c!"modify", c!"mod"), (c!"pointer", c!"ptr"), (c!"implies", c!"imp"),
   (c!"implicit", c!"imp"), (c!"implied", c!"imp"), (c!"unconstrained", c!"uncon"),
   (c!"unconst", c!"uncon"), (c!"memory", c!"mem"), (c!"length", c!"len"), (c!"return", c!"ret"),
   (c!"system", c!"sys")]

/-- `Spelling n s`: `s` is the name `n` with some of the abbreviations in it written out. -/
inductive Spelling : List Char → List Char → Prop where
  | nil : Spelling [] []
  | char (c : Char) {n s : List Char} : Spelling n s → Spelling (c :: n) (c :: s)
  | word {full short : List Char} (h : (full, short) ∈ words) {n s : List Char} :
      Spelling n s → Spelling (short ++ n) (full ++ s)

/-- The other names of flags that are still accepted, with the names they stand for
(`src/flags.c:1063-1210`). -/
def otherNames : List (List Char × List Char) :=
  [(c!"pred", c!"predbool"), (c!"modobserverstrict", c!"modobserveruncon"),
   (c!"czechnames", c!"czech"), (c!"slovaknames", c!"slovak"),
   (c!"czechoslovaknames", c!"czechoslovak"), (c!"globunspec", c!"globnoglobs"),
   (c!"globuncon", c!"globnoglobs"), (c!"modglobsunspec", c!"modglobsnomods"),
   (c!"modglobsuncon", c!"modglobsnomods"), (c!"export", c!"exportany"),
   (c!"macrospec", c!"macrodecl"), (c!"ansireservedlocal", c!"isoreservedinternal"),
   (c!"warnposix", c!"warnposixheaders"), (c!"defuse", c!"usedef"),
   (c!"macroundef", c!"macrounrecog"), (c!"showcol", c!"showcolumn"), (c!"intbool", c!"boolint"),
   (c!"intchar", c!"charint"), (c!"intenum", c!"enumint"), (c!"intlong", c!"longint"),
   (c!"intshort", c!"shortint"), (c!"ansilib", c!"isolib"), (c!"ansistrictlib", c!"strictlib"),
   (c!"skipansiheaders", c!"skipisoheaders"), (c!"ansireserved", c!"isoreserved"),
   (c!"ansireservedinternal", c!"isoreservedinternal")]

end Splint.Flag.Spec
