import Verif.Tactics
/-!
# Definitions of macros on the command line

Models `handlePassThroughFlag` (src/llmain.c:254-341), which is called for each flag `-D` and `-U`, without the `-`
(src/llmain.c:771-775), and `osd_fixDefine` (src/osd.c:525-564), as it is for UNIX.

Simplifications: strings are lists of characters without a NUL. What is before the place that is looked at is kept in
reverse, and `strchr` is a part of the loop. The outcome `none` is an access outside of the string, or `BADBRANCH`.
That the text of the flag itself is cut off at the first quote is left out, since it is not used again.
-/
namespace Splint.PassThrough

abbrev Str := List Char

/-- how many backslashes are before a place -/
def backslashes (before : Str) : Nat := (before.takeWhile (· == '\\')).length

/-- the loop (src/llmain.c:263-313): the text, and whether a quote is open at its end -/
def loop : Str → Bool → Str → Option (Str × Bool)
  | before, opened, [] => some (before.reverse, opened)
  | before, opened, c :: rest =>
    if c ≠ '"' then loop (c :: before) opened rest
    else if backslashes before = before.length then none
    else if backslashes before % 2 = 1 then loop (c :: before) opened rest
    else if opened then loop ('\'' :: '"' :: before) false rest
    else loop ('"' :: '\'' :: before) true rest

/-- `osd_fixDefine` -/
def fixDefine (x : Str) : Option Str :=
  match x.dropWhile (· != '=') with
  | '=' :: '\'' :: body =>
    if x.getLast? = some '\'' ∧ x.dropLast.getLast? ≠ some '\\' then
      if body = [] then none else some (x.takeWhile (· != '=') ++ '=' :: body.dropLast)
    else some x
  | _ => some x

inductive Out where
  /-- "Unclosed quote in flag" -/
  | unclosed
  /-- `cppDoDefine` -/
  | define (s : Str)
  /-- `cppDoUndefine` -/
  | undefine (s : Str)
deriving DecidableEq, Repr

/-- `handlePassThroughFlag` -/
def handle (arg : Str) : Option Out :=
  match loop [] false arg with
  | none => none
  | some (_, true) => some .unclosed
  | some ('D' :: x, false) => (fixDefine x).map .define
  | some ('U' :: x, false) => some (.undefine x)
  | some (_, false) => none

end Splint.PassThrough
