import Verif.Tactics
/-!
# The length of string literals

Model of src/cstring.c: `doMergeString` (905-969), `doExpandEscapes` (972-1113), `cstring_expandEscapes`
(1117-1124), `cstring_lengthExpandEscapes` (1126-1139); of src/general.c: `mstring_create` (329-337); and
of src/exprNode.c: `exprNode_rawStringLiteral` (815-834), `exprNode_stringLiteral` (863-875),
`exprNode_checkStringLiteralLength` (1057-1124).

Simplifications:
* memory that `mstring_create` allocates has its first byte set to 0, and anything in the others: the
  function `mem`; the code reads such bytes (see `mergeGo`);
* `none`: a failed assertion, or undefined behaviour (overflow of an `int`, a read before the start of an
  array);
* characters are what the text has; the values of `doExpandEscapes` are those of `unsigned char`;
* the inner loop of `doMergeString` that looks for the next quotation mark is a state (`gap`).
-/
namespace Splint.StrLit

/-- The content of new memory: `mstring_create`, general.c:329-337. -/
def fresh (mem : Nat → Char) (i : Nat) : Char := if i = 0 then '\x00' else mem i

/-- The loop of `doMergeString`, 926-966: what is written from position `pos` on. At a junction the
position is advanced but nothing is written. -/
def mergeGo (mem : Nat → Char) (esc gap : Bool) (pos : Nat) : List Char → Option (List Char)
  | [] => if gap then none else some []
  | c :: s =>
    if gap then
      if c = '"' then (mergeGo mem esc false (pos + 1) s).map (fresh mem pos :: ·)
      else mergeGo mem esc true pos s
    else if c = '\\' then (mergeGo mem (!esc) false (pos + 1) s).map (c :: ·)
    else if c = '"' && !esc then mergeGo mem esc true pos s
    else (mergeGo mem false false (pos + 1) s).map (c :: ·)

/-- A string in C ends before the first 0. -/
def cut (s : List Char) : List Char := s.takeWhile (· ≠ '\x00')

/-- `doMergeString`, 905-969. -/
def mergeString (mem : Nat → Char) (s : List Char) : Option (List Char) :=
  (mergeGo mem false false 0 s).map cut

/-- `*ptr >= '0' && *ptr <= '9'`: the value. -/
def digit (c : Char) : Option Nat := if 48 ≤ c.toNat ∧ c.toNat ≤ 57 then some (c.toNat - 48) else none

/-- A digit or, with `toupper`, one of the letters A to F: the value. -/
def hexDigit (c : Char) : Option Nat :=
  if 48 ≤ c.toNat ∧ c.toNat ≤ 57 then some (c.toNat - 48)
  else if 65 ≤ c.toNat ∧ c.toNat ≤ 70 then some (c.toNat - 65 + 10)
  else if 97 ≤ c.toNat ∧ c.toNat ≤ 102 then some (c.toNat - 97 + 10)
  else none

def intMax : Nat := 2 ^ 31 - 1

/-- The loop for hexadecimal escapes, 1031-1043. -/
def hexLoop (total : Nat) : List Char → Option (Nat × List Char)
  | [] => some (total, [])
  | c :: s =>
    match hexDigit c with
    | none => some (total, c :: s)
    | some d => if total * 16 + d ≤ intMax then hexLoop (total * 16 + d) s else none

/-- An escape after the backslash: its value and what follows (999-1098). -/
def escape : List Char → Option (Nat × List Char)
  | [] => some (92, [])
  | c :: s =>
    match digit c with
    | some d1 =>
      match s with
      | [] => some (d1, [])
      | c2 :: s2 =>
        match digit c2 with
        | none => some (d1, c2 :: s2)
        | some _ =>
          match s2 with
          | [] => some (d1 * 8, [])
          | c3 :: s3 =>
            match digit c3 with
            | none => some (d1 * 8, c3 :: s3)
            | some d3 => some (d1 * 8 * 8 + d3, s3)
    | none =>
      if c = 'x' then
        match s with
        | [] => some (120, [])
        | c2 :: s2 =>
          match hexDigit c2 with
          | none => some (120, c2 :: s2)
          | some _ => hexLoop 0 (c2 :: s2)
      else
        some (if c = 'a' then 7 else if c = 'b' then 8 else if c = 'f' then 12 else if c = 'n' then 10
          else if c = 'r' then 13 else if c = 't' then 9 else c.toNat, s)

/-- `doExpandEscapes`, 972-1113, with fuel for the loop. -/
def expandGo : Nat → List Char → Option (List Nat)
  | _, [] => some []
  | 0, _ => none
  | n + 1, c :: s =>
    if c ≠ '\\' then (expandGo n s).map (c.toNat :: ·)
    else
      match escape s with
      | none => none
      | some (v, r) => (expandGo n r).map (v % 256 :: ·)

/-- Every turn of the loop reads a character. -/
def expand (s : List Char) : Option (List Nat) := expandGo s.length s

/-- `cstring_lengthExpandEscapes`, 1126-1139. -/
def lengthExpand (mem : Nat → Char) (s : List Char) : Option Nat :=
  match mergeString mem s with
  | none => none
  | some t => (expand t).map List.length

/-- The messages of `exprNode_checkStringLiteralLength`. -/
inductive Msg where
  | noRoomFinalNull | noRoom | tooLong | smaller
  deriving DecidableEq, Repr

/-- `exprNode_stringLiteral`, 863-875: the text between the first and the last quotation mark. -/
def inner (t : List Char) : Option (List Char) :=
  if 2 ≤ t.length ∧ t.head? = some '"' ∧ t.getLast? = some '"' then some (t.tail.dropLast) else none

/-- `exprNode_checkStringLiteralLength`, 1057-1124, for an array with `k` elements: the message. The array
`temp` ends with a 0, after that is other memory. -/
def check (mem : Nat → Char) (k : Nat) (slit : List Char) : Option (Option Msg) :=
  match lengthExpand mem slit with
  | none => none
  | some len =>
    if len = k then
      match expand slit with
      | none => none
      | some temp =>
        if len = 0 then none
        else some (some (if (temp ++ [0])[len - 1]? = some 0 then .noRoomFinalNull else .noRoom))
    else if k < len then some (some .tooLong)
    else if len < k - 1 then some (some .smaller)
    else some none

/-- The test of `exprNode_rawStringLiteral`, 816-834, with the flag `stringliterallen`. -/
def limitExceeded (max : Nat) (slit : List Char) : Bool := max < slit.length

end Splint.StrLit
