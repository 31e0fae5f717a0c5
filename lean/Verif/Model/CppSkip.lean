import Verif.Tactics
/-!
# Skipping a group of a conditional, character by character

Model of `skip_if_group` (src/cpplib.c:5671-5861, with `any` 0) and of what it reads with: `skip_comment`
(1020-1122), `cppSkipHspace` (1125-1185), the part of `cpplib_getTokenAux` for strings and character
constants (6151-6277) and `parse_name` (6755-6786).

The input is a buffer with a position: the characters already read, the last first, and the rest.
Going back by one character is possible as long as one was read. The buffer is that of a file: no
escapes. `$` is part of a name, which is an option. Comments beginning with `//` are on, as set at
cpplib.c:964. Neither -traditional nor -pedantic is given, and no conditionals are output. Messages and
line counts are dropped. A character is an ASCII character: a byte above 127 is negative where `char` is
signed, and 255 is `EOF`. Of the stack of conditionals only the depth above that of the group is kept; the
rest of a frame matters only for messages.
-/
namespace Splint.CppSkip

/-- The buffer: what was read, the last first, and the rest. -/
abbrev Pos := List Char × List Char

/-- `cppReader_forward (pfile, -1)`. -/
def back : Pos → Pos
  | (c :: b, a) => (b, c :: a)
  | z => z

/-- `is_hor_space`, cpplib.c:578-583. -/
def isHSpace (c : Char) : Bool := c == ' ' || c == '\t' || c == '\x0b' || c == '\x0c' || c == '\r'

/-- `is_idchar`, cpplib.c:561-575. -/
def isIdChar (c : Char) : Bool :=
  ('a' ≤ c && c ≤ 'z') || ('A' ≤ c && c ≤ 'Z') || ('0' ≤ c && c ≤ '9') || c == '_' || c == '$'

/-- The backslashes before a newline at the beginning of `skip_comment`, cpplib.c:1034-1042. -/
def skipCont : List Char → List Char → Pos
  | b, '\\' :: '\n' :: a => skipCont ('\n' :: '\\' :: b) a
  | b, a => (b, a)

/-- What `skip_comment` returns. -/
inductive Com where
  | space
  | slash
  | eof
deriving DecidableEq, Repr

/-- The loop for a comment, cpplib.c:1048-1077. -/
def block : Char → List Char → List Char → Com × Pos
  | _, b, [] => (.eof, (b, []))
  | p, b, '\\' :: '\n' :: a => block p ('\n' :: '\\' :: b) a
  | p, b, c :: a => if p = '*' ∧ c = '/' then (.space, (c :: b, a)) else block c (c :: b) a

/-- The loop for a comment to the end of the line, cpplib.c:1090-1117. -/
def lineCom : List Char → List Char → Com × Pos
  | b, [] => (.space, (b, []))
  | b, '\\' :: '\n' :: a => lineCom ('\n' :: '\\' :: b) a
  | b, '\n' :: a => (.space, (b, '\n' :: a))
  | b, c :: a => lineCom (c :: b) a

/-- `skip_comment`, cpplib.c:1025-1122; the slash was read. -/
def skipComment (b a : List Char) : Com × Pos :=
  match skipCont b a with
  | (b, '*' :: a) => block '\x00' ('*' :: b) a
  | (b, '/' :: a) => lineCom ('/' :: b) a
  | z => (.slash, z)

theorem skipCont_le : ∀ b a, (skipCont b a).2.length ≤ a.length := by
  intro b a
  fun_induction skipCont b a with
  | case1 b a ih => simp only [List.length_cons]; omega
  | case2 b a => exact Nat.le_refl _

theorem block_le : ∀ p b a, (block p b a).2.2.length ≤ a.length := by
  intro p b a
  fun_induction block p b a with
  | case1 => simp
  | case2 p b a ih => simp only [List.length_cons]; omega
  | case3 => simp
  | case4 p b c a _ _ ih => simp only [List.length_cons]; omega

theorem lineCom_le : ∀ b a, (lineCom b a).2.2.length ≤ a.length := by
  intro b a
  fun_induction lineCom b a with
  | case1 => simp
  | case2 b a ih => simp only [List.length_cons]; omega
  | case3 => simp
  | case4 b c a _ _ ih => simp only [List.length_cons]; omega

theorem skipComment_le (b a : List Char) : (skipComment b a).2.2.length ≤ a.length := by
  unfold skipComment
  have h := skipCont_le b a
  split
  · rename_i b' a' he
    rw [he] at h
    have := block_le '\x00' ('*' :: b') a'
    simp only [List.length_cons] at h
    omega
  · rename_i b' a' he
    rw [he] at h
    have := lineCom_le ('/' :: b') a'
    simp only [List.length_cons] at h
    omega
  · rename_i z he _
    exact h

/-- `cppSkipHspace`, cpplib.c:1126-1185. -/
def skipHspace (b : List Char) (a : List Char) : Pos :=
  match a with
  | [] => (b, [])
  | c :: a =>
    if isHSpace c then skipHspace (c :: b) a
    else if c = '/' then
      match h : skipComment (c :: b) a with
      | (.space, z) => skipHspace z.1 z.2
      | (.slash, z) => back z
      | (.eof, z) => z
    else if c = '\\' ∧ a.head? = some '\n' then skipHspace ('\n' :: c :: b) a.tail
    else (b, c :: a)
termination_by a.length
decreasing_by
  · simp
  · have := skipComment_le (c :: b) a
    rw [h] at this
    simp only [List.length_cons] at *
    omega
  · simp only [List.length_tail, List.length_cons]; omega

/-- A character after a backslash, with `NEWLINE_FIX1`, cpplib.c:6252-6263. -/
def fixChar : List Char → List Char → Pos
  | b, [] => (b, [])
  | b, '\\' :: '\n' :: a => fixChar ('\n' :: '\\' :: b) a
  | b, c :: a => (c :: b, a)

theorem fixChar_le : ∀ b a, (fixChar b a).2.length ≤ a.length := by
  intro b a
  fun_induction fixChar b a with
  | case1 => simp
  | case2 b a ih => simp only [List.length_cons]; omega
  | case3 => simp

/-- A string or character constant, cpplib.c:6156-6271; the quote `q` was read. -/
def quoted (q : Char) (b : List Char) (a : List Char) : Pos :=
  match a with
  | [] => (b, [])
  | c :: a =>
    if c = '\n' then
      if q = '\'' then (c :: b, a) else quoted q (c :: b) a
    else if c = '\\' then
      if a.head? = some '\n' then quoted q ('\n' :: c :: b) a.tail
      else quoted q (fixChar (c :: b) a).1 (fixChar (c :: b) a).2
    else if c = q then (c :: b, a)
    else quoted q (c :: b) a
termination_by a.length
decreasing_by
  · simp
  · simp only [List.length_tail, List.length_cons]; omega
  · have := fixChar_le (c :: b) a
    simp only [List.length_cons]; omega
  · simp

theorem quoted_le (q : Char) : ∀ b a, (quoted q b a).2.length ≤ a.length := by
  intro b a
  have hf := fixChar_le
  fun_induction quoted q b a
  case case5 b1 a1 _ _ ih =>
    have := hf ('\\' :: b1) a1
    simp only [List.length_cons] at *
    omega
  all_goals simp only [List.length_cons, List.length_tail, List.length_nil] at *
  all_goals omega

/-- The loop that skips the rest of a line, cpplib.c:5815-5849: `some` is the beginning of the next line. -/
def skipLine (b : List Char) (a : List Char) : Option Pos :=
  match a with
  | [] => none
  | c :: a =>
    if c = '/' then
      match h : skipComment (c :: b) a with
      | (.eof, _) => none
      | (_, z) => skipLine z.1 z.2
    else if c = '"' ∨ c = '\'' then skipLine (quoted c (c :: b) a).1 (quoted c (c :: b) a).2
    else if c = '\\' ∧ a.head? = some '\n' then skipLine ('\n' :: c :: b) a.tail
    else if c = '\n' then some (c :: b, a)
    else skipLine (c :: b) a
termination_by a.length
decreasing_by
  · have := skipComment_le (c :: b) a
    rw [h] at this
    simp only [List.length_cons] at *
    omega
  · have := quoted_le c (c :: b) a
    simp only [List.length_cons]; omega
  · simp only [List.length_tail, List.length_cons]; omega
  · simp

/-- A backslash in `parse_name` that was read, cpplib.c:6762-6769: the character read stays the
backslash. -/
def nameCont : List Char → List Char → Pos
  | b, ['\n'] => ('\n' :: b, [])
  | b, '\n' :: c :: a => nameCont (c :: '\n' :: b) a
  | b, a => back (b, a)

/-- `parse_name`, cpplib.c:6755-6786: the name and the position. -/
def parseName : List Char → List Char → List Char × Pos
  | b, [] => ([], (b, []))
  | b, c :: a =>
    if isIdChar c then
      let r := parseName (c :: b) a
      (c :: r.1, r.2)
    else if c = '\\' ∧ a.head? = some '\n' then ([], nameCont (c :: b) a)
    else ([], (b, c :: a))

/-- The directives, as `skip_if_group` tells them apart, cpplib.c:5737-5794. -/
inductive Kind where
  | opens
  | elif
  | els
  | endif
  | other
deriving DecidableEq, Repr

/-- The table of directives, cpplib.c:509-526. -/
def kindOf (name : List Char) : Kind :=
  if name = "if".toList ∨ name = "ifdef".toList ∨ name = "ifndef".toList then .opens
  else if name = "elif".toList then .elif
  else if name = "else".toList then .els
  else if name = "endif".toList then .endif
  else .other

/-- What one line of a skipped group does: it is where skipping ends; the file ends; the next line, and
the depth there; an index before a table (cpplib.c:6760 with `EOF`). -/
inductive Line where
  | found
  | eof
  | next (depth : Nat) (z : Pos)
  | bad
deriving DecidableEq, Repr

def Line.rest (depth : Nat) : Option Pos → Line
  | none => .eof
  | some z => .next depth z

/-- One line from `beg_of_line`, cpplib.c:5696-5849. -/
def oneLine (depth : Nat) (z : Pos) : Line :=
  match skipHspace z.1 z.2 with
  | (_, []) => .eof
  | (b, '#' :: a) =>
    match skipHspace ('#' :: b) a with
    | (_, []) => .bad
    | (b, a) =>
      let r := parseName b a
      match kindOf r.1, depth with
      | .opens, d => Line.rest (d + 1) (skipLine r.2.1 r.2.2)
      | .other, d => Line.rest d (skipLine r.2.1 r.2.2)
      | _, 0 => .found
      | .endif, d + 1 => Line.rest d (skipLine r.2.1 r.2.2)
      | _, d + 1 => Line.rest (d + 1) (skipLine r.2.1 r.2.2)
  | (b, a) => Line.rest depth (skipLine b a)

/-- `skip_if_group`: where the line that ends the group begins, or the end of the file; `none` is an index
before a table or no end within the fuel. -/
def skipGroup : Nat → (depth : Nat) → Pos → Option Pos
  | 0, _, _ => none
  | fuel + 1, depth, z =>
    match oneLine depth z with
    | .found => some z
    | .eof => some z
    | .bad => none
    | .next d z' => skipGroup fuel d z'

end Splint.CppSkip
