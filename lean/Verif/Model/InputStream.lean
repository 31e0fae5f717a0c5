import Verif.Tactics
/-!
# Reading input

Model of `inputStream_fromString` (src/inputStream.c:116-132), `inputStream_nextChar` (134-158), `inputStream_peekNChar`
(160-167), `inputStream_peekChar` (169-195), `inputStream_nextLine` (198-268) and `inputStream_open` (271-284), with
`STUBMAXRECORDSIZE` of Headers/inputStream.h:13.

Simplifications: bytes are numbers below 256, and `char` is signed, so byte 255 has the value of `EOF`; `fgets` does not
fail before the end of the file; the bytes of the file stay the same while it is read; a string has no byte 0; the name, `echo`
and the text that is put into the buffer at the end of the file are left out.  Reading past the end of an array is the
outcome `ub`, a failing `llassert` is `bug`.
-/
namespace Splint.InputStream

/-- Headers/inputStream.h:13 -/
def maxRecord : Nat := 800

inductive Stop
  | ub
  | bug
  deriving DecidableEq, Repr

structure Stream where
  /-- `fromString` -/
  str : Bool
  /-- what has not been read yet from the file, or the string at `stringSourceTail` -/
  rest : List Nat
  /-- `stringSourceTail` is behind the end of the string -/
  over : Bool
  curLine : Option (List Nat)
  charNo : Nat
  lineNo : Nat
  /-- the line of `g_currentloc` -/
  line : Nat
  /-- the column of `g_currentloc` -/
  col : Nat
  deriving DecidableEq, Repr

/-- A stream just opened: `inputStream_create`, `inputStream_fromString`, and `inputStream_open`, inputStream.c:78-132, 271-284 -/
def opened (str : Bool) (text : List Nat) (line col : Nat) : Stream := ⟨str, text, false, none, 0, 0, line, col⟩

/-- `fgets` with room for `k` bytes: what is read, and what is left -/
def fgets : Nat → List Nat → List Nat × List Nat
  | 0, l => ([], l)
  | _ + 1, [] => ([], [])
  | k + 1, c :: l => if c = 10 then ([10], l) else (c :: (fgets k l).1, (fgets k l).2)

/-- The bytes put into the buffer, and the stream after that; `none` at the end of the input.  inputStream.c:208-243 -/
def fill (s : Stream) : Except Stop (Stream × Option (List Nat)) :=
  if s.str then
    if s.over then .error .ub
    else if s.rest = [] then .ok (s, none)
    else
      let len0 := s.rest.findIdx (· = 10) + 1
      let len := if len0 > maxRecord - 2 then maxRecord - 2 else len0
      .ok ({ s with rest := s.rest.drop len, over := decide (len > s.rest.length) }, some (s.rest.take len))
  else if s.rest = [] then .ok (s, none)
  else .ok ({ s with rest := (fgets (maxRecord - 1) s.rest).2 }, some (fgets (maxRecord - 1) s.rest).1)

structure Line where
  text : List Nat
  /-- it is reported that the line is too long -/
  long : Bool
  deriving DecidableEq, Repr

/-- What is done with the contents of the buffer, inputStream.c:249-264 -/
def finishLine (buf : List Nat) : Except Stop Line :=
  let cstr := buf.takeWhile (· ≠ 0)
  if cstr = [] then .error .ub
  else
    let len := cstr.length - 1
    if cstr[len]? = some 10 then .ok ⟨cstr.take len, false⟩
    else .ok ⟨cstr, decide (len ≥ maxRecord - 2)⟩

/-- `inputStream_nextLine`, inputStream.c:198-268 -/
def nextLine (s : Stream) : Except Stop (Stream × Option Line) :=
  if s.curLine.isSome then .error .bug
  else
    match fill { s with charNo := 0 } with
    | .error e => .error e
    | .ok (s, none) => .ok (s, none)
    | .ok (s, some buf) =>
      match finishLine buf with
      | .error e => .error e
      | .ok l => .ok ({ s with lineNo := s.lineNo + 1 }, some l)

/-- the value of a `char` as an `int` -/
def charVal (b : Nat) : Int := if b < 128 then b else (b : Int) - 256

def EOF : Int := -1

/-- The character at the current place, inputStream.c:182-194 -/
def peekCur (s : Stream) : Except Stop (Stream × Int) :=
  match s.curLine with
  | none => .ok (s, EOF)
  | some l =>
    if s.charNo > l.length then .error .bug
    else
      match l[s.charNo]? with
      | none => .ok (s, 10)
      | some b => .ok (s, charVal b)

/-- `inputStream_peekChar`, inputStream.c:169-195 -/
def peekChar (s : Stream) : Except Stop (Stream × Int) :=
  if s.curLine.isSome then peekCur s
  else
    match nextLine s with
    | .error e => .error e
    | .ok (s', l) => peekCur { s' with curLine := l.map (·.text), charNo := 0 }

/-- `inputStream_nextChar`, inputStream.c:134-158 -/
def nextChar (s : Stream) : Except Stop (Stream × Int) :=
  match peekChar s with
  | .error e => .error e
  | .ok (s, c) =>
    if c = EOF then .ok (s, c)
    else if c = 10 then .ok ({ s with curLine := none, charNo := 0, line := s.line + 1, col := 1 }, c)
    else .ok ({ s with charNo := s.charNo + 1, col := s.col + 1 }, c)

/-- `inputStream_peekNChar`, inputStream.c:160-167 -/
def peekNChar (s : Stream) (n : Nat) : Except Stop Int :=
  match s.curLine with
  | none => .error .bug
  | some l =>
    match l[s.charNo + n]? with
    | none => .error .bug
    | some b => .ok (charVal b)

end Splint.InputStream
