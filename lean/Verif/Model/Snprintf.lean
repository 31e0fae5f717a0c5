import Verif.Model.FlagTable
/-!
# The replacement for snprintf

Model of `dopr`, `fmtstr`, `fmtint`, `dopr_outch`, `vsnprintf`, `snprintf` and `vasprintf` (src/snprintf.c:142-757
and 759-795), for 32 bit `int` and 64 bit `long` and `long long`.

`fmtfp` is a parameter: the characters it prints (it prints through `dopr_outch` as the others do).  The loops
of `fmtstr` and `fmtint` that only print are given as the lists of characters they print.  A format is given
without the terminating NUL.  `none` is undefined behaviour: an argument of another type than the one taken by
`va_arg`, a null pointer, a read behind the format, a write outside of the memory given, overflow of an `int`.
-/
namespace Splint.Snp

/-- Arguments, with their types after the default promotions. -/
inductive Arg
  | sint (z : Int) | uint (n : Nat)
  | slong (z : Int) | ulong (n : Nat)
  | sllong (z : Int) | ullong (n : Nat)
  | str (s : Option (List Char))
  | ptr (n : Nat)
  | dbl (k : Nat) | ldbl (k : Nat)
  /-- a pointer for `%n` -/
  | nptr
  deriving DecidableEq, Repr

/-- snprintf.c:120-127. -/
structure Fl where
  minus : Bool := false
  plus : Bool := false
  space : Bool := false
  num : Bool := false
  zero : Bool := false
  up : Bool := false
  uns : Bool := false
  deriving DecidableEq, Repr

/-- snprintf.c:129-133. -/
inductive CFlag
  | none_ | short | long | ldouble | llong
  deriving DecidableEq, Repr

/-- The memory `buffer` points to and `*currlen`. -/
structure Buf where
  mem : List Char
  len : Nat
  deriving DecidableEq, Repr

/-- `dopr_outch`, snprintf.c:741-747. -/
def outch (maxlen : Nat) (b : Buf) (c : Char) : Option Buf :=
  if b.len < maxlen then
    if b.len < b.mem.length then some ⟨b.mem.set b.len c, b.len + 1⟩ else none
  else some ⟨b.mem, b.len + 1⟩

/-- Some calls of `dopr_outch`. -/
def outAll (maxlen : Nat) : Buf → List Char → Option Buf
  | b, [] => some b
  | b, c :: cs => (outch maxlen b c).bind fun b => outAll maxlen b cs

def spaces (n : Nat) : List Char := List.replicate n ' '
def zeros (n : Nat) : List Char := List.replicate n '0'

/-- `fmtstr`, snprintf.c:443-481: what is printed.  The three loops stop when `max` characters are printed. -/
def fmtstr (value : List Char) (fl : Fl) (min max : Int) : List Char :=
  let padlen := (min - value.length).toNat
  let max := max.toNat
  if fl.minus then
    let v := value.take max
    v ++ spaces (Nat.min padlen (max - v.length))
  else
    let p := spaces (Nat.min padlen max)
    p ++ value.take (max - p.length)

/-- `"0123456789ABCDEF"[d]` or `"0123456789abcdef"[d]`. -/
def digitOf (caps : Bool) (d : Nat) : Char :=
  (if caps then c!"0123456789ABCDEF" else c!"0123456789abcdef").getD d ' '

/-- The loop snprintf.c:520-525: the digits, the last one first; `k` is the room left in `convert`. -/
def convLoop (caps : Bool) (base : Nat) : Nat → Nat → List Char
  | 0, _ => []
  | k + 1, u => digitOf caps (u % base) :: (if u / base = 0 then [] else convLoop caps base k (u / base))

/-- `fmtint`, snprintf.c:485-573, for `value` as a `long`.  `-value` is undefined for the least `long`. -/
def fmtint (value : Int) (base : Nat) (min max : Int) (fl : Fl) : Option (List Char) :=
  let max := if max < 0 then 0 else max
  if !fl.uns && decide (value = -2^63) then none
  else
    let u : Nat := if !fl.uns && decide (value < 0) then (-value).toNat else (value % 2^64).toNat
    let sign : List Char :=
      if fl.uns then [] else if value < 0 then ['-'] else if fl.plus then ['+'] else if fl.space then [' '] else []
    let conv := convLoop fl.up base 20 u
    let conv := if conv.length = 20 then conv.dropLast else conv
    let place : Int := conv.length
    let zpad := (max - place).toNat
    let spad := (min - (if max ≥ place then max else place) - sign.length).toNat
    let zs := if fl.zero then ((if zpad ≥ spad then zpad else spad), 0) else (zpad, spad)
    some ((if fl.minus then [] else spaces zs.2) ++ sign ++ zeros zs.1 ++ conv.reverse ++
      (if fl.minus then spaces zs.2 else []))

/-- State DP_S_FLAGS, snprintf.c:171-198. -/
def flagsLoop : Fl → List Char → Fl × List Char
  | fl, '-' :: f => flagsLoop { fl with minus := true } f
  | fl, '+' :: f => flagsLoop { fl with plus := true } f
  | fl, ' ' :: f => flagsLoop { fl with space := true } f
  | fl, '#' :: f => flagsLoop { fl with num := true } f
  | fl, '0' :: f => flagsLoop { fl with zero := true } f
  | fl, f => (fl, f)

/-- The digits of DP_S_MIN and DP_S_MAX, snprintf.c:199-203, 218-223. -/
def numLoop : Nat → List Char → Option (Nat × List Char)
  | n, [] => some (n, [])
  | n, c :: f =>
    if c.isDigit then
      if 10 * n + (c.toNat - 48) < 2^31 then numLoop (10 * n + (c.toNat - 48)) f else none
    else some (n, c :: f)

/-- What is known in state DP_S_CONV: flags, `min`, `max`, `cflags`; the rest of the format, the arguments. -/
structure Dir where
  fl : Fl
  min : Int
  max : Int
  cf : CFlag
  fmt : List Char
  args : List Arg
  deriving DecidableEq, Repr

/-- State DP_S_MOD, snprintf.c:231-254. -/
def parseMod (fl : Fl) (min max : Int) (fmt : List Char) (args : List Arg) : Dir :=
  match fmt with
  | 'h' :: f => ⟨fl, min, max, .short, f, args⟩
  | 'l' :: 'l' :: f => ⟨fl, min, max, .llong, f, args⟩
  | 'l' :: f => ⟨fl, min, max, .long, f, args⟩
  | 'L' :: f => ⟨fl, min, max, .ldouble, f, args⟩
  | f => ⟨fl, min, max, .none_, f, args⟩

/-- State DP_S_MAX, snprintf.c:217-230. -/
def parseMax (fl : Fl) (min : Int) (fmt : List Char) (args : List Arg) : Option Dir :=
  (numLoop 0 fmt).bind fun r =>
    match r.2 with
    | '*' :: f =>
      match args with
      | .sint z :: args => some (parseMod fl min z f args)
      | _ => none
    | f => some (parseMod fl min (if f.length = fmt.length then -1 else r.1) f args)

/-- State DP_S_DOT, snprintf.c:209-216. -/
def parseDot (fl : Fl) (min : Int) (fmt : List Char) (args : List Arg) : Option Dir :=
  match fmt with
  | '.' :: f => parseMax fl min f args
  | f => some (parseMod fl min (-1) f args)

/-- States DP_S_FLAGS and DP_S_MIN, snprintf.c:171-208. -/
def parseDir (fmt : List Char) (args : List Arg) : Option Dir :=
  let r := flagsLoop {} fmt
  (numLoop 0 r.2).bind fun n =>
    match n.2 with
    | '*' :: f =>
      match args with
      | .sint z :: args => parseDot r.1 z f args
      | _ => none
    | f => parseDot r.1 n.1 f args

/-- The argument of a signed conversion, snprintf.c:258-265. -/
def takeSigned : CFlag → List Arg → Option (Int × List Arg)
  | .long, .slong z :: l => some (z, l)
  | .llong, .sllong z :: l => some (z, l)
  | .none_, .sint z :: l => some (z, l)
  | .short, .sint z :: l => some (z, l)
  | .ldouble, .sint z :: l => some (z, l)
  | _, _ => none

/-- `(long)` of an unsigned long. -/
def toLong (n : Nat) : Int := if n < 2^63 then n else (n : Int) - 2^64

/-- The argument of an unsigned conversion, snprintf.c:268-308. -/
def takeUnsigned : CFlag → List Arg → Option (Int × List Arg)
  | .long, .ulong n :: l => some (toLong n, l)
  | .llong, .ullong n :: l => some (toLong n, l)
  | .none_, .uint n :: l => some (n, l)
  | .short, .uint n :: l => some (n, l)
  | .ldouble, .uint n :: l => some (n, l)
  | _, _ => none

/-- The argument of a conversion of a floating point number. -/
def takeFloat : CFlag → List Arg → Option (Arg × List Arg)
  | .ldouble, .ldbl k :: l => some (.ldbl k, l)
  | .ldouble, _ => none
  | _, .dbl k :: l => some (.dbl k, l)
  | _, _ => none

/-- `(char)` of an int. -/
def toChar (z : Int) : Char := Char.ofNat (z % 256).toNat

/-- What `fmtfp` prints. -/
abbrev Fp := Arg → Int → Int → Fl → List Char

/-- State DP_S_CONV, snprintf.c:255-391: what is printed, the rest of the format and of the arguments; `ch` is the
character of the conversion. -/
def convert (fp : Fp) (d : Dir) (ch : Char) (fmt : List Char) : Option (List Char × List Char × List Arg) :=
  match ch with
  | 'd' | 'i' => (takeSigned d.cf d.args).bind fun a =>
      (fmtint a.1 10 d.min d.max d.fl).map fun o => (o, fmt, a.2)
  | 'o' => (takeUnsigned d.cf d.args).bind fun a =>
      (fmtint a.1 8 d.min d.max { d.fl with uns := true }).map fun o => (o, fmt, a.2)
  | 'u' => (takeUnsigned d.cf d.args).bind fun a =>
      (fmtint a.1 10 d.min d.max { d.fl with uns := true }).map fun o => (o, fmt, a.2)
  | 'X' => (takeUnsigned d.cf d.args).bind fun a =>
      (fmtint a.1 16 d.min d.max { d.fl with uns := true, up := true }).map fun o => (o, fmt, a.2)
  | 'x' => (takeUnsigned d.cf d.args).bind fun a =>
      (fmtint a.1 16 d.min d.max { d.fl with uns := true }).map fun o => (o, fmt, a.2)
  | 'f' => (takeFloat d.cf d.args).map fun a => (fp a.1 d.min d.max d.fl, fmt, a.2)
  | 'E' | 'e' | 'G' | 'g' => (takeFloat d.cf d.args).map fun a => ([], fmt, a.2)
  | 'c' =>
    match d.args with
    | .sint z :: l => some ([toChar z], fmt, l)
    | _ => none
  | 's' =>
    match d.args with
    | .str (some s) :: l =>
      let max : Int := if d.max = -1 then s.length else d.max
      let max := if d.min > 0 ∧ max ≥ 0 ∧ d.min > max then d.min else max
      some (fmtstr s d.fl d.min max, fmt, l)
    | .str none :: l =>
      if d.max = -1 then none
      else
        let max := if d.min > 0 ∧ d.max ≥ 0 ∧ d.min > d.max then d.min else d.max
        some (fmtstr c!"<NULL>" d.fl d.min max, fmt, l)
    | _ => none
  | 'p' =>
    match d.args with
    | .ptr n :: l => (fmtint (toLong n) 16 d.min d.max d.fl).map fun o => (o, fmt, l)
    | _ => none
  | 'n' =>
    match d.args with
    | .nptr :: l => some ([], fmt, l)
    | _ => none
  | '%' => some (['%'], fmt, d.args)
  | 'w' =>
    -- the next character is read, which may be the NUL, and then the one after it
    match fmt with
    | [] => none
    | _ :: f => some ([], f, d.args)
  | _ => some ([], fmt, d.args)

/-- The loop of `dopr`, snprintf.c:155-399, with fuel for the length of the format. -/
def doprLoop (fp : Fp) (maxlen : Nat) : Nat → List Char → List Arg → Buf → Option Buf
  | 0, _, _, _ => none
  | _ + 1, [], _, b => some b
  | k + 1, c :: f, args, b =>
    if c = '%' then
      (parseDir f args).bind fun d =>
        match d.fmt with
        | [] => some b
        | ch :: f =>
          (convert fp d ch f).bind fun r =>
            (outAll maxlen b r.1).bind fun b => doprLoop fp maxlen k r.2.1 r.2.2 b
    else (outch maxlen b c).bind fun b => doprLoop fp maxlen k f args b

/-- The end of `dopr`, snprintf.c:400-407. -/
def finish (maxlen : Nat) (b : Buf) : Option Buf :=
  if maxlen = 0 then some b
  else
    let i := if b.len < maxlen - 1 then b.len else maxlen - 1
    if i < b.mem.length then some { b with mem := b.mem.set i '\x00' } else none

/-- `dopr`, snprintf.c:142-410, and so `vsnprintf` and `snprintf`: the memory afterwards and the number
returned. -/
def dopr (fp : Fp) (mem : List Char) (maxlen : Nat) (fmt : List Char) (args : List Arg) : Option Buf :=
  (doprLoop fp maxlen (fmt.length + 1) fmt args ⟨mem, 0⟩).bind (finish maxlen)

/-- `vasprintf`, snprintf.c:773-787, if `va_arg` starts again with the first argument in the second call (it does
where `va_list` is passed by value) and `malloc` gives the memory `fresh n`: the pointer stored, if any, and
the number returned. -/
def vasprintf (fp : Fp) (fresh : Nat → List Char) (fmt : List Char) (args : List Arg) :
    Option (Option (List Char) × Nat) :=
  (dopr fp [] 0 fmt args).bind fun b =>
    if b.len = 0 then some (none, 0)
    else (dopr fp (fresh (b.len + 1)) (b.len + 1) fmt args).map fun b => (some b.mem, b.len)

end Splint.Snp
