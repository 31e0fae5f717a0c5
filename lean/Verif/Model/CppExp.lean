import Verif.Tactics
/-!
# Evaluation of `#if` expressions

Model of src/cppexp.c: `cppReader_parseNumber` (253-397), `left_shift`, `right_shift` (780-828), the
priorities (830-872) and `cppReader_parseExpression` (876-1363), an operator precedence parser that
computes values while it parses.

`long` has 64 bits (LP64); signed operations that overflow wrap around, as compiled code does, except
for the divisions that trap. Warnings are dropped, errors are counted. The lexer (`cppexp_lex`,
410-649) is a list of tokens; character constants are numbers here. Reading a value that was never
written counts only if the value is used: `v1` and `v2` are loaded before it is known whether they
are needed (975-978).
-/
namespace Splint.CppExp

/-- The operators, cppexp.c:154-188 and 911-959. -/
inductive Op where
  | plus | minus | not_ | compl | mul | div | mod | lt | gt | le | ge | eq | ne | lsh | rsh
  | and | xor | or | andand | oror | comma | lpar | rpar | colon | quest
deriving DecidableEq, Repr

/-- Tokens; the end of the line is the end of the list. -/
inductive Tok where
  | num (v : Int) (u : Bool)
  | op (o : Op)
  /-- anything that is an error: strings, `++`, other characters -/
  | other
deriving DecidableEq, Repr

/-- Conversion to `long`. -/
def toLong (x : Int) : Int := Int.bmod x (2 ^ 64)

/-- Conversion to `unsigned long`. -/
def toULong (x : Int) : Int := x % 2 ^ 64

/-- The smallest `long`. -/
def minLong : Int := -2 ^ 63

/-- Priority against the operator on the left; cppexp.c:911-959, with 830-872. -/
def Op.lprio : Op → Nat
  | comma => 4
  | colon => 6
  | quest => 7
  | oror => 8
  | andand => 10
  | or => 12
  | xor => 14
  | and => 16
  | eq | ne => 18
  | lt | gt | le | ge => 20
  | lsh | rsh => 22
  | plus | minus => 24
  | mul | div | mod => 26
  | not_ | compl => 29
  | lpar => 30
  | rpar => 0

/-- Priority against the operator on the right. -/
def Op.rprio : Op → Nat
  | comma => 5
  | colon | quest => 6
  | oror => 9
  | andand => 11
  | or => 13
  | xor => 15
  | and => 17
  | eq | ne => 19
  | lt | gt | le | ge => 21
  | lsh | rsh => 23
  | plus | minus => 25
  | mul | div | mod => 27
  | not_ | compl => 28
  | lpar => 0
  | rpar => 30

/-- `LEFT_OPERAND_REQUIRED`. -/
def Op.left : Op → Bool
  | mul | div | mod | lt | gt | le | ge | eq | ne | lsh | rsh | and | xor | or | andand | oror | comma => true
  | _ => false

/-- `RIGHT_OPERAND_REQUIRED`. -/
def Op.right : Op → Bool
  | plus | minus | not_ | compl => true
  | o => o.left

/-- A value: `value` and `unsignedp`. -/
abbrev Val := Int × Bool

/-- `left_shift`, cppexp.c:780-811; `b` is an unsigned long. -/
def leftShift (a : Int) (b : Int) : Int := if 32 ≤ b then 0 else toLong (a * 2 ^ b.toNat)

/-- `right_shift`, cppexp.c:813-823, with `int_toNonNegative` (general.c:350-354), whose argument is
an `int`; `none` is the failed assertion. -/
def rightShift (a : Int) (u : Bool) (b : Int) : Option Int :=
  if 32 ≤ b then
    if u then some 0
    else if Int.bmod a (2 ^ 32) < 0 then none
    else some (Int.bmod a (2 ^ 32) / 2 ^ 31)
  else if u then some (toLong (toULong a / 2 ^ b.toNat))
  else some (a / 2 ^ b.toNat)

/-- A bit operation on `long`. -/
def bits (f : BitVec 64 → BitVec 64 → BitVec 64) (a b : Int) : Int :=
  (f (BitVec.ofInt 64 a) (BitVec.ofInt 64 b)).toInt

/-- `COMPARE`, cppexp.c:864-869. -/
def compareVals (f : Int → Int → Bool) (x y : Val) : Val :=
  (if (if x.2 || y.2 then f (toULong x.1) (toULong y.1) else f x.1 y.1) then 1 else 0, false)

/-- The unary operators: cppexp.c:1004-1009, 1022-1030, 1129-1141, 1142-1152. -/
def unary (o : Op) (y : Val) : Val :=
  match o with
  | .plus => y
  | .minus => (toLong (-y.1), y.2)
  | .not_ => (if y.1 = 0 then 1 else 0, false)
  | .compl => (-y.1 - 1, y.2)
  | _ => y

/-- The binary operators, cppexp.c:1010-1128 and 1153-1230; `skip` is `skip_evaluation != 0`. The number
counts the errors reported. `none` is a trapping division or a failed assertion. -/
def binary (skip : Bool) (o : Op) (x y : Val) : Option (Val × Nat) :=
  let u := x.2 || y.2
  match o with
  | .plus => some ((toLong (x.1 + y.1), u), 0)
  | .minus => some ((toLong (x.1 - y.1), u), 0)
  | .mul =>
    if u then some ((toLong (x.1 * y.1), true), 0)
    else if skip then some ((x.1, false), 0)
    else if x.1 = -1 ∧ toLong (x.1 * y.1) = minLong then none
    else some ((toLong (x.1 * y.1), false), 0)
  | .div =>
    if skip then some (x, 0)
    else
      let d := if y.1 = 0 then 1 else y.1
      let n := if y.1 = 0 then 1 else 0
      if u then some ((toLong (toULong x.1 / toULong d), true), n)
      else if x.1 = minLong ∧ d = -1 then none
      else some ((Int.tdiv x.1 d, false), n)
  | .mod =>
    if skip then some (x, 0)
    else
      let d := if y.1 = 0 then 1 else y.1
      let n := if y.1 = 0 then 1 else 0
      if u then some ((toLong (toULong x.1 % toULong d), true), n)
      else if x.1 = minLong ∧ d = -1 then none
      else some ((Int.tmod x.1 d, false), n)
  | .lt => some (compareVals (fun a b => decide (a < b)) x y, 0)
  | .gt => some (compareVals (fun a b => decide (b < a)) x y, 0)
  | .le => some (compareVals (fun a b => decide (a ≤ b)) x y, 0)
  | .ge => some (compareVals (fun a b => decide (b ≤ a)) x y, 0)
  | .eq => some ((if x.1 = y.1 then 1 else 0, false), 0)
  | .ne => some ((if x.1 ≠ y.1 then 1 else 0, false), 0)
  | .lsh =>
    if skip then some (x, 0)
    else if y.1 < 0 ∧ y.2 = false then
      (rightShift x.1 x.2 (toULong (-y.1))).map fun v => ((v, x.2), 0)
    else some ((leftShift x.1 (toULong y.1), x.2), 0)
  | .rsh =>
    if skip then some (x, 0)
    else if y.1 < 0 ∧ y.2 = false then some ((leftShift x.1 (toULong (-y.1)), x.2), 0)
    else (rightShift x.1 x.2 (toULong y.1)).map fun v => ((v, x.2), 0)
  | .and => some ((bits (· &&& ·) x.1 y.1, u), 0)
  | .xor => some ((bits (· ^^^ ·) x.1 y.1, u), 0)
  | .or => some ((bits (· ||| ·) x.1 y.1, u), 0)
  | .andand => some ((if x.1 ≠ 0 ∧ y.1 ≠ 0 then 1 else 0, false), 0)
  | .oror => some ((if x.1 ≠ 0 ∨ y.1 ≠ 0 then 1 else 0, false), 0)
  | .comma => some (y, 0)
  | _ => some (x, 0)

/-- `struct operation` on the stack, cppexp.c:218-234. `op` is `none` and `val` is `none` as long as they
have not been written; the priority and the flags are always written. -/
structure Slot where
  op : Option Op
  rprio : Nat
  left : Bool
  right : Bool
  have_ : Bool
  val : Option Val
deriving DecidableEq, Repr

/-- The state of the parser. `below` are the slots under the top, nearest first; `above` are the values
left in the slots over the top. `cap` is `limit - stack`. -/
structure State where
  top : Slot
  below : List Slot
  above : List (Option Val)
  cap : Nat
  skip : Int
  errs : Nat
deriving DecidableEq, Repr

/-- What a step can do. `err` is `goto syntax_error`; `bad` is an access outside of the stack or the use
of something never written; `trap` is a crash in arithmetic. -/
inductive Out (α : Type) where
  | next (a : α)
  | err
  | bad
  | trap
deriving DecidableEq, Repr

namespace Out
def bind {α β : Type} (x : Out α) (f : α → Out β) : Out β :=
  match x with
  | next a => f a
  | err => err
  | bad => bad
  | trap => trap
end Out

/-- The state at the beginning, cppexp.c:889-902. -/
def init : State := ⟨⟨none, 0, false, false, false, none⟩, [], [], 20, 0, 0⟩

/-- `set_value`, cppexp.c:961-970. -/
def setValue (s : State) (v : Int) (u : Bool) : Out State :=
  if s.top.have_ then .err
  else .next { s with top := { s.top with have_ := true, val := some (v, u) } }

/-- The result of an operator goes to the slot below. -/
def putBelow (s : State) (l : Slot) (rest : List Slot) (r : Option (Val × Nat)) (skip : Int) : Out State :=
  match r with
  | none => .trap
  | some (v, n) =>
    .next ⟨{ l with have_ := true, val := some v }, rest, s.top.val :: s.above, s.cap, skip, s.errs + n⟩

/-- One reduction, cppexp.c:975-1288. -/
def reduce1 (s : State) : Out State :=
  match s.below with
  | [] => .bad
  | l :: rest =>
    if s.top.left && !l.have_ then .err
    else if s.top.right && !s.top.have_ then .err
    else match s.top.op with
    | none => .bad
    | some o =>
      match o with
      | .plus | .minus =>
        match s.top.val with
        | none => .bad
        | some y =>
          if l.have_ then
            match l.val with
            | none => .bad
            | some x => putBelow s l rest (binary (s.skip != 0) o x y) s.skip
          else putBelow s l rest (some (unary o y, 0)) s.skip
      | .not_ | .compl =>
        if l.have_ then .err
        else match s.top.val with
          | none => .bad
          | some y => putBelow s l rest (some (unary o y, 0)) s.skip
      | .lpar | .quest => .err
      | .colon =>
        match l.op with
        | none => .bad
        | some o' =>
          if o' ≠ .quest then .err
          else match rest with
            | [] => .bad
            | c :: rest' =>
              if !s.top.have_ || !c.have_ || !l.have_ then .err
              else match c.val, l.val, s.top.val with
                | some vc, some x, some y =>
                  .next ⟨{ c with val := some (if vc.1 ≠ 0 then x.1 else y.1, x.2 || y.2) }, rest',
                    l.val :: s.top.val :: s.above, s.cap,
                    if vc.1 ≠ 0 then s.skip - 1 else s.skip, s.errs⟩
                | _, _, _ => .bad
      | .rpar =>
        if s.top.have_ || !l.have_ then .err
        else match l.op with
          | none => .bad
          | some o' =>
            if o' ≠ .lpar then .err
            else match rest with
              | [] => .bad
              | c :: rest' =>
                if c.have_ then .err
                else match l.val with
                  | none => .bad
                  | some x =>
                    .next ⟨{ c with have_ := true, val := some x }, rest',
                      l.val :: s.top.val :: s.above, s.cap, s.skip, s.errs⟩
      | _ =>
        match l.val, s.top.val with
        | some x, some y =>
          putBelow s l rest (binary (s.skip != 0) o x y)
            (if (o = .andand ∧ x.1 = 0) ∨ (o = .oror ∧ x.1 ≠ 0) then s.skip - 1 else s.skip)
        | _, _ => .bad

theorem putBelow_below {s s' : State} {l : Slot} {rest : List Slot} {r : Option (Val × Nat)} {k : Int}
    (h : putBelow s l rest r k = .next s') : s'.below = rest := by
  unfold putBelow at h
  split at h
  · simp at h
  · simp only [Out.next.injEq] at h; subst h; rfl

theorem reduce1_below {s s' : State} (h : reduce1 s = .next s') : s'.below.length < s.below.length := by
  unfold reduce1 at h
  repeat' split at h
  all_goals first
    | (simp at h; done)
    | (have := putBelow_below h; simp_all; done)
    | (simp only [Out.next.injEq] at h; subst h; simp_all; done)
    | (simp only [Out.next.injEq] at h; subst h; simp_all; omega)

/-- The loop `while (top->rprio > lprio)`, cppexp.c:973-1289. -/
def reduceLoop (l : Nat) (s : State) : Out State :=
  if s.top.rprio > l then
    match h : reduce1 s with
    | .next s' => reduceLoop l s'
    | .err => .err
    | .bad => .bad
    | .trap => .trap
  else .next s
termination_by s.below.length
decreasing_by exact reduce1_below h

/-- Pushing an operator, cppexp.c:1310-1357. -/
def push (o : Op) (s : State) : Out State :=
  let index := s.below.length + 1
  let cap := if index = s.cap then 2 * s.cap else s.cap
  if cap ≤ index then .bad
  else
    let s' : State := ⟨⟨some o, o.rprio, o.left, o.right, false, s.above.head?.join⟩,
      s.top :: s.below, s.above.tail, cap, s.skip, s.errs⟩
    match o with
    | .oror =>
      match s.top.val with
      | none => .bad
      | some x => .next { s' with skip := if x.1 ≠ 0 then s.skip + 1 else s.skip }
    | .andand | .quest =>
      match s.top.val with
      | none => .bad
      | some x => .next { s' with skip := if x.1 = 0 then s.skip + 1 else s.skip }
    | .colon =>
      match s.below with
      | [] => .bad
      | c :: _ =>
        match c.val with
        | none => .bad
        | some x => .next { s' with skip := if x.1 ≠ 0 then s.skip + 1 else s.skip - 1 }
    | _ => .next s'

/-- One token. -/
def step (s : State) : Tok → Out State
  | .num v u => setValue s v u
  | .op o => (reduceLoop o.lprio s).bind (push o)
  | .other => .err

/-- All tokens of the line. -/
def runToks : List Tok → State → Out State
  | [], s => .next s
  | t :: ts, s => (step s t).bind (runToks ts)

/-- The result: the value and the number of errors reported, or a syntax error (and 0 is returned). -/
inductive Result where
  | value (v : Int) (errs : Nat)
  | syntaxError
  | bad
  | trap
deriving DecidableEq, Repr

/-- The end of the line, cppexp.c:1290-1309. -/
def finish (s : State) : Result :=
  match reduceLoop 0 s with
  | .err => .syntaxError
  | .bad => .bad
  | .trap => .trap
  | .next s =>
    match s.top.val with
    | none => .bad
    | some x => .value x.1 (if s.below = [] then s.errs else s.errs + 1)

/-- `cppReader_parseExpression`, cppexp.c:876-1363. -/
def parse (ts : List Tok) : Result :=
  match runToks ts init with
  | .err => .syntaxError
  | .bad => .bad
  | .trap => .trap
  | .next s => finish s

/-! ## Numbers -/

/-- The value of a digit, cppexp.c:301-312. -/
def digitOf (base : Nat) (c : Char) : Option Nat :=
  if '0' ≤ c ∧ c ≤ '9' then some (c.toNat - '0'.toNat)
  else if base = 16 ∧ 'a' ≤ c ∧ c ≤ 'f' then some (c.toNat - 'a'.toNat + 10)
  else if base = 16 ∧ 'A' ≤ c ∧ c ≤ 'F' then some (c.toNat - 'A'.toNat + 10)
  else none

/-- The suffixes, cppexp.c:315-347: the number of errors and `unsignedp`, or `none` if something is
left over. -/
def suffixes : List Char → (long unsig : Bool) → Nat → Option (Nat × Bool)
  | [], _, u, n => some (n, u)
  | c :: cs, l, u, n =>
    if c = 'l' ∨ c = 'L' then suffixes cs true u (if l then n + 1 else n)
    else if c = 'u' ∨ c = 'U' then suffixes cs l true (if u then n + 1 else n)
    else none

/-- The loop over the digits, cppexp.c:296-358. -/
def digitsLoop (base : Nat) : List Char → Int → Option (Int × Nat × Bool)
  | [], n => some (n, 0, false)
  | c :: cs, n =>
    match digitOf base c with
    | some d => digitsLoop base cs (toLong (n * base + d))
    | none => (suffixes (c :: cs) false false 0).map fun x => (n, x)

/-- `cppReader_parseNumber`, cppexp.c:253-397: the value, `unsignedp` and the number of errors; `none`
is the error token. -/
def parseNumber (text : List Char) : Option (Int × Bool × Nat) :=
  if '.' ∈ text then none
  else
    let r := match text with
      | '0' :: 'x' :: c :: cs => digitsLoop 16 (c :: cs) 0
      | '0' :: 'X' :: c :: cs => digitsLoop 16 (c :: cs) 0
      | '0' :: cs => digitsLoop 8 ('0' :: cs) 0
      | cs => digitsLoop 10 cs 0
    r.map fun x => (x.1, x.2.2 || decide (x.1 < 0), x.2.1)

end Splint.CppExp
