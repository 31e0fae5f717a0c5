import Verif.Model.InputStream
/-!
# What reading input must satisfy
-/
namespace Splint.InputStream

/-- Reading characters gives `out`, and then the end of the input (`none`) or what went wrong. -/
inductive Ends : Stream → List Int → Option Stop → Prop
  | eof {s s' : Stream} : nextChar s = .ok (s', EOF) → Ends s [] none
  | stop {s : Stream} {e : Stop} : nextChar s = .error e → Ends s [] (some e)
  | char {s s' : Stream} {c : Int} {out : List Int} {r : Option Stop} : nextChar s = .ok (s', c) → c ≠ EOF → Ends s' out r →
      Ends s (c :: out) r

/-- Reading characters up to the end gives `out`. -/
def Reads (s : Stream) (out : List Int) : Prop := Ends s out none

/-- Reading the characters `out` leads to the stream `s'`. -/
inductive Steps : Stream → List Int → Stream → Prop
  | refl (s : Stream) : Steps s [] s
  | char {s s1 s' : Stream} {c : Int} {out : List Int} : nextChar s = .ok (s1, c) → c ≠ EOF → Steps s1 out s' → Steps s (c :: out) s'

/-- the text as it should be read: with the last line ended -/
def ended (text : List Nat) : List Nat :=
  if text = [] ∨ text.getLast? = some 10 then text else text ++ [10]

/-- the position after the characters -/
def posAfter : Nat × Nat → List Int → Nat × Nat
  | p, [] => p
  | (line, col), c :: out => if c = 10 then posAfter (line + 1, 1) out else posAfter (line, col + 1) out

/-- every line has less than `k` characters; the last may have `k` if it does not end in a newline -/
def LinesShort (k : Nat) (text : List Nat) : Prop :=
  ∀ a l b : List Nat, text = a ++ l ++ b → 10 ∉ l → l.length = k → b = []

/-- The full property: whatever the file or string, its characters are read as they are. -/
def C147_full : Prop :=
  ∀ (text : List Nat) (line col : Nat), (∀ b ∈ text, b < 256) → Reads (opened false text line col) ((ended text).map charVal)

def C148_full : Prop :=
  ∀ (text : List Nat) (line col : Nat), (∀ b ∈ text, 0 < b ∧ b < 128) → Reads (opened true text line col) ((ended text).map charVal)

/-- the string is empty, or ends in a newline, or its last 798 characters are not interrupted by one -/
def EndSafe (text : List Nat) : Prop :=
  text = [] ∨ text.getLast? = some 10 ∨ maxRecord - 2 ≤ text.length ∧ 10 ∉ text.drop (text.length - (maxRecord - 2))

end Splint.InputStream
