import Verif.Model.Rescan
/-!
The expansion of macros with hide sets (D. Prosser's algorithm, from which the text of the C standard was made):
every token has the set of the macros it came from, and a name in its own set is not expanded.
-/
namespace Splint.Rescan.Spec

abbrev Hide := Nat → Bool

/-- the text of an expansion, with its hide set -/
def tag (h : Hide) (l : List Tok) : List (Tok × Hide) := l.map fun t => (t, h)

/-- What follows the closing parenthesis, and the hide set of that parenthesis. -/
def closing : Nat → List (Tok × Hide) → Option (List (Tok × Hide) × Hide)
  | _, [] => none
  | d, (.lparen, _) :: l => closing (d + 1) l
  | 0, (.rparen, h) :: l => some (l, h)
  | d + 1, (.rparen, _) :: l => closing d l
  | d, _ :: l => closing d l

/-- what follows the opening parenthesis that is the next token, if it is -/
def call (l : List (Tok × Hide)) : Option (List (Tok × Hide)) :=
  match l.dropWhile fun t => white t.1 with
  | (.lparen, _) :: l => some l
  | _ => none

def add (h : Hide) (n : Nat) : Hide := fun m => h m || m == n

def inter (h h' : Hide) : Hide := fun m => h m && h' m

/-- The tokens a text expands to, without white space, and how it ends. -/
inductive Expands (defs : List (Nat × Def)) : List (Tok × Hide) → List Tok → End → Prop where
  | nil : Expands defs [] [] .done
  | white {t h l out e} : white t = true → Expands defs l out e → Expands defs ((t, h) :: l) out e
  | other {t h l out e} : white t = false → (∀ n, t ≠ .name n) → Expands defs l out e → Expands defs ((t, h) :: l) (t :: out) e
  /-- not a macro -/
  | plain {n h l out e} : defs.lookup n = none → Expands defs l out e → Expands defs ((.name n, h) :: l) (.name n :: out) e
  /-- the macro is being expanded -/
  | hidden {n h l out e df} : defs.lookup n = some df → h n = true → Expands defs l out e → Expands defs ((.name n, h) :: l) (.name n :: out) e
  | object {n h l out e body} : defs.lookup n = some (.object body) → h n = false →
      Expands defs (tag (add h n) body ++ l) out e → Expands defs ((.name n, h) :: l) out e
  /-- the name of a function-like macro without a parenthesis -/
  | alone {n h l out e body} : defs.lookup n = some (.function body) → h n = false → call l = none →
      Expands defs l out e → Expands defs ((.name n, h) :: l) (.name n :: out) e
  | function {n h l l' l'' h' out e body} : defs.lookup n = some (.function body) → h n = false → call l = some l' →
      closing 0 l' = some (l'', h') → Expands defs (tag (add (inter h h') n) body ++ l'') out e →
      Expands defs ((.name n, h) :: l) out e
  | unterminated {n h l l' body} : defs.lookup n = some (.function body) → h n = false → call l = some l' →
      closing 0 l' = none → Expands defs ((.name n, h) :: l) [] .unterminated

/-- `text` in a file has this expansion. -/
def Result (defs : List (Nat × Def)) (text out : List Tok) (e : End) : Prop :=
  Expands defs (tag (fun _ => false) text) out e

/-- without white space -/
def visible (l : List Tok) : List Tok := l.filter fun t => !(white t || t == .mark)

/-- text without new lines -/
def OneLine (l : List Tok) : Prop := Tok.newline ∉ l ∧ Tok.mark ∉ l

/-- The last token of `l`, white space apart, is not the name of a function-like macro. -/
def NoOpenEnd (defs : List (Nat × Def)) (l : List Tok) : Prop :=
  ∀ a n b body, l = a ++ .name n :: b → (∀ t ∈ b, t = .space) → defs.lookup n ≠ some (.function body)

end Splint.Rescan.Spec
