import Verif.Model.FlagMarkers
/-!
# What control comments mean

The specification for C03, C04 and C05. Nothing here refers to the marker list.
-/
namespace Splint.FlagMarkers

/-- A place in a source file. -/
structure Pos where
  file : Int
  line : Int
  col : Int
  deriving DecidableEq, Repr

/-- The ordinary position of a place: not in a library, and the file is not derived from another. -/
def Pos.loc (p : Pos) : FileLoc := some ⟨.normal, p.file, p.line, p.col, some p.file⟩

/-- Text order inside one file. -/
def Pos.le (p q : Pos) : Prop := p.line < q.line ∨ (p.line = q.line ∧ p.col ≤ q.col)

instance (p q : Pos) : Decidable (p.le q) := by unfold Pos.le; infer_instance

/-- A comment that has been read, and the number of messages it has suppressed if it is a count. -/
structure Rec where
  c : Comment
  p : Pos
  hits : Nat
  deriving DecidableEq, Repr

/-- Is it a count? -/
def Comment.isCount : Comment → Bool
  | .count _ => true
  | _ => false

/-- A counted comment covers the rest of its line. -/
def Rec.covers (r : Rec) (q : Pos) : Bool :=
  r.c.isCount && decide (r.p.file = q.file ∧ r.p.line = q.line ∧ r.p.col ≤ q.col)

/-- Putting a comment in its place in the text; at equal places the one read last is last. -/
def place (x : Rec) : List Rec → List Rec
  | [] => [x]
  | y :: l => if y.p.le x.p then y :: place x l else x :: y :: l

/-- Comments in the order of the text. -/
def textOrder (l : List Rec) : List Rec := l.foldl (fun l x => place x l) []

/-- The comments of the file of `q` at or before `q`, in the order of the text. -/
def upTo (S : List Rec) (q : Pos) : List Rec :=
  (textOrder (S.filter (fun r => r.p.file = q.file))).filter (fun r => r.p.le q)

/-- After these comments, is the last one about regions the beginning of one? A counted line ends
a region. -/
def regionOpen (l : List Rec) : Bool :=
  l.foldl (fun b r => match r.c with
    | .ignore => true
    | .end_ => false
    | .count _ => false
    | .set _ _ => b) false

/-- After these comments, has a region been begun and not been ended by an `end` comment? -/
def regionBegun (l : List Rec) : Bool :=
  l.foldl (fun b r => match r.c with
    | .ignore => true
    | .end_ => false
    | .count _ => b
    | .set _ _ => b) false

/-- The settings of a flag, in order. -/
def settings (code : Int) (l : List Rec) : List Ynm :=
  l.filterMap (fun r => match r.c with
    | .set c v => if c = code then some v else none
    | _ => none)

/-- The last setting of a flag. -/
def lastSetting (code : Int) (l : List Rec) : Option Ynm := (settings code l).getLast?

/-- What a setting says about suppression: a flag turned off suppresses, one turned on does not, one
restored leaves it to the command line. -/
def verdict : Option Ynm → Ynm
  | some .no => .yes
  | some .yes => .no
  | some .maybe => .maybe
  | none => .maybe

/-- A comment that sets one of two flags. -/
def setsEither (nc code : Int) : Comment → Option (Int × Ynm)
  | .set c v => if c = code ∨ c = nc then some (c, v) else none
  | _ => none

/-- For a flag about names, which of the last settings of the flag itself and of `nc` governs: the
older one, if there are both. -/
def olderSetting (nc code : Int) (l : List Rec) : Option Ynm :=
  match (l.filterMap (fun r => setsEither nc code r.c)).getLast? with
  | none => none
  | some (c, v) => (lastSetting (if c = code then nc else code) l).or (some v)

/-- Is a message at `q` in a suppressed region? -/
def inRegion (S : List Rec) (q : Pos) : Bool :=
  S.any (fun r => r.covers q) || regionOpen (upTo S q)

/-- Is a message for a flag at `q` suppressed: yes, no, or as the command line says? -/
def suppressed (nc : Int) (isName : Bool) (S : List Rec) (code : Int) (q : Pos) : Ynm :=
  if inRegion S q then .yes
  else if isName then
    if lastSetting code (upTo S q) = some .no ∨ lastSetting nc (upTo S q) = some .no then .yes
    else verdict (olderSetting nc code (upTo S q))
  else verdict (lastSetting code (upTo S q))

/-- Reading a comment; reading it again changes nothing. -/
def record (S : List Rec) (c : Comment) (p : Pos) : List Rec :=
  if ∃ r ∈ S, r.c = c ∧ r.p = p then S else S ++ [⟨c, p, 0⟩]

/-- Asking about `q` counts for the comments that cover it. -/
def hit (S : List Rec) (q : Pos) : List Rec :=
  S.map (fun r => if r.covers q then { r with hits := r.hits + 1 } else r)

/-- Events at ordinary places. -/
inductive PEvent
  | comment (c : Comment) (p : Pos)
  | zone (q : Pos)
  | warn (code : Int) (q : Pos)
  deriving DecidableEq, Repr

/-- As the tool sees it. -/
def PEvent.event : PEvent → Event
  | .comment c p => .comment c p.loc
  | .zone q => .zone q.loc
  | .warn code q => .warn code q.loc

/-- What should happen. -/
def specStep (nc : Int) (isName : Int → Bool) (S : List Rec) : PEvent → List Rec × List Answer
  | .comment c p => (record S c p, [])
  | .zone q => (hit S q, [.zone (inRegion S q)])
  | .warn code q => (hit S q, [.warn (suppressed nc (isName code) S code q)])

/-- What should happen in a history. -/
def specRun (nc : Int) (isName : Int → Bool) : List Rec → List PEvent → List Rec × List Answer
  | S, [] => (S, [])
  | S, e :: es =>
    let r := specStep nc isName S e
    let r' := specRun nc isName r.1 es
    (r'.1, r.2 ++ r'.2)

/-- A comment is well placed: it has been read before, or
* it is the first of its file, or one of its file at or before it has been read;
* no counted comment of its line has been read;
* if it is counted, no comment after it on its line and no counted comment on the next line has been
  read. -/
def WellPlaced (S : List Rec) (c : Comment) (p : Pos) : Prop :=
  1 ≤ p.col ∧
  ((∃ r ∈ S, r.c = c ∧ r.p = p) ∨
    (((∀ r ∈ S, r.p.file ≠ p.file) ∨ ∃ r ∈ S, r.p.file = p.file ∧ r.p.le p) ∧
     (∀ r ∈ S, r.p.file = p.file → r.p.line = p.line → r.c.isCount = false) ∧
     (c.isCount = true → ∀ r ∈ S, r.p.file = p.file →
        (r.p.line = p.line → r.p.le p) ∧ (r.p.line = p.line + 1 → r.c.isCount = false))))

/-- The condition on an event. -/
def PEvent.ok (S : List Rec) : PEvent → Prop
  | .comment c p => WellPlaced S c p
  | .zone q => 0 ≤ q.col
  | .warn _ q => 0 ≤ q.col

/-- The condition on a history. -/
def HistoryOk (nc : Int) (isName : Int → Bool) : List Rec → List PEvent → Prop
  | _, [] => True
  | S, e :: es => e.ok S ∧ HistoryOk nc isName (specStep nc isName S e).1 es

/-- The complaints there should be: counts above zero that differ from what was suppressed. -/
def wrongCounts (S : List Rec) : List Complaint :=
  S.filterMap (fun r => match r.c with
    | .count n => if n > 0 ∧ n ≠ (r.hits : Int) then some ⟨r.p.loc, n, r.hits⟩ else none
    | _ => none)

/-- There are no system or special files. -/
def Plain (env : FileEnv) : Prop :=
  (∀ a, env.isSystem a = false) ∧ ∀ a, env.isSpecial a = false

end Splint.FlagMarkers
