import Verif.Model.TempFiles
/-!
# What temporary files must satisfy
-/
namespace Splint.TempFiles

/-- making a name absolute twice is making it absolute once -/
def Env.Normal (E : Env) : Prop := ∀ n, E.abs (E.abs n) = E.abs n

/-- a step of Splint itself -/
def Op.bySplint : Op → Prop
  | .other _ | .gone _ => False
  | _ => True

/-- a state that a run starting with the files of others can be in -/
def Reached (E : Env) (s : State) : Prop :=
  ∃ (fs : List File) (ops : List Op), (∀ f ∈ fs, f.own = false) ∧ run E (start fs) ops = some s

/-- the file named `n` is there and was made by this run -/
def Own (s : State) (n : Name) : Prop := (⟨n, true⟩ : File) ∈ s.files

/-- the file named `n` is there and was made by someone else -/
def Foreign (s : State) (n : Name) : Prop := (⟨n, false⟩ : File) ∈ s.files

/-- The full property: Splint never removes a file that it has not made, when it ends no file that it has
made is left unless they are to be kept, and there is no crash. -/
def C142_full : Prop :=
  ∀ E : Env, E.Normal → ∀ s, Reached E s → ∀ op : Op, op.bySplint → s.exited = false →
    ∀ s', step E s op = some s' →
      (∀ n, Foreign s n → Foreign s' n) ∧ (E.keep = false → s'.exited = true → ∀ n, ¬ Own s' n)

/-- an entry whose file is removed at the end -/
def Entry.Removable (e : Entry) : Prop := e.temp = true ∧ e.typ ≠ .lsltemp ∧ e.typ ≠ .nodelete

/-- No other process makes a file under a name that Splint has entered as a temporary file. -/
def undisturbed (E : Env) (s : State) : List Op → Prop
  | [] => True
  | op :: ops =>
    (∀ n, op = .other n → ∀ e ∈ s.entries, e.temp = true → e.fname ≠ n) ∧
    ∀ s', step E s op = some s' → undisturbed E s' ops

/-- the `k`-th three-letter word, `k < 26³` -/
def word (k : Nat) : Name := [65 + k % 26, 65 + k / 26 % 26, 65 + k / 676]

/-- the kinds of temporary files, by prefix and suffix -/
inductive Kind
  | c | macros | lsl
  deriving DecidableEq, Repr

def Kind.pre : Kind → Name
  | .c => str "cl"
  | .macros => str "lmx"
  | .lsl => str "ls"

def Kind.suf : Kind → Name
  | .c => str ".c"
  | .macros => str ".llm"
  | .lsl => str ".lsl"

def tempName (dir pid : Name) (k : Kind) (w : Nat) : Name := dir ++ k.pre ++ pid ++ word w ++ k.suf

/-- Names made one after the other, each with the files that there are when it is made. -/
def names (dir pid : Name) : List (Kind × (Name → Bool)) → Msg → Option (List Name)
  | [], _ => some []
  | (k, ex) :: rest, m =>
    (makeTempName ex dir k.pre pid k.suf m).bind fun (n, m') => (names dir pid rest m').map (n :: ·)

/-- The full property: a name can always be made, it is the name of no file, and of no temporary file before. -/
def C143_full : Prop :=
  ∀ (dir pid : Name) (reqs : List (Kind × (Name → Bool))),
    (∀ r ∈ reqs, ∃ files : List Name, ∀ n, r.2 n = true → n ∈ files) →
    ∃ ns : List Name, names dir pid reqs Msg.first = some ns ∧ ns.Nodup ∧
      ∀ (i : Nat) (n : Name) (r : Kind × (Name → Bool)), ns[i]? = some n → reqs[i]? = some r → r.2 n = false

end Splint.TempFiles
