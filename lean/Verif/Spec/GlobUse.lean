import Verif.Model.GlobUse
/-!
# What is to be reported about global variables

Independent of the functions that keep the set of used variables: from the list of what happens.
-/
namespace Splint.GlobUse

/-- The variable is in the globals list of the function. -/
def Documented (env : Env) (w : What) : Prop := ∃ e ∈ env.globs, e.what = w

instance (env : Env) (w : What) : Decidable (Documented env w) :=
  inferInstanceAs (Decidable (∃ e ∈ env.globs, e.what = w))

/-- Undocumented uses of variables with this annotation are to be reported in a function. -/
def Watched (env : Env) : ChKind → Prop
  | .checkedStrict => env.flags.globals = true ∧ env.flags.checkStrictGlobals = true
  | .checked => env.flags.globals = true ∧ (env.fcnHasGlobs = true ∨ env.flags.globUnspec = true)
  | .unknown | .checkMod =>
    env.flags.globals = true ∧ env.flags.allGlobals = true ∧
      (env.fcnHasGlobs = true ∨ env.flags.globUnspec = true)
  | .unchecked => False

instance (env : Env) (k : ChKind) : Decidable (Watched env k) := by
  cases k <;> unfold Watched <;> infer_instance

/-- Undocumented use of the internal state is to be reported. -/
def WatchedInternal (env : Env) : Prop :=
  env.flags.internalGlobs = true ∧
    (env.fcnHasGlobs = true ∨ env.flags.internalGlobsNoGlobs = true)

instance (env : Env) : Decidable (WatchedInternal env) := by
  unfold WatchedInternal; infer_instance

/-- What is to be reported for an element of the globals list of a called function. -/
def elemMsgs (env : Env) (e : Elem) : List Msg :=
  match e.what with
  | .var l i =>
    if e.undef = false ∧ Watched env (env.annotation l i) ∧ ¬ Documented env (.var l i) then
      [.mayAccess l i] else []
  | .internal =>
    if WatchedInternal env ∧ ¬ Documented env .internal then [.mayAccessSpecial .internal] else []
  | .system =>
    if WatchedInternal env ∧ env.flags.modFileSystem = true ∧ ¬ Documented env .system then
      [.mayAccessSpecial .system] else []
  | .nothing | .specState => []

/-- The undocumented accesses of an event. -/
def accessMsgs (env : Env) : Event → List Msg
  | .ident l i =>
    if Watched env (env.annotation l i) ∧ ¬ Documented env (.var l i) then [.undocumented l i] else []
  | .call globs _ => globs.flatMap (elemMsgs env)
  | .become .. => []

def isAccess : Msg → Bool
  | .undocumented .. | .mayAccess .. | .mayAccessSpecial _ => true
  | _ => false

def isUnused : Msg → Bool
  | .unused _ => true
  | _ => false

/-- The event counts as a use. -/
def Uses (env : Env) (w : What) : Event → Prop
  | .ident l i => w = .var l i
  | .call globs roots =>
    (∃ e ∈ globs, e.what = w ∧ (w = .internal ∨ w = .system ∨
      ((∃ l i, w = .var l i) ∧ (e.undef = false ∨ e.killed = true)))) ∨
    ((env.hasMods = true ∨ env.flags.modNoMods = true) ∧ ∃ r ∈ roots, w = .var r.1 r.2)
  | .become .. => False

/-- Names whose use is expected if they are listed. -/
def Expected : What → Bool
  | .var .. | .system => true
  | .internal | .nothing | .specState => false

/-- What happens to one variable. -/
inductive Act where
  | set      -- a function is called that defines it, and does not expect it to be defined
  | out      -- a function is called that expects only storage
  | use      -- a function is called that uses it
  | kill     -- a function is called that releases it
  | become (s : GState)
deriving DecidableEq, Repr

def elemActs (l i : Int) (e : Elem) : List Act :=
  if e.what = .var l i then
    (if e.undef then [.set] else if e.alloc then [.out] else [.use]) ++
      (if e.killed then [.kill] else [])
  else []

def acts (l i : Int) : Event → List Act
  | .ident .. => []
  | .call globs _ => globs.flatMap (elemActs l i)
  | .become l' i' s => if l' = l ∧ i' = i then [.become s] else []

/-- The state of a variable afterwards. -/
def next : GState → Act → GState
  | _, .set => .defined
  | .dead, .out => .dead
  | _, .out => .defined
  | _, .use => .defined
  | _, .kill => .dead
  | _, .become s => s

/-- What is reported about the variable `l`, `i` by a list of acts. -/
def stateMsgs (fl : Flags) (l i : Int) : GState → List Act → List Msg
  | _, [] => []
  | .undefined, .use :: as =>
    (if fl.globState then [.undefinedBefore l i] else []) ++ stateMsgs fl l i .defined as
  | .dead, .use :: as =>
    (if fl.useReleased then [.released l i] else []) ++ stateMsgs fl l i .defined as
  | s, a :: as => stateMsgs fl l i (next s a) as

/-- A message about the state of the variable `l`, `i`. -/
def isStateOf (l i : Int) : Msg → Bool
  | .undefinedBefore l' i' | .released l' i' => l' == l && i' == i
  | _ => false

end Splint.GlobUse
