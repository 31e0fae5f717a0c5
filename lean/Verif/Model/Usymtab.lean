import Verif.Tactics
/-!
# The symbol table: scopes and branches

Model of src/usymtab.c: `usymtab_create` (281-312), `usymtab_getIndex` (1405-1433), the branch
functions (2482-2556, 2571-2614, 2633-2688, 2694-2739, 2751-2936, 3001-3215, 3217-3245),
`usymtab_quietExitScope` (4349-4392), `usymtab_quietPlainExitScope` (4398-4408),
`usymtab_exitScope` (4410-4520), `usymtab_dropEnv` (4650-4677), `usymtab_getRefNoisy` (4737-4848),
`refTable_lookup` (4858-4874), `usymtab_addRefEntry` (4887-4949), `usymtab_lookupAux` (4952-4996) and
`usymtab_lookupSafeScope` (5046-5070), with the order in which src/cgrammar.y (1040-1072, 1842-1858,
1960-1990, 2165-2186) and src/context.c (1576-1590, 1716-1812, 2285-2510, 3290-3335) call them.

Simplifications:
* all entries are variables that are not of function type (the others are never copied into branches
  and have no state that changes); a name is a number;
* what is known of a variable (its `sRef`) is a value of any type `S`; `uentry_mergeState` is the
  parameter `join` if execution goes on after the merged branch, and changes nothing (but the mark
  that the variable was modified) otherwise (src/uentry.c:10403-10409, 10437-10440); the changes it
  may make to the branch that is thrown away are left out;
* guards (`updateNullState`) and aliases are left out, and so are the marks for uses;
* the table is the list of the scopes from the inside out: `env` is the rest of the list; the tables
  of the file and of the program are scopes like others;
* a failed assertion in `usymtab_dropEnv` is the end of the list; anything else that goes wrong is
  `none`;
* a second declaration of a name in the same scope leaves the first one (`usymtab_supEntryAux`
  merges them).
-/
namespace Splint.Symtab

/-- `uskind`, src/Headers/usymtab.h. -/
inductive Kind where
  | normal | tbranch | fbranch | cbranch | switch
  deriving DecidableEq, Repr

/-- `struct s_refentry`: the scope and the place in it of the variable that an entry of a branch is a
copy of. -/
structure Ref where
  level : Nat
  index : Nat
  deriving DecidableEq, Repr

/-- An entry, with the element of `reftable` for it (`none` if there is none). -/
structure Entry (S : Type) where
  name : Nat
  state : S
  ref : Option Ref := none
  deriving DecidableEq, Repr

/-- `struct s_usymtab`; `escape` is `exitkind_mustEscape (exitCode)`. -/
structure Table (S : Type) where
  kind : Kind
  level : Nat
  entries : List (Entry S) := []
  mustBreak : Bool := false
  escape : Bool := false
  deriving DecidableEq, Repr

abbrev Stack (S : Type) := List (Table S)

/-- The place of an entry: how many scopes out, and the index in that scope. -/
structure Pos where
  depth : Nat
  index : Nat
  deriving DecidableEq, Repr

/-- `uentry_mergeState` with `mustReturn` false: the new state of the first. `andFix t s` is the
state after usymtab.c:2721-2725, if the branch has state `t` and merging gave `s`. -/
structure Ops (S : Type) where
  join : S → S → S
  andFix : S → S → S

variable {S : Type}

/-- `usymtab_getIndex`, 1405-1433. -/
def Table.getIndex (t : Table S) (k : Nat) : Option Nat := t.entries.findIdx? (·.name == k)

/-- The first entry with the name. -/
def Table.find (t : Table S) (k : Nat) : Option (Entry S) := t.entries.find? (·.name == k)

/-- `usymtab_create`, 281-312. -/
def push (k : Kind) (st : Stack S) : Stack S :=
  { kind := k,
    level := (match st with | [] => 0 | t :: _ => t.level) + (if k = .normal then 1 else 0) } :: st

/-- The loop of usymtab.c:4654-4661. -/
def lastCase : Stack S → Stack S
  | t :: u :: r => if u.kind = .cbranch then lastCase (u :: r) else t :: u :: r
  | s => s

/-- usymtab.c:4652-4665. -/
def dropCases : Stack S → Stack S
  | t :: r => if t.kind = .cbranch then lastCase (t :: r) else t :: r
  | [] => []

/-- usymtab.c:4667-4672. -/
def dropTrue : Stack S → Stack S
  | t :: r => if t.kind = .fbranch then r else t :: r
  | [] => []

/-- `usymtab_dropEnv`, 4650-4677. -/
def dropEnv (s : Stack S) : Stack S := (dropTrue (dropCases s)).tail

theorem lastCase_length (s : Stack S) : (lastCase s).length ≤ s.length := by
  fun_induction lastCase s with
  | case1 t u r h ih => simp only [List.length_cons] at ih ⊢; omega
  | case2 t u r h => exact Nat.le_refl _
  | case3 s h => exact Nat.le_refl _

theorem dropCases_length (s : Stack S) : (dropCases s).length ≤ s.length := by
  cases s with
  | nil => exact Nat.le_refl _
  | cons t r =>
    rw [dropCases]
    split
    · exact lastCase_length _
    · exact Nat.le_refl _

theorem dropTrue_length (s : Stack S) : (dropTrue s).length ≤ s.length := by
  cases s with
  | nil => exact Nat.le_refl _
  | cons t r =>
    rw [dropTrue]
    split
    · simp
    · exact Nat.le_refl _

theorem dropEnv_length (t : Table S) (r : Stack S) : (dropEnv (t :: r)).length ≤ r.length := by
  have h1 := dropCases_length (t :: r)
  have h2 := dropTrue_length (dropCases (t :: r))
  simp only [dropEnv, List.length_tail, List.length_cons] at h1 ⊢
  omega

/-- The reference of an entry: usymtab.c:4928-4939. -/
def Table.refOf (t : Table S) (i : Nat) (e : Entry S) : Ref :=
  match e.ref with
  | some r => r
  | none => ⟨t.level, i⟩

/-- The loop of `usymtab_addRefEntry`, 4901-4946: the state and the reference of the entry that is
copied. -/
def search (k : Nat) (s : Stack S) : Option (S × Ref) :=
  match s with
  | [] => none
  | t :: r =>
    match t.getIndex k, t.find k with
    | some i, some e => some (e.state, t.refOf i e)
    | _, _ => search k (dropEnv (t :: r))
  termination_by s.length
  decreasing_by
    have := dropEnv_length t r
    simp only [List.length_cons]
    omega

/-- `usymtab_addRefEntry`, 4887-4949, for a table of a branch. -/
def addRefEntry (k : Nat) : Stack S → Stack S × Option Pos
  | [] => ([], none)
  | t :: r =>
    match search k (t :: r) with
    | none => (t :: r, none)
    | some (s, ref) =>
      ({ t with entries := t.entries ++ [⟨k, s, some ref⟩] } :: r, some ⟨0, t.entries.length⟩)

/-- usymtab.c:4983-4984. -/
def Kind.stops : Kind → Bool
  | .tbranch | .fbranch | .cbranch => true
  | _ => false

/-- `usymtab_lookupAux`, 4952-4996. -/
def lookup (k : Nat) : Stack S → Stack S × Option Pos
  | [] => ([], none)
  | t :: r =>
    match t.getIndex k with
    | some i => (t :: r, some ⟨0, i⟩)
    | none =>
      if t.kind.stops then addRefEntry k (t :: r)
      else
        let q := lookup k r
        (t :: q.1, q.2.map fun p => ⟨p.depth + 1, p.index⟩)

def Table.setAt (t : Table S) (i : Nat) (f : S → S) : Table S :=
  { t with entries := t.entries.modify i fun e => { e with state := f e.state } }

/-- Changing the state of an entry. -/
def setAt (f : S → S) : Pos → Stack S → Stack S
  | _, [] => []
  | ⟨0, i⟩, t :: r => t.setAt i f :: r
  | ⟨d + 1, i⟩, t :: r => t :: setAt f ⟨d, i⟩ r

/-- The reference of the entry at a place. -/
def refAt : Pos → Stack S → Option Ref
  | _, [] => none
  | ⟨0, i⟩, t :: _ => t.entries[i]?.map (t.refOf i)
  | ⟨d + 1, i⟩, _ :: r => refAt ⟨d, i⟩ r

/-- Looking a name up and changing the state of what is found. -/
def update (k : Nat) (f : S → S) (st : Stack S) : Stack S :=
  match lookup k st with
  | (st, none) => st
  | (st, some p) => setAt f p st

/-- Declaring a variable: `usymtab_supEntryAux`, 711-1009, in a scope that is not the file's. -/
def declare (x : Nat) (s : S) : Stack S → Stack S
  | [] => []
  | t :: r =>
    match t.getIndex x with
    | some _ => t :: r
    | none => { t with entries := t.entries ++ [⟨x, s, none⟩] } :: r

/-- The new state in the enclosing table of a variable the false branch has an entry for:
usymtab.c:3087-3131, 3134-3137. -/
def Ops.mergeFalse (o : Ops S) (eT eF : Bool) (t : Option (Entry S)) (f : Entry S) (old : S) : S :=
  match t with
  | some t => if eF then t.state else if eT then f.state else o.join f.state t.state
  | none => if eF then old else o.join old f.state

/-- The same for a variable only the true branch has an entry for: usymtab.c:3157-3176. -/
def Ops.mergeTrue (o : Ops S) (eT eF : Bool) (t : Entry S) (old : S) : S :=
  if eF then t.state else if eT then old else o.join old t.state

/-- Changing the states of the variables with the names of some entries, one after the other. -/
def updates (f : Entry S → S → S) : List (Entry S) → Stack S → Stack S
  | [], st => st
  | e :: es, st => updates f es (update e.name (f e) st)

/-- `usymtab_popBranches`, 3001-3215. The two flags are `exprNode_mustEscape` of the branches. -/
def popBranches (o : Ops S) (eT eF : Bool) : Stack S → Option (Stack S)
  | ft :: tt :: env =>
    if ft.kind = .fbranch ∧ tt.kind = .tbranch then
      let env := updates (fun f => o.mergeFalse eT eF (tt.find f.name) f) ft.entries env
      some (updates (o.mergeTrue eT eF) (tt.entries.filter fun t => (ft.find t.name).isNone) env)
    else none
  | _ => none

/-- `usymtab_altBranch`, 3224-3245. If the innermost table is a `case`, `usymtab_fixCases` frees the
table that has just become the new one's environment. -/
def altBranch : Stack S → Option (Stack S)
  | t :: r => if t.kind = .tbranch then some (push .fbranch (t :: r)) else none
  | [] => none

/-- `usymtab_popTrueBranch`, 2529-2547. -/
def popTrueBranch (o : Ops S) (eT : Bool) (st : Stack S) : Option (Stack S) :=
  (altBranch st).bind (popBranches o eT false)

/-- `usymtab_popOrBranch`, 2571-2614, for an operand that execution goes on after. -/
def popOrBranch (o : Ops S) : Stack S → Option (Stack S)
  | t :: env =>
    if t.kind = .tbranch then some (updates (fun e old => o.join old e.state) t.entries env) else none
  | [] => none

/-- `usymtab_popAndBranch`, 2694-2739. -/
def popAndBranch (o : Ops S) : Stack S → Option (Stack S)
  | t :: env =>
    if t.kind = .tbranch then
      some (updates (fun e old => o.andFix e.state (o.join old e.state)) t.entries env)
    else none
  | [] => none

/-- `usymtab_exitScope`, 4410-4520: the innermost table that is not a `case` is removed, with
`usymtab_quietExitScope`, 4349-4392, which hands its marks on. -/
def exitScope : Stack S → Option (Stack S)
  | t :: r =>
    if t.kind = .cbranch then (exitScope r).map (t :: ·)
    else if t.kind = .normal then
      match r with
      | u :: r => some ({ u with mustBreak := t.mustBreak, escape := t.escape } :: r)
      | [] => none
    else none
  | [] => none

/-- One round of the loop of `usymtab_newCase`, 2671-2681: the entries so far, and the table outside
of the cases. -/
def caseStep (o : Ops S) (q : List (Entry S) × Stack S) (e : Entry S) : List (Entry S) × Stack S :=
  let l := lookup e.name q.2
  match l.2.bind fun p => (l.1[p.depth]?).bind fun u => u.entries[p.index]? with
  | some old => (q.1 ++ [{ e with state := o.join e.state old.state }], l.1)
  | none => (q.1 ++ [e], l.1)

/-- `usymtab_newCase`, 2633-2688. -/
def newCase (o : Ops S) : Stack S → Option (Stack S)
  | [] => none
  | t :: r =>
    if !t.mustBreak && !t.escape && t.kind == .cbranch then
      -- the table outside of the cases, and those cases
      let stab := r.dropWhile (·.kind == .cbranch)
      let cs := r.takeWhile (·.kind == .cbranch)
      -- every entry is merged with what was known before the `switch`
      let q := t.entries.foldl (caseStep o) ([], stab)
      some ({ t with entries := q.1 } :: (cs ++ q.2))
    else some (push .cbranch (t :: r))

/-- One round of the loop of `usymtab_exitSwitch`, 2810-2876: the `case` below the innermost table is
merged into that and removed. `outer` are the entries of the scope outside of the `switch`. -/
def mergeCase (o : Ops S) (last : Bool) (outer : List (Entry S)) :
    Stack S → Stack S
  | l :: t :: r =>
    let st := updates (fun c old =>
        if last then c.state else if t.escape then old else o.join old c.state)
      t.entries (l :: t :: r)
    let st := if t.escape || t.mustBreak then st else
      updates (fun c old => o.join old c.state) (outer.filter fun c => (t.find c.name).isNone) st
    match st with
    | l :: _ :: r => l :: r
    | st => st
  | st => st

/-- The loop of `usymtab_exitSwitch`, 2810-2876, for the given number of cases. -/
def mergeCases (o : Ops S) (outer : List (Entry S)) : Nat → Bool → Stack S → Stack S
  | 0, _, st => st
  | n + 1, last, st => mergeCases o outer n false (mergeCase o last outer st)

/-- `usymtab_exitSwitch`, 2751-2936, after the scope of the body has been left. Without any `case`,
the loop goes over the cases of an enclosing `switch`, which are removed. -/
def exitSwitch (o : Ops S) (all : Bool) (st : Stack S) : Option (Stack S) :=
  let n := (st.takeWhile (·.kind == .cbranch)).length
  match st.drop n with
  | sw :: outer =>
    if sw.kind = .switch then
      match n, outer with
      | _, [] => none
      | 0, outer => some (outer.dropWhile (·.kind == .cbranch))
      | n + 1, top :: _ =>
        match mergeCases o top.entries n ((st.head?.map (·.escape)).getD false) st with
        | l :: _ =>
          some (updates (fun e old => if all then e.state else o.join old e.state) l.entries outer)
        | [] => none
    else none
  | [] => none

/-- `refTable_lookup`, 4858-4874. -/
def Table.refIndex (t : Table S) (r : Ref) : Option Nat := t.entries.findIdx? (·.ref == some r)

/-- `usymtab_isBranch`, 205-210. -/
def Kind.isBranch (k : Kind) : Bool := k != .normal

/-- The innermost branch, going out with `usymtab_dropEnv`: 4757-4761. -/
def toBranch (s : Stack S) : Stack S :=
  match s with
  | [] => []
  | t :: r => if t.kind.isBranch then t :: r else toBranch (dropEnv (t :: r))
  termination_by s.length
  decreasing_by
    have := dropEnv_length t r
    simp only [List.length_cons]
    omega

/-- The loops of `usymtab_getRefNoisy`, 4745-4808: the entry for a reference, and whether it is in
the innermost table. -/
def searchRef (ref : Ref) (s : Stack S) : Option (Entry S) :=
  match s with
  | [] => none
  | t :: r =>
    if t.level > ref.level ∨ (t.kind.isBranch ∧ t.level = ref.level) then
      match (if t.kind.isBranch then (t.refIndex ref).bind (t.entries[·]?) else none) with
      | some e => some e
      | none => searchRef ref (dropEnv (t :: r))
    else t.entries[ref.index]?
  termination_by s.length
  decreasing_by
    have := dropEnv_length t r
    simp only [List.length_cons]
    omega

/-- `usymtab_getRefNoisy`, 4737-4848: the state of the entry for a reference. An entry found outside
of the innermost branch is looked up again by its name, from that branch (4754-4766, 4793, 4827). -/
def getRef (ref : Ref) (st : Stack S) : Option S :=
  match st with
  | [] => none
  | t :: _ =>
    match (t.refIndex ref).bind (t.entries[·]?) with
    | some e => some e.state
    | none =>
      if !t.kind.isBranch && t.level == ref.level then (t.entries[ref.index]?).map (·.state)
      else
        (searchRef ref st).bind fun e =>
          match toBranch st with
          | [] => some e.state
          | b => (search e.name b).map (·.1)

/-- The state of what a name is found to be. -/
def stateAt : Pos → Stack S → Option S
  | _, [] => none
  | ⟨0, i⟩, t :: _ => t.entries[i]?.map (·.state)
  | ⟨d + 1, i⟩, _ :: r => stateAt ⟨d, i⟩ r

/-- `usymtab_lookupSafeScope`, 5046-5070, with a bound on the number of rounds: `none` if there are
more, `some none` for `uentry_undefined`. -/
def lookupScope (k lexlevel : Nat) : Nat → Stack S → Option (Option Ref)
  | 0, _ => none
  | _ + 1, [] => some none
  | n + 1, t :: r =>
    if t.level > lexlevel then
      match (lookup k (t :: r)).2.bind fun p => refAt p (lookup k (t :: r)).1 with
      | some ref =>
        if ref.level > lexlevel then lookupScope k lexlevel n (dropEnv (t :: r)) else some (some ref)
      | none => lookupScope k lexlevel n (t :: r)
    else some none

/-! ## Programs -/

/-- How a `case` ends: with `break`, with `return` or a call that does not return, or not at all. -/
inductive End where
  | brk | ret | fall
  deriving DecidableEq, Repr

mutual

/-- Statements, as far as they concern the symbol table. The flags are `exprNode_mustEscape` of the
branches (Model/Control). -/
inductive Stmt (S : Type) where
  | skip
  /-- an access of the named variable that changes what is known of it -/
  | act (x : Nat) (f : S → S)
  | decl (x : Nat) (s : S)
  | seq (a b : Stmt S)
  | block (b : Stmt S)
  | ifThen (e : Bool) (b : Stmt S)
  | ifElse (eT eF : Bool) (a b : Stmt S)
  /-- `while`, and `for` after its first expression -/
  | loop (e : Bool) (b : Stmt S)
  /-- the second operand of `&&` and `||` -/
  | andAlso (b : Stmt S)
  | orElse (b : Stmt S)
  /-- `break` -/
  | brk
  /-- `return`, `exit ()` -/
  | ret
  /-- `switch` with a block of cases; the flag is `allpaths` (src/exprNode.c:7318-7345) -/
  | switch (all : Bool) (cs : Cases S)

inductive Cases (S : Type) where
  | nil
  | cons (b : Stmt S) (e : End) (cs : Cases S)

end

/-- `usymtab_setExitCode`, `usymtab_setMustBreak` (224-242) at the end of a `case`
(src/exprNode.c:6834-6839). -/
def setEnd (e : End) : Stack S → Stack S
  | t :: r =>
    (match e with
      | .brk => { t with mustBreak := true }
      | .ret => { t with mustBreak := true, escape := true }
      | .fall => t) :: r
  | [] => []

mutual

/-- What checking a statement does to the table. -/
def run (o : Ops S) : Stmt S → Stack S → Option (Stack S)
  | .skip, st => some st
  | .act x f, st => some (update x f st)
  | .decl x s, st => some (declare x s st)
  | .seq a b, st => (run o a st).bind (run o b)
  | .block b, st => (run o b (push .normal st)).bind exitScope
  | .ifThen e b, st => (run o b (push .tbranch st)).bind (popTrueBranch o e)
  | .ifElse eT eF a b, st =>
    ((run o a (push .tbranch st)).bind altBranch).bind fun st =>
      (run o b st).bind (popBranches o eT eF)
  | .loop e b, st => (run o b (push .tbranch st)).bind (popTrueBranch o e)
  | .andAlso b, st => (run o b (push .tbranch st)).bind (popAndBranch o)
  | .orElse b, st => (run o b (push .tbranch st)).bind (popOrBranch o)
  | .brk, st => some st
  | .ret, st => some st
  | .switch all cs, st =>
    ((runCases o cs (push .normal (push .switch st))).bind exitScope).bind (exitSwitch o all)

def runCases (o : Ops S) : Cases S → Stack S → Option (Stack S)
  | .nil, st => some st
  | .cons b e cs, st => ((newCase o st).bind (run o b)).bind fun st => runCases o cs (setEnd e st)

end

mutual

/-- The references of the entries that the accesses of a statement find, in order. -/
def trace (o : Ops S) : Stmt S → Stack S → List (Option Ref)
  | .skip, _ => []
  | .act x _, st => [(lookup x st).2.bind fun p => refAt p (lookup x st).1]
  | .decl _ _, _ => []
  | .seq a b, st => trace o a st ++ (match run o a st with | some st => trace o b st | none => [])
  | .block b, st => trace o b (push .normal st)
  | .ifThen _ b, st => trace o b (push .tbranch st)
  | .ifElse _ _ a b, st =>
    trace o a (push .tbranch st) ++
      (match (run o a (push .tbranch st)).bind altBranch with | some st => trace o b st | none => [])
  | .loop _ b, st => trace o b (push .tbranch st)
  | .andAlso b, st => trace o b (push .tbranch st)
  | .orElse b, st => trace o b (push .tbranch st)
  | .brk, _ => []
  | .ret, _ => []
  | .switch _ cs, st => traceCases o cs (push .normal (push .switch st))

def traceCases (o : Ops S) : Cases S → Stack S → List (Option Ref)
  | .nil, _ => []
  | .cons b e cs, st =>
    match newCase o st with
    | none => []
    | some st => trace o b st ++
        (match run o b st with | some st => traceCases o cs (setEnd e st) | none => [])

end

end Splint.Symtab
