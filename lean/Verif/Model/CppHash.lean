import Verif.Tactics
/-!
# The table of macros

Model of src/cpphash.c: hash function (274-286), `cpphash_lookup` (297-332), `cpphash_install` (404-447),
`cppReader_deleteMacro` (345-389), `cppReader_hashCleanup` (457-469), saving and restoring (81-100,
135-247); and of what uses them: the end of `do_defineAux` (cpplib.c:2865-2951), the loop of `do_undef`
(cpplib.c:5306-5323) and `cppDoUndefine` (cppmain.c:223-237), and `eval_if_expression` (cpplib.c:5521-5545).

Nodes are in a heap, with both links and the pointer back to the header of the bucket. Following a
pointer to nothing, and walking a chain for longer than there are nodes, is `none`. Messages are
dropped. Definitions and strings are values; that #undef frees the pattern of the definition is not
modelled. `$` counts as part of a name, which depends on an option. `cpphash_lookupExpand`, which hides
definitions that are not to be expanded, is not modelled. Addresses are not used again. `char` is a
character code.
-/
namespace Splint.CppHash

local notation "Addr" => Nat
abbrev Text := List Char

/-- `struct reflist`, cpplib.h:494-504; what is not written is `none`. -/
structure Ref where
  stringify : Bool
  rawBefore : Bool
  rawAfter : Bool
  restArgs : Bool
  nchars : Option Int
  argno : Int
deriving DecidableEq, Repr

/-- `struct definition`, cpplib.h:482-513. -/
structure Defn where
  nargs : Int
  length : Nat
  predefined : Bool
  expansion : Text
  line : Int
  file : Text
  noExpand : Option Bool
  restArgs : Option Bool
  pattern : List Ref
  argnames : Text
deriving DecidableEq, Repr

/-- `type` and `value` of a node: `T_MACRO`, `T_CONST`, `T_PCSTRING`, and the others. -/
inductive Value where
  | macro (d : Defn)
  | const (n : Int)
  | pcstring (s : Text)
  | special (type : Nat)
deriving DecidableEq, Repr

/-- `struct s_hashNode`, cpphash.h:15-32. `hdr` is `bucket_hdr`: the table (`true` for `hashtab`,
`false` for `ohashtab`) and the index. -/
structure Node where
  next : Option Addr
  prev : Option Addr
  hdr : Bool × Nat
  length : Nat
  name : Text
  value : Value
deriving DecidableEq, Repr

/-- The heap, the two tables and the next address. -/
structure State where
  heap : Addr → Option Node
  tab : Bool × Nat → Option Addr
  fresh : Addr

/-- `CPP_HASHSIZE`. -/
def hashSize : Nat := 1403

/-- `cpphash_hashCode` of the whole text, cpphash.c:274-286, with `hashStep` and `makePositive` (71-75). -/
def hashCode (name : Text) : Nat :=
  (name.foldl (fun r c => (r * 4 + c.toNat) % 2 ^ 32) 0) % 2 ^ 31 % hashSize

/-- `strncmp (a, b, n) == 0`. -/
def strncmpEq : Nat → Text → Text → Bool
  | 0, _, _ => true
  | _ + 1, [], [] => true
  | n + 1, a :: as, b :: bs => a == b && strncmpEq n as bs
  | _ + 1, _, _ => false

/-- Characters of identifiers: letters, digits, `_` and `$` (`initialize_char_syntax`,
cpplib.c:541-582). -/
def isIdent (c : Char) : Bool :=
  ('a' ≤ c && c ≤ 'z') || ('A' ≤ c && c ≤ 'Z') || ('0' ≤ c && c ≤ '9') || c == '_' || c == '$'

/-- The length, if it is not given: cpphash.c:303-312 and 401-410. -/
def lenOf (text : Text) : Option Nat → Nat
  | some n => n
  | none => (text.takeWhile isIdent).length

/-- The walk along a bucket, cpphash.c:320-330. -/
def lookupLoop (heap : Addr → Option Node) (text : Text) (len : Nat) : Nat → Option Addr → Option (Option Addr)
  | _, none => some none
  | 0, some _ => none
  | fuel + 1, some a =>
    match heap a with
    | none => none
    | some n =>
      if n.length = len ∧ strncmpEq len n.name text = true then some (some a)
      else lookupLoop heap text len fuel n.next

/-- `cpphash_lookup`, cpphash.c:297-332. The hash code is always that of the name. -/
def lookup (s : State) (text : Text) (len : Option Nat) : Option (Option Addr) :=
  lookupLoop s.heap text (lenOf text len) (s.fresh + 1)
    (s.tab (true, hashCode (text.take (lenOf text len))))

def update {α β : Type} [DecidableEq α] (f : α → β) (a : α) (b : β) : α → β := fun x => if x = a then b else f x

/-- `cpphash_install`, cpphash.c:404-447. -/
def install (s : State) (text : Text) (len : Option Nat) (v : Value) : Option (State × Addr) :=
  let n := lenOf text len
  let b := (true, hashCode (text.take n))
  let hp := s.fresh
  let node : Node := ⟨s.tab b, none, b, n, text.take n, v⟩
  let done (heap : Addr → Option Node) : State × Addr := (⟨update heap hp (some node), update s.tab b (some hp), hp + 1⟩, hp)
  match s.tab b with
  | none => some (done s.heap)
  | some q =>
    match s.heap q with
    | none => none
    | some m => some (done (update s.heap q (some { m with prev := some hp })))

/-- Writing a link of the node at an address, if there is an address. -/
def setNext (heap : Addr → Option Node) (p : Option Addr) (x : Option Addr) : Option (Addr → Option Node) :=
  match p with
  | none => some heap
  | some p => (heap p).map fun m => update heap p (some { m with next := x })

def setPrev (heap : Addr → Option Node) (p : Option Addr) (x : Option Addr) : Option (Addr → Option Node) :=
  match p with
  | none => some heap
  | some p => (heap p).map fun m => update heap p (some { m with prev := x })

/-- `cppReader_deleteMacro`, cpphash.c:345-389. -/
def delete (s : State) (hp : Addr) : Option State :=
  match s.heap hp with
  | none => none
  | some n =>
    (setNext s.heap n.prev n.next).bind fun h1 =>
    (setPrev h1 n.next n.prev).map fun h2 =>
      ⟨update h2 hp none, if s.tab n.hdr = some hp then update s.tab n.hdr n.next else s.tab, s.fresh⟩

/-- The end of `do_defineAux`, cpplib.c:2865-2951. -/
def define (s : State) (text : Text) (len : Option Nat) (d : Defn) : Option State :=
  match lookup s text len with
  | none => none
  | some (some hp) =>
    (s.heap hp).map fun m => { s with heap := update s.heap hp (some { m with value := .macro d }) }
  | some none => (install s text len (.macro d)).map (·.1)

/-- The loop of `do_undef` and `cppDoUndefine`. -/
def undefLoop (text : Text) (len : Option Nat) : Nat → State → Option State
  | 0, _ => none
  | fuel + 1, s =>
    match lookup s text len with
    | none => none
    | some none => some s
    | some (some hp) => (delete s hp).bind (undefLoop text len fuel)

def undef (s : State) (text : Text) (len : Option Nat) : Option State := undefLoop text len (s.fresh + 1) s

/-- The value found. -/
def valueOf (s : State) (text : Text) (len : Option Nat) : Option (Option Value) :=
  match lookup s text len with
  | none => none
  | some none => some none
  | some (some a) => (s.heap a).map fun n => some n.value

/-- `eval_if_expression`, cpplib.c:5521-5545; the expression looks the names up. -/
def evalIf (s : State) (names : List (Text × Option Nat)) (definedType : Nat) :
    Option (State × List (Option Value)) :=
  (install s "defined".toList none (.special definedType)).bind fun (s1, hp) =>
  (names.mapM fun x => valueOf s1 x.1 x.2).bind fun vs =>
  (delete s1 hp).map fun s2 => (s2, vs)

/-- The copy of a pattern, cpphash.c:168-199: only the first element is linked, and `nchars` is not
written. -/
def copyPattern : List Ref → List Ref
  | [] => []
  | r :: _ => [{ r with nchars := none }]

/-- The copy of a definition, cpphash.c:155-221; `noExpand` and `rest_args` are not written. -/
def copyDefn (d : Defn) : Defn :=
  ⟨d.nargs, d.length, d.predefined, d.expansion, d.line, d.file, none, none, copyPattern d.pattern,
    if 0 ≤ d.nargs then d.argnames else []⟩

/-- The copy of a value, cpphash.c:153-241. -/
def copyValue : Value → Value
  | .macro d => .macro (copyDefn d)
  | v => v

/-- `hashNode_copy`, cpphash.c:135-247. -/
def copyChain (hdr : Bool × Nat) : Nat → State → (src prev : Option Addr) → Option (State × Option Addr)
  | _, s, none, _ => some (s, none)
  | 0, _, some _, _ => none
  | fuel + 1, s, some a, prev =>
    match s.heap a with
    | none => none
    | some n =>
      let res := s.fresh
      (copyChain hdr fuel { s with fresh := s.fresh + 1 } n.next (some res)).map fun (s', next) =>
        ({ s' with heap := update s'.heap res (some ⟨next, prev, hdr, n.length, n.name, copyValue n.value⟩) }, some res)

/-- The loops of `cppReader_saveHashtab` (`dst = false`) and `cppReader_restoreHashtab` (`dst = true`),
cpphash.c:81-100, from index `i` on. -/
def copyTable (dst : Bool) : (count i : Nat) → State → Option State
  | 0, _, s => some s
  | count + 1, i, s =>
    (copyChain (dst, i) (s.fresh + 1) s (s.tab (!dst, i)) none).bind fun (s', r) =>
      copyTable dst count (i + 1) { s' with tab := update s'.tab (dst, i) r }

def save (s : State) : Option State := copyTable false hashSize 0 s
def restore (s : State) : Option State := copyTable true hashSize 0 s

/-- The inner loop of `cppReader_hashCleanup`. -/
def cleanBucket (i : Nat) : Nat → State → Option State
  | 0, _ => none
  | fuel + 1, s =>
    match s.tab (true, i) with
    | none => some s
    | some a => (delete s a).bind (cleanBucket i fuel)

/-- `cppReader_hashCleanup`, cpphash.c:457-469. -/
def cleanup : Nat → State → Option State
  | 0, s => some s
  | i + 1, s => (cleanBucket i (s.fresh + 1) s).bind (cleanup i)

/-- The tables at the beginning. -/
def empty : State := ⟨fun _ => none, fun _ => none, 0⟩

/-- What happens to the table while files are preprocessed. -/
inductive Op where
  | define (text : Text) (len : Option Nat) (d : Defn)
  | undef (text : Text) (len : Option Nat)
  /-- a built-in name, cpplib.c:3724, 3748 -/
  | builtin (text : Text) (len : Option Nat) (v : Value)
  | look (text : Text) (len : Option Nat)
  | cond (names : List (Text × Option Nat)) (definedType : Nat)
  | save
  | restore
  | cleanup
deriving DecidableEq, Repr

/-- One operation, and what is found. -/
def step (s : State) : Op → Option (State × List (Option Value))
  | .define t l d => (define s t l d).map fun s => (s, [])
  | .undef t l => (undef s t l).map fun s => (s, [])
  | .builtin t l v => (install s t l v).map fun x => (x.1, [])
  | .look t l => (valueOf s t l).map fun v => (s, [v])
  | .cond ns k => evalIf s ns k
  | .save => (save s).map fun s => (s, [])
  | .restore => (restore s).map fun s => (s, [])
  | .cleanup => (cleanup hashSize s).map fun s => (s, [])

/-- A history. -/
def run (s : State) : List Op → Option (State × List (Option Value))
  | [] => some (s, [])
  | o :: os => (step s o).bind fun (s1, out) => (run s1 os).map fun (s2, out2) => (s2, out ++ out2)

end Splint.CppHash
