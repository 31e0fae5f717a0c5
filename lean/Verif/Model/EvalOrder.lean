/-!
# Evaluation order

Model of src/exprNode.c:2319-2502 (`checkExpressionDefinedAux`, `checkExpressionDefined`), 2727-2876
(`checkSequencingOne`, `checkSequencing`), 5248-5253 (`evaluationOrderUndefined`), 10130-10158
(`exprNode_mergeUSs`, `exprNode_mergeCondUSs`), and of what these need of the functions that make
the nodes of expressions: 961-1032 (`exprNode_createId`), 3749-3798 (`functionCallSafe`), 3202-3204
(end of `checkGlobMods`), 4169-4187 (`exprNode_addParens`), 4377-4395 (`exprNode_postOp`), 4496-4570
(`exprNode_preOp`), 6032-6056 (end of `exprNode_makeOp`, `exprNode_op`), 6095-6323
(`exprNode_assign`), 6345-6405 (`exprNode_cond`), 6898-6910 (`exprNode_produceGuards`), 8222-8253
(`exprNode_comma`), 10167-10183 (`exprNode_addUse`, `exprNode_checkUse`), 10448-10453 (end of
`exprNode_checkSet`), 10565-10577, 10612-10675 (`checkOneArg`, `checkAnyCall`).

Expressions are over variables of an arithmetic type; no part of them is an error, so there are no
pointers, arrays, fields or macro parameters, and a `sRef` is a variable or absent (constants and
the results of operators and calls; `sRef_isKnown` and `sRef_isMeaningful` hold for variables).
Two variables are `sRef_same`/`sRef_similar` exactly when they are equal (sRef.c:1825-1830,
2123-2126).  Functions are declared with a modifies clause that lists variables, and their parameters
have no annotation; so `msets` is empty and nothing is unconstrained.  The derived reference that a call adds to
its uses (3788-3794) is left out: the variable itself is already among them.  The flag `evalorder` is
on and no message is suppressed.  Of a message only the variable it is about is kept.
-/
namespace Splint
namespace EvalOrder

mutual
/-- Expressions over arithmetic variables. -/
inductive Exp
  | const
  | var (x : Nat)
  | paren (e : Exp)
  /-- `-e`, `+e`, `~e`, `!e` -/
  | unary (e : Exp)
  /-- `x++`, `x--`, `++x`, `--x` -/
  | incr (x : Nat)
  /-- the arithmetic and relational operators -/
  | bin (a b : Exp)
  /-- `a && b`, `a || b` -/
  | logic (a b : Exp)
  | comma (a b : Exp)
  | cond (p a b : Exp)
  /-- `x = e` -/
  | assign (x : Nat) (e : Exp)
  /-- `x += e` and so on -/
  | opAssign (x : Nat) (e : Exp)
  /-- a call of a function that modifies the variables `mods` -/
  | call (mods : List Nat) (args : Args)
deriving DecidableEq, Repr

inductive Args
  | nil
  | cons (e : Exp) (as : Args)
deriving DecidableEq, Repr
end

/-- What is used of `struct s_exprNode`, Headers/exprNode.h; `call` is `kind == XPR_CALL`. -/
structure Node where
  sref : Option Nat
  uses : List Nat
  sets : List Nat
  call : Bool
deriving DecidableEq, Repr

/-- `sRefSet_insert`, sRefSet.c:84-111. -/
def ins (s : List Nat) (x : Nat) : List Nat := if x ∈ s then s else s ++ [x]

/-- `sRefSet_union`, sRefSet.c:275-296. -/
def union (s t : List Nat) : List Nat := t.foldl ins s

/-- `exprNode_checkUse`, exprNode.c:10176-10189, and `exprNode_addUse`, 10167-10174. -/
def Node.use (n : Node) (s : Option Nat) : Node :=
  match s with
  | some x => { n with uses := ins n.uses x }
  | none => n

/-- `exprNode_checkSet`, exprNode.c:10355-10454: the insertion at its end. -/
def Node.set (n : Node) (x : Nat) : Node := { n with sets := ins n.sets x }

/-- `exprNode_mergeUSs`, exprNode.c:10130-10138. -/
def Node.merge (n m : Node) : Node :=
  { n with sets := union n.sets m.sets, uses := union n.uses m.uses }

/-- `exprNode_createPartialCopy` and `exprNode_createPartialNVCopy`, exprNode.c:526-613: the sets
are copied, the reference is not. -/
def Node.copy (n : Node) : Node := ⟨none, n.uses, n.sets, false⟩

/-- `checkExpressionDefinedAux`, exprNode.c:2319-2438. -/
def definedAux (e1 e2 : Node) : List Nat :=
  e1.uses.filter (· ∈ e2.sets) ++
  e1.sets.filter fun x =>
    if e2.sref = some x then true else if x ∈ e2.uses then true else x ∈ e2.sets

/-- `checkExpressionDefined`, exprNode.c:2440-2502. -/
def defined (e1 e2 : Node) : List Nat :=
  match e1.sref with
  | some x =>
    if x ∈ e2.sets then
      if e2.call then definedAux e1 e2 else [x]
    else definedAux e1 e2
  | none => definedAux e1 e2

/-- `checkSequencingOne`, exprNode.c:2727-2853; `others` are the arguments except `el`. -/
def sequencingOne (el : Node) (others : List Node) : List Nat :=
  el.sets.flatMap fun x => others.flatMap fun j =>
    if x ∈ j.uses then [x] else if x ∈ j.sets then [x] else []

/-- The loop of `checkSequencing`, exprNode.c:2865-2873; `pre` are the arguments before. -/
def sequencingFrom (pre : List Node) : List Node → List Nat
  | [] => []
  | el :: post => sequencingOne el (pre ++ post) ++ sequencingFrom (pre ++ [el]) post

/-- `checkSequencing`, exprNode.c:2856-2876. -/
def sequencing (args : List Node) : List Nat :=
  if args.length > 1 then sequencingFrom [] args else []

/-- The end of `exprNode_makeOp`, exprNode.c:5341 and 6032-6036. -/
def makeOp (e1 e2 : Node) : Node := ((e1.copy.use e1.sref).merge e2).use e2.sref

/-- `exprNode_produceGuards`, exprNode.c:6898-6910, and `exprNode_resetSref`, 236-239. -/
def produceGuards (p : Node) : Node := { p.use p.sref with sref := none }

/-- `exprNode_createId`, exprNode.c:961-1032. -/
def ident (x : Nat) : Node := ⟨some x, [], [], false⟩

/-- `exprNode_assign`, exprNode.c:6107-6142: the copy, or the node of the operator. -/
def assignNode (e1 e2 : Node) (x : Nat) (op : Bool) : Node :=
  let ret := if op then makeOp e1 e2 else e1.copy.merge e2
  { ((ret.merge e2).use e2.sref).set x with sref := e1.sref }

/-- `exprNode_cond`, exprNode.c:6345-6405, where the types agree. -/
def condNode (p a b : Node) : Node :=
  let ret := { p.copy with sref := a.sref }
  ((ret.use p.sref).merge (a.use a.sref)).merge (b.use b.sref)

/-- `exprNode_comma`, exprNode.c:8222-8253. -/
def commaNode (a b : Node) : Node :=
  { ((a.copy.use a.sref).merge b).use b.sref with sref := b.sref }

/-- `functionCallSafe`, exprNode.c:3749-3798, with `checkAnyCall`, 10578-10675: `args` have their
references among their uses.  The node of the function gets the sets of the arguments and the
variables of the modifies clause, and the call gets those. -/
def callNode (mods : List Nat) (args : List Node) : Node :=
  let fcn := args.foldl Node.merge ⟨none, [], [], false⟩
  ⟨none, fcn.uses, union fcn.sets mods, true⟩

mutual
/-- The actions of the grammar for an expression, cgrammar.y:916-1093: its node and the variables
of the messages. -/
def check : Exp → Node × List Nat
  | .const => (⟨none, [], [], false⟩, [])
  | .var x => (ident x, [])
  | .paren e =>
    let (n, r) := check e
    ({ n.copy with sref := n.sref }, r)
  | .unary e =>
    let (n, r) := check e
    (n.copy.use n.sref, r)
  | .incr x => (((ident x).copy.use (some x)).set x, [])
  | .bin a b =>
    let (na, ra) := check a
    let (nb, rb) := check b
    (makeOp na nb, ra ++ rb ++ defined na nb)
  | .logic a b =>
    let (na, ra) := check a
    let (nb, rb) := check b
    (makeOp (produceGuards na) nb, ra ++ rb)
  | .comma a b =>
    let (na, ra) := check a
    let (nb, rb) := check b
    (commaNode na nb, ra ++ rb)
  | .cond p a b =>
    let (np, rp) := check p
    let (na, ra) := check a
    let (nb, rb) := check b
    (condNode (produceGuards np) na nb, rp ++ ra ++ rb)
  | .assign x e =>
    let (n, r) := check e
    (assignNode (ident x) n x false, r ++ defined (ident x) n)
  | .opAssign x e =>
    let (n, r) := check e
    (assignNode (ident x) n x true, r ++ defined (ident x) n)
  | .call mods args =>
    let (ns, r) := checkArgs args
    let ns := ns.map fun n => n.use n.sref
    (callNode mods ns, r ++ sequencing ns)

def checkArgs : Args → List Node × List Nat
  | .nil => ([], [])
  | .cons e as =>
    let (n, r) := check e
    let (ns, rs) := checkArgs as
    (n :: ns, r ++ rs)
end

/-- The variables of the messages about the order of evaluation in `e`. -/
def reports (e : Exp) : List Nat := (check e).2

end EvalOrder
end Splint
