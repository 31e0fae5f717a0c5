import Verif.Model.Kinds
/-!
# Whether storage is completely defined

Model of src/sRef.c:4771-4968 (`whatUndefined`, `checkDefined`, `sRef_isReallyDefined`,
`sRef_showNotReallyDefined`), of the check of out storage at the end of a function or block
(src/usymtab.c:4086-4099), and of the state of the target of a pointer that was not mentioned yet
(src/sRef.c:6944-6958, `sRef_constructPointerAux`).

References are an abstract type. What is asked of a reference is given by an environment: its state,
its type, its target (`sRef_constructDeref`), its fields that were mentioned (`sRef_derivedFields`, as
rebuilt by `sRef_makeField`), all its fields (with whether they are declared reldef), and whether a
field is recursive (`sRef_isRecursiveField`). That these build references is left out.
-/
namespace Splint
namespace ReallyDefined

/-- The real type of a reference. -/
inductive View where
  | unknown | pointer | struct | other
deriving DecidableEq, Repr

structure Env (α : Type) where
  /-- `sRef_isKnown` -/
  known : α → Bool
  state : α → SState
  view : α → View
  deref : α → α
  mentioned : α → List α
  fields : α → List (α × Bool)
  recursive : α → Bool

/-- `sRef_isAnyDefined`, sRef.h:492-496. -/
def anyDefined : SState → Bool
  | .defined | .relDef | .partial_ => true
  | _ => false

/-- The first valid result, in order (sRef.c:4830-4851). -/
def firstBad {α : Type} (f : α → Option α) : List α → Option α
  | [] => none
  | a :: l => match f a with
    | some r => some r
    | none => firstBad f l

/-- The loop over all fields, sRef.c:4862-4885: it stops at the first field for which there is no
result. -/
def allFields {α : Type} (skip : α → Bool) (f : α → Option α) : List (α × Bool) → Option α
  | [] => none
  | (a, relDef) :: l =>
    if relDef then allFields skip f l
    else if skip a then allFields skip f l
    else match f a with
      | none => none
      | some _ => allFields skip f l

/-- `whatUndefined`, sRef.c:4771-4899; the first argument is `MAXDEPTH + 1 - depth`. -/
def whatUndefined {α : Type} (env : Env α) : Nat → α → Option α
  | 0, _ => none
  | n + 1, s =>
    if !env.known s || anyDefined (env.state s) then none
    else if env.state s = .unuseable ∨ env.state s = .undefined then some s
    else match env.view s with
      | .unknown => none
      | .pointer =>
        if env.state s = .unknown then none else whatUndefined env n (env.deref s)
      | .struct =>
        if env.state s = .unknown then some s
        else if env.state s = .pDefined ∨ anyDefined (env.state s) then
          firstBad (fun f => if env.recursive f then none else whatUndefined env n f) (env.mentioned s)
        else if env.state s = .allocated then
          allFields env.recursive (whatUndefined env n) (env.fields s)
        else none
      | .other => none

/-- `MAXDEPTH`, basic.h. -/
def maxDepth : Nat := 10

/-- `checkDefined`, sRef.c:4901-4906. -/
def checkDefined {α : Type} (env : Env α) (s : α) : Bool :=
  (whatUndefined env (maxDepth + 1) s).isNone

/-- `sRef_isReallyDefined`, sRef.c:4908-4932; `valid` is `sRef_isReasonable`. -/
def isReallyDefined {α : Type} (env : Env α) (valid : Bool) (s : α) : Bool :=
  if valid then
    if anyDefined (env.state s) then true
    else if env.state s = .allocated ∨ env.state s = .pDefined then checkDefined env s
    else false
  else true

/-- The outcome of `sRef_showNotReallyDefined`. -/
inductive Shown (α : Type) where
  /-- `BADBRANCH` or a failing assertion -/
  | bug
  | nothing
  | sub (r : α)
deriving DecidableEq, Repr

/-- `sRef_showNotReallyDefined`, sRef.c:4934-4968. -/
def show_ {α : Type} [DecidableEq α] (env : Env α) (valid : Bool) (s : α) : Shown α :=
  if valid then
    if anyDefined (env.state s) then .bug
    else if env.state s = .allocated ∨ env.state s = .pDefined then
      match whatUndefined env (maxDepth + 1) s with
      | none => .bug
      | some r => if r ≠ s then .sub r else .nothing
    else .nothing
  else .bug

/-- The check of an out variable at the end of a function or block, usymtab.c:4086-4099. -/
def outReported {α : Type} (env : Env α) (mustDefine isOut : Bool) (s : α) : Bool :=
  mustDefine && isOut && !isReallyDefined env true s && env.state s != .dead

/-- The state of the target of a pointer that was not mentioned yet, sRef.c:6944-6958. -/
def targetState (pointer : SState) (isSU : Bool) : SState :=
  if pointer = .undefined then .unuseable
  else if pointer = .allocated ∧ isSU = false then .undefined
  else pointer

end ReallyDefined
end Splint
