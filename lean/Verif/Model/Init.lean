import Verif.Tactics
/-!
# Initializers with braces

Model of src/exprNode.c: `exprNode_checkOneInit` (8303-8546) and `exprNode_makeInitBlock` (3966-3976), of
src/cgrammar.y: `init`, `initList` (1200-1236), with what they use of `exprNode_arrayFetch` (1199-1428) and
`exprNode_fieldAccessAux` (4072-4157), and of src/ctype.c: `ctype_isRealAP` (1085-1091), `ctype_isFixedArray`
(2853-2858), `ctype_isChar` (857-861).

Simplifications:
* types are trees: names of types are replaced by what they stand for; a struct has its fields, with different
  names, so that the field looked up by its name is the field itself;
* whether an expression matches a type (`exprNode_matchType`), whether it is a string (`ctype_isString` of its
  type) and which types are characters are parameters;
* only the messages of the function are modelled, not those of the assignments it simulates (`doAssign`, among them
  the length of strings) nor those about null pointers in `exprNode_arrayFetch`;
* a message is where it is (the positions that lead to the part of the initializer) and what it is;
* `optgenerror` reports if the flag is set, and returns whether it did: parameter `on`.
-/
namespace Splint.Init

inductive Ty where
  /-- numbers, functions, enumerations ...: 0 is `int` -/
  | scalar (k : Nat)
  | ptr (t : Ty)
  | arr (t : Ty)
  | farr (t : Ty) (n : Nat)
  | struct (fs : List Ty)
  | union (fs : List Ty)
  | unknown

/-- `init`: an initializer with a designator is `exprNode_undefined`. -/
inductive Ini (E : Type) where
  | expr (e : E)
  | block (vs : List (Ini E))
  | designated

inductive Kind where
  /-- FLG_IMPTYPE: "Variable has unknown (implicitly int) type" -/
  | imptype
  /-- FLG_INITSIZE: "Initializer block for ... has ... elements, but declared as" -/
  | tooLarge
  /-- FLG_INITALLELEMENTS: the same -/
  | tooSmall
  /-- FLG_FULLINITBLOCK: "... has ... fields, but ... has ... fields" -/
  | fewFields
  /-- FLG_TYPE: the same -/
  | manyFields
  /-- FLG_TYPE: "... union initializers should have one element" -/
  | union
  /-- FLG_TYPE: "Initializer block used for ... where ... is expected" -/
  | block
  /-- "Initial value of ... is type ..., expects ..." -/
  | mismatch
  /-- "Additional initialization errors for ... not reported" -/
  | additional
  /-- `uentryList_getN: out of range`, or an assertion -/
  | bug
deriving DecidableEq, Repr

structure Cfg (E : Type) where
  ok : Ty → E → Bool
  isString : E → Bool
  charScalar : Nat → Bool
  on : Kind → Bool

variable {E : Type} (cfg : Cfg E)

abbrev Msg := List Nat × Kind

/-- `ctype_isChar` -/
def isChar : Ty → Bool
  | .scalar k => cfg.charScalar k
  | .unknown => true
  | _ => false

/-- `ctype_isString (exprNode_getType (oneval))`: an init block has an unknown type. -/
def isStringIni : Ini E → Bool
  | .expr e => cfg.isString e
  | _ => false

/-- `optgenerror` -/
def opt (p : List Nat) (k : Kind) : List Msg × Bool := if cfg.on k then ([(p, k)], true) else ([], false)

/-- 8314-8322: the type, and the message if it is not known -/
def known : Ty → Ty
  | .unknown => .scalar 0
  | t => t

def imp (p : List Nat) : Ty → List Msg
  | .unknown => (opt cfg p .imptype).1
  | _ => []

/-- 8349-8364 -/
def sizeMsg (p : List Nat) (len n : Nat) : List Msg × Bool :=
  if len ≠ n then opt cfg p (if len > n then .tooLarge else .tooSmall) else ([], false)

mutual
/-- `exprNode_checkOneInit`: the messages, and `hasError` -/
def check (p : List Nat) (t : Ty) : Ini E → List Msg × Bool
  | .block vs =>
    match known t with
    | .ptr u => elems p u vs.length 0 0 vs
    | .arr u => elems p u vs.length 0 0 vs
    | .farr u n =>
      let s := sizeMsg cfg p vs.length n
      let r := elems p u vs.length 0 0 vs
      (s.1 ++ r.1, s.2 || r.2)
    | .struct fs =>
      if fs.length ≠ vs.length then opt cfg p (if fs.length > vs.length then .fewFields else .manyFields)
      else fields p 0 fs vs
    | .union fs =>
      if vs.length ≠ 1 then opt cfg p .union
      else match fs with
        | [] => ([(p, .bug)], false)
        | f :: _ => fields p 0 [f] vs
    | _ => let r := opt cfg p .block; (imp cfg p t ++ r.1, r.2)
  | .expr e =>
    let r := if cfg.ok (known t) e then ([], false) else opt cfg p .mismatch
    (imp cfg p t ++ r.1, r.2)
  | .designated => (imp cfg p t, false)

/-- the loop over the elements, 8366-8409: `i` is the number of the element, `ne` the number of those with errors -/
def elems (p : List Nat) (u : Ty) (total i ne : Nat) : List (Ini E) → List Msg × Bool
  | [] => ([], false)
  | v :: vs =>
    if total = 1 ∧ isStringIni cfg v = true ∧ isChar cfg u = true then elems p u total (i + 1) ne vs
    else
      let r := check (p ++ [i]) u v
      if r.2 = true then
        if ne + 1 > 3 ∧ total > 6 then (r.1 ++ [(p, .additional)], true)
        else
          let s := elems p u total (i + 1) (ne + 1) vs
          (r.1 ++ s.1, true)
      else
        let s := elems p u total (i + 1) ne vs
        (r.1 ++ s.1, s.2)

/-- the loop over the fields, 8449-8469 -/
def fields (p : List Nat) (i : Nat) : List Ty → List (Ini E) → List Msg × Bool
  | f :: fs, v :: vs =>
    let r := check (p ++ [i]) f v
    let s := fields p (i + 1) fs vs
    (r.1 ++ s.1, r.2 || s.2)
  | _, _ => ([], false)
end

end Splint.Init
