/-!
# The type of a declarator

Model of the grammar actions for declarators (src/cgrammar.y:382-463 for named ones, 465-530 for plain ones,
1585-1589, 1666-1699 for abstract ones, 1647), `idDecl_fixBase`, `idDecl_fixParamBase`, `idDecl_expectFunction`,
`idDecl_notExpectingFunction` (src/idDecl.c:183-245), `ctype_makeInnerFixedArray`, `ctype_makeInnerArray`,
`ctype_expectFunction`, `ctype_dontExpectFunction`, `ctype_adjustPointers`, `ctype_getBaseType`
(src/ctype.c:372-428, 730-754, 2011-2096) and `ctbase_makeFunction`, `ctbase_baseisExpFcn`, `ctbase_newBase`,
`ctbase_newBaseExpFcn` (src/ctbase.i:1801-1840, 2084-2380).

Types are terms; a type that the table of types already has is not distinguished from a new one. Parameter lists and
the types that declarators start from are numbers; types with alternatives are left out, and so are qualifiers,
clauses and arrays whose size is an expression without a known value. The result is none where an internal error is
reported.
-/
namespace Splint
namespace Declarator

/-- The types while a declarator is read. -/
inductive CT where
  /-- `ctype_unknown` -/
  | unknown
  /-- a type that is no pointer, array or function -/
  | base (t : Nat)
  | ptr (c : CT)
  /-- `CT_ARRAY` -/
  | arr (c : CT)
  /-- `CT_FIXEDARRAY` -/
  | farr (c : CT) (k : Nat)
  | fcn (r : CT) (ps : Nat)
  /-- `CT_EXPFCN`: what is in parentheses -/
  | exp (c : CT)
deriving DecidableEq, Repr

/-- `ctype_makePointer`, several times -/
def ptrs : Nat → CT → CT
  | 0, c => c
  | n + 1, c => .ptr (ptrs n c)

/-- `ctype_isAP` -/
def isAP : CT → Bool
  | .ptr _ | .arr _ | .farr _ _ => true
  | _ => false

/-- `ctype_isFunction`; the result type and the parameters -/
def asFunction : CT → Option (CT × Nat)
  | .fcn r ps => some (r, ps)
  | .ptr (.fcn r ps) => some (r, ps)
  | _ => none

/-- `ctype_removePointers`, and `ctype_getBaseType` -/
def strip : CT → CT
  | .ptr c | .arr c | .farr c _ => strip c
  | c => c

/-- `ctype_makeInnerFixedArray` -/
def innerFixed : CT → Nat → CT
  | .farr b o, k => .farr (innerFixed b k) o
  | .arr b, k => .arr (innerFixed b k)
  | c, k => .farr c k

/-- `ctype_makeInnerArray` -/
def innerArr : CT → CT
  | .farr b o => .farr (innerArr b) o
  | .arr b => .arr (innerArr b)
  | c => .arr c

/-- `ctype_expectFunction` -/
def expect (c : CT) : CT := if isAP c then .exp c else .exp (.ptr c)

/-- `idDecl_notExpectingFunction` -/
def notExpecting : CT → CT
  | .exp c => c
  | c => c

/-- `ctbase_makeFunction` -/
def makeFunction : CT → Nat → CT
  | .fcn r q, ps => .fcn (makeFunction r ps) q
  | .ptr (.fcn r q), ps => .fcn (makeFunction r ps) q
  | c, ps => .fcn c ps

/-- `ctbase_baseisExpFcn` -/
def baseIsExp (c : CT) : Bool :=
  match strip c with
  | .fcn r _ => match strip r with
    | .exp _ => true
    | _ => false
  | _ => false

/-- The first loop of `ctbase_newBaseExpFcn`: the type `fp`, and the parameters `ctargs`. -/
def fpLoop : CT → CT → Nat → Option (CT × Nat)
  | .unknown, fp, a => some (fp, a)
  | .exp .unknown, _, _ => none
  | .exp (.exp _), _, _ => none
  | .exp d, fp, a => fpLoop d fp a
  | .ptr c, fp, a => fpLoop c (.ptr fp) a
  | .arr c, fp, a => fpLoop c (.arr fp) a
  | .farr c _, fp, a => fpLoop c (.arr fp) a
  | .fcn _ q, fp, a => some (makeFunction fp a, q)
  | .base _, _, _ => none

/-- The second loop: the pointers to the value. -/
def valueLoop : CT → CT → Option CT
  | .exp _, p => some p
  | .ptr c, p => valueLoop c (.ptr p)
  | .arr c, p => valueLoop c (.arr p)
  | .farr c _, p => valueLoop c (.arr p)
  | .fcn _ q, p => some (makeFunction p q)
  | _, _ => none

/-- The third loop. -/
def resultLoop : CT → CT → CT
  | .ptr c, ret => resultLoop c (.ptr ret)
  | .arr c, ret => resultLoop c (.arr ret)
  | .farr c _, ret => resultLoop c (.arr ret)
  | .fcn _ q, ret => makeFunction ret q
  | _, ret => ret

/-- `ctbase_newBaseExpFcn` -/
def newBaseExp (c p : CT) : Option CT :=
  match asFunction c with
  | none => none
  | some (r, a) =>
    match strip r with
    | .exp d =>
      match fpLoop d .unknown a, valueLoop r p with
      | some (fp, a'), some p' => some (resultLoop fp (.fcn p' a'))
      | _, _ => none
    | _ => none

/-- `ctbase_newBase` -/
def newBase : CT → CT → Option CT
  | .unknown, p => some p
  | .base _, p => some p
  | .exp _, p => some p
  | .ptr c, p => if baseIsExp (.ptr c) then newBaseExp (.ptr c) p else (newBase c p).map .ptr
  | .arr c, p => if baseIsExp (.arr c) then newBaseExp (.arr c) p else (newBase c p).map .arr
  | .farr c k, p => if baseIsExp (.farr c k) then newBaseExp (.farr c k) p else (newBase c p).map fun b => .farr b k
  | .fcn r q, p => if baseIsExp (.fcn r q) then newBaseExp (.fcn r q) p else (newBase r p).map fun b => .fcn b q

/-- `ctype_adjustPointers` -/
def adjust (n : Nat) : CT → Option CT
  | .fcn r q => (adjust n r).map fun b => makeFunction b q
  | .ptr (.fcn r q) => (adjust n r).map fun b => makeFunction b q
  | c => newBase c (ptrs n (strip c))

/-- Declarators. -/
inductive Dcl where
  /-- the name, or nothing in an abstract declarator -/
  | id
  /-- `( *...* d )` with `n` stars -/
  | paren (n : Nat) (d : Dcl)
  /-- `d []` -/
  | arr (d : Dcl)
  /-- `d [k]` -/
  | farr (d : Dcl) (k : Nat)
  /-- `d (ps)` -/
  | fcn (d : Dcl) (ps : Nat)
deriving DecidableEq, Repr

/-- the rule `pointers namedDeclBase`, which is not used without pointers -/
def starred (n : Nat) (c : CT) : Option CT := if n = 0 then some c else adjust n c

/-- `named` tells the rules for named declarators from those for plain and abstract ones. -/
def readD (named : Bool) : Dcl → Option CT
  | .id => some .unknown
  | .paren n d =>
    match readD named d with
    | none => none
    | some c => (starred n c).map expect
  | .arr d => (readD named d).map innerArr
  | .farr d k => (readD named d).map fun c => innerFixed (if named then notExpecting c else c) k
  | .fcn d ps => (readD named d).map fun c => makeFunction c ps

/-- The type of what is declared by `T *...* d`, with `n` stars. -/
def declared (named : Bool) (n : Nat) (d : Dcl) (t : CT) : Option CT :=
  match readD named d with
  | none => none
  | some c =>
    match starred n c with
    | none => none
    | some c' => newBase c' t

/-- `idDecl_fixParamBase` -/
def param (n : Nat) (d : Dcl) (t : CT) : Option CT :=
  (declared true n d t).map fun c =>
    match c with
    | .fcn r q => .ptr (.fcn r q)
    | c => c

end Declarator
end Splint
