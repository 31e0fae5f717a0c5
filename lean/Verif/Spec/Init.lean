import Verif.Model.Init
/-!
# What initializers with braces say

ISO C 6.7.8, for initializers all of whose braces are written: the parts of an initializer and the types of what
they initialize, and what may be wrong with a part.
-/
namespace Splint.Init.Spec

variable {E : Type} (cfg : Cfg E)

/-- The type may be one of characters. -/
def IsChar (u : Ty) : Prop := u = .unknown ∨ ∃ k, u = .scalar k ∧ cfg.charScalar k = true

/-- A string in braces for an array of characters (6.7.8, 14) -/
def Whole (u : Ty) (vs : List (Ini E)) : Prop := IsChar cfg u ∧ ∃ e, vs = [.expr e] ∧ cfg.isString e = true

/-- Neither a struct nor a union nor an array -/
def Single (t : Ty) : Prop := t = .unknown ∨ (∃ k, t = .scalar k) ∨ ∃ u, t = .ptr u

/-- `At t v p u w`: `w` is the part of `v` found by the positions `p`, and `u` is the type of what it initializes,
if `v` initializes a `t`. -/
inductive At : Ty → Ini E → List Nat → Ty → Ini E → Prop
  | here {t v} : At t v [] t v
  | elem {t u vs i v p w z} : t = .arr u ∨ (∃ n, t = .farr u n) → ¬ Whole cfg u vs → vs[i]? = some v →
      At u v p w z → At t (.block vs) (i :: p) w z
  | field {fs f vs i v p w z} : fs[i]? = some f → vs[i]? = some v → At f v p w z →
      At (.struct fs) (.block vs) (i :: p) w z
  | member {f fs v vs p w z} : At f v p w z → At (.union (f :: fs)) (.block (v :: vs)) (0 :: p) w z
  /-- 6.7.8, 11: braces around the value of something single -/
  | single {t e} : Single t → At t (.block [.expr e]) [0] t (.expr e)

/-- What is wrong with a part itself -/
inductive Fault : Ty → Ini E → Kind → Prop
  | imptype {v} : Fault .unknown v .imptype
  | mismatch {t e} : t ≠ .unknown → cfg.ok t e = false → Fault t (.expr e) .mismatch
  | mismatchInt {e} : cfg.ok (.scalar 0) e = false → Fault .unknown (.expr e) .mismatch
  | tooLarge {u n vs} : ¬ Whole cfg u vs → n < vs.length → Fault (.farr u n) (.block vs) .tooLarge
  | tooSmall {u n vs} : ¬ Whole cfg u vs → vs.length < n → Fault (.farr u n) (.block vs) .tooSmall
  | fewFields {fs vs} : vs.length < fs.length → Fault (.struct fs) (.block vs) .fewFields
  | manyFields {fs vs} : fs.length < vs.length → Fault (.struct fs) (.block vs) .manyFields
  | union {fs vs} : vs.length ≠ 1 → Fault (.union fs) (.block vs) .union
  | block {t vs} : Single t → (∀ e, vs ≠ [.expr e]) → Fault t (.block vs) .block

/-- Parts that are valid, and that are not treated as they should be: braces around a value that is not of a struct,
union or array, and a string in braces for an array of a given size. -/
def Odd (t : Ty) (v : Ini E) : Prop :=
  ∃ vs, v = .block vs ∧
    ((∃ u, t = .ptr u) ∨ (Single t ∧ ∃ e, vs = [.expr e]) ∨ ∃ u n, t = .farr u n ∧ Whole cfg u vs)

/-- Every struct is given a value for each field, every union one value. -/
def Complete (t : Ty) (v : Ini E) : Prop :=
  ∀ vs, v = .block vs → (∀ fs, t = .struct fs → fs.length = vs.length) ∧ (∀ fs, t = .union fs → vs.length = 1)

end Splint.Init.Spec
