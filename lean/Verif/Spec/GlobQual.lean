import Verif.Model.GlobQual
/-!
# What the qualifiers of a global in a list mean
-/
namespace Splint.GlobQualSpec
open Splint.GlobQual

/-- The global is taken to be undefined when the function is called. -/
def Undef (s : SState) : Prop := s = .undefGlob ∨ s = .undefKilled

/-- It is taken to be released by the function. -/
def Killed (s : SState) : Prop := s = .killed ∨ s = .undefKilled

/-- How many qualifiers at the front are `undef` and `killed` by turns. -/
def turns : List Qual → Nat
  | .undef :: .killed :: qs => turns (.killed :: qs) + 1
  | .killed :: .undef :: qs => turns (.undef :: qs) + 1
  | .undef :: _ | .killed :: _ => 1
  | _ => 0

/-- The state that a qualifier by itself stands for: storage for `out` is allocated and not defined, for `in` it is
defined. -/
inductive Means : Qual → SState → Prop where
  | undef : Means .undef .undefGlob
  | killed : Means .killed .killed
  | out : Means .out .allocated
  | inn : Means .inn .defined
  | part : Means .part .part

end Splint.GlobQualSpec
