/-!
# Three-valued answers

Model of the type in src/Headers/ynm.h:9.
-/
namespace Splint

/-- `ynm`. -/
inductive Ynm where
  | no | yes | maybe
deriving DecidableEq, Repr

end Splint
