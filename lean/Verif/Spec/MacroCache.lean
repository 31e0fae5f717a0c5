import Verif.Model.MacroCache
import Verif.Spec.MessageLog
/-!
# What is to be checked

Registrations are kept in full, in the order they came; what has been checked is a list of places.
-/
namespace Splint.MacroCache
open Spec (place)

structure Reg where
  fl : FileLoc
  text : String
  comment : Bool

/-- The first registration of each place, in order. -/
def firsts (seen : List (Option (Int × Int × Int))) : List Reg → List Reg
  | [] => []
  | r :: rs => if place r.fl ∈ seen then firsts seen rs else r :: firsts (place r.fl :: seen) rs

/-- The last text registered for the place, or `t`. -/
def latest (fl : FileLoc) (t : String) : List Reg → String
  | [] => t
  | r :: rs => if place r.fl = place fl then latest fl r.text rs else latest fl t rs

/-- What is due: the places that are wanted and have not been checked, in the order of their first
registration, with the last text and the kind of the first registration. -/
def due (want : FileLoc → Bool) (regs : List Reg) (done : List (Option (Int × Int × Int))) : List Checked :=
  ((firsts [] regs).filter fun r => decide (place r.fl ∉ done) && want r.fl).map fun r =>
    ⟨r.fl, latest r.fl r.text regs, r.comment⟩

/-- What is checked in a history. -/
def ideal (S : Sys) (regs : List Reg) (done : List (Option (Int × Int × Int))) : List Ev → List Checked
  | [] => []
  | .add fl t c :: es => ideal S (regs ++ [⟨fl, t, c⟩]) done es
  | .file b :: es =>
    let now := due (fun fl => S.base fl == b) regs done
    now ++ ideal S regs (done ++ now.map (fun x => place x.fl)) es
  | .all :: es =>
    let now := if S.partial_ then [] else due (fun _ => true) regs done
    now ++ ideal S regs (done ++ now.map (fun x => place x.fl)) es

/-- The registrations of a history. -/
def regsOf : List Ev → List Reg
  | [] => []
  | .add fl t c :: es => ⟨fl, t, c⟩ :: regsOf es
  | _ :: es => regsOf es

/-- The text last registered for a place. -/
def lastText (pl : Option (Int × Int × Int)) (regs : List Reg) : Option String :=
  ((regs.filter fun r => place r.fl = pl).getLast?).map (·.text)

end Splint.MacroCache
