import Verif.Model.MetaState
import Verif.Spec.StateTable
/-!
What the clauses of the declaration of a state say about transfers, lost references and merges, and what
should become of the states.
-/
namespace Splint.MetaState

open States

/-- the declaration of a state -/
structure Decl where
  vals : List String
  transfers : List Transfer
  loses : List Lose
  merges : List Merge

abbrev Decls := String → Option Decl

/-- using state `i` as state `j`: what the last clause says; if there is none, nothing changes -/
def Decl.transfer (d : Decl) (i j : Int) : Int :=
  (((transfersFor d.vals i.toNat j.toNat d.transfers).getLast?).getD ⟨i, none⟩).value

/-- is losing a reference in state `i` an error with a message? -/
def Decl.losing (d : Decl) (i : Int) : Bool :=
  match (losesFor d.vals i.toNat d.loses).getLast? with
  | some (some _) => true
  | _ => false

/-- states `i` and `j` are merged -/
def Decl.merge (d : Decl) (i j : Int) : Int := (mergeSpec d.vals i.toNat j.toNat d.merges).value

/-- the declarations have been read -/
def Read (decls : Decls) (infos : Infos) : Prop :=
  ∀ k d, decls k = some d → ∃ info, infos k = some info ∧
    transferTable d.vals d.transfers d.loses = some info.transfer ∧
    mergeTable d.vals d.merges = some info.merge ∧
    ∀ c ∈ d.merges, c.action ≠ .error (some "Incompatible state merge (default behavior)")

/-- the value of a reference; -1 for one after an error -/
def value (s : Refs) (r : Nat) (k : String) : Option Int := (look s r k).map (·.v)

/-- the value is -1, or one of the declared values -/
def IsValue (d : Decl) (v : Int) : Prop := v = -1 ∨ (0 ≤ v ∧ v < d.vals.length)

/-- all values are declared -/
def Valid (decls : Decls) (s : Refs) : Prop :=
  ∀ r k v, value s r k = some v → ∃ d, decls k = some d ∧ IsValue d v

/-- no name is twice in a table -/
def Simple (s : Refs) : Prop := ∀ r t, s r = some t → t.keys.Nodup

/-! ### Transfers -/

/-- the transfer of `f` to `t` is wrong -/
def Wrong (d : Decl) (f t : Int) : Prop := f ≠ -1 ∧ t ≠ -1 ∧ d.transfer f t = -1

instance (d : Decl) (f t : Int) : Decidable (Wrong d f t) := by unfold Wrong; infer_instance

/-- what becomes of the source of a transfer that is not an assignment to a local variable -/
def sourceAfter (d : Decl) (returned : Bool) (f t : Int) : Int :=
  if f = -1 ∨ t = -1 ∨ d.transfer f t = -1 then f
  else if returned then -1
  else d.transfer f t

/-- what becomes of storage that is left behind in state `f` where `t` is expected -/
def leftAfter (d : Decl) (f t : Int) : Int := if f = -1 ∨ t = -1 then f else d.transfer f t

/-! ### Merges -/

/-- what becomes of a reference that is `r` in one branch and `o` in the other -/
def mergeAfter (d : Decl) (c : Ctx) (r o : Int) : Int :=
  if o = -1 ∨ c.resNull = true then o
  else if r = -1 ∨ c.otherNull = true ∨ c.gone = true then r
  else d.merge o r

/-- the branches cannot be merged -/
def Conflict (d : Decl) (c : Ctx) (r o : Int) : Prop :=
  o ≠ -1 ∧ r ≠ -1 ∧ c.resNull = false ∧ c.otherNull = false ∧ c.gone = false ∧ d.merge o r = -1

instance (d : Decl) (c : Ctx) (r o : Int) : Decidable (Conflict d c r o) := by unfold Conflict; infer_instance

/-- `v` merged with further values, up to the first error -/
def folded (d : Decl) (v : Int) : List Int → Int
  | [] => v
  | w :: ws => if v = -1 then -1 else folded d (d.merge v w) ws

/-! ### Sequences of checks -/

inductive Op
  | transfer (kind : Kind) (lcl : Bool) (f t loc : Nat)
  | left (kind : Kind) (null : Bool) (f t loc : Nat)
  | lost (null undef : Bool) (r loc : Nat)

def Op.run (infos : Infos) : Op → St → Option St
  | .transfer kind lcl f t loc, s => MetaState.transfer infos kind lcl f t loc s
  | .left kind null f t loc, s => consistent infos kind null f t loc s
  | .lost null undef r loc, s => lose infos null undef r loc s

/-- one check after the other -/
def runs (infos : Infos) (ops : List Op) (s : St) : Option St := ops.foldlM (fun s op => op.run infos s) s

/-- `r` is a local variable that is assigned to -/
def Op.assigns (r : Nat) : Op → Prop
  | .transfer kind lcl _ t _ => kind = .doAssign ∧ lcl = true ∧ t = r
  | _ => False

/-- the reports about a state of a reference -/
def about (r : Nat) (k : String) (l : List Report) : List Report := l.filter fun x => x.ref = r ∧ x.key = k

end Splint.MetaState
