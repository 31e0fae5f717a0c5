import Verif.Model.StateClause
/-!
# What state clauses say
-/
namespace Splint.StateClause

/-- the storage is as the qualifier says -/
def Stated : Qual → St → Prop
  | .owned, s => s.al = .owned
  | .dependent, s => s.al = .dependent ∨ s.al = .impdependent
  | .temp, s => s.al = .temp
  | .only, s => s.al = .only ∨ s.al = .imponly
  | .keep, s => s.al = .keep
  | .kept, s => s.al = .kept
  | .shared, s => s.al = .shared
  | .unique, s => s.al = .unique
  | .null, s => s.nul = .posnull
  | .isnull, s => s.nul = .defnull ∨ s.nul = .constnull
  | .relnull, s => s.nul = .relnull
  | .notnull, s => s.nul = .notnull ∨ s.nul = .mnotnull
  | .exposed, s => s.ex = .exposed
  | .observer, s => s.ex = .observer
  | .user k v, s => s.user k = -1 ∨ s.user k = v
  | .yield, _ => False
  | .nullterminated, _ => False

/-- the storage can be read -/
def Readable (s : St) : Prop :=
  s.df ≠ .unuseable ∧ s.df ≠ .undefined ∧ s.df ≠ .mundefined ∧ s.df ≠ .dead ∧ s.df ≠ .undefglob ∧ s.df ≠ .undefkilled ∧
    (s.df = .hoffa → s.strict = false)

/-- what must hold before a call -/
def Pre : Clause → St → Prop
  | .plain .uses _, s => Readable s
  | .plain .allocates _, s => Readable s → s.sharable = true → s.nul = .defnull ∨ s.nul = .constnull
  | .plain .defines _, s => Readable s → s.sharable = true → s.nul = .defnull ∨ s.nul = .constnull
  | .plain .sets _, s => s.df ≠ .undefined ∧ s.df ≠ .unuseable ∧ s.df ≠ .dead
  | .plain .releases _, s => s.df ≠ .undefined ∧ s.df ≠ .unuseable ∧ s.df ≠ .dead
  | .before q _, s => Stated q s
  | .after _ _, _ => True

/-- what must hold after it -/
def Post : Clause → St → Prop
  | .plain .uses _, _ => True
  | .plain .allocates _, s => s.df = .allocated
  | .plain .defines _, s => s.df = .defined ∨ s.df = .reldef ∨ s.df = .part ∨ ((s.df = .allocated ∨ s.df = .pdefined) ∧ s.parts = true)
  | .plain .sets _, s => s.df = .defined ∨ s.df = .reldef ∨ s.df = .part ∨ ((s.df = .allocated ∨ s.df = .pdefined) ∧ s.parts = true)
  | .plain .releases _, s =>
    s.df = .dead ∨ s.df = .unuseable ∨ s.df = .undefined ∨ s.df = .unknown ∨ s.nul = .defnull ∨ s.nul = .constnull
  | .before _ _, _ => True
  | .after q _, s => Stated q s

/-- The references of clauses are sets, and the parameters in them are those of the `n` arguments. -/
def Proper (n : Nat) (cs : List Clause) : Prop :=
  ∀ c ∈ cs, c.refs.Nodup ∧ ∀ r ∈ c.refs, ∀ i, r.base = .param i → i < n

/-- the state that earlier clauses leave -/
def plainEffect : Plain → St → St
  | .uses, s => s
  | .allocates, s => { s with df := .allocated, parts := false }
  | .defines, s => { s with df := .defined }
  | .sets, s => { s with df := .defined }
  | .releases, s => if s.al = .shared then s else { s with df := .dead, al := s.oal, parts := false }

def Effects (r : Ref) : List Clause → St → St
  | [], s => s
  | .plain k rs :: cs, s => Effects r cs (if r ∈ rs then plainEffect k s else s)
  | _ :: cs, s => Effects r cs s

/-- the state that `ensures only` clauses leave the returned expression in -/
def Given (r : Ref) : List Clause → St → St
  | [], s => s
  | .after .only rs :: cs, s =>
    Given r cs (if r ∈ rs then (if s.al = .shared then s else { s with df := .dead, al := s.oal, parts := false }) else s)
  | _ :: cs, s => Given r cs s

/-- the clause states what happens to the definition of the reference -/
def Touches (c : Clause) (r : Ref) : Prop := ∃ k rs, c = .plain k rs ∧ k ≠ .uses ∧ r ∈ rs

/-- C151 in full: a call reports exactly the arguments that are not as they must be. -/
def C151_full : Prop :=
  ∀ n cs σ σ' l, Proper n cs → call n cs σ = some (σ', l) →
    ∀ j r, (j, r) ∈ l ↔ ∃ c, cs[j]? = some c ∧ c.isBefore = true ∧ r ∈ c.refs ∧ r.isParam = true ∧ ¬ Pre c (σ r)

/-- C152 in full: so does a return, for parameters and the returned expression. -/
def C152_full : Prop :=
  ∀ n cs σ σ' l l', Proper n cs → giveBack 0 cs σ = some (σ', l) → leave 0 cs σ' = some l' →
    ∀ j r, (j, r) ∈ l ++ l' ↔ ∃ c, cs[j]? = some c ∧ c.isAfter = true ∧ r ∈ c.refs ∧ ¬ Post c (σ r)

/-- C153 in full: what is assumed at the entry is what is checked at a call, and what is assumed after the call is what is checked at
a return. -/
def C153_full : Prop :=
  (∀ n cs σ σ', Proper n cs → enter cs σ = some σ' → ∀ c ∈ cs, ∀ r ∈ c.refs, c.isBefore = true → r.isParam = true → Pre c (σ' r)) ∧
  (∀ n cs σ σ' l, Proper n cs → call n cs σ = some (σ', l) → ∀ c ∈ cs, ∀ r ∈ c.refs, c.isAfter = true → r.isParam = true → Post c (σ' r))

/-- C154 in full: every function with clauses can be checked and called. -/
def C154_full : Prop :=
  ∀ n cs σ, Proper n cs → (enter cs σ).isSome ∧ (leave 0 cs σ).isSome ∧ (giveBack 0 cs σ).isSome ∧ (call n cs σ).isSome

/-- qualifiers with a test -/
def Testable (q : Qual) : Prop :=
  q = .only ∨ q = .shared ∨ q = .dependent ∨ q = .owned ∨ q = .observer ∨ q = .exposed ∨ q = .notnull ∨ q = .isnull

def IsUser (q : Qual) : Prop := ∃ k v, q = .user k v

def Settable (q : Qual) : Prop := q ≠ .yield ∧ q ≠ .nullterminated ∧ ¬ IsUser q

end Splint.StateClause
