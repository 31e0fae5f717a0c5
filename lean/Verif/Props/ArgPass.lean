import Verif.Spec.ArgPass
/-!
# C140, C141: the arguments of a call
-/
namespace Splint
namespace ArgPass

def typeReport (as : List Arg) (i : Nat) : Option Event :=
  match as[i]? with
  | some (.expr false false _) => some (.type i)
  | some (.expr false true _) => some (.abstVoid i)
  | _ => none

/-- the node after the arguments before `...` -/
def typed (as : List Arg) (i k : Nat) (n : Node) : Node := ⟨n.events ++ (List.range' i k).filterMap (typeReport as), n.sets⟩

theorem typed_succ (as : List Arg) (i k : Nat) (n : Node) (a : Arg) (h : as[i]? = some a) :
    typed as i (k + 1) n = typed as (i + 1) k (checkType i a n) := by
  unfold typed
  rw [List.range'_succ, List.filterMap_cons]
  cases a with
  | bad => simp [typeReport, h, checkType]
  | expr f b s => cases f <;> cases b <;> simp [typeReport, h, checkType, Node.event]

theorem typed_none (as : List Arg) (i k : Nat) (n : Node) (h : as.length ≤ i) : typed as i k n = n := by
  unfold typed
  have : (List.range' i k).filterMap (typeReport as) = [] := by
    rw [List.filterMap_eq_nil_iff]
    intro j hj
    have hj := List.mem_range'_1.1 hj
    simp only [typeReport]
    rw [List.getElem?_eq_none (by omega)]
  simp [this]

theorem argsLoop_eq (sp : Special) (np : Nat) (conv : Option (List Nat)) (as : List Arg) (d : Bool) (fs : List Param)
    (hp : ∀ p ∈ fs, p.elips = false) (i : Nat) (hi : i ≤ as.length) (n : Node) :
    argsLoop sp np conv as i (fs ++ if d then [⟨true, false⟩] else []) n =
      if d = true ∧ i + fs.length ≤ as.length then
        if sp = .none then some (typed as i fs.length n, 0, true)
        else (checkFormat sp np conv as (i + fs.length) (typed as i fs.length n)).map fun n => (n, i + fs.length, true)
      else some (typed as i fs.length n, 0, false) := by
  induction fs generalizing i n with
  | nil =>
    have ht : typed as i 0 n = n := by simp [typed]
    cases d
    · simp [argsLoop, ht]
    · simp [argsLoop, ht, hi]
  | cons p fs ih =>
    have hpe := hp p (by simp)
    have hps : ∀ q ∈ fs, q.elips = false := fun q hq => hp q (by simp [hq])
    rw [List.cons_append, argsLoop, hpe]
    simp only [Bool.false_eq_true, if_false, List.length_cons]
    cases ha : as[i]? with
    | none =>
      have := List.getElem?_eq_none_iff.1 ha
      have hneg : ¬ (d = true ∧ i + (fs.length + 1) ≤ as.length) := by rintro ⟨_, h⟩; omega
      rw [typed_none as i _ n this, if_neg hneg]
    | some a =>
      have hlt : i < as.length := (List.getElem?_eq_some_iff.1 ha).1
      dsimp only
      rw [ih hps (i + 1) hlt, typed_succ as i _ n a ha]
      have : i + 1 + fs.length = i + (fs.length + 1) := by omega
      rw [this]

/-- what the conversions of the format do -/
theorem convs_eq (as : List Arg) (l : List Nat) (n : Node) :
    convs as l n = ⟨n.events ++ l.filterMap (fun i => match (as[i]? : Option Arg) with
        | some (.expr _ _ _) => some (.pass i .conversion) | _ => none),
      n.sets ++ l.flatMap (fun i => match (as[i]? : Option Arg) with | some (.expr _ _ s) => s | _ => [])⟩ := by
  unfold convs
  induction l generalizing n with
  | nil => simp
  | cons i l ih =>
    rw [List.foldl_cons, ih]
    cases h : as[i]? with
    | none => simp [h]
    | some a => cases a <;> simp [h, oneArg, Node.event, Node.merge]

theorem anyStep_add (params : Params) (sp : Nat) (n : Node) (a : Arg) (i : Nat) :
    anyStep params sp n a i = ⟨n.events ++ (anyStep params sp ⟨[], []⟩ a i).events,
      n.sets ++ (anyStep params sp ⟨[], []⟩ a i).sets⟩ := by
  unfold anyStep
  cases a with
  | bad => simp
  | expr f b s =>
    cases current params i with
    | none => dsimp only; split_ifs <;> simp [Node.event, Node.merge]
    | some p => dsimp only; split_ifs <;> simp [Node.event, Node.merge, oneArg]

theorem anyLoop_events (params : Params) (sp i : Nat) (as : List Arg) (n : Node) (e : Event) :
    e ∈ (anyLoop params sp i as n).events ↔ e ∈ n.events ∨
      ∃ j a, as[j]? = some a ∧ e ∈ (anyStep params sp ⟨[], []⟩ a (i + j)).events := by
  induction as generalizing i n with
  | nil => simp [anyLoop]
  | cons a as ih =>
    rw [anyLoop, ih, anyStep_add]
    simp only [List.mem_append]
    constructor
    · rintro ((h | h) | ⟨j, b, hj, hb⟩)
      · exact Or.inl h
      · exact Or.inr ⟨0, a, rfl, h⟩
      · exact Or.inr ⟨j + 1, b, by simpa using hj, by rwa [show i + (j + 1) = i + 1 + j by omega]⟩
    · rintro (h | ⟨j, b, hj, hb⟩)
      · exact Or.inl (Or.inl h)
      · cases j with
        | zero =>
          simp only [List.getElem?_cons_zero, Option.some.injEq] at hj
          subst hj; exact Or.inl (Or.inr hb)
        | succ j => exact Or.inr ⟨j, b, by simpa using hj, by rwa [show i + 1 + j = i + (j + 1) by omega]⟩

theorem anyLoop_sets (params : Params) (sp i : Nat) (as : List Arg) (n : Node) (x : Nat) :
    x ∈ (anyLoop params sp i as n).sets ↔ x ∈ n.sets ∨
      ∃ j a, as[j]? = some a ∧ x ∈ (anyStep params sp ⟨[], []⟩ a (i + j)).sets := by
  induction as generalizing i n with
  | nil => simp [anyLoop]
  | cons a as ih =>
    rw [anyLoop, ih, anyStep_add]
    simp only [List.mem_append]
    constructor
    · rintro ((h | h) | ⟨j, b, hj, hb⟩)
      · exact Or.inl h
      · exact Or.inr ⟨0, a, rfl, h⟩
      · exact Or.inr ⟨j + 1, b, by simpa using hj, by rwa [show i + (j + 1) = i + 1 + j by omega]⟩
    · rintro (h | ⟨j, b, hj, hb⟩)
      · exact Or.inl (Or.inl h)
      · cases j with
        | zero =>
          simp only [List.getElem?_cons_zero, Option.some.injEq] at hj
          subst hj; exact Or.inl (Or.inr hb)
        | succ j => exact Or.inr ⟨j, b, by simpa using hj, by rwa [show i + 1 + j = i + (j + 1) by omega]⟩

/-! ### The node after `checkArgs` -/

/-- is there a format? -/
def Reached (sp : Special) (d : Bool) (fs : List Param) (as : List Arg) : Prop :=
  sp ≠ .none ∧ d = true ∧ fs.length ≤ as.length

instance (sp : Special) (d : Bool) (fs : List Param) (as : List Arg) : Decidable (Reached sp d fs as) :=
  inferInstanceAs (Decidable (_ ∧ _))

def formatNode (sp : Special) (conv : Option (List Nat)) (as : List Arg) (k : Nat) (n : Node) : Node :=
  match conv with
  | some l => convs as l n
  | none => if sp = .printf ∧ as[k - 1]? ≠ some .bad then n.event .formatConst else n

def countNode (d : Bool) (k m : Nat) (n : Node) : Node :=
  if d then (if m < k then n.event (.leastCount m k) else n)
  else (if m ≠ k then n.event (.count m k) else n)

theorem checkArgs_eq {sp : Special} {conv : Option (List Nat)} {fs : List Param} {d : Bool} {as : List Arg} (n : Node)
    (hp : ∀ p ∈ fs, p.elips = false) (hs : fs ≠ [] ∨ d = true) (hf : sp ≠ .none → d = true ∧ fs ≠ []) :
    checkArgs sp conv (declared fs d) as n =
      some (countNode d fs.length as.length
        (if Reached sp d fs as then formatNode sp conv as fs.length (typed as 0 fs.length n) else typed as 0 fs.length n),
        if Reached sp d fs as then fs.length else 0) := by
  simp only [declared, checkArgs]
  rw [argsLoop_eq sp _ conv as d fs hp 0 (Nat.zero_le _) n, Nat.zero_add]
  cases d with
  | false =>
    have hr : ¬ Reached sp false fs as := by rintro ⟨_, h, _⟩; cases h
    rw [if_neg hr, if_neg hr]
    simp only [Bool.false_eq_true, false_and, if_false, Option.bind_some, List.append_nil]
    have hne : fs ≠ [] := by rcases hs with h | h; exact h; cases h
    rw [List.getLast?_eq_some_getLast hne]
    have hlast := hp _ (List.getLast_mem hne)
    dsimp only
    rw [hlast]
    simp only [countNode, Bool.false_eq_true, if_false]
    by_cases h : fs.length = as.length
    · rw [if_neg (by simpa using h), if_neg (by simpa using h.symm)]
    · rw [if_pos h, if_pos (Ne.symm h)]
  | true =>
    simp only [true_and, if_true, List.getLast?_concat, List.length_append, List.length_cons, List.length_nil]
    by_cases hl : fs.length ≤ as.length
    · rw [if_pos hl]
      have hcount : ∀ n, countNode true fs.length as.length n = n := by
        intro n; simp [countNode]; omega
      by_cases hsp : sp = .none
      · have hr : ¬ Reached sp true fs as := fun h => h.1 hsp
        rw [if_neg hr, if_neg hr, if_pos hsp]
        simp [hcount]
      · have hr : Reached sp true fs as := ⟨hsp, rfl, hl⟩
        rw [if_pos hr, if_pos hr, if_neg hsp]
        have hne := (hf hsp).2
        have hpos : 0 < fs.length := List.length_pos_iff.2 hne
        have hlt : fs.length - 1 < as.length := by omega
        have hfmt : checkFormat sp (fs.length + (0 + 1)) conv as fs.length (typed as 0 fs.length n) =
            some (formatNode sp conv as fs.length (typed as 0 fs.length n)) := by
          unfold checkFormat formatNode
          rw [if_neg (by omega), if_neg (by omega), List.getElem?_eq_getElem hlt]
          cases conv <;> simp
        rw [hfmt]
        simp [hcount]
    · rw [if_neg hl]
      have hr : ¬ Reached sp true fs as := fun h => hl h.2.2
      rw [if_neg hr, if_neg hr]
      have h1 : fs.length + (0 + 1) ≠ as.length := by omega
      have h2 : as.length < fs.length := by omega
      simp only [Option.bind_some, Bool.false_eq_true, if_false, if_pos h1, countNode, if_true, if_pos h2]
      simp

/-! ### One argument -/

def isExpr : Arg → Bool
  | .bad => false
  | .expr _ _ _ => true

def setsOf : Arg → List Nat
  | .bad => []
  | .expr _ _ s => s

theorem anyStep_events (params : Params) (sp : Nat) (a : Arg) (i : Nat) (e : Event) :
    e ∈ (anyStep params sp ⟨[], []⟩ a i).events ↔ isExpr a = true ∧
      ((e = .pass i (.param i) ∧ (current params i).isSome ∧ (sp = 0 ∨ i + 1 < sp)) ∨
       (e = .use i ∧ current params i = none ∧ sp = 0) ∨
       (e = .unique i ∧ (∃ p, current params i = some p ∧ p.unique = true) ∧ (sp = 0 ∨ i + 1 < sp))) := by
  unfold anyStep
  cases a with
  | bad => simp [isExpr]
  | expr f b s =>
    cases hc : current params i with
    | none => dsimp only; split_ifs with h <;> simp [Node.event, Node.merge, isExpr, h]
    | some p =>
      dsimp only
      split_ifs with h h2
      · simp [Node.event, Node.merge, oneArg, isExpr, h, h2]
      · simp [Node.event, Node.merge, oneArg, isExpr, h, h2]
      · simp [isExpr, h]

theorem anyStep_sets (params : Params) (sp : Nat) (a : Arg) (i : Nat) (x : Nat) :
    x ∈ (anyStep params sp ⟨[], []⟩ a i).sets ↔ x ∈ setsOf a ∧ (current params i = none ∨ sp = 0 ∨ i + 1 < sp) := by
  unfold anyStep
  cases a with
  | bad => simp [setsOf]
  | expr f b s =>
    cases hc : current params i with
    | none => dsimp only; split_ifs with h <;> simp [Node.event, Node.merge, setsOf]
    | some p =>
      dsimp only
      split_ifs with h h2
      · simp [Node.event, Node.merge, oneArg, setsOf, h]
      · simp [Node.event, Node.merge, oneArg, setsOf, h]
      · simp [setsOf, h]

theorem isArg_iff (c : Call) (i : Nat) : (∃ s, IsArg c i s) ↔ ∃ a, c.args[i]? = some a ∧ isExpr a = true := by
  constructor
  · rintro ⟨s, f, b, h⟩; exact ⟨_, h, rfl⟩
  · rintro ⟨a, h, ha⟩
    cases a with
    | bad => cases ha
    | expr f b s => exact ⟨s, f, b, h⟩

theorem setsOf_iff (c : Call) (x : Nat) (P : Nat → Prop) :
    (∃ i a, c.args[i]? = some a ∧ x ∈ setsOf a ∧ P i) ↔ ∃ i s, IsArg c i s ∧ x ∈ s ∧ P i := by
  constructor
  · rintro ⟨i, a, h, hx, hp⟩
    cases a with
    | bad => cases hx
    | expr f b s => exact ⟨i, s, ⟨f, b, h⟩, hx, hp⟩
  · rintro ⟨i, s, ⟨f, b, h⟩, hx, hp⟩
    exact ⟨i, _, h, hx, hp⟩

theorem current_declared (fs : List Param) (d : Bool) (i : Nat) :
    (current (declared fs d) i).isSome = true ↔ i < fs.length + (if d then 1 else 0) := by
  have : (fs ++ if d then [(⟨true, false⟩ : Param)] else []).length = fs.length + (if d then 1 else 0) := by
    cases d <;> simp
  simp only [current, declared]
  rw [Option.isSome_iff_ne_none, ne_eq, List.getElem?_eq_none_iff, this]
  omega

theorem current_declared_none (fs : List Param) (d : Bool) (i : Nat) :
    current (declared fs d) i = none ↔ fs.length + (if d then 1 else 0) ≤ i := by
  rw [← Option.not_isSome_iff_eq_none, current_declared]; omega

/-! ### The events of `checkArgs` -/

theorem typed_mem (as : List Arg) (k : Nat) (n : Node) (e : Event) :
    e ∈ (typed as 0 k n).events ↔ e ∈ n.events ∨ ∃ i, i < k ∧ typeReport as i = some e := by
  simp only [typed, List.mem_append, List.mem_filterMap, List.mem_range'_1]
  constructor
  · rintro (h | ⟨i, hi, h⟩)
    · exact Or.inl h
    · exact Or.inr ⟨i, by omega, h⟩
  · rintro (h | ⟨i, hi, h⟩)
    · exact Or.inl h
    · exact Or.inr ⟨i, by omega, h⟩

theorem typeReport_type (as : List Arg) (i j : Nat) :
    typeReport as i = some (.type j) ↔ j = i ∧ ∃ s, as[i]? = some (.expr false false s) := by
  unfold typeReport
  cases h : as[i]? with
  | none => simp
  | some a =>
    cases a with
    | bad => simp
    | expr f b s => cases f <;> cases b <;> simp [eq_comm]

theorem typeReport_abst (as : List Arg) (i j : Nat) :
    typeReport as i = some (.abstVoid j) ↔ j = i ∧ ∃ s, as[i]? = some (.expr false true s) := by
  unfold typeReport
  cases h : as[i]? with
  | none => simp
  | some a =>
    cases a with
    | bad => simp
    | expr f b s => cases f <;> cases b <;> simp [eq_comm]

theorem typeReport_only (as : List Arg) (i : Nat) (e : Event) (h : typeReport as i = some e) :
    e = .type i ∨ e = .abstVoid i := by
  unfold typeReport at h
  cases ha : as[i]? with
  | none => rw [ha] at h; cases h
  | some a =>
    rw [ha] at h
    cases a with
    | bad => cases h
    | expr f b s =>
      cases f <;> cases b
      · exact Or.inl (Option.some.inj h).symm
      · exact Or.inr (Option.some.inj h).symm
      · cases h
      · cases h

theorem convs_mem (as : List Arg) (l : List Nat) (n : Node) (e : Event) :
    e ∈ (convs as l n).events ↔ e ∈ n.events ∨
      ∃ i a, i ∈ l ∧ as[i]? = some a ∧ isExpr a = true ∧ e = .pass i .conversion := by
  rw [convs_eq]
  simp only [List.mem_append, List.mem_filterMap]
  constructor
  · rintro (h | ⟨i, hi, h⟩)
    · exact Or.inl h
    · cases ha : as[i]? with
      | none => rw [ha] at h; cases h
      | some a =>
        rw [ha] at h
        cases a with
        | bad => cases h
        | expr f b s => exact Or.inr ⟨i, _, hi, ha, rfl, (Option.some.inj h).symm⟩
  · rintro (h | ⟨i, a, hi, ha, hx, rfl⟩)
    · exact Or.inl h
    · cases a with
      | bad => cases hx
      | expr f b s => exact Or.inr ⟨i, hi, by rw [ha]⟩

theorem convs_sets (as : List Arg) (l : List Nat) (n : Node) (x : Nat) :
    x ∈ (convs as l n).sets ↔ x ∈ n.sets ∨ ∃ i a, i ∈ l ∧ as[i]? = some a ∧ x ∈ setsOf a := by
  rw [convs_eq]
  simp only [List.mem_append, List.mem_flatMap]
  constructor
  · rintro (h | ⟨i, hi, h⟩)
    · exact Or.inl h
    · cases ha : as[i]? with
      | none => rw [ha] at h; cases h
      | some a =>
        rw [ha] at h
        cases a with
        | bad => cases h
        | expr f b s => exact Or.inr ⟨i, _, hi, ha, h⟩
  · rintro (h | ⟨i, a, hi, ha, hx⟩)
    · exact Or.inl h
    · cases a with
      | bad => cases hx
      | expr f b s => exact Or.inr ⟨i, hi, by rw [ha]; exact hx⟩

theorem formatNode_mem (sp : Special) (conv : Option (List Nat)) (as : List Arg) (k : Nat) (n : Node) (e : Event) :
    e ∈ (formatNode sp conv as k n).events ↔ e ∈ n.events ∨
      (∃ i a, i ∈ conv.getD [] ∧ as[i]? = some a ∧ isExpr a = true ∧ e = .pass i .conversion) ∨
      (e = .formatConst ∧ conv = none ∧ sp = .printf ∧ as[k - 1]? ≠ some .bad) := by
  unfold formatNode
  cases conv with
  | some l => rw [convs_mem]; simp
  | none =>
    dsimp only
    split_ifs with h
    · simp [Node.event, h]
    · simp only [Option.getD_none, List.not_mem_nil, false_and, exists_false, false_or, true_and]
      constructor
      · exact Or.inl
      · rintro (h' | ⟨_, h'⟩)
        · exact h'
        · exact absurd h' h

theorem formatNode_sets (sp : Special) (conv : Option (List Nat)) (as : List Arg) (k : Nat) (n : Node) (x : Nat) :
    x ∈ (formatNode sp conv as k n).sets ↔ x ∈ n.sets ∨
      ∃ i a, i ∈ conv.getD [] ∧ as[i]? = some a ∧ x ∈ setsOf a := by
  unfold formatNode
  cases conv with
  | some l => rw [convs_sets]; simp
  | none => dsimp only; split_ifs <;> simp [Node.event]

theorem countNode_mem (d : Bool) (k m : Nat) (n : Node) (e : Event) :
    e ∈ (countNode d k m n).events ↔ e ∈ n.events ∨
      (e = .leastCount m k ∧ d = true ∧ m < k) ∨ (e = .count m k ∧ d = false ∧ m ≠ k) := by
  unfold countNode
  cases d
  · by_cases h : m = k <;> simp [Node.event, h]
  · by_cases h : m < k <;> simp [Node.event, h]

theorem countNode_sets (d : Bool) (k m : Nat) (n : Node) : (countNode d k m n).sets = n.sets := by
  unfold countNode
  split_ifs <;> rfl

/-- all events of `checkArgs` -/
theorem checkArgs_mem {sp : Special} {conv : Option (List Nat)} {fs : List Param} {d : Bool} {as : List Arg} (sets : List Nat)
    (hp : ∀ p ∈ fs, p.elips = false) (hs : fs ≠ [] ∨ d = true) (hf : sp ≠ .none → d = true ∧ fs ≠ []) :
    ∃ n k, checkArgs sp conv (declared fs d) as ⟨[], sets⟩ = some (n, k) ∧ (k = if Reached sp d fs as then fs.length else 0) ∧
      (∀ e, e ∈ n.events ↔
        (∃ i, i < fs.length ∧ typeReport as i = some e) ∨
        (Reached sp d fs as ∧ ∃ i a, i ∈ conv.getD [] ∧ as[i]? = some a ∧ isExpr a = true ∧ e = .pass i .conversion) ∨
        (Reached sp d fs as ∧ e = .formatConst ∧ conv = none ∧ sp = .printf ∧ as[fs.length - 1]? ≠ some .bad) ∨
        (e = .leastCount as.length fs.length ∧ d = true ∧ as.length < fs.length) ∨
        (e = .count as.length fs.length ∧ d = false ∧ as.length ≠ fs.length)) ∧
      (∀ x, x ∈ n.sets ↔ x ∈ sets ∨
        (Reached sp d fs as ∧ ∃ i a, i ∈ conv.getD [] ∧ as[i]? = some a ∧ x ∈ setsOf a)) := by
  refine ⟨_, _, checkArgs_eq ⟨[], sets⟩ hp hs hf, rfl, ?_, ?_⟩
  · intro e
    rw [countNode_mem]
    by_cases hr : Reached sp d fs as
    · rw [if_pos hr, formatNode_mem, typed_mem]
      simp only [List.not_mem_nil, false_or, hr, true_and, or_assoc]
    · rw [if_neg hr, typed_mem]
      simp only [List.not_mem_nil, false_or, hr, false_and]
  · intro x
    rw [countNode_sets]
    by_cases hr : Reached sp d fs as
    · rw [if_pos hr, formatNode_sets]
      simp only [hr, true_and]; rfl
    · rw [if_neg hr]
      simp only [hr, false_and, or_false]; rfl

/-! ### C140 -/

/-- a call that is reported for the number of its arguments -/
def WrongNumber (fs : List Param) (d : Bool) (n : Nat) : Prop := if d then n < fs.length else n ≠ fs.length

/-- **C140**: exactly the calls with a wrong number of arguments are reported, and exactly the arguments with types that
do not match those of their parameters. -/
theorem C140_reports {c : Call} {fs : List Param} {d : Bool} (hc : Parsed c fs d) {mods : Option (List Nat)} {ce : Bool}
    (hf : c.callee = .function mods ce) {r : Result} (h : call c = some r) :
    ((∃ n m, .count n m ∈ r.events ∨ .leastCount n m ∈ r.events) ↔ WrongNumber fs d c.args.length) ∧
    (∀ n m, .count n m ∈ r.events ∨ .leastCount n m ∈ r.events → n = c.args.length ∧ m = fs.length) ∧
    (∀ i, .type i ∈ r.events ↔ i < fs.length ∧ ∃ s, c.args[i]? = some (.expr false false s)) ∧
    (∀ i, .abstVoid i ∈ r.events ↔ i < fs.length ∧ ∃ s, c.args[i]? = some (.expr false true s)) := by
  obtain ⟨n, k, hn, hk, he, _⟩ := checkArgs_mem (conv := c.conv) (as := c.args) c.sets hc.plain hc.notEmpty hc.format
  unfold call at h
  rw [hf] at h
  dsimp only at h
  rw [hc.params, hn, Option.bind_some] at h
  dsimp only at h
  split_ifs at h with hce
  have h := (Option.some.inj h).symm
  subst h
  have hev : ∀ e : Event, (∀ i, e ≠ .pass i (.param i)) → (∀ i, e ≠ .use i) → (∀ i, e ≠ .unique i) →
      (e ∈ (anyLoop (declared fs d) k 0 c.args n).events ↔
        e ∈ n.events) := by
    intro e h1 h2 h3
    rw [anyLoop_events]
    constructor
    · rintro (h | ⟨j, a, _, h⟩)
      · exact h
      · obtain ⟨_, h | h | h⟩ := (anyStep_events _ _ _ _ _).1 h
        · exact absurd h.1 (h1 _)
        · exact absurd h.1 (h2 _)
        · exact absurd h.1 (h3 _)
    · exact Or.inl
  have hcount : ∀ a b, Event.count a b ∈ n.events ↔ a = c.args.length ∧ b = fs.length ∧ d = false ∧ c.args.length ≠ fs.length := by
    intro a b
    rw [he]
    constructor
    · rintro (⟨i, _, h⟩ | ⟨_, _, _, _, _, _, h⟩ | ⟨_, h, _⟩ | ⟨h, _⟩ | ⟨h, h1, h2⟩)
      · rcases typeReport_only _ _ _ h with h | h <;> cases h
      · cases h
      · cases h
      · cases h
      · cases h; exact ⟨rfl, rfl, h1, h2⟩
    · rintro ⟨rfl, rfl, h1, h2⟩
      exact Or.inr (Or.inr (Or.inr (Or.inr ⟨rfl, h1, h2⟩)))
  have hleast : ∀ a b, Event.leastCount a b ∈ n.events ↔ a = c.args.length ∧ b = fs.length ∧ d = true ∧ c.args.length < fs.length := by
    intro a b
    rw [he]
    constructor
    · rintro (⟨i, _, h⟩ | ⟨_, _, _, _, _, _, h⟩ | ⟨_, h, _⟩ | ⟨h, h1, h2⟩ | ⟨h, _⟩)
      · rcases typeReport_only _ _ _ h with h | h <;> cases h
      · cases h
      · cases h
      · cases h; exact ⟨rfl, rfl, h1, h2⟩
      · cases h
    · rintro ⟨rfl, rfl, h1, h2⟩
      exact Or.inr (Or.inr (Or.inr (Or.inl ⟨rfl, h1, h2⟩)))
  have hc' : ∀ a b, Event.count a b ∈ (anyLoop (declared fs d) k 0
      c.args n).events ↔ a = c.args.length ∧ b = fs.length ∧ d = false ∧ c.args.length ≠ fs.length := fun a b => by
    rw [hev _ (by simp) (by simp) (by simp), hcount]
  have hl' : ∀ a b, Event.leastCount a b ∈ (anyLoop (declared fs d) k 0
      c.args n).events ↔ a = c.args.length ∧ b = fs.length ∧ d = true ∧ c.args.length < fs.length := fun a b => by
    rw [hev _ (by simp) (by simp) (by simp), hleast]
  refine ⟨?_, ?_, ?_, ?_⟩
  · simp only [hc', hl']
    unfold WrongNumber
    cases d <;> simp
  · intro a b hab
    dsimp only at hab
    rw [hc', hl'] at hab
    rcases hab with ⟨h1, h2, _⟩ | ⟨h1, h2, _⟩ <;> exact ⟨h1, h2⟩
  · intro i
    dsimp only
    rw [hev _ (by simp) (by simp) (by simp), he]
    constructor
    · rintro (⟨j, hj, h⟩ | ⟨_, _, _, _, _, _, h⟩ | ⟨_, h, _⟩ | ⟨h, _⟩ | ⟨h, _⟩)
      · obtain ⟨rfl, h⟩ := (typeReport_type _ _ _).1 h
        exact ⟨hj, h⟩
      all_goals cases h
    · rintro ⟨hi, h⟩
      exact Or.inl ⟨i, hi, (typeReport_type _ _ _).2 ⟨rfl, h⟩⟩
  · intro i
    dsimp only
    rw [hev _ (by simp) (by simp) (by simp), he]
    constructor
    · rintro (⟨j, hj, h⟩ | ⟨_, _, _, _, _, _, h⟩ | ⟨_, h, _⟩ | ⟨h, _⟩ | ⟨h, _⟩)
      · obtain ⟨rfl, h⟩ := (typeReport_abst _ _ _).1 h
        exact ⟨hj, h⟩
      all_goals cases h
    · rintro ⟨hi, h⟩
      exact Or.inl ⟨i, hi, (typeReport_abst _ _ _).2 ⟨rfl, h⟩⟩

/-- **C140**: a call ends in an internal bug exactly if the exit of the function depends on its argument, and there is
none. -/
theorem C140_bug_exactly {c : Call} {fs : List Param} {d : Bool} (hc : Parsed c fs d) {mods : Option (List Nat)} {ce : Bool}
    (hf : c.callee = .function mods ce) : call c = none ↔ ce = true ∧ c.args = [] := by
  obtain ⟨n, k, hn, _⟩ := checkArgs_mem (conv := c.conv) (as := c.args) c.sets hc.plain hc.notEmpty hc.format
  unfold call
  rw [hf]
  dsimp only
  rw [hc.params, hn, Option.bind_some]
  dsimp only
  split_ifs with hce
  · simpa using hce
  · simp only [Bool.and_eq_true, List.isEmpty_iff] at hce
    simp [hce]

/-- Every call whose number of arguments is wrong is reported. -/
def C140_full : Prop := ∀ (c : Call) (fs : List Param) (d : Bool) (mods : Option (List Nat)) (ce : Bool), Parsed c fs d →
  c.callee = .function mods ce → WrongNumber fs d c.args.length →
  ∃ r, call c = some r ∧ ∃ n m, .count n m ∈ r.events ∨ .leastCount n m ∈ r.events

/-- `exitIf ()`, for `void exitIf (int c) /*@trueexit@*/`, is an internal bug. -/
theorem C140_full_is_false : ¬ C140_full := by
  intro h
  obtain ⟨r, hr, _⟩ := h ⟨.function (some []) true, .none, none, .list [⟨false, false⟩], [], []⟩ [⟨false, false⟩] false (some []) true
    ⟨rfl, by simp, by simp, by simp, by simp⟩ rfl (by simp [WrongNumber])
  cases hr

/-- **C140**, what holds of it. -/
theorem C140_partial {c : Call} {fs : List Param} {d : Bool} (hc : Parsed c fs d) {mods : Option (List Nat)} {ce : Bool}
    (hf : c.callee = .function mods ce) (hw : WrongNumber fs d c.args.length) (he : ce = false ∨ c.args ≠ []) :
    ∃ r, call c = some r ∧ ∃ n m, .count n m ∈ r.events ∨ .leastCount n m ∈ r.events := by
  cases h : call c with
  | none =>
    obtain ⟨h1, h2⟩ := (C140_bug_exactly hc hf).1 h
    rcases he with he | he
    · rw [he] at h1; cases h1
    · exact absurd h2 he
  | some r => exact ⟨r, rfl, (C140_reports hc hf h).1.2 hw⟩

/-- Without a list of parameters nothing is reported; a function declared with `(void)` takes no arguments. -/
theorem C140_void (c : Call) (mods : Option (List Nat)) (hf : c.callee = .function mods false) :
    (c.params = .void → ∃ r, call c = some r ∧
      ((∃ n, .voidCount n ∈ r.events) ↔ c.args ≠ []) ∧ ∀ i, .type i ∉ r.events) ∧
    (c.params = .missing → ∃ r, call c = some r ∧
      (∀ n, .voidCount n ∉ r.events) ∧ ∀ i, .type i ∉ r.events) := by
  have hv : ∀ (p : Params) (sp : Nat) (n : Node) (m : Nat),
      Event.voidCount m ∈ (anyLoop p sp 0 c.args n).events ↔ Event.voidCount m ∈ n.events := by
    intro p sp n m
    rw [anyLoop_events]
    constructor
    · rintro (h | ⟨j, a, _, h⟩)
      · exact h
      · obtain ⟨_, h | h | h⟩ := (anyStep_events _ _ _ _ _).1 h
        all_goals cases h.1
    · exact Or.inl
  have ht : ∀ (p : Params) (sp : Nat) (n : Node) (m : Nat),
      Event.type m ∈ (anyLoop p sp 0 c.args n).events ↔ Event.type m ∈ n.events := by
    intro p sp n m
    rw [anyLoop_events]
    constructor
    · rintro (h | ⟨j, a, _, h⟩)
      · exact h
      · obtain ⟨_, h | h | h⟩ := (anyStep_events _ _ _ _ _).1 h
        all_goals cases h.1
    · exact Or.inl
  constructor
  · intro hp
    refine ⟨_, by unfold call; rw [hf, hp]; rfl, ?_, ?_⟩
    · simp only [hv]
      by_cases h : c.args = []
      · simp [h]
      · have h' : c.args.length ≠ 0 := by simpa using h
        simp [h', h, Node.event]
    · intro i
      simp only [ht]
      by_cases h : c.args = []
      · simp [h]
      · have h' : c.args.length ≠ 0 := by simpa using h
        simp [h', Node.event]
  · intro hp
    refine ⟨_, by unfold call; rw [hf, hp]; rfl, ?_, ?_⟩
    · intro n; simp only [hv]; simp
    · intro n; simp only [ht]; simp

/-! ### C141 -/

/-- **C141**, calls of functions: against what each argument is checked, and what the call sets.  Where the function is
special and there is a format, the format is not checked, an argument behind it is only checked if there is a conversion
for it, and the effects of the format are lost; so are those of the first argument behind it without a conversion. -/
theorem C141_function {c : Call} {fs : List Param} {d : Bool} (hc : Parsed c fs d) {mods : Option (List Nat)} {ce : Bool}
    (hf : c.callee = .function mods ce) {r : Result} (h : call c = some r) :
    (∀ i j, .pass i (.param j) ∈ r.events ↔ j = i ∧ (∃ s, IsArg c i s) ∧ i < fs.length + (if d then 1 else 0) ∧
      (Formatted c fs → i + 1 < fs.length)) ∧
    (∀ i, .pass i .conversion ∈ r.events ↔ Formatted c fs ∧ (∃ s, IsArg c i s) ∧ i ∈ c.conv.getD []) ∧
    (∀ i, .use i ∈ r.events ↔ (∃ s, IsArg c i s) ∧ fs.length + (if d then 1 else 0) ≤ i ∧ ¬ Formatted c fs) ∧
    (∀ i, .unique i ∈ r.events ↔ (∃ s, IsArg c i s) ∧ (∃ p, fs[i]? = some p ∧ p.unique = true) ∧
      (Formatted c fs → i + 1 < fs.length)) ∧
    (∀ x, x ∈ r.sets ↔ x ∈ c.sets ∨ x ∈ mods.getD [] ∨ ∃ i s, IsArg c i s ∧ x ∈ s ∧
      (Formatted c fs → i + 1 < fs.length ∨ i ∈ c.conv.getD [] ∨ fs.length < i)) ∧
    (r.any = true ↔ mods = none) := by
  obtain ⟨n, k, hn, hk, he, hst⟩ := checkArgs_mem (conv := c.conv) (as := c.args) c.sets hc.plain hc.notEmpty hc.format
  have hR : Reached c.special d fs c.args ↔ Formatted c fs :=
    ⟨fun h => ⟨h.1, h.2.2⟩, fun h => ⟨h.1, (hc.format h.1).1, h.2⟩⟩
  have hk1 : ∀ i, (k = 0 ∨ i + 1 < k) ↔ (Formatted c fs → i + 1 < fs.length) := by
    intro i
    rw [hk]
    by_cases hr : Formatted c fs
    · have hpos : 0 < fs.length := List.length_pos_iff.2 (hc.format hr.1).2
      rw [if_pos (hR.2 hr)]
      simp only [hr, true_imp_iff]
      omega
    · rw [if_neg (fun h => hr (hR.1 h))]
      simp [hr]
  have hk0 : k = 0 ↔ ¬ Formatted c fs := by
    rw [hk]
    by_cases hr : Formatted c fs
    · have hpos : 0 < fs.length := List.length_pos_iff.2 (hc.format hr.1).2
      rw [if_pos (hR.2 hr)]
      simp only [hr, not_true, iff_false]
      omega
    · rw [if_neg (fun h => hr (hR.1 h))]
      simp [hr]
  unfold call at h
  rw [hf] at h
  dsimp only at h
  rw [hc.params, hn, Option.bind_some] at h
  dsimp only at h
  split_ifs at h with hce
  have h := (Option.some.inj h).symm
  subst h
  refine ⟨?_, ?_, ?_, ?_, ?_, ?_⟩
  · intro i j
    dsimp only
    rw [anyLoop_events, he, isArg_iff]
    constructor
    · rintro ((⟨i, _, h⟩ | ⟨_, _, _, _, _, _, h⟩ | ⟨_, h, _⟩ | ⟨h, _⟩ | ⟨h, _⟩) | ⟨q, a, ha, h⟩)
      · rcases typeReport_only _ _ _ h with h | h <;> cases h
      · cases h
      · cases h
      · cases h
      · cases h
      · rw [Nat.zero_add] at h
        obtain ⟨hx, h | h | h⟩ := (anyStep_events _ _ _ _ _).1 h
        · obtain ⟨h1, h2, h3⟩ := h
          cases h1
          exact ⟨rfl, ⟨a, ha, hx⟩, (current_declared _ _ _).1 h2, (hk1 _).1 h3⟩
        · cases h.1
        · cases h.1
    · rintro ⟨rfl, ⟨a, ha, hx⟩, h2, h3⟩
      refine Or.inr ⟨j, a, ha, ?_⟩
      rw [Nat.zero_add]
      exact (anyStep_events _ _ _ _ _).2 ⟨hx, Or.inl ⟨rfl, (current_declared _ _ _).2 h2, (hk1 _).2 h3⟩⟩
  · intro i
    dsimp only
    rw [anyLoop_events, he, isArg_iff]
    constructor
    · rintro ((⟨i, _, h⟩ | ⟨hr, q, a, hq, ha, hx, h⟩ | ⟨_, h, _⟩ | ⟨h, _⟩ | ⟨h, _⟩) | ⟨q, a, ha, h⟩)
      · rcases typeReport_only _ _ _ h with h | h <;> cases h
      · cases h
        exact ⟨hR.1 hr, ⟨a, ha, hx⟩, hq⟩
      · cases h
      · cases h
      · cases h
      · obtain ⟨hx, h | h | h⟩ := (anyStep_events _ _ _ _ _).1 h
        all_goals cases h.1
    · rintro ⟨hr, ⟨a, ha, hx⟩, hq⟩
      exact Or.inl (Or.inr (Or.inl ⟨hR.2 hr, i, a, hq, ha, hx, rfl⟩))
  · intro i
    dsimp only
    rw [anyLoop_events, he, isArg_iff]
    constructor
    · rintro ((⟨i, _, h⟩ | ⟨_, _, _, _, _, _, h⟩ | ⟨_, h, _⟩ | ⟨h, _⟩ | ⟨h, _⟩) | ⟨q, a, ha, h⟩)
      · rcases typeReport_only _ _ _ h with h | h <;> cases h
      · cases h
      · cases h
      · cases h
      · cases h
      · rw [Nat.zero_add] at h
        obtain ⟨hx, h | h | h⟩ := (anyStep_events _ _ _ _ _).1 h
        · cases h.1
        · obtain ⟨h1, h2, h3⟩ := h
          cases h1
          exact ⟨⟨a, ha, hx⟩, (current_declared_none _ _ _).1 h2, hk0.1 h3⟩
        · cases h.1
    · rintro ⟨⟨a, ha, hx⟩, h2, h3⟩
      refine Or.inr ⟨i, a, ha, ?_⟩
      rw [Nat.zero_add]
      exact (anyStep_events _ _ _ _ _).2 ⟨hx, Or.inr (Or.inl ⟨rfl, (current_declared_none _ _ _).2 h2, hk0.2 h3⟩)⟩
  · intro i
    dsimp only
    have hcur : (∃ p, current (declared fs d) i = some p ∧ p.unique = true) ↔ ∃ p, fs[i]? = some p ∧ p.unique = true := by
      simp only [current, declared]
      by_cases hi : i < fs.length
      · rw [List.getElem?_append_left hi]
      · rw [List.getElem?_append_right (by omega), List.getElem?_eq_none (l := fs) (by omega)]
        constructor
        · rintro ⟨p, hp, hu⟩
          cases d
          · simp at hp
          · obtain ⟨_, hp⟩ := List.getElem?_eq_some_iff.1 hp
            simp at hp
            rw [← hp] at hu; cases hu
        · rintro ⟨p, hp, _⟩; cases hp
    rw [anyLoop_events, he, isArg_iff]
    constructor
    · rintro ((⟨i, _, h⟩ | ⟨_, _, _, _, _, _, h⟩ | ⟨_, h, _⟩ | ⟨h, _⟩ | ⟨h, _⟩) | ⟨q, a, ha, h⟩)
      · rcases typeReport_only _ _ _ h with h | h <;> cases h
      · cases h
      · cases h
      · cases h
      · cases h
      · rw [Nat.zero_add] at h
        obtain ⟨hx, h | h | h⟩ := (anyStep_events _ _ _ _ _).1 h
        · cases h.1
        · cases h.1
        · obtain ⟨h1, h2, h3⟩ := h
          cases h1
          exact ⟨⟨a, ha, hx⟩, hcur.1 h2, (hk1 _).1 h3⟩
    · rintro ⟨⟨a, ha, hx⟩, h2, h3⟩
      refine Or.inr ⟨i, a, ha, ?_⟩
      rw [Nat.zero_add]
      exact (anyStep_events _ _ _ _ _).2 ⟨hx, Or.inr (Or.inr ⟨rfl, hcur.2 h2, (hk1 _).2 h3⟩)⟩
  · intro x
    dsimp only
    rw [List.mem_append, anyLoop_sets, hst, ← setsOf_iff c x]
    have hd : Formatted c fs → d = true := fun h => (hc.format h.1).1
    constructor
    · rintro (((h | ⟨hr, i, a, hi, ha, hx⟩) | ⟨i, a, ha, h⟩) | h)
      · exact Or.inl h
      · exact Or.inr (Or.inr ⟨i, a, ha, hx, fun _ => Or.inr (Or.inl hi)⟩)
      · rw [Nat.zero_add] at h
        obtain ⟨hx, h⟩ := (anyStep_sets _ _ _ _ _).1 h
        refine Or.inr (Or.inr ⟨i, a, ha, hx, ?_⟩)
        intro hr
        rcases h with h | h
        · have := (current_declared_none _ _ _).1 h
          rw [hd hr] at this
          simp only [if_true] at this
          exact Or.inr (Or.inr (by omega))
        · exact Or.inl ((hk1 i).1 h hr)
      · exact Or.inr (Or.inl h)
    · rintro (h | h | ⟨i, a, ha, hx, h⟩)
      · exact Or.inl (Or.inl (Or.inl h))
      · exact Or.inr h
      · by_cases hr : Formatted c fs
        · rcases h hr with h | h | h
          · refine Or.inl (Or.inr ⟨i, a, ha, ?_⟩)
            rw [Nat.zero_add]
            exact (anyStep_sets _ _ _ _ _).2 ⟨hx, Or.inr ((hk1 i).2 fun _ => h)⟩
          · exact Or.inl (Or.inl (Or.inr ⟨hR.2 hr, i, a, h, ha, hx⟩))
          · refine Or.inl (Or.inr ⟨i, a, ha, ?_⟩)
            rw [Nat.zero_add]
            refine (anyStep_sets _ _ _ _ _).2 ⟨hx, Or.inl ((current_declared_none _ _ _).2 ?_)⟩
            rw [hd hr]; simp only [if_true]; omega
        · refine Or.inl (Or.inr ⟨i, a, ha, ?_⟩)
          rw [Nat.zero_add]
          exact (anyStep_sets _ _ _ _ _).2 ⟨hx, Or.inr (Or.inl (hk0.2 hr))⟩
  · cases mods <;> simp

/-- **C141**: which arguments of a function are checked at all. -/
theorem C141_checked_exactly {c : Call} {fs : List Param} {d : Bool} (hc : Parsed c fs d) {mods : Option (List Nat)}
    {ce : Bool} (hf : c.callee = .function mods ce) {r : Result} (h : call c = some r) (i : Nat) (s : List Nat)
    (ha : IsArg c i s) : Checked r i ↔ (Formatted c fs → i + 1 < fs.length ∨ i ∈ c.conv.getD []) := by
  obtain ⟨h1, h2, h3, _⟩ := C141_function hc hf h
  constructor
  · rintro (⟨w, hw⟩ | hu) hr
    · cases w with
      | param j => exact Or.inl (((h1 i j).1 hw).2.2.2 hr)
      | conversion => exact Or.inr ((h2 i).1 hw).2.2
    · exact absurd hr ((h3 i).1 hu).2.2
  · intro h
    by_cases hr : Formatted c fs
    · rcases h hr with h | h
      · exact Or.inl ⟨_, (h1 i i).2 ⟨rfl, ⟨s, ha⟩, by omega, fun _ => h⟩⟩
      · exact Or.inl ⟨_, (h2 i).2 ⟨hr, ⟨s, ha⟩, h⟩⟩
    · by_cases hi : i < fs.length + (if d then 1 else 0)
      · exact Or.inl ⟨_, (h1 i i).2 ⟨rfl, ⟨s, ha⟩, hi, fun h => absurd h hr⟩⟩
      · exact Or.inr ((h3 i).2 ⟨⟨s, ha⟩, by omega, hr⟩)

/-- **C141**: the format of a special function is never checked, whatever it is. -/
theorem C141_format_unchecked {c : Call} {fs : List Param} {d : Bool} (hc : Parsed c fs d) {mods : Option (List Nat)}
    {ce : Bool} (hf : c.callee = .function mods ce) {r : Result} (h : call c = some r) (hr : Formatted c fs) (s : List Nat)
    (ha : IsArg c (fs.length - 1) s) : ¬ Checked r (fs.length - 1) := by
  rw [C141_checked_exactly hc hf h _ s ha]
  intro h'
  have hpos : 0 < fs.length := List.length_pos_iff.2 (hc.format hr.1).2
  rcases h' hr with h' | h'
  · omega
  · cases hv : c.conv with
    | none => rw [hv] at h'; cases h'
    | some l =>
      rw [hv] at h'
      have := hc.conv l hv _ h'
      omega

/-- **C141**, calls of variables: nothing is checked but types, and nothing is set. -/
theorem C141_pointer {c : Call} {fs : List Param} {d direct : Bool} (hc : Parsed c fs d) (hf : c.callee = .pointer direct) :
    ∃ r, call c = some r ∧ (∀ i, ¬ Checked r i) ∧ r.sets = c.sets ∧ r.any = !direct := by
  obtain ⟨n, k, hn, hk, he, hst⟩ := checkArgs_mem (sp := .none) (conv := c.conv) (as := c.args) c.sets hc.plain hc.notEmpty
    (fun h => absurd rfl h)
  have hr : ¬ Reached .none d fs c.args := fun h => h.1 rfl
  refine ⟨_, by unfold call; rw [hf]; dsimp only; rw [hc.params, hn]; rfl, ?_, rfl, rfl⟩
  rintro i (⟨w, h⟩ | h)
  all_goals
    rcases (he _).1 h with ⟨i, _, h⟩ | ⟨h, _⟩ | ⟨h, _⟩ | ⟨h, _⟩ | ⟨h, _⟩
    · rcases typeReport_only _ _ _ h with h | h <;> cases h
    · exact hr h
    · exact hr h
    · cases h
    · cases h

/-- **C141**, calls of other expressions: all arguments are checked unless one of the flags is set, but what they set is
lost. -/
theorem C141_computed {c : Call} {fs : List Param} {d strict : Bool} (hc : Parsed c fs d) (hf : c.callee = .computed strict) :
    ∃ r, call c = some r ∧ (∀ i s, IsArg c i s → (Checked r i ↔ strict = false)) ∧ r.sets = c.sets ∧ r.any = true := by
  obtain ⟨n, k, hn, hk, he, hst⟩ := checkArgs_mem (sp := .none) (conv := c.conv) (as := c.args) c.sets hc.plain hc.notEmpty
    (fun h => absurd rfl h)
  have hr : ¬ Reached .none d fs c.args := fun h => h.1 rfl
  have hno : ∀ i, (∀ w, Event.pass i w ∉ n.events) ∧ Event.use i ∉ n.events := by
    intro i
    constructor
    · intro w h
      rcases (he _).1 h with ⟨i, _, h⟩ | ⟨h, _⟩ | ⟨h, _⟩ | ⟨h, _⟩ | ⟨h, _⟩
      · rcases typeReport_only _ _ _ h with h | h <;> cases h
      · exact hr h
      · exact hr h
      · cases h
      · cases h
    · intro h
      rcases (he _).1 h with ⟨i, _, h⟩ | ⟨h, _⟩ | ⟨h, _⟩ | ⟨h, _⟩ | ⟨h, _⟩
      · rcases typeReport_only _ _ _ h with h | h <;> cases h
      · exact hr h
      · exact hr h
      · cases h
      · cases h
  refine ⟨_, by unfold call; rw [hf]; dsimp only; rw [hc.params, hn]; rfl, ?_, rfl, rfl⟩
  intro i s hi
  obtain ⟨a, ha, hx⟩ := (isArg_iff c i).1 ⟨s, hi⟩
  cases strict with
  | true =>
    simp only [if_true, Bool.true_eq_false, iff_false]
    rintro (⟨w, h⟩ | h)
    · exact (hno i).1 w h
    · exact (hno i).2 h
  | false =>
    simp only [Bool.false_eq_true, if_false, iff_true]
    by_cases hcur : (current (declared fs d) i).isSome
    · refine Or.inl ⟨.param i, ?_⟩
      dsimp only
      rw [anyLoop_events]
      exact Or.inr ⟨i, a, ha, by rw [Nat.zero_add]; exact (anyStep_events _ _ _ _ _).2 ⟨hx, Or.inl ⟨rfl, hcur, Or.inl rfl⟩⟩⟩
    · refine Or.inr ?_
      dsimp only
      rw [anyLoop_events]
      exact Or.inr ⟨i, a, ha, by
        rw [Nat.zero_add]
        exact (anyStep_events _ _ _ _ _).2 ⟨hx, Or.inr (Or.inl ⟨rfl, Option.not_isSome_iff_eq_none.1 hcur, rfl⟩)⟩⟩

theorem unknownLoop_mem (as : List Arg) (i : Nat) (n : Node) :
    (∀ e, e ∈ (unknownLoop i as n).events ↔ e ∈ n.events ∨
      ∃ j a, as[j]? = some a ∧ isExpr a = true ∧ e = .use (i + j)) ∧
    (∀ x, x ∈ (unknownLoop i as n).sets ↔ x ∈ n.sets ∨ ∃ (j : Nat) (a : Arg), as[j]? = some a ∧ x ∈ setsOf a) := by
  induction as generalizing i n with
  | nil => simp [unknownLoop]
  | cons b as ih =>
    have hadd : ∀ j, i + (j + 1) = i + 1 + j := fun j => by omega
    have key : ∀ (P : Nat → Arg → Prop), (∃ j a, (b :: as)[j]? = some a ∧ P j a) ↔
        P 0 b ∨ ∃ j a, as[j]? = some a ∧ P (j + 1) a := by
      intro P
      constructor
      · rintro ⟨j, a, hj, hp⟩
        cases j with
        | zero =>
          simp only [List.getElem?_cons_zero, Option.some.injEq] at hj
          subst hj; exact Or.inl hp
        | succ j => exact Or.inr ⟨j, a, by simpa using hj, hp⟩
      · rintro (h | ⟨j, a, hj, hp⟩)
        · exact ⟨0, b, rfl, h⟩
        · exact ⟨j + 1, a, by simpa using hj, hp⟩
    have e1 : ∀ e : Event, (∃ j a, (b :: as)[j]? = some a ∧ isExpr a = true ∧ e = .use (i + j)) ↔
        (isExpr b = true ∧ e = .use i) ∨ ∃ j a, as[j]? = some a ∧ isExpr a = true ∧ e = .use (i + 1 + j) := by
      intro e
      rw [key fun j a => isExpr a = true ∧ e = .use (i + j)]
      refine or_congr Iff.rfl (exists_congr fun j => exists_congr fun a => ?_)
      rw [hadd j]
    have e2 := fun x : Nat => key fun _ a => x ∈ setsOf a
    cases b with
    | bad =>
      rw [unknownLoop]
      constructor
      · intro e
        rw [(ih (i + 1) n).1, e1]
        simp [isExpr]
      · intro x
        rw [(ih (i + 1) n).2, e2]
        simp [setsOf]
    | expr f g s =>
      rw [unknownLoop]
      constructor
      · intro e
        rw [(ih (i + 1) _).1, e1]
        simp [isExpr, Node.event, Node.merge, or_assoc]
      · intro x
        rw [(ih (i + 1) _).2, e2]
        simp [setsOf, Node.event, Node.merge, or_assoc]

/-- **C141**, functions of unknown type: every argument is checked as a use, and everything it sets is set. -/
theorem C141_unknown {c : Call} (hf : c.callee = .unknown) :
    ∃ r, call c = some r ∧ (∀ i s, IsArg c i s → Checked r i ∧ ∀ x ∈ s, x ∈ r.sets) ∧ r.any = true := by
  have h := unknownLoop_mem c.args 0 ⟨[], c.sets⟩
  refine ⟨_, by unfold call; rw [hf], ?_, rfl⟩
  rintro i s ⟨f, b, hi⟩
  constructor
  · exact Or.inr ((h.1 _).2 (Or.inr ⟨i, _, hi, rfl, by rw [Nat.zero_add]⟩))
  · intro x hx
    exact (h.2 x).2 (Or.inr ⟨i, _, hi, hx⟩)

/-- Every argument of a call is checked, and what it sets is set by the call. -/
def C141_full : Prop := ∀ (c : Call) (fs : List Param) (d : Bool), Parsed c fs d → ∀ r, call c = some r →
  ∀ i s, IsArg c i s → Checked r i ∧ ∀ x ∈ s, x ∈ r.sets

/-- `printf (fmt)`, where `fmt` may be undefined or null -/
def exPrintf : Call := ⟨.function (some []) false, .printf, none, declared [⟨false, false⟩] true, [.expr true false []], []⟩

/-- `fp (i++)` -/
def exPointer : Call := ⟨.pointer true, .none, none, declared [⟨false, false⟩] false, [.expr true false [7]], []⟩

theorem exPrintf_parsed : Parsed exPrintf [⟨false, false⟩] true := ⟨rfl, by simp, by simp, by simp, by simp [exPrintf]⟩
theorem exPointer_parsed : Parsed exPointer [⟨false, false⟩] false :=
  ⟨rfl, by simp, by simp, by simp [exPointer], by simp [exPointer]⟩

theorem C141_full_is_false : ¬ C141_full := by
  intro h
  obtain ⟨r, hr, _, h2, _⟩ := C141_pointer exPointer_parsed rfl
  have := (h exPointer _ _ exPointer_parsed r hr 0 [7] ⟨_, _, rfl⟩).2 7 (by simp)
  rw [h2] at this
  cases this

/-- The checks alone fail for the format. -/
theorem C141_full_is_false_format : ¬ ∀ (c : Call) (fs : List Param) (d : Bool) (mods : Option (List Nat)) (ce : Bool),
    Parsed c fs d → c.callee = .function mods ce → ∀ r, call c = some r → ∀ i s, IsArg c i s → Checked r i := by
  intro h
  have hr : call exPrintf = some ⟨[.formatConst], [], false⟩ := by decide
  exact C141_format_unchecked exPrintf_parsed rfl hr ⟨by decide, by decide⟩ [] ⟨_, _, rfl⟩
    (h exPrintf _ _ _ _ exPrintf_parsed rfl _ hr 0 [] ⟨_, _, rfl⟩)

/-- **C141**, what holds of it: all but special functions that are called by their names. -/
theorem C141_partial {c : Call} {fs : List Param} {d : Bool} (hc : Parsed c fs d) {mods : Option (List Nat)} {ce : Bool}
    (hf : c.callee = .function mods ce) (hs : c.special = .none) {r : Result} (h : call c = some r) (i : Nat) (s : List Nat)
    (ha : IsArg c i s) : Checked r i ∧ ∀ x ∈ s, x ∈ r.sets := by
  have hr : ¬ Formatted c fs := fun h => h.1 hs
  refine ⟨(C141_checked_exactly hc hf h i s ha).2 fun h => absurd h hr, fun x hx => ?_⟩
  exact ((C141_function hc hf h).2.2.2.2.1 x).2 (Or.inr (Or.inr ⟨i, s, ha, hx, fun h => absurd h hr⟩))

/-- The same without a list of parameters. -/
theorem C141_missing {c : Call} {mods : Option (List Nat)} (hf : c.callee = .function mods false)
    (hp : c.params = .missing ∨ c.params = .void) :
    ∃ r, call c = some r ∧ ∀ i s, IsArg c i s → Checked r i ∧ ∀ x ∈ s, x ∈ r.sets := by
  have key : ∀ (p : Params) (n : Node) (i : Nat) (s : List Nat), IsArg c i s →
      ((∃ w, Event.pass i w ∈ (anyLoop p 0 0 c.args n).events) ∨ Event.use i ∈ (anyLoop p 0 0 c.args n).events) ∧
      ∀ x ∈ s, x ∈ (anyLoop p 0 0 c.args n).sets := by
    rintro p n i s ⟨f, b, hi⟩
    constructor
    · by_cases hcur : (current p i).isSome
      · refine Or.inl ⟨.param i, (anyLoop_events _ _ _ _ _ _).2 (Or.inr ⟨i, _, hi, ?_⟩)⟩
        rw [Nat.zero_add]
        exact (anyStep_events _ _ _ _ _).2 ⟨rfl, Or.inl ⟨rfl, hcur, Or.inl rfl⟩⟩
      · refine Or.inr ((anyLoop_events _ _ _ _ _ _).2 (Or.inr ⟨i, _, hi, ?_⟩))
        rw [Nat.zero_add]
        exact (anyStep_events _ _ _ _ _).2 ⟨rfl, Or.inr (Or.inl ⟨rfl, Option.not_isSome_iff_eq_none.1 hcur, rfl⟩)⟩
    · intro x hx
      refine (anyLoop_sets _ _ _ _ _ _).2 (Or.inr ⟨i, _, hi, ?_⟩)
      rw [Nat.zero_add]
      exact (anyStep_sets _ _ _ _ _).2 ⟨hx, Or.inr (Or.inl rfl)⟩
  rcases hp with hp | hp
  all_goals
    refine ⟨_, by unfold call; rw [hf, hp]; rfl, ?_⟩
    intro i s ha
    obtain ⟨h1, h2⟩ := key c.params _ i s ha
    rw [hp] at h1 h2
    exact ⟨h1, fun x hx => List.mem_append_left _ (h2 x hx)⟩

/-! ### Examples -/

/-- `f (x, "a", y = 0)` for `void f (int, int, ...)`: the second argument is wrong, the third is checked against `...` -/
example : call ⟨.function (some [3]) false, .none, none, declared [⟨false, false⟩, ⟨false, true⟩] true,
      [.expr true false [], .expr false false [], .expr true false [4], .expr true false [5]], []⟩ =
    some ⟨[.type 1, .pass 0 (.param 0), .pass 1 (.param 1), .unique 1, .pass 2 (.param 2), .use 3], [4, 5, 3], false⟩ := by decide

/-- `fprintf (f, "%d", x = 1, y = 2, z = 3)`: one conversion -/
example : call ⟨.function (some []) false, .printf, some [2], declared [⟨false, false⟩, ⟨false, false⟩] true,
      [.expr true false [], .expr true false [9], .expr true false [1], .expr true false [2], .expr true false [3]], []⟩ =
    some ⟨[.pass 2 .conversion, .pass 0 (.param 0)], [1, 2, 3], false⟩ := by decide

/-- `printf (x, y = 1)`: the format is no constant, and `y` is not known to be set -/
example : call ⟨.function (some []) false, .printf, none, declared [⟨false, false⟩] true,
      [.expr true false [], .expr true false [1]], []⟩ = some ⟨[.formatConst], [], false⟩ := by decide

/-- too few arguments -/
example : call ⟨.function none false, .printf, none, declared [⟨false, false⟩, ⟨false, false⟩] true, [.expr true false []], []⟩ =
    some ⟨[.leastCount 1 2, .pass 0 (.param 0)], [], true⟩ := by decide

example : Parsed ⟨.function (some []) false, .printf, some [2], declared [⟨false, false⟩, ⟨false, false⟩] true,
      [.expr true false [], .expr true false [9], .expr true false [1], .expr true false [2], .expr true false [3]], []⟩
      [⟨false, false⟩, ⟨false, false⟩] true ∧
    WrongNumber [⟨false, false⟩] true 0 ∧ WrongNumber [⟨false, false⟩] false 2 ∧ ¬ WrongNumber [⟨false, false⟩] true 2 := by
  refine ⟨⟨rfl, by simp, by simp, by simp, ?_⟩, by simp [WrongNumber], by simp [WrongNumber], by simp [WrongNumber]⟩
  intro l hl j hj
  have := Option.some.inj hl; subst this
  simp at hj; simp [hj]

end ArgPass
end Splint
