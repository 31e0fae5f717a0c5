import Verif.Proofs.EvalOrder
/-! # Which expressions are reported -/
namespace Splint
namespace EvalOrder
open Spec

theorem ne_nil_iff {l : List Nat} : l ≠ [] ↔ ∃ x, x ∈ l :=
  ⟨List.exists_mem_of_ne_nil l, fun ⟨_, h⟩ h' => by rw [h'] at h; cases h⟩

theorem Says.touches {e : Exp} {n : Node} (h : Says e n) (x : Nat) :
    Touches e x ↔ x ∈ n.uses ∨ n.sref = some x ∨ x ∈ n.sets := by
  constructor
  · intro ht
    rcases touches_iff.1 ht with hd | hd
    · exact Or.inr (Or.inr ((h.sets x).2 hd))
    · rcases h.reads x hd with hu | hu
      · exact Or.inl hu
      · exact Or.inr (Or.inl hu)
  · rintro (hu | hu | hu)
    · exact h.uses x (Or.inl hu)
    · exact h.uses x (Or.inr hu)
    · exact touches_iff.2 (Or.inl ((h.sets x).1 hu))

theorem mem_definedAux {a b : Node} {x : Nat} : x ∈ definedAux a b ↔
    (x ∈ a.uses ∧ x ∈ b.sets) ∨ (x ∈ a.sets ∧ (b.sref = some x ∨ x ∈ b.uses ∨ x ∈ b.sets)) := by
  simp only [definedAux, List.mem_append, List.mem_filter, decide_eq_true_eq]
  refine or_congr Iff.rfl (and_congr Iff.rfl ?_)
  split
  · simp_all
  · split <;> simp_all

theorem conflict_iff {a b : Exp} {na nb : Node} (ha : Says a na) (hb : Says b nb) (x : Nat) :
    Conflict a b x ↔ (x ∈ na.uses ∨ na.sref = some x ∨ x ∈ na.sets) ∧ x ∈ nb.sets ∨
      x ∈ na.sets ∧ (x ∈ nb.uses ∨ nb.sref = some x ∨ x ∈ nb.sets) := by
  rw [Conflict, ha.touches, hb.touches, writes_iff, writes_iff, ha.sets, hb.sets]

/-- A message about a binary operator is about a variable on which the operands conflict. -/
theorem defined_conflict {a b : Exp} {na nb : Node} (ha : Says a na) (hb : Says b nb) {x : Nat}
    (h : x ∈ defined na nb) : Conflict a b x := by
  rw [conflict_iff ha hb]
  have haux : x ∈ definedAux na nb → _ := fun h => mem_definedAux.1 h
  unfold defined at h
  split at h
  · rename_i y hy
    split at h
    · split at h
      · have := haux h; tauto
      · simp only [List.mem_singleton] at h
        subst h
        tauto
    · have := haux h; tauto
  · have := haux h; tauto

theorem defined_ne {a b : Exp} {na nb : Node} (ha : Says a na) (hb : Says b nb) :
    defined na nb ≠ [] ↔ ∃ x, Conflict a b x ∧ ¬ (IsVar x a ∧ IsCall b) := by
  constructor
  · intro h
    obtain ⟨x, hx⟩ := List.exists_mem_of_ne_nil _ h
    refine ⟨x, defined_conflict ha hb hx, ?_⟩
    rintro ⟨hv, hc⟩
    obtain ⟨h1, h2, h3⟩ := ha.var x hv
    have hc' := hb.call.2 hc
    unfold defined at hx
    rw [h1] at hx
    simp only [hc', ite_true, ite_self] at hx
    rw [mem_definedAux, h2, h3] at hx
    simp at hx
  · rintro ⟨x, hx, hn⟩
    rw [conflict_iff ha hb] at hx
    have haux : x ∈ definedAux na nb ∨ (na.sref = some x ∧ x ∉ na.uses ∧ x ∉ na.sets ∧ x ∈ nb.sets) := by
      rw [mem_definedAux]; tauto
    have hne : x ∈ definedAux na nb → definedAux na nb ≠ [] := fun h h' => by rw [h'] at h; cases h
    unfold defined
    rcases haux with haux | ⟨h1, h2, h3, h4⟩
    · split
      · split
        · split
          · exact hne haux
          · simp
        · exact hne haux
      · exact hne haux
    · rw [h1]
      simp only [h4, ite_true]
      have hv := ha.bare x h1 h2 h3
      have : nb.call = false := by
        rw [← Bool.not_eq_true, hb.call]
        exact fun hc => hn ⟨hv, hc⟩
      rw [this]; simp

theorem defined_assign {e : Exp} {n : Node} (h : Says e n) (x y : Nat) :
    y ∈ defined (ident x) n ↔ y = x ∧ Writes e x ∧ ¬ IsCall e := by
  have hx := h.sets x
  rw [← writes_iff] at hx
  have hc := h.call
  have haux : definedAux (ident x) n = [] := rfl
  simp only [defined, ident] at haux ⊢
  split
  · rename_i hs
    split
    · rename_i hcall
      rw [haux]; simp; exact fun _ _ => hc.1 hcall
    · rename_i hcall
      simp only [List.mem_singleton]
      exact ⟨fun hy => ⟨hy, hx.1 hs, fun hh => hcall (hc.2 hh)⟩, fun hy => hy.1⟩
  · rename_i hs
    rw [haux]; simp; exact fun _ hw => absurd (hx.2 hw) hs

/-! ## Arguments -/

theorem mem_sequencingOne {el : Node} {others : List Node} {x : Nat} :
    x ∈ sequencingOne el others ↔ x ∈ el.sets ∧ ∃ j ∈ others, x ∈ j.uses ∨ x ∈ j.sets := by
  simp only [sequencingOne, List.mem_flatMap]
  constructor
  · rintro ⟨y, hy, j, hj, h⟩
    split at h
    · simp only [List.mem_singleton] at h; subst h; exact ⟨hy, j, hj, Or.inl ‹_›⟩
    · split at h
      · simp only [List.mem_singleton] at h; subst h; exact ⟨hy, j, hj, Or.inr ‹_›⟩
      · cases h
  · rintro ⟨hy, j, hj, h⟩
    refine ⟨x, hy, j, hj, ?_⟩
    split
    · simp
    · rw [if_pos (by tauto)]; simp

/-- Two nodes conflict on `x`. -/
def NConf (x : Nat) (a b : Node) : Prop :=
  x ∈ a.sets ∧ (x ∈ b.uses ∨ x ∈ b.sets) ∨ x ∈ b.sets ∧ (x ∈ a.uses ∨ x ∈ a.sets)

/-- Some pair of the nodes conflicts. -/
def Pairs (x : Nat) : List Node → Prop
  | [] => False
  | n :: ns => (∃ m ∈ ns, NConf x n m) ∨ Pairs x ns

theorem mem_sequencingFrom (pre ns : List Node) (x : Nat) :
    x ∈ sequencingFrom pre ns ↔
      (∃ n ∈ ns, x ∈ n.sets ∧ ∃ m ∈ pre, x ∈ m.uses ∨ x ∈ m.sets) ∨ Pairs x ns := by
  induction ns generalizing pre with
  | nil => simp [sequencingFrom, Pairs]
  | cons n ns ih =>
    simp only [sequencingFrom, List.mem_append, mem_sequencingOne, ih, Pairs, List.mem_cons,
      exists_eq_or_imp, List.not_mem_nil, or_false, NConf]
    constructor
    · rintro (⟨h1, m, hm | hm, h2⟩ | ⟨m, hm, h1, k, hk | hk, h2⟩ | h)
      · exact Or.inl (Or.inl ⟨h1, m, hm, h2⟩)
      · exact Or.inr (Or.inl ⟨m, hm, Or.inl ⟨h1, h2⟩⟩)
      · exact Or.inl (Or.inr ⟨m, hm, h1, k, hk, h2⟩)
      · subst hk
        exact Or.inr (Or.inl ⟨m, hm, Or.inr ⟨h1, h2⟩⟩)
      · exact Or.inr (Or.inr h)
    · rintro ((⟨h1, m, hm, h2⟩ | ⟨m, hm, h1, k, hk, h2⟩) | ⟨m, hm, ⟨h1, h2⟩ | ⟨h1, h2⟩⟩ | h)
      · exact Or.inl ⟨h1, m, Or.inl hm, h2⟩
      · exact Or.inr (Or.inl ⟨m, hm, h1, k, Or.inl hk, h2⟩)
      · exact Or.inl ⟨h1, m, Or.inr hm, h2⟩
      · exact Or.inr (Or.inl ⟨m, hm, h1, n, Or.inr rfl, h2⟩)
      · exact Or.inr (Or.inr h)

theorem mem_sequencing (ns : List Node) (x : Nat) : x ∈ sequencing ns ↔ Pairs x ns := by
  unfold sequencing
  split
  · rw [mem_sequencingFrom]; simp
  · rename_i h
    match ns, h with
    | [], _ => simp [Pairs]
    | [n], _ => simp [Pairs]
    | _ :: _ :: _, h => simp at h

theorem has_args {as : Args} {p : Node → Prop} :
    (∃ m ∈ (checkArgs as).1.map fun n => n.use n.sref, p m) ↔
      ∃ f, Args.Has f as ∧ p ((check f).1.use (check f).1.sref) := by
  induction as using Args.rec (motive_1 := fun _ => True) with
  | nil => simp [checkArgs, Args.Has]
  | cons e as _ ih =>
    simp only [checkArgs, List.map_cons, List.mem_cons, exists_eq_or_imp, ih, Args.Has]
    constructor
    · rintro (h | ⟨f, h1, h2⟩)
      · exact ⟨e, Or.inl rfl, h⟩
      · exact ⟨f, Or.inr h1, h2⟩
    · rintro ⟨f, rfl | h1, h2⟩
      · exact Or.inl h2
      · exact Or.inr ⟨f, h1, h2⟩
  | _ => trivial

theorem nconf_iff (e f : Exp) (x : Nat) :
    NConf x ((check e).1.use (check e).1.sref) ((check f).1.use (check f).1.sref) ↔ Conflict e f x := by
  rw [conflict_iff (nodeSays e) (nodeSays f)]
  simp only [NConf, use_sets, use_uses]
  tauto

theorem pairs_iff (as : Args) (x : Nat) :
    Pairs x ((checkArgs as).1.map fun n => n.use n.sref) ↔ ArgsConflict x as := by
  induction as using Args.rec (motive_1 := fun _ => True) with
  | nil => simp [checkArgs, Pairs, ArgsConflict]
  | cons e as _ ih =>
    have := has_args (as := as) (p := NConf x ((check e).1.use (check e).1.sref))
    simp only [checkArgs, List.map_cons, Pairs, ArgsConflict, ih, this, nconf_iff]
  | _ => trivial

/-! ## Parts of expressions -/

/-- Some part of the expression has the property. -/
def Somewhere (P : Exp → Prop) (e : Exp) : Prop := ∃ s, Part s e ∧ P s

def SomewhereArgs (P : Exp → Prop) (as : Args) : Prop := ∃ s, PartArgs s as ∧ P s

variable {P : Exp → Prop}

theorem sw_const : Somewhere P .const ↔ P .const :=
  ⟨fun ⟨_, h, hp⟩ => by cases h; exact hp, fun h => ⟨_, .self, h⟩⟩

theorem sw_var {x} : Somewhere P (.var x) ↔ P (.var x) :=
  ⟨fun ⟨_, h, hp⟩ => by cases h; exact hp, fun h => ⟨_, .self, h⟩⟩

theorem sw_incr {x} : Somewhere P (.incr x) ↔ P (.incr x) :=
  ⟨fun ⟨_, h, hp⟩ => by cases h; exact hp, fun h => ⟨_, .self, h⟩⟩

theorem sw_paren {e} : Somewhere P (.paren e) ↔ Somewhere P e ∨ P (.paren e) := by
  constructor
  · rintro ⟨s, h, hp⟩
    cases h with
    | self => exact Or.inr hp
    | paren h => exact Or.inl ⟨s, h, hp⟩
  · rintro (⟨s, h, hp⟩ | hp)
    exacts [⟨s, .paren h, hp⟩, ⟨_, .self, hp⟩]

theorem sw_unary {e} : Somewhere P (.unary e) ↔ Somewhere P e ∨ P (.unary e) := by
  constructor
  · rintro ⟨s, h, hp⟩
    cases h with
    | self => exact Or.inr hp
    | unary h => exact Or.inl ⟨s, h, hp⟩
  · rintro (⟨s, h, hp⟩ | hp)
    exacts [⟨s, .unary h, hp⟩, ⟨_, .self, hp⟩]

theorem sw_assign {x e} : Somewhere P (.assign x e) ↔ Somewhere P e ∨ P (.assign x e) := by
  constructor
  · rintro ⟨s, h, hp⟩
    cases h with
    | self => exact Or.inr hp
    | assign h => exact Or.inl ⟨s, h, hp⟩
  · rintro (⟨s, h, hp⟩ | hp)
    exacts [⟨s, .assign h, hp⟩, ⟨_, .self, hp⟩]

theorem sw_opAssign {x e} : Somewhere P (.opAssign x e) ↔ Somewhere P e ∨ P (.opAssign x e) := by
  constructor
  · rintro ⟨s, h, hp⟩
    cases h with
    | self => exact Or.inr hp
    | opAssign h => exact Or.inl ⟨s, h, hp⟩
  · rintro (⟨s, h, hp⟩ | hp)
    exacts [⟨s, .opAssign h, hp⟩, ⟨_, .self, hp⟩]

theorem sw_bin {a b} : Somewhere P (.bin a b) ↔ (Somewhere P a ∨ Somewhere P b) ∨ P (.bin a b) := by
  constructor
  · rintro ⟨s, h, hp⟩
    cases h with
    | self => exact Or.inr hp
    | binL h => exact Or.inl (Or.inl ⟨s, h, hp⟩)
    | binR h => exact Or.inl (Or.inr ⟨s, h, hp⟩)
  · rintro ((⟨s, h, hp⟩ | ⟨s, h, hp⟩) | hp)
    exacts [⟨s, .binL h, hp⟩, ⟨s, .binR h, hp⟩, ⟨_, .self, hp⟩]

theorem sw_logic {a b} :
    Somewhere P (.logic a b) ↔ (Somewhere P a ∨ Somewhere P b) ∨ P (.logic a b) := by
  constructor
  · rintro ⟨s, h, hp⟩
    cases h with
    | self => exact Or.inr hp
    | logicL h => exact Or.inl (Or.inl ⟨s, h, hp⟩)
    | logicR h => exact Or.inl (Or.inr ⟨s, h, hp⟩)
  · rintro ((⟨s, h, hp⟩ | ⟨s, h, hp⟩) | hp)
    exacts [⟨s, .logicL h, hp⟩, ⟨s, .logicR h, hp⟩, ⟨_, .self, hp⟩]

theorem sw_comma {a b} :
    Somewhere P (.comma a b) ↔ (Somewhere P a ∨ Somewhere P b) ∨ P (.comma a b) := by
  constructor
  · rintro ⟨s, h, hp⟩
    cases h with
    | self => exact Or.inr hp
    | commaL h => exact Or.inl (Or.inl ⟨s, h, hp⟩)
    | commaR h => exact Or.inl (Or.inr ⟨s, h, hp⟩)
  · rintro ((⟨s, h, hp⟩ | ⟨s, h, hp⟩) | hp)
    exacts [⟨s, .commaL h, hp⟩, ⟨s, .commaR h, hp⟩, ⟨_, .self, hp⟩]

theorem sw_cond {p a b} : Somewhere P (.cond p a b) ↔
    (Somewhere P p ∨ Somewhere P a ∨ Somewhere P b) ∨ P (.cond p a b) := by
  constructor
  · rintro ⟨s, h, hp⟩
    cases h with
    | self => exact Or.inr hp
    | condP h => exact Or.inl (Or.inl ⟨s, h, hp⟩)
    | condL h => exact Or.inl (Or.inr (Or.inl ⟨s, h, hp⟩))
    | condR h => exact Or.inl (Or.inr (Or.inr ⟨s, h, hp⟩))
  · rintro ((⟨s, h, hp⟩ | ⟨s, h, hp⟩ | ⟨s, h, hp⟩) | hp)
    exacts [⟨s, .condP h, hp⟩, ⟨s, .condL h, hp⟩, ⟨s, .condR h, hp⟩, ⟨_, .self, hp⟩]

theorem sw_call {m as} : Somewhere P (.call m as) ↔ SomewhereArgs P as ∨ P (.call m as) := by
  constructor
  · rintro ⟨s, h, hp⟩
    cases h with
    | self => exact Or.inr hp
    | call h => exact Or.inl ⟨s, h, hp⟩
  · rintro (⟨s, h, hp⟩ | hp)
    exacts [⟨s, .call h, hp⟩, ⟨_, .self, hp⟩]

theorem sw_nil : SomewhereArgs P .nil ↔ False :=
  ⟨fun ⟨_, h, _⟩ => (by cases h), False.elim⟩

theorem sw_cons {e as} : SomewhereArgs P (.cons e as) ↔ Somewhere P e ∨ SomewhereArgs P as := by
  constructor
  · rintro ⟨s, h, hp⟩
    cases h with
    | head h => exact Or.inl ⟨s, h, hp⟩
    | tail h => exact Or.inr ⟨s, h, hp⟩
  · rintro (⟨s, h, hp⟩ | ⟨s, h, hp⟩)
    exacts [⟨s, .head h, hp⟩, ⟨s, .tail h, hp⟩]

/-! ## Reports of an expression -/

/-- The messages about the expression itself. -/
def own : Exp → List Nat
  | .bin a b => defined (check a).1 (check b).1
  | .assign x e => defined (ident x) (check e).1
  | .opAssign x e => defined (ident x) (check e).1
  | .call _ as => sequencing ((checkArgs as).1.map fun n => n.use n.sref)
  | _ => []

mutual
theorem mem_reports (x : Nat) : ∀ e : Exp, x ∈ (check e).2 ↔ Somewhere (fun s => x ∈ own s) e
  | .const => by simp [check, sw_const, own]
  | .var _ => by simp [check, sw_var, own]
  | .incr _ => by simp [check, sw_incr, own]
  | .paren e => by simp [check, sw_paren, own, mem_reports x e]
  | .unary e => by simp [check, sw_unary, own, mem_reports x e]
  | .bin a b => by
    simp only [check, sw_bin, own, List.mem_append, mem_reports x a, mem_reports x b]
  | .logic a b => by
    simp [check, sw_logic, own, List.mem_append, mem_reports x a, mem_reports x b]
  | .comma a b => by
    simp [check, sw_comma, own, List.mem_append, mem_reports x a, mem_reports x b]
  | .cond p a b => by
    simp [check, sw_cond, own, List.mem_append, mem_reports x p, mem_reports x a, mem_reports x b,
      or_assoc]
  | .assign y e => by simp only [check, sw_assign, own, List.mem_append, mem_reports x e]
  | .opAssign y e => by simp only [check, sw_opAssign, own, List.mem_append, mem_reports x e]
  | .call m as => by simp only [check, sw_call, own, List.mem_append, mem_reportsArgs x as]
theorem mem_reportsArgs (x : Nat) :
    ∀ as : Args, x ∈ (checkArgs as).2 ↔ SomewhereArgs (fun s => x ∈ own s) as
  | .nil => by simp [checkArgs, sw_nil]
  | .cons e as => by
    simp only [checkArgs, sw_cons, List.mem_append, mem_reports x e, mem_reportsArgs x as]
end

theorem own_ne (s : Exp) : own s ≠ [] ↔ Wrong s := by
  have hd : ∀ x e, defined (ident x) (check e).1 ≠ [] ↔ Writes e x ∧ ¬ IsCall e := by
    intro x e
    rw [ne_nil_iff]
    simp only [defined_assign (nodeSays e)]
    exact ⟨fun ⟨_, _, h⟩ => h, fun h => ⟨x, rfl, h⟩⟩
  cases s with
  | bin a b => exact defined_ne (nodeSays a) (nodeSays b)
  | assign x e => exact hd x e
  | opAssign x e => exact hd x e
  | call m as => rw [own, ne_nil_iff]; simp only [mem_sequencing, pairs_iff, Wrong]
  | _ => simp [own, Wrong]

theorem reports_iff (e : Exp) : reports e ≠ [] ↔ ∃ s, Part s e ∧ Wrong s := by
  rw [ne_nil_iff]
  simp only [reports, mem_reports, Somewhere, ← own_ne, ne_nil_iff]
  exact ⟨fun ⟨x, s, h1, h2⟩ => ⟨s, h1, x, h2⟩, fun ⟨s, h1, x, h2⟩ => ⟨x, s, h1, h2⟩⟩

/-! ## Interference -/

/-- Some of the runs has interfering accesses to `x`. -/
def Races (rs : List Run) (x : Nat) : Prop := ∃ r ∈ rs, x ∈ r.races

theorem races_append {rs ss : List Run} {x : Nat} : Races (rs ++ ss) x ↔ Races rs x ∨ Races ss x := by
  simp only [Races, List.mem_append]
  constructor
  · rintro ⟨r, h | h, hx⟩
    exacts [Or.inl ⟨r, h, hx⟩, Or.inr ⟨r, h, hx⟩]
  · rintro (⟨r, h, hx⟩ | ⟨r, h, hx⟩)
    exacts [⟨r, Or.inl h, hx⟩, ⟨r, Or.inr h, hx⟩]

theorem races_andThen {rs ss : List Run} (hr : ∃ r, r ∈ rs) (hs : ∃ s, s ∈ ss) {x : Nat} :
    Races (both Run.andThen rs ss) x ↔ Races rs x ∨ Races ss x := by
  obtain ⟨r0, hr0⟩ := hr
  obtain ⟨s0, hs0⟩ := hs
  simp only [Races, mem_both]
  constructor
  · rintro ⟨_, ⟨r, hr, s, hs, rfl⟩, hx⟩
    rcases List.mem_append.1 hx with h | h
    exacts [Or.inl ⟨r, hr, h⟩, Or.inr ⟨s, hs, h⟩]
  · rintro (⟨r, hr, hx⟩ | ⟨s, hs, hx⟩)
    · exact ⟨_, ⟨r, hr, s0, hs0, rfl⟩, List.mem_append_left _ hx⟩
    · exact ⟨_, ⟨r0, hr0, s, hs, rfl⟩, List.mem_append_right _ hx⟩

/-- Runs of the two sides have accesses to `x`, one of them a write. -/
def Clash (rs ss : List Run) (x : Nat) : Prop :=
  (Does rs ⟨x, true⟩ ∨ Does rs ⟨x, false⟩) ∧ Does ss ⟨x, true⟩ ∨
  Does rs ⟨x, true⟩ ∧ (Does ss ⟨x, true⟩ ∨ Does ss ⟨x, false⟩)

theorem clash_iff {rs ss : List Run} {x : Nat} :
    Clash rs ss x ↔ ∃ r ∈ rs, ∃ s ∈ ss, x ∈ clashes r.all s.all := by
  simp only [mem_clashes]
  constructor
  · rintro (⟨⟨r, hr, ha⟩ | ⟨r, hr, ha⟩, ⟨s, hs, hb⟩⟩ | ⟨⟨r, hr, ha⟩, ⟨s, hs, hb⟩ | ⟨s, hs, hb⟩⟩)
    · exact ⟨r, hr, s, hs, _, ha, _, hb, rfl, rfl, Or.inl rfl⟩
    · exact ⟨r, hr, s, hs, _, ha, _, hb, rfl, rfl, Or.inr rfl⟩
    · exact ⟨r, hr, s, hs, _, ha, _, hb, rfl, rfl, Or.inl rfl⟩
    · exact ⟨r, hr, s, hs, _, ha, _, hb, rfl, rfl, Or.inl rfl⟩
  · rintro ⟨r, hr, s, hs, ⟨_, wa⟩, ha, ⟨_, wb⟩, hb, rfl, h2, hw⟩
    simp only at h2 hw
    subst h2
    have h1 : Does rs ⟨_, wa⟩ := ⟨r, hr, ha⟩
    have h2 : Does ss ⟨_, wb⟩ := ⟨s, hs, hb⟩
    unfold Clash
    cases wa <;> cases wb <;> simp_all

theorem races_unordered {rs ss : List Run} (hr : ∃ r, r ∈ rs) (hs : ∃ s, s ∈ ss) {x : Nat} :
    Races (both Run.unordered rs ss) x ↔ (Races rs x ∨ Races ss x) ∨ Clash rs ss x := by
  obtain ⟨r0, hr0⟩ := hr
  obtain ⟨s0, hs0⟩ := hs
  rw [clash_iff]
  simp only [Races, mem_both]
  constructor
  · rintro ⟨_, ⟨r, hr, s, hs, rfl⟩, hx⟩
    rcases List.mem_append.1 hx with h | h
    · rcases List.mem_append.1 h with h | h
      exacts [Or.inl (Or.inl ⟨r, hr, h⟩), Or.inl (Or.inr ⟨s, hs, h⟩)]
    · exact Or.inr ⟨r, hr, s, hs, h⟩
  · rintro ((⟨r, hr, hx⟩ | ⟨s, hs, hx⟩) | ⟨r, hr, s, hs, hx⟩)
    · exact ⟨_, ⟨r, hr, s0, hs0, rfl⟩, List.mem_append_left _ (List.mem_append_left _ hx)⟩
    · exact ⟨_, ⟨r0, hr0, s, hs, rfl⟩, List.mem_append_left _ (List.mem_append_right _ hx)⟩
    · exact ⟨_, ⟨r, hr, s, hs, rfl⟩, List.mem_append_right _ hx⟩

theorem clash_conflict {a b : Exp} {x : Nat} : Clash (runs a) (runs b) x ↔ Conflict a b x := by
  rw [Clash, Conflict, touches_iff, touches_iff]; rfl

theorem does_args {as : Args} {c : Acc} :
    Does (argRuns as) c ↔ ∃ f, Args.Has f as ∧ Does (runs f) c := by
  induction as using Args.rec (motive_1 := fun _ => True) with
  | nil => simp [argRuns, Does, Run.all, Args.Has]
  | cons e as _ ih =>
    rw [does_args_cons, ih]
    simp only [Args.Has]
    constructor
    · rintro (h | ⟨f, h1, h2⟩)
      exacts [⟨e, Or.inl rfl, h⟩, ⟨f, Or.inr h1, h2⟩]
    · rintro ⟨f, rfl | h1, h2⟩
      exacts [Or.inl h2, Or.inr ⟨f, h1, h2⟩]
  | _ => trivial

theorem clash_args {e : Exp} {as : Args} {x : Nat} :
    Clash (runs e) (argRuns as) x ↔ ∃ f, Args.Has f as ∧ Conflict e f x := by
  simp only [Clash, does_args, ← clash_conflict]
  constructor
  · rintro (⟨h, f, hf, h2⟩ | ⟨h, ⟨f, hf, h2⟩ | ⟨f, hf, h2⟩⟩)
    · exact ⟨f, hf, Or.inl ⟨h, h2⟩⟩
    · exact ⟨f, hf, Or.inr ⟨h, Or.inl h2⟩⟩
    · exact ⟨f, hf, Or.inr ⟨h, Or.inr h2⟩⟩
  · rintro ⟨f, hf, ⟨h, h2⟩ | ⟨h, h2 | h2⟩⟩
    · exact Or.inl ⟨h, f, hf, h2⟩
    · exact Or.inr ⟨h, Or.inl ⟨f, hf, h2⟩⟩
    · exact Or.inr ⟨h, Or.inr ⟨f, hf, h2⟩⟩

/-- Everything that is pending is a write. -/
theorem pending_write : ∀ (e : Exp) (r : Run), r ∈ runs e → ∀ a ∈ r.pending, a.write = true
  | .const, r, hr, a, ha => by
    simp only [runs, List.mem_singleton] at hr; subst hr; cases ha
  | .var x, r, hr, a, ha => by
    simp only [runs, List.mem_singleton] at hr; subst hr; cases ha
  | .incr x, r, hr, a, ha => by
    simp only [runs, List.mem_singleton] at hr; subst hr
    simp only [Run.store, List.nil_append, List.mem_singleton] at ha; subst ha; rfl
  | .paren e, r, hr, a, ha => pending_write e r (by rwa [runs] at hr) a ha
  | .unary e, r, hr, a, ha => pending_write e r (by rwa [runs] at hr) a ha
  | .bin p q, r, hr, a, ha => by
    rw [runs, mem_both] at hr
    obtain ⟨s, hs, t, ht, rfl⟩ := hr
    rcases List.mem_append.1 ha with h | h
    exacts [pending_write p s hs a h, pending_write q t ht a h]
  | .logic p q, r, hr, a, ha => by
    rw [runs, List.mem_append, mem_both] at hr
    rcases hr with hr | ⟨s, hs, t, ht, rfl⟩
    · obtain ⟨s, hs, rfl⟩ := List.mem_map.1 hr
      cases ha
    · exact pending_write q t ht a ha
  | .comma p q, r, hr, a, ha => by
    rw [runs, mem_both] at hr
    obtain ⟨s, hs, t, ht, rfl⟩ := hr
    exact pending_write q t ht a ha
  | .cond p q q', r, hr, a, ha => by
    rw [runs, List.mem_append, mem_both, mem_both] at hr
    rcases hr with ⟨s, hs, t, ht, rfl⟩ | ⟨s, hs, t, ht, rfl⟩
    exacts [pending_write q t ht a ha, pending_write q' t ht a ha]
  | .assign x e, r, hr, a, ha => by
    rw [runs] at hr
    obtain ⟨s, hs, rfl⟩ := List.mem_map.1 hr
    rcases List.mem_append.1 ha with h | h
    · exact pending_write e s hs a h
    · simp only [List.mem_singleton] at h; subst h; rfl
  | .opAssign x e, r, hr, a, ha => by
    rw [runs] at hr
    obtain ⟨s, hs, rfl⟩ := List.mem_map.1 hr
    obtain ⟨u, hu, t, ht, rfl⟩ := mem_both.1 hs
    simp only [List.mem_singleton] at hu; subst hu
    rcases List.mem_append.1 ha with h | h
    · exact pending_write e t ht a (by simpa [Run.unordered] using h)
    · simp only [List.mem_singleton] at h; subst h; rfl
  | .call m as, r, hr, a, ha => by
    rw [runs] at hr
    obtain ⟨s, hs, rfl⟩ := List.mem_map.1 hr
    cases ha

/-- Nothing that a call does is pending. -/
theorem call_leaves {e : Exp} (h : IsCall e) (x : Nat) : ¬ Leaves e x := by
  cases e with
  | call m as =>
    rintro ⟨r, hr, hx⟩
    rw [runs] at hr
    obtain ⟨s, hs, rfl⟩ := List.mem_map.1 hr
    cases hx
  | _ => cases h

theorem leaves_writes {e : Exp} {x : Nat} : Leaves e x → Writes e x :=
  fun ⟨r, hr, h⟩ => ⟨r, hr, List.mem_append_right _ h⟩

theorem pending_clash {e : Exp} {r : Run} (hr : r ∈ runs e) {x y : Nat} :
    x ∈ clashes r.pending [⟨y, true⟩] ↔ y = x ∧ (⟨x, true⟩ : Acc) ∈ r.pending := by
  simp only [mem_clashes, List.mem_singleton, exists_eq_left]
  constructor
  · rintro ⟨⟨z, w⟩, ha, rfl, rfl, -⟩
    have := pending_write e r hr _ ha
    simp only at this; subst this
    exact ⟨rfl, ha⟩
  · rintro ⟨rfl, h⟩
    exact ⟨_, h, rfl, rfl, Or.inl rfl⟩

mutual
theorem interferes_iff (x : Nat) : ∀ e : Exp, Races (runs e) x ↔ Somewhere (Interfering x) e
  | .const => by simp [runs, Races, sw_const, Interfering]
  | .var _ => by simp [runs, Races, sw_var, Interfering]
  | .incr y => by simp [runs, Races, sw_incr, Interfering, Run.store, clashes]
  | .paren e => by rw [runs, sw_paren, interferes_iff x e]; simp [Interfering]
  | .unary e => by rw [runs, sw_unary, interferes_iff x e]; simp [Interfering]
  | .bin a b => by
    rw [runs, races_unordered (runs_ne a) (runs_ne b), sw_bin, interferes_iff x a, interferes_iff x b,
      clash_conflict]
    rfl
  | .logic a b => by
    rw [runs, races_append, races_andThen (runs_ne a) (runs_ne b), sw_logic, ← interferes_iff x a,
      ← interferes_iff x b]
    have : Races ((runs a).map Run.complete) x ↔ Races (runs a) x := by
      simp [Races, Run.complete]
    rw [this]
    simp [Interfering]
  | .comma a b => by
    rw [runs, races_andThen (runs_ne a) (runs_ne b), sw_comma, interferes_iff x a, interferes_iff x b]
    simp [Interfering]
  | .cond p a b => by
    rw [runs, races_append, races_andThen (runs_ne p) (runs_ne a), races_andThen (runs_ne p) (runs_ne b),
      sw_cond, interferes_iff x p, interferes_iff x a, interferes_iff x b]
    simp only [Interfering]
    tauto
  | .assign y e => by
    rw [runs, sw_assign, ← interferes_iff x e]
    simp only [Races, List.mem_map, Interfering, Leaves]
    constructor
    · rintro ⟨_, ⟨r, hr, rfl⟩, hx⟩
      rcases List.mem_append.1 hx with h | h
      · exact Or.inl ⟨r, hr, h⟩
      · obtain ⟨h1, h2⟩ := (pending_clash hr).1 h
        exact Or.inr ⟨h1, r, hr, h2⟩
    · rintro (⟨r, hr, hx⟩ | ⟨h1, r, hr, h2⟩)
      · exact ⟨_, ⟨r, hr, rfl⟩, List.mem_append_left _ hx⟩
      · exact ⟨_, ⟨r, hr, rfl⟩, List.mem_append_right _ ((pending_clash hr).2 ⟨h1, h2⟩)⟩
  | .opAssign y e => by
    rw [runs, sw_opAssign, ← interferes_iff x e]
    have hu : Races (both Run.unordered [⟨[⟨y, false⟩], [], []⟩] (runs e)) x ↔
        Races (runs e) x ∨ (y = x ∧ Writes e x) := by
      rw [races_unordered ⟨_, List.mem_singleton.2 rfl⟩ (runs_ne e)]
      simp [Races, Clash, Does, Run.all, Writes]
      simp only [eq_comm (a := x) (b := y)]
    simp only [Interfering]
    rw [← hu]
    constructor
    · rintro ⟨_, hr, hx⟩
      obtain ⟨r, hm, rfl⟩ := List.mem_map.1 hr
      rcases List.mem_append.1 hx with h | h
      · exact ⟨r, hm, h⟩
      · refine hu.2 ?_
        obtain ⟨u, hu, t, ht, rfl⟩ := mem_both.1 hm
        simp only [List.mem_singleton] at hu; subst hu
        have h' : x ∈ clashes t.pending [⟨y, true⟩] := by simpa [Run.unordered] using h
        obtain ⟨h1, h2⟩ := (pending_clash ht).1 h'
        exact Or.inr ⟨h1, leaves_writes ⟨t, ht, h2⟩⟩
    · rintro ⟨r, hr, hx⟩
      exact ⟨_, List.mem_map_of_mem hr, List.mem_append_left _ hx⟩
  | .call m as => by
    rw [runs, sw_call]
    have : Races ((argRuns as).map fun r => r.complete.andThen ⟨m.map (⟨·, true⟩), [], []⟩) x ↔
        Races (argRuns as) x := by
      simp [Races, Run.complete, Run.andThen]
    rw [this, interferesArgs_iff x as]
    rfl
theorem interferesArgs_iff (x : Nat) : ∀ as : Args,
    Races (argRuns as) x ↔ SomewhereArgs (Interfering x) as ∨ ArgsConflict x as
  | .nil => by simp [argRuns, Races, sw_nil, ArgsConflict]
  | .cons e as => by
    rw [argRuns, races_unordered (runs_ne e) (argRuns_ne as), sw_cons, interferes_iff x e,
      interferesArgs_iff x as, clash_args, ArgsConflict]
    generalize (∃ f, Args.Has f as ∧ Conflict e f x) = p
    tauto
end

end EvalOrder
end Splint
