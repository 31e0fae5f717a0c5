import Verif.Spec.EvalOrder
import Verif.Tactics
/-! # Lemmas about the order of evaluation -/
namespace Splint
namespace EvalOrder
open Spec

theorem mem_ins {s : List Nat} {x y : Nat} : y ∈ ins s x ↔ y ∈ s ∨ y = x := by
  unfold ins
  split
  · constructor
    · exact Or.inl
    · rintro (h | rfl) <;> assumption
  · simp

theorem mem_union {s t : List Nat} {y : Nat} : y ∈ union s t ↔ y ∈ s ∨ y ∈ t := by
  unfold union
  induction t generalizing s with
  | nil => simp
  | cons a t ih => rw [List.foldl_cons, ih, mem_ins, List.mem_cons]; tauto

theorem use_uses {n : Node} {s : Option Nat} {y : Nat} :
    y ∈ (n.use s).uses ↔ y ∈ n.uses ∨ s = some y := by
  cases s with
  | none => simp [Node.use]
  | some x => simp only [Node.use, mem_ins, Option.some.injEq]; tauto

@[simp] theorem use_sets (n : Node) (s : Option Nat) : (n.use s).sets = n.sets := by
  cases s <;> rfl

@[simp] theorem use_sref (n : Node) (s : Option Nat) : (n.use s).sref = n.sref := by
  cases s <;> rfl

@[simp] theorem use_call (n : Node) (s : Option Nat) : (n.use s).call = n.call := by
  cases s <;> rfl

/-! ## Runs -/

theorem mem_both {f : Run → Run → Run} {as bs : List Run} {r : Run} :
    r ∈ both f as bs ↔ ∃ a ∈ as, ∃ b ∈ bs, f a b = r := by
  simp [both, List.mem_flatMap]

theorem mem_clashes {as bs : List Acc} {x : Nat} :
    x ∈ clashes as bs ↔ ∃ a ∈ as, ∃ b ∈ bs, a.x = x ∧ b.x = x ∧ (a.write = true ∨ b.write = true) := by
  simp only [clashes, List.mem_flatMap]
  constructor
  · rintro ⟨a, ha, b, hb, h⟩
    split at h
    · rename_i hc
      simp only [List.mem_singleton] at h
      exact ⟨a, ha, b, hb, h.symm, by rw [← hc.1]; exact h.symm, hc.2⟩
    · simp at h
  · rintro ⟨a, ha, b, hb, h1, h2, h3⟩
    refine ⟨a, ha, b, hb, ?_⟩
    rw [if_pos ⟨h1.trans h2.symm, h3⟩]
    simp [h1]

mutual
theorem runs_ne : ∀ e : Exp, ∃ r, r ∈ runs e
  | .const => ⟨_, List.mem_singleton.2 rfl⟩
  | .var _ => ⟨_, List.mem_singleton.2 rfl⟩
  | .paren e => by rw [runs]; exact runs_ne e
  | .unary e => by rw [runs]; exact runs_ne e
  | .incr _ => ⟨_, List.mem_singleton.2 rfl⟩
  | .bin a b => by
    obtain ⟨r, hr⟩ := runs_ne a
    obtain ⟨s, hs⟩ := runs_ne b
    exact ⟨_, by rw [runs]; exact mem_both.2 ⟨r, hr, s, hs, rfl⟩⟩
  | .logic a b => by
    obtain ⟨r, hr⟩ := runs_ne a
    exact ⟨_, by rw [runs]; exact List.mem_append_left _ (List.mem_map_of_mem hr)⟩
  | .comma a b => by
    obtain ⟨r, hr⟩ := runs_ne a
    obtain ⟨s, hs⟩ := runs_ne b
    exact ⟨_, by rw [runs]; exact mem_both.2 ⟨r, hr, s, hs, rfl⟩⟩
  | .cond p a b => by
    obtain ⟨r, hr⟩ := runs_ne p
    obtain ⟨s, hs⟩ := runs_ne a
    exact ⟨_, by rw [runs]; exact List.mem_append_left _ (mem_both.2 ⟨r, hr, s, hs, rfl⟩)⟩
  | .assign x e => by
    obtain ⟨r, hr⟩ := runs_ne e
    exact ⟨_, by rw [runs]; exact List.mem_map_of_mem hr⟩
  | .opAssign x e => by
    obtain ⟨r, hr⟩ := runs_ne e
    exact ⟨_, by rw [runs]; exact List.mem_map_of_mem (mem_both.2 ⟨_, List.mem_singleton.2 rfl, r, hr, rfl⟩)⟩
  | .call mods as => by
    obtain ⟨r, hr⟩ := argRuns_ne as
    exact ⟨_, by rw [runs]; exact List.mem_map_of_mem hr⟩
theorem argRuns_ne : ∀ as : Args, ∃ r, r ∈ argRuns as
  | .nil => ⟨_, List.mem_singleton.2 rfl⟩
  | .cons e as => by
    obtain ⟨r, hr⟩ := runs_ne e
    obtain ⟨s, hs⟩ := argRuns_ne as
    exact ⟨_, by rw [argRuns]; exact mem_both.2 ⟨r, hr, s, hs, rfl⟩⟩
end

/-- Some of the runs has the access `a`. -/
def Does (rs : List Run) (a : Acc) : Prop := ∃ r ∈ rs, a ∈ r.all

theorem writes_iff {e : Exp} {x : Nat} : Writes e x ↔ Does (runs e) ⟨x, true⟩ := Iff.rfl

theorem touches_iff {e : Exp} {x : Nat} :
    Touches e x ↔ Does (runs e) ⟨x, true⟩ ∨ Does (runs e) ⟨x, false⟩ := by
  constructor
  · rintro ⟨r, hr, ⟨y, w⟩, ha, rfl⟩
    cases w
    · exact Or.inr ⟨r, hr, ha⟩
    · exact Or.inl ⟨r, hr, ha⟩
  · rintro (⟨r, hr, ha⟩ | ⟨r, hr, ha⟩)
    · exact ⟨r, hr, _, ha, rfl⟩
    · exact ⟨r, hr, _, ha, rfl⟩

theorem does_append {rs ss : List Run} {a : Acc} : Does (rs ++ ss) a ↔ Does rs a ∨ Does ss a := by
  simp only [Does, List.mem_append]
  constructor
  · rintro ⟨r, h | h, ha⟩
    · exact Or.inl ⟨r, h, ha⟩
    · exact Or.inr ⟨r, h, ha⟩
  · rintro (⟨r, h, ha⟩ | ⟨r, h, ha⟩)
    · exact ⟨r, Or.inl h, ha⟩
    · exact ⟨r, Or.inr h, ha⟩

theorem does_both {f : Run → Run → Run} (hf : ∀ r s a, a ∈ (f r s).all ↔ a ∈ r.all ∨ a ∈ s.all)
    {rs ss : List Run} (hr : ∃ r, r ∈ rs) (hs : ∃ s, s ∈ ss) {a : Acc} :
    Does (both f rs ss) a ↔ Does rs a ∨ Does ss a := by
  obtain ⟨r0, hr0⟩ := hr
  obtain ⟨s0, hs0⟩ := hs
  simp only [Does, mem_both]
  constructor
  · rintro ⟨_, ⟨r, hr, s, hs, rfl⟩, ha⟩
    rcases (hf r s a).1 ha with h | h
    · exact Or.inl ⟨r, hr, h⟩
    · exact Or.inr ⟨s, hs, h⟩
  · rintro (⟨r, hr, ha⟩ | ⟨s, hs, ha⟩)
    · exact ⟨_, ⟨r, hr, s0, hs0, rfl⟩, (hf _ _ _).2 (Or.inl ha)⟩
    · exact ⟨_, ⟨r0, hr0, s, hs, rfl⟩, (hf _ _ _).2 (Or.inr ha)⟩

theorem unordered_all (r s : Run) (a : Acc) : a ∈ (r.unordered s).all ↔ a ∈ r.all ∨ a ∈ s.all := by
  simp only [Run.unordered, Run.all, List.mem_append]; tauto

theorem andThen_all (r s : Run) (a : Acc) : a ∈ (r.andThen s).all ↔ a ∈ r.all ∨ a ∈ s.all := by
  simp only [Run.andThen, Run.all, List.mem_append]; tauto

theorem store_all (r : Run) (x : Nat) (a : Acc) : a ∈ (r.store x).all ↔ a ∈ r.all ∨ a = ⟨x, true⟩ := by
  simp only [Run.store, Run.all, List.mem_append, List.mem_singleton]; tauto

theorem complete_all (r : Run) (a : Acc) : a ∈ r.complete.all ↔ a ∈ r.all := by
  simp only [Run.complete, Run.all, List.mem_append, List.not_mem_nil]; tauto

theorem does_map {f : Run → Run} {p : Acc → Prop} (hf : ∀ r a, a ∈ (f r).all ↔ a ∈ r.all ∨ p a)
    {rs : List Run} (hr : ∃ r, r ∈ rs) {a : Acc} : Does (rs.map f) a ↔ Does rs a ∨ p a := by
  obtain ⟨r0, hr0⟩ := hr
  simp only [Does, List.mem_map]
  constructor
  · rintro ⟨_, ⟨r, hr, rfl⟩, ha⟩
    rcases (hf r a).1 ha with h | h
    · exact Or.inl ⟨r, hr, h⟩
    · exact Or.inr h
  · rintro (⟨r, hr, ha⟩ | h)
    · exact ⟨_, ⟨r, hr, rfl⟩, (hf _ _).2 (Or.inl ha)⟩
    · exact ⟨_, ⟨r0, hr0, rfl⟩, (hf _ _).2 (Or.inr h)⟩

theorem does_bin {a b : Exp} {c : Acc} : Does (runs (.bin a b)) c ↔ Does (runs a) c ∨ Does (runs b) c := by
  rw [runs]; exact does_both unordered_all (runs_ne a) (runs_ne b)

theorem does_logic {a b : Exp} {c : Acc} :
    Does (runs (.logic a b)) c ↔ Does (runs a) c ∨ Does (runs b) c := by
  rw [runs, does_append, does_both andThen_all (runs_ne a) (runs_ne b),
    does_map (p := fun _ => False) (fun r a => by rw [complete_all]; tauto) (runs_ne a)]
  tauto

theorem does_comma {a b : Exp} {c : Acc} :
    Does (runs (.comma a b)) c ↔ Does (runs a) c ∨ Does (runs b) c := by
  rw [runs]; exact does_both andThen_all (runs_ne a) (runs_ne b)

theorem does_cond {p a b : Exp} {c : Acc} :
    Does (runs (.cond p a b)) c ↔ Does (runs p) c ∨ Does (runs a) c ∨ Does (runs b) c := by
  rw [runs, does_append, does_both andThen_all (runs_ne p) (runs_ne a),
    does_both andThen_all (runs_ne p) (runs_ne b)]
  tauto

theorem does_assign {x : Nat} {e : Exp} {c : Acc} :
    Does (runs (.assign x e)) c ↔ Does (runs e) c ∨ c = ⟨x, true⟩ := by
  rw [runs]; exact does_map (fun r a => store_all r x a) (runs_ne e)

theorem does_opAssign {x : Nat} {e : Exp} {c : Acc} :
    Does (runs (.opAssign x e)) c ↔ Does (runs e) c ∨ c = ⟨x, false⟩ ∨ c = ⟨x, true⟩ := by
  have hne := runs_ne e
  rw [runs, does_map (fun r a => store_all r x a), does_both unordered_all ⟨_, List.mem_singleton.2 rfl⟩ hne]
  · have : Does [⟨[⟨x, false⟩], [], []⟩] c ↔ c = ⟨x, false⟩ := by
      simp [Does, Run.all]
    rw [this]; tauto
  · obtain ⟨r, hr⟩ := hne
    exact ⟨_, mem_both.2 ⟨_, List.mem_singleton.2 rfl, r, hr, rfl⟩⟩

theorem does_incr {x : Nat} {c : Acc} :
    Does (runs (.incr x)) c ↔ c = ⟨x, false⟩ ∨ c = ⟨x, true⟩ := by
  simp [runs, Does, Run.store, Run.all]

theorem does_call {mods : List Nat} {as : Args} {c : Acc} :
    Does (runs (.call mods as)) c ↔ Does (argRuns as) c ∨ ∃ m ∈ mods, c = ⟨m, true⟩ := by
  rw [runs]
  refine does_map (p := fun c => ∃ m ∈ mods, c = ⟨m, true⟩) (fun r a => ?_) (argRuns_ne as)
  rw [andThen_all, complete_all]
  simp only [Run.all, List.append_nil, List.mem_map]
  constructor
  · rintro (h | ⟨m, hm, rfl⟩)
    · exact Or.inl h
    · exact Or.inr ⟨m, hm, rfl⟩
  · rintro (h | ⟨m, hm, rfl⟩)
    · exact Or.inl h
    · exact Or.inr ⟨m, hm, rfl⟩

theorem does_args_cons {e : Exp} {as : Args} {c : Acc} :
    Does (argRuns (.cons e as)) c ↔ Does (runs e) c ∨ Does (argRuns as) c := by
  rw [argRuns]; exact does_both unordered_all (runs_ne e) (argRuns_ne as)

/-! ## What the node of an expression nodeSays about it -/

structure Says (e : Exp) (n : Node) : Prop where
  sets : ∀ x, x ∈ n.sets ↔ Does (runs e) ⟨x, true⟩
  reads : ∀ x, Does (runs e) ⟨x, false⟩ → x ∈ n.uses ∨ n.sref = some x
  uses : ∀ x, x ∈ n.uses ∨ n.sref = some x → Touches e x
  bare : ∀ x, n.sref = some x → x ∉ n.uses → x ∉ n.sets → IsVar x e
  var : ∀ x, IsVar x e → n.sref = some x ∧ n.uses = [] ∧ n.sets = []
  call : n.call = true ↔ IsCall e

/-- The same for arguments, after their references are among the uses. -/
structure SaysArgs (as : Args) (ns : List Node) : Prop where
  sets : ∀ x, (∃ n ∈ ns, x ∈ n.sets) ↔ Does (argRuns as) ⟨x, true⟩
  reads : ∀ x, Does (argRuns as) ⟨x, false⟩ → ∃ n ∈ ns, x ∈ n.uses ∨ n.sref = some x
  uses : ∀ x, (∃ n ∈ ns, x ∈ n.uses ∨ n.sref = some x) →
    Does (argRuns as) ⟨x, true⟩ ∨ Does (argRuns as) ⟨x, false⟩

theorem mergeAll_sets (ns : List Node) (m : Node) (x : Nat) :
    x ∈ (ns.foldl Node.merge m).sets ↔ x ∈ m.sets ∨ ∃ n ∈ ns, x ∈ n.sets := by
  induction ns generalizing m with
  | nil => simp
  | cons n ns ih =>
    rw [List.foldl_cons, ih]
    simp only [Node.merge, mem_union, List.mem_cons, exists_eq_or_imp]
    tauto

theorem mergeAll_uses (ns : List Node) (m : Node) (x : Nat) :
    x ∈ (ns.foldl Node.merge m).uses ↔ x ∈ m.uses ∨ ∃ n ∈ ns, x ∈ n.uses := by
  induction ns generalizing m with
  | nil => simp
  | cons n ns ih =>
    rw [List.foldl_cons, ih]
    simp only [Node.merge, mem_union, List.mem_cons, exists_eq_or_imp]
    tauto

theorem makeOp_uses (a b : Node) (x : Nat) : x ∈ (makeOp a b).uses ↔
    (x ∈ a.uses ∨ a.sref = some x) ∨ (x ∈ b.uses ∨ b.sref = some x) := by
  simp only [makeOp, use_uses, Node.merge, mem_union, Node.copy]; tauto

theorem makeOp_sets (a b : Node) (x : Nat) : x ∈ (makeOp a b).sets ↔ x ∈ a.sets ∨ x ∈ b.sets := by
  simp only [makeOp, use_sets, Node.merge, mem_union, Node.copy]

theorem makeOp_sref (a b : Node) : (makeOp a b).sref = none := by
  simp only [makeOp, use_sref, Node.merge, Node.copy]

theorem makeOp_call (a b : Node) : (makeOp a b).call = false := by
  simp only [makeOp, use_call, Node.merge, Node.copy]

theorem produceGuards_uses (p : Node) (x : Nat) :
    x ∈ (produceGuards p).uses ↔ x ∈ p.uses ∨ p.sref = some x := by
  simp only [produceGuards, use_uses]

mutual
theorem nodeSays : ∀ e : Exp, Says e (check e).1
  | .const => by
    constructor <;> simp [check, Does, runs, Run.all, IsVar, IsCall]
  | .var x => by
    constructor <;> simp [check, ident, Does, runs, Run.all, IsVar, IsCall, Touches]
  | .paren e => by
    have h := nodeSays e
    have hr : runs (.paren e) = runs e := by rw [runs]
    constructor
    · intro x; rw [hr]; exact h.sets x
    · intro x; rw [hr]; exact h.reads x
    · intro x; rw [Touches, hr]; exact h.uses x
    · intro x; exact h.bare x
    · intro x; exact h.var x
    · simp [check, Node.copy, IsCall]
  | .unary e => by
    have h := nodeSays e
    have hr : runs (.unary e) = runs e := by rw [runs]
    constructor
    · intro x; rw [hr, check]; simp only [use_sets]; exact h.sets x
    · intro x; rw [hr, check]; simp only [use_uses]; exact fun hd => Or.inl (h.reads x hd)
    · intro x; rw [Touches, hr, check]; simp only [use_uses, use_sref, Node.copy]
      rintro (hd | hd)
      · exact h.uses x hd
      · cases hd
    · intro x; simp [check, Node.copy]
    · intro x hx; cases hx
    · simp [check, Node.copy, IsCall]
  | .incr x => by
    constructor
    · intro y; simp [check, Node.set, Node.use, Node.copy, ident, does_incr, mem_ins]
    · intro y; simp [check, Node.set, Node.use, Node.copy, ident, does_incr, mem_ins]
    · intro y; simp only [touches_iff, does_incr]
      simp [check, Node.set, Node.use, Node.copy, ident, mem_ins]
    · intro y; simp [check, Node.set, Node.use, Node.copy, ident]
    · intro y hy; cases hy
    · simp [check, Node.set, Node.use, Node.copy, ident, IsCall]
  | .bin a b => by
    have ha := nodeSays a
    have hb := nodeSays b
    constructor
    · intro x; simp only [check, makeOp_sets, does_bin, ha.sets, hb.sets]
    · intro x; simp only [check, makeOp_uses, does_bin]
      rintro (h | h)
      · exact Or.inl (Or.inl (ha.reads x h))
      · exact Or.inl (Or.inr (hb.reads x h))
    · intro x; simp only [check, makeOp_uses, makeOp_sref, touches_iff, does_bin]
      rintro ((h | h) | h)
      · have := touches_iff.1 (ha.uses x h); tauto
      · have := touches_iff.1 (hb.uses x h); tauto
      · cases h
    · intro x; simp [check, makeOp_sref]
    · intro x hx; cases hx
    · simp [check, makeOp_call, IsCall]
  | .logic a b => by
    have ha := nodeSays a
    have hb := nodeSays b
    constructor
    · intro x; simp only [check, makeOp_sets, does_logic, ← ha.sets, hb.sets, produceGuards, use_sets]
    · intro x; simp only [check, makeOp_uses, produceGuards_uses, does_logic]
      rintro (h | h)
      · exact Or.inl (Or.inl (Or.inl (ha.reads x h)))
      · exact Or.inl (Or.inr (hb.reads x h))
    · intro x; simp only [check, makeOp_uses, makeOp_sref, produceGuards_uses, touches_iff, does_logic]
      rintro (((h | h) | h) | h)
      · have := touches_iff.1 (ha.uses x h); tauto
      · simp [produceGuards] at h
      · have := touches_iff.1 (hb.uses x h); tauto
      · cases h
    · intro x; simp [check, makeOp_sref]
    · intro x hx; cases hx
    · simp [check, makeOp_call, IsCall]
  | .comma a b => by
    have ha := nodeSays a
    have hb := nodeSays b
    constructor
    · intro x; simp only [check, commaNode, use_sets, Node.merge, mem_union, Node.copy, does_comma,
        ← ha.sets, ← hb.sets]
    · intro x; simp only [check, commaNode, use_uses, Node.merge, mem_union, Node.copy, does_comma]
      rintro (h | h)
      · have := ha.reads x h; tauto
      · have := hb.reads x h; tauto
    · intro x; simp only [check, commaNode, use_uses, Node.merge, mem_union, Node.copy, touches_iff,
        does_comma]
      intro h
      have h1 := fun h => touches_iff.1 (ha.uses x h)
      have h2 := fun h => touches_iff.1 (hb.uses x h)
      tauto
    · intro x; simp only [check, commaNode, use_uses]
      intro h h'; exact absurd (Or.inr h) h'
    · intro x hx; cases hx
    · simp [check, commaNode, Node.merge, Node.copy, IsCall]
  | .cond p a b => by
    have hp := nodeSays p
    have ha := nodeSays a
    have hb := nodeSays b
    constructor
    · intro x; simp only [check, condNode, use_sets, Node.merge, mem_union, Node.copy, does_cond,
        produceGuards, ← hp.sets, ← ha.sets, ← hb.sets]
      tauto
    · intro x; simp only [check, condNode, use_uses, Node.merge, mem_union, Node.copy, does_cond,
        produceGuards]
      rintro (h | h | h)
      · have := hp.reads x h; tauto
      · have := ha.reads x h; tauto
      · have := hb.reads x h; tauto
    · intro x; simp only [check, condNode, use_uses, use_sref, Node.merge, mem_union, Node.copy, touches_iff,
        does_cond, produceGuards]
      intro h
      have h0 := fun h => touches_iff.1 (hp.uses x h)
      have h1 := fun h => touches_iff.1 (ha.uses x h)
      have h2 := fun h => touches_iff.1 (hb.uses x h)
      have h3 : ¬ (none = some x) := nofun
      tauto
    · intro x; simp only [check, condNode, use_uses, use_sref, Node.merge, mem_union, Node.copy]
      intro h h'; exact absurd (Or.inl (Or.inr (Or.inr h))) h'
    · intro x hx; cases hx
    · simp [check, condNode, Node.merge, Node.copy, IsCall]
  | .assign x e => by
    have h := nodeSays e
    constructor
    · intro y; simp only [check, assignNode, Node.set, mem_ins, use_sets, Node.merge, mem_union, Node.copy,
        ident, does_assign, ← h.sets, Acc.mk.injEq]
      simp [mem_union]
    · intro y; simp only [check, assignNode, Node.set, mem_ins, use_uses, Node.merge, mem_union, Node.copy,
        ident, does_assign, Acc.mk.injEq]
      rintro (hd | hd)
      · have := h.reads y hd; tauto
      · simp at hd
    · intro y; simp only [check, assignNode, Node.set, use_uses, Node.merge, Node.copy,
        ident, touches_iff, does_assign, Acc.mk.injEq, Option.some.injEq]
      intro hd
      have h1 := fun h' => touches_iff.1 (h.uses y h')
      simp [mem_union] at hd ⊢
      rcases hd with hd | hd
      · have := h1 hd; tauto
      · exact Or.inl (Or.inr hd.symm)
    · intro y; simp [check, assignNode, Node.set, mem_ins, ident]
      intro h1 _ _ h2; exact absurd h1.symm h2
    · intro y hy; cases hy
    · simp [check, assignNode, Node.set, Node.merge, Node.copy, IsCall]
  | .opAssign x e => by
    have h := nodeSays e
    constructor
    · intro y; simp only [check, assignNode, Node.set, mem_ins, use_sets, Node.merge, mem_union,
        ite_true, makeOp_sets, ident, does_opAssign, ← h.sets, Acc.mk.injEq]
      simp
    · intro y; simp only [check, assignNode, Node.set, use_uses, Node.merge, mem_union,
        ite_true, makeOp_uses, ident, does_opAssign, Acc.mk.injEq, Option.some.injEq]
      rintro (hd | hd | hd)
      · have := h.reads y hd; tauto
      · exact Or.inr hd.1.symm
      · simp at hd
    · intro y; simp only [check, assignNode, Node.set, use_uses, Node.merge, mem_union,
        ite_true, makeOp_uses, ident, touches_iff, does_opAssign, Acc.mk.injEq, Option.some.injEq]
      intro hd
      have h1 := fun h' => touches_iff.1 (h.uses y h')
      have h2 : x = y ↔ y = x := eq_comm
      simp only [List.not_mem_nil] at hd
      simp
      tauto
    · intro y; simp [check, assignNode, Node.set, mem_ins, ident]
      intro h1 _ _ h2; exact absurd h1.symm h2
    · intro y hy; cases hy
    · simp [check, assignNode, Node.set, Node.merge, makeOp_call, IsCall]
  | .call mods as => by
    have h := saysArgs as
    constructor
    · intro y
      simp only [check, callNode, mem_union, mergeAll_sets, does_call, ← h.sets, List.mem_map,
        Acc.mk.injEq, List.not_mem_nil, false_or]
      have : (∃ n, (∃ a ∈ (checkArgs as).1, a.use a.sref = n) ∧ y ∈ n.sets) ↔
          ∃ n ∈ (checkArgs as).1, y ∈ n.sets := by
        constructor
        · rintro ⟨_, ⟨a, ha, rfl⟩, hy⟩; exact ⟨a, ha, by simpa using hy⟩
        · rintro ⟨a, ha, hy⟩; exact ⟨_, ⟨a, ha, rfl⟩, by simpa using hy⟩
      rw [this]
      simp
    · intro y
      simp only [check, callNode, mergeAll_uses, does_call, List.mem_map,
        Acc.mk.injEq, List.not_mem_nil, false_or]
      rintro (hd | hd)
      · obtain ⟨n, hn, hy⟩ := h.reads y hd
        exact Or.inl ⟨_, ⟨n, hn, rfl⟩, use_uses.2 hy⟩
      · simp at hd
    · intro y
      simp only [check, callNode, mergeAll_uses, touches_iff, does_call, List.mem_map,
        Acc.mk.injEq, List.not_mem_nil, false_or]
      rintro (⟨_, ⟨n, hn, rfl⟩, hy⟩ | hd)
      · have := h.uses y ⟨n, hn, use_uses.1 hy⟩
        tauto
      · cases hd
    · intro y; simp [check, callNode]
    · intro y hy; cases hy
    · simp [check, callNode, IsCall]
theorem saysArgs : ∀ as : Args, SaysArgs as (checkArgs as).1
  | .nil => by
    constructor <;> simp [checkArgs, Does, argRuns, Run.all]
  | .cons e as => by
    have he := nodeSays e
    have ha := saysArgs as
    constructor
    · intro x
      simp only [checkArgs, List.mem_cons, exists_eq_or_imp, does_args_cons, ← ha.sets, he.sets]
    · intro x
      simp only [checkArgs, List.mem_cons, exists_eq_or_imp, does_args_cons]
      exact Or.imp (he.reads x) (ha.reads x)
    · intro x
      simp only [checkArgs, List.mem_cons, exists_eq_or_imp, does_args_cons]
      rintro (h | h)
      · have := touches_iff.1 (he.uses x h); tauto
      · have := ha.uses x h; tauto
end

end EvalOrder
end Splint
