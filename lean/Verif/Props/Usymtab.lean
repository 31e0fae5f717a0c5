import Verif.Proofs.UsymtabRef
import Verif.Proofs.UsymtabResult
import Verif.Props.Kinds
/-! C56, C57, C58: the symbol table: what names and references stand for, and what is known of
variables after branches. -/
namespace Splint
open Symtab Symtab.Spec

variable {S : Type}

instance (E : Env S) : Decidable (Proper E) := by unfold Proper; infer_instance

/-! ## C56 -/

/-- C56 in full: names refer to what they do by the rules of C. -/
def C56_full : Prop :=
  ∀ (S : Type) (o : Ops S) (p : Stmt S) (E : Env S), Proper E → Legal true p →
    trace o p (tables E) = uses p (names E)

def unitOps : Ops Unit := ⟨fun _ _ => (), fun _ _ => ()⟩

/-- `switch (e) { case 1: int x; break; case 2: x = 1; }`: the `x` is not found. -/
theorem C56_full_is_false : ¬ C56_full := by
  intro h
  have := h Unit unitOps (.switch false (.cons (.decl 0 ()) .brk (.cons (.act 0 id) .brk .nil))) [[]]
    (by decide) ⟨rfl, trivial, trivial⟩
  revert this
  decide +kernel

/-- And with an outer variable of the same name, that one is found. -/
theorem C56_outer_found :
    trace unitOps (.switch false (.cons (.decl 0 ()) .brk (.cons (.act 0 id) .brk .nil)))
      (tables [[(0, ())]]) = [some ⟨0, 0⟩]
    ∧ uses (.switch false (.cons (.decl 0 ()) .brk (.cons (.act 0 id) .brk .nil)))
      (names [[(0, ())]]) = [some ⟨1, 0⟩] := by decide +kernel

/-- What is known of the inner variable is then taken to be known of the outer one. -/
theorem C56_outer_changed :
    run ⟨(· || ·), fun _ s => s⟩ (.switch false (.cons (.decl 0 true) .brk .nil)) (tables [[(0, false)]])
      = some (tables [[(0, true)]]) := by decide +kernel

theorem normal_tables {st : Stack S} (h : WF st) (hn : ∀ t ∈ st, t.kind = .normal)
    (hf : ∀ t ∈ st, t.mustBreak = false ∧ t.escape = false) : st = tables (view st).cur := by
  induction st with
  | nil => rfl
  | cons t r ih =>
    have hk := hn t (by simp)
    obtain ⟨o1, o2, o3⟩ := h.1.1 hk
    obtain ⟨f1, f2⟩ := hf t (by simp)
    rw [view_normal r hk]
    simp only [tables]
    rw [← ih h.2 (fun t h => hn t (by simp [h])) (fun t h => hf t (by simp [h]))]
    congr 1
    obtain ⟨k, l, es, mb, e⟩ := t
    simp only at hk o2 f1 f2
    subst hk f1 f2
    congr 1
    simp only [frame, List.map_map]
    conv_lhs => rw [← List.map_id es]
    apply List.map_congr_left
    intro a ha
    have := o3 a ha
    obtain ⟨n, s, ref⟩ := a
    simp only at this
    rw [this]
    rfl

theorem tables_all (E : Env S) : ∀ t ∈ tables E, t.kind = .normal ∧ t.mustBreak = false ∧ t.escape = false := by
  induction E with
  | nil => intro t h; cases h
  | cons fr r ih =>
    intro t h
    rcases List.mem_cons.1 h with rfl | h
    · exact ⟨rfl, rfl, rfl⟩
    · exact ih t h

theorem keeps_all {st st' : Stack S} (h : Keeps st st')
    (hs : ∀ t ∈ st, t.kind = .normal ∧ t.mustBreak = false ∧ t.escape = false) :
    ∀ t ∈ st', t.kind = .normal ∧ t.mustBreak = false ∧ t.escape = false := by
  induction st generalizing st' with
  | nil =>
    cases st' with
    | nil => intro t h; cases h
    | cons => cases h
  | cons u r ih =>
    cases st' with
    | nil => cases h
    | cons u' r' =>
      obtain ⟨a1, a2, a3, a4, a5⟩ := h
      obtain ⟨b1, b2, b3⟩ := hs u (by simp)
      rw [b1] at a5
      intro t ht
      rcases List.mem_cons.1 ht with rfl | ht
      · exact ⟨a1.trans b1, a3 b2, a4 b3⟩
      · exact ih a5 (fun t h => hs t (by simp [h])) t ht

theorem run_tables (o : Ops S) (p : Stmt S) (E : Env S) (hE : Proper E) (hp : Placed true p) :
    ∃ E', Good o p (tables E) (tables E') := by
  obtain ⟨w1, w2, -⟩ := tables_wf hE.2
  have hne : tables E ≠ [] := by
    cases E with
    | nil => exact absurd rfl hE.1
    | cons => simp [tables]
  obtain ⟨t, r, htr⟩ := lev_cons (leveled_lev w1 w2 hne)
  obtain ⟨st', hg⟩ := run_good o p true (tables E) w1 (leveled_lev w1 w2 hne)
    (fun _ => ⟨t, r, htr, (tables_all E t (by rw [htr]; simp)).1⟩) hp
  have hall := keeps_all hg.keeps (tables_all E)
  have := normal_tables hg.wf (fun t h => (hall t h).1) (fun t h => (hall t h).2)
  rw [this] at hg
  exact ⟨_, hg⟩

/-- Checking a program runs through, every name is found to refer to its innermost declaration, and
afterwards there are the scopes that there should be and no branches, if declarations are in blocks
and every `switch` has a `case`. Missing for the full claim: declarations directly in the block of a
`switch`. -/
theorem C56_names_partial (o : Ops S) (p : Stmt S) (E : Env S) (hE : Proper E) (hp : Placed true p) :
    trace o p (tables E) = uses p (names E)
    ∧ ∃ E', run o p (tables E) = some (tables E') ∧ names E' = after p (names E) := by
  obtain ⟨E', hg⟩ := run_tables o p E hE hp
  have h1 := hg.trace
  have h2 := hg.names
  rw [tables_view] at h1
  rw [tables_view, tables_view] at h2
  exact ⟨h1, E', hg.run, h2⟩

/-- `int y; if (...) { int x; x = 1; y = 1; } else x = 1;` with an outer `x`. -/
def exStmt : Stmt Bool :=
  .seq (.decl 1 true)
    (.ifElse false false (.block (.seq (.decl 0 true) (.seq (.act 0 fun _ => false) (.act 1 fun _ => false))))
      (.act 0 fun _ => false))

example : Proper [[(0, true)]] ∧ Placed true exStmt
    ∧ uses exStmt (names [[(0, true)]]) = [some ⟨1, 0⟩, some ⟨0, 1⟩, some ⟨0, 0⟩] := by
  refine ⟨by decide, ?_, by decide⟩
  simp [exStmt, Placed]

/-! ## C57 -/

/-- C57 in full: what is known after a statement allows for every path through it. -/
def C57_full : Prop :=
  ∀ (S : Type) (le : S → S → Prop) (o : Ops S) (p : Stmt S) (E E' E1 : Env S), Merges le o →
    Proper E → Placed true p → Fair true le p → run o p (tables E) = some (tables E') →
    Path true p E E1 .next → Below le E1 E'

/-- Whether a variable may be undefined, or dead. -/
def boolOps : Ops Bool := ⟨(· || ·), fun _ s => s⟩

def imp (a b : Bool) : Prop := a = true → b = true

theorem boolOps_merges (f : Bool → Bool → Bool) : Merges imp ⟨(· || ·), f⟩ :=
  ⟨fun _ h => h, fun _ _ _ h h' x => h' (h x), fun a b h => by cases a <;> cases b <;> simp_all,
    fun a b h => by cases a <;> cases b <;> simp_all⟩

theorem not_below : ¬ Below imp [[(0, true)]] [[(0, false)]] := by
  intro h
  cases h with
  | cons h _ =>
    cases h with
    | cons h _ => exact absurd (h.2 rfl) (by decide)

/-- `while (...) if (...) { free (x); break; }`: that `x` is dead is forgotten. -/
theorem C57_break_lost : ¬ C57_full := by
  intro h
  refine not_below (h Bool imp boolOps
    (.loop false (.ifThen true (.seq (.act 0 fun _ => true) .brk))) [[(0, false)]] [[(0, false)]]
    [[(0, true)]] (boolOps_merges _) (by decide) ⟨trivial, trivial⟩ ?_ (by decide +kernel) ?_)
  · refine ⟨fun h => (by cases h), ?_, fun _ _ _ => by simp [imp], trivial⟩
    intro _ E E' hp
    cases hp with
    | seq _ h2 => cases h2
    | seqExit _ h => exact h rfl
  · exact .loopOnce (.ifThen (.seq .act .brk)) (by decide)

/-- The second time through a loop is not looked at. -/
theorem C57_loop_twice : ¬ C57_full := by
  intro h
  have := h Nat (· ≤ ·) ⟨max, fun _ s => s⟩ (.loop false (.act 0 (· + 1))) [[(0, 0)]] [[(0, 1)]]
    [[(0, 2)]] ⟨Nat.le_refl, fun _ _ _ => Nat.le_trans, Nat.le_max_left, Nat.le_max_right⟩
    (by decide) trivial ⟨fun h => (by cases h), fun _ _ => Nat.succ_le_succ⟩ (by decide +kernel)
    (.loopMore rfl .act (.loopOnce .act (by decide)))
  cases this with
  | cons h _ =>
    cases h with
    | cons h _ => exact absurd h.2 (by decide)

/-- `a && (x = 1)`: `x` is taken to be defined afterwards (`andFix` is that of src/usymtab.c:2721-2725,
for definition). -/
theorem C57_and_defines : ¬ C57_full := by
  intro h
  exact not_below (h Bool imp ⟨(· || ·), fun t s => t && s⟩ (.andAlso (.act 0 fun _ => false))
    [[(0, true)]] [[(0, false)]] [[(0, true)]] (boolOps_merges _) (by decide) trivial
    (fun _ _ _ => by simp [imp]) (by decide +kernel) .andNot)

/-- `switch (...) { case 1: break; default: x = 1; break; }`: `x` is taken to be defined. -/
theorem C57_switch_all : ¬ C57_full := by
  intro h
  refine not_below (h Bool imp boolOps
    (.switch true (.cons .skip .brk (.cons (.act 0 fun _ => false) .brk .nil)))
    [[(0, true)]] [[(0, false)]] [[(0, true)]] (boolOps_merges _) (by decide)
    ⟨by simp, trivial, trivial, trivial⟩ ⟨trivial, fun _ _ _ => by simp [imp], trivial⟩
    (by decide +kernel) ?_)
  exact .switchNext (E' := [[], [(0, true)]]) (.here (by simp) (.brk .skip)) (by decide)

theorem C57_full_is_false : ¬ C57_full := C57_break_lost

/-- What is known after a statement allows for every path through it on which no loop is run twice,
if no `break` occurs but at the end of a `case`, no `switch` is known to take one of its cases, and the
special treatment of `&&` does not lose anything. Missing for the full claim: loops that are run more
often, other `break`s, `switch` with `default`, and `&&` as it is (each of them is a counterexample
above). -/
theorem C57_paths_partial {le : S → S → Prop} {o : Ops S} (hm : Merges le o)
    (ha : ∀ t s, le s (o.andFix t s)) {p : Stmt S} (hp : Placed true p) (hs : Simple p)
    (hf : Fair false le p) {E : Env S} (hE : Proper E) :
    ∃ E', run o p (tables E) = some (tables E')
      ∧ ∀ E1, Path false p E E1 .next → Below le E1 E' := by
  obtain ⟨E', hg⟩ := run_tables o p E hE hp
  refine ⟨E', hg.run, ?_⟩
  intro E1 hpath
  have := hg.sound le ⟨hm, ha⟩ hf hs E E1 (by rw [tables_view]; exact below_refl hm.refl E) hpath
  rw [tables_view] at this
  exact this

/-- `int y; if (...) { free (x); return; } else free (y);` -/
def exBranches : Stmt Bool :=
  .seq (.decl 1 false)
    (.ifElse true false (.seq (.act 0 fun _ => true) .ret) (.act 1 fun _ => true))

example : Placed true exBranches ∧ Simple exBranches ∧ Fair false imp exBranches
    ∧ run boolOps exBranches (tables [[(0, false)]]) = some (tables [[(0, false), (1, true)]])
    ∧ Path false exBranches [[(0, false)]] [[(0, false), (1, true)]] .next := by
  refine ⟨by simp [exBranches, Placed], by simp [exBranches, Simple], ?_, by decide +kernel,
    .seq .decl (.ifFalse .act)⟩
  refine ⟨trivial, ?_, fun h => (by cases h), ⟨fun _ _ _ => by simp [imp], trivial⟩, fun _ _ _ => by simp [imp]⟩
  intro _ E E' hp
  cases hp with
  | seq _ h2 => cases h2
  | seqExit _ h => exact h rfl

/-- Nothing else should be merged: if merging does not depend on the order, and merging a state with
itself changes nothing, then what is known after a statement without `switch` is exactly what is known on
the ways to its end, merged; a branch that is not left counts for nothing. -/
def C57_result_full : Prop :=
  ∀ (S : Type) (o : Ops S) (p : Stmt S) (E : Env S), Lattice o → Placed true p → NoSwitch p → Proper E →
    run o p (tables E) = some (tables (result o p E))

/-- It is not so: in `if (...) return; else x = 1;`, what was known of `x` before is merged with what is
known after the assignment. -/
theorem C57_result_full_is_false : ¬ C57_result_full := by
  intro h
  have := h Bool ⟨(· || ·), fun _ s => s⟩ (.ifElse true false .ret (.act 0 fun _ => false)) [[(0, true)]]
    ⟨by decide, by decide, by decide⟩ ⟨trivial, trivial⟩ ⟨trivial, trivial⟩ (by decide)
  revert this
  decide +kernel

/-- But it is if `x` is also used before the `return`, and if the branches are the other way round. -/
theorem C57_result_other :
    run ⟨(· || ·), fun _ s => s⟩
        (.ifElse true false (.seq (.act 0 id) .ret) (.act 0 fun _ => false)) (tables [[(0, true)]])
      = some (tables [[(0, false)]])
    ∧ run ⟨(· || ·), fun _ s => s⟩ (.ifElse false true (.act 0 fun _ => false) .ret) (tables [[(0, true)]])
      = some (tables [[(0, false)]]) := by decide +kernel

/-- It holds if every `if` whose true branch is not left has no alternative that is. -/
theorem C57_result_partial {o : Ops S} (ho : Lattice o) {p : Stmt S} (hp : Placed true p) (hn : Plain p)
    {E : Env S} (hE : Proper E) : run o p (tables E) = some (tables (result o p E)) := by
  obtain ⟨E', hg⟩ := run_tables o p E hE hp
  obtain ⟨w1, w2, -⟩ := tables_wf hE.2
  have hne : tables E ≠ [] := by
    cases E with
    | nil => exact absurd rfl hE.1
    | cons => simp [tables]
  obtain ⟨t, r, htr⟩ := lev_cons (leveled_lev w1 w2 hne)
  have := run_result ho p true (tables E) w1 (leveled_lev w1 w2 hne)
    (fun _ => ⟨t, r, htr, (tables_all E t (by rw [htr]; simp)).1⟩) hp hn hg.run
  rw [tables_view, tables_view] at this
  rw [hg.run, ← this]

/-- `int y; if (...) y = 1; else { free (x); return; }` -/
def exBranches' : Stmt Bool :=
  .seq (.decl 1 false)
    (.ifElse false true (.act 1 fun _ => true) (.seq (.act 0 fun _ => true) .ret))

example : Lattice (⟨(· || ·), fun _ s => s⟩ : Ops Bool) ∧ Plain exBranches'
    ∧ result ⟨(· || ·), fun _ s => s⟩ exBranches' [[(0, false)]] = [[(0, false), (1, true)]] :=
  ⟨⟨by decide, by decide, by decide⟩, by simp [exBranches', Plain], by decide⟩

/-- Null states of ordinary code (C22). -/
abbrev FlowNull := { n : NState // Splint.Spec.flowNull n }

def nullOps : Ops FlowNull :=
  ⟨fun a b => ⟨a.1.combine b.1, (C22_merge_partial a.1 b.1 a.2 b.2).1⟩, fun _ s => s⟩

def nullLe (a b : FlowNull) : Prop := a.1.possiblyNull = true → b.1.possiblyNull = true

theorem nullOps_merges : Merges nullLe nullOps where
  refl _ h := h
  trans _ _ _ h h' x := h' (h x)
  left a b h := (C22_merge_partial a.1 b.1 a.2 b.2).2.2 (.inl ((C22_possiblyNull_iff _).1 h))
  right a b h := (C22_merge_partial a.1 b.1 a.2 b.2).2.2 (.inr ((C22_possiblyNull_iff _).1 h))

/-- The same for null: a pointer that may be null on some path may be null afterwards. -/
theorem C57_null_partial {p : Stmt FlowNull} (hp : Placed true p) (hs : Simple p)
    (hf : Fair false nullLe p) {E : Env FlowNull} (hE : Proper E) :
    ∃ E', run nullOps p (tables E) = some (tables E')
      ∧ ∀ E1, Path false p E E1 .next → Below nullLe E1 E' :=
  C57_paths_partial nullOps_merges (fun _ _ h => h) hp hs hf hE

example : Fair false nullLe (.ifThen false (.act 0 fun _ => ⟨.posNull, by decide⟩))
    ∧ Path false (.ifThen false (.act 0 fun _ => ⟨.posNull, by decide⟩))
      [[(0, (⟨.notNull, by decide⟩ : FlowNull))]] [[(0, ⟨.posNull, by decide⟩)]] .next := by
  refine ⟨⟨fun h => (by cases h), fun _ _ _ h => h⟩, .ifThen .act⟩

/-! ## C58 -/

/-- C58 in full: the variable with the reference of what a name stands for is what the name stands
for. -/
def C58_full : Prop :=
  ∀ (S : Type) (o : Ops S) (E : Env S) (st : Stack S) (x : Nat) (ref : Ref), Proper E →
    Reached o E st → found x st = some ref → getRef ref st = known x st

/-- In `if (...) { int x; { x } }`, the reference of `x` leads nowhere. -/
theorem C58_full_is_false : ¬ C58_full := by
  intro h
  have := h Bool boolOps [[]] _ 0 ⟨1, 0⟩ (by decide)
    (.block (.stmt (p := .decl 0 true) (d := true) (.block (.branch .start)) rfl
      (fun _ => ⟨_, _, rfl, rfl⟩) rfl)) (by decide +kernel)
  revert this
  decide +kernel

/-- With an outer variable of the same name, it leads to that. -/
theorem C58_other_variable :
    ∃ st, Reached boolOps [[(0, false)]] st ∧ found 0 st = some ⟨1, 0⟩ ∧ known 0 st = some true
      ∧ getRef ⟨1, 0⟩ st = some false := by
  refine ⟨_, .block (.stmt (p := .decl 0 true) (d := true) (.block (.branch .start)) rfl
      (fun _ => ⟨_, _, rfl, rfl⟩) rfl), ?_⟩
  decide +kernel

theorem known_of_found {st : Stack S} (hw : WF st) {x : Nat} {ref : Ref} (h : found x st = some ref) :
    ∃ s, Symtab.get x (view st).cur = some (s, ref) ∧ known x st = some s := by
  rw [found_get hw] at h
  cases hg : Symtab.get x (view st).cur with
  | none => rw [hg] at h; cases h
  | some p =>
    rw [hg] at h
    cases h
    exact ⟨p.1, rfl, by rw [known_get hw, hg]; rfl⟩

/-- The variable with the reference of what a name stands for is what the name stands for, if it is
declared in the innermost scope or the innermost branch is inside of its scope. Missing for the full
claim: variables of a block inside of the branch. -/
theorem C58_reference_partial {o : Ops S} {E : Env S} {st : Stack S} {x : Nat} {ref : Ref}
    (hE : Proper E) (hr : Reached o E st) (hf : found x st = some ref) (hd : Direct ref st) :
    getRef ref st = known x st := by
  obtain ⟨hw, hl, -⟩ := reached_wf hE.2 hE.1 hr
  obtain ⟨s, hg, hk⟩ := known_of_found hw hf
  rw [hk]
  exact (getRef_spec hw hl hg).1 hd

/-- For the others, it is what the name stands for outside of the innermost branch. -/
theorem C58_reference_exactly {o : Ops S} {E : Env S} {st : Stack S} {x : Nat} {ref : Ref}
    (hE : Proper E) (hr : Reached o E st) (hf : found x st = some ref) (hd : ¬ Direct ref st) :
    getRef ref st = known x (branch st) := by
  obtain ⟨hw, hl, -⟩ := reached_wf hE.2 hE.1 hr
  obtain ⟨s, hg, hk⟩ := known_of_found hw hf
  have hb : WF (branch st) := by rw [← toBranch_eq]; exact (toBranch_spec st hw hl).1
  rw [known_get hb]
  exact (getRef_spec hw hl hg).2 hd

/-- In `if (...) { x = ...; { x } }`. -/
example : ∃ st, Reached boolOps [[(0, true)]] st ∧ found 0 st = some ⟨0, 0⟩ ∧ Direct ⟨0, 0⟩ st
    ∧ known 0 st = some false := by
  refine ⟨_, .block (.stmt (p := .act 0 fun _ => false) (d := false) (.block (.branch .start)) trivial
      (fun h => by cases h) rfl), by decide +kernel, ?_, by decide +kernel⟩
  intro t b _ _
  exact .inr (Nat.zero_le _)

/-- Looking for a name that is not declared, in the scopes up to a given one, goes on for ever. -/
theorem C58_scope_for_ever {x l : Nat} {t : Table S} {r : Stack S} (hl : l < t.level)
    (hf : found x (t :: r) = none) (n : Nat) : lookupScope x l n (t :: r) = none := by
  induction n with
  | zero => rfl
  | succ n ih =>
    rw [lookupScope, if_pos hl]
    unfold found at hf
    rw [hf]
    exact ih

example : ∃ t r, tables [[(1, true)], [(0, true)]] = t :: r ∧ 0 < t.level
    ∧ found 5 (tables [[(1, true)], [(0, true)]]) = none := ⟨_, _, rfl, by decide, by decide +kernel⟩

/-- If what the name stands for is not further in than the wanted scope, it is found. -/
theorem C58_scope_partial {x l : Nat} {t : Table S} {r : Stack S} {ref : Ref} (hl : l < t.level)
    (hf : found x (t :: r) = some ref) (hr : ref.level ≤ l) (n : Nat) :
    lookupScope x l (n + 1) (t :: r) = some (some ref) := by
  rw [lookupScope, if_pos hl]
  unfold found at hf
  rw [hf]
  simp only
  rw [if_neg (by omega)]

example : found 0 (tables [[(1, true)], [(0, true)], []]) = some ⟨1, 0⟩ := by decide +kernel

/-- A variable that is shadowed in the next scope is not found. -/
theorem C58_scope_shadowed : lookupScope 0 0 9 (tables [[], [(0, true)], [(0, true)]]) = some none := by
  decide +kernel

end Splint
