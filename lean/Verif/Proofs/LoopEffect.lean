import Verif.Spec.LoopEffect
import Verif.Proofs.EvalReports
/-! # Which loops and statements are reported, and what they do -/
namespace Splint
namespace LoopEffect
open EvalOrder EvalOrder.Spec Spec

/-! ## The sets of statements -/

theorem mem_sets_exp {e : Exp} {x : Nat} : x ∈ (check e).1.sets ↔ Writes e x := by
  rw [writes_iff, (nodeSays e).sets]

theorem mem_optSets {o : Option Exp} {x : Nat} : x ∈ optSets o ↔ ∃ e, o = some e ∧ Writes e x := by
  cases o <;> simp [optSets, mem_sets_exp]

theorem mem_forPredSets {i t c : Option Exp} {x : Nat} :
    x ∈ forPredSets i t c ↔ ∃ e, (i = some e ∨ t = some e ∨ c = some e) ∧ Writes e x := by
  have h : x ∈ forPredSets i t c ↔ x ∈ optSets i ∨ x ∈ optSets t ∨ x ∈ optSets c := by
    simp only [forPredSets, mem_union]
    cases i <;> cases t <;> cases c <;> simp [optSets]
    all_goals tauto
  rw [h]
  simp only [mem_optSets, or_and_right, exists_or]

theorem mem_sets (x : Nat) : ∀ s : Stmt Exp, x ∈ sets s ↔ Modifies false x s
  | .skip => by simp [sets, Modifies]
  | .expr e => by simp [sets, Modifies, mem_sets_exp]
  | .seq s t => by simp [sets, Modifies, mem_union, mem_sets x s, mem_sets x t]
  | .ifThen p s => by
    simp only [sets, Modifies, mem_union, mem_sets x s, mem_sets_exp]
    tauto
  | .ifElse p s t => by
    simp only [sets, Modifies, mem_union, mem_sets x s, mem_sets x t, mem_sets_exp]
    tauto
  | .while t b => by simp [sets, Modifies, mem_union, mem_sets x b, mem_sets_exp]
  | .doWhile b t => by simp [sets, Modifies, mem_union, mem_sets x b, mem_sets_exp]
  | .for i t c b => by simp only [sets, Modifies, mem_union, mem_sets x b, mem_forPredSets]
  | .switch e k s => by simp [sets, Modifies, mem_sets_exp]
  | .brk => by simp [sets, Modifies]
  | .cont => by simp [sets, Modifies]
  | .ret => by simp [sets, Modifies]

/-! ## Uses -/

mutual
/-- What is written without the help of a function is used. -/
theorem written_used : ∀ e : Exp, NoMods e → ∀ x, x ∈ (check e).1.sets →
    x ∈ (check e).1.uses ∨ (check e).1.sref = some x
  | .const, _, x, h => by simp [check] at h
  | .var y, _, x, h => by simp [check, ident] at h
  | .paren e, hn, x, h => written_used e hn x h
  | .unary e, hn, x, h => by
    simp only [check, use_sets] at h
    have := written_used e hn x h
    simp only [check, use_uses]
    exact Or.inl this
  | .incr y, _, x, h => by
    simp only [check, Node.set, use_sets, mem_ins] at h
    simp only [check, Node.set, use_uses]
    rcases h with h | h
    · simp [Node.copy, ident] at h
    · exact Or.inl (Or.inr (by rw [h]))
  | .bin a b, hn, x, h => by
    simp only [check, makeOp_sets] at h
    simp only [check, makeOp_uses]
    have ha := written_used a hn.1 x
    have hb := written_used b hn.2 x
    tauto
  | .logic a b, hn, x, h => by
    simp only [check, makeOp_sets] at h
    simp only [check, makeOp_uses, produceGuards_uses]
    have ha := written_used a hn.1 x
    have hb := written_used b hn.2 x
    have hp : (produceGuards (check a).1).sets = (check a).1.sets := by simp [produceGuards]
    rw [hp] at h
    tauto
  | .comma a b, hn, x, h => by
    simp only [check, commaNode, use_sets, Node.merge, mem_union] at h
    simp only [check, commaNode, use_uses, Node.merge, mem_union]
    have ha := written_used a hn.1 x
    have hb := written_used b hn.2 x
    simp only [Node.copy] at *
    tauto
  | .cond p a b, hn, x, h => by
    have hp := written_used p hn.1 x
    have ha := written_used a hn.2.1 x
    have hb := written_used b hn.2.2 x
    simp only [check, condNode, Node.merge, mem_union, use_sets, Node.copy, produceGuards] at h
    simp only [check, condNode, Node.merge, mem_union, use_uses, Node.copy, produceGuards]
    tauto
  | .assign y e, hn, x, h => by
    have he := written_used e hn x
    simp only [check, assignNode, Node.set, mem_ins, use_sets, Node.merge, mem_union, Node.copy, ident,
      Bool.false_eq_true, if_false] at h
    simp only [check, assignNode, Node.set, use_uses, Node.merge, mem_union, Node.copy, ident,
      Bool.false_eq_true, if_false]
    rcases h with h | h
    · simp at h
      tauto
    · exact Or.inr (by rw [h])
  | .opAssign y e, hn, x, h => by
    have he := written_used e hn x
    simp only [check, assignNode, Node.set, mem_ins, use_sets, Node.merge, mem_union, makeOp_sets, ident,
      if_true] at h
    simp only [check, assignNode, Node.set, use_uses, Node.merge, mem_union, makeOp_uses, ident, if_true]
    rcases h with h | h
    · simp at h
      tauto
    · exact Or.inr (by rw [h])
  | .call mods as, hn, x, h => by
    obtain ⟨rfl, hn⟩ := hn
    have := written_used_args as hn x
    simp only [check, callNode, mem_union, List.not_mem_nil, or_false, mergeAll_sets, false_or] at h
    simp only [check, callNode, mergeAll_uses, List.not_mem_nil, false_or]
    obtain ⟨n, hn, hx⟩ := h
    obtain ⟨m, hm, rfl⟩ := List.mem_map.1 hn
    rw [use_sets] at hx
    exact Or.inl ⟨_, hn, use_uses.2 (this m hm hx)⟩
theorem written_used_args : ∀ as : Args, NoModsArgs as → ∀ x, ∀ n ∈ (checkArgs as).1, x ∈ n.sets →
    x ∈ n.uses ∨ n.sref = some x
  | .nil, _, x, n, hm, h => by simp [checkArgs] at hm
  | .cons e as, hn, x, n, hm, h => by
    simp only [checkArgs, List.mem_cons] at hm
    rcases hm with rfl | hm
    · exact written_used e hn.1 x h
    · exact written_used_args as hn.2 x n hm h
end

/-- The uses of a test. -/
theorem uses_test {t : Exp} (hn : NoMods t) (x : Nat) :
    x ∈ (produceGuards (check t).1).uses ↔ Touches t x := by
  rw [produceGuards_uses, (nodeSays t).touches]
  have := written_used t hn x
  tauto

theorem checkInfiniteLoop_iff {n : Node} {body : List Nat} : checkInfiniteLoop n body = true ↔
    (∃ x, x ∈ n.uses) ∧ ∀ x ∈ n.uses, x ∉ body ∧ x ∉ n.sets := by
  unfold checkInfiniteLoop
  by_cases h : n.uses = []
  · simp [h]
  · have h' : ∃ x, x ∈ n.uses := List.exists_mem_of_ne_nil _ h
    rw [if_neg (by simpa using h)]
    simp only [List.all_eq_true, Bool.not_eq_true', decide_eq_false_iff_not, mem_union, not_or, h', true_and]

/-- When there is the message for a loop. -/
def Reported (t : Exp) (b : Stmt Exp) : Prop :=
  checkInfiniteLoop (produceGuards (check t).1) (sets b) = true

theorem produceGuards_sets (n : Node) : (produceGuards n).sets = n.sets := by simp [produceGuards]

theorem reported_iff {t : Exp} {b : Stmt Exp} (hn : NoMods t) : Reported t b ↔
    (∃ x, Touches t x) ∧ ∀ x, Touches t x → ¬ Writes t x ∧ ¬ Modifies false x b := by
  rw [Reported, checkInfiniteLoop_iff]
  simp only [uses_test hn, produceGuards_sets, mem_sets_exp, mem_sets]
  constructor
  · rintro ⟨h, h'⟩
    exact ⟨h, fun x hx => (h' x hx).symm⟩
  · rintro ⟨h, h'⟩
    exact ⟨h, fun x hx => (h' x hx).symm⟩

theorem reported_reads {t : Exp} {b : Stmt Exp} (h : Reported t b) :
    (∃ x, Does (runs t) ⟨x, false⟩) ∧
      ∀ x, Does (runs t) ⟨x, false⟩ → ¬ Writes t x ∧ ¬ Modifies false x b := by
  rw [Reported, checkInfiniteLoop_iff] at h
  simp only [produceGuards_sets, mem_sets_exp, mem_sets, produceGuards_uses] at h
  obtain ⟨⟨x, hx⟩, h⟩ := h
  refine ⟨⟨x, ?_⟩, fun y hy => (h y ((nodeSays t).reads y hy)).symm⟩
  rcases touches_iff.1 ((nodeSays t).uses x hx) with hw | hr
  · exact absurd hw (h x hx).2
  · exact hr

theorem mem_infinite (t : Exp) (b : Stmt Exp) : ∀ s : Stmt Exp,
    (t, b) ∈ infinite s ↔ Loop t b s ∧ Reported t b
  | .skip => by simp [infinite, Loop]
  | .expr e => by simp [infinite, Loop]
  | .seq s u => by
    simp only [infinite, Loop, List.mem_append, mem_infinite t b s, mem_infinite t b u]
    tauto
  | .ifThen p s => by simp only [infinite, Loop, mem_infinite t b s]
  | .ifElse p s u => by
    simp only [infinite, Loop, List.mem_append, mem_infinite t b s, mem_infinite t b u]
    tauto
  | .while u s => by
    simp only [infinite, Loop, List.mem_append, mem_infinite t b s]
    by_cases h : checkInfiniteLoop (produceGuards (check u).1) (sets s) = true
    · rw [if_pos h]
      simp only [List.mem_singleton, Prod.mk.injEq]
      constructor
      · rintro (h' | ⟨rfl, rfl⟩)
        · exact ⟨Or.inr h'.1, h'.2⟩
        · exact ⟨Or.inl ⟨rfl, rfl⟩, h⟩
      · rintro ⟨⟨rfl, rfl⟩ | h', h''⟩
        · exact Or.inr ⟨rfl, rfl⟩
        · exact Or.inl ⟨h', h''⟩
    · rw [if_neg h]
      simp only [List.not_mem_nil, or_false]
      constructor
      · exact fun h' => ⟨Or.inr h'.1, h'.2⟩
      · rintro ⟨⟨rfl, rfl⟩ | h', h''⟩
        · exact absurd h'' h
        · exact ⟨h', h''⟩
  | .doWhile s _ => by simp only [infinite, Loop, mem_infinite t b s]
  | .for _ _ _ s => by simp only [infinite, Loop, mem_infinite t b s]
  | .switch _ _ s => by simp only [infinite, Loop, mem_infinite t b s]
  | .brk => by simp [infinite, Loop]
  | .cont => by simp [infinite, Loop]
  | .ret => by simp [infinite, Loop]

/-! ## What is done -/

theorem shape_noMods : ∀ e : VExp, NoMods e.shape
  | .const _ => trivial
  | .var _ => trivial
  | .paren e => shape_noMods e
  | .unary _ e => shape_noMods e
  | .incr _ _ _ => trivial
  | .bin _ a b => ⟨shape_noMods a, shape_noMods b⟩
  | .and a b => ⟨shape_noMods a, shape_noMods b⟩
  | .or a b => ⟨shape_noMods a, shape_noMods b⟩
  | .comma a b => ⟨shape_noMods a, shape_noMods b⟩
  | .cond p a b => ⟨shape_noMods p, shape_noMods a, shape_noMods b⟩
  | .assign _ e => shape_noMods e
  | .opAssign _ _ e => shape_noMods e

theorem writes_paren {e : Exp} {x : Nat} : Writes (.paren e) x ↔ Writes e x := by
  rw [Writes, Writes, runs]
theorem writes_unary {e : Exp} {x : Nat} : Writes (.unary e) x ↔ Writes e x := by
  rw [Writes, Writes, runs]

/-- An expression changes only what it writes. -/
theorem eval_frame (x : Nat) : ∀ (e : VExp) (σ : Store), ¬ Writes e.shape x → (eval e σ).2 x = σ x
  | .const _, σ, _ => rfl
  | .var _, σ, _ => rfl
  | .paren e, σ, h => eval_frame x e σ (by rwa [VExp.shape, writes_paren] at h)
  | .unary _ e, σ, h => eval_frame x e σ (by rwa [VExp.shape, writes_unary] at h)
  | .incr f p y, σ, h => by
    have : x ≠ y := fun hxy => h (does_incr.2 (by simp [hxy]))
    simp [eval, Store.put, this]
  | .bin f a b, σ, h => by
    rw [VExp.shape, writes_iff, does_bin, not_or] at h
    simp only [eval]
    rw [eval_frame x b _ h.2, eval_frame x a _ h.1]
  | .and a b, σ, h => by
    rw [VExp.shape, writes_iff, does_logic, not_or] at h
    simp only [eval]
    split
    · exact eval_frame x a _ h.1
    · simp only
      rw [eval_frame x b _ h.2, eval_frame x a _ h.1]
  | .or a b, σ, h => by
    rw [VExp.shape, writes_iff, does_logic, not_or] at h
    simp only [eval]
    split
    · exact eval_frame x a _ h.1
    · simp only
      rw [eval_frame x b _ h.2, eval_frame x a _ h.1]
  | .comma a b, σ, h => by
    rw [VExp.shape, writes_iff, does_comma, not_or] at h
    simp only [eval]
    rw [eval_frame x b _ h.2, eval_frame x a _ h.1]
  | .cond p a b, σ, h => by
    rw [VExp.shape, writes_iff, does_cond, not_or, not_or] at h
    simp only [eval]
    split
    · rw [eval_frame x a _ h.2.1, eval_frame x p _ h.1]
    · rw [eval_frame x b _ h.2.2, eval_frame x p _ h.1]
  | .assign y e, σ, h => by
    rw [VExp.shape, writes_iff, does_assign, not_or] at h
    have : x ≠ y := fun hxy => h.2 (by rw [hxy])
    simp only [eval, Store.put, if_neg this]
    exact eval_frame x e _ h.1
  | .opAssign f y e, σ, h => by
    rw [VExp.shape, writes_iff, does_opAssign, not_or, not_or] at h
    have : x ≠ y := fun hxy => h.2.2 (by rw [hxy])
    simp only [eval, Store.put, if_neg this]
    exact eval_frame x e _ h.1

theorem touches_of_does {e : Exp} {a : Acc} (h : Does (runs e) a) : Touches e a.x :=
  let ⟨r, hr, ha⟩ := h
  ⟨r, hr, a, ha, rfl⟩

theorem touches_does {e : Exp} {x : Nat} : Touches e x ↔ ∃ w, Does (runs e) ⟨x, w⟩ := by
  constructor
  · intro h
    rcases touches_iff.1 h with h | h
    · exact ⟨true, h⟩
    · exact ⟨false, h⟩
  · rintro ⟨w, h⟩
    exact touches_of_does h

theorem does_paren {e : Exp} {a : Acc} : Does (runs (.paren e)) a ↔ Does (runs e) a := by rw [runs]
theorem does_unary {e : Exp} {a : Acc} : Does (runs (.unary e)) a ↔ Does (runs e) a := by rw [runs]
theorem does_var {y : Nat} {a : Acc} : Does (runs (.var y)) a ↔ a = ⟨y, false⟩ := by
  rw [runs]
  simp [Does, Run.all]

/-- An expression depends only on what it touches. -/
theorem eval_agree (P : Nat → Prop) : ∀ (e : VExp) (σ τ : Store),
    (∀ a, Does (runs e.shape) a → P a.x) → (∀ x, P x → σ x = τ x) →
    (eval e σ).1 = (eval e τ).1 ∧ ∀ x, P x → (eval e σ).2 x = (eval e τ).2 x
  | .const _, σ, τ, _, h => ⟨rfl, h⟩
  | .var y, σ, τ, hd, h => ⟨h y (hd ⟨y, false⟩ (does_var.2 rfl)), h⟩
  | .paren e, σ, τ, hd, h => eval_agree P e σ τ (fun a ha => hd a (does_paren.2 ha)) h
  | .unary f e, σ, τ, hd, h => by
    have := eval_agree P e σ τ (fun a ha => hd a (does_unary.2 ha)) h
    exact ⟨congrArg f this.1, this.2⟩
  | .incr f p y, σ, τ, hd, h => by
    have hy : σ y = τ y := h y (hd ⟨y, false⟩ (does_incr.2 (by simp)))
    refine ⟨by simp only [eval, hy], fun x hx => ?_⟩
    simp only [eval, Store.put, hy, h x hx]
  | .bin f a b, σ, τ, hd, h => by
    have ha := eval_agree P a σ τ (fun c hc => hd c (does_bin.2 (Or.inl hc))) h
    have hb := eval_agree P b _ _ (fun c hc => hd c (does_bin.2 (Or.inr hc))) ha.2
    simp only [eval]
    exact ⟨by rw [ha.1, hb.1], hb.2⟩
  | .and a b, σ, τ, hd, h => by
    have ha := eval_agree P a σ τ (fun c hc => hd c (does_logic.2 (Or.inl hc))) h
    have hb := eval_agree P b _ _ (fun c hc => hd c (does_logic.2 (Or.inr hc))) ha.2
    simp only [eval]
    rw [ha.1]
    split
    · exact ⟨rfl, ha.2⟩
    · exact ⟨by rw [hb.1], hb.2⟩
  | .or a b, σ, τ, hd, h => by
    have ha := eval_agree P a σ τ (fun c hc => hd c (does_logic.2 (Or.inl hc))) h
    have hb := eval_agree P b _ _ (fun c hc => hd c (does_logic.2 (Or.inr hc))) ha.2
    simp only [eval]
    rw [ha.1]
    split
    · exact ⟨rfl, ha.2⟩
    · exact ⟨by rw [hb.1], hb.2⟩
  | .comma a b, σ, τ, hd, h => by
    have ha := eval_agree P a σ τ (fun c hc => hd c (does_comma.2 (Or.inl hc))) h
    exact eval_agree P b _ _ (fun c hc => hd c (does_comma.2 (Or.inr hc))) ha.2
  | .cond p a b, σ, τ, hd, h => by
    have hp := eval_agree P p σ τ (fun c hc => hd c (does_cond.2 (Or.inl hc))) h
    have ha := eval_agree P a _ _ (fun c hc => hd c (does_cond.2 (Or.inr (Or.inl hc)))) hp.2
    have hb := eval_agree P b _ _ (fun c hc => hd c (does_cond.2 (Or.inr (Or.inr hc)))) hp.2
    simp only [eval]
    rw [hp.1]
    split
    · exact ha
    · exact hb
  | .assign y e, σ, τ, hd, h => by
    have he := eval_agree P e σ τ (fun c hc => hd c (does_assign.2 (Or.inl hc))) h
    refine ⟨he.1, fun x hx => ?_⟩
    simp only [eval, Store.put, he.1, he.2 x hx]
  | .opAssign f y e, σ, τ, hd, h => by
    have he := eval_agree P e σ τ (fun c hc => hd c (does_opAssign.2 (Or.inl hc))) h
    have hy := he.2 y (hd ⟨y, true⟩ (does_opAssign.2 (Or.inr (Or.inr rfl))))
    refine ⟨by simp only [eval, he.1, hy], fun x hx => ?_⟩
    simp only [eval, Store.put, he.1, hy, he.2 x hx]

theorem evalOpt_frame (x : Nat) (d : Int) (o : Option VExp) (σ : Store)
    (h : ∀ e, o = some e → ¬ Writes e.shape x) : (evalOpt d o σ).2 x = σ x := by
  cases o with
  | none => rfl
  | some e => exact eval_frame x e σ (h e rfl)

/-- A statement changes only what its expressions write. -/
theorem run_frame (x : Nat) : ∀ (n : Nat) (s : Stmt VExp) (σ τ : Store) (e : Exit),
    ¬ Modifies true x (shape s) → run n s σ = some (e, τ) → τ x = σ x := by
  intro n
  induction n with
  | zero => intro s σ τ e _ h; simp [run] at h
  | succ n ih =>
    intro s σ τ e hm h
    cases s with
    | skip => simp [run] at h; rw [← h.2]
    | brk => simp [run] at h; rw [← h.2]
    | cont => simp [run] at h; rw [← h.2]
    | ret => simp [run] at h; rw [← h.2]
    | expr f => simp [run] at h; rw [← h.2]; exact eval_frame x f σ hm
    | seq s t =>
      simp only [shape, Modifies, not_or] at hm
      simp only [run] at h
      split at h
      · rename_i υ hs
        rw [ih t _ _ _ hm.2 h, ih s _ _ _ hm.1 hs]
      · exact ih s _ _ _ hm.1 h
    | ifThen p s =>
      simp only [shape, Modifies, not_or] at hm
      simp only [run] at h
      split at h
      · rw [ih s _ _ _ hm.2 h, eval_frame x p σ hm.1]
      · simp at h; rw [← h.2, eval_frame x p σ hm.1]
    | ifElse p s t =>
      simp only [shape, Modifies, not_or] at hm
      simp only [run] at h
      split at h
      · rw [ih s _ _ _ hm.2.1 h, eval_frame x p σ hm.1]
      · rw [ih t _ _ _ hm.2.2 h, eval_frame x p σ hm.1]
    | «while» t b =>
      have hm' := hm
      simp only [shape, Modifies, not_or] at hm
      simp only [run] at h
      split at h
      · simp at h; rw [← h.2, eval_frame x t σ hm.1]
      · split at h
        · rename_i hb; simp at h; rw [← h.2, ih b _ _ _ hm.2 hb, eval_frame x t σ hm.1]
        · rename_i hb; simp at h; rw [← h.2, ih b _ _ _ hm.2 hb, eval_frame x t σ hm.1]
        · rename_i hb
          rw [ih _ _ _ _ hm' h, ih b _ _ _ hm.2 hb, eval_frame x t σ hm.1]
        · cases h
    | doWhile b t =>
      have hm' := hm
      simp only [shape, Modifies, not_or] at hm
      simp only [run] at h
      split at h
      · rename_i hb; simp at h; rw [← h.2, ih b _ _ _ hm.1 hb]
      · rename_i hb; simp at h; rw [← h.2, ih b _ _ _ hm.1 hb]
      · rename_i hb
        split at h
        · simp at h; rw [← h.2, eval_frame x t _ hm.2, ih b _ _ _ hm.1 hb]
        · rw [ih _ _ _ _ hm' h, eval_frame x t _ hm.2, ih b _ _ _ hm.1 hb]
      · cases h
    | «for» i t c b =>
      simp only [shape, Modifies, not_or] at hm
      obtain ⟨ho, hb'⟩ := hm
      have hi : ∀ e, i = some e → ¬ Writes e.shape x := fun e he hw =>
        ho ⟨e.shape, Or.inl (by rw [he]; rfl), hw⟩
      have ht : ∀ e, t = some e → ¬ Writes e.shape x := fun e he hw =>
        ho ⟨e.shape, Or.inr (Or.inl (by rw [he]; rfl)), hw⟩
      have hc : ∀ e, c = some e → ¬ Writes e.shape x := fun e he hw =>
        ho ⟨e.shape, Or.inr (Or.inr (by rw [he]; rfl)), hw⟩
      have hloop : ¬ Modifies true x (shape (.for none t c b)) := by
        simp only [shape, Modifies, not_or]
        refine ⟨?_, hb'⟩
        rintro ⟨e, he | he, hw⟩
        · cases he
        · exact ho ⟨e, Or.inr he, hw⟩
      simp only [run] at h
      split at h
      · simp at h; rw [← h.2, evalOpt_frame x _ _ _ ht, evalOpt_frame x _ _ _ hi]
      · split at h
        · rename_i hb
          simp at h; rw [← h.2, ih b _ _ _ hb' hb, evalOpt_frame x _ _ _ ht, evalOpt_frame x _ _ _ hi]
        · rename_i hb
          simp at h; rw [← h.2, ih b _ _ _ hb' hb, evalOpt_frame x _ _ _ ht, evalOpt_frame x _ _ _ hi]
        · rename_i hb
          rw [ih _ _ _ _ hloop h, evalOpt_frame x _ _ _ hc, ih b _ _ _ hb' hb, evalOpt_frame x _ _ _ ht,
            evalOpt_frame x _ _ _ hi]
        · cases h
    | switch f k s =>
      simp only [shape, Modifies, not_or] at hm
      have hs : ¬ Modifies true x (shape s) := fun h => hm.2 ⟨trivial, h⟩
      simp only [run] at h
      split at h
      · split at h
        · rename_i hb; simp at h; rw [← h.2, ih s _ _ _ hs hb, eval_frame x f σ hm.1]
        · rw [ih s _ _ _ hs h, eval_frame x f σ hm.1]
      · simp at h; rw [← h.2, eval_frame x f σ hm.1]

theorem escapes_mono : ∀ s : Stmt VExp, Escapes true s → Escapes false s
  | .brk, h => by simp [Escapes] at h
  | .ret, h => trivial
  | .seq s t, h => h.imp (escapes_mono s) (escapes_mono t)
  | .ifThen _ s, h => escapes_mono s h
  | .ifElse _ s t, h => h.imp (escapes_mono s) (escapes_mono t)
  | .while _ b, h => h
  | .doWhile _ _, h => h
  | .for _ _ _ _, h => h
  | .switch _ _ _, h => h
  | .skip, h => h
  | .expr _, h => h
  | .cont, h => h

/-- Without a `return` of its own a statement does not end with one; likewise for `break`. -/
theorem run_exit : ∀ (n : Nat) (s : Stmt VExp) (σ τ : Store) (e : Exit),
    run n s σ = some (e, τ) → (¬ Escapes true s → e ≠ .ret) ∧ (¬ Escapes false s → e ≠ .brk) := by
  intro n
  induction n with
  | zero => intro s σ τ e h; simp [run] at h
  | succ n ih =>
    intro s σ τ e h
    cases s with
    | skip => simp [run] at h; simp [← h.1]
    | brk => simp [run] at h; simp [← h.1, Escapes]
    | cont => simp [run] at h; simp [← h.1]
    | ret => simp [run] at h; simp [← h.1, Escapes]
    | expr f => simp [run] at h; simp [← h.1]
    | seq s t =>
      simp only [run] at h
      simp only [Escapes, not_or]
      split at h
      · have := ih t _ _ _ h
        exact ⟨fun hh => this.1 hh.2, fun hh => this.2 hh.2⟩
      · have := ih s _ _ _ h
        exact ⟨fun hh => this.1 hh.1, fun hh => this.2 hh.1⟩
    | ifThen p s =>
      simp only [run] at h
      simp only [Escapes]
      split at h
      · exact ih s _ _ _ h
      · simp at h; simp [← h.1]
    | ifElse p s t =>
      simp only [run] at h
      simp only [Escapes, not_or]
      split at h
      · have := ih s _ _ _ h
        exact ⟨fun hh => this.1 hh.1, fun hh => this.2 hh.1⟩
      · have := ih t _ _ _ h
        exact ⟨fun hh => this.1 hh.2, fun hh => this.2 hh.2⟩
    | «while» t b =>
      simp only [run] at h
      simp only [Escapes]
      split at h
      · simp at h; simp [← h.1]
      · split at h
        · simp at h; simp [← h.1]
        · rename_i hb
          have := (ih b _ _ _ hb).1
          simp at h; obtain ⟨rfl, -⟩ := h
          exact ⟨fun hh => absurd rfl (this hh), fun hh => by decide⟩
        · exact ih (.while t b) _ _ _ h
        · cases h
    | doWhile b t =>
      simp only [run] at h
      simp only [Escapes]
      split at h
      · simp at h; simp [← h.1]
      · rename_i hb
        have := (ih b _ _ _ hb).1
        simp at h; obtain ⟨rfl, -⟩ := h
        exact ⟨fun hh => absurd rfl (this hh), fun hh => by decide⟩
      · split at h
        · simp at h; simp [← h.1]
        · exact ih (.doWhile b t) _ _ _ h
      · cases h
    | «for» i t c b =>
      simp only [run] at h
      simp only [Escapes]
      split at h
      · simp at h; simp [← h.1]
      · split at h
        · simp at h; simp [← h.1]
        · rename_i hb
          have := (ih b _ _ _ hb).1
          simp at h; obtain ⟨rfl, -⟩ := h
          exact ⟨fun hh => absurd rfl (this hh), fun hh => by decide⟩
        · exact ih (.for none t c b) _ _ _ h
        · cases h
    | switch f k s =>
      simp only [run] at h
      simp only [Escapes]
      split at h
      · split at h
        · simp at h; simp [← h.1]
        · rename_i hne
          have := (ih s _ _ _ h).1
          refine ⟨this, fun _ he => ?_⟩
          subst he
          exact hne _ h
      · simp at h; simp [← h.1]

theorem noSwitch_deep (x : Nat) : ∀ s : Stmt VExp, NoSwitch s → Modifies true x (shape s) →
    Modifies false x (shape s)
  | .skip, _, h => h
  | .expr _, _, h => h
  | .seq s t, hn, h => h.imp (noSwitch_deep x s hn.1) (noSwitch_deep x t hn.2)
  | .ifThen _ s, hn, h => h.imp id (noSwitch_deep x s hn)
  | .ifElse _ s t, hn, h => h.imp id (Or.imp (noSwitch_deep x s hn.1) (noSwitch_deep x t hn.2))
  | .while _ b, hn, h => h.imp id (noSwitch_deep x b hn)
  | .doWhile b _, hn, h => h.imp (noSwitch_deep x b hn) id
  | .for _ _ _ b, hn, h => h.imp id (noSwitch_deep x b hn)
  | .switch _ _ _, hn, _ => hn.elim
  | .brk, _, h => h
  | .cont, _, h => h
  | .ret, _, h => h

/-- A loop whose test and body leave alone what the test touches does not end. -/
theorem endless (t : VExp) (b : Stmt VExp) (ht : ∀ x, Touches t.shape x → ¬ Writes t.shape x)
    (hb : ∀ x, Touches t.shape x → ¬ Modifies true x (shape b)) (he : ¬ Escapes false b) :
    ∀ (n : Nat) (σ : Store), (eval t σ).1 ≠ 0 → run n (.while t b) σ = none := by
  intro n
  induction n with
  | zero => intro σ _; rfl
  | succ n ih =>
    intro σ hv
    have next : ∀ e υ, run n b (eval t σ).2 = some (e, υ) → (eval t υ).1 ≠ 0 := by
      intro e υ h
      have : ∀ x, Touches t.shape x → υ x = σ x := fun x hx => by
        rw [run_frame x n b _ _ _ (hb x hx) h, eval_frame x t σ (ht x hx)]
      rw [(eval_agree (Touches t.shape) t υ σ (fun a ha => touches_of_does ha) this).1]
      exact hv
    have hr : ¬ Escapes true b := fun h => he (escapes_mono b h)
    simp only [run, if_neg hv]
    split
    · rename_i h; exact absurd rfl ((run_exit _ _ _ _ _ h).2 he)
    · rename_i h; exact absurd rfl ((run_exit _ _ _ _ _ h).1 hr)
    · rename_i h; exact ih _ (next _ _ h)
    · rfl

end LoopEffect
end Splint
