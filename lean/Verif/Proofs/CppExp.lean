import Verif.Spec.CppExp
namespace Splint.CppExp
open CExp

namespace Out
theorem bind_assoc {α β γ : Type} (x : Out α) (f : α → Out β) (g : β → Out γ) :
    (x.bind f).bind g = x.bind fun a => (f a).bind g := by cases x <;> rfl
@[simp] theorem bind_next {α β : Type} (a : α) (f : α → Out β) : (next a).bind f = f a := rfl
@[simp] theorem bind_err {α β : Type} (f : α → Out β) : (err : Out α).bind f = err := rfl
@[simp] theorem bind_bad {α β : Type} (f : α → Out β) : (bad : Out α).bind f = bad := rfl
@[simp] theorem bind_trap {α β : Type} (f : α → Out β) : (trap : Out α).bind f = trap := rfl
end Out

theorem reduceLoop_eq (l : Nat) (s : State) :
    reduceLoop l s = if s.top.rprio > l then (reduce1 s).bind (reduceLoop l) else .next s := by
  rw [reduceLoop]
  split
  · split <;> rename_i h <;> rw [h] <;> rfl
  · rfl

theorem runToks_append (xs ys : List Tok) (s : State) :
    runToks (xs ++ ys) s = (runToks xs s).bind (runToks ys) := by
  induction xs generalizing s with
  | nil => rfl
  | cons t xs ih =>
    simp only [List.cons_append, runToks, Out.bind_assoc]
    congr 1
    funext a
    exact ih a

theorem runToks_op (o : Op) (ts : List Tok) (s : State) :
    runToks (.op o :: ts) s = (reduceLoop o.lprio s).bind fun s' => (push o s').bind (runToks ts) := by
  simp only [runToks, step, Out.bind_assoc]

/-- The change of `skip` by pushing. -/
def pushSkip (o : Op) (s : State) : Option Int :=
  match o with
  | .oror => s.top.val.map fun x => if x.1 ≠ 0 then s.skip + 1 else s.skip
  | .andand | .quest => s.top.val.map fun x => if x.1 = 0 then s.skip + 1 else s.skip
  | .colon => s.below.head?.bind fun c => c.val.map fun x => if x.1 ≠ 0 then s.skip + 1 else s.skip - 1
  | _ => some s.skip

/-- The slot of an operator that was just pushed. -/
def opSlot (o : Op) (v : Option Val) : Slot := ⟨some o, o.rprio, o.left, o.right, false, v⟩

theorem push_eq (o : Op) (s : State) (h : s.below.length < s.cap) :
    ∃ cap, s.below.length + 1 < cap ∧ push o s =
      match pushSkip o s with
      | none => .bad
      | some k => .next ⟨opSlot o s.above.head?.join, s.top :: s.below, s.above.tail, cap, k, s.errs⟩ := by
  refine ⟨if s.below.length + 1 = s.cap then 2 * s.cap else s.cap, by split <;> omega, ?_⟩
  unfold push
  have hc : ¬ (if s.below.length + 1 = s.cap then 2 * s.cap else s.cap) ≤ s.below.length + 1 := by
    split <;> omega
  simp only [hc, if_false]
  cases o <;> simp only [pushSkip, opSlot]
  case andand => cases s.top.val <;> rfl
  case oror => cases s.top.val <;> rfl
  case quest => cases s.top.val <;> rfl
  case colon =>
    cases s.below with
    | nil => rfl
    | cons c r =>
      simp only [List.head?_cons, Option.bind_some]
      cases c.val <;> rfl

/-- What the parser computes, as an evaluation of the tree. -/
def weval (skip : Bool) : CExp → Option (Val × Nat)
  | lit v u => some ((toLong v, u), 0)
  | paren e => weval skip e
  | un o e => (weval skip e).map fun y => (unary o y.1, y.2)
  | bin o a b => (weval skip a).bind fun x =>
      (weval (skip || (decide (o = .andand) && decide (x.1.1 = 0)) ||
        (decide (o = .oror) && decide (x.1.1 ≠ 0))) b).bind fun y =>
      (binary skip o x.1 y.1).map fun r => (r.1, x.2 + y.2 + r.2)
  | .cond c a b => (weval skip c).bind fun x =>
      (weval (skip || decide (x.1.1 = 0)) a).bind fun y =>
      (weval (skip || decide (x.1.1 ≠ 0)) b).map fun z =>
        ((if x.1.1 ≠ 0 then y.1.1 else z.1.1, y.1.2 || z.1.2), x.2 + y.2 + z.2)

theorem edges (e : CExp) (h : e.readable = true) : e.ledge ≤ e.redge ∧ e.redge ≤ e.ledge + 1 := by
  cases e with
  | lit => simp [ledge, redge]
  | paren => simp [ledge, redge]
  | un o e => cases o <;> simp_all [ledge, redge, readable, Op.isUnary, Op.rprio]
  | bin o a b => cases o <;> simp_all [ledge, redge, readable, Op.isBinary, Op.rprio, Op.lprio]
  | cond => simp [ledge, redge]

/-- The state with a value on top. -/
def After (s : State) (v : Val) (n : Nat) (ab : List (Option Val)) (cap : Nat) : State :=
  ⟨{ s.top with have_ := true, val := some v }, s.below, ab, cap, s.skip, s.errs + n⟩

/-- What running an expression does. -/
def Runs (e : CExp) (s : State) : Prop :=
  match weval (s.skip != 0) e with
  | none => ∀ l < e.redge, (runToks e.tokens s).bind (reduceLoop l) = .trap
  | some r => ∃ ab cap, s.below.length < cap ∧
      ∀ l < e.redge, (runToks e.tokens s).bind (reduceLoop l) = reduceLoop l (After s r.1 r.2 ab cap)

theorem reduce1_unary (o : Op) (ho : o.isUnary = true) (p : Slot) (rest : List Slot)
    (v0 : Option Val) (y : Val) (ab : List (Option Val)) (cap : Nat) (k : Int) (n : Nat)
    (hp : p.have_ = false) :
    reduce1 ⟨{ opSlot o v0 with have_ := true, val := some y }, p :: rest, ab, cap, k, n⟩ =
      .next ⟨{ p with have_ := true, val := some (unary o y) }, rest, some y :: ab, cap, k, n⟩ := by
  cases o <;> simp_all [Op.isUnary, reduce1, opSlot, Op.left, Op.right, putBelow]

theorem reduce1_binary (o : Op) (ho : o.isBinary = true) (p : Slot) (rest : List Slot)
    (v0 : Option Val) (x y : Val) (ab : List (Option Val)) (cap : Nat) (k : Int) (n : Nat)
    (hp : p.have_ = true) (hx : p.val = some x) :
    reduce1 ⟨{ opSlot o v0 with have_ := true, val := some y }, p :: rest, ab, cap, k, n⟩ =
      match binary (k != 0) o x y with
      | none => .trap
      | some r => .next ⟨{ p with have_ := true, val := some r.1 }, rest, some y :: ab, cap,
          if (o = .andand ∧ x.1 = 0) ∨ (o = .oror ∧ x.1 ≠ 0) then k - 1 else k, n + r.2⟩ := by
  cases o <;> simp_all [Op.isBinary, reduce1, opSlot, Op.left, Op.right, putBelow] <;>
    (split <;> simp_all)

theorem binary_skip_andor (s : Bool) (t : Bool) (o : Op) (h : o = .andand ∨ o = .oror) (x y : Val) :
    binary s o x y = binary t o x y := by
  rcases h with rfl | rfl <;> rfl

/-- `Runs` in every state where an operand is expected. -/
def RunsAll (e : CExp) : Prop :=
  e.readable = true → ∀ s : State, s.top.have_ = false → s.top.rprio ≤ e.ledge → 0 ≤ s.skip →
    s.below.length < s.cap → Runs e s

theorem runs_lit (v : Int) (u : Bool) : RunsAll (lit v u) := by
  intro _ s hh _ _ hc
  simp only [Runs, weval]
  refine ⟨s.above, s.cap, hc, fun l _ => ?_⟩
  simp [tokens, runToks, step, setValue, hh, After]

theorem runs_paren (e : CExp) (ih : RunsAll e) : RunsAll (paren e) := by
  intro hr s hh hp hk hc
  simp only [ledge] at hp
  have hr : e.readable = true := hr
  have hed := edges e hr
  have h0 : reduceLoop Op.lpar.lprio s = .next s := by
    rw [reduceLoop_eq, if_neg (by simp [Op.lprio]; omega)]
  obtain ⟨cap, hcap, hpush⟩ := push_eq .lpar s hc
  simp only [pushSkip] at hpush
  have h1 := ih hr ⟨opSlot .lpar s.above.head?.join, s.top :: s.below, s.above.tail, cap, s.skip, s.errs⟩
    rfl (by simp [opSlot, Op.rprio]) hk (by simpa using hcap)
  have hred : 0 < e.redge := by
    cases e with
    | un o e => cases o <;> simp_all [redge, Op.rprio, readable, Op.isUnary]
    | bin o a b => cases o <;> simp_all [redge, Op.rprio, readable, Op.isBinary]
    | _ => simp [redge]
  have hrun : ∀ l, (runToks (paren e).tokens s).bind (reduceLoop l) =
      (((runToks e.tokens ⟨opSlot .lpar s.above.head?.join, s.top :: s.below, s.above.tail, cap, s.skip,
        s.errs⟩).bind (reduceLoop 0)).bind (push .rpar)).bind (reduceLoop l) := by
    intro l
    simp only [tokens, List.cons_append]
    rw [runToks_op, h0, Out.bind_next, hpush, Out.bind_next, runToks_append]
    simp only [Out.bind_assoc]
    congr 1
    funext s1
    rw [runToks_op]
    simp only [Out.bind_assoc, Op.lprio, runToks]
    congr 1
  simp only [Runs, weval] at h1 ⊢
  cases hw : weval (s.skip != 0) e with
  | none =>
    rw [hw] at h1
    intro l _
    rw [hrun, h1 0 hred]; rfl
  | some r =>
    rw [hw] at h1
    obtain ⟨ab, cap1, hcap1, h1⟩ := h1
    simp only [List.length_cons] at hcap1
    have h2 : reduceLoop 0 (After ⟨opSlot .lpar s.above.head?.join, s.top :: s.below, s.above.tail, cap,
        s.skip, s.errs⟩ r.1 r.2 ab cap1) = .next (After ⟨opSlot .lpar s.above.head?.join,
        s.top :: s.below, s.above.tail, cap, s.skip, s.errs⟩ r.1 r.2 ab cap1) := by
      rw [reduceLoop_eq, if_neg (by simp [After, opSlot, Op.rprio])]
    obtain ⟨cap2, hcap2, hpush2⟩ := push_eq .rpar (After ⟨opSlot .lpar s.above.head?.join,
        s.top :: s.below, s.above.tail, cap, s.skip, s.errs⟩ r.1 r.2 ab cap1) (by simpa [After] using hcap1)
    simp only [pushSkip] at hpush2
    refine ⟨some r.1 :: ab.head?.join :: ab.tail, cap2, by simp [After] at hcap2; omega, fun l hl => ?_⟩
    rw [hrun, h1 0 hred, h2, Out.bind_next, hpush2, Out.bind_next, reduceLoop_eq,
      if_pos (by simpa [opSlot, Op.rprio, redge] using hl)]
    simp [reduce1, opSlot, After, Op.left, Op.right, hh]

theorem runs_un (o : Op) (e : CExp) (ih : RunsAll e) : RunsAll (un o e) := by
  intro hr s hh hp hk hc
  simp only [readable, Bool.and_eq_true, decide_eq_true_eq] at hr
  obtain ⟨⟨ho, hr⟩, hle⟩ := hr
  have hed := edges e hr
  have h0 : reduceLoop o.lprio s = .next s := by
    rw [reduceLoop_eq, if_neg]
    cases o <;> simp_all [Op.lprio, ledge, Op.isUnary] <;> omega
  obtain ⟨cap, hcap, hpush⟩ := push_eq o s hc
  have hps : pushSkip o s = some s.skip := by cases o <;> simp_all [Op.isUnary, pushSkip]
  rw [hps] at hpush
  simp only at hpush
  have h1 := ih hr ⟨opSlot o s.above.head?.join, s.top :: s.below, s.above.tail, cap, s.skip, s.errs⟩
    rfl hle hk (by simpa using hcap)
  have hrun : ∀ l, (runToks (un o e).tokens s).bind (reduceLoop l) =
      (runToks e.tokens ⟨opSlot o s.above.head?.join, s.top :: s.below, s.above.tail, cap, s.skip,
        s.errs⟩).bind (reduceLoop l) := by
    intro l
    simp only [tokens]
    rw [runToks_op, h0, Out.bind_next, hpush, Out.bind_next]
  simp only [Runs, weval] at h1 ⊢
  cases hw : weval (s.skip != 0) e with
  | none =>
    rw [hw] at h1
    intro l hl
    rw [hrun]
    exact h1 l (by simp only [redge] at hl; omega)
  | some r =>
    rw [hw] at h1
    obtain ⟨ab, cap1, hcap1, h1⟩ := h1
    simp only [List.length_cons] at hcap1
    refine ⟨some r.1 :: ab, cap1, by omega, fun l hl => ?_⟩
    simp only [redge] at hl
    rw [hrun, h1 l (by omega), reduceLoop_eq, if_pos (by simpa [After, opSlot] using hl)]
    simp only [After]
    rw [reduce1_unary o ho s.top s.below _ r.1 ab cap1 s.skip _ hh]
    simp

theorem runs_bin (o : Op) (a b : CExp) (iha : RunsAll a) (ihb : RunsAll b) : RunsAll (bin o a b) := by
  intro hr s hh hp hk hc
  simp only [readable, Bool.and_eq_true, decide_eq_true_eq] at hr
  obtain ⟨⟨⟨⟨ho, ha⟩, hb⟩, hla⟩, hlb⟩ := hr
  have hea := edges a ha
  have heb := edges b hb
  simp only [ledge] at hp
  have h1 := iha ha s hh (by omega) hk hc
  have hrun : ∀ l, (runToks (bin o a b).tokens s).bind (reduceLoop l) =
      ((runToks a.tokens s).bind (reduceLoop o.lprio)).bind fun s1 => (push o s1).bind fun s2 =>
        (runToks b.tokens s2).bind (reduceLoop l) := by
    intro l
    simp only [tokens]
    rw [runToks_append]
    simp only [Out.bind_assoc]
    congr 1
    funext s1
    rw [runToks_op]
    simp only [Out.bind_assoc]
  simp only [Runs, weval] at h1 ⊢
  cases hw : weval (s.skip != 0) a with
  | none =>
    rw [hw] at h1
    intro l _
    rw [hrun, h1 _ hla]; rfl
  | some x =>
    rw [hw] at h1
    obtain ⟨ab, cap1, hcap1, h1⟩ := h1
    have h2 : reduceLoop o.lprio (After s x.1 x.2 ab cap1) = .next (After s x.1 x.2 ab cap1) := by
      rw [reduceLoop_eq, if_neg (by simp [After]; omega)]
    obtain ⟨cap2, hcap2, hpush⟩ := push_eq o (After s x.1 x.2 ab cap1) (by simpa [After] using hcap1)
    obtain ⟨k, hk1, hk2, hk3, hk4⟩ : ∃ k : Int, pushSkip o (After s x.1 x.2 ab cap1) = some k ∧ 0 ≤ k ∧
        (k != 0) = ((s.skip != 0) || (decide (o = .andand) && decide (x.1.1 = 0)) ||
          (decide (o = .oror) && decide (x.1.1 ≠ 0))) ∧
        (if (o = .andand ∧ x.1.1 = 0) ∨ (o = .oror ∧ x.1.1 ≠ 0) then k - 1 else k) = s.skip := by
      by_cases h3 : o = .andand
      · subst h3
        refine ⟨if x.1.1 = 0 then s.skip + 1 else s.skip, by simp [pushSkip, After], by split <;> omega, ?_, ?_⟩
        · by_cases h0 : x.1.1 = 0
          · simp [h0]; omega
          · simp [h0]
        · by_cases h0 : x.1.1 = 0 <;> simp [h0]
      · by_cases h4 : o = .oror
        · subst h4
          refine ⟨if x.1.1 ≠ 0 then s.skip + 1 else s.skip, by simp [pushSkip, After], by split <;> omega, ?_, ?_⟩
          · by_cases h0 : x.1.1 = 0
            · simp [h0]
            · simp [h0]; omega
          · by_cases h0 : x.1.1 = 0 <;> simp [h0]
        · refine ⟨s.skip, ?_, hk, by simp [h3, h4], by simp [h3, h4]⟩
          cases o <;> simp_all [Op.isBinary, pushSkip, After]
    rw [hk1] at hpush
    simp only at hpush
    have h5 := ihb hb ⟨opSlot o (After s x.1 x.2 ab cap1).above.head?.join,
      (After s x.1 x.2 ab cap1).top :: (After s x.1 x.2 ab cap1).below,
      (After s x.1 x.2 ab cap1).above.tail, cap2, k, (After s x.1 x.2 ab cap1).errs⟩ rfl hlb hk2
      (by simpa using hcap2)
    simp only [Runs] at h5
    rw [hk3] at h5
    simp only [Option.bind_some]
    cases hw2 : weval ((s.skip != 0) || (decide (o = .andand) && decide (x.1.1 = 0)) ||
        (decide (o = .oror) && decide (x.1.1 ≠ 0))) b with
    | none =>
      rw [hw2] at h5
      intro l hl
      simp only [redge] at hl
      rw [hrun, h1 _ hla, h2, Out.bind_next, hpush, Out.bind_next]
      exact h5 l (by omega)
    | some y =>
      rw [hw2] at h5
      obtain ⟨ab3, cap3, hcap3, h5⟩ := h5
      simp only [List.length_cons, After] at hcap3
      have h6 : ∀ l < o.rprio, (runToks (bin o a b).tokens s).bind (reduceLoop l) =
          (match binary (s.skip != 0) o x.1 y.1 with
            | none => Out.trap
            | some r => reduceLoop l (After s r.1 (x.2 + y.2 + r.2) (some y.1 :: ab3) cap3)) := by
        intro l hl
        rw [hrun, h1 _ hla, h2, Out.bind_next, hpush, Out.bind_next, h5 l (by omega), reduceLoop_eq,
          if_pos (by simpa [After, opSlot] using hl)]
        simp only [After]
        rw [reduce1_binary o ho _ s.below _ x.1 y.1 ab3 cap3 k _ rfl rfl]
        have hb' : binary (k != 0) o x.1 y.1 = binary (s.skip != 0) o x.1 y.1 := by
          by_cases h3 : o = .andand ∨ o = .oror
          · exact binary_skip_andor _ _ o h3 _ _
          · rw [not_or] at h3
            rw [hk3]; simp [h3]
        rw [hb']
        cases hbin : binary (s.skip != 0) o x.1 y.1 with
        | none => rfl
        | some r =>
          simp only [Out.bind_next, hk4]
          congr 2
          omega
      simp only [Option.bind_some]
      cases hbin : binary (s.skip != 0) o x.1 y.1 with
      | none =>
        intro l hl
        rw [h6 l hl, hbin]
      | some r =>
        refine ⟨some y.1 :: ab3, cap3, by omega, fun l hl => ?_⟩
        rw [h6 l hl, hbin]

theorem runs_cond (c a b : CExp) (ihc : RunsAll c) (iha : RunsAll a) (ihb : RunsAll b) :
    RunsAll (CExp.cond c a b) := by
  intro hr s hh hp hk hc
  simp only [readable, Bool.and_eq_true, decide_eq_true_eq] at hr
  obtain ⟨⟨⟨⟨⟨hrc, hra⟩, hrb⟩, hlc⟩, hla⟩, hlb⟩ := hr
  have hec := edges c hrc
  have hea := edges a hra
  have heb := edges b hrb
  simp only [ledge] at hp
  have h1 := ihc hrc s hh (by omega) hk hc
  have hrun : ∀ l, (runToks (CExp.cond c a b).tokens s).bind (reduceLoop l) =
      ((runToks c.tokens s).bind (reduceLoop 7)).bind fun s1 => (push .quest s1).bind fun s2 =>
        ((runToks a.tokens s2).bind (reduceLoop 6)).bind fun s3 => (push .colon s3).bind fun s4 =>
        (runToks b.tokens s4).bind (reduceLoop l) := by
    intro l
    simp only [tokens]
    rw [runToks_append]
    simp only [Out.bind_assoc]
    congr 1
    funext s1
    rw [runToks_op]
    simp only [Out.bind_assoc, Op.lprio]
    congr 1
    funext s2
    congr 1
    funext s3
    rw [runToks_append]
    simp only [Out.bind_assoc]
    congr 1
    funext s4
    rw [runToks_op]
    simp only [Out.bind_assoc, Op.lprio]
  simp only [Runs, weval] at h1 ⊢
  cases hw : weval (s.skip != 0) c with
  | none =>
    rw [hw] at h1
    intro l _
    rw [hrun, h1 _ hlc]; rfl
  | some x =>
    rw [hw] at h1
    obtain ⟨ab, cap1, hcap1, h1⟩ := h1
    have h2 : reduceLoop 7 (After s x.1 x.2 ab cap1) = .next (After s x.1 x.2 ab cap1) := by
      rw [reduceLoop_eq, if_neg (by simp [After]; omega)]
    obtain ⟨cap2, hcap2, hpush⟩ := push_eq .quest (After s x.1 x.2 ab cap1) (by simpa [After] using hcap1)
    simp only [pushSkip, After, Option.map_some] at hpush
    simp only [After] at hcap2
    obtain ⟨k, hkd, hk0, hkb⟩ : ∃ k : Int, k = (if x.1.1 = 0 then s.skip + 1 else s.skip) ∧ 0 ≤ k ∧
        (k != 0) = ((s.skip != 0) || decide (x.1.1 = 0)) := by
      refine ⟨_, rfl, by split <;> omega, ?_⟩
      by_cases h0 : x.1.1 = 0
      · simp [h0]; omega
      · simp [h0]
    rw [← hkd] at hpush
    have h5 := iha hra ⟨opSlot .quest ab.head?.join, { s.top with have_ := true, val := some x.1 } :: s.below,
      ab.tail, cap2, k, s.errs + x.2⟩ rfl (by simp [opSlot, Op.rprio]; omega) hk0 (by simpa using hcap2)
    simp only [Runs] at h5
    rw [hkb] at h5
    simp only [Option.bind_some]
    cases hw2 : weval ((s.skip != 0) || decide (x.1.1 = 0)) a with
    | none =>
      rw [hw2] at h5
      intro l _
      rw [hrun, h1 _ hlc, h2, Out.bind_next]
      simp only [After]
      rw [hpush, Out.bind_next, h5 6 hla]; rfl
    | some y =>
      rw [hw2] at h5
      obtain ⟨ab3, cap3, hcap3, h5⟩ := h5
      simp only [List.length_cons] at hcap3
      simp only [After, opSlot] at h5
      obtain ⟨cap4, hcap4, hpush4⟩ := push_eq .colon ⟨⟨some .quest, Op.quest.rprio, Op.quest.left,
        Op.quest.right, true, some y.1⟩, { s.top with have_ := true, val := some x.1 } :: s.below, ab3, cap3, k,
        s.errs + x.2 + y.2⟩ (by simpa using hcap3)
      simp only [pushSkip, List.head?_cons, Option.bind_some, Option.map_some] at hpush4
      obtain ⟨k2, hkd2, hk20, hkb2⟩ : ∃ k2 : Int, k2 = (if x.1.1 ≠ 0 then k + 1 else k - 1) ∧ 0 ≤ k2 ∧
          (k2 != 0) = ((s.skip != 0) || decide (x.1.1 ≠ 0)) := by
        refine ⟨_, rfl, ?_, ?_⟩
        · by_cases h0 : x.1.1 = 0 <;> simp [hkd, h0] <;> omega
        · by_cases h0 : x.1.1 = 0
          · simp [hkd, h0]
          · simp [hkd, h0]; omega
      rw [← hkd2] at hpush4
      have h7 := ihb hrb ⟨opSlot .colon ab3.head?.join, ⟨some .quest, Op.quest.rprio, Op.quest.left,
        Op.quest.right, true, some y.1⟩ :: { s.top with have_ := true, val := some x.1 } :: s.below, ab3.tail,
        cap4, k2, s.errs + x.2 + y.2⟩ rfl (by simp [opSlot, Op.rprio]; omega) hk20 (by simpa using hcap4)
      simp only [Runs] at h7
      rw [hkb2] at h7
      simp only [Option.bind_some]
      have h8 : reduceLoop 6 ⟨⟨some .quest, Op.quest.rprio, Op.quest.left,
        Op.quest.right, true, some y.1⟩, { s.top with have_ := true, val := some x.1 } :: s.below, ab3, cap3, k,
        s.errs + x.2 + y.2⟩ = .next ⟨⟨some .quest, Op.quest.rprio, Op.quest.left,
        Op.quest.right, true, some y.1⟩, { s.top with have_ := true, val := some x.1 } :: s.below, ab3, cap3, k,
        s.errs + x.2 + y.2⟩ := by
        rw [reduceLoop_eq, if_neg (by simp [Op.rprio])]
      have h9 : ∀ l, (runToks (CExp.cond c a b).tokens s).bind (reduceLoop l) =
          (runToks b.tokens ⟨opSlot .colon ab3.head?.join, ⟨some .quest, Op.quest.rprio, Op.quest.left,
          Op.quest.right, true, some y.1⟩ :: { s.top with have_ := true, val := some x.1 } :: s.below,
          ab3.tail, cap4, k2, s.errs + x.2 + y.2⟩).bind (reduceLoop l) := by
        intro l
        rw [hrun, h1 _ hlc, h2, Out.bind_next]
        simp only [After]
        rw [hpush, Out.bind_next]
        simp only [opSlot]
        rw [h5 6 hla, h8, Out.bind_next, hpush4, Out.bind_next]
        simp only [opSlot]
      cases hw3 : weval ((s.skip != 0) || decide (x.1.1 ≠ 0)) b with
      | none =>
        rw [hw3] at h7
        intro l hl
        simp only [redge] at hl
        rw [h9]
        exact h7 l (by omega)
      | some z =>
        rw [hw3] at h7
        obtain ⟨ab5, cap5, hcap5, h7⟩ := h7
        simp only [List.length_cons] at hcap5
        refine ⟨some y.1 :: some z.1 :: ab5, cap5, by omega, fun l hl => ?_⟩
        simp only [redge] at hl
        rw [h9, h7 l (by omega), reduceLoop_eq, if_pos (by simpa [After, opSlot, Op.rprio] using hl)]
        have hks : (if x.1.1 ≠ 0 then k2 - 1 else k2) = s.skip := by
          by_cases h0 : x.1.1 = 0 <;> simp [hkd2, hkd, h0]
        simp only [After, opSlot, reduce1, Op.left, Op.right, Bool.false_and, Bool.false_eq_true, if_false,
          ne_eq, not_true_eq_false, Bool.not_true, Bool.or_self, Out.bind_next]
        rw [← hks]
        simp only [ne_eq]
        congr 2
        omega

theorem runs_all : ∀ e : CExp, RunsAll e := by
  intro e
  induction e with
  | lit v u => exact runs_lit v u
  | paren e ih => exact runs_paren e ih
  | un o e ih => exact runs_un o e ih
  | bin o a b iha ihb => exact runs_bin o a b iha ihb
  | cond c a b ihc iha ihb => exact runs_cond c a b ihc iha ihb

/-- The parser computes `weval` on every readable expression. -/
theorem parse_readable (e : CExp) (h : e.readable = true) :
    parse e.tokens = match weval false e with
      | none => .trap
      | some r => .value r.1.1 r.2 := by
  have hr := runs_all e h init rfl (by simp [init]) (by simp [init]) (by simp [init])
  have hred : 0 < e.redge := by
    cases e with
    | un o e => cases o <;> simp_all [redge, Op.rprio, readable, Op.isUnary]
    | bin o a b => cases o <;> simp_all [redge, Op.rprio, readable, Op.isBinary]
    | _ => simp [redge]
  have hp : ∀ ts, parse ts = match (runToks ts init).bind (reduceLoop 0) with
      | .err => .syntaxError
      | .bad => .bad
      | .trap => .trap
      | .next s => match s.top.val with
        | none => .bad
        | some x => .value x.1 (if s.below = [] then s.errs else s.errs + 1) := by
    intro ts
    unfold parse
    cases runToks ts init <;> simp [finish] <;> rfl
  rw [hp]
  simp only [Runs] at hr
  have h0 : (init.skip != 0) = false := rfl
  rw [h0] at hr
  cases hw : weval false e with
  | none =>
    rw [hw] at hr
    rw [hr 0 hred]
  | some r =>
    rw [hw] at hr
    obtain ⟨ab, cap, _, hr⟩ := hr
    rw [hr 0 hred, reduceLoop_eq, if_neg (by simp [After, init])]
    simp [After, init]

end Splint.CppExp
