import Verif.Proofs.CppExpSafe
import Verif.Proofs.CppExpVal
namespace Splint.CppExp
open CExp

def optTokens : Option CExp → List Tok
  | none => []
  | some e => e.tokens

/-- The stack spells the tokens read: `pre` are those before the operand of the top, `e`. -/
inductive Spells : List Slot → List Tok → Option CExp → Prop
  | bottom (s : Slot) (e : Option CExp) : s.op = none → s.rprio = 0 → s.have_ = e.isSome →
      (e = none → s.val = none) → (∀ x, e = some x → x.readable = true) → Spells [s] [] e
  | push (s l : Slot) (r : List Slot) (pre : List Tok) (el e : Option CExp) (o : Op) : s.op = some o →
      s.rprio = o.rprio → s.left = o.left → s.right = o.right → s.have_ = e.isSome →
      (∀ x, e = some x → x.readable = true ∧ o.rprio ≤ x.ledge) → l.rprio ≤ o.lprio →
      (∀ x, el = some x → o.lprio < x.redge) → Spells (l :: r) pre el →
      Spells (s :: l :: r) (pre ++ optTokens el ++ [.op o]) e

/-- Another operand for the top. -/
theorem Spells.operand {s : Slot} {r : List Slot} {pre : List Tok} {e : Option CExp} (h : Spells (s :: r) pre e)
    (x : CExp) (s' : Slot) (hr : x.readable = true) (hl : s.rprio ≤ x.ledge) (h1 : s'.op = s.op) (h2 : s'.rprio = s.rprio)
    (h3 : s'.left = s.left) (h4 : s'.right = s.right) (h5 : s'.have_ = true) : Spells (s' :: r) pre (some x) := by
  cases h with
  | bottom _ _ a b c d f => exact .bottom _ _ (h1.trans a) (h2.trans b) h5 (by simp) (by simp [hr])
  | push _ l r pre el _ o a b c d f g k m n =>
    refine .push _ _ _ _ _ _ o (h1.trans a) (h2.trans b) (h3.trans c) (h4.trans d) h5 ?_ k m n
    intro y hy
    simp only [Option.some.injEq] at hy
    subst hy
    exact ⟨hr, by rw [← b]; exact hl⟩

theorem Spells.readable {s : Slot} {r : List Slot} {pre : List Tok} {e : Option CExp} (h : Spells (s :: r) pre e)
    (x : CExp) (hx : e = some x) : x.readable = true := by
  cases h with
  | bottom _ _ a b c d f => exact f x hx
  | push _ l r pre el _ o a b c d f g k m n => exact (g x hx).1

theorem Spells.have_ {s : Slot} {r : List Slot} {pre : List Tok} {e : Option CExp} (h : Spells (s :: r) pre e) :
    s.have_ = e.isSome := by
  cases h with
  | bottom _ _ a b c d f => exact c
  | push _ l r pre el _ o a b c d f g k m n => exact f

theorem Spells.rprio {s : Slot} {r : List Slot} {pre : List Tok} {e : Option CExp} (h : Spells (s :: r) pre e) :
    s.rprio = 0 ∨ ∃ o : Op, s.rprio = o.rprio := by
  cases h with
  | bottom _ _ a b c d f => exact Or.inl b
  | push _ l r pre el _ o a b c d f g k m n => exact Or.inr ⟨o, b⟩

/-- What a reduction keeps. -/
def Kept (l : Nat) (s' : State) (all : List Tok) : Prop :=
  ∃ pre e, Spells s'.stack pre (some e) ∧ pre ++ e.tokens = all ∧ l < e.redge

theorem kept_put {s s' : State} {t : Slot} {rest : List Slot} {r : Option (Val × Nat)} {k : Int} {pre : List Tok}
    {el : Option CExp} {l : Nat} {all : List Tok} (x : CExp)
    (h : putBelow s t rest r k = .next s') (hs : Spells (t :: rest) pre el) (hr : x.readable = true)
    (hl : t.rprio ≤ x.ledge) (ht : pre ++ x.tokens = all) (hlr : l < x.redge) : Kept l s' all := by
  unfold putBelow at h
  split at h
  · simp at h
  · rename_i v n
    simp only [Out.next.injEq] at h
    subst h
    exact ⟨pre, x, hs.operand x _ hr hl rfl rfl rfl rfl rfl, ht, hlr⟩

theorem reduce1_kept {s s' : State} {pre : List Tok} {e : Option CExp} {l : Nat} (hs : Spells s.stack pre e)
    (hl : l < s.top.rprio) (h : reduce1 s = .next s') : Kept l s' (pre ++ optTokens e) := by
  obtain ⟨top, below, above, cap, skip, errs⟩ := s
  simp only [State.stack] at hs hl
  cases hs with
  | bottom _ _ a b c d f => omega
  | push _ lo r pre el _ o a b c d f g k m n =>
    simp only [reduce1, a, c, d] at h
    split at h
    · simp at h
    rename_i hL
    split at h
    · simp at h
    rename_i hR
    simp only [Bool.and_eq_true, Bool.not_eq_true', not_and, Bool.not_eq_false] at hL hR
    have hhl := n.have_
    have key : ∀ {v kk}, o.isBinary = true → lo.have_ = true → top.have_ = true →
        putBelow ⟨top, lo :: r, above, cap, skip, errs⟩ lo r v kk = .next s' →
        Kept l s' (pre ++ optTokens el ++ [.op o] ++ optTokens e) := by
      intro v kk hb h1 h2 h
      rw [f] at h2
      rw [hhl] at h1
      obtain ⟨y, hy⟩ := Option.isSome_iff_exists.1 h2
      obtain ⟨x, hx⟩ := Option.isSome_iff_exists.1 h1
      subst hx hy
      obtain ⟨g1, g2⟩ := g y rfl
      refine kept_put (bin o x y) h n ?_ ?_ ?_ ?_
      · simp only [CExp.readable, hb, n.readable x rfl, g1, m x rfl, g2, decide_true, Bool.and_self]
      · simp only [ledge]; exact k
      · simp [tokens, optTokens]
      · simp only [redge, ← b]; exact hl
    have keyu : ∀ {v kk}, o.isUnary = true → lo.have_ = false → top.have_ = true →
        putBelow ⟨top, lo :: r, above, cap, skip, errs⟩ lo r v kk = .next s' →
        Kept l s' (pre ++ optTokens el ++ [.op o] ++ optTokens e) := by
      intro v kk hb h1 h2 h
      rw [f] at h2
      rw [hhl] at h1
      obtain ⟨y, hy⟩ := Option.isSome_iff_exists.1 h2
      have hx : el = none := by cases el <;> simp at h1 ⊢
      subst hx hy
      obtain ⟨g1, g2⟩ := g y rfl
      refine kept_put (un o y) h n ?_ ?_ ?_ ?_
      · simp only [CExp.readable, hb, g1, g2, decide_true, Bool.and_self]
      · rcases n.rprio with h0 | ⟨o', h0⟩
        · omega
        · rw [h0] at k ⊢
          cases o <;> simp [Op.isUnary] at hb <;> cases o' <;> simp [ledge, Op.rprio, Op.lprio] at k ⊢
      · simp [tokens, optTokens]
      · simp only [redge, ← b]; exact hl
    have bin_case : o.left = true → o.isBinary = true →
        ((match lo.val, top.val with
        | some x, some y =>
          putBelow ⟨top, lo :: r, above, cap, skip, errs⟩ lo r (binary (skip != 0) o x y)
            (if (o = Op.andand ∧ x.1 = 0) ∨ (o = Op.oror ∧ x.1 ≠ 0) then skip - 1 else skip)
        | _, _ => .bad : Out State)) = .next s' → Kept l s' (pre ++ optTokens el ++ [.op o] ++ optTokens e) := by
      intro hl' hb h
      have hr' : o.right = true := by cases o <;> first | rfl | cases hl'
      split at h
      · exact key hb (hL hl') (hR hr') h
      · simp at h
    have sign_case : o.right = true → o.isBinary = true → o.isUnary = true →
        ((match top.val with
        | none => .bad
        | some y =>
          if lo.have_ then
            match lo.val with
            | none => .bad
            | some x => putBelow ⟨top, lo :: r, above, cap, skip, errs⟩ lo r (binary (skip != 0) o x y) skip
          else putBelow ⟨top, lo :: r, above, cap, skip, errs⟩ lo r (some (unary o y, 0)) skip : Out State)) = .next s' →
        Kept l s' (pre ++ optTokens el ++ [.op o] ++ optTokens e) := by
      intro hr' hb hu h
      split at h
      · simp at h
      · split at h
        · rename_i hh
          split at h
          · simp at h
          · exact key hb hh (hR hr') h
        · rename_i hh
          exact keyu hu (by simpa using hh) (hR hr') h
    have un_case : o.right = true → o.isUnary = true →
        ((if lo.have_ then .err
        else match top.val with
          | none => .bad
          | some y => putBelow ⟨top, lo :: r, above, cap, skip, errs⟩ lo r (some (unary o y, 0)) skip : Out State)) = .next s' →
        Kept l s' (pre ++ optTokens el ++ [.op o] ++ optTokens e) := by
      intro hr' hu h
      split at h
      · simp at h
      · rename_i hh
        split at h
        · simp at h
        · exact keyu hu (by simpa using hh) (hR hr') h
    cases o with
    | plus => exact sign_case rfl rfl rfl h
    | minus => exact sign_case rfl rfl rfl h
    | not_ => exact un_case rfl rfl h
    | compl => exact un_case rfl rfl h
    | lpar => simp at h
    | quest => simp at h
    | colon =>
      simp only at h
      cases n with
      | bottom _ _ a' b' c' d' f' => simp [a'] at h
      | push _ co r' pre' ec _ o' a' b' c' d' f' g' k' m' n' =>
        simp only [a'] at h
        split at h
        · simp at h
        · rename_i hq
          simp only [ne_eq, not_not] at hq
          subst hq
          split at h
          · simp at h
          · rename_i hh
            simp only [Bool.or_eq_true, Bool.not_eq_true', not_or, Bool.not_eq_false] at hh
            rw [f, f', n'.have_] at hh
            obtain ⟨y, hy⟩ := Option.isSome_iff_exists.1 hh.1.1
            obtain ⟨z, hz⟩ := Option.isSome_iff_exists.1 hh.1.2
            obtain ⟨x, hx⟩ := Option.isSome_iff_exists.1 hh.2
            subst hx hy hz
            split at h
            · simp only [Out.next.injEq] at h
              subst h
              obtain ⟨g1, g2⟩ := g y rfl
              obtain ⟨g3, g4⟩ := g' x rfl
              have hc := n'.have_
              refine ⟨pre', .cond z x y, n'.operand (.cond z x y) _ ?_ ?_ rfl rfl rfl rfl hc, ?_, ?_⟩
              · have m1 := m x rfl
                have m2 := m' z rfl
                simp only [Op.lprio] at m1 m2
                simp only [Op.rprio] at g2
                simp [CExp.readable, n'.readable z rfl, g1, g3, m1, m2, g2]
              · rcases n'.rprio with h0 | ⟨o', h0⟩
                · omega
                · rw [h0] at k' ⊢
                  cases o' <;> simp [ledge, Op.rprio, Op.lprio] at k' ⊢
              · simp [tokens, optTokens]
              · simp only [redge]
                rw [b] at hl
                exact hl
            · simp at h
    | rpar =>
      simp only at h
      split at h
      · simp at h
      · rename_i hh
        simp only [Bool.or_eq_true, Bool.not_eq_true', not_or, Bool.not_eq_false, Bool.not_eq_true] at hh
        cases n with
        | bottom _ _ a' b' c' d' f' => simp [a'] at h
        | push _ co r' pre' ec _ o' a' b' c' d' f' g' k' m' n' =>
          simp only [a'] at h
          split at h
          · simp at h
          · rename_i hq
            simp only [ne_eq, not_not] at hq
            subst hq
            rw [f, f'] at hh
            obtain ⟨x, hx⟩ := Option.isSome_iff_exists.1 hh.2
            have he : e = none := by cases e <;> simp at hh ⊢
            subst hx he
            split at h
            · simp at h
            · rename_i hc
              rw [n'.have_] at hc
              have hec : ec = none := by cases ec <;> simp at hc ⊢
              subst hec
              split at h
              · simp at h
              · rename_i v hv
                simp only [Out.next.injEq] at h
                subst h
                obtain ⟨g3, g4⟩ := g' x rfl
                refine ⟨pre', .paren x, n'.operand (.paren x) _ g3 (by simp only [ledge]; exact k') rfl rfl rfl rfl rfl, ?_, ?_⟩
                · simp [tokens, optTokens]
                · simp only [redge]
                  rw [b] at hl
                  exact hl
    | _ => exact bin_case rfl rfl h

/-- What the loop keeps. -/
theorem reduceLoop_kept (l : Nat) : ∀ (n : Nat) (s s' : State) (pre : List Tok) (e : Option CExp), s.below.length ≤ n →
    Spells s.stack pre e → (∀ x, e = some x → l < x.redge) → reduceLoop l s = .next s' →
    ∃ pre' e', Spells s'.stack pre' e' ∧ pre' ++ optTokens e' = pre ++ optTokens e ∧ (∀ x, e' = some x → l < x.redge) ∧
      s'.top.rprio ≤ l := by
  intro n
  induction n with
  | zero =>
    intro s s' pre e hn hs he h
    have hb : s.below = [] := List.length_eq_zero_iff.1 (by omega)
    rw [reduceLoop] at h
    split at h
    · split at h
      · rename_i h1; have := reduce1_below h1; simp [hb] at this
      · simp at h
      · simp at h
      · simp at h
    · simp only [Out.next.injEq] at h; subst h; exact ⟨pre, e, hs, rfl, he, by omega⟩
  | succ n ih =>
    intro s s' pre e hn hs he h
    rw [reduceLoop] at h
    split at h
    · rename_i hlt
      split at h
      · rename_i s1 h1
        obtain ⟨p1, e1, k1, k2, k3⟩ := reduce1_kept hs hlt h1
        have := reduce1_below h1
        obtain ⟨p2, e2, k4, k5, k6⟩ := ih s1 s' p1 (some e1) (by omega) k1 (by simp [k3]) h
        exact ⟨p2, e2, k4, by rw [k5]; exact k2, k6⟩
      · simp at h
      · simp at h
      · simp at h
    · simp only [Out.next.injEq] at h; subst h; exact ⟨pre, e, hs, rfl, he, by omega⟩

theorem lprio_le (o : Op) : o.lprio ≤ 30 := by cases o <;> decide

theorem push_have {o : Op} {s s' : State} (hp : push o s = .next s') : s'.top.have_ = false := by
  obtain ⟨v, hs⟩ := push_stack hp
  simp only [State.stack, List.cons.injEq] at hs
  rw [hs.1]

/-- What has been read, between two tokens. -/
theorem runToks_spells : ∀ (ts : List Tok) (s s' : State) (pre : List Tok) (e : Option CExp),
    (∀ v u, Tok.num v u ∈ ts → toLong v = v) →
    Spells s.stack pre e → (∀ x, e = some x → 31 ≤ x.redge) → runToks ts s = .next s' →
    ∃ pre' e', Spells s'.stack pre' e' ∧ pre' ++ optTokens e' = pre ++ optTokens e ++ ts ∧ ∀ x, e' = some x → 31 ≤ x.redge := by
  intro ts
  induction ts with
  | nil =>
    intro s s' pre e _ hs he h
    simp only [runToks, Out.next.injEq] at h
    subst h
    exact ⟨pre, e, hs, by simp, he⟩
  | cons t ts ih =>
    intro s s' pre e hv hs he h
    simp only [runToks] at h
    have hv' : ∀ v u, Tok.num v u ∈ ts → toLong v = v := fun v u h => hv v u (List.mem_cons_of_mem _ h)
    cases ht : step s t with
    | bad => rw [ht] at h; simp [Out.bind] at h
    | err => rw [ht] at h; simp [Out.bind] at h
    | trap => rw [ht] at h; simp [Out.bind] at h
    | next s1 =>
      rw [ht] at h
      simp only [Out.bind] at h
      cases t with
      | other => simp [step] at ht
      | num v u =>
        simp only [step, setValue] at ht
        split at ht
        · simp at ht
        · rename_i hh
          simp only [Out.next.injEq] at ht
          have hn : e = none := by
            rw [hs.have_] at hh
            cases e <;> simp at hh ⊢
          subst hn
          have hL : s.top.rprio ≤ 31 := by
            rcases hs.rprio with h0 | ⟨o, h0⟩
            · omega
            · rw [h0]; cases o <;> decide
          have hs1 : Spells s1.stack pre (some (lit v u)) := by
            rw [← ht]
            exact hs.operand (lit v u) _ rfl hL rfl rfl rfl rfl rfl
          obtain ⟨p, e', k1, k2, k3⟩ := ih s1 s' pre (some (lit v u)) hv' hs1 (by simp [redge]) h
          refine ⟨p, e', k1, ?_, k3⟩
          rw [k2]
          simp [optTokens, tokens, hv v u (List.mem_cons_self ..)]
      | op o =>
        simp only [step] at ht
        cases hl : reduceLoop o.lprio s with
        | bad => rw [hl] at ht; simp [Out.bind] at ht
        | err => rw [hl] at ht; simp [Out.bind] at ht
        | trap => rw [hl] at ht; simp [Out.bind] at ht
        | next s2 =>
          rw [hl] at ht
          simp only [Out.bind] at ht
          have hlo := lprio_le o
          obtain ⟨p1, e1, k1, k2, k3, k4⟩ := reduceLoop_kept o.lprio _ s s2 pre e (Nat.le_refl _) hs
            (fun x hx => by have := he x hx; omega) hl
          obtain ⟨v, hst⟩ := push_stack ht
          have hs1 : Spells s1.stack (p1 ++ optTokens e1 ++ [.op o]) none := by
            rw [hst]
            exact .push _ _ _ _ _ _ o rfl rfl rfl rfl rfl (by simp) k4 k3 k1
          obtain ⟨p, e', m1, m2, m3⟩ := ih s1 s' _ none hv' hs1 (by simp) h
          refine ⟨p, e', m1, ?_, m3⟩
          rw [m2, k2]
          simp [optTokens]

/-- A line that is accepted is an expression the parser can read. -/
theorem parse_accepts (ts : List Tok) (v : Int) (hv : ∀ v u, Tok.num v u ∈ ts → toLong v = v)
    (h : parse ts = .value v 0) : ∃ e : CExp, e.readable = true ∧ e.tokens = ts := by
  unfold parse at h
  cases hr : runToks ts init with
  | bad => rw [hr] at h; simp at h
  | err => rw [hr] at h; simp at h
  | trap => rw [hr] at h; simp at h
  | next s =>
    rw [hr] at h
    simp only [finish] at h
    have hi : Spells init.stack [] none := .bottom _ _ rfl rfl rfl (fun _ => rfl) (by simp)
    obtain ⟨p, e, k1, k2, k3⟩ := runToks_spells ts init s [] none hv hi (by simp) hr
    cases hl : reduceLoop 0 s with
    | bad => rw [hl] at h; simp at h
    | err => rw [hl] at h; simp at h
    | trap => rw [hl] at h; simp at h
    | next s2 =>
      rw [hl] at h
      simp only at h
      obtain ⟨p1, e1, m1, m2, m3, m4⟩ := reduceLoop_kept 0 _ s s2 p e (Nat.le_refl _) k1
        (fun x hx => by have := k3 x hx; omega) hl
      split at h
      · simp at h
      · rename_i x hx
        simp only [Result.value.injEq] at h
        obtain ⟨_, h2⟩ := h
        split at h2
        swap
        · simp at h2
        rename_i hb
        simp only [State.stack, hb] at m1
        cases m1 with
        | bottom _ _ a b c d f =>
          cases e1 with
          | none => rw [d rfl] at hx; simp at hx
          | some y =>
            refine ⟨y, f y rfl, ?_⟩
            rw [k2] at m2
            simpa [optTokens] using m2

end Splint.CppExp
