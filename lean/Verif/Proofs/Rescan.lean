import Verif.Spec.Rescan
/-! Lemmas for C107. -/
namespace Splint.Rescan

open Spec

/-! ## The stack -/

def hides (st : List Buf) : Hide := fun m => st.any fun b => b.owner == some m

/-- One file at the bottom, above it expansions of different macros. -/
def WF : List Buf → Prop
  | [] => False
  | [b] => b.owner = none
  | b :: c :: r => (∃ m, b.owner = some m ∧ hides (c :: r) m = false) ∧ WF (c :: r)

def flat : List Buf → List (Tok × Hide)
  | [] => []
  | b :: r => tag (hides (b :: r)) (b.text.filter (· != .mark)) ++ flat r

def NextSolid : List Buf → Prop
  | ⟨_, t :: _⟩ :: _ => solid t = true
  | _ => False

/-- A marker is only at the end of a buffer, and something solid follows. -/
def Clean : List Buf → Prop
  | [] => True
  | b :: r => (Tok.newline ∉ b.text ∧ (Tok.mark ∉ b.text ∨ ∃ l, b.text = l ++ [.mark] ∧ Tok.mark ∉ l ∧ NextSolid r)) ∧ Clean r

theorem hides_some (m : Nat) (l : List Tok) (r : List Buf) : hides (⟨some m, l⟩ :: r) = add (hides r) m := by
  funext k
  simp only [hides, add, List.any_cons]
  by_cases h : m = k
  · subst h; simp
  · have h1 : (some m == some k) = false := by simpa using h
    have h2 : (k == m) = false := by simpa using fun e : k = m => h e.symm
    rw [h1, h2]; simp

theorem hides_text (o : Option Nat) (l l' : List Tok) (r : List Buf) : hides (⟨o, l⟩ :: r) = hides (⟨o, l'⟩ :: r) := rfl

theorem wf_text {o : Option Nat} {l l' : List Tok} {r : List Buf} (h : WF (⟨o, l⟩ :: r)) : WF (⟨o, l'⟩ :: r) := by
  cases r with
  | nil => exact h
  | cons c r => exact h

theorem wf_some {m : Nat} {l : List Tok} {r : List Buf} (h : WF (⟨some m, l⟩ :: r)) : WF r ∧ hides r m = false := by
  cases r with
  | nil => exact absurd h (by simp [WF])
  | cons c r =>
    obtain ⟨⟨k, h1, h2⟩, h3⟩ := h
    cases h1
    exact ⟨h3, h2⟩

theorem wf_push {n : Nat} {l : List Tok} {r : List Buf} (h : WF r) (hn : hides r n = false) : WF (⟨some n, l⟩ :: r) := by
  cases r with
  | nil => exact h.elim
  | cons c r => exact ⟨⟨n, rfl, hn⟩, h⟩

theorem enable_hides {m : Nat} {l : List Tok} {r : List Buf} (h : WF (⟨some m, l⟩ :: r)) :
    enable (hides (⟨some m, l⟩ :: r)) m = hides r := by
  rw [hides_some]
  funext k
  change ((hides r k || k == m) && k != m) = hides r k
  by_cases hk : k = m
  · subst hk
    rw [(wf_some h).2]
    simp
  · have : (k == m) = false := by simpa using hk
    simp [this, bne]

theorem disable_hides (n : Nat) (l : List Tok) (r : List Buf) : disable (hides r) n = hides (⟨some n, l⟩ :: r) := by
  rw [hides_some]; rfl

/-! ## Leaving ends of expansions -/

theorem skipEnds_wf : ∀ (st : List Buf), WF st →
    WF (skipEnds st (hides st)).1 ∧ (skipEnds st (hides st)).2.1 = hides (skipEnds st (hides st)).1 ∧
    ∀ m, hides (skipEnds st (hides st)).1 m = true → hides st m = true
  | [], h => h.elim
  | ⟨none, l⟩ :: r, h => by rw [skipEnds]; exact ⟨h, rfl, fun _ h => h⟩
  | ⟨some m, l⟩ :: r, h => by
    rw [skipEnds]
    split
    · simp only [enable_hides h]
      obtain ⟨h1, h2, h3⟩ := skipEnds_wf r (wf_some h).1
      refine ⟨h1, h2, fun k hk => ?_⟩
      rw [hides_some, add, h3 k hk, Bool.true_or]
    · exact ⟨wf_text h, rfl, fun _ h => h⟩

theorem openParen_wf {st st' : List Buf} (hs : WF st) (h : openParen st = some st') : WF st' ∧ hides st' = hides st := by
  cases st with
  | nil => exact hs.elim
  | cons b r =>
    obtain ⟨o, l⟩ := b
    rw [openParen] at h
    split at h
    · cases h; exact ⟨wf_text hs, rfl⟩
    · cases h

theorem readArgs_wf : ∀ (st st' : List Buf) (d : Nat) (dis : Dis) (nl : Nat), WF st →
    readArgs d st (hides st) = some (st', dis, nl) → WF st' ∧ dis = hides st' ∧ ∀ m, hides st' m = true → hides st m = true
  | [], _, _, _, _, h, _ => h.elim
  | ⟨o, l⟩ :: r, st', d, dis, nl, hw, h => by
    rw [readArgs] at h
    split at h
    · cases h
      exact ⟨wf_text hw, rfl, fun _ h => h⟩
    · cases o with
      | none => cases h
      | some m =>
        simp only [enable_hides hw] at h
        obtain ⟨h1, h2, h3⟩ := readArgs_wf r st' _ dis nl (wf_some hw).1 h
        refine ⟨h1, h2, fun k hk => ?_⟩
        rw [hides_some, add, h3 k hk, Bool.true_or]

/-- The marks in the table are those of the expansions on the stack. -/
theorem step_wf (env : Env) (st st' : List Buf) (d : Dis) (out : List Tok) (hw : WF st) (h : step env st (hides st) = .next st' d out) :
    WF st' ∧ d = hides st' := by
  match st, hw, h with
  | ⟨some m, []⟩ :: r, hw, h =>
    rw [step] at h
    cases h
    exact ⟨(wf_some hw).1, enable_hides hw⟩
  | ⟨none, []⟩ :: r, hw, h => rw [step] at h; cases h
  | ⟨o, .name n :: l⟩ :: r, hw, h =>
    rw [step] at h
    split at h
    · cases h; exact ⟨wf_text hw, rfl⟩
    · split at h
      · cases h; exact ⟨wf_text hw, rfl⟩
      · rename_i hn
        have hn : hides (⟨o, l⟩ :: r) n = false := by rw [hides_text o l (.name n :: l)]; simpa using hn
        split at h
        · rw [push] at h
          cases h
          exact ⟨wf_push (wf_text hw) hn, disable_hides _ _ _⟩
        · simp only at h
          obtain ⟨w1, w2, w3⟩ := skipEnds_wf (⟨o, l⟩ :: r) (wf_text hw)
          change (match openParen (skipEnds (⟨o, l⟩ :: r) (hides (⟨o, l⟩ :: r))).1 with
            | some st => match readArgs 0 st (skipEnds (⟨o, l⟩ :: r) (hides (⟨o, l⟩ :: r))).2.1 with
              | some (st, d, nl) => push env n _ nl st d
              | none => Step.unterminated
            | none => if (skipEnds (⟨o, l⟩ :: r) (hides (⟨o, l⟩ :: r))).2.2 then .fatal else .next (⟨o, l⟩ :: r) _ [.name n]) = _ at h
          split at h
          · rename_i st1 h1
            obtain ⟨v1, v2⟩ := openParen_wf w1 h1
            rw [w2, ← v2] at h
            split at h
            · rename_i st2 d2 nl h2
              obtain ⟨u1, u2, u3⟩ := readArgs_wf _ _ _ _ _ v1 h2
              rw [push] at h
              cases h
              rw [u2]
              refine ⟨wf_push u1 ?_, disable_hides _ _ _⟩
              by_contra hx
              have hx : hides st2 n = true := by simpa using hx
              have := w3 n (by rw [← v2]; exact u3 n hx)
              rw [hn] at this; cases this
            · cases h
          · split at h
            · cases h
            · cases h; exact ⟨wf_text hw, rfl⟩
  | ⟨o, .lparen :: l⟩ :: r, hw, h => rw [step] at h; cases h; exact ⟨wf_text hw, rfl⟩; simp
  | ⟨o, .rparen :: l⟩ :: r, hw, h => rw [step] at h; cases h; exact ⟨wf_text hw, rfl⟩; simp
  | ⟨o, .other _ :: l⟩ :: r, hw, h => rw [step] at h; cases h; exact ⟨wf_text hw, rfl⟩; simp
  | ⟨o, .space :: l⟩ :: r, hw, h => rw [step] at h; cases h; exact ⟨wf_text hw, rfl⟩; simp
  | ⟨o, .newline :: l⟩ :: r, hw, h => rw [step] at h; cases h; exact ⟨wf_text hw, rfl⟩; simp
  | ⟨o, .mark :: l⟩ :: r, hw, h => rw [step] at h; cases h; exact ⟨wf_text hw, rfl⟩; simp

/-! ## Termination -/

/-- how many macros are not being expanded -/
def free (env : Env) (h : Hide) : Nat := (env.defs.filter fun p => !h p.1).length

/-- more than the longest text of a macro -/
def longest (env : Env) : Nat := (env.defs.map fun p => p.2.body.length).sum

def weight (L : Nat) : Nat → Nat
  | 0 => 1
  | k + 1 => L * weight L k + 3

def wt (env : Env) (h : Hide) : Tok → Nat
  | .newline => 1
  | .mark => 1
  | _ => weight (longest env) (free env h)

def wts (env : Env) (h : Hide) (l : List Tok) : Nat := (l.map (wt env h)).sum

def size (env : Env) : List Buf → Nat
  | [] => 0
  | b :: r => 1 + wts env (hides (b :: r)) b.text + size env r

theorem weight_pos (L k : Nat) : 1 ≤ weight L k := by
  cases k with
  | zero => exact Nat.le_refl _
  | succ k => rw [weight]; omega

theorem wt_pos (env : Env) (h : Hide) (t : Tok) : 1 ≤ wt env h t := by
  cases t <;> simp only [wt] <;> first | exact weight_pos _ _ | exact Nat.le_refl _

theorem wts_append (env : Env) (h : Hide) (a b : List Tok) : wts env h (a ++ b) = wts env h a + wts env h b := by
  simp [wts]

theorem wts_cons (env : Env) (h : Hide) (t : Tok) (b : List Tok) : wts env h (t :: b) = wt env h t + wts env h b := by
  simp [wts]

theorem wts_drop (env : Env) (h : Hide) (p : Tok → Bool) (l : List Tok) : wts env h (l.dropWhile p) ≤ wts env h l := by
  have := wts_append env h (l.takeWhile p) (l.dropWhile p)
  rw [List.takeWhile_append_dropWhile] at this
  omega

theorem wts_le (env : Env) (h : Hide) (l : List Tok) : wts env h l ≤ l.length * weight (longest env) (free env h) := by
  induction l with
  | nil => simp [wts]
  | cons t l ih =>
    rw [wts_cons, List.length_cons, Nat.add_mul, Nat.one_mul]
    have : wt env h t ≤ weight (longest env) (free env h) := by
      cases t <;> simp only [wt] <;> first | exact Nat.le_refl _ | exact weight_pos _ _
    omega

theorem lookup_mem {n : Nat} {df : Def} : ∀ {defs : List (Nat × Def)}, defs.lookup n = some df → (n, df) ∈ defs
  | [], h => by simp at h
  | (k, e) :: defs, h => by
    rw [List.lookup_cons] at h
    split at h
    · rename_i hk
      have hk : n = k := by simpa using hk
      cases h; subst hk; exact List.mem_cons_self
    · exact List.mem_cons_of_mem _ (lookup_mem h)

theorem body_le {env : Env} {n : Nat} {df : Def} (h : env.defs.lookup n = some df) : df.body.length ≤ longest env := by
  have := lookup_mem h
  rw [longest]
  have key : ∀ (l : List (Nat × Def)), (n, df) ∈ l → df.body.length ≤ (l.map fun p => p.2.body.length).sum := by
    intro l hl
    induction l with
    | nil => simp at hl
    | cons a l ih =>
      rw [List.map_cons, List.sum_cons]
      rcases List.mem_cons.mp hl with rfl | hl
      · exact Nat.le_add_right _ _
      · exact Nat.le_trans (ih hl) (Nat.le_add_left _ _)
  exact key _ this

theorem filter_lt {α : Type} (p q : α → Bool) (hpq : ∀ a, q a = true → p a = true) : ∀ (l : List α) (x : α), x ∈ l → p x = true → q x = false →
    (l.filter q).length + 1 ≤ (l.filter p).length
  | [], _, h, _, _ => by simp at h
  | a :: l, x, h, h1, h2 => by
    have mono : (l.filter q).length ≤ (l.filter p).length := by
      clear h
      induction l with
      | nil => simp
      | cons b l ih =>
        rw [List.filter_cons, List.filter_cons]
        by_cases hb : q b = true
        · rw [if_pos hb, if_pos (hpq b hb)]
          simpa using ih
        · rw [if_neg hb]
          split
          · rw [List.length_cons]; omega
          · exact ih
    rw [List.filter_cons, List.filter_cons]
    rcases List.mem_cons.mp h with rfl | h
    · rw [if_pos h1, h2]
      simpa using mono
    · have ih := filter_lt p q hpq l x h h1 h2
      by_cases hb : q a = true
      · rw [if_pos hb, if_pos (hpq a hb)]
        simpa using ih
      · rw [if_neg hb]
        split
        · rw [List.length_cons]; omega
        · exact ih

theorem free_lt {env : Env} {n : Nat} {df : Def} {h : Hide} (hl : env.defs.lookup n = some df) (hn : h n = false) :
    free env (add h n) + 1 ≤ free env h := by
  refine filter_lt (fun p => !h p.1) (fun p => !(add h n) p.1) ?_ env.defs (n, df) (lookup_mem hl) (by simp [hn]) (by simp [add])
  intro a ha
  simp only [add, Bool.not_or, Bool.and_eq_true] at ha
  exact ha.1

theorem weight_mono (L : Nat) {j k : Nat} (h : j ≤ k) : weight L j ≤ weight L k ∨ L = 0 ∧ weight L j ≤ 3 ∧ (k = 0 → weight L j ≤ 1) := by
  by_cases hL : L = 0
  · subst hL
    refine .inr ⟨rfl, ?_, ?_⟩
    · cases j with
      | zero => simp [weight]
      | succ j => simp [weight]
    · intro hk
      have : j = 0 := by omega
      subst this
      exact Nat.le_refl _
  · refine .inl ?_
    induction h with
    | refl => exact Nat.le_refl _
    | @step m _ ih =>
      rw [weight]
      have : weight L m ≤ L * weight L m := Nat.le_mul_of_pos_left _ (Nat.pos_of_ne_zero hL)
      exact Nat.le_trans ih (Nat.le_trans this (Nat.le_add_right _ _))

/-- The weight of a macro is more than that of its text. -/
theorem expand_lt {env : Env} {n : Nat} {df : Def} {h : Hide} (hl : env.defs.lookup n = some df) (hn : h n = false) :
    wts env (add h n) df.body + 3 ≤ weight (longest env) (free env h) := by
  have h1 := wts_le env (add h n) df.body
  have h2 := body_le hl
  have h3 := free_lt hl hn
  obtain ⟨k, hk⟩ : ∃ k, free env h = k + 1 := ⟨free env h - 1, by omega⟩
  rw [hk, weight]
  have h4 : df.body.length * weight (longest env) (free env (add h n)) ≤ longest env * weight (longest env) k := by
    rcases weight_mono (longest env) (j := free env (add h n)) (k := k) (by omega) with h5 | ⟨h5, _⟩
    · exact Nat.mul_le_mul h2 h5
    · have : df.body.length = 0 := by omega
      rw [this]; simp
  omega

theorem size_cons (env : Env) (b : Buf) (r : List Buf) : size env (b :: r) = 1 + wts env (hides (b :: r)) b.text + size env r := rfl

theorem tail_size (env : Env) (h : Hide) (body : List Tok) (nl : Nat) (st : List Buf) : wts env h (tail env body nl st) ≤ 1 + nl := by
  rw [tail]
  split
  · rw [wts_cons]
    have : ∀ k, wts env h (List.replicate k .newline) = k := by
      intro k
      induction k with
      | zero => rfl
      | succ k ih => rw [List.replicate_succ, wts_cons, ih]; simp only [wt]; omega
    rw [this]
    simp only [wt]
    omega
  · split
    · simp [wts, wt]
    · simp [wts]

theorem push_size (env : Env) (n : Nat) (df : Def) (nl : Nat) (st : List Buf) (hl : env.defs.lookup n = some df) (hn : hides st n = false) :
    size env (⟨some n, df.body ++ tail env df.body nl st⟩ :: st) + 1 ≤ weight (longest env) (free env (hides st)) + nl + size env st := by
  rw [size_cons, hides_some, wts_append]
  have h1 := expand_lt hl hn
  have h2 := tail_size env (add (hides st) n) df.body nl st
  omega

theorem skipEnds_size (env : Env) : ∀ (st : List Buf) (d : Dis), size env (skipEnds st d).1 ≤ size env st
  | [], _ => Nat.le_refl _
  | ⟨none, l⟩ :: r, _ => by rw [skipEnds]
  | ⟨some m, l⟩ :: r, d => by
    rw [skipEnds]
    split
    · have := skipEnds_size env r (enable d m)
      rw [size_cons]
      simp only
      omega
    · rw [size_cons, size_cons]
      have := wts_drop env (hides (⟨some m, l⟩ :: r)) (· == .space) l
      rw [hides_text (some m) l (l.dropWhile (· == .space))] at this
      rw [hides_text (some m) l (l.dropWhile (· == .space))]
      simp only
      omega

theorem openParen_size (env : Env) {st st' : List Buf} (h : openParen st = some st') :
    size env st' + weight (longest env) (free env (hides st)) ≤ size env st := by
  cases st with
  | nil => simp [openParen] at h
  | cons b r =>
    obtain ⟨o, l⟩ := b
    rw [openParen] at h
    split at h
    · rename_i l' hl
      cases h
      have := wts_drop env (hides (⟨o, l⟩ :: r)) white l
      rw [hl, wts_cons] at this
      simp only [wt] at this
      rw [size_cons, size_cons, hides_text o l' l]
      simp only
      omega
    · cases h

theorem close_split : ∀ (l : List Tok) (d : Nat) (l' : List Tok), close d l = .inl l' → ∃ a, l = a ++ .rparen :: l'
  | [], d, l', h => by rw [close] at h; cases h
  | t :: l, d, l', h => by
    have again : ∀ d, close d l = .inl l' → ∃ a, t :: l = a ++ .rparen :: l' := fun d h => by
      obtain ⟨a, ha⟩ := close_split l d l' h
      exact ⟨t :: a, by rw [ha]; rfl⟩
    cases t with
    | lparen => rw [close] at h; exact again _ h
    | rparen =>
      cases d with
      | zero => rw [close] at h; cases h; exact ⟨[], rfl⟩
      | succ d => rw [close] at h; exact again _ h
    | _ => rw [close] at h <;> first | exact again _ h | simp

theorem wts_newlines (env : Env) (h : Hide) (l : List Tok) : l.count .newline ≤ wts env h l := by
  induction l with
  | nil => simp
  | cons t l ih =>
    rw [wts_cons, List.count_cons]
    have := wt_pos env h t
    split <;> omega

theorem readArgs_size (env : Env) : ∀ (st st' : List Buf) (d : Nat) (dis dis' : Dis) (nl : Nat),
    readArgs d st dis = some (st', dis', nl) → size env st' + nl + weight (longest env) (free env (hides st')) ≤ size env st
  | [], _, _, _, _, _, h => by simp [readArgs] at h
  | ⟨o, l⟩ :: r, st', d, dis, dis', nl, h => by
    rw [readArgs] at h
    split at h
    · rename_i l' hl
      cases h
      obtain ⟨a, ha⟩ := close_split l d l' hl
      rw [size_cons, size_cons, hides_text o l' l]
      simp only
      rw [ha, wts_append, wts_cons, List.count_append, List.count_cons]
      have := wts_newlines env (hides (⟨o, a ++ .rparen :: l'⟩ :: r)) a
      simp only [wt]
      split
      · simp only [beq_iff_eq, reduceCtorEq, if_false]
        omega
      · omega
    · cases o with
      | none => cases h
      | some m =>
        have := readArgs_size env r st' _ _ _ _ h
        rw [size_cons]
        omega

/-- Every step makes the stack smaller. -/
theorem step_size (env : Env) (st st' : List Buf) (d : Dis) (out : List Tok) (hw : WF st) (h : step env st (hides st) = .next st' d out) :
    size env st' < size env st := by
  have drop : ∀ (o : Option Nat) (t : Tok) (l : List Tok) (r : List Buf), size env (⟨o, l⟩ :: r) < size env (⟨o, t :: l⟩ :: r) := by
    intro o t l r
    rw [size_cons, size_cons, hides_text o l (t :: l), wts_cons]
    have := wt_pos env (hides (⟨o, t :: l⟩ :: r)) t
    simp only
    omega
  match st, hw, h with
  | ⟨some m, []⟩ :: r, hw, h =>
    rw [step] at h
    cases h
    rw [size_cons]
    omega
  | ⟨none, []⟩ :: r, hw, h => rw [step] at h; cases h
  | ⟨o, .name n :: l⟩ :: r, hw, h =>
    rw [step] at h
    split at h
    · cases h; exact drop _ _ _ _
    · rename_i df hdf
      split at h
      · cases h; exact drop _ _ _ _
      · rename_i hn
        have hn : hides (⟨o, l⟩ :: r) n = false := by rw [hides_text o l (.name n :: l)]; simpa using hn
        split at h
        · rename_i body
          rw [push] at h
          cases h
          have := push_size env n (.object body) 0 (⟨o, l⟩ :: r) hdf hn
          simp only [Def.body] at this
          have hs : size env (⟨o, .name n :: l⟩ :: r) = weight (longest env) (free env (hides (⟨o, l⟩ :: r))) + size env (⟨o, l⟩ :: r) := by
            rw [size_cons, size_cons, wts_cons, hides_text o l (.name n :: l)]
            simp only [wt]
            omega
          omega
        · rename_i body
          simp only at h
          obtain ⟨w1, w2, w3⟩ := skipEnds_wf (⟨o, l⟩ :: r) (wf_text hw)
          have s1 := skipEnds_size env (⟨o, l⟩ :: r) (hides (⟨o, l⟩ :: r))
          change (match openParen (skipEnds (⟨o, l⟩ :: r) (hides (⟨o, l⟩ :: r))).1 with
            | some st => match readArgs 0 st (skipEnds (⟨o, l⟩ :: r) (hides (⟨o, l⟩ :: r))).2.1 with
              | some (st, d, nl) => push env n _ nl st d
              | none => Step.unterminated
            | none => if (skipEnds (⟨o, l⟩ :: r) (hides (⟨o, l⟩ :: r))).2.2 then .fatal else .next (⟨o, l⟩ :: r) _ [.name n]) = _ at h
          split at h
          · rename_i st1 h1
            obtain ⟨v1, v2⟩ := openParen_wf w1 h1
            have s2 := openParen_size env h1
            rw [w2, ← v2] at h
            split at h
            · rename_i st2 d2 nl h2
              obtain ⟨u1, u2, u3⟩ := readArgs_wf _ _ _ _ _ v1 h2
              have s3 := readArgs_size env _ _ _ _ _ _ h2
              rw [push] at h
              cases h
              have hn2 : hides st2 n = false := by
                by_contra hx
                have hx : hides st2 n = true := by simpa using hx
                have := w3 n (by rw [← v2]; exact u3 n hx)
                rw [hn] at this; cases this
              have s4 := push_size env n (.function body) nl st2 hdf hn2
              simp only [Def.body] at s4
              have s5 := drop o (.name n) l r
              have s6 : size env (⟨o, l⟩ :: r) < size env (⟨o, .name n :: l⟩ :: r) := s5
              omega
            · cases h
          · split at h
            · cases h
            · cases h; exact drop _ _ _ _
  | ⟨o, .lparen :: l⟩ :: r, hw, h => rw [step] at h; cases h; exact drop _ _ _ _; simp
  | ⟨o, .rparen :: l⟩ :: r, hw, h => rw [step] at h; cases h; exact drop _ _ _ _; simp
  | ⟨o, .other _ :: l⟩ :: r, hw, h => rw [step] at h; cases h; exact drop _ _ _ _; simp
  | ⟨o, .space :: l⟩ :: r, hw, h => rw [step] at h; cases h; exact drop _ _ _ _; simp
  | ⟨o, .newline :: l⟩ :: r, hw, h => rw [step] at h; cases h; exact drop _ _ _ _; simp
  | ⟨o, .mark :: l⟩ :: r, hw, h => rw [step] at h; cases h; exact drop _ _ _ _; simp

/-! ## The same as with hide sets -/

theorem tag_append (h : Hide) (a b : List Tok) : tag h (a ++ b) = tag h a ++ tag h b := by simp [tag]

theorem filter_mark {l : List Tok} (h : Tok.mark ∉ l) : l.filter (· != .mark) = l := by
  rw [List.filter_eq_self]
  intro a ha
  simp only [bne_iff_ne, ne_eq]
  rintro rfl
  exact h ha

theorem flat_cons {o : Option Nat} {t : Tok} {l : List Tok} {r : List Buf} (h : t ≠ .mark) :
    flat (⟨o, t :: l⟩ :: r) = (t, hides (⟨o, l⟩ :: r)) :: flat (⟨o, l⟩ :: r) := by
  rw [flat, flat]
  simp only
  rw [List.filter_cons, if_pos (by simpa using h)]
  rfl

theorem flat_mark {o : Option Nat} {l : List Tok} {r : List Buf} : flat (⟨o, .mark :: l⟩ :: r) = flat (⟨o, l⟩ :: r) := by
  rw [flat, flat]
  rfl

theorem clean_drop {o : Option Nat} {a l : List Tok} {r : List Buf} (h : Clean (⟨o, a ++ l⟩ :: r)) : Clean (⟨o, l⟩ :: r) := by
  obtain ⟨⟨h1, h2⟩, h3⟩ := h
  refine ⟨⟨fun hx => h1 (List.mem_append_right _ hx), ?_⟩, h3⟩
  by_cases hm : Tok.mark ∈ l
  · right
    rcases h2 with h2 | ⟨k, hk, h4, h5⟩
    · exact absurd (List.mem_append_right _ hm) h2
    · simp only at hk
      rcases List.eq_nil_or_concat l with rfl | ⟨l', t, rfl⟩
      · simp at hm
      · rw [List.concat_eq_append, ← List.append_assoc] at hk
        have h6 := List.append_inj' hk rfl
        refine ⟨l', ?_, ?_, h5⟩
        · rw [List.concat_eq_append, h6.2]
        · intro hx
          apply h4
          rw [← h6.1]
          exact List.mem_append_right _ hx
  · exact .inl hm

theorem clean_tail {o : Option Nat} {t : Tok} {l : List Tok} {r : List Buf} (h : Clean (⟨o, t :: l⟩ :: r)) : Clean (⟨o, l⟩ :: r) :=
  clean_drop (a := [t]) h

theorem clean_dropWhile {o : Option Nat} {p : Tok → Bool} {l : List Tok} {r : List Buf} (h : Clean (⟨o, l⟩ :: r)) :
    Clean (⟨o, l.dropWhile p⟩ :: r) := by
  refine clean_drop (a := l.takeWhile p) ?_
  rw [List.takeWhile_append_dropWhile]
  exact h

/-- the text from the next token on -/
def sig (l : List (Tok × Hide)) : List (Tok × Hide) := l.dropWhile fun t => white t.1

theorem sig_white {h : Hide} {a : List Tok} {l : List (Tok × Hide)} (ha : ∀ t ∈ a, white t = true) : sig (tag h a ++ l) = sig l := by
  induction a with
  | nil => rfl
  | cons t a ih =>
    have h1 := ha t List.mem_cons_self
    rw [tag, List.map_cons, List.cons_append, sig, List.dropWhile_cons, if_pos h1]
    exact ih fun u hu => ha u (List.mem_cons_of_mem _ hu)

theorem takeWhile_all {p : Tok → Bool} {l : List Tok} : ∀ t ∈ l.takeWhile p, p t = true := by
  induction l with
  | nil => simp
  | cons a l ih =>
    intro t ht
    rw [List.takeWhile_cons] at ht
    split at ht
    · rcases List.mem_cons.mp ht with rfl | ht
      · assumption
      · exact ih t ht
    · simp at ht

theorem flat_dropWhile (o : Option Nat) (p : Tok → Bool) (hp : ∀ t, p t = true → white t = true) (l : List Tok) (r : List Buf) :
    sig (flat (⟨o, l⟩ :: r)) = sig (flat (⟨o, l.dropWhile p⟩ :: r)) := by
  rw [flat, flat]
  simp only
  conv_lhs => rw [← List.takeWhile_append_dropWhile (p := p) (l := l)]
  rw [List.filter_append, tag_append, List.append_assoc]
  refine sig_white ?_
  intro t ht
  rw [List.mem_filter] at ht
  exact hp t (takeWhile_all t ht.1)

theorem skipEnds_flat : ∀ (st : List Buf) (d : Dis), Clean st →
    sig (flat st) = sig (flat (skipEnds st d).1) ∧ Clean (skipEnds st d).1
  | [], _, h => ⟨rfl, h⟩
  | ⟨none, l⟩ :: r, _, h => by rw [skipEnds]; exact ⟨rfl, h⟩
  | ⟨some m, l⟩ :: r, d, h => by
    rw [skipEnds]
    have hsp : ∀ t : Tok, (t == Tok.space) = true → white t = true := by
      intro t ht
      rw [white, ht, Bool.true_or]
    have h1 := flat_dropWhile (some m) (· == .space) hsp l r
    split
    · rename_i hl
      obtain ⟨h2, h3⟩ := skipEnds_flat r (enable d m) h.2
      refine ⟨?_, h3⟩
      rw [h1, hl]
      exact h2
    · exact ⟨h1, clean_dropWhile h⟩

/-- The top buffer is the file, or has something other than a space. -/
theorem skipEnds_head : ∀ (st : List Buf) (d : Dis), WF st →
    ∃ o l r, (skipEnds st d).1 = ⟨o, l⟩ :: r ∧ (o = none ∧ r = [] ∨ ∃ t l', l = t :: l' ∧ t ≠ .space)
  | [], _, h => h.elim
  | ⟨none, l⟩ :: r, _, h => by
    rw [skipEnds]
    refine ⟨none, l, r, rfl, .inl ⟨rfl, ?_⟩⟩
    cases r with
    | nil => rfl
    | cons c r => obtain ⟨⟨m, h1, _⟩, _⟩ := h; cases h1
  | ⟨some m, l⟩ :: r, d, h => by
    rw [skipEnds]
    split
    · exact skipEnds_head r _ (wf_some h).1
    · rename_i hl
      refine ⟨_, _, _, rfl, .inr ?_⟩
      cases hd : l.dropWhile (· == .space) with
      | nil => exact absurd hd hl
      | cons t l' =>
        refine ⟨t, l', rfl, ?_⟩
        have := List.head?_dropWhile_not (· == Tok.space) l
        rw [hd] at this
        simpa using this

theorem call_sig (l : List (Tok × Hide)) : call l = match sig l with
    | (.lparen, _) :: l => some l
    | _ => none := rfl

theorem openParen_call {o : Option Nat} {l : List Tok} {r : List Buf} (hc : Clean (⟨o, l⟩ :: r))
    (hh : o = none ∧ r = [] ∨ ∃ t l', l = t :: l' ∧ t ≠ .space) :
    (∀ st, openParen (⟨o, l⟩ :: r) = some st → call (flat (⟨o, l⟩ :: r)) = some (flat st) ∧ Clean st) ∧
    (openParen (⟨o, l⟩ :: r) = none → call (flat (⟨o, l⟩ :: r)) = none) := by
  have h1 := flat_dropWhile o white (fun _ h => h) l r
  have hcl := clean_dropWhile (p := white) hc
  rw [call_sig, h1, openParen]
  cases hd : l.dropWhile white with
  | nil =>
    refine ⟨fun st h => by simp at h, fun _ => ?_⟩
    rcases hh with ⟨rfl, rfl⟩ | ⟨t, l', rfl, ht⟩
    · rfl
    · exfalso
      have hw : white t = true := by
        by_contra hx
        rw [List.dropWhile_cons, if_neg hx] at hd
        cases hd
      have : t = .newline := by
        rw [white] at hw
        simpa [ht] using hw
      subst this
      exact hc.1.1 List.mem_cons_self
  | cons t l' =>
    have hw : white t = false := by
      have := List.head?_dropWhile_not white l
      rw [hd] at this
      simpa using this
    by_cases hm : t = .mark
    · subst hm
      refine ⟨fun st h => by simp at h, fun _ => ?_⟩
      rw [hd] at hcl
      obtain ⟨⟨_, h2⟩, _⟩ := hcl
      rcases h2 with h2 | ⟨k, hk, h3, h4⟩
      · exact absurd List.mem_cons_self h2
      · simp only at hk
        have hk' : k = [] := by
          cases k with
          | nil => rfl
          | cons a k =>
            cases hk
            exact absurd List.mem_cons_self h3
        subst hk'
        cases hk
        rw [flat_mark, flat]
        simp only [List.filter_nil, tag, List.map_nil, List.nil_append]
        match r, h4 with
        | ⟨o', t' :: l''⟩ :: r', h4 =>
          have hn : t' ≠ .mark := by rintro rfl; cases h4
          have hl : t' ≠ .lparen := by rintro rfl; cases h4
          have hw' : white t' = false := by cases t' <;> first | rfl | cases h4
          rw [flat_cons hn, sig, List.dropWhile_cons]
          simp only [hw', Bool.false_eq_true, if_false]
          cases t' <;> first | rfl | exact absurd rfl hl
    · rw [flat_cons hm, sig, List.dropWhile_cons]
      simp only [hw, Bool.false_eq_true, if_false]
      rw [hd] at hcl
      cases t with
      | lparen => exact ⟨fun st h => by cases h; exact ⟨rfl, clean_tail hcl⟩, fun h => by simp at h⟩
      | _ => exact ⟨fun st h => by simp at h, fun _ => rfl⟩

theorem close_flat : ∀ (l : List Tok) (d : Nat) (o : Option Nat) (r : List Buf),
    closing d (flat (⟨o, l⟩ :: r)) = match close d l with
      | .inl l' => some (flat (⟨o, l'⟩ :: r), hides (⟨o, l'⟩ :: r))
      | .inr d' => closing d' (flat r)
  | [], d, o, r => by rw [close]; rfl
  | t :: l, d, o, r => by
    cases t with
    | mark =>
      rw [flat_mark, close_flat l d o r]
      rw [close] <;> simp
    | lparen => rw [flat_cons (by simp), closing, close_flat l (d + 1) o r, close]
    | rparen =>
      rw [flat_cons (by simp)]
      cases d with
      | zero => rw [closing, close]
      | succ d => rw [closing, close_flat l d o r, close]
    | name n => rw [flat_cons (by simp), closing, close_flat l d o r] <;> first | (rw [close] <;> simp) | simp
    | other n => rw [flat_cons (by simp), closing, close_flat l d o r] <;> first | (rw [close] <;> simp) | simp
    | space => rw [flat_cons (by simp), closing, close_flat l d o r] <;> first | (rw [close] <;> simp) | simp
    | newline => rw [flat_cons (by simp), closing, close_flat l d o r] <;> first | (rw [close] <;> simp) | simp

theorem readArgs_flat : ∀ (st : List Buf) (d : Nat) (dis : Dis), WF st → Clean st →
    (∀ st' dis' nl, readArgs d st dis = some (st', dis', nl) →
      closing d (flat st) = some (flat st', hides st') ∧ Clean st' ∧ nl = 0) ∧
    (readArgs d st dis = none → closing d (flat st) = none)
  | [], _, _, h, _ => h.elim
  | ⟨o, l⟩ :: r, d, dis, hw, hc => by
    have h1 := close_flat l d o r
    rw [readArgs]
    cases hd : close d l with
    | inl l' =>
      rw [hd] at h1
      refine ⟨fun st' dis' nl h => ?_, fun h => by simp at h⟩
      simp only [Option.some.injEq, Prod.mk.injEq] at h
      obtain ⟨rfl, rfl, rfl⟩ := h
      obtain ⟨a, ha⟩ := close_split l d l' hd
      refine ⟨h1, ?_, ?_⟩
      · refine clean_drop (a := a ++ [.rparen]) ?_
        rw [List.append_assoc]
        change Clean (⟨o, a ++ .rparen :: l'⟩ :: r)
        rw [← ha]
        exact hc
      · have : l.count .newline = 0 := List.count_eq_zero.mpr hc.1.1
        rw [this]
        simp
    | inr d' =>
      rw [hd] at h1
      simp only at h1 ⊢
      rw [h1]
      cases o with
      | none =>
        refine ⟨fun _ _ _ h => by simp at h, fun _ => ?_⟩
        cases r with
        | nil => rfl
        | cons c r => obtain ⟨⟨m, h2, _⟩, _⟩ := hw; cases h2
      | some m => exact readArgs_flat r d' (enable dis m) (wf_some hw).1 hc.2

theorem push_flat {env : Env} {n : Nat} {body : List Tok} {st : List Buf} (hb : OneLine body) (hc : Clean st) :
    flat (⟨some n, body ++ tail env body 0 st⟩ :: st) = tag (add (hides st) n) body ++ flat st ∧
    Clean (⟨some n, body ++ tail env body 0 st⟩ :: st) := by
  have ht : tail env body 0 st = if keep env body st then [.mark] else [] := by
    rw [tail, if_neg (Nat.not_lt_zero _)]
  refine ⟨?_, ⟨?_, ?_⟩, hc⟩
  · rw [flat, hides_some]
    simp only
    rw [List.filter_append, filter_mark hb.2, ht]
    split
    · rw [tag_append]; simp [tag]
    · simp
  · rw [ht, List.mem_append]
    rintro (h | h)
    · exact hb.1 h
    · split at h <;> simp at h
  · rw [ht]
    split
    · rename_i hk
      refine .inr ⟨body, rfl, hb.2, ?_⟩
      rw [keep.eq_def] at hk
      split at hk
      · rename_i a o t l r _
        rw [Bool.and_eq_true] at hk
        exact hk.1
      · cases hk
    · rw [List.append_nil]
      exact .inl hb.2

theorem inter_sub {h h' : Hide} (hs : ∀ m, h' m = true → h m = true) : inter h h' = h' := by
  funext m
  rw [inter]
  cases hm : h' m with
  | false => simp
  | true => rw [hs m hm]; rfl

theorem visible_append (a b : List Tok) : visible (a ++ b) = visible a ++ visible b := by simp [visible]

/-- What is done is what the algorithm with hide sets does. -/
theorem run_expands (env : Env) (hb : ∀ p ∈ env.defs, OneLine p.2.body) : ∀ (fuel : Nat) (st : List Buf) (out : List Tok) (e : End),
    WF st → Clean st → run env fuel st (hides st) = some (out, e) → e ≠ .fatal → Expands env.defs (flat st) (visible out) e
  | 0, _, _, _, _, _, h, _ => by simp [run] at h
  | fuel + 1, st, out, e, hw, hc, h, he => by
    rw [run] at h
    have key : ∀ st' d' o', step env st (hides st) = .next st' d' o' → Clean st' →
        ∃ q, out = o' ++ q ∧ Expands env.defs (flat st') (visible q) e := by
      intro st' d' o' h1 h2
      rw [h1] at h
      simp only [Option.map_eq_some_iff] at h
      obtain ⟨⟨q, e'⟩, h3, h4⟩ := h
      cases h4
      obtain ⟨w1, w2⟩ := step_wf env st st' d' o' hw h1
      rw [w2] at h3
      exact ⟨q, rfl, run_expands env hb fuel st' q e' w1 h2 h3 he⟩
    have plain : ∀ (o : Option Nat) (t : Tok) (l : List Tok) (r : List Buf), st = ⟨o, t :: l⟩ :: r →
        step env st (hides st) = .next (⟨o, l⟩ :: r) (hides st) [t] →
        ∃ q, out = t :: q ∧ Expands env.defs (flat (⟨o, l⟩ :: r)) (visible q) e := by
      intro o t l r hst h1
      subst hst
      exact key _ _ _ h1 (clean_tail hc)
    match st, hw, hc, h, key, plain with
    | ⟨none, []⟩ :: r, hw, hc, h, key, _ =>
      rw [step] at h
      cases h
      cases r with
      | nil => exact .nil
      | cons c r => obtain ⟨⟨m, h2, _⟩, _⟩ := hw; cases h2
    | ⟨some m, []⟩ :: r, hw, hc, h, key, _ =>
      obtain ⟨q, h1, h2⟩ := key _ _ _ (by rw [step]) hc.2
      rw [h1]
      exact h2
    | ⟨o, .lparen :: l⟩ :: r, hw, hc, h, _, plain =>
      obtain ⟨q, h1, h2⟩ := plain _ _ _ _ rfl (by rw [step]; simp)
      rw [h1, flat_cons (by simp)]
      exact .other rfl (by simp) h2
    | ⟨o, .rparen :: l⟩ :: r, hw, hc, h, _, plain =>
      obtain ⟨q, h1, h2⟩ := plain _ _ _ _ rfl (by rw [step]; simp)
      rw [h1, flat_cons (by simp)]
      exact .other rfl (by simp) h2
    | ⟨o, .other k :: l⟩ :: r, hw, hc, h, _, plain =>
      obtain ⟨q, h1, h2⟩ := plain _ _ _ _ rfl (by rw [step]; simp)
      rw [h1, flat_cons (by simp)]
      exact .other rfl (by simp) h2
    | ⟨o, .space :: l⟩ :: r, hw, hc, h, _, plain =>
      obtain ⟨q, h1, h2⟩ := plain _ _ _ _ rfl (by rw [step]; simp)
      rw [h1, flat_cons (by simp)]
      exact .white rfl h2
    | ⟨o, .newline :: l⟩ :: r, hw, hc, h, _, plain =>
      obtain ⟨q, h1, h2⟩ := plain _ _ _ _ rfl (by rw [step]; simp)
      rw [h1, flat_cons (by simp)]
      exact .white rfl h2
    | ⟨o, .mark :: l⟩ :: r, hw, hc, h, _, plain =>
      obtain ⟨q, h1, h2⟩ := plain _ _ _ _ rfl (by rw [step]; simp)
      rw [h1, flat_mark]
      exact h2
    | ⟨o, .name n :: l⟩ :: r, hw, hc, h, key, plain =>
      have hcl := clean_tail hc
      rw [flat_cons (by simp)]
      have hstep := step.eq_4 env (hides (⟨o, .name n :: l⟩ :: r)) o n l r
      cases hl : env.defs.lookup n with
      | none =>
        rw [hl] at hstep
        obtain ⟨q, h1, h2⟩ := plain _ _ _ _ rfl hstep
        rw [h1]
        exact .plain hl h2
      | some df =>
        rw [hl] at hstep
        simp only at hstep
        have hob : OneLine df.body := hb _ (lookup_mem hl)
        by_cases hn : hides (⟨o, l⟩ :: r) n = true
        · rw [if_pos (show hides (⟨o, .name n :: l⟩ :: r) n = true from hn)] at hstep
          obtain ⟨q, h1, h2⟩ := plain _ _ _ _ rfl hstep
          rw [h1]
          exact .hidden hl hn h2
        · have hn' : hides (⟨o, l⟩ :: r) n = false := by simpa using hn
          rw [if_neg (show ¬ hides (⟨o, .name n :: l⟩ :: r) n = true from hn)] at hstep
          cases df with
          | object body =>
            simp only [push] at hstep
            obtain ⟨p1, p2⟩ := push_flat (env := env) (n := n) hob hcl
            obtain ⟨q, h1, h2⟩ := key _ _ _ hstep p2
            rw [h1]
            simp only [Def.body] at p1
            rw [p1] at h2
            exact .object hl hn' h2
          | function body =>
            simp only at hstep
            obtain ⟨w1, w2, w3⟩ := skipEnds_wf (⟨o, l⟩ :: r) (wf_text hw)
            obtain ⟨f1, f2⟩ := skipEnds_flat (⟨o, l⟩ :: r) (hides (⟨o, l⟩ :: r)) hcl
            obtain ⟨o', l', r', g1, g2⟩ := skipEnds_head (⟨o, l⟩ :: r) (hides (⟨o, l⟩ :: r)) (wf_text hw)
            rw [hides_text o (.name n :: l) l] at hstep
            generalize skipEnds (⟨o, l⟩ :: r) (hides (⟨o, l⟩ :: r)) = q at *
            obtain ⟨q1, q2, q3⟩ := q
            simp only at *
            subst g1
            obtain ⟨c1, c2⟩ := openParen_call f2 g2
            have hcall : call (flat (⟨o, l⟩ :: r)) = call (flat (⟨o', l'⟩ :: r')) := by rw [call_sig, f1, ← call_sig]
            cases hop : openParen (⟨o', l'⟩ :: r') with
            | none =>
              rw [hop] at hstep
              simp only at hstep
              cases q3 with
              | true =>
                rw [if_pos rfl] at hstep
                rw [hides_text o (.name n :: l) l, hstep] at h
                cases h
                exact absurd rfl he
              | false =>
                rw [if_neg (by simp)] at hstep
                obtain ⟨q, h1, h2⟩ := plain _ _ _ _ rfl hstep
                rw [h1]
                exact .alone hl hn' (hcall.trans (c2 hop)) h2
            | some st1 =>
              rw [hop] at hstep
              simp only at hstep
              obtain ⟨d1, d2⟩ := c1 st1 hop
              obtain ⟨v1, v2⟩ := openParen_wf w1 hop
              obtain ⟨e1, e2⟩ := readArgs_flat st1 0 q2 v1 d2
              cases hra : readArgs 0 st1 q2 with
              | none =>
                rw [hra] at hstep
                simp only at hstep
                rw [hides_text o (.name n :: l) l, hstep] at h
                cases h
                exact .unterminated hl hn' (hcall.trans d1) (e2 hra)
              | some q =>
                obtain ⟨st2, d3, nl⟩ := q
                obtain ⟨k1, k2, k3⟩ := e1 _ _ _ hra
                subst k3
                rw [hra] at hstep
                simp only [push] at hstep
                rw [w2, ← v2] at hra
                obtain ⟨u1, u2, u3⟩ := readArgs_wf _ _ _ _ _ v1 hra
                obtain ⟨p1, p2⟩ := push_flat (env := env) (n := n) hob k2
                obtain ⟨q, h1, h2⟩ := key _ _ _ hstep p2
                rw [h1]
                simp only [Def.body] at p1
                rw [p1] at h2
                refine .function hl hn' (hcall.trans d1) k1 ?_
                rw [inter_sub fun m hm => w3 m (by rw [← v2]; exact u3 m hm)]
                exact h2

/-! ## No fatal error -/

/-- No expansion ends with the name of a function-like macro. -/
def Ends (env : Env) (st : List Buf) : Prop := ∀ b ∈ st, b.owner ≠ none → NoOpenEnd env.defs b.text

theorem noOpenEnd_drop {defs : List (Nat × Def)} {a l : List Tok} (h : NoOpenEnd defs (a ++ l)) : NoOpenEnd defs l := by
  intro x n b body hl hb
  exact h (a ++ x) n b body (by rw [hl, List.append_assoc]) hb

theorem ends_drop {env : Env} {o : Option Nat} {a l : List Tok} {r : List Buf} (h : Ends env (⟨o, a ++ l⟩ :: r)) : Ends env (⟨o, l⟩ :: r) := by
  intro b hb ho
  rcases List.mem_cons.mp hb with rfl | hb
  · exact noOpenEnd_drop (h _ List.mem_cons_self ho)
  · exact h b (List.mem_cons_of_mem _ hb) ho

theorem ends_dropWhile {env : Env} {o : Option Nat} {p : Tok → Bool} {l : List Tok} {r : List Buf} (h : Ends env (⟨o, l⟩ :: r)) :
    Ends env (⟨o, l.dropWhile p⟩ :: r) := by
  refine ends_drop (a := l.takeWhile p) ?_
  rw [List.takeWhile_append_dropWhile]
  exact h

theorem ends_rest {env : Env} {b : Buf} {r : List Buf} (h : Ends env (b :: r)) : Ends env r :=
  fun c hc => h c (List.mem_cons_of_mem _ hc)

theorem skipEnds_ends {env : Env} : ∀ (st : List Buf) (d : Dis), Ends env st → Ends env (skipEnds st d).1
  | [], _, h => h
  | ⟨none, l⟩ :: r, _, h => by rw [skipEnds]; exact h
  | ⟨some m, l⟩ :: r, d, h => by
    rw [skipEnds]
    split
    · exact skipEnds_ends r _ (ends_rest h)
    · exact ends_dropWhile h

theorem openParen_ends {env : Env} {st st' : List Buf} (hs : Ends env st) (h : openParen st = some st') : Ends env st' := by
  cases st with
  | nil => simp [openParen] at h
  | cons b r =>
    obtain ⟨o, l⟩ := b
    rw [openParen] at h
    split at h
    · rename_i l' hl
      cases h
      have := ends_dropWhile (p := white) hs
      rw [hl] at this
      exact ends_drop (a := [.lparen]) this
    · cases h

theorem readArgs_ends {env : Env} : ∀ (st st' : List Buf) (d : Nat) (dis dis' : Dis) (nl : Nat), Ends env st →
    readArgs d st dis = some (st', dis', nl) → Ends env st'
  | [], _, _, _, _, _, _, h => by simp [readArgs] at h
  | ⟨o, l⟩ :: r, st', d, dis, dis', nl, hs, h => by
    rw [readArgs] at h
    split at h
    · rename_i l' hl
      cases h
      obtain ⟨a, ha⟩ := close_split l d l' hl
      refine ends_drop (a := a ++ [.rparen]) ?_
      rw [List.append_assoc]
      change Ends env (⟨o, a ++ .rparen :: l'⟩ :: r)
      rw [← ha]
      exact hs
    · cases o with
      | none => cases h
      | some m => exact readArgs_ends r st' _ _ _ _ (ends_rest hs) h

theorem tail_noOpenEnd {env : Env} {body : List Tok} (nl : Nat) (st : List Buf) (h : NoOpenEnd env.defs body) :
    NoOpenEnd env.defs (body ++ tail env body nl st) := by
  have ht : tail env body nl st = [] ∨ ∃ k, tail env body nl st = .mark :: List.replicate k .newline := by
    rw [tail]
    split
    · exact .inr ⟨_, rfl⟩
    · split
      · exact .inr ⟨0, rfl⟩
      · exact .inl rfl
  rcases ht with ht | ⟨k, ht⟩
  · rw [ht, List.append_nil]; exact h
  · rw [ht]
    intro a n b body' hl hb
    exfalso
    have hm : Tok.mark ∉ b := fun hx => by have := hb _ hx; cases this
    have hnl : Tok.newline ∉ b := fun hx => by have := hb _ hx; cases this
    rcases List.append_eq_append_iff.mp hl with ⟨c, h1, h2⟩ | ⟨c, h1, h2⟩
    · -- `a` goes into the end
      cases c with
      | nil => cases h2
      | cons x c =>
        have h3 := (List.cons.inj h2).2
        have : Tok.name n ∈ List.replicate k Tok.newline := by
          rw [h3]
          exact List.mem_append_right _ List.mem_cons_self
        rw [List.mem_replicate] at this
        cases this.2
    · cases c with
      | nil => cases h2
      | cons x c =>
        cases h2
        exact hm (List.mem_append_right _ List.mem_cons_self)

theorem push_ends {env : Env} {n : Nat} {body : List Tok} {nl : Nat} {st : List Buf} (hb : NoOpenEnd env.defs body) (h : Ends env st) :
    Ends env (⟨some n, body ++ tail env body nl st⟩ :: st) := by
  intro b hm ho
  rcases List.mem_cons.mp hm with rfl | hm
  · exact tail_noOpenEnd nl st hb
  · exact h b hm ho

theorem step_ends {env : Env} (hb : ∀ p ∈ env.defs, NoOpenEnd env.defs p.2.body) (st : List Buf) (d : Dis) (he : Ends env st) :
    step env st d ≠ .fatal ∧ ∀ st' d' out, step env st d = .next st' d' out → Ends env st' := by
  match st, he with
  | [], he => exact ⟨by rw [step]; simp, by rw [step]; simp⟩
  | ⟨none, []⟩ :: r, he => exact ⟨by rw [step]; simp, by rw [step]; simp⟩
  | ⟨some m, []⟩ :: r, he =>
    rw [step]
    exact ⟨by simp, fun st' d' out h => by cases h; exact ends_rest he⟩
  | ⟨o, .lparen :: l⟩ :: r, he => rw [step]; exact ⟨by simp, fun st' d' out h => by cases h; exact ends_drop (a := [.lparen]) he⟩; simp
  | ⟨o, .rparen :: l⟩ :: r, he => rw [step]; exact ⟨by simp, fun st' d' out h => by cases h; exact ends_drop (a := [.rparen]) he⟩; simp
  | ⟨o, .other k :: l⟩ :: r, he => rw [step]; exact ⟨by simp, fun st' d' out h => by cases h; exact ends_drop (a := [.other k]) he⟩; simp
  | ⟨o, .space :: l⟩ :: r, he => rw [step]; exact ⟨by simp, fun st' d' out h => by cases h; exact ends_drop (a := [.space]) he⟩; simp
  | ⟨o, .newline :: l⟩ :: r, he => rw [step]; exact ⟨by simp, fun st' d' out h => by cases h; exact ends_drop (a := [.newline]) he⟩; simp
  | ⟨o, .mark :: l⟩ :: r, he => rw [step]; exact ⟨by simp, fun st' d' out h => by cases h; exact ends_drop (a := [.mark]) he⟩; simp
  | ⟨o, .name n :: l⟩ :: r, he =>
    have hel : Ends env (⟨o, l⟩ :: r) := ends_drop (a := [.name n]) he
    rw [step.eq_4]
    cases hl : env.defs.lookup n with
    | none => exact ⟨by simp, fun st' d' out h => by cases h; exact hel⟩
    | some df =>
      simp only
      by_cases hn : d n = true
      · rw [if_pos hn]
        exact ⟨by simp, fun st' d' out h => by cases h; exact hel⟩
      · rw [if_neg hn]
        have hbody := hb _ (lookup_mem hl)
        cases df with
        | object body =>
          simp only [push]
          exact ⟨by simp, fun st' d' out h => by cases h; exact push_ends hbody hel⟩
        | function body =>
          simp only
          have h1 := skipEnds_ends (⟨o, l⟩ :: r) d hel
          have hpop : (skipEnds (⟨o, l⟩ :: r) d).2.2 = true → ∃ m, o = some m ∧ l.dropWhile (· == .space) = [] := by
            cases o with
            | none => rw [skipEnds]; simp
            | some m =>
              rw [skipEnds]
              split
              · rename_i hx; exact fun _ => ⟨m, rfl, hx⟩
              · simp
          generalize skipEnds (⟨o, l⟩ :: r) d = q at *
          obtain ⟨q1, q2, q3⟩ := q
          simp only at *
          cases hop : openParen q1 with
          | none =>
            simp only
            cases q3 with
            | true =>
              exfalso
              obtain ⟨m, rfl, hd⟩ := hpop rfl
              refine he _ List.mem_cons_self (by simp) [] n l body rfl ?_ hl
              intro t ht
              have h2 := List.takeWhile_append_dropWhile (p := (· == Tok.space)) (l := l)
              rw [hd, List.append_nil] at h2
              rw [← h2] at ht
              simpa using takeWhile_all t ht
            | false => exact ⟨by simp, fun st' d' out h => by cases h; exact hel⟩
          | some st1 =>
            simp only
            have h2 := openParen_ends h1 hop
            cases hra : readArgs 0 st1 q2 with
            | none => exact ⟨by simp, by simp⟩
            | some q =>
              obtain ⟨st2, d3, nl⟩ := q
              have h3 := readArgs_ends _ _ _ _ _ _ h2 hra
              simp only [push]
              exact ⟨by simp, fun st' d' out h => by cases h; exact push_ends hbody h3⟩

theorem run_ends {env : Env} (hb : ∀ p ∈ env.defs, NoOpenEnd env.defs p.2.body) : ∀ (fuel : Nat) (st : List Buf) (d : Dis) (out : List Tok) (e : End),
    Ends env st → run env fuel st d = some (out, e) → e ≠ .fatal
  | 0, _, _, _, _, _, h => by simp [run] at h
  | fuel + 1, st, d, out, e, he, h => by
    rw [run] at h
    obtain ⟨h1, h2⟩ := step_ends hb st d he
    cases hs : step env st d with
    | done => rw [hs] at h; cases h; simp
    | unterminated => rw [hs] at h; cases h; simp
    | fatal => exact absurd hs h1
    | next st' d' o' =>
      rw [hs] at h
      simp only [Option.map_eq_some_iff] at h
      obtain ⟨⟨q, e'⟩, h3, h4⟩ := h
      cases h4
      exact run_ends hb fuel st' d' q e' (h2 _ _ _ hs) h3

theorem run_ends_some {env : Env} : ∀ (fuel : Nat) (st : List Buf), WF st → size env st < fuel → ∃ q, run env fuel st (hides st) = some q
  | 0, _, _, h => absurd h (Nat.not_lt_zero _)
  | fuel + 1, st, hw, h => by
    rw [run]
    cases hs : step env st (hides st) with
    | done => exact ⟨_, rfl⟩
    | unterminated => exact ⟨_, rfl⟩
    | fatal => exact ⟨_, rfl⟩
    | next st' d' o' =>
      have h1 := step_size env st st' d' o' hw hs
      obtain ⟨w1, w2⟩ := step_wf env st st' d' o' hw hs
      obtain ⟨q, hq⟩ := run_ends_some (env := env) fuel st' w1 (by omega)
      simp only
      rw [w2, hq]
      exact ⟨_, rfl⟩

/-- There is only one expansion. -/
theorem expands_unique {defs : List (Nat × Def)} {l : List (Tok × Hide)} {out : List Tok} {e : End} (h : Expands defs l out e) :
    ∀ {out' : List Tok} {e' : End}, Expands defs l out' e' → out' = out ∧ e' = e := by
  induction h with
  | nil => intro _ _ h; cases h; exact ⟨rfl, rfl⟩
  | white h1 _ ih =>
    intro _ _ h
    cases h with
    | white _ h => exact ih h
    | other h2 => rw [h1] at h2; cases h2
    | _ => cases h1
  | other h1 h2 _ ih =>
    intro _ _ h
    cases h with
    | white h3 => rw [h1] at h3; cases h3
    | other _ _ h => obtain ⟨rfl, rfl⟩ := ih h; exact ⟨rfl, rfl⟩
    | _ => exact absurd rfl (h2 _)
  | plain h1 _ ih =>
    intro _ _ h
    cases h with
    | white h3 => cases h3
    | other _ h3 => exact absurd rfl (h3 _)
    | plain _ h => obtain ⟨rfl, rfl⟩ := ih h; exact ⟨rfl, rfl⟩
    | hidden h3 => rw [h1] at h3; cases h3
    | object h3 => rw [h1] at h3; cases h3
    | alone h3 => rw [h1] at h3; cases h3
    | function h3 => rw [h1] at h3; cases h3
    | unterminated h3 => rw [h1] at h3; cases h3
  | hidden h1 h2 _ ih =>
    intro _ _ h
    cases h with
    | white h3 => cases h3
    | other _ h3 => exact absurd rfl (h3 _)
    | plain h3 => rw [h1] at h3; cases h3
    | hidden _ _ h => obtain ⟨rfl, rfl⟩ := ih h; exact ⟨rfl, rfl⟩
    | object _ h3 => rw [h2] at h3; cases h3
    | alone _ h3 => rw [h2] at h3; cases h3
    | function _ h3 => rw [h2] at h3; cases h3
    | unterminated _ h3 => rw [h2] at h3; cases h3
  | object h1 h2 _ ih =>
    intro _ _ h
    cases h with
    | white h3 => cases h3
    | other _ h3 => exact absurd rfl (h3 _)
    | plain h3 => rw [h1] at h3; cases h3
    | hidden _ h3 => rw [h2] at h3; cases h3
    | object h3 _ h => rw [h1] at h3; cases h3; exact ih h
    | alone h3 => rw [h1] at h3; cases h3
    | function h3 => rw [h1] at h3; cases h3
    | unterminated h3 => rw [h1] at h3; cases h3
  | alone h1 h2 h4 _ ih =>
    intro _ _ h
    cases h with
    | white h3 => cases h3
    | other _ h3 => exact absurd rfl (h3 _)
    | plain h3 => rw [h1] at h3; cases h3
    | hidden _ h3 => rw [h2] at h3; cases h3
    | object h3 => rw [h1] at h3; cases h3
    | alone _ _ _ h => obtain ⟨rfl, rfl⟩ := ih h; exact ⟨rfl, rfl⟩
    | function _ _ h3 => rw [h4] at h3; cases h3
    | unterminated _ _ h3 => rw [h4] at h3; cases h3
  | function h1 h2 h4 h5 _ ih =>
    intro _ _ h
    cases h with
    | white h3 => cases h3
    | other _ h3 => exact absurd rfl (h3 _)
    | plain h3 => rw [h1] at h3; cases h3
    | hidden _ h3 => rw [h2] at h3; cases h3
    | object h3 => rw [h1] at h3; cases h3
    | alone _ _ h3 => rw [h4] at h3; cases h3
    | function h3 _ h6 h7 h =>
      rw [h1] at h3; cases h3
      rw [h4] at h6; cases h6
      rw [h5] at h7; cases h7
      exact ih h
    | unterminated _ _ h3 h6 =>
      rw [h4] at h3; cases h3
      rw [h5] at h6; cases h6
  | unterminated h1 h2 h4 h5 =>
    intro _ _ h
    cases h with
    | white h3 => cases h3
    | other _ h3 => exact absurd rfl (h3 _)
    | plain h3 => rw [h1] at h3; cases h3
    | hidden _ h3 => rw [h2] at h3; cases h3
    | object h3 => rw [h1] at h3; cases h3
    | alone _ _ h3 => rw [h4] at h3; cases h3
    | function _ _ h3 h6 =>
      rw [h4] at h3; cases h3
      rw [h5] at h6; cases h6
    | unterminated => exact ⟨rfl, rfl⟩

end Splint.Rescan
