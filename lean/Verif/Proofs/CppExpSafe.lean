import Verif.Spec.CppExp
namespace Splint.CppExp

/-- What the stack looks like: `G` and `g` as in the check of the line. -/
inductive Shape : List Slot → List Bool → Bool → Prop
  | bottom (s : Slot) : s.op = none → s.rprio = 0 → Shape [s] [] false
  | lpar (s : Slot) (r : List Slot) (G : List Bool) (g : Bool) : s.op = some .lpar → s.rprio = 0 →
      Shape r G g → Shape (s :: r) (g :: G) false
  | rpar (s l : Slot) (r : List Slot) (G : List Bool) (g : Bool) : s.op = some .rpar → s.rprio = 30 →
      l.op = some .lpar → Shape r G g → Shape (s :: l :: r) G g
  | other (s l : Slot) (r : List Slot) (G : List Bool) (g : Bool) (o : Op) : s.op = some o → o ≠ .lpar →
      o ≠ .rpar → s.rprio = o.rprio → (o = .colon → l.op.isSome = true) →
      (o.opens = true → l.val.isSome = true) → Shape (l :: r) G g → Shape (s :: l :: r) G (g || o.opens)

/-- The value of the top does not matter. -/
theorem Shape.head {s s' : Slot} {r : List Slot} {G : List Bool} {g : Bool} (h : Shape (s :: r) G g)
    (h1 : s'.op = s.op) (h2 : s'.rprio = s.rprio) : Shape (s' :: r) G g := by
  cases h with
  | bottom _ a b => exact .bottom _ (h1.trans a) (h2.trans b)
  | lpar _ _ _ _ a b c => exact .lpar _ _ _ _ (h1.trans a) (h2.trans b) c
  | rpar _ _ _ _ _ a b c d => exact .rpar _ _ _ _ _ (h1.trans a) (h2.trans b) c d
  | other _ _ _ _ _ o a b c d e f k => exact .other _ _ _ _ _ o (h1.trans a) b c (h2.trans d) e f k

/-- The slots hold a value if they say so. -/
def Filled (l : List Slot) : Prop := ∀ s ∈ l, s.have_ = true → s.val.isSome = true

/-- A property of the operators of all slots. -/
def Each (P : Option Op → Bool → Bool → Prop) (l : List Slot) : Prop := ∀ s ∈ l, P s.op s.left s.right

/-- The stack of a state. -/
def State.stack (s : State) : List Slot := s.top :: s.below

theorem binary_risky {k : Bool} {o : Op} {x y : Val} (h : binary k o x y = none) : o.risky = true := by
  cases o <;> simp [binary, Op.risky] at h ⊢

/-- What a reduction must not do, and what it leaves. -/
structure Reduced (s : State) (G : List Bool) (g : Bool) (x : Out State) : Prop where
  safe : x ≠ .bad
  trap : x = .trap → ∃ t ∈ s.stack, ∃ o, t.op = some o ∧ o.risky = true
  filled : ∀ s', x = .next s' → Filled s'.stack
  value : ∀ s', x = .next s' → s'.top.val.isSome = true
  shape : ∀ s', x = .next s' → ∃ g', Shape s'.stack G g' ∧ (6 < s.top.rprio → g' = g)
  free : ∀ s' p, x = .next s' → Each p s.stack → Each p s'.stack

theorem Reduced.err (s : State) (G : List Bool) (g : Bool) : Reduced s G g .err :=
  ⟨by simp, by simp, by simp, by simp, by simp, by simp⟩

/-- The result of an operator that has one operand on the left in the slot below. -/
theorem reduced_put {s : State} {l : Slot} {rest : List Slot} {G : List Bool} {g : Bool} {r : Option (Val × Nat)} {k : Int}
    (hb : s.below = l :: rest) (hf : Filled s.stack)
    (hr : r = none → ∃ o, s.top.op = some o ∧ o.risky = true) (g' : Bool)
    (hs : Shape (l :: rest) G g') (hg : 6 < s.top.rprio → g' = g) : Reduced s G g (putBelow s l rest r k) := by
  cases r with
  | none =>
    obtain ⟨o, h1, h2⟩ := hr rfl
    exact ⟨by simp [putBelow], fun _ => ⟨s.top, by simp [State.stack], o, h1, h2⟩, by simp [putBelow], by simp [putBelow],
      by simp [putBelow], by simp [putBelow]⟩
  | some r =>
    refine ⟨by simp [putBelow], by simp [putBelow], ?_, ?_, ?_, ?_⟩
    · intro s' h
      simp only [putBelow, Out.next.injEq] at h
      subst h
      intro t ht
      simp only [State.stack, List.mem_cons] at ht
      rcases ht with rfl | ht
      · simp
      · exact hf t (by simp [State.stack, hb, ht])
    · intro s' h
      simp only [putBelow, Out.next.injEq] at h
      subst h
      rfl
    · intro s' h
      simp only [putBelow, Out.next.injEq] at h
      subst h
      exact ⟨g', hs.head rfl rfl, hg⟩
    · intro s' p h hfree
      simp only [putBelow, Out.next.injEq] at h
      subst h
      intro t ht
      simp only [State.stack, List.mem_cons] at ht
      rcases ht with rfl | ht
      · exact hfree l (by simp [State.stack, hb])
      · exact hfree t (by simp [State.stack, hb, ht])

theorem opens_rprio {o : Op} (h : 6 < o.rprio) : o.opens = false := by
  cases o <;> simp [Op.rprio, Op.opens] at h ⊢

/-- A reduction. -/
theorem reduce1_reduced {s : State} {G : List Bool} {g : Bool} (hs : Shape s.stack G g) (hf : Filled s.stack)
    (h0 : 0 < s.top.rprio) (hlr : ∀ o, s.top.op = some o → s.top.left = o.left ∧ s.top.right = o.right) :
    Reduced s G g (reduce1 s) := by
  obtain ⟨top, below, above, cap, skip, errs⟩ := s
  simp only [State.stack] at hs hf h0 hlr
  cases hs with
  | bottom _ a b => omega
  | lpar _ _ _ _ a b c => omega
  | rpar _ l r _ _ a b c d =>
    obtain ⟨h1, h2⟩ := hlr _ a
    simp only [Op.left, Op.right] at h1 h2
    cases hd : r with
    | nil => subst hd; cases d
    | cons c' r' =>
      subst hd
      simp only [reduce1, h1, h2, a, c, Bool.false_and, Bool.false_eq_true, if_false]
      split
      · exact .err ..
      · rename_i hh
        simp only [Bool.or_eq_true, Bool.not_eq_true', not_or, Bool.not_eq_true, Bool.not_eq_false] at hh
        simp only [ne_eq, not_true_eq_false, if_false]
        split
        · exact .err ..
        · have hv := hf l (by simp) hh.2
          cases hx : l.val with
          | none => rw [hx] at hv; simp at hv
          | some x =>
            simp only
            refine ⟨by simp, by simp, ?_, ?_, ?_, ?_⟩
            · intro s' h
              simp only [Out.next.injEq] at h
              subst h
              intro t ht
              simp only [State.stack, List.mem_cons] at ht
              rcases ht with rfl | ht
              · simp
              · exact hf t (by simp [ht])
            · intro s' h
              simp only [Out.next.injEq] at h
              subst h
              rfl
            · intro s' h
              simp only [Out.next.injEq] at h
              subst h
              exact ⟨g, d.head rfl rfl, fun _ => rfl⟩
            · intro s' p h hfree
              simp only [Out.next.injEq] at h
              subst h
              intro t ht
              simp only [State.stack, List.mem_cons] at ht
              rcases ht with rfl | ht
              · exact hfree c' (by simp [State.stack])
              · exact hfree t (by simp [State.stack, ht])
  | other _ l r _ g o a b c d e f k =>
    obtain ⟨h1, h2⟩ := hlr _ a
    have hg : 6 < top.rprio → g = (g || o.opens) := by
      rw [d]
      intro h
      simp [opens_rprio h]
    simp only [reduce1, h1, h2, a]
    split
    · exact .err ..
    · rename_i hL
      split
      · exact .err ..
      · rename_i hR
        simp only [Bool.and_eq_true, Bool.not_eq_true', not_and, Bool.not_eq_false] at hL hR
        have hput : ∀ (r' : Option (Val × Nat)) (k' : Int), (r' = none → o.risky = true) →
            Reduced ⟨top, l :: r, above, cap, skip, errs⟩ G (g || o.opens)
              (putBelow ⟨top, l :: r, above, cap, skip, errs⟩ l r r' k') :=
          fun r' k' h => reduced_put rfl hf (fun h' => ⟨o, a, h h'⟩) g k hg
        have hbin : (o.left = true) →
            Reduced ⟨top, l :: r, above, cap, skip, errs⟩ G (g || o.opens)
              (match l.val, top.val with
              | some x, some y =>
                putBelow ⟨top, l :: r, above, cap, skip, errs⟩ l r (binary (skip != 0) o x y)
                  (if (o = .andand ∧ x.1 = 0) ∨ (o = .oror ∧ x.1 ≠ 0) then skip - 1 else skip)
              | _, _ => .bad) := by
          intro ho
          have hvl := hf l (by simp) (hL ho)
          have hor : o.right = true := by cases o <;> first | rfl | cases ho
          have hvt := hf top (by simp) (hR hor)
          cases hx : l.val with
          | none => rw [hx] at hvl; simp at hvl
          | some x =>
            cases hy : top.val with
            | none => rw [hy] at hvt; simp at hvt
            | some y => exact hput _ _ (fun h => binary_risky h)
        have hsign : ∀ (b : Bool), o.right = true →
            Reduced ⟨top, l :: r, above, cap, skip, errs⟩ G (g || o.opens)
              (match top.val with
                | none => .bad
                | some y =>
                  if l.have_ then
                    match l.val with
                    | none => .bad
                    | some x => putBelow ⟨top, l :: r, above, cap, skip, errs⟩ l r (binary (skip != 0) o x y) skip
                  else putBelow ⟨top, l :: r, above, cap, skip, errs⟩ l r (some (unary o y, 0)) skip) := by
          intro _ hor
          have hvt := hf top (by simp) (hR hor)
          cases hy : top.val with
          | none => rw [hy] at hvt; simp at hvt
          | some y =>
            simp only
            split
            · rename_i hh
              have hvl := hf l (by simp) hh
              cases hx : l.val with
              | none => rw [hx] at hvl; simp at hvl
              | some x => exact hput _ _ (fun h => binary_risky h)
            · exact hput _ _ (by simp)
        have hun : o.right = true → Reduced ⟨top, l :: r, above, cap, skip, errs⟩ G (g || o.opens)
              (if l.have_ then .err
                else match top.val with
                  | none => .bad
                  | some y => putBelow ⟨top, l :: r, above, cap, skip, errs⟩ l r (some (unary o y, 0)) skip) := by
          intro hor
          have hvt := hf top (by simp) (hR hor)
          split
          · exact .err ..
          · cases hy : top.val with
            | none => rw [hy] at hvt; simp at hvt
            | some y => exact hput _ _ (by simp)
        have hcol : o = .colon → Reduced ⟨top, l :: r, above, cap, skip, errs⟩ G (g || o.opens)
            (match l.op with
            | none => .bad
            | some o' =>
              if o' ≠ .quest then .err
              else match (generalizing := false) r with
                | [] => .bad
                | c :: rest' =>
                  if !top.have_ || !c.have_ || !l.have_ then .err
                  else match c.val, l.val, top.val with
                    | some vc, some x, some y =>
                      .next ⟨{ c with val := some (if vc.1 ≠ 0 then x.1 else y.1, x.2 || y.2) }, rest',
                        l.val :: top.val :: above, cap,
                        if vc.1 ≠ 0 then skip - 1 else skip, errs⟩
                    | _, _, _ => .bad) := by
          intro ho
          have hl := e ho
          cases hlo : l.op with
          | none => rw [hlo] at hl; simp at hl
          | some o' =>
            simp only
            split
            · exact .err ..
            · rename_i hq
              simp only [ne_eq, not_not] at hq
              subst hq
              cases k with
              | bottom _ a' => simp [a'] at hlo
              | lpar _ _ _ _ a' => simp [a'] at hlo
              | rpar _ _ _ _ _ a' => simp [a'] at hlo
              | other _ c' r' _ g' o'' a' b' c'' d' e' f' k' =>
                simp only
                split
                · exact .err ..
                · rename_i hh
                  simp only [Bool.or_eq_true, Bool.not_eq_true', not_or, Bool.not_eq_false] at hh
                  have v1 := hf top (by simp) hh.1.1
                  have v2 := hf c' (by simp) hh.1.2
                  have v3 := hf l (by simp) hh.2
                  obtain ⟨w1, e1⟩ := Option.isSome_iff_exists.1 v1
                  obtain ⟨w2, e2⟩ := Option.isSome_iff_exists.1 v2
                  obtain ⟨w3, e3⟩ := Option.isSome_iff_exists.1 v3
                  rw [e1, e2, e3]
                  simp only
                  refine ⟨by simp, by simp, ?_, ?_, ?_, ?_⟩
                  · intro s' h
                    simp only [Out.next.injEq] at h
                    subst h
                    intro t ht
                    simp only [State.stack, List.mem_cons] at ht
                    rcases ht with rfl | ht
                    · simp
                    · exact hf t (by simp [ht])
                  · intro s' h
                    simp only [Out.next.injEq] at h
                    subst h
                    rfl
                  · intro s' h
                    simp only [Out.next.injEq] at h
                    subst h
                    refine ⟨g', k'.head rfl rfl, fun h => ?_⟩
                    simp only [d, ho, Op.rprio] at h
                    omega
                  · intro s' p h hfree
                    simp only [Out.next.injEq] at h
                    subst h
                    intro t ht
                    simp only [State.stack, List.mem_cons] at ht
                    rcases ht with rfl | ht
                    · exact hfree c' (by simp [State.stack])
                    · exact hfree t (by simp [State.stack, ht])
        cases o with
        | plus => exact hsign true rfl
        | minus => exact hsign true rfl
        | not_ => exact hun rfl
        | compl => exact hun rfl
        | lpar => exact absurd rfl b
        | rpar => exact absurd rfl c
        | quest => exact .err ..
        | colon => exact hcol rfl
        | _ => exact hbin rfl

/-- The invariant while the line is read. -/
structure Inv (s : State) (G : List Bool) (g : Bool) : Prop where
  shape : Shape s.stack G g
  filled : Filled s.stack
  flags : Each (fun op l r => ∀ o, op = some o → l = o.left ∧ r = o.right) s.stack
  room : s.below.length + 1 ≤ s.cap

theorem reduce1_cap {s s' : State} (h : reduce1 s = .next s') : s'.cap = s.cap := by
  have hp : ∀ {s s' : State} {l : Slot} {rest : List Slot} {r : Option (Val × Nat)} {k : Int},
      putBelow s l rest r k = .next s' → s'.cap = s.cap := by
    intro s s' l rest r k h
    unfold putBelow at h
    split at h
    · simp at h
    · simp only [Out.next.injEq] at h; subst h; rfl
  unfold reduce1 at h
  repeat' split at h
  all_goals first
    | (simp at h; done)
    | exact hp h
    | (simp only [Out.next.injEq] at h; subst h; rfl)

/-- What the loop must not do, and what it leaves. -/
structure Looped (l : Nat) (s : State) (G : List Bool) (g : Bool) (x : Out State) : Prop where
  safe : x ≠ .bad
  trap : x = .trap → ∃ t ∈ s.stack, ∃ o, t.op = some o ∧ o.risky = true
  inv : ∀ s', x = .next s' → ∃ g', Inv s' G g' ∧ (6 ≤ l → g' = g)
  prio : ∀ s', x = .next s' → s'.top.rprio ≤ l
  value : ∀ s', x = .next s' → (s.top.val.isSome = true ∨ l < s.top.rprio) → s'.top.val.isSome = true
  free : ∀ s' p, x = .next s' → Each p s.stack → Each p s'.stack

theorem reduceLoop_looped (l : Nat) : ∀ (n : Nat) (s : State) (G : List Bool) (g : Bool), s.below.length ≤ n → Inv s G g →
    Looped l s G g (reduceLoop l s) := by
  intro n
  induction n with
  | zero =>
    intro s G g hn hi
    have : s.below = [] := List.length_eq_zero_iff.1 (by omega)
    have h0 : s.top.rprio = 0 := by
      have h := hi.shape
      simp only [State.stack, this] at h
      cases h with
      | bottom _ a b => exact b
      | lpar _ _ _ _ a b c => exact b
    rw [reduceLoop, if_neg (by omega)]
    exact ⟨by simp, by simp, fun s' h => by simp only [Out.next.injEq] at h; subst h; exact ⟨g, hi, fun _ => rfl⟩,
      fun s' h => by simp only [Out.next.injEq] at h; subst h; omega,
      fun s' h hv => by
        simp only [Out.next.injEq] at h; subst h
        rcases hv with hv | hv
        · exact hv
        · omega,
      fun s' p h hp => by simp only [Out.next.injEq] at h; subst h; exact hp⟩
  | succ n ih =>
    intro s G g hn hi
    by_cases hl : s.top.rprio > l
    · have hr := reduce1_reduced hi.shape hi.filled (by omega) (hi.flags s.top (by simp [State.stack]))
      rw [reduceLoop, if_pos hl]
      split
      · rename_i s1 h1
        obtain ⟨g1, hsh, hg1⟩ := hr.shape s1 h1
        have hlt := reduce1_below h1
        have hi1 : Inv s1 G g1 := ⟨hsh, hr.filled s1 h1, hr.free s1 _ h1 hi.flags,
          by rw [reduce1_cap h1]; have := hi.room; omega⟩
        have := ih s1 G g1 (by omega) hi1
        refine ⟨this.safe, fun ht => ?_, fun s' h => ?_, this.prio, fun s' h _ => this.value s' h (Or.inl (hr.value s1 h1)),
          fun s' p h hp => this.free s' p h (hr.free s1 p h1 hp)⟩
        · by_contra hne
          simp only [not_exists, not_and] at hne
          obtain ⟨t, ht1, o, ht2, ht3⟩ := this.trap ht
          have hE : Each (fun op _ _ => ∀ o, op = some o → ¬ o.risky = true) s.stack := fun t ht o ho => hne t ht o ho
          exact hr.free s1 _ h1 hE t ht1 o ht2 ht3
        · obtain ⟨g', hg', hge⟩ := this.inv s' h
          exact ⟨g', hg', fun h6 => by rw [hge h6, hg1 (by omega)]⟩
      · exact ⟨by simp, by simp, by simp, by simp, by simp, by simp⟩
      · rename_i h1; exact absurd h1 hr.safe
      · rename_i h1
        exact ⟨by simp, fun _ => hr.trap h1, by simp, by simp, by simp, by simp⟩
    · rw [reduceLoop, if_neg hl]
      exact ⟨by simp, by simp, fun s' h => by simp only [Out.next.injEq] at h; subst h; exact ⟨g, hi, fun _ => rfl⟩,
        fun s' h => by simp only [Out.next.injEq] at h; subst h; omega,
        fun s' h hv => by
          simp only [Out.next.injEq] at h; subst h
          rcases hv with hv | hv
          · exact hv
          · omega,
        fun s' p h hp => by simp only [Out.next.injEq] at h; subst h; exact hp⟩

/-- A push stays in the stack. -/
theorem push_room {o : Op} {s s' : State} (h : s.below.length + 1 ≤ s.cap) (hp : push o s = .next s') :
    s'.below.length + 1 ≤ s'.cap := by
  unfold push at hp
  simp only at hp
  repeat' split at hp
  all_goals first
    | (simp at hp; done)
    | (simp only [Out.next.injEq] at hp; subst hp; simp; split <;> omega)
    | (simp only [Out.next.injEq] at hp; subst hp; simp; omega)

/-- The new stack. -/
theorem push_stack {o : Op} {s s' : State} (hp : push o s = .next s') :
    ∃ v, s'.stack = ⟨some o, o.rprio, o.left, o.right, false, v⟩ :: s.stack := by
  unfold push at hp
  simp only at hp
  repeat' split at hp
  all_goals first
    | (simp at hp; done)
    | (simp only [Out.next.injEq] at hp; subst hp; exact ⟨_, rfl⟩)

theorem push_trap (o : Op) (s : State) : push o s ≠ .trap := by
  unfold push
  simp only
  repeat' split
  all_goals simp

/-- When a push is possible. -/
theorem push_safe {o : Op} {s : State} (h : s.below.length + 1 ≤ s.cap)
    (h1 : o.follows = true → s.top.val.isSome = true)
    (h2 : o = .colon → ∃ c r, s.below = c :: r ∧ c.val.isSome = true) : push o s ≠ .bad := by
  have hc : ¬ (if s.below.length + 1 = s.cap then 2 * s.cap else s.cap) ≤ s.below.length + 1 := by
    split <;> omega
  unfold push
  simp only [hc, if_false]
  cases o with
  | colon =>
    obtain ⟨c, r, hb, hv⟩ := h2 rfl
    obtain ⟨v, hv⟩ := Option.isSome_iff_exists.1 hv
    simp [hb, hv]
  | andand => obtain ⟨v, hv⟩ := Option.isSome_iff_exists.1 (h1 rfl); simp [hv]
  | oror => obtain ⟨v, hv⟩ := Option.isSome_iff_exists.1 (h1 rfl); simp [hv]
  | quest => obtain ⟨v, hv⟩ := Option.isSome_iff_exists.1 (h1 rfl); simp [hv]
  | _ => simp

/-- The invariant after a push of an operator that is not a parenthesis. -/
theorem push_inv {o : Op} {s s' : State} {G : List Bool} {g : Bool} (hi : Inv s G g) (hp : push o s = .next s')
    (ho1 : o ≠ .lpar) (ho2 : o ≠ .rpar) (h1 : o.opens = true → s.top.val.isSome = true)
    (h2 : o = .colon → s.top.op.isSome = true) : Inv s' G (g || o.opens) := by
  obtain ⟨v, hs⟩ := push_stack hp
  refine ⟨?_, ?_, ?_, push_room hi.room hp⟩
  · rw [hs]
    exact .other _ _ _ _ _ o rfl ho1 ho2 rfl h2 h1 hi.shape
  · rw [hs]
    intro t ht
    rcases List.mem_cons.1 ht with rfl | ht
    · simp
    · exact hi.filled t ht
  · rw [hs]
    intro t ht
    rcases List.mem_cons.1 ht with rfl | ht
    · intro o' ho'; simp only [Option.some.injEq] at ho'; subst ho'; exact ⟨rfl, rfl⟩
    · exact hi.flags t ht

theorem push_lpar {s s' : State} {G : List Bool} {g : Bool} (hi : Inv s G g) (hp : push .lpar s = .next s') :
    Inv s' (g :: G) false := by
  obtain ⟨v, hs⟩ := push_stack hp
  refine ⟨?_, ?_, ?_, push_room hi.room hp⟩
  · rw [hs]
    exact .lpar _ _ _ _ rfl rfl hi.shape
  · rw [hs]
    intro t ht
    rcases List.mem_cons.1 ht with rfl | ht
    · simp
    · exact hi.filled t ht
  · rw [hs]
    intro t ht
    rcases List.mem_cons.1 ht with rfl | ht
    · intro o' ho'; simp only [Option.some.injEq] at ho'; subst ho'; exact ⟨rfl, rfl⟩
    · exact hi.flags t ht

theorem other_rprio {o : Op} (h1 : o ≠ .lpar) : 0 < o.rprio := by
  cases o <;> simp [Op.rprio] at h1 ⊢

/-- At priority 0 the top is the bottom or a parenthesis. -/
theorem top_zero {s : Slot} {r : List Slot} {G : List Bool} {g : Bool} (h : Shape (s :: r) G g) (h0 : s.rprio ≤ 0) :
    (r = [] ∧ G = []) ∨ (∃ g' G', s.op = some .lpar ∧ G = g' :: G' ∧ Shape r G' g') := by
  cases h with
  | bottom _ a b => exact Or.inl ⟨rfl, rfl⟩
  | lpar _ _ _ _ a b c => exact Or.inr ⟨_, _, a, rfl, c⟩
  | rpar _ _ _ _ _ a b c d => omega
  | other _ _ _ _ _ o a b c d e f k => have := other_rprio b; omega

theorem push_rpar {s s' : State} {G : List Bool} {g g' : Bool} (hi : Inv s (g' :: G) g) (h0 : s.top.rprio ≤ 0)
    (hp : push .rpar s = .next s') : Inv s' G g' := by
  obtain ⟨v, hs⟩ := push_stack hp
  refine ⟨?_, ?_, ?_, push_room hi.room hp⟩
  · rw [hs]
    rcases top_zero hi.shape h0 with ⟨_, h⟩ | ⟨g2, G2, h1, h2, h3⟩
    · simp at h
    · simp only [List.cons.injEq] at h2
      obtain ⟨rfl, rfl⟩ := h2
      exact .rpar _ _ _ _ _ rfl rfl h1 h3
  · rw [hs]
    intro t ht
    rcases List.mem_cons.1 ht with rfl | ht
    · simp
    · exact hi.filled t ht
  · rw [hs]
    intro t ht
    rcases List.mem_cons.1 ht with rfl | ht
    · intro o' ho'; simp only [Option.some.injEq] at ho'; subst ho'; exact ⟨rfl, rfl⟩
    · exact hi.flags t ht

/-- Where a colon can be pushed. -/
theorem top_colon {s : Slot} {r : List Slot} {G : List Bool} {g : Bool} (h : Shape (s :: r) G g) (hg : g = true) (h0 : s.rprio ≤ 6) :
    s.op.isSome = true ∧ ∃ c r', r = c :: r' ∧ c.val.isSome = true := by
  cases h with
  | bottom _ a b => simp at hg
  | lpar _ _ _ _ a b c => simp at hg
  | rpar _ _ _ _ _ a b c d => omega
  | other _ c' r' _ g' o a b c d e f k =>
    refine ⟨by simp [a], c', r', rfl, f ?_⟩
    rw [d] at h0
    cases o <;> simp [Op.rprio, Op.opens] at h0 b ⊢

/-- After an operand. -/
def Ready (s : State) : Prop := s.top.val.isSome = true ∨ s.top.rprio = 30

/-- Reading a line that passes the check. -/
theorem runToks_safe : ∀ (ts : List Tok) (s : State) (G : List Bool) (g operand : Bool),
    Tok.check ts G g operand = true → Inv s G g → (operand = true → Ready s) →
    runToks ts s ≠ .bad ∧
    (∀ s', runToks ts s = .next s' → ∃ g', Inv s' [] g') ∧
    ((∀ o, Tok.op o ∈ ts → o.risky = false) → Each (fun op _ _ => ∀ o, op = some o → o.risky = false) s.stack →
      runToks ts s ≠ .trap ∧
      ∀ s', runToks ts s = .next s' → Each (fun op _ _ => ∀ o, op = some o → o.risky = false) s'.stack) := by
  intro ts
  induction ts with
  | nil =>
    intro s G g operand hc hi _
    simp only [Tok.check, List.isEmpty_iff] at hc
    subst hc
    refine ⟨by simp [runToks], fun s' h => ?_, fun _ hE => ⟨by simp [runToks], fun s' h => ?_⟩⟩
    · simp only [runToks, Out.next.injEq] at h; subst h; exact ⟨g, hi⟩
    · simp only [runToks, Out.next.injEq] at h; subst h; exact hE
  | cons t ts ih =>
    intro s G g operand hc hi hR
    cases t with
    | other => simp [runToks, step, Out.bind]
    | num v u =>
      simp only [Tok.check] at hc
      simp only [runToks, step, setValue]
      split
      · simp [Out.bind]
      · simp only [Out.bind]
        have hi' : Inv { s with top := { s.top with have_ := true, val := some (v, u) } } G g := by
          refine ⟨hi.shape.head rfl rfl, ?_, ?_, hi.room⟩
          · intro t ht
            rcases List.mem_cons.1 ht with rfl | ht
            · simp
            · exact hi.filled t (List.mem_cons_of_mem _ ht)
          · intro t ht
            rcases List.mem_cons.1 ht with rfl | ht
            · exact hi.flags s.top (List.mem_cons_self ..)
            · exact hi.flags t (List.mem_cons_of_mem _ ht)
        obtain ⟨h1, h2, h3⟩ := ih _ G g true hc hi' (fun _ => Or.inl rfl)
        refine ⟨h1, h2, fun hr hE => h3 (fun o ho => hr o (List.mem_cons_of_mem _ ho)) ?_⟩
        intro t ht
        rcases List.mem_cons.1 ht with rfl | ht
        · exact hE s.top (List.mem_cons_self ..)
        · exact hE t (List.mem_cons_of_mem _ ht)
    | op o =>
      have hL := reduceLoop_looped o.lprio _ s G g (Nat.le_refl _) hi
      simp only [runToks, step]
      cases hl : reduceLoop o.lprio s with
      | bad => exact absurd hl hL.safe
      | err => simp [Out.bind]
      | trap =>
        refine ⟨by simp [Out.bind], by simp [Out.bind], fun hr hE => ?_⟩
        obtain ⟨t, ht, o', ho', hrisky⟩ := hL.trap hl
        have := hE t ht o' ho'
        rw [hrisky] at this
        simp at this
      | next s1 =>
        obtain ⟨g1, hi1, hg1⟩ := hL.inv s1 hl
        have hprio := hL.prio s1 hl
        simp only [Out.bind]
        have hval : o.follows = true → operand = true → s1.top.val.isSome = true := by
          intro hf hop
          refine hL.value s1 hl ?_
          rcases hR hop with h | h
          · exact Or.inl h
          · right; rw [h]; cases o <;> simp [Op.lprio, Op.follows] at hf ⊢
        have key : ∀ (G' : List Bool) (g' operand' : Bool), Tok.check ts G' g' operand' = true → push o s1 ≠ .bad →
            (∀ s2, push o s1 = .next s2 → Inv s2 G' g' ∧ (operand' = true → Ready s2)) →
            ((push o s1).bind (runToks ts) ≠ .bad ∧
            (∀ s', (push o s1).bind (runToks ts) = .next s' → ∃ g', Inv s' [] g') ∧
            ((∀ o', Tok.op o' ∈ (.op o :: ts) → o'.risky = false) →
              Each (fun op _ _ => ∀ o, op = some o → o.risky = false) s.stack →
              (push o s1).bind (runToks ts) ≠ .trap ∧
              ∀ s', (push o s1).bind (runToks ts) = .next s' →
                Each (fun op _ _ => ∀ o, op = some o → o.risky = false) s'.stack)) := by
          intro G' g' operand' hc' hnb hn
          cases hp : push o s1 with
          | bad => exact absurd hp hnb
          | err => simp [Out.bind]
          | trap => exact absurd hp (push_trap _ _)
          | next s2 =>
            obtain ⟨hi2, hr2⟩ := hn s2 hp
            obtain ⟨h1, h2, h3⟩ := ih s2 G' g' operand' hc' hi2 hr2
            refine ⟨h1, h2, fun hr hE => h3 (fun o' ho' => hr o' (List.mem_cons_of_mem _ ho')) ?_⟩
            obtain ⟨v, hs⟩ := push_stack hp
            rw [hs]
            intro t ht
            rcases List.mem_cons.1 ht with rfl | ht
            · intro o' ho'
              simp only [Option.some.injEq] at ho'
              subst ho'
              exact hr _ (List.mem_cons_self ..)
            · exact hL.free s1 _ hl hE t ht
        simp only [Tok.check] at hc
        split at hc
        · rename_i ho
          subst ho
          have hg : g1 = g := hg1 (by simp [Op.lprio])
          subst hg
          exact key (g1 :: G) false false hc (push_safe hi1.room (by simp [Op.follows]) (by simp))
            (fun s2 hp => ⟨push_lpar hi1 hp, by simp⟩)
        · rename_i ho1
          split at hc
          · rename_i ho
            subst ho
            cases G with
            | nil => simp at hc
            | cons g' G' =>
              refine key G' g' true hc (push_safe hi1.room (by simp [Op.follows]) (by simp)) (fun s2 hp =>
                ⟨push_rpar hi1 hprio hp, fun _ => Or.inr ?_⟩)
              obtain ⟨v, hs⟩ := push_stack hp
              simp only [State.stack, List.cons.injEq] at hs
              rw [hs.1]; rfl
          · rename_i ho2
            simp only [Bool.and_eq_true, Bool.or_eq_true, Bool.not_eq_true', bne_iff_ne, ne_eq] at hc
            obtain ⟨⟨hf, hcol⟩, hc⟩ := hc
            have hv : o.follows = true → s1.top.val.isSome = true := by
              intro h
              refine hval h ?_
              rcases hf with hf | hf
              · rw [hf] at h; simp at h
              · exact hf
            have hC : o = .colon → s1.top.op.isSome = true ∧ ∃ c r', s1.below = c :: r' ∧ c.val.isSome = true := by
              intro h
              have hgt : g1 = true := by
                rw [hg1 (by rw [h]; decide)]
                rcases hcol with hcol | hcol
                · exact absurd h hcol
                · exact hcol
              have hs := hi1.shape
              exact top_colon hs hgt (by rw [h] at hprio; exact hprio)
            have hgg : (g1 || o.opens) = (g || o.opens) := by
              cases ho : o.opens with
              | true => simp
              | false =>
                rw [hg1]
                cases o <;> simp [Op.opens, Op.lprio] at ho ho1 ho2 ⊢
            refine key G (g || o.opens) false hc (push_safe hi1.room hv (fun h => (hC h).2)) (fun s2 hp => ⟨?_, by simp⟩)
            rw [← hgg]
            exact push_inv hi1 hp ho1 ho2 (fun h => hv (by cases o <;> simp [Op.opens, Op.follows] at h ⊢))
              (fun h => (hC h).1)

/-- The stack never fills up, whatever the line is. -/
theorem reduceLoop_room (l : Nat) : ∀ (n : Nat) (s s' : State), s.below.length ≤ n → reduceLoop l s = .next s' →
    s'.cap = s.cap ∧ s'.below.length ≤ s.below.length := by
  intro n
  induction n with
  | zero =>
    intro s s' hn h
    have hb : s.below = [] := List.length_eq_zero_iff.1 (by omega)
    rw [reduceLoop] at h
    split at h
    · split at h
      · rename_i h1; have := reduce1_below h1; simp [hb] at this
      · simp at h
      · simp at h
      · simp at h
    · simp only [Out.next.injEq] at h; subst h; exact ⟨rfl, Nat.le_refl _⟩
  | succ n ih =>
    intro s s' hn h
    rw [reduceLoop] at h
    split at h
    · split at h
      · rename_i s1 h1
        have hlt := reduce1_below h1
        have := ih s1 s' (by omega) h
        rw [reduce1_cap h1] at this
        exact ⟨this.1, by omega⟩
      · simp at h
      · simp at h
      · simp at h
    · simp only [Out.next.injEq] at h; subst h; exact ⟨rfl, Nat.le_refl _⟩

theorem runToks_room : ∀ (ts : List Tok) (s s' : State), s.below.length + 1 ≤ s.cap → runToks ts s = .next s' →
    s'.below.length + 1 ≤ s'.cap := by
  intro ts
  induction ts with
  | nil => intro s s' hs h; simp only [runToks, Out.next.injEq] at h; subst h; exact hs
  | cons t ts ih =>
    intro s s' hs h
    simp only [runToks] at h
    cases ht : step s t with
    | bad => rw [ht] at h; simp [Out.bind] at h
    | err => rw [ht] at h; simp [Out.bind] at h
    | trap => rw [ht] at h; simp [Out.bind] at h
    | next s1 =>
      rw [ht] at h
      refine ih s1 s' ?_ h
      cases t with
      | other => simp [step] at ht
      | num v u =>
        simp only [step, setValue] at ht
        split at ht
        · simp at ht
        · simp only [Out.next.injEq] at ht; subst ht; exact hs
      | op o =>
        simp only [step] at ht
        cases hl : reduceLoop o.lprio s with
        | bad => rw [hl] at ht; simp [Out.bind] at ht
        | err => rw [hl] at ht; simp [Out.bind] at ht
        | trap => rw [hl] at ht; simp [Out.bind] at ht
        | next s2 =>
          rw [hl] at ht
          have := reduceLoop_room o.lprio _ s s2 (Nat.le_refl _) hl
          exact push_room (by omega) ht

theorem inv_init : Inv init [] false :=
  ⟨.bottom _ rfl rfl, by intro t ht; simp [State.stack, init] at ht; subst ht; simp,
    by intro t ht; simp [State.stack, init] at ht; subst ht; simp, by simp [init]⟩

/-- After a token the bottom has a value or there is something on it. -/
theorem step_some {s s' : State} {t : Tok} (h : step s t = .next s') : s'.top.val.isSome = true ∨ s'.below ≠ [] := by
  cases t with
  | other => simp [step] at h
  | num v u =>
    simp only [step, setValue] at h
    split at h
    · simp at h
    · simp only [Out.next.injEq] at h; subst h; exact Or.inl rfl
  | op o =>
    simp only [step] at h
    cases hl : reduceLoop o.lprio s with
    | bad => rw [hl] at h; simp [Out.bind] at h
    | err => rw [hl] at h; simp [Out.bind] at h
    | trap => rw [hl] at h; simp [Out.bind] at h
    | next s1 =>
      rw [hl] at h
      obtain ⟨v, hs⟩ := push_stack h
      simp only [State.stack, List.cons.injEq] at hs
      right; rw [hs.2]; simp

theorem runToks_some : ∀ (ts : List Tok) (s s' : State), ts ≠ [] → runToks ts s = .next s' →
    s'.top.val.isSome = true ∨ s'.below ≠ [] := by
  intro ts
  induction ts with
  | nil => intro s s' h; simp at h
  | cons t ts ih =>
    intro s s' _ h
    simp only [runToks] at h
    cases hs : step s t with
    | bad => rw [hs] at h; simp [Out.bind] at h
    | err => rw [hs] at h; simp [Out.bind] at h
    | trap => rw [hs] at h; simp [Out.bind] at h
    | next s1 =>
      rw [hs] at h
      simp only [Out.bind] at h
      cases ts with
      | nil =>
        simp only [runToks, Out.next.injEq] at h
        subst h
        exact step_some hs
      | cons t' ts' => exact ih s1 s' (by simp) h

/-- At the end of the line. -/
theorem finish_safe {s : State} {g : Bool} (hi : Inv s [] g) (hv : s.top.val.isSome = true ∨ s.below ≠ []) :
    finish s ≠ .bad ∧ (Each (fun op _ _ => ∀ o, op = some o → o.risky = false) s.stack → finish s ≠ .trap) := by
  have hL := reduceLoop_looped 0 _ s [] g (Nat.le_refl _) hi
  unfold finish
  cases hl : reduceLoop 0 s with
  | bad => exact absurd hl hL.safe
  | err => simp
  | trap =>
    refine ⟨by simp, fun hE => ?_⟩
    obtain ⟨t, ht, o', ho', hrisky⟩ := hL.trap hl
    have := hE t ht o' ho'
    rw [hrisky] at this
    simp at this
  | next s1 =>
    have : s1.top.val.isSome = true := by
      refine hL.value s1 hl ?_
      rcases hv with hv | hv
      · exact Or.inl hv
      · by_cases h0 : s.top.rprio ≤ 0
        · rcases top_zero hi.shape h0 with ⟨h, _⟩ | ⟨_, _, _, h, _⟩
          · exact absurd h hv
          · simp at h
        · right; omega
    obtain ⟨v, hv⟩ := Option.isSome_iff_exists.1 this
    simp [hv]

theorem parse_safe (ts : List Tok) (h : Tok.safe ts = true) : parse ts ≠ .bad ∧
    ((∀ o, Tok.op o ∈ ts → o.risky = false) → parse ts ≠ .trap) := by
  simp only [Tok.safe, ne_eq, decide_not, Bool.and_eq_true, Bool.not_eq_true', decide_eq_false_iff_not] at h
  obtain ⟨hne, hc⟩ := h
  obtain ⟨h1, h2, h3⟩ := runToks_safe ts init [] false false hc inv_init (by simp)
  unfold parse
  cases hr : runToks ts init with
  | bad => exact absurd hr h1
  | err => simp
  | trap =>
    refine ⟨by simp, fun hk => ?_⟩
    exact absurd hr (h3 hk (by intro t ht; simp [State.stack, init] at ht; subst ht; simp)).1
  | next s =>
    obtain ⟨g, hi⟩ := h2 s hr
    obtain ⟨h4, h5⟩ := finish_safe hi (runToks_some ts init s hne hr)
    refine ⟨h4, fun hk => h5 ?_⟩
    exact (h3 hk (by intro t ht; simp [State.stack, init] at ht; subst ht; simp)).2 s hr

end Splint.CppExp
