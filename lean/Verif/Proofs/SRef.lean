import Verif.Spec.SRef
import Verif.Tactics
/-! # Lemmas about the comparison of storage references -/
namespace Splint
namespace SRef

theorem InHeap.here {H : Nat → SRef} {s : SRef} (h : s.InHeap H) : H s.addr = s := by
  cases s <;> simp only [InHeap] at h <;> first | exact h | exact h.1

theorem InHeap.eq {H : Nat → SRef} {s t : SRef} (hs : s.InHeap H) (ht : t.InHeap H)
    (h : s.addr = t.addr) : s = t := by rw [← hs.here, ← ht.here, h]

/-- A reference is the same as itself. -/
theorem same_refl (s : SRef) : s.same s = true := by
  cases s <;> simp [same, addr]

theorem realSame_refl (cm : Nat → Nat → Bool) (s : SRef) : realSame cm s s = true := by
  cases s <;> simp [realSame, addr]

theorem similar_refl (s : SRef) : s.similar s = true := by
  rw [similar.eq_def]; simp [ptrEq]

theorem includedBy_refl (s : SRef) : s.includedBy s = true := by
  rw [includedBy.eq_def]; simp [ptrEq]

theorem realSame_iff (cm : Nat → Nat → Bool) (H : Nat → SRef) : ∀ (s t : SRef), s.InHeap H →
    t.InHeap H → s.every comparable = true → (realSame cm s t = true ↔ s.strip = t.strip) := by
  intro s
  induction s with
  | cvar a l i =>
    intro t hs ht _
    have h := hs.eq ht
    cases t <;> simp_all [realSame, strip, addr]
  | param a n =>
    intro t hs ht _
    have h := hs.eq ht
    cases t <;> simp_all [realSame, strip, addr]
  | unconstrained a n =>
    intro t hs ht _
    have h := hs.eq ht
    cases t <;> simp_all [realSame, strip, addr]
  | special a n =>
    intro t hs ht _
    have h := hs.eq ht
    cases t <;> simp_all [realSame, strip, addr]
  | fetch a r i ih =>
    intro t hs ht hk
    have h := hs.eq ht
    simp only [every, comparable, Bool.true_and] at hk
    cases t with
    | fetch a' r' i' =>
      have := ih r' hs.2 ht.2 hk
      by_cases ha : a = a'
      · have := h ha
        cases this
        simp [realSame, addr]
      · simp [realSame, strip, addr, ha, this]
    | _ => simp_all [realSame, strip, addr]
  | field a r i ih =>
    intro t hs ht hk
    have h := hs.eq ht
    simp only [every, comparable, Bool.true_and] at hk
    cases t with
    | field a' r' i' =>
      have := ih r' hs.2 ht.2 hk
      by_cases ha : a = a'
      · have := h ha
        cases this
        simp [realSame, addr]
      · simp [realSame, strip, addr, ha, this]
    | _ => simp_all [realSame, strip, addr]
  | ptr a r ih =>
    intro t hs ht hk
    have h := hs.eq ht
    simp only [every, comparable, Bool.true_and] at hk
    cases t with
    | ptr a' r' =>
      have := ih r' hs.2 ht.2 hk
      by_cases ha : a = a'
      · have := h ha
        cases this
        simp [realSame, addr]
      · simp [realSame, strip, addr, ha, this]
    | _ => simp_all [realSame, strip, addr]
  | adr a r ih =>
    intro t hs ht hk
    have h := hs.eq ht
    simp only [every, comparable, Bool.true_and] at hk
    cases t with
    | adr a' r' =>
      have := ih r' hs.2 ht.2 hk
      by_cases ha : a = a'
      · have := h ha
        cases this
        simp [realSame, addr]
      · simp [realSame, strip, addr, ha, this]
    | _ => simp_all [realSame, strip, addr]
  | derived a r ih =>
    intro t hs ht hk
    have h := hs.eq ht
    simp only [every, comparable, Bool.true_and] at hk
    cases t with
    | derived a' r' =>
      have := ih r' hs.2 ht.2 hk
      by_cases ha : a = a'
      · have := h ha
        cases this
        simp [realSame, addr]
      · simp [realSame, strip, addr, ha, this]
    | _ => simp_all [realSame, strip, addr]
  | external a r ih =>
    intro t hs ht hk
    have h := hs.eq ht
    simp only [every, comparable, Bool.true_and] at hk
    cases t with
    | external a' r' =>
      have := ih r' hs.2 ht.2 hk
      by_cases ha : a = a'
      · have := h ha
        cases this
        simp [realSame, addr]
      · simp [realSame, strip, addr, ha, this]
    | _ => simp_all [realSame, strip, addr]
  | conj a x y =>
    intro t hs ht hk
    simp [every, comparable] at hk
  | object | const | new | type | result | unknown =>
    intro t hs ht hk
    simp [every, comparable] at hk

theorem same_iff (H : Nat → SRef) : ∀ (s t : SRef), s.InHeap H →
    t.InHeap H → s.every exact = true → t.every exact = true →
    (same s t = true ↔ s.strip = t.strip) := by
  intro s
  induction s with
  | cvar a l i =>
    intro t hs ht _ _
    have h := hs.eq ht
    cases t <;> simp_all [same, strip, addr]
  | param a n =>
    intro t hs ht _ _
    have h := hs.eq ht
    cases t <;> simp_all [same, strip, addr]
  | special a n =>
    intro t hs ht _ _
    have h := hs.eq ht
    cases t <;> simp_all [same, strip, addr]
  | fetch a r i ih =>
    intro t hs ht hk hkt
    have h := hs.eq ht
    cases t with
    | fetch a' r' i' =>
      cases i with
      | none => simp [every, exact] at hk
      | some i =>
        cases i' with
        | none => simp [every, exact] at hkt
        | some i' =>
          simp only [every, exact, Bool.true_and] at hk hkt
          have := ih r' hs.2 ht.2 hk hkt
          by_cases ha : a = a'
          · have := h ha
            cases this
            simp [same, addr]
          · simp [same, strip, addr, ha, this, indMay]
    | _ => simp_all [same, strip, addr]
  | field a r i ih =>
    intro t hs ht hk hkt
    have h := hs.eq ht
    simp only [every, exact, Bool.true_and] at hk
    cases t with
    | field a' r' i' =>
      simp only [every, exact, Bool.true_and] at hkt
      have := ih r' hs.2 ht.2 hk hkt
      by_cases ha : a = a'
      · have := h ha
        cases this
        simp [same, addr]
      · simp [same, strip, addr, ha, this]
    | _ => simp_all [same, strip, addr]
  | ptr a r ih =>
    intro t hs ht hk hkt
    have h := hs.eq ht
    simp only [every, exact, Bool.true_and] at hk
    cases t with
    | ptr a' r' =>
      simp only [every, exact, Bool.true_and] at hkt
      have := ih r' hs.2 ht.2 hk hkt
      by_cases ha : a = a'
      · have := h ha
        cases this
        simp [same, addr]
      · simp [same, strip, addr, ha, this]
    | _ => simp_all [same, strip, addr]
  | adr a r ih =>
    intro t hs ht hk hkt
    have h := hs.eq ht
    simp only [every, exact, Bool.true_and] at hk
    cases t with
    | adr a' r' =>
      simp only [every, exact, Bool.true_and] at hkt
      have := ih r' hs.2 ht.2 hk hkt
      by_cases ha : a = a'
      · have := h ha
        cases this
        simp [same, addr]
      · simp [same, strip, addr, ha, this]
    | _ => simp_all [same, strip, addr]
  | derived a r ih =>
    intro t hs ht hk hkt
    have h := hs.eq ht
    simp only [every, exact, Bool.true_and] at hk
    cases t with
    | derived a' r' =>
      simp only [every, exact, Bool.true_and] at hkt
      have := ih r' hs.2 ht.2 hk hkt
      by_cases ha : a = a'
      · have := h ha
        cases this
        simp [same, addr]
      · simp [same, strip, addr, ha, this]
    | _ => simp_all [same, strip, addr]
  | conj | object | const | new | type | result | unknown | external | unconstrained =>
    intro t hs ht hk
    simp [every, exact] at hk

theorem indMay_symm (i j : Option Int) : indMay i j = indMay j i := by
  cases i <;> cases j <;> simp [indMay, eq_comm]

theorem same_symm : ∀ (s t : SRef), s.every notConj = true → t.every notConj = true →
    same s t = same t s := by
  intro s
  induction s with
  | conj => intro t hs; simp [every, notConj] at hs
  | fetch a r i ih =>
    intro t hs ht
    simp only [every, notConj, Bool.true_and] at hs
    cases t with
    | fetch a' r' i' =>
      simp only [every, notConj, Bool.true_and] at ht
      simp [same, addr, ih r' hs ht, indMay_symm i i', show (a == a') = (a' == a) from BEq.comm]
    | conj => simp [every, notConj] at ht
    | _ => simp [same, addr, Bool.beq_comm]
  | field a r i ih =>
    intro t hs ht
    simp only [every, notConj, Bool.true_and] at hs
    cases t with
    | field a' r' i' =>
      simp only [every, notConj, Bool.true_and] at ht
      simp [same, addr, ih r' hs ht, show (a == a') = (a' == a) from BEq.comm, eq_comm (a := i)]
    | conj => simp [every, notConj] at ht
    | _ => simp [same, addr, Bool.beq_comm]
  | ptr a r ih =>
    intro t hs ht
    simp only [every, notConj, Bool.true_and] at hs
    cases t with
    | ptr a' r' =>
      simp only [every, notConj, Bool.true_and] at ht
      simp [same, addr, ih r' hs ht, show (a == a') = (a' == a) from BEq.comm]
    | conj => simp [every, notConj] at ht
    | _ => simp [same, addr, Bool.beq_comm]
  | adr a r ih =>
    intro t hs ht
    simp only [every, notConj, Bool.true_and] at hs
    cases t with
    | adr a' r' =>
      simp only [every, notConj, Bool.true_and] at ht
      simp [same, addr, ih r' hs ht, show (a == a') = (a' == a) from BEq.comm]
    | conj => simp [every, notConj] at ht
    | _ => simp [same, addr, Bool.beq_comm]
  | derived a r ih =>
    intro t hs ht
    simp only [every, notConj, Bool.true_and] at hs
    cases t with
    | derived a' r' =>
      simp only [every, notConj, Bool.true_and] at ht
      simp [same, addr, ih r' hs ht, show (a == a') = (a' == a) from BEq.comm]
    | conj => simp [every, notConj] at ht
    | _ => simp [same, addr, Bool.beq_comm]
  | cvar a l i =>
    intro t hs ht
    cases t with
    | cvar a' l' i' =>
      simp [same, addr, show (a == a') = (a' == a) from BEq.comm, eq_comm (a := l),
        eq_comm (a := i)]
    | conj => simp [every, notConj] at ht
    | _ => simp [same, addr, Bool.beq_comm]
  | param a l =>
    intro t hs ht
    cases t with
    | param a' l' =>
      simp [same, addr, show (a == a') = (a' == a) from BEq.comm, eq_comm (a := l)]
    | conj => simp [every, notConj] at ht
    | _ => simp [same, addr, Bool.beq_comm]
  | special a l =>
    intro t hs ht
    cases t with
    | special a' l' =>
      simp [same, addr, show (a == a') = (a' == a) from BEq.comm, eq_comm (a := l)]
    | conj => simp [every, notConj] at ht
    | _ => simp [same, addr, Bool.beq_comm]
  | _ =>
    intro t hs ht
    cases t with
    | conj => simp [every, notConj] at ht
    | _ => simp [same, addr, Bool.beq_comm]

/-- `similar` after the test for the same address, of references that are neither `conj` nor
`derived`. -/
def similarCore : SRef → SRef → Bool
  | cvar _ l i, cvar _ l' i' => decide (l = l' ∧ i = i')
  | param _ n, param _ n' => decide (n = n')
  | fetch _ r i, fetch _ r' i' => similar r r' && indMay i i'
  | fetch _ r _, ptr _ r' => similar r r'
  | field _ r f, field _ r' f' => similar r r' && decide (f = f')
  | ptr _ r, ptr _ r' => similar r r'
  | ptr _ r, fetch _ r' _ => similar r' r
  | adr _ r, adr _ r' => similar r r'
  | unconstrained _ n, unconstrained _ n' => decide (n = n')
  | special _ k, special _ k' => decide (k = k')
  | _, _ => false

theorem similar_core (s t : SRef) (hs : s.notConj = true) (hs' : s.notDerived = true)
    (ht : t.notConj = true) (ht' : t.notDerived = true) :
    similar s t = (s.ptrEq t || similarCore s t) := by
  rw [similar.eq_def]
  cases hp : s.ptrEq t with
  | true => simp
  | false =>
    simp only [Bool.false_eq_true, if_false, Bool.false_or]
    cases s <;> cases t <;> simp [similarCore, notConj, notDerived] at *

theorem similar_conj_right (s x y : SRef) (a : Nat) :
    similar s (conj a x y) = (s.ptrEq (conj a x y) || (similar s x || similar s y)) := by
  rw [similar.eq_def]
  cases hp : s.ptrEq (conj a x y) <;> simp

theorem similar_conj_left (t x y : SRef) (a : Nat) (ht : t.notConj = true)
    (ht' : t.notDerived = true) :
    similar (conj a x y) t = ((conj a x y).ptrEq t || (similar x t || similar y t)) := by
  rw [similar.eq_def]
  cases hp : (conj a x y).ptrEq t <;> cases t <;> simp_all [notConj, notDerived]

theorem every_here {k : SRef → Bool} {s : SRef} (h : s.every k = true) : k s = true := by
  cases s <;> simp_all [every]

theorem ptrEq_symm (s t : SRef) : s.ptrEq t = t.ptrEq s := by
  unfold ptrEq; exact BEq.comm

theorem similar_symm_aux : ∀ (n : Nat) (s t : SRef), s.size + t.size ≤ n →
    s.every (fun x => x.notConj && x.notDerived) = true →
    t.every (fun x => x.notConj && x.notDerived) = true → similar s t = similar t s := by
  intro n
  induction n with
  | zero => intro s t h; cases s <;> simp [size] at h
  | succ n ih =>
    intro s t hn hs ht
    have h1 := every_here hs
    have h2 := every_here ht
    simp only [Bool.and_eq_true] at h1 h2
    rw [similar_core s t h1.1 h1.2 h2.1 h2.2, similar_core t s h2.1 h2.2 h1.1 h1.2, ptrEq_symm]
    congr 1
    cases s <;> cases t <;> simp only [similarCore, size, every, Bool.and_eq_true] at * <;>
      first
      | rfl
      | (simp only [eq_comm]; done)
      | (rw [ih _ _ (by omega) (by tauto) (by tauto)]; done)
      | (rw [ih _ _ (by omega) (by tauto) (by tauto), indMay_symm]; done)
      | (rw [ih _ _ (by omega) (by tauto) (by tauto)]; simp only [eq_comm]; done)
      | skip
    all_goals (simp only [decide_eq_decide]; tauto)

/-- References with a common access are similar. -/
theorem similar_of_common : ∀ (n : Nat) (s t : SRef), s.size + t.size ≤ n →
    s.every notDerived = true → t.every notDerived = true → ∀ p, s.Denotes p → t.Denotes p →
    similar s t = true := by
  intro n
  induction n with
  | zero => intro s t h; cases s <;> simp [size] at h
  | succ n ih =>
    intro s t hn hs ht p hsp htp
    by_cases ct : t.notConj = true
    · by_cases cs : s.notConj = true
      · have h1 := every_here hs
        have h2 := every_here ht
        rw [similar_core s t cs h1 ct h2, Bool.or_eq_true]
        right
        cases s with
        | cvar a l i =>
          cases t with
          | fetch a r j => cases j <;> simp_all [Denotes]
          | _ => simp_all [similarCore, Denotes, notConj, notDerived]
        | param a i =>
          cases t with
          | fetch a r j => cases j <;> simp_all [Denotes]
          | _ => simp_all [similarCore, Denotes, notConj, notDerived]
        | unconstrained a i =>
          cases t with
          | fetch a r j => cases j <;> simp_all [Denotes]
          | _ => simp_all [similarCore, Denotes, notConj, notDerived]
        | special a i =>
          cases t with
          | fetch a r j => cases j <;> simp_all [Denotes]
          | _ => simp_all [similarCore, Denotes, notConj, notDerived]
        | field a r f =>
          obtain ⟨⟨qr, qs⟩, hq, rfl⟩ := hsp
          cases t with
          | fetch a r j => cases j <;> simp [Denotes] at htp
          | field a' r' f' =>
            obtain ⟨⟨qr', qs'⟩, hq', h⟩ := htp
            simp only [Access.mk.injEq, List.cons.injEq, Step.field.injEq] at h
            obtain ⟨rfl, rfl, rfl⟩ := h
            simp only [size, every, Bool.and_eq_true] at hn hs ht
            simp [similarCore, ih r r' (by omega) hs.2 ht.2 _ hq hq']
          | _ => simp_all [Denotes, notConj, notDerived]
        | adr a r =>
          obtain ⟨⟨qr, qs⟩, hq, rfl⟩ := hsp
          cases t with
          | fetch a r j => cases j <;> simp [Denotes] at htp
          | adr a' r' =>
            obtain ⟨⟨qr', qs'⟩, hq', h⟩ := htp
            simp only [Access.mk.injEq, List.cons.injEq] at h
            obtain ⟨rfl, -, rfl⟩ := h
            simp only [size, every, Bool.and_eq_true] at hn hs ht
            simp [similarCore, ih r r' (by omega) hs.2 ht.2 _ hq hq']
          | _ => simp_all [Denotes, notConj, notDerived]
        | ptr a r =>
          obtain ⟨⟨qr, qs⟩, hq, rfl⟩ := hsp
          cases t with
          | fetch a' r' j =>
            obtain ⟨⟨qr', qs'⟩, hq', h⟩ : ∃ q', r'.Denotes q' ∧
                (⟨qr, qs⟩ : Access) = q' := by
              cases j <;> simp only [Denotes, Access.mk.injEq, List.cons.injEq] at htp
              · obtain ⟨q, i, h1, h2, h3, h4⟩ := htp
                exact ⟨q, h1, by cases q; simp_all⟩
              · obtain ⟨q, h1, h2, h3, h4⟩ := htp
                exact ⟨q, h1, by cases q; simp_all⟩
            cases h
            simp only [size, every, Bool.and_eq_true] at hn hs ht
            simp [similarCore, ih r' r (by omega) ht.2 hs.2 _ hq' hq]
          | ptr a' r' =>
            obtain ⟨⟨qr', qs'⟩, hq', h⟩ := htp
            simp only [Access.mk.injEq, List.cons.injEq] at h
            obtain ⟨rfl, -, rfl⟩ := h
            simp only [size, every, Bool.and_eq_true] at hn hs ht
            simp [similarCore, ih r r' (by omega) hs.2 ht.2 _ hq hq']
          | _ => simp_all [Denotes, notConj, notDerived]
        | fetch a r j =>
          obtain ⟨q, k, hq, hjk, rfl⟩ : ∃ q k, r.Denotes q ∧ (j = none ∨ j = some k) ∧
              p = ⟨q.root, .elem k :: q.steps⟩ := by
            cases j <;> simp only [Denotes] at hsp
            · obtain ⟨q, k, h1, h2⟩ := hsp
              exact ⟨q, k, h1, Or.inl rfl, h2⟩
            · obtain ⟨q, h1, h2⟩ := hsp
              exact ⟨q, _, h1, Or.inr rfl, h2⟩
          cases t with
          | fetch a' r' j' =>
            obtain ⟨q', k', hq', hjk', h⟩ : ∃ q' k', r'.Denotes q' ∧ (j' = none ∨ j' = some k') ∧
                (⟨q.root, .elem k :: q.steps⟩ : Access) = ⟨q'.root, .elem k' :: q'.steps⟩ := by
              cases j' <;> simp only [Denotes] at htp
              · obtain ⟨q, k, h1, h2⟩ := htp
                exact ⟨q, k, h1, Or.inl rfl, h2⟩
              · obtain ⟨q, h1, h2⟩ := htp
                exact ⟨q, _, h1, Or.inr rfl, h2⟩
            simp only [Access.mk.injEq, List.cons.injEq, Step.elem.injEq] at h
            have hqq : q = q' := by cases q; cases q'; simp_all
            obtain ⟨-, rfl, -⟩ := h
            subst hqq
            simp only [size, every, Bool.and_eq_true] at hn hs ht
            simp only [similarCore, ih r r' (by omega) hs.2 ht.2 _ hq hq', Bool.true_and]
            rcases hjk with rfl | rfl <;> rcases hjk' with rfl | rfl <;> simp [indMay]
          | ptr a' r' =>
            obtain ⟨q', hq', h⟩ := htp
            simp only [Access.mk.injEq, List.cons.injEq, Step.elem.injEq] at h
            have hqq : q = q' := by cases q; cases q'; simp_all
            subst hqq
            simp only [size, every, Bool.and_eq_true] at hn hs ht
            simp [similarCore, ih r r' (by omega) hs.2 ht.2 _ hq hq']
          | _ => simp_all [Denotes, notConj, notDerived]
        | conj => simp [notConj] at cs
        | derived => simp [notDerived] at h1
        | _ => simp [Denotes] at hsp
      · cases s with
        | conj a x y =>
          simp only [size, every, Bool.and_eq_true, Denotes] at hn hs hsp
          rw [similar_conj_left _ _ _ _ ct (every_here ht)]
          rcases hsp with h | h
          · rw [ih x t (by omega) hs.1.2 ht p h htp]; simp
          · rw [ih y t (by omega) hs.2 ht p h htp]; simp
        | _ => simp [notConj] at cs
    · cases t with
      | conj a x y =>
        simp only [size, every, Bool.and_eq_true, Denotes] at hn ht htp
        rw [similar_conj_right]
        rcases htp with h | h
        · rw [ih s x (by omega) hs ht.1.2 p hsp h]; simp
        · rw [ih s y (by omega) hs ht.2 p hsp h]; simp
      | _ => simp [notConj] at ct

/-! ## `sRef_includedBy` on paths -/

def depth : SRef → Nat
  | fetch _ r _ | field _ r _ | ptr _ r | adr _ r | derived _ r => r.depth + 1
  | _ => 0

theorem isPath_notConj {s : SRef} (h : s.isPath = true) : s.notConj = true := by
  cases s <;> simp_all [isPath, notConj]

theorem isPath_every {s : SRef} (h : s.isPath = true) : s.every notConj = true := by
  induction s <;> simp_all [isPath, notConj, every]

theorem same_depth {H : Nat → SRef} : ∀ {s t : SRef}, s.InHeap H → t.InHeap H → s.isPath = true →
    same s t = true → s.depth = t.depth := by
  intro s
  induction s with
  | cvar a l i =>
    intro t hs ht hp h
    have he := hs.eq ht
    cases t <;> simp_all [same, depth, addr]
  | param a l =>
    intro t hs ht hp h
    have he := hs.eq ht
    cases t <;> simp_all [same, depth, addr]
  | fetch a r i ih =>
    intro t hs ht hp h
    have he := hs.eq ht
    simp only [isPath] at hp
    by_cases ha : a = t.addr
    · rw [he ha]
    · cases t with
      | fetch a' r' i' =>
        simp only [same, Bool.or_eq_true, beq_iff_eq, ha, false_or, Bool.and_eq_true] at h
        simp [depth, ih hs.2 ht.2 hp h.1]
      | _ => simp_all [same]
  | field a r i ih =>
    intro t hs ht hp h
    have he := hs.eq ht
    simp only [isPath] at hp
    by_cases ha : a = t.addr
    · rw [he ha]
    · cases t with
      | field a' r' i' =>
        simp only [same, Bool.or_eq_true, beq_iff_eq, ha, false_or, Bool.and_eq_true] at h
        simp [depth, ih hs.2 ht.2 hp h.1]
      | _ => simp_all [same]
  | ptr a r ih =>
    intro t hs ht hp h
    have he := hs.eq ht
    simp only [isPath] at hp
    by_cases ha : a = t.addr
    · rw [he ha]
    · cases t with
      | ptr a' r' =>
        simp only [same, Bool.or_eq_true, beq_iff_eq, ha, false_or] at h
        simp [depth, ih hs.2 ht.2 hp h]
      | _ => simp_all [same]
  | _ => intro t hs ht hp; simp [isPath] at hp

theorem containers_path {s u : SRef} (h : s.isPath = true) (hu : u ∈ s.containers) :
    u.isPath = true := by
  induction s with
  | fetch a r i ih =>
    simp only [containers, List.mem_cons] at hu
    rcases hu with rfl | hu
    · exact h
    · exact ih (by simpa [isPath] using h) hu
  | field a r i ih =>
    simp only [containers, List.mem_cons] at hu
    rcases hu with rfl | hu
    · exact h
    · exact ih (by simpa [isPath] using h) hu
  | ptr a r ih =>
    simp only [containers, List.mem_cons] at hu
    rcases hu with rfl | hu
    · exact h
    · exact ih (by simpa [isPath] using h) hu
  | _ => simp_all [containers]

theorem containers_heap {H : Nat → SRef} {s u : SRef} (h : s.InHeap H) (hu : u ∈ s.containers) :
    u.InHeap H := by
  induction s with
  | fetch a r i ih =>
    simp only [containers, List.mem_cons] at hu
    rcases hu with rfl | hu
    · exact h
    · exact ih h.2 hu
  | field a r i ih =>
    simp only [containers, List.mem_cons] at hu
    rcases hu with rfl | hu
    · exact h
    · exact ih h.2 hu
  | ptr a r ih =>
    simp only [containers, List.mem_cons] at hu
    rcases hu with rfl | hu
    · exact h
    · exact ih h.2 hu
  | _ => simp_all [containers]

theorem containers_depth {s u : SRef} (hu : u ∈ s.containers) : u.depth ≤ s.depth := by
  induction s with
  | fetch a r i ih =>
    simp only [containers, List.mem_cons] at hu
    rcases hu with rfl | hu
    · exact Nat.le_refl _
    · exact Nat.le_succ_of_le (ih hu)
  | field a r i ih =>
    simp only [containers, List.mem_cons] at hu
    rcases hu with rfl | hu
    · exact Nat.le_refl _
    · exact Nat.le_succ_of_le (ih hu)
  | ptr a r ih =>
    simp only [containers, List.mem_cons] at hu
    rcases hu with rfl | hu
    · exact Nat.le_refl _
    · exact Nat.le_succ_of_le (ih hu)
  | _ => simp_all [containers]

/-- One step of `includedBy` on paths. -/
theorem includedBy_step (s t : SRef) (hs : s.isPath = true) (ht : t.isPath = true) :
    includedBy s t = (s.ptrEq t || match s, t with
      | fetch _ r i, fetch a' r' i' =>
        if same r r' then indMay i i' else includedBy r (fetch a' r' i')
      | fetch _ r _, t => includedBy r t
      | field _ r f, field _ r' f' => same r r' && decide (f = f')
      | field _ r _, t => includedBy r t
      | ptr _ r, ptr _ r' => same r r'
      | ptr _ r, t => includedBy r t
      | s, t => same s t) := by
  rw [includedBy.eq_def]
  cases hp : s.ptrEq t with
  | true => simp
  | false =>
    simp only [Bool.false_eq_true, if_false, Bool.false_or]
    cases s <;> cases t <;> simp [isPath] at hs ht ⊢

/-- Inclusion in a variable, a parameter or an array element: some container is the same. -/
theorem includedBy_any {H : Nat → SRef} (t : SRef) (ht : t.isPath = true) (hth : t.InHeap H)
    (hk : t.isField = false ∧ t.isPtr = false) : ∀ s : SRef, s.isPath = true → s.InHeap H →
    includedBy s t = s.containers.any (fun u => same u t) := by
  intro s
  induction s with
  | cvar a l i =>
    intro hp hs
    rw [includedBy_step _ _ hp ht]
    cases t <;> simp [containers, same, ptrEq, addr]
  | param a l =>
    intro hp hs
    rw [includedBy_step _ _ hp ht]
    cases t <;> simp [containers, same, ptrEq, addr]
  | field a r f ih =>
    intro hp hs
    rw [includedBy_step _ _ hp ht]
    simp only [isPath] at hp
    have := ih hp hs.2
    cases t with
    | field => simp [isField] at hk
    | _ => simp [containers, same, ptrEq, addr, this]
  | ptr a r ih =>
    intro hp hs
    rw [includedBy_step _ _ hp ht]
    simp only [isPath] at hp
    have := ih hp hs.2
    cases t with
    | ptr => simp [isPtr] at hk
    | _ => simp [containers, same, ptrEq, addr, this]
  | fetch a r i ih =>
    intro hp hs
    rw [includedBy_step _ _ hp ht]
    simp only [isPath] at hp
    have := ih hp hs.2
    cases t with
    | fetch a' r' i' =>
      simp only [containers, List.any_cons, this, same, addr, ptrEq]
      by_cases hr : same r r' = true
      · have hd := same_depth hs.2 hth.2 hp hr
        have hn : r.containers.any (fun u => same u (fetch a' r' i')) = false := by
          rw [List.any_eq_false]
          intro u hu h
          have h1 := same_depth (containers_heap hs.2 hu) hth (containers_path hp hu) h
          have h2 := containers_depth hu
          simp only [depth] at h1
          omega
        simp [hr, hn]
      · simp [hr]
    | _ => simp [containers, same, ptrEq, addr, this]
  | _ => intro hp; simp [isPath] at hp

/-- Inclusion in a field: only the innermost field is looked at. -/
theorem includedBy_field {H : Nat → SRef} (t : SRef) (ht : t.isPath = true) (hth : t.InHeap H)
    (hk : t.isField = true) : ∀ s : SRef, s.isPath = true → s.InHeap H →
    includedBy s t = (s.containers.find? isField).any (fun u => same u t) := by
  intro s
  cases t with
  | field a' r' f' =>
    induction s with
    | cvar a l i =>
      intro hp hs
      have := hs.eq hth
      rw [includedBy_step _ _ hp ht]
      by_cases ha : a = a' <;> simp_all [containers, same, ptrEq, addr, isField]
    | param a l =>
      intro hp hs
      have := hs.eq hth
      rw [includedBy_step _ _ hp ht]
      by_cases ha : a = a' <;> simp_all [containers, same, ptrEq, addr, isField]
    | field a r f ih =>
      intro hp hs
      rw [includedBy_step _ _ hp ht]
      simp [containers, same, ptrEq, addr, isField, List.find?_cons]
    | ptr a r ih =>
      intro hp hs
      have he := hs.eq hth
      rw [includedBy_step _ _ hp ht]
      simp only [isPath] at hp
      have := ih hp hs.2
      by_cases ha : a = a' <;> simp_all [containers, ptrEq, addr, isField]
    | fetch a r i ih =>
      intro hp hs
      have he := hs.eq hth
      rw [includedBy_step _ _ hp ht]
      simp only [isPath] at hp
      have := ih hp hs.2
      by_cases ha : a = a' <;> simp_all [containers, ptrEq, addr, isField]
    | _ => intro hp; simp [isPath] at hp
  | _ => simp [isField] at hk

/-- Inclusion in the target of a pointer: only the innermost target is looked at. -/
theorem includedBy_ptr {H : Nat → SRef} (t : SRef) (ht : t.isPath = true) (hth : t.InHeap H)
    (hk : t.isPtr = true) : ∀ s : SRef, s.isPath = true → s.InHeap H →
    includedBy s t = (s.containers.find? isPtr).any (fun u => same u t) := by
  intro s
  cases t with
  | ptr a' r' =>
    induction s with
    | cvar a l i =>
      intro hp hs
      have := hs.eq hth
      rw [includedBy_step _ _ hp ht]
      by_cases ha : a = a' <;> simp_all [containers, same, ptrEq, addr, isPtr]
    | param a l =>
      intro hp hs
      have := hs.eq hth
      rw [includedBy_step _ _ hp ht]
      by_cases ha : a = a' <;> simp_all [containers, same, ptrEq, addr, isPtr]
    | ptr a r ih =>
      intro hp hs
      rw [includedBy_step _ _ hp ht]
      simp [containers, same, ptrEq, addr, isPtr, List.find?_cons]
    | field a r f ih =>
      intro hp hs
      have he := hs.eq hth
      rw [includedBy_step _ _ hp ht]
      simp only [isPath] at hp
      have := ih hp hs.2
      by_cases ha : a = a' <;> simp_all [containers, ptrEq, addr, isPtr]
    | fetch a r i ih =>
      intro hp hs
      have he := hs.eq hth
      rw [includedBy_step _ _ hp ht]
      simp only [isPath] at hp
      have := ih hp hs.2
      by_cases ha : a = a' <;> simp_all [containers, ptrEq, addr, isPtr]
    | _ => intro hp; simp [isPath] at hp
  | _ => simp [isPtr] at hk

end SRef
end Splint
