import Verif.Proofs.SRef
/-!
# C43: the comparisons of storage references

Spec/SRef.lean says what references denote. The references compared live in one memory `H`.
-/
namespace Splint
namespace SRef

/-! ## `sRef_realSame` -/

/-- C43: for comparable references, `sRef_realSame` is equality of the text. -/
theorem C43_realSame_exactly (cm : Nat → Nat → Bool) (H : Nat → SRef) (s t : SRef)
    (hs : s.InHeap H) (ht : t.InHeap H) (hk : s.every comparable = true) :
    realSame cm s t = true ↔ s.strip = t.strip := realSame_iff cm H s t hs ht hk

/-- C43: on comparable references `sRef_realSame` is an equivalence. Missing for the full claim:
the kinds of `C43_realSame_full_is_false`. -/
theorem C43_realSame_partial (cm : Nat → Nat → Bool) (H : Nat → SRef) (s t u : SRef)
    (hs : s.InHeap H) (ht : t.InHeap H) (hu : u.InHeap H) (ks : s.every comparable = true)
    (kt : t.every comparable = true) :
    realSame cm s s = true ∧ realSame cm s t = realSame cm t s ∧
      (realSame cm s t = true → realSame cm t u = true → realSame cm s u = true) := by
  have h1 := realSame_iff cm H s t hs ht ks
  have h2 := realSame_iff cm H t s ht hs kt
  have h3 := realSame_iff cm H t u ht hu kt
  have h4 := realSame_iff cm H s u hs hu ks
  refine ⟨realSame_refl cm s, ?_, ?_⟩
  · rw [Bool.eq_iff_iff, h1, h2]; exact eq_comm
  · rw [h1, h3, h4]; exact fun a b => a.trans b

/-- C43 in full, for a comparison of references in one memory. -/
def C43_full (R : SRef → SRef → Bool) : Prop :=
  ∀ H : Nat → SRef, (∀ s, s.InHeap H → R s s = true) ∧
    (∀ s t, s.InHeap H → t.InHeap H → R s t = R t s) ∧
    (∀ s t u, s.InHeap H → t.InHeap H → u.InHeap H → R s t = true → R t u = true → R s u = true)

/-- A memory with a variable `x`, a constant, and `a[1]`, `a[?]`, `a[2]`, `*a`, `x | a`. -/
def sampleHeap : Nat → SRef
  | 1 => cvar 1 3 0
  | 2 => const 2
  | 3 => cvar 3 3 1
  | 4 => fetch 4 (cvar 3 3 1) (some 1)
  | 5 => fetch 5 (cvar 3 3 1) none
  | 6 => fetch 6 (cvar 3 3 1) (some 2)
  | 7 => ptr 7 (cvar 3 3 1)
  | 8 => conj 8 (cvar 1 3 0) (cvar 3 3 1)
  | 9 => field 9 (cvar 1 3 0) 0
  | 10 => field 10 (field 9 (cvar 1 3 0) 0) 1
  | 11 => ptr 11 (ptr 7 (cvar 3 3 1))
  | 12 => derived 12 (field 9 (cvar 1 3 0) 0)
  | n => unknown n

/-- Every constant is "really the same" as every reference that it is compared with, but not the
other way round. -/
theorem C43_realSame_full_is_false (cm : Nat → Nat → Bool) : ¬ C43_full (realSame cm) := by
  intro h
  have := (h sampleHeap).2.1 (const 2) (cvar 1 3 0) (by simp [InHeap, sampleHeap, addr])
    (by simp [InHeap, sampleHeap, addr])
  simp [realSame, addr] at this

/-- The same happens without constants: `x | a` is the same as `x`, but `x` is not the same as
`x | a`. -/
theorem C43_realSame_conj (cm : Nat → Nat → Bool) :
    realSame cm (sampleHeap 8) (sampleHeap 1) = true ∧
      realSame cm (sampleHeap 1) (sampleHeap 8) = false := by
  simp [sampleHeap, realSame, addr]

example : (sampleHeap 10).InHeap sampleHeap ∧ (sampleHeap 10).every comparable = true := by
  constructor
  · simp [InHeap, sampleHeap, addr]
  · rfl

/-! ## `sRef_same` -/

/-- C43: for references without unknown indices, `sRef_same` is equality of the text. -/
theorem C43_same_exactly (H : Nat → SRef) (s t : SRef) (hs : s.InHeap H) (ht : t.InHeap H)
    (ks : s.every exact = true) (kt : t.every exact = true) :
    same s t = true ↔ s.strip = t.strip := same_iff H s t hs ht ks kt

/-- C43: on references without unknown indices `sRef_same` is an equivalence. -/
theorem C43_same_partial (H : Nat → SRef) (s t u : SRef) (hs : s.InHeap H) (ht : t.InHeap H)
    (hu : u.InHeap H) (ks : s.every exact = true) (kt : t.every exact = true)
    (ku : u.every exact = true) :
    same s s = true ∧ same s t = same t s ∧
      (same s t = true → same t u = true → same s u = true) := by
  have h1 := same_iff H s t hs ht ks kt
  have h2 := same_iff H t s ht hs kt ks
  have h3 := same_iff H t u ht hu kt ku
  have h4 := same_iff H s u hs hu ks ku
  refine ⟨same_refl s, ?_, ?_⟩
  · rw [Bool.eq_iff_iff, h1, h2]; exact eq_comm
  · rw [h1, h3, h4]; exact fun a b => a.trans b

/-- C43: without merged references, `sRef_same` is symmetric. -/
theorem C43_same_symm (s t : SRef) (hs : s.every notConj = true) (ht : t.every notConj = true) :
    same s t = same t s := same_symm s t hs ht

/-- `a[1]` is the same as `a[?]`, which is the same as `a[2]`. -/
theorem C43_same_full_is_false : ¬ C43_full same := by
  intro h
  have := (h sampleHeap).2.2 (sampleHeap 4) (sampleHeap 5) (sampleHeap 6)
    (by simp [InHeap, sampleHeap, addr]) (by simp [InHeap, sampleHeap, addr])
    (by simp [InHeap, sampleHeap, addr]) (by decide) (by decide)
  revert this
  decide

/-! ## `sRef_similar` -/

/-- C43: references that may stand for the same access are similar. Missing: storage derived from a
reference (see `C43_derived`). -/
theorem C43_similar_partial (s t : SRef) (hs : s.every notDerived = true)
    (ht : t.every notDerived = true) (p : Access) (h1 : s.Denotes p) (h2 : t.Denotes p) :
    similar s t = true := similar_of_common _ s t (Nat.le_refl _) hs ht p h1 h2

/-- C43: without merged and derived references, `sRef_similar` is symmetric. -/
theorem C43_similar_symm (s t : SRef)
    (hs : s.every (fun x => x.notConj && x.notDerived) = true)
    (ht : t.every (fun x => x.notConj && x.notDerived) = true) : similar s t = similar t s :=
  similar_symm_aux _ s t (Nat.le_refl _) hs ht

/-- `a[1]` is similar to `*a`, which is similar to `a[2]`. -/
theorem C43_similar_full_is_false : ¬ C43_full similar := by
  intro h
  have := (h sampleHeap).2.2 (sampleHeap 4) (sampleHeap 7) (sampleHeap 6)
    (by simp [InHeap, sampleHeap, addr]) (by simp [InHeap, sampleHeap, addr])
    (by simp [InHeap, sampleHeap, addr]) (by decide +kernel) (by decide +kernel)
  revert this
  decide +kernel

/-- Storage derived from `x.f` does not cover `x.f.g`, although it may be that storage. -/
theorem C43_derived : similar (sampleHeap 10) (sampleHeap 12) = false ∧
    (sampleHeap 10).Denotes ⟨.cvar 3 0, [.field 1, .field 0]⟩ ∧
    (sampleHeap 12).Denotes ⟨.cvar 3 0, [.field 1, .field 0]⟩ := by
  refine ⟨by decide +kernel, ?_, ?_⟩
  · exact ⟨⟨.cvar 3 0, [.field 0]⟩, ⟨⟨.cvar 3 0, []⟩, rfl, rfl⟩, rfl⟩
  · exact ⟨⟨.cvar 3 0, [.field 0]⟩, [.field 1], ⟨⟨.cvar 3 0, []⟩, rfl, rfl⟩, rfl⟩

/-- Two references to `a` with different addresses, one merged with `x`. -/
example : (conj 8 (cvar 1 3 0) (cvar 3 3 1)).every notDerived = true ∧
    (conj 8 (cvar 1 3 0) (cvar 3 3 1)).Denotes ⟨.cvar 3 1, []⟩ ∧
    (cvar 20 3 1).Denotes ⟨.cvar 3 1, []⟩ := ⟨rfl, Or.inr rfl, rfl⟩

/-! ## `sRef_includedBy` -/

/-- C43, for inclusion, in full: a path is included in another exactly if the other is the same as
the path or one of its containers. -/
def C43_included_full : Prop :=
  ∀ (H : Nat → SRef) (s t : SRef), s.InHeap H → t.InHeap H → s.isPath = true → t.isPath = true →
    (includedBy s t = true ↔ ∃ u ∈ s.containers, same u t = true)

/-- `x.f.g` is not included in `x.f`. -/
theorem C43_included_full_is_false : ¬ C43_included_full := by
  intro h
  have := (h sampleHeap (sampleHeap 10) (sampleHeap 9) (by simp [InHeap, sampleHeap, addr])
    (by simp [InHeap, sampleHeap, addr]) (by decide) (by decide)).2
    ⟨sampleHeap 9, by decide, by decide⟩
  revert this
  decide +kernel

/-- `**a` is not included in `*a`. -/
theorem C43_included_ptr : includedBy (sampleHeap 11) (sampleHeap 7) = false := by decide +kernel

/-- C43, for inclusion: in a variable, a parameter or an array element a path is included exactly if
it should be. -/
theorem C43_included_partial (H : Nat → SRef) (s t : SRef) (hs : s.InHeap H) (ht : t.InHeap H)
    (ps : s.isPath = true) (pt : t.isPath = true) (hk : t.isField = false ∧ t.isPtr = false) :
    includedBy s t = true ↔ ∃ u ∈ s.containers, same u t = true := by
  rw [includedBy_any t pt ht hk s ps hs, List.any_eq_true]

/-- C43, for inclusion in a field: only the innermost field of the path is compared. -/
theorem C43_included_field_exactly (H : Nat → SRef) (s t : SRef) (hs : s.InHeap H)
    (ht : t.InHeap H) (ps : s.isPath = true) (pt : t.isPath = true) (hk : t.isField = true) :
    includedBy s t = true ↔ ∃ u, s.containers.find? isField = some u ∧ same u t = true := by
  rw [includedBy_field t pt ht hk s ps hs]
  cases s.containers.find? isField <;> simp

/-- C43, for inclusion in the target of a pointer: only the innermost target is compared. -/
theorem C43_included_ptr_exactly (H : Nat → SRef) (s t : SRef) (hs : s.InHeap H)
    (ht : t.InHeap H) (ps : s.isPath = true) (pt : t.isPath = true) (hk : t.isPtr = true) :
    includedBy s t = true ↔ ∃ u, s.containers.find? isPtr = some u ∧ same u t = true := by
  rw [includedBy_ptr t pt ht hk s ps hs]
  cases s.containers.find? isPtr <;> simp

example : (sampleHeap 11).InHeap sampleHeap ∧ (sampleHeap 11).isPath = true ∧
    includedBy (sampleHeap 11) (sampleHeap 3) = true := by
  refine ⟨by simp [InHeap, sampleHeap, addr], rfl, by decide +kernel⟩

end SRef
end Splint
