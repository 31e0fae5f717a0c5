import Verif.Proofs.LibRef
/-! C55: storage references in a library. -/
namespace Splint
open Lib Lib.Spec Reader

/-- References as the program makes them, whatever their values and names (a `Good` reference with
any values). -/
inductive Lib.Spec.Made (eqv : Ref → Ref → Bool) : Ref → Prop
  | param {v n} : 0 ≤ n → n < 2 ^ 31 → Made eqv (.param v n)
  | fetch {v i r} : (∀ x, i = some x → -2 ^ 31 ≤ x ∧ x < 2 ^ 31) → Made eqv r →
      Made eqv (.fetch v i r)
  | field {v f r} : '.' ∉ f → '\n' ∉ f → Made eqv r → Made eqv (.field v f r)
  | ptr {v r} : Made eqv r → (∀ w q, r ≠ .adr w q) → Made eqv (.ptr v r)
  | adr {v r} : Made eqv r → (∀ w q, r ≠ .ptr w q) → (∀ w q, r ≠ .fetch w (some 0) q) →
      Made eqv (.adr v r)
  | special {v k} : 0 ≤ k → k ≤ 3 → Made eqv (.special v k)
  | conj {v a b} : Made eqv a → Made eqv b → eqv a b = false → Made eqv (.conj v a b)
  | glob {v n} : 0 ≤ n → n < 2 ^ 31 → Made eqv (.glob v n)
  | result {v ct} : 0 ≤ ct → ct < 2 ^ 31 → Made eqv (.result v ct)

/-- C55 in full: every reference reads back. -/
def C55_full : Prop :=
  ∀ eqv r, Made eqv r → ∀ s, Follows s → ∃ t, Ref.undump eqv (r.dump ++ s) = some (r, t)

/-- `a[-12]` reads back as `a[-8]`. -/
theorem C55_full_is_false : ¬ C55_full := by
  intro h
  obtain ⟨t, h⟩ := h (fun _ _ => false) (.fetch none (some (-12)) (.glob none 3))
    (.fetch (by intro x h; cases h; decide) (.glob (by decide) (by decide))) []
    ⟨(by intro c cs h; cases h), (by intro c cs h; cases h)⟩
  have e : Ref.undump (fun _ _ => false) ((Ref.fetch none (some (-12)) (.glob none 3)).dump ++ [])
      = some (.fetch none (some (-8)) (.glob none 3), []) := by decide +kernel
  rw [e] at h
  simp at h

/-- The value of `*p` reads back as the value of `p`. -/
theorem C55_value_moves :
    Ref.undump (fun _ _ => false) (Ref.ptr (some 6) (.param none 1)).dump
      = some (.ptr none (.param (some 6) 1), []) := by decide +kernel

/-- A reference reads back, and nothing is consumed besides its text and blanks behind it, if its
indices and values are numbers that can be read (C15) and a value of a reference comes with a value of
the reference it is made from. Missing for the full claim: other numbers, and values of references
made from references without a value. -/
theorem C55_reference_partial {eqv : Ref → Ref → Bool} {r : Ref} (h : Good eqv r) {s : List Char}
    (hs : Follows s) :
    ∃ t, Ref.undump eqv (r.dump ++ s) = some (r, t) ∧ (t = s ∨ t = s.dropWhile isBlank) :=
  Ref.undump_dump h hs

/-- `p->next[3].x` -/
def exRef : Ref :=
  .field none ['x'] (.fetch none (some 3) (.field none ['n', 'e', 'x', 't'] (.ptr none (.param none 0))))

theorem exRef_good (eqv : Ref → Ref → Bool) : Good eqv exRef := by
  have hv : ∀ w, Value none w := fun w x h => by cases h
  refine .field (hv _) (by decide) (by decide) (.fetch (hv _) ?_ (.field (hv _) (by decide)
    (by decide) (.ptr (hv _) (.param (hv _) ⟨by decide, by decide, .inl (by decide)⟩ (by decide))
      (by intro w q h; cases h))))
  intro x h; cases h; exact ⟨by decide, by decide, .inl (by decide)⟩

example : String.ofList exRef.dump = "fx.a3fnext.tp0" := by decide +kernel
example : Good (fun _ _ => false) exRef ∧ Follows ['@'] :=
  ⟨exRef_good _, Ref.follows_solid (by decide) (by decide) (by decide)⟩
/-- Values of both the pointer and its target do read back. -/
example : Good (fun _ _ => false) (.ptr (some 6) (.param (some 5) 1)) :=
  .ptr (by intro x h; cases h; exact ⟨⟨by decide, by decide, .inl (by decide)⟩, by simp [Ref.val]⟩)
    (.param (by intro x h; cases h; exact ⟨⟨by decide, by decide, .inl (by decide)⟩, by simp⟩)
      ⟨by decide, by decide, .inl (by decide)⟩ (by decide)) (by intro w q h; cases h)

/-- The storage that the address of a reference points to is written as it is, and reads back as the
reference itself. -/
theorem C55_pointer_of_address {eqv : Ref → Ref → Bool} {v : Option Int} {r : Ref}
    (h : Good eqv (.adr v r)) {s : List Char} (hs : Follows s) :
    ∃ t, Ref.undump eqv ((Ref.ptr none (.adr v r)).dump ++ s) = some (r, t)
      ∧ (t = s ∨ t = s.dropWhile isBlank) := by
  obtain ⟨t0, i1, i2, -⟩ := Ref.read_dump h (((Ref.adr v r).dump ++ s).length + 1)
    (by have := Ref.depth_le (.adr v r); rw [List.length_append]; omega) s hs.1 (fun _ => hs.2)
  obtain ⟨t, h2, h3, -⟩ := Ref.readVal_text (v := none) (r := r) (q := r) (by intro x h; cases h)
    (fun _ => hs.2) i2 (by rintro x ⟨⟩) (by rintro _; rfl)
  refine ⟨t, ?_, h3⟩
  have e : (Ref.ptr none (.adr v r)).dump ++ s = 't' :: ((Ref.adr v r).dump ++ s) := by
    simp [Ref.dump, valText]
  rw [e, Ref.undump, Ref.readN]
  simp only [List.length_cons, i1, Option.bind_eq_bind, Option.bind_some, Ref.mkPtr, h2]

/-- `*&x` -/
example : Ref.undump (fun _ _ => false) "tdg7".toList = some (.glob none 7, []) := by decide +kernel

/-- A list of references in a function's record (what it modifies, for instance) reads back, and
exactly its text is consumed, up to the mark that ends the list. -/
theorem C55_list_partial {eqv : Ref → Ref → Bool} {l : List Ref} (hl : ∀ r ∈ l, Good eqv r)
    {e : Char} (he : e ∈ ['#', '@', '$', '&']) (s : List Char) :
    Ref.undumpList eqv (Ref.dumpList l ++ e :: s) = some (l, e :: s) := by
  refine Ref.undumpList_dump ?_ s hl
  simp only [List.mem_cons, List.not_mem_nil, or_false] at he
  rcases he with rfl | rfl | rfl | rfl <;> decide

example : (∀ r ∈ [exRef, .glob none 7], Good (fun _ _ => false) r)
    ∧ Ref.undumpList (fun _ _ => false) "fx.a3fnext.tp0,g7#".toList
      = some ([exRef, .glob none 7], ['#']) := by
  refine ⟨?_, by decide +kernel⟩
  intro r hr
  simp only [List.mem_cons, List.not_mem_nil, or_false] at hr
  rcases hr with rfl | rfl
  · exact exRef_good _
  · exact .glob (fun x h => by cases h) (by decide) (by decide)

end Splint
