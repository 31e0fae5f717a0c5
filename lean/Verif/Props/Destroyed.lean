import Verif.Proofs.Destroyed
/-!
# C74: the parts of storage that is released

When storage is released, each part of it that must be released and was not is reported.
-/
namespace Splint.Destroyed
open Spec

/-- C74: each part that must be released on its own, and was not, is reported. -/
def C74_full : Prop :=
  ∀ (G : Graph) (strict : Bool) (r q : Nat), Inside G r q → Held (G.part q) → Unreleased (G.part q) →
    .leak q ∈ (globalDestroyed G strict r).2 ∨ .maybe q ∈ (globalDestroyed G strict r).2

/-! ## Examples -/

/-- `struct { char *f; } r;` -/
def oneField (p : Part) : Graph where
  part r := if r = 0 then { ty := .struct, al := .unknown } else p
  deref r := r + 1
  fields _ := [1]

theorem inside_oneField (p : Part) : Inside (oneField p) 0 1 :=
  .part (by simp [Held, oneField]) (.field (by simp [oneField]) (by simp [oneField]))

/-- pointers to pointers, the one numbered `n` being `only` -/
def pointers (n : Nat) : Graph where
  part r := { ty := .ptr, al := if r = n then .only else .unknown }
  deref r := r + 1
  fields _ := []

theorem inside_pointers (n : Nat) : ∀ k, k < n → Inside (pointers n) 0 (k + 1)
  | 0, h => .part (by simp [Held, pointers]; split <;> simp) (.deref (by simp [pointers]))
  | k + 1, h => by
    have hk : k + 1 ≠ n := by omega
    exact .next (inside_pointers n k (by omega)) (by simp [Held, pointers, hk]) (by simp [pointers, hk, FinalScope.Spec.ownKind])
      (by simp [pointers]) (.deref (by simp [pointers]))

/-! ## It does not hold -/

/-- Owned parts are not looked at. -/
theorem C74_owned_missed : Inside (oneField { ty := .other, al := .owned }) 0 1 ∧
    Held ((oneField { ty := .other, al := .owned }).part 1) ∧ Unreleased ((oneField { ty := .other, al := .owned }).part 1) ∧
    globalDestroyed (oneField { ty := .other, al := .owned }) true 0 = (true, []) :=
  ⟨inside_oneField _, by simp [Held, oneField], by simp [Unreleased, oneField, FinalScope.Spec.ownKind], by decide +kernel⟩

/-- The search ends after ten steps, even if all parts are only pointers. -/
theorem C74_deep_missed : Inside (pointers 11) 0 11 ∧ Held ((pointers 11).part 11) ∧ Unreleased ((pointers 11).part 11) ∧
    globalDestroyed (pointers 11) true 0 = (true, [.tooDeep 11]) :=
  ⟨inside_pointers 11 10 (by omega), by simp [Held, pointers], by simp [Unreleased, pointers, FinalScope.Spec.ownKind],
    by decide +kernel⟩

/-- `struct { ... } *r;` where some part of what `r` refers to was released. -/
def somePart : Graph where
  part r :=
    if r = 0 then { ty := .ptr, al := .unknown, ds := .pDefined }
    else if r = 1 then { ty := .struct, al := .unknown }
    else { ty := .other, al := .only }
  deref r := r + 1
  fields _ := [2]

/-- If a part of what a pointer refers to was defined or released on its own, messages about all other parts are hidden. -/
theorem C74_hidden_missed : Inside somePart 0 2 ∧ Held (somePart.part 2) ∧ Unreleased (somePart.part 2) ∧
    globalDestroyed somePart false 0 = (false, []) ∧ globalDestroyed somePart true 0 = (false, [.leak 2]) :=
  ⟨.next (.part (by simp [Held, somePart]) (.deref (by simp [somePart]))) (by simp [Held, somePart])
      (by simp [somePart, FinalScope.Spec.ownKind]) (by simp [somePart]) (.field (by simp [somePart]) (by simp [somePart])),
    by simp [Held, somePart], by simp [Unreleased, somePart, FinalScope.Spec.ownKind], by decide +kernel, by decide +kernel⟩

theorem C74_full_is_false : ¬ C74_full := by
  intro h
  have := h _ true 0 1 C74_owned_missed.1 C74_owned_missed.2.1 C74_owned_missed.2.2.1
  rw [C74_owned_missed.2.2.2] at this
  simp at this

/-! ## What is reported -/

/-- Exactly which parts are reported as not released: those that are only or fresh, and reached in ten steps along
which nothing hides messages. -/
theorem C74_exactly (G : Graph) (strict : Bool) (r q : Nat) :
    .leak q ∈ (globalDestroyed G strict r).2 ↔
      ∃ k f, 0 < k ∧ k ≤ 10 ∧ Path G strict true false False r k False f q ∧ ¬ Hid strict f (G.part q) ∧
        Held (G.part q) ∧ Own (G.part q) ∧ (G.part q).ds ≠ .hoffa ∧ (G.part q).ds ≠ .relDef ∧ (G.part q).ds ≠ .undefined := by
  rw [globalDestroyed, check_mem G strict _ (by simp)]
  constructor
  · rintro ⟨k, h', f', x, p, hk, hm⟩
    obtain ⟨rfl, h1, h2, h3, h4, h5, h6, rfl, h8⟩ := (nodeEv_leak _ _ _ _ _ _ _).1 hm
    simp only [Bool.false_eq_true] at p
    simp only [Bool.true_and, decide_eq_false_iff_not] at h1
    exact ⟨k, f', by omega, by omega, p, h8, h2, h3, h4, h5, h6⟩
  · rintro ⟨k, f', k0, k1, p, h8, h2, h3, h4, h5, h6⟩
    refine ⟨k, false, f', q, ?_, by omega, (nodeEv_leak _ _ _ _ _ _ _).2 ⟨rfl, ?_, h2, h3, h4, h5, h6, rfl, h8⟩⟩
    · simpa using p
    · simp; omega

/-- Those that may not have been released (on some path they were). -/
theorem C74_maybe_exactly (G : Graph) (strict : Bool) (r q : Nat) :
    .maybe q ∈ (globalDestroyed G strict r).2 ↔
      ∃ k f, 0 < k ∧ k ≤ 10 ∧ Path G strict true false False r k False f q ∧ ¬ Hid strict f (G.part q) ∧
        Held (G.part q) ∧ Own (G.part q) ∧ ((G.part q).ds = .hoffa ∨ (G.part q).ds = .relDef) := by
  rw [globalDestroyed, check_mem G strict _ (by simp)]
  constructor
  · rintro ⟨k, h', f', x, p, hk, hm⟩
    obtain ⟨rfl, h1, h2, h3, h4, rfl, h8⟩ := (nodeEv_maybe _ _ _ _ _ _ _).1 hm
    simp only [Bool.false_eq_true] at p
    simp only [Bool.true_and, decide_eq_false_iff_not] at h1
    exact ⟨k, f', by omega, by omega, p, h8, h2, h3, h4⟩
  · rintro ⟨k, f', k0, k1, p, h8, h2, h3, h4⟩
    refine ⟨k, false, f', q, ?_, by omega, (nodeEv_maybe _ _ _ _ _ _ _).2 ⟨rfl, ?_, h2, h3, h4, rfl, h8⟩⟩
    · simpa using p
    · simp; omega

example : globalDestroyed (oneField { ty := .other, al := .only }) false 0 = (false, [.leak 1]) ∧
    globalDestroyed (oneField { ty := .other, al := .only, ds := .hoffa }) false 0 = (false, [.maybe 1, .dies 1]) ∧
    globalDestroyed (oneField { ty := .other, al := .only, ds := .dead }) false 0 = (true, []) := by decide +kernel

example : globalDestroyed (pointers 10) false 0 = (false, [.leak 10]) := by decide +kernel

/-- The fields of a structure, and of what a pointer to one refers to: each only or fresh field that
was not released is reported. -/
theorem C74_fields_partial (G : Graph) (strict : Bool) (r s q : Nat)
    (hs : r = s ∨ (G.part r).ty = .ptr ∧ G.deref r = s ∧ Held (G.part r) ∧ (G.part r).ds ≠ .pDefined ∧ ¬ Own (G.part s) ∧
      (G.part s).ds ≠ .dead ∧ (G.part s).ds ≠ .pDefined)
    (ht : (G.part s).ty = .struct) (hh : Held (G.part s)) (hq : q ∈ G.fields s) (h1 : Held (G.part q)) (h2 : Own (G.part q))
    (h3 : (G.part q).ds ≠ .undefined) :
    .leak q ∈ (globalDestroyed G strict r).2 ∨ .maybe q ∈ (globalDestroyed G strict r).2 := by
  have hp : ∃ k f, 0 < k ∧ k ≤ 10 ∧ Path G strict true false False r k False f q ∧ ¬ Hid strict f (G.part q) := by
    have e1 : (False ∨ Hid strict false (G.part s)) = False := by simp [Hid, ht]
    rcases hs with rfl | ⟨a1, rfl, a3, a4, a5, a6, a7⟩
    · refine ⟨1, true, by omega, by omega, .field hh (.inl rfl) ht hq ?_, by simp [Hid]⟩
      rw [e1]; exact .here
    · have e2 : (False ∨ Hid strict false (G.part r)) = False := by simp [Hid, a4]
      refine ⟨2, true, by omega, by omega, .deref a3 (.inl rfl) (.inl a1) ?_, by simp [Hid]⟩
      rw [e2]
      refine .field hh (.inr ⟨a5, a6, fun h => absurd h a7⟩) ht hq ?_
      rw [e1]; exact .here
  obtain ⟨k, f, b1, b2, b3, b4⟩ := hp
  by_cases hm : (G.part q).ds = .hoffa ∨ (G.part q).ds = .relDef
  · exact .inr ((C74_maybe_exactly ..).2 ⟨k, f, b1, b2, b3, b4, h1, h2, hm⟩)
  · exact .inl ((C74_exactly ..).2 ⟨k, f, b1, b2, b3, b4, h1, h2, fun h => hm (.inl h), fun h => hm (.inr h), h3⟩)

/-- If the answer is that all was released, nothing was reported. -/
theorem C74_answer (G : Graph) (strict : Bool) (r : Nat) (h : (globalDestroyed G strict r).1 = true) (q : Nat) :
    .leak q ∉ (globalDestroyed G strict r).2 ∧ .maybe q ∉ (globalDestroyed G strict r).2 :=
  check_true G strict 11 true false false r h q

example : (globalDestroyed (oneField { ty := .other, al := .owned }) true 0).1 = true := by decide +kernel

/-- A part to which there is another reference need not be released: one of those references takes over, unless it is
dependent, and the part is gone. -/
theorem C74_takes (G : Graph) (strict : Bool) (r q k : Nat) (h f : Bool)
    (hp : Path G strict true false False r k (h = true) f q) (hk : k ≤ 10) (hkn : (G.part q).known = true)
    (hn : (G.part q).null = false) (ha : (G.part q).aliases ≠ [])
    (hl : (G.part q).al ≠ .dependent ∧ (G.part q).al ≠ .impDependent ∧ (G.part q).al ≠ .shared ∧ (G.part q).al ≠ .kept) :
    .dies q ∈ (globalDestroyed G strict r).2 ∧
      ∃ a ∈ (G.part q).aliases, (a.al = .dependent ∨ a.al = .impDependent ∨ .takes a.ref ∈ (globalDestroyed G strict r).2) ∧
        ((∃ b ∈ (G.part q).aliases, b.al = .owned) → a.al = .owned) := by
  cases hd : dependentReference (G.part q).aliases with
  | none => exact absurd ((dependentReference_none _).1 hd) ha
  | some a =>
    have hs : settled (G.part q) q = some ((if Transfer.isDependent a.al then [] else [.takes a.ref]) ++ [.dies q]) := by
      simp [settled, hkn, hn, hl, hd, Transfer.isDependent]
    have hev : ∀ e : Ev, (∀ x, e ≠ .tooDeep x) → e ∈ ((if Transfer.isDependent a.al then [] else [Ev.takes a.ref]) ++ [Ev.dies q]) →
        e ∈ (globalDestroyed G strict r).2 := by
      intro e he hm
      rw [globalDestroyed, check_mem G strict e he]
      exact ⟨k, h, f, q, by simpa using hp, by omega, by simpa [nodeEv, hs] using hm⟩
    refine ⟨hev _ (by simp) (by simp), a, dependentReference_mem hd, ?_, ?_⟩
    · by_cases hx : Transfer.isDependent a.al = true
      · simp [Transfer.isDependent] at hx; tauto
      · exact .inr (.inr (hev _ (by simp) (by simp [hx])))
    · rintro ⟨b, hb, hbo⟩
      unfold dependentReference at hd
      cases hf : (G.part q).aliases.find? (fun x => decide (x.al = .owned)) with
      | some c =>
        rw [hf] at hd; cases hd
        simpa using List.find?_some hf
      | none => exact absurd hbo (by simpa using List.find?_eq_none.1 hf b hb)

example : globalDestroyed (oneField { ty := .other, al := .only, aliases := [⟨7, .unknown⟩, ⟨8, .owned⟩] }) false 0 =
    (true, [.takes 8, .dies 1]) := by decide +kernel

/-- For a local variable or parameter the same is done, unless it is exposed, an observer or partial. -/
theorem C74_local (G : Graph) (strict : Bool) (r : Nat) : localDestroyed G strict r =
    if (G.part r).shown = true ∨ (G.part r).ds = .partial_ then [] else (globalDestroyed G strict r).2 := by
  unfold localDestroyed globalDestroyed
  simp

/-! ## Storage of which a part was released before -/

theorem path_hidden {G : Graph} {strict top f : Bool} {h h' : Prop} {r k q : Nat} {f' : Bool}
    (p : Path G strict top f h r k h' f' q) (hh : h) : h' := by
  induction p with
  | here => exact hh
  | deref _ _ _ _ ih => exact ih (Or.inl hh)
  | field _ _ _ _ _ ih => exact ih (Or.inl hh)

/-- Whatever is in what a partly defined pointer refers to, or among the elements of a partly defined array, is not
reported, unless `strictdestroy` is set. -/
theorem C74_partly (G : Graph) (r q : Nat) (hd : (G.part r).ds = .pDefined)
    (ht : (G.part r).ty = .ptr ∨ (G.part r).ty = .arr) :
    .leak q ∉ (globalDestroyed G false r).2 ∧ .maybe q ∉ (globalDestroyed G false r).2 := by
  have key : ∀ k f, 0 < k → ¬ Path G false true false False r k False f q := by
    intro k f hk p
    have hid : Hid false false (G.part r) := ⟨rfl, rfl, hd, ht⟩
    cases p with
    | here => exact absurd hk (by omega)
    | deref _ _ _ p' => exact path_hidden p' (Or.inr hid)
    | field _ _ _ _ p' => exact path_hidden p' (Or.inr hid)
  constructor
  · intro h
    obtain ⟨k, f, hk, -, p, -⟩ := (C74_exactly G false r q).1 h
    exact key k f hk p
  · intro h
    obtain ⟨k, f, hk, -, p, -⟩ := (C74_maybe_exactly G false r q).1 h
    exact key k f hk p

/-- So after `free (r->s)`, `free (r)` reports nothing about the other fields: every one of them may be lost. This holds for
all structures, since the pointer, and what it refers to, count as partly defined once a field is released. -/
theorem C74_sibling (G : Graph) (r s q : Nat) (h0 : (G.part r).ds = .defined) (h1 : (G.part (G.deref r)).ds = .defined)
    (hr : r ≠ s) (hd : r ≠ G.deref r) (ht : (G.part r).ty = .ptr) :
    .leak q ∉ (globalDestroyed (kill G [G.deref r, r] s) false r).2 ∧
      .maybe q ∉ (globalDestroyed (kill G [G.deref r, r] s) false r).2 := by
  apply C74_partly
  · simp [kill, hr, killBases, h1, hd, h0]
  · simp [kill, hr, ht]

/-- `struct { char *a; char *b; } *r;` with only fields -/
def twoFields : Graph where
  part r :=
    if r = 0 then { ty := .ptr, al := .unknown }
    else if r = 1 then { ty := .struct, al := .unknown }
    else { ty := .other, al := .only }
  deref r := r + 1
  fields _ := [2, 3]

/-- Without the first release both fields are reported; after it the other one is not, except with `strictdestroy`. -/
example : (globalDestroyed twoFields false 0).2 = [.leak 2, .leak 3] ∧
    (globalDestroyed (kill twoFields [1, 0] 2) false 0).2 = [] ∧
    (globalDestroyed (kill twoFields [1, 0] 2) true 0).2 = [.leak 3] := by decide +kernel

end Splint.Destroyed
