import Verif.Proofs.NamePrefix
/-!
# C80–C83: reserved names, words of C++, namespace prefixes
-/
namespace Splint
open NameCheck NameCheck.Spec

/-! ## C80: the names reserved by the language are reported -/

/-- The search in a table in order never fails an assertion, and finds an entry exactly when the
table has it, but for the last entry of a table whose length is 1, 4, 5, 10 to 13, 22 to 29 … -/
theorem C80_search_exactly {key : Bytes} {t : List (Option Bytes)} (hk : key ≠ [])
    (hs : t.Pairwise Before) :
    ∃ r, bsearch key t = some r ∧
      ∀ i, r = some i ↔ t[i]? = some (some key) ∧ ¬ (i + 1 = t.length ∧ Missed t.length) :=
  bsearch_spec hk (ordered_of_pairwise hs)

example : [some (bytes "abort"), some (bytes "abs"), none].Pairwise Before ∧ bytes "abs" ≠ [] := by
  decide +kernel

/-- The search finds every entry of every table in order. -/
def C80_search_full : Prop :=
  ∀ (key : Bytes) (t : List (Option Bytes)) (i : Nat), key ≠ [] → t.Pairwise Before →
    t[i]? = some (some key) → bsearch key t = some (some i)

/-- In a table of four names the last is not found. -/
theorem C80_search_full_is_false : ¬ C80_search_full := by
  intro h
  have := h (bytes "d") [some (bytes "a"), some (bytes "b"), some (bytes "c"), some (bytes "d")] 3
    (by decide +kernel) (by decide +kernel) rfl
  revert this
  decide +kernel

/-- A name that is declared outside the system headers is reported on exactly the grounds that
the language gives for the declaration, each under its flag.  (The ground `std` is the list of
`reservedNames.nf`.) -/
theorem C80_reserved_exactly (d : RDecl) {name : Bytes} (h : name ≠ []) (hd : d.system = false) :
    ∃ rs, checkAnsiName d name = some rs ∧
      ∀ f w, (f, w) ∈ rs ↔ Grounds d name w ∧ Under d w f :=
  ansi_exactly d h hd

/-- A variable of the program called `strange`. -/
example : bytes "strange" ≠ [] ∧
    Grounds ⟨false, false, true, false, false⟩ (bytes "strange") .stdlib ∧
    checkAnsiName ⟨false, false, true, false, false⟩ (bytes "strange") =
      some [(.isoReserved, .stdlib)] := by
  refine ⟨by decide +kernel, ⟨Or.inl ⟨rfl, rfl⟩, 97, bytes "nge", by decide +kernel, ?_⟩,
    by decide +kernel⟩
  simp [Lower]

/-- Nothing is reported for declarations of the system headers. -/
theorem C80_system {d : RDecl} (hd : d.system = true) (name : Bytes) :
    checkAnsiName d name = some [] := by
  simp [checkAnsiName, hd]

example : (⟨true, false, true, false, false⟩ : RDecl).system = true := rfl

/-- Every function of the standard library is reported when the program declares it with
external linkage. -/
def C80_full : Prop :=
  ∀ s ∈ mathFunctions ++ otherFunctions, ∀ d : RDecl, d.system = false → External d →
    ∃ rs, checkAnsiName d (bytes s) = some rs ∧ rs ≠ []

/-- The functions of `<math.h>` are not. -/
theorem C80_full_is_false : ¬ C80_full := by
  intro h
  obtain ⟨rs, h1, h2⟩ := h "sin" (by decide +kernel) ⟨false, false, true, false, false⟩ rfl ⟨rfl, rfl⟩
  apply h2
  have h3 : checkAnsiName ⟨false, false, true, false, false⟩ (bytes "sin") = some [] := by
    decide +kernel
  rw [h3] at h1
  exact (Option.some.inj h1).symm

/-- They are the only ones missed: a function of another header is reported, one of `<math.h>`
is not. -/
theorem C80_library_partial (s : String) (hs : s ∈ mathFunctions ++ otherFunctions) (d : RDecl)
    (hd : d.system = false) (he : External d) :
    checkAnsiName d (bytes s) = some [] ↔ s ∈ mathFunctions := by
  obtain ⟨h1, h2⟩ := he
  obtain ⟨sys, fs, vis, tag, lf⟩ := d
  simp only at hd h1 h2
  subst hd h1 h2
  have key : ∀ s ∈ mathFunctions ++ otherFunctions, ∀ fs lf : Bool,
      (checkAnsiName ⟨false, fs, true, false, lf⟩ (bytes s) = some []) ↔ s ∈ mathFunctions := by
    decide +kernel
  exact key s hs fs lf

example : "wctomb" ∈ mathFunctions ++ otherFunctions ∧
    External ⟨false, false, true, false, false⟩ := ⟨by decide +kernel, rfl, rfl⟩

/-! ## C81: the words of C++ are reported -/

/-- Every word of C++ that is not one of C is reported. -/
def C81_full : Prop := ∀ s ∈ cppWords, checkCppName (bytes s) = some true

/-- A name is reported as a word of C++ exactly when it is in the list of the program. -/
theorem C81_exactly {name : Bytes} (h : name ≠ []) :
    ∃ b, checkCppName name = some b ∧ (b = true ↔ ∃ s ∈ cppList, name = bytes s) := by
  obtain ⟨r, hr, hri⟩ := cpp_found h
  exact ⟨r.isSome, by simp [checkCppName, hr], hri⟩

example : bytes "xor_eq" ≠ [] ∧ checkCppName (bytes "xor_eq") = some true := by decide +kernel

theorem C81_full_is_false : ¬ C81_full := by
  intro h
  have := h "explicit" (by decide +kernel)
  revert this
  decide +kernel

/-- The words missed are these five. -/
theorem C81_words_partial (s : String) (hs : s ∈ cppWords) :
    checkCppName (bytes s) = some (decide (s ∉ ["const_cast", "explicit", "export", "typename",
      "wchar_t"])) := by
  revert s
  decide +kernel

example : "virtual" ∈ cppWords := by decide +kernel

/-! ## C82: what a namespace prefix matches -/

/-- A name matches a prefix as section 12.2 of the manual says. -/
def C82_full : Prop :=
  ∀ (name p : Bytes) (c : UInt8), name ≠ [] → (∀ x ∈ name, IdChar x) → Plain p → c ≠ code '*' →
    (matchPrefix (some name) (some p) = true ↔ Fits p name) ∧
    (matchPrefix (some name) (some (p ++ [c, code '*'])) = true ↔ FitsStar p c name)

/-- The manual's own example: the name `T` does not match `T^*`. -/
theorem C82_full_is_false : ¬ C82_full := by
  intro h
  have h1 := (h (bytes "T") (bytes "T") (code '^') (by decide) (by
    intro x hx
    have : x = 84 := by simpa [bytes] using hx
    subst this
    left; simp [Upper]) (by intro x hx; have : x = 84 := (by simpa [bytes] using hx); subst this; decide)
    (by decide)).2
  have h2 : FitsStar (bytes "T") (code '^') (bytes "T") := by
    simp [FitsStar, Fits, bytes, InClass, code]
  have h3 := h1.mpr h2
  revert h3
  decide +kernel

/-- A prefix without `*` matches as documented. -/
theorem C82_plain {name p : Bytes} (hn : ∀ x ∈ name, IdChar x) (hp : Plain p) :
    matchPrefix (some name) (some p) = true ↔ Fits p name :=
  plain_exactly hn hp

theorem c82_ids : ∀ x ∈ bytes "Ab9", IdChar x := by
  intro x hx
  have : x = 65 ∨ x = 98 ∨ x = 57 := by simpa [bytes] using hx
  rcases this with rfl | rfl | rfl <;> simp [IdChar, Upper, Lower, Digit]

example : (∀ x ∈ bytes "Ab9", IdChar x) ∧ Plain (bytes "^&#") ∧
    matchPrefix (some (bytes "Ab9")) (some (bytes "^&#")) = true :=
  ⟨c82_ids, by unfold Plain; decide +kernel, by decide +kernel⟩

/-- What a prefix with `*` matches. -/
theorem C82_star_exactly {name p : Bytes} {c : UInt8} (hn : ∀ x ∈ name, IdChar x) (hp : Plain p)
    (hc : c ≠ code '*') :
    matchPrefix (some name) (some (p ++ [c, code '*'])) = true ↔
      (name.length > 1 ∧ name.length = p.length ∧ Fits p name) ∨
      (Fits (p ++ [c]) name ∧ ∀ x ∈ name.drop (p.length + 2), InClass c x) :=
  star_exactly hn hp hc

example : (∀ x ∈ bytes "Ab9", IdChar x) ∧ Plain (bytes "^") ∧ code '&' ≠ code '*' ∧
    matchPrefix (some (bytes "Ab9")) (some (bytes "^" ++ [code '&', code '*'])) = true :=
  ⟨c82_ids, by unfold Plain; decide +kernel, by decide, by decide +kernel⟩

/-- A prefix with `*` departs from the manual in these two cases and in no other: a name of one
character that is all of the part before the repeated one is refused; and the second character
of the repeated part is not looked at. -/
theorem C82_star_partial {name p : Bytes} {c : UInt8} (hne : name ≠ []) (hn : ∀ x ∈ name, IdChar x)
    (hp : Plain p) (hc : c ≠ code '*') :
    (matchPrefix (some name) (some (p ++ [c, code '*'])) = true ↔ FitsStar p c name) ↔
      ¬ (name.length = 1 ∧ p.length = 1 ∧ Fits p name) ∧
      ¬ (Fits (p ++ [c]) name ∧ (∀ x ∈ name.drop (p.length + 2), InClass c x) ∧
          ∃ x, name[p.length + 1]? = some x ∧ ¬ InClass c x) :=
  star_agrees hn hp hc hne

/-- `Ab9` matches `^&*` although `9` is not a lowercase letter. -/
example : bytes "Ab9" ≠ [] ∧ (∀ x ∈ bytes "Ab9", IdChar x) ∧ Plain (bytes "^") ∧
    ∃ x, (bytes "Ab9")[2]? = some x ∧ ¬ InClass (code '&') x := by
  refine ⟨by decide +kernel, c82_ids, by unfold Plain; decide +kernel, 57, by decide +kernel, ?_⟩
  simp [InClass, code, Lower]

/-! ## C83: which namespace a name is held against -/

/-- A name is reported when it does not match the most specific prefix that is defined for it,
and when it matches the prefix of a namespace it is not in, if the flag of that namespace asks
for this. -/
def C83_full : Prop :=
  ∀ (fl : PFlags) (d : PDecl) (name : Bytes) (k : NS), Settings fl → Is d k →
    ∃ rs, checkPrefix fl d name = some rs ∧
      (∀ n, PReport.own n ∈ rs ↔ MostSpecific fl k n ∧
        matchPrefix (some name) (fl.str n) = false) ∧
      (∀ n, PReport.other n ∈ rs ↔ fl.exclude n = true ∧ n ∉ contexts k ∧ fl.on n = true ∧
        matchPrefix (some name) (fl.str n) = true)

/-- A declaration of which nothing is true. -/
def pdecl0 : PDecl :=
  ⟨false, false, false, false, false, false, false, false, false, false, false, false, false, false⟩

/-- `+constprefixexclude` does nothing: a type called `Cx` is not reported when the prefix for
constants is `C`. -/
theorem C83_full_is_false : ¬ C83_full := by
  intro h
  obtain ⟨rs, h1, -, h2⟩ := h
    ⟨fun n => n == .const, fun n => if n = .const then some (bytes "C") else none,
      fun n => n == .const⟩ { pdecl0 with datatype := true } (bytes "Cx") .type
    (by intro n; cases n <;> rfl) (by simp [Is, pdecl0])
  have h3 := (h2 .const).mpr ⟨rfl, by decide, rfl, by decide +kernel⟩
  have h4 : checkPrefix ⟨fun n => n == .const, fun n => if n = .const then some (bytes "C") else none,
      fun n => n == .const⟩ { pdecl0 with datatype := true } (bytes "Cx") = some [] := by
    decide +kernel
  rw [h4] at h1
  cases h1
  cases h3

/-- The name is held against the most specific prefix defined for it; an unchecked macro and an
iterator only against their own prefix, never against that of exported identifiers. -/
theorem C83_own_partial {fl : PFlags} {d : PDecl} {name : Bytes} {k : NS} (h : Is d k) :
    ∃ rs, checkPrefix fl d name = some rs ∧ ∀ n, PReport.own n ∈ rs ↔
      (if k = .uncheckedMacro ∨ k = .iter then n = k ∧ fl.on n = true else MostSpecific fl k n) ∧
      matchPrefix (some name) (fl.str n) = false := by
  obtain ⟨rs, h1, h2, -⟩ := checkPrefix_eq (fl := fl) (name := name) h
  refine ⟨rs, h1, ?_⟩
  intro n
  rw [h2]
  by_cases hk : k = .uncheckedMacro ∨ k = .iter
  · rw [if_pos hk]
    have : fallBack fl.on k = k := by
      rcases hk with rfl | rfl <;> simp [fallBack]
    rw [this]
    constructor
    · rintro ⟨rfl, h3, h4⟩; exact ⟨⟨rfl, h3⟩, h4⟩
    · rintro ⟨⟨rfl, h3⟩, h4⟩; exact ⟨rfl, h3, h4⟩
  · rw [if_neg hk, ← fallBack_find fl k (fun e => hk (Or.inl e)) (fun e => hk (Or.inr e))]
    constructor
    · rintro ⟨rfl, h3, h4⟩; exact ⟨⟨h3, rfl⟩, h4⟩
    · rintro ⟨⟨h3, rfl⟩, h4⟩; exact ⟨rfl, h3, h4⟩

example : Is { pdecl0 with globalVariable := true, isVar := true } .glob := by
  simp [Is, Is.Plainly, pdecl0]

/-- The name is held against the prefix of every namespace it is not in, except those of
constants and of iterators; and an enumerator, a constant or an iterator that has a prefix of
its own is held against the prefix of exported identifiers, although it is one. -/
theorem C83_other_partial {fl : PFlags} {d : PDecl} {name : Bytes} {k : NS} (hf : Settings fl)
    (h : Is d k) :
    ∃ rs, checkPrefix fl d name = some rs ∧ ∀ n, PReport.other n ∈ rs ↔
      fl.exclude n = true ∧ fl.on n = true ∧ matchPrefix (some name) (fl.str n) = true ∧
      ((n ∉ contexts k ∧ n ≠ .const ∧ n ≠ .iter) ∨
       (n = .ext ∧ (k = .iter ∨ ((k = .enum ∨ k = .const) ∧ (fl.on .const ∨ (k = .enum ∧ fl.on .enum)))))) := by
  obtain ⟨rs, h1, -, h2⟩ := checkPrefix_eq (fl := fl) (name := name) h
  refine ⟨rs, h1, ?_⟩
  intro n
  rw [h2, ← hf n]
  have e : fl.on n = true → ((n ∈ excludeCodes ∧ excludeCheck n (fallBack fl.on k) = true) ↔
      ((n ∉ contexts k ∧ n ≠ .const ∧ n ≠ .iter) ∨
       (n = .ext ∧ (k = .iter ∨ ((k = .enum ∨ k = .const) ∧
        (fl.on .const ∨ (k = .enum ∧ fl.on .enum))))))) := by
    have fin : ∀ (n k : NS) (on : NS → Bool), on n = true →
        ((n ∈ excludeCodes ∧ excludeCheck n (fallBack on k) = true) ↔
          ((n ∉ contexts k ∧ n ≠ .const ∧ n ≠ .iter) ∨
           (n = .ext ∧ (k = .iter ∨ ((k = .enum ∨ k = .const) ∧
            (on .const ∨ (k = .enum ∧ on .enum))))))) := by
      intro n k on hon
      have hb : ∀ be bc bg bt : Bool, (n = .enum → be = true) → (n = .const → bc = true) →
          (n = .glob → bg = true) → (n = .type → bt = true) →
          ((n ∈ excludeCodes ∧ excludeCheck n (fallBack (fun m => match m with
              | .enum => be | .const => bc | .glob => bg | .type => bt | _ => true) k) = true) ↔
            ((n ∉ contexts k ∧ n ≠ .const ∧ n ≠ .iter) ∨
             (n = .ext ∧ (k = .iter ∨ ((k = .enum ∨ k = .const) ∧
              (bc = true ∨ (k = .enum ∧ be = true))))))) := by
        cases n <;> cases k <;> decide
      have hfb : fallBack on k = fallBack (fun m => match m with
          | .enum => on .enum | .const => on .const | .glob => on .glob | .type => on .type
          | _ => true) k := by
        cases k <;> simp [fallBack]
        cases h3 : on .enum <;> simp [h3]
      rw [hfb]
      exact hb _ _ _ _ (fun e => e ▸ hon) (fun e => e ▸ hon) (fun e => e ▸ hon) (fun e => e ▸ hon)
    exact fin n k fl.on
  constructor
  · rintro ⟨a, b, c, dd, f⟩
    exact ⟨b, dd, f, (e dd).mp ⟨a, c⟩⟩
  · rintro ⟨b, dd, f, g⟩
    obtain ⟨a, c⟩ := (e dd).mpr g
    exact ⟨a, b, c, dd, f⟩

/-- The settings of the manual's sample: types begin with `T`, and nothing else does. -/
example : Settings ⟨fun n => n == .type, fun n => if n = .type then some (bytes "T") else none,
      fun n => n == .type⟩ ∧
    checkPrefix ⟨fun n => n == .type, fun n => if n = .type then some (bytes "T") else none,
      fun n => n == .type⟩ { pdecl0 with globalVariable := true, isVar := true } (bytes "Tab") =
      some [.other .type] :=
  ⟨by intro n; cases n <;> rfl, by decide +kernel⟩

end Splint
