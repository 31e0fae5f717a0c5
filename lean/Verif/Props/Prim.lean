import Verif.Proofs.Prim
/-!
# C65: numeric types match only if the flags allow it

Without the flags that make types equivalent, a numeric type matches another only if it holds all its
values (and, behind a pointer, only if they are the same); the types that a flag makes equivalent match.
-/
namespace Splint.Prim
open Spec

/-- Behind pointers only the same types match. -/
def C65_deep_full : Prop :=
  ∀ (f : Flags) (M : Machine) (c1 c2 : P), strict f → M.agrees f → closeEnough f true c1 c2 = true →
    M.concrete c1 = M.concrete c2

/-- What the documentation of a flag says is equivalent matches, in both directions. -/
def C65_pairs_full : Prop :=
  ∀ (f : Flags) (deep : Bool) (c d : P), Pair f c d →
    closeEnough f deep c d = true ∧ closeEnough f deep d c = true

/-- Types of known size match only if flags allow it. -/
def C65_allowed_full : Prop :=
  ∀ (f : Flags) (deep : Bool) (c1 c2 : P), ¬ integral c1 → ¬ integral c2 → closeEnough f deep c1 c2 = true →
    allowed f deep c1 c2

/-- The full property. -/
def C65_full : Prop :=
  (∀ (f : Flags) (deep : Bool) (M : Machine) (c1 c2 : P), strict f → M.agrees f →
    closeEnough f deep c1 c2 = true → ∀ v, M.holds c2 v → M.holds c1 v)
  ∧ C65_deep_full ∧ C65_pairs_full ∧ C65_allowed_full

/-- Without the flags that make types equivalent, a type that matches can hold every value of the other,
whatever the sizes of types are. -/
theorem C65_values {f : Flags} {deep : Bool} {c1 c2 : P} {M : Machine} (hs : strict f) (hM : M.agrees f)
    (h : closeEnough f deep c1 c2 = true) (v : Value) (hv : M.holds c2 v) : M.holds c1 v :=
  close_values hs hM h v hv

/-- a machine of today -/
def lp64 : Machine :=
  { charBits := 8, shortBits := 16, intBits := 32, longBits := 64, llongBits := 64, charSigned := true,
    floatPrec := 24, doublePrec := 53, ldoublePrec := 64, any := .lint, uns := .ulint, sig := .lint,
    h1 := by decide, h2 := by decide, h3 := by decide, h4 := by decide, h5 := by decide, h6 := by decide }

def relaxLong : Flags := { relaxQuals := true, longIntegral := true }

example : strict relaxLong ∧ lp64.agrees relaxLong ∧ closeEnough relaxLong false .lint .int = true
    ∧ closeEnough relaxLong false .anyIntegral .int = true ∧ lp64.holds .int (.int (-5)) := by
  refine ⟨by simp [strict, relaxLong], by simp [Machine.agrees, relaxLong, lp64], by decide, by decide, ?_⟩
  simp [Machine.holds, Machine.concrete, signedRange, lp64]

/-- Behind pointers the same types match and no others, but for those of unknown size. -/
theorem C65_deep_partial {f : Flags} {c1 c2 : P} (hs : strict f) (h1 : ¬ integral c1) (h2 : ¬ integral c2) :
    closeEnough f true c1 c2 = true ↔ c1 = c2 :=
  close_deep hs h1 h2

example : strict relaxLong ∧ ¬ integral .lint ∧ ¬ integral .int := by
  refine ⟨by simp [strict, relaxLong], by decide, by decide⟩

/-- A pointer to an integral type of unknown size matches a pointer to `int`, even though `longintegral`
says that the type is `long`. -/
theorem C65_deep_full_is_false : ¬ C65_deep_full := by
  intro h
  have := h relaxLong lp64 .anyIntegral .int (by simp [strict, relaxLong])
    (by simp [Machine.agrees, relaxLong, lp64]) (by decide)
  revert this
  decide

/-- The same, for each of the types of unknown size, and in both directions. -/
theorem C65_deep_wrong :
    closeEnough relaxLong true .anyIntegral .int = true
    ∧ closeEnough relaxLong true .llint .anyIntegral = true
    ∧ closeEnough { relaxQuals := true, longUnsignedUnsignedIntegral := true } true .unsignedIntegral .usint = true
    ∧ closeEnough { relaxQuals := true, longSignedIntegral := true } true .signedIntegral .sint = true := by
  decide

/-- The types that a flag makes equivalent match in both directions, but for `int` and `long`. -/
theorem C65_pairs_partial {f : Flags} (deep : Bool) {c d : P} (h : Pair f c d) :
    closeEnough f deep c d = true ∧ (closeEnough f deep d c = true ∨ (c = .lint ∧ d = .int)) := by
  cases h with
  | charInt h =>
    constructor
    · simp [closeEnough, right, plain, base, relaxed, unrelaxed, dropSign, h]
    · left; simp [closeEnough, right, plain, base, relaxed, unrelaxed, dropSign, h, P.isAnyChar]
  | shortInt h =>
    constructor
    · simp [closeEnough, right, plain, base, relaxed, unrelaxed, dropSign, h]
    · left; simp [closeEnough, right, plain, base, relaxed, unrelaxed, dropSign, h, P.isAnyChar]
  | longInt h =>
    constructor
    · simp [closeEnough, right, plain, base, relaxed, unrelaxed, dropSign, h]
    · exact .inr ⟨rfl, rfl⟩
  | floatDouble h =>
    constructor
    · simp [closeEnough, right, plain, base, dropSign, h]
    · left; simp [closeEnough, right, plain, base, dropSign, h]
  | signs c d h hk he hr =>
    have key : ∀ c d : P, kind c ≠ .other → kind c = kind d → rank c = rank d →
        dropSign c = dropSign d ∧ ¬ integral c ∧ ¬ integral d := by decide +kernel
    obtain ⟨e, i1, i2⟩ := key c d hk he hr
    constructor
    · rw [close_plain i1 i2]; simp [plain, base, h, e]
    · left; rw [close_plain i2 i1]; simp [plain, base, h, e]
  | quals c d h hk he =>
    have key : ∀ ci : Bool, ∀ c d : P, kind c ≠ .other → kind c = kind d →
        ignoring (core ci false false) c d = true ∧ ignoring (core ci false false) d c = true
        ∧ ¬ integral c ∧ ¬ integral d := by decide +kernel
    obtain ⟨e1, e2, i1, i2⟩ := key f.charInt c d hk he
    constructor
    · rw [close_plain i1 i2, plain, base, show ignoring f c d = true from e1]; simp [h]
    · left; rw [close_plain i2 i1, plain, base, show ignoring f d c = true from e2]; simp [h]
  | types c d h hc hd =>
    have key : ∀ c : P, kind c = .int ∨ kind c = .real → (c.isAnyReal || c.isAnyInt) = true ∧ ¬ integral c := by
      decide +kernel
    have num : ∀ c : P, (c.isAnyReal || c.isAnyInt) = true → isNumeric f c = true := by
      intro c h
      simp only [isNumeric, isInt]
      cases h1 : c.isAnyReal <;> simp_all
    obtain ⟨n1, i1⟩ := key c hc
    obtain ⟨n2, i2⟩ := key d hd
    constructor
    · rw [close_plain i1 i2, plain, base]; simp [h, num c n1, num d n2]
    · left; rw [close_plain i2 i1, plain, base]; simp [h, num c n1, num d n2]
  | any c d h hc hd =>
    have key : ∀ d : P, kind d = .int → d.isAnyInt = true ∧ ¬ integral d := by decide +kernel
    obtain ⟨n, i⟩ := key d hd
    have hne : c ≠ d := by rintro rfl; exact i hc
    constructor
    · rw [closeEnough.eq_def, if_neg hne]
      rcases hc with rfl | rfl | rfl <;> simp [h, n]
    · left
      rw [close_right i (Ne.symm hne)]
      rcases hc with rfl | rfl | rfl <;> simp only [P.isAnyInt] at n <;> simp [right, h, n, P.isAnyInt]

example : Pair { ignoreSigns := true } .uint .int ∧ Pair { relaxTypes := true } .float .llint
    ∧ Pair { longInt := true } .lint .int :=
  ⟨.signs _ _ rfl (by decide) rfl rfl, .types _ _ rfl (by decide) (by decide), .longInt rfl⟩

/-- A `long` matches an `int` with `longint` only if qualifiers are relaxed too, and not behind pointers. -/
theorem C65_longint_exactly (f : Flags) (deep : Bool) :
    closeEnough f deep .int .lint = true ↔
      f.relaxTypes = true ∨ f.ignoreQuals = true ∨ (deep = false ∧ f.relaxQuals = true ∧ f.longInt = true) := by
  rw [close_plain (by decide) (by decide)]
  cases h1 : f.relaxTypes <;> cases h2 : f.ignoreQuals <;> cases h3 : f.relaxQuals <;> cases deep <;>
    simp [plain, base, relaxed, unrelaxed, dropSign, h1, h2, h3, isNumeric, isInt, P.isAnyInt, P.isAnyReal, P.isAnyChar,
      ignoring]

theorem C65_pairs_full_is_false : ¬ C65_pairs_full := by
  intro h
  have := (h { longInt := true } false .lint .int (.longInt rfl)).2
  revert this
  decide

/-- Types match only if flags allow it, except that `longint` also makes `int` match `short`. -/
theorem C65_allowed_partial {f : Flags} {deep : Bool} {c1 c2 : P} (h1 : ¬ integral c1) (h2 : ¬ integral c2)
    (h : closeEnough f deep c1 c2 = true) :
    allowed f deep c1 c2 ∨ (f.longInt = true ∧ f.shortInt = false ∧ rank c1 = 1 ∧ rank c2 = 2) := by
  rw [close_plain h1 h2] at h
  exact base_allowed h2 h1 h

example : ¬ integral .uint ∧ ¬ integral .char ∧ closeEnough { charInt := true, ignoreSigns := true } true .uint .char = true := by
  decide

/-- The exception: `short` takes an `int` with `longint`. -/
theorem C65_short_long : closeEnough { longInt := true } false .sint .int = true
    ∧ ¬ allowed { longInt := true } false .sint .int := by
  refine ⟨by decide, ?_⟩
  simp [allowed, sameRank, rank, kind]

theorem C65_allowed_full_is_false : ¬ C65_allowed_full := fun h =>
  C65_short_long.2 (h _ _ _ _ (by decide) (by decide) C65_short_long.1)

/-- With `matchanyintegral`, everything matches a signed integral type of unknown size: even `void`. -/
theorem C65_signed_integral (f : Flags) (deep : Bool) (c : P) (hm : f.matchAnyIntegral = true)
    (hc : ¬ integral c) : closeEnough f deep c .signedIntegral = true := by
  rw [close_right hc (by rintro rfl; exact hc (.inr (.inr rfl)))]
  simp [right, hm, P.isAnyInt]

example : closeEnough { matchAnyIntegral := true } false .void .signedIntegral = true
    ∧ closeEnough { matchAnyIntegral := true } true .ldouble .signedIntegral = true := by decide

/-- The numeric types of unknown size are left out of `relaxtypes`. -/
theorem C65_relaxtypes_integral : closeEnough { relaxTypes := true } false .anyIntegral .int = false
    ∧ closeEnough { relaxTypes := true } false .int .unsignedIntegral = false := by decide

/-- Turning a flag on that should allow more can make types stop matching: `relaxquals`, `longintegral`
and `ignoresigns`. -/
theorem C65_not_monotone :
    (closeEnough { longInt := true } false .sint .int = true
      ∧ closeEnough { longInt := true, relaxQuals := true } false .sint .int = false)
    ∧ (closeEnough { longUnsignedIntegral := true } false .anyIntegral .ulint = true
      ∧ closeEnough { longUnsignedIntegral := true, longIntegral := true } false .anyIntegral .ulint = false)
    ∧ (closeEnough { ignoreQuals := true } false .unsignedIntegral .int = true
      ∧ closeEnough { ignoreQuals := true, ignoreSigns := true } false .unsignedIntegral .int = false) := by
  decide

theorem C65_full_is_false : ¬ C65_full := fun h => C65_pairs_full_is_false h.2.2.1

/-- With no flags at all only the same types match. -/
theorem C65_none (deep : Bool) (c1 c2 : P) : closeEnough {} deep c1 c2 = true ↔ c1 = c2 :=
  C65_none_aux deep c1 c2

end Splint.Prim
