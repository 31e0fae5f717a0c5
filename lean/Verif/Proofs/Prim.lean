import Verif.Spec.Prim
/-! Proofs about numeric types that match. -/
namespace Splint.Prim
open Spec

def all : List P :=
  [.unknown, .void, .bool, .uchar, .char, .int, .uint, .sint, .usint, .lint, .ulint, .llint, .ullint,
    .anyIntegral, .unsignedIntegral, .signedIntegral, .float, .double, .ldouble]

theorem mem_all (c : P) : c ∈ all := by cases c <;> decide

theorem forall_P {p : P → Prop} : (∀ c, p c) ↔ ∀ c ∈ all, p c := ⟨fun h c _ => h c, fun h c => h c (mem_all c)⟩

instance {p : P → Prop} [DecidablePred p] : Decidable (∀ c, p c) := decidable_of_iff _ forall_P.symm

@[simp] theorem kind_dropSign (c : P) : kind (dropSign c) = kind c := by cases c <;> rfl
@[simp] theorem rank_dropSign (c : P) : rank (dropSign c) = rank c := by cases c <;> rfl

/-- the three flags that the tables depend on -/
def core (ci si li : Bool) : Flags := { charInt := ci, shortInt := si, longInt := li }

theorem ignoring_kind {f : Flags} {c1 c2 : P} (h2 : ¬ integral c2) (h : ignoring f c1 c2 = true) :
    (f.charInt = true ∧ (kind c1 = .char ∧ kind c2 = .int ∨ kind c1 = .int ∧ kind c2 = .char))
    ∨ (kind c1 = kind c2 ∧ kind c1 ≠ .other) := by
  have key : ∀ ci : Bool, ∀ c1 c2 : P, ¬ (c2 = .anyIntegral ∨ c2 = .unsignedIntegral ∨ c2 = .signedIntegral) →
      ignoring (core ci false false) c1 c2 = true →
      (ci = true ∧ (kind c1 = .char ∧ kind c2 = .int ∨ kind c1 = .int ∧ kind c2 = .char))
      ∨ (kind c1 = kind c2 ∧ kind c1 ≠ .other) := by
    decide +kernel
  exact key f.charInt c1 c2 h2 h

/-- what the last two tables allow -/
def tableOk (ci si li : Bool) (relax : Bool) (c1 c2 : P) : Prop :=
  (ci = true ∧ (kind c1 = .char ∧ kind c2 = .int ∨ kind c1 = .int ∧ kind c2 = .char))
  ∨ (kind c1 = kind c2 ∧ kind c1 ≠ .other ∧ unsigned c1 = unsigned c2
    ∧ (rank c1 = rank c2
      ∨ (si = true ∧ rank c1 ∈ [1, 2] ∧ rank c2 ∈ [1, 2])
      ∨ (li = true ∧ rank c1 ∈ [2, 3] ∧ rank c2 ∈ [2, 3])
      ∨ (si = true ∧ li = true ∧ rank c1 ∈ [1, 2, 3] ∧ rank c2 ∈ [1, 2, 3])
      ∨ (relax = true ∧ rank c2 ≤ rank c1)))

instance (ci si li relax : Bool) (c1 c2 : P) : Decidable (tableOk ci si li relax c1 c2) := by
  unfold tableOk; infer_instance

theorem relaxed_ok {f : Flags} {c1 c2 : P} (h : relaxed f c1 c2 = true) :
    tableOk f.charInt f.shortInt f.longInt true c1 c2 := by
  have key : ∀ ci si li : Bool, ∀ c1 c2 : P, relaxed (core ci si li) c1 c2 = true →
      tableOk ci si li true c1 c2 := by
    decide +kernel
  exact key f.charInt f.shortInt f.longInt c1 c2 h

/-- But for `short` and `int` with `longint`. -/
theorem unrelaxed_ok {f : Flags} {c1 c2 : P} (h : unrelaxed f c1 c2 = true) :
    tableOk f.charInt f.shortInt f.longInt false c1 c2 ∨ (c1 = .sint ∧ c2 = .int ∧ f.longInt = true) := by
  have key : ∀ ci si li : Bool, ∀ c1 c2 : P, unrelaxed (core ci si li) c1 c2 = true →
      tableOk ci si li false c1 c2 ∨ (c1 = .sint ∧ c2 = .int ∧ li = true) := by
    decide +kernel
  exact key f.charInt f.shortInt f.longInt c1 c2 h

theorem dropSign_eq_sint {c : P} : dropSign c = .sint ↔ c = .sint ∨ c = .usint := by cases c <;> simp [dropSign]
theorem dropSign_eq_int {c : P} : dropSign c = .int ↔ c = .int ∨ c = .uint := by cases c <;> simp [dropSign]

/-- `short` and `int` with `longint` but without `shortint` -/
def fallsThrough (f : Flags) (c1 c2 : P) : Prop :=
  f.longInt = true ∧ f.shortInt = false ∧ rank c1 = 1 ∧ rank c2 = 2

theorem table_allowed {f : Flags} {deep relax : Bool} {c1 c2 d1 d2 : P}
    (hd : (d1 = c1 ∧ d2 = c2) ∨ (f.ignoreSigns = true ∧ d1 = dropSign c1 ∧ d2 = dropSign c2))
    (hr : relax = true → deep = false ∧ f.relaxQuals = true)
    (h : tableOk f.charInt f.shortInt f.longInt relax d1 d2) : allowed f deep c1 c2 := by
  have e : kind d1 = kind c1 ∧ kind d2 = kind c2 ∧ rank d1 = rank c1 ∧ rank d2 = rank c2
      ∧ (unsigned d1 = unsigned d2 → unsigned c1 = unsigned c2 ∨ f.ignoreSigns = true) := by
    rcases hd with ⟨rfl, rfl⟩ | ⟨hi, rfl, rfl⟩
    · exact ⟨rfl, rfl, rfl, rfl, .inl⟩
    · exact ⟨by simp, by simp, by simp, by simp, fun _ => .inr hi⟩
  obtain ⟨e1, e2, e3, e4, e5⟩ := e
  rw [tableOk, e1, e2, e3, e4] at h
  rw [allowed]
  rcases h with h | ⟨h1, h2, h3, h4⟩
  · exact .inr (.inr (.inl h))
  · refine .inr (.inr (.inr ⟨h1, h2, .inr ⟨e5 h3, ?_⟩⟩))
    rcases h4 with h | h | h | h | ⟨h, h'⟩
    · exact .inl (.inl h)
    · exact .inl (.inr (.inr (.inl h)))
    · exact .inl (.inr (.inr (.inr (.inl h))))
    · exact .inl (.inr (.inr (.inr (.inr h))))
    · exact .inr ⟨(hr h).1, (hr h).2, h'⟩

theorem base_allowed {f : Flags} {deep : Bool} {c1 c2 : P} (h2 : ¬ integral c2) (h1 : ¬ integral c1)
    (h : plain f deep c1 c2 = true) : allowed f deep c1 c2 ∨ fallsThrough f c1 c2 := by
  rw [plain] at h
  split at h
  · next e => exact .inl (.inl e)
  rw [base] at h
  split at h
  · next hr =>
    simp only [Bool.and_eq_true] at hr
    exact .inl (.inr (.inl ⟨hr.1.1, hr.1.2, hr.2⟩))
  split at h
  · next hq =>
    simp only [Bool.and_eq_true] at hq
    rcases ignoring_kind h2 hq.2 with h | h
    · exact .inl (.inr (.inr (.inl h)))
    · exact .inl (.inr (.inr (.inr ⟨h.1, h.2, .inl hq.1⟩)))
  simp only at h
  have hd : ∀ d1 d2 : P, d1 = (if f.ignoreSigns then dropSign c1 else c1) →
      d2 = (if f.ignoreSigns then dropSign c2 else c2) →
      (d1 = c1 ∧ d2 = c2) ∨ (f.ignoreSigns = true ∧ d1 = dropSign c1 ∧ d2 = dropSign c2) := by
    intro d1 d2 e1 e2
    cases hs : f.ignoreSigns with
    | true => rw [hs] at e1 e2; exact .inr ⟨rfl, e1, e2⟩
    | false => rw [hs] at e1 e2; exact .inl ⟨e1, e2⟩
  generalize e1 : (if f.ignoreSigns then dropSign c1 else c1) = d1 at h
  generalize e2 : (if f.ignoreSigns then dropSign c2 else c2) = d2 at h
  replace hd := hd d1 d2 e1.symm e2.symm
  have er : rank d1 = rank c1 ∧ rank d2 = rank c2 ∧ kind d1 = kind c1 ∧ kind d2 = kind c2 := by
    rcases hd with ⟨rfl, rfl⟩ | ⟨_, rfl, rfl⟩ <;> simp
  split at h
  · next e =>
    subst e
    left
    rcases hd with ⟨e1, e2⟩ | ⟨hs, e1, e2⟩
    · exact .inl (e1.symm.trans e2)
    · by_cases hk : kind c1 = .other
      · left
        have key : ∀ c1 c2 : P, ¬ (c1 = .anyIntegral ∨ c1 = .unsignedIntegral ∨ c1 = .signedIntegral) →
          kind c1 = .other → dropSign c1 = dropSign c2 → c1 = c2 := by decide +kernel
        exact key c1 c2 h1 hk (e1.symm.trans e2)
      · refine .inr (.inr (.inr ⟨?_, hk, .inr ⟨.inr hs, .inl (.inl ?_)⟩⟩))
        · exact er.2.2.1.symm.trans er.2.2.2
        · exact er.1.symm.trans er.2.1
  split at h
  · next hf =>
    simp only [Bool.and_eq_true, Bool.or_eq_true, decide_eq_true_eq] at hf
    left
    obtain ⟨hf, hc⟩ := hf
    have : kind d1 = kind d2 ∧ kind d1 ≠ .other ∧ rank d1 ∈ [5, 6] ∧ rank d2 ∈ [5, 6] ∧ unsigned d1 = unsigned d2 := by
      rcases hc with ⟨rfl, rfl⟩ | ⟨rfl, rfl⟩ <;> decide
    rw [er.2.2.1, er.2.2.2, er.1, er.2.1] at this
    refine .inr (.inr (.inr ⟨this.1, this.2.1, .inr ⟨?_, .inl (.inr (.inl ⟨hf, this.2.2.1, this.2.2.2.1⟩))⟩⟩))
    rcases hd with ⟨rfl, rfl⟩ | ⟨h, _⟩
    · exact .inl this.2.2.2.2
    · exact .inr h
  split at h
  · next hr =>
    simp only [Bool.and_eq_true, Bool.not_eq_true'] at hr
    exact .inl (table_allowed (relax := true) hd (fun _ => hr) (relaxed_ok h))
  · rcases unrelaxed_ok h with h | ⟨x1, x2, x3⟩
    · exact .inl (table_allowed (relax := false) hd (by simp) h)
    · cases hsi : f.shortInt with
      | false =>
        right
        refine ⟨x3, hsi, ?_, ?_⟩
        · rw [← er.1, x1]; rfl
        · rw [← er.2.1, x2]; rfl
      | true =>
        left
        refine table_allowed (relax := false) hd (by simp) (.inr ?_)
        rw [x1, x2, hsi]
        exact ⟨rfl, by decide, rfl, .inr (.inl ⟨rfl, by decide, by decide⟩)⟩

theorem right_plain {f : Flags} {deep : Bool} {c1 c2 : P} (h2 : ¬ integral c2) :
    right f deep c1 c2 = plain f deep c1 c2 := by
  cases c2 <;> simp [integral] at h2 <;> rfl

theorem close_right {f : Flags} {deep : Bool} {c1 c2 : P} (h1 : ¬ integral c1) (hne : c1 ≠ c2) :
    closeEnough f deep c1 c2 = right f deep c1 c2 := by
  rw [closeEnough.eq_def, if_neg hne]
  cases c1 <;> simp [integral] at h1 <;> rfl

theorem close_plain {f : Flags} {deep : Bool} {c1 c2 : P} (h1 : ¬ integral c1) (h2 : ¬ integral c2) :
    closeEnough f deep c1 c2 = plain f deep c1 c2 := by
  by_cases e : c1 = c2
  · subst e; simp [closeEnough, plain]
  · rw [close_right h1 e, right_plain h2]

/-! Values -/

theorem pow_mono {a b : Nat} (h : a ≤ b) : (2 : Int) ^ a ≤ 2 ^ b := by
  exact_mod_cast Nat.pow_le_pow_right (by decide) h

theorem signed_mono {a b : Nat} {z : Int} (h : a ≤ b) (hz : signedRange a z) : signedRange b z := by
  have := pow_mono h
  unfold signedRange at *
  omega

theorem unsigned_mono {a b : Nat} {z : Int} (h : a ≤ b) (hz : unsignedRange a z) : unsignedRange b z := by
  have := pow_mono h
  unfold unsignedRange at *
  omega

/-- without the flags that make types equivalent -/
theorem plain_strict {f : Flags} {deep : Bool} {c1 c2 : P} (hs : strict f) (h : plain f deep c1 c2 = true) :
    c1 = c2 ∨ (deep = false ∧ f.relaxQuals = true ∧ relaxed (core false false false) c1 c2 = true) := by
  obtain ⟨s1, s2, s3, s4, s5, s6, s7, s8⟩ := hs
  rw [plain] at h
  split at h
  · next e => exact .inl e
  · next hne =>
    simp only [base, s2, s3, s4, s5, Bool.false_and, Bool.false_eq_true, if_false, if_neg hne] at h
    split at h
    · next hr =>
      simp only [Bool.and_eq_true, Bool.not_eq_true'] at hr
      refine .inr ⟨hr.1, hr.2, ?_⟩
      rw [← h]
      simp only [relaxed, s6, s7, s8, core]
    · exfalso
      have key : ∀ c1 c2 : P, unrelaxed (core false false false) c1 c2 = false := by decide +kernel
      have e : unrelaxed f c1 c2 = unrelaxed (core false false false) c1 c2 := by
        simp only [unrelaxed, s6, s7, s8, core]
      rw [e, key] at h
      cases h

theorem concrete_of {M : Machine} {c : P} (h : ¬ integral c) : M.concrete c = c := by
  cases c <;> simp [integral] at h <;> rfl

theorem relaxed_pairs : ∀ c1 c2 : P, relaxed (core false false false) c1 c2 = true →
    (c1, c2) ∈ [(.double, .float), (.ldouble, .double), (.ldouble, .float), (.int, .sint), (.llint, .sint),
      (.llint, .int), (.llint, .lint), (.ullint, .usint), (.ullint, .uint), (.ullint, .ulint),
      (.lint, .sint), (.lint, .int), (.uint, .usint), (.ulint, .uint), ((.ulint, .usint) : P × P)] := by
  decide +kernel

theorem relaxed_holds {M : Machine} {c1 c2 : P} (h : relaxed (core false false false) c1 c2 = true) (v : Value)
    (hv : M.holds c2 v) : M.holds c1 v := by
  have := relaxed_pairs c1 c2 h
  have m1 := M.h1; have m2 := M.h2; have m3 := M.h3; have m4 := M.h4; have m5 := M.h5; have m6 := M.h6
  simp only [List.mem_cons, List.not_mem_nil, or_false, Prod.mk.injEq] at this
  cases v with
  | real k =>
    rcases this with ⟨rfl, rfl⟩ | ⟨rfl, rfl⟩ | ⟨rfl, rfl⟩ | ⟨rfl, rfl⟩ | ⟨rfl, rfl⟩ | ⟨rfl, rfl⟩ | ⟨rfl, rfl⟩ | ⟨rfl, rfl⟩
      | ⟨rfl, rfl⟩ | ⟨rfl, rfl⟩ | ⟨rfl, rfl⟩ | ⟨rfl, rfl⟩ | ⟨rfl, rfl⟩ | ⟨rfl, rfl⟩ | ⟨rfl, rfl⟩ <;>
      simp only [Machine.holds, Machine.concrete] at hv ⊢ <;> omega
  | int z =>
    rcases this with ⟨rfl, rfl⟩ | ⟨rfl, rfl⟩ | ⟨rfl, rfl⟩ | ⟨rfl, rfl⟩ | ⟨rfl, rfl⟩ | ⟨rfl, rfl⟩ | ⟨rfl, rfl⟩ | ⟨rfl, rfl⟩
      | ⟨rfl, rfl⟩ | ⟨rfl, rfl⟩ | ⟨rfl, rfl⟩ | ⟨rfl, rfl⟩ | ⟨rfl, rfl⟩ | ⟨rfl, rfl⟩ | ⟨rfl, rfl⟩ <;>
      simp only [Machine.holds, Machine.concrete] at hv ⊢ <;>
      first
        | exact hv.elim
        | exact signed_mono (by omega) hv
        | exact unsigned_mono (by omega) hv

/-- the type that is compared in place of a type of unknown size, with the flags `longintegral` and so on -/
def subst (f : Flags) : P → Option P
  | .anyIntegral => if f.longIntegral then some .lint else if f.longUnsignedIntegral then some .ulint else none
  | .unsignedIntegral => if f.longUnsignedUnsignedIntegral then some .ulint else none
  | .signedIntegral => if f.longSignedIntegral then some .lint else none
  | c => some c

theorem subst_holds {M : Machine} {f : Flags} (hM : M.agrees f) {c d : P} (h : subst f c = some d) :
    M.concrete c = d ∧ ¬ integral d := by
  obtain ⟨h1, h2, h3, h4⟩ := hM
  cases c with
  | anyIntegral =>
    simp only [subst] at h
    split at h
    · next g => cases h; exact ⟨h1 g, by simp [integral]⟩
    · next g0 =>
      split at h
      · next g => cases h; exact ⟨h2 g (by simpa using g0), by simp [integral]⟩
      · cases h
  | unsignedIntegral =>
    simp only [subst] at h
    split at h
    · next g => cases h; exact ⟨h3 g, by simp [integral]⟩
    · cases h
  | signedIntegral =>
    simp only [subst] at h
    split at h
    · next g => cases h; exact ⟨h4 g, by simp [integral]⟩
    · cases h
  | _ => cases h; exact ⟨rfl, by simp [integral]⟩

theorem right_strict {f : Flags} {deep : Bool} {d c2 : P} (hs : strict f)
    (h : right f deep d c2 = true) :
    ∃ d2, subst f c2 = some d2 ∧ plain f (deep && !decide (integral c2)) d d2 = true := by
  have s1 := hs.1
  by_cases hi : integral c2
  · simp only [hi, decide_true, Bool.not_true, Bool.and_false]
    rcases hi with rfl | rfl | rfl
    · simp only [right, s1, Bool.false_eq_true, if_false] at h
      split at h
      · next g => exact ⟨.lint, by simp [subst, g], h⟩
      · next g =>
        split at h
        · next g' => exact ⟨.ulint, by simp [subst, g, g'], h⟩
        · cases h
    · simp only [right, s1, Bool.false_eq_true, if_false] at h
      split at h
      · next g => exact ⟨.ulint, by simp [subst, g], h⟩
      · cases h
    · simp only [right, s1, Bool.false_eq_true, if_false] at h
      split at h
      · next g => exact ⟨.lint, by simp [subst, g], h⟩
      · cases h
  · rw [right_plain hi] at h
    refine ⟨c2, ?_, by simpa [hi] using h⟩
    cases c2 <;> simp [integral] at hi <;> rfl

/-- With strict flags, all that is compared are these types. -/
theorem close_strict {f : Flags} {deep : Bool} {c1 c2 : P} (hs : strict f) (h : closeEnough f deep c1 c2 = true) :
    c1 = c2 ∨ ∃ d1 d2, subst f c1 = some d1 ∧ subst f c2 = some d2
      ∧ plain f (deep && !decide (integral c1 ∨ integral c2)) d1 d2 = true := by
  by_cases e : c1 = c2
  · exact .inl e
  right
  have s1 := hs.1
  have s2 := hs.2.1
  have go : ∀ d, integral c1 → subst f c1 = some d → right f false d c2 = true →
      ∃ d1 d2, subst f c1 = some d1 ∧ subst f c2 = some d2
      ∧ plain f (deep && !decide (integral c1 ∨ integral c2)) d1 d2 = true := by
    intro d hi hd h
    obtain ⟨d2, h2, h3⟩ := right_strict hs h
    exact ⟨d, d2, hd, h2, by simpa [hi] using h3⟩
  by_cases hi : integral c1
  · rw [closeEnough.eq_def, if_neg e] at h
    rcases hi with rfl | rfl | rfl
    · simp only [s1, s2, Bool.or_self, Bool.false_eq_true, if_false] at h
      split at h
      · next g => exact go .lint (.inl rfl) (by simp [subst, g]) h
      · next g =>
        split at h
        · next g' => exact go .ulint (.inl rfl) (by simp [subst, g, g']) h
        · cases h
    · simp only [s1, s2, Bool.false_eq_true, if_false] at h
      split at h
      · next g => exact go .ulint (.inr (.inl rfl)) (by simp [subst, g]) h
      · cases h
    · simp only [s1, s2, Bool.false_eq_true, if_false] at h
      split at h
      · next g => exact go .lint (.inr (.inr rfl)) (by simp [subst, g]) h
      · cases h
  · rw [close_right hi e] at h
    obtain ⟨d2, h2, h3⟩ := right_strict hs h
    refine ⟨c1, d2, ?_, h2, by simpa [hi] using h3⟩
    cases c1 <;> simp [integral] at hi <;> rfl

theorem holds_subst {M : Machine} {f : Flags} (hM : M.agrees f) {c d : P} (h : subst f c = some d) (v : Value) :
    M.holds c v ↔ M.holds d v := by
  obtain ⟨h1, h2⟩ := subst_holds hM h
  have h3 := concrete_of (M := M) h2
  cases v <;> simp only [Machine.holds, h1, h3]

theorem close_values {f : Flags} {deep : Bool} {c1 c2 : P} (hs : strict f) {M : Machine} (hM : M.agrees f)
    (h : closeEnough f deep c1 c2 = true) (v : Value) (hv : M.holds c2 v) : M.holds c1 v := by
  rcases close_strict hs h with rfl | ⟨d1, d2, e1, e2, hp⟩
  · exact hv
  · rw [holds_subst hM e1]
    rw [holds_subst hM e2] at hv
    rcases plain_strict hs hp with rfl | ⟨_, _, h⟩
    · exact hv
    · exact relaxed_holds h v hv

theorem close_deep {f : Flags} {c1 c2 : P} (hs : strict f) (h1 : ¬ integral c1) (h2 : ¬ integral c2) :
    closeEnough f true c1 c2 = true ↔ c1 = c2 := by
  constructor
  · intro h
    rw [close_plain h1 h2] at h
    rcases plain_strict hs h with h | ⟨h, _⟩
    · exact h
    · cases h
  · rintro rfl; simp [closeEnough]

theorem C65_none_aux (deep : Bool) (c1 c2 : P) : closeEnough {} deep c1 c2 = true ↔ c1 = c2 := by
  have key : ∀ deep : Bool, ∀ c1 c2 : P, closeEnough {} deep c1 c2 = true ↔ c1 = c2 := by decide +kernel
  exact key deep c1 c2

end Splint.Prim
