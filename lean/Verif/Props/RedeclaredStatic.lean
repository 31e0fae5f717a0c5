import Verif.Props.Redeclared
/-!
# C130, with static functions
-/
namespace Splint
namespace Redeclared

theorem split_snoc {P : List Ev → Ev → List Ev → Prop} (h : List Ev) (p : Ev) :
    (∃ a e b, h ++ [p] = a ++ e :: b ∧ P a e b) ↔ P h p [] ∨ ∃ a e b, h = a ++ e :: b ∧ P a e (b ++ [p]) := by
  constructor
  · rintro ⟨a, e, b, h1, h2⟩
    rcases List.eq_nil_or_concat b with rfl | ⟨b', q, rfl⟩
    · have := List.append_inj' h1 rfl
      obtain ⟨rfl, h4⟩ := this
      have : p = e := by simpa using h4
      subst this
      exact Or.inl h2
    · rw [List.concat_eq_append, ← List.cons_append, ← List.append_assoc] at h1
      have := List.append_inj' h1 rfl
      obtain ⟨rfl, h4⟩ := this
      have : p = q := by simpa using h4
      subst this
      rw [List.concat_eq_append] at h2
      exact Or.inr ⟨a, e, b', rfl, h2⟩
  · rintro (h1 | ⟨a, e, b, rfl, h2⟩)
    · exact ⟨h, p, [], rfl, h1⟩
    · exact ⟨a, e, b ++ [p], by simp, h2⟩

theorem live_snoc (h : List Ev) (p : Ev) (x : Nat) :
    Live (h ++ [p]) x ↔ MakesStatic p x ∨ (Live h x ∧ ¬ Ends p x) := by
  unfold Live
  rw [split_snoc]
  simp only [List.not_mem_nil, false_implies, implies_true, and_true, List.mem_append, List.mem_singleton]
  refine or_congr Iff.rfl ?_
  constructor
  · rintro ⟨a, e, b, h1, h2, h3⟩
    exact ⟨⟨a, e, b, h1, h2, fun f hf => h3 f (Or.inl hf)⟩, h3 p (Or.inr rfl)⟩
  · rintro ⟨⟨a, e, b, h1, h2, h3⟩, h4⟩
    refine ⟨a, e, b, h1, h2, ?_⟩
    rintro f (hf | rfl)
    · exact h3 f hf
    · exact h4

theorem noGlobal_snoc (h : List Ev) (p : Ev) (x : Nat) :
    NoGlobal (h ++ [p]) x ↔ NoGlobal h x ∧ ∀ d, ¬ Global h p x d := by
  have key := split_snoc (P := fun a e _ => ∃ d, Global a e x d) h p
  have e1 : ∀ h, NoGlobal h x ↔ ¬ ∃ a e b, h = a ++ e :: b ∧ ∃ d, Global a e x d := by
    intro h
    unfold NoGlobal
    constructor
    · rintro h1 ⟨a, e, b, h2, d, h3⟩
      exact h1 a e b d h2 h3
    · intro h1 a e b d h2 h3
      exact h1 ⟨a, e, b, h2, d, h3⟩
  rw [e1, e1, key]
  push Not
  constructor
  · rintro ⟨h1, h2⟩; exact ⟨h2, h1⟩
  · rintro ⟨h1, h2⟩; exact ⟨h2, h1⟩

theorem gfirst_snoc (h : List Ev) (p : Ev) (x : Nat) (d : D) :
    GFirst (h ++ [p]) x d ↔ (Global h p x d ∧ NoGlobal h x) ∨ GFirst h x d := by
  unfold GFirst
  rw [split_snoc]

theorem gfirst_not (h : List Ev) (x : Nat) (d : D) (h1 : GFirst h x d) : ¬ NoGlobal h x := by
  obtain ⟨a, e, b, h2, h3, -⟩ := h1
  exact fun h4 => h4 a e b d h2 h3

theorem global_unique {h : List Ev} {e : Ev} {x : Nat} {d d' : D} (h1 : Global h e x d) (h2 : Global h e x d') :
    d = d' := by
  obtain ⟨-, -, h1⟩ := h1
  obtain ⟨-, -, h2⟩ := h2
  rcases h1 with rfl | ⟨rfl, -⟩ <;> rcases h2 with h2 | ⟨h2, -⟩
  · exact Ev.proto.inj h2
  · cases h2
  · cases h2
  · exact Ev.def_.inj h2

theorem gfirst_unique {h : List Ev} {x : Nat} {d d' : D} (h1 : GFirst h x d) (h2 : GFirst h x d') : d = d' := by
  obtain ⟨a, e, b, rfl, g, n⟩ := h1
  obtain ⟨a', e', b', he, g', n'⟩ := h2
  rcases List.append_eq_append_iff.1 he with ⟨l, h1, h2⟩ | ⟨l, h1, h2⟩
  · cases l with
    | nil =>
      simp only [List.append_nil, List.nil_append, List.cons.injEq] at h1 h2
      rw [h1, ← h2.1] at g'
      exact global_unique g g'
    | cons c l =>
      simp only [List.cons_append, List.cons.injEq] at h2
      rw [← h2.1] at h1
      exact absurd g (n' a e l d h1)
  · cases l with
    | nil =>
      simp only [List.append_nil, List.nil_append, List.cons.injEq] at h1 h2
      rw [← h1, h2.1] at g'
      exact global_unique g g'
    | cons c l =>
      simp only [List.cons_append, List.cons.injEq] at h2
      rw [← h2.1] at h1
      exact absurd g' (n a' e' l d' h1)

theorem gdefined_snoc (h : List Ev) (p : Ev) (x : Nat) :
    GDefined (h ++ [p]) x ↔
      (∃ d, p = .def_ d ∧ d.name = x ∧ d.sc ≠ .static_ ∧ ((∃ d0, GFirst h x d0) ∨ Global h p x d)) ∨ GDefined h x := by
  have key := split_snoc (P := fun a e _ => ∃ d, e = .def_ d ∧ d.name = x ∧ d.sc ≠ .static_ ∧
    ((∃ d0, GFirst a x d0) ∨ Global a e x d)) h p
  have e1 : ∀ h, GDefined h x ↔ ∃ a e b, h = a ++ e :: b ∧ ∃ d, e = .def_ d ∧ d.name = x ∧ d.sc ≠ .static_ ∧
    ((∃ d0, GFirst a x d0) ∨ Global a e x d) := by
    intro h
    unfold GDefined
    constructor
    · rintro ⟨a, e, b, d, h1, h2⟩; exact ⟨a, e, b, h1, d, h2⟩
    · rintro ⟨a, e, b, h1, d, h2⟩; exact ⟨a, e, b, d, h1, h2⟩
  rw [e1, e1, key]

theorem gdefined_first (h : List Ev) (x : Nat) (h1 : GDefined h x) : ¬ NoGlobal h x := by
  obtain ⟨a, e, b, d, rfl, -, -, -, ⟨d0, a', e', b', rfl, h3, -⟩ | h2⟩ := h1
  · exact fun h => h a' e' (b' ++ e :: b) d0 (by simp) h3
  · exact fun h => h a e b d rfl h2

/-! ### The tables -/

/-- The table of the file has the static functions, the global table the others. -/
structure GInv (st : State) (h : List Ev) : Prop where
  none_ : ∀ x, st.file x = none ↔ ¬ Live h x
  static : ∀ x e, st.file x = some e → e.sc = .static_
  new : ∀ x, st.glob x = none ↔ NoGlobal h x
  old : ∀ x e, st.glob x = some e → ∃ d, GFirst h x d ∧ e.declared = d.loc ∧ e.sc = d.sc ∧
    (e.defined = true ↔ GDefined h x)

theorem ginv_start : GInv start [] where
  none_ := fun x => by simp [start, Live]
  static := fun x e h => by cases h
  new := fun x => by simp [start, NoGlobal]
  old := fun x e h => by cases h

def GBad (h : List Ev) (d : D) : Prop :=
  d.sc = .none_ ∧ GDefined h d.name ∧ ∃ d0, GFirst h d.name d0 ∧ d0.sc = .none_ ∧ d0.loc ≠ d.loc

theorem gfirst_sc {h : List Ev} {x : Nat} {d : D} (h1 : GFirst h x d) : d.sc ≠ .static_ ∧ d.name = x := by
  obtain ⟨a, e, b, -, h2, -⟩ := h1
  exact ⟨h2.2.1, h2.1⟩

open Classical in
theorem mergeReports_glob (st : State) (h : List Ev) (d : D) (hi : GInv st h) (e : Ent) (he : st.glob d.name = some e)
    (hd : d.sc ≠ .static_) : mergeReports e d = if GBad h d then [.redef d.name d.loc] else [] := by
  obtain ⟨d0, a1, a2, a3, a4⟩ := hi.old _ _ he
  have hs0 := (gfirst_sc a1).1
  have hbad : GBad h d ↔ d.sc = .none_ ∧ e.defined = true ∧ e.sc = .none_ ∧ e.declared ≠ d.loc := by
    constructor
    · rintro ⟨b1, b2, d1, b3, b4, b5⟩
      have := gfirst_unique a1 b3
      subst this
      exact ⟨b1, a4.2 b2, by rw [a3]; exact b4, by rw [a2]; exact b5⟩
    · rintro ⟨b1, b2, b3, b4⟩
      exact ⟨b1, a4.1 b2, d0, a1, by rw [← a3]; exact b3, by rw [← a2]; exact b4⟩
  simp only [hbad]
  unfold mergeReports
  rw [← a3] at hs0
  cases hes : e.sc with
  | static_ => exact absurd hes hs0
  | extern_ => simp
  | none_ =>
    cases hds : d.sc with
    | static_ => exact absurd hds hd
    | extern_ => simp
    | none_ => cases hdef : e.defined <;> by_cases hl : e.declared = d.loc <;> simp [hl]

theorem gbad_glob (st : State) (h : List Ev) (d : D) (hi : GInv st h) (he : st.glob d.name = none) : ¬ GBad h d := by
  rintro ⟨-, -, d0, h0, -⟩
  exact gfirst_not _ _ _ h0 ((hi.new _).1 he)

theorem mergeReports_static (e : Ent) (d : D) (he : e.sc = .static_) (hd : d.sc = .static_) : mergeReports e d = [] := by
  simp [mergeReports, he, hd]

/-! What the tables are after a declarator. -/

theorem sup_isStatic (top : Bool) (st : State) (h : List Ev) (d : D) (hi : GInv st h) (hd : d.sc = .static_) :
    (sup top st d).1 = [] ∧ (sup top st d).2.2 = true ∧ (sup top st d).2.1.glob = st.glob ∧
    (∀ x, (sup top st d).2.1.file x = none ↔ st.file x = none ∧ x ≠ d.name) ∧
    (∀ x e, (sup top st d).2.1.file x = some e → e.sc = .static_) := by
  unfold sup
  simp only [hd, bne_self_eq_false, Bool.and_false, Bool.false_eq_true, if_false, beq_self_eq_true, if_true,
    List.nil_append]
  cases hf : st.file d.name with
  | some e =>
    refine ⟨mergeReports_static e d (hi.static _ _ hf) hd, rfl, rfl, fun x => ?_, hi.static⟩
    constructor
    · intro hx
      refine ⟨hx, ?_⟩
      rintro rfl
      simp only [hf] at hx
      cases hx
    · exact fun h => h.1
  | none =>
    refine ⟨rfl, rfl, rfl, fun x => ?_, fun x e he => ?_⟩
    · simp only [set]
      by_cases hx : x = d.name <;> simp [hx]
    · simp only [set] at he
      by_cases hx : x = d.name
      · rw [if_pos hx] at he
        cases he
        exact hd
      · rw [if_neg hx] at he
        exact hi.static x e he

/-- The global table after a declarator of a function that other files see. -/
def after (st : State) (d : D) : Nat → Option Ent :=
  match st.glob d.name with
  | some _ => st.glob
  | none => set st.glob d.name (some (fresh d))

open Classical in
theorem sup_proto (st : State) (h : List Ev) (d : D) (hi : GInv st h) (hd : d.sc ≠ .static_) :
    (sup true st d).1 = (if Live h d.name then [.shadow d.name d.loc] else []) ++
      (if GBad h d then [.redef d.name d.loc] else []) ∧
    (sup true st d).2.1.glob = after st d ∧
    ∀ x, (sup true st d).2.1.file x = if x = d.name then none else st.file x := by
  have hd1 : (d.sc == .static_) = false := by simpa using hd
  have hd2 : (d.sc != .static_) = true := by simpa using hd
  unfold sup after
  simp only [hd1, hd2, Bool.and_true, if_true, Bool.false_eq_true, if_false]
  cases hf : st.file d.name with
  | some e0 =>
    have hl : Live h d.name := by
      by_contra hl
      rw [(hi.none_ _).2 hl] at hf
      cases hf
    simp only [if_pos hl]
    cases hg : st.glob d.name with
    | some e =>
      dsimp only
      exact ⟨by rw [mergeReports_glob st h d hi e hg hd], rfl, fun x => rfl⟩
    | none =>
      have hn := gbad_glob st h d hi hg
      simp only [set, if_true, ite_self, if_neg hn, List.append_nil]
      exact ⟨trivial, trivial, fun x => trivial⟩
  | none =>
    have hl : ¬ Live h d.name := (hi.none_ _).1 hf
    have hfx : ∀ x, st.file x = if x = d.name then none else st.file x := by
      intro x
      by_cases hx : x = d.name <;> simp [hx, hf]
    simp only [if_neg hl, List.nil_append, hf, ite_self]
    cases hg : st.glob d.name with
    | some e => exact ⟨mergeReports_glob st h d hi e hg hd, rfl, hfx⟩
    | none =>
      have hn := gbad_glob st h d hi hg
      simp only [if_neg hn]
      exact ⟨trivial, trivial, hfx⟩

open Classical in
theorem sup_def (st : State) (h : List Ev) (d : D) (hi : GInv st h) (hd : d.sc ≠ .static_) :
    (sup false st d).1 = (if GBad h d then [.redef d.name d.loc] else []) ∧
    (sup false st d).2.1.file = st.file ∧
    (((¬ NoGlobal h d.name ∨ d.sc = .extern_ ∨ ¬ Live h d.name) ∧ (sup false st d).2.2 = false ∧
        (sup false st d).2.1.glob = after st d) ∨
      (NoGlobal h d.name ∧ d.sc ≠ .extern_ ∧ Live h d.name ∧ (sup false st d).2.2 = true ∧
        (sup false st d).2.1.glob = st.glob)) := by
  have hd1 : (d.sc == .static_) = false := by simpa using hd
  unfold sup after
  simp only [hd1, Bool.false_and, Bool.false_eq_true, if_false, List.nil_append]
  cases hg : st.glob d.name with
  | some e =>
    refine ⟨mergeReports_glob st h d hi e hg hd, rfl, Or.inl ⟨Or.inl ?_, rfl, rfl⟩⟩
    intro hn
    rw [(hi.new _).2 hn] at hg
    cases hg
  | none =>
    have hn := gbad_glob st h d hi hg
    simp only [if_neg hn]
    by_cases hx : d.sc = .extern_
    · simp only [hx, beq_self_eq_true, if_true]
      exact ⟨trivial, trivial, Or.inl ⟨Or.inr (Or.inl trivial), trivial, trivial⟩⟩
    · have hx1 : (d.sc == .extern_) = false := by simpa using hx
      simp only [hx1, Bool.false_eq_true, if_false]
      cases hf : st.file d.name with
      | none =>
        exact ⟨rfl, rfl, Or.inl ⟨Or.inr (Or.inr ((hi.none_ _).1 hf)), rfl, rfl⟩⟩
      | some e0 =>
        refine ⟨?_, rfl, Or.inr ⟨(hi.new _).1 hg, hx, ?_, rfl, rfl⟩⟩
        · exact mergeReports_static e0 { d with sc := .static_ } (hi.static _ _ hf) rfl
        · by_contra hl
          rw [(hi.none_ _).2 hl] at hf
          cases hf

/-! ### Invariance -/

theorem not_global_static (h : List Ev) (e : Ev) (d : D) (he : e = .proto d ∨ e = .def_ d) (hd : d.sc = .static_)
    (x : Nat) (d' : D) : ¬ Global h e x d' := by
  rintro ⟨-, h2, h3⟩
  rcases he with rfl | rfl <;> rcases h3 with h3 | ⟨h3, -⟩
  · cases h3; exact h2 hd
  · cases h3
  · cases h3
  · cases h3; exact h2 hd

/-- An event that is not about a global function leaves the global table. -/
theorem old_same {glob : Nat → Option Ent} {h : List Ev} {e : Ev} (hn : ∀ x d, ¬ Global h e x d)
    (hdef : ∀ x, GDefined (h ++ [e]) x ↔ GDefined h x)
    (new : ∀ x, glob x = none ↔ NoGlobal h x)
    (old : ∀ x e, glob x = some e → ∃ d, GFirst h x d ∧ e.declared = d.loc ∧ e.sc = d.sc ∧
      (e.defined = true ↔ GDefined h x)) :
    (∀ x, glob x = none ↔ NoGlobal (h ++ [e]) x) ∧
    ∀ x e', glob x = some e' → ∃ d, GFirst (h ++ [e]) x d ∧ e'.declared = d.loc ∧ e'.sc = d.sc ∧
      (e'.defined = true ↔ GDefined (h ++ [e]) x) := by
  refine ⟨fun x => ?_, fun x e' he => ?_⟩
  · rw [noGlobal_snoc, new]
    exact ⟨fun h => ⟨h, hn x⟩, fun h => h.1⟩
  · obtain ⟨d, a1, a2, a3, a4⟩ := old x e' he
    exact ⟨d, (gfirst_snoc _ _ _ _).2 (Or.inr a1), a2, a3, by rw [hdef]; exact a4⟩

theorem gdefined_proto (h : List Ev) (d : D) (x : Nat) : GDefined (h ++ [.proto d]) x ↔ GDefined h x := by
  rw [gdefined_snoc]
  constructor
  · rintro (⟨d', h1, -⟩ | h)
    · cases h1
    · exact h
  · exact Or.inr

theorem gdefined_file (h : List Ev) (x : Nat) : GDefined (h ++ [.file]) x ↔ GDefined h x := by
  rw [gdefined_snoc]
  constructor
  · rintro (⟨d', h1, -⟩ | h)
    · cases h1
    · exact h
  · exact Or.inr

theorem gdefined_static (h : List Ev) (d : D) (hd : d.sc = .static_) (x : Nat) :
    GDefined (h ++ [.def_ d]) x ↔ GDefined h x := by
  rw [gdefined_snoc]
  constructor
  · rintro (⟨d', h1, -, h2, -⟩ | h)
    · cases h1; exact absurd hd h2
    · exact h
  · exact Or.inr

/-- The new table, for a declarator of a function that other files see. -/
theorem after_inv (st : State) (h : List Ev) (d : D) (e : Ev) (hi : GInv st h) (hd : d.sc ≠ .static_)
    (hg : ∀ x d', Global h e x d' ↔ d' = d ∧ x = d.name) :
    (∀ x, after st d x = none ↔ NoGlobal (h ++ [e]) x) ∧
    ∀ x e', after st d x = some e' → ∃ d', GFirst (h ++ [e]) x d' ∧ e'.declared = d'.loc ∧ e'.sc = d'.sc ∧
      (e'.defined = true ↔ GDefined h x) := by
  have hnew : ∀ x, NoGlobal (h ++ [e]) x ↔ NoGlobal h x ∧ x ≠ d.name := by
    intro x
    rw [noGlobal_snoc]
    refine and_congr Iff.rfl ?_
    constructor
    · intro h1 h2; exact h1 d ((hg x d).2 ⟨rfl, h2⟩)
    · intro h1 d' h2; exact h1 ((hg x d').1 h2).2
  unfold after
  cases hgl : st.glob d.name with
  | some e0 =>
    refine ⟨fun x => ?_, fun x e' he => ?_⟩
    · rw [hnew, ← hi.new]
      constructor
      · intro hx
        refine ⟨hx, ?_⟩
        rintro rfl
        dsimp only at hx
        rw [hgl] at hx
        cases hx
      · exact fun h => h.1
    · obtain ⟨d', a1, a2, a3, a4⟩ := hi.old x e' he
      exact ⟨d', (gfirst_snoc _ _ _ _).2 (Or.inr a1), a2, a3, a4⟩
  | none =>
    have hno := (hi.new _).1 hgl
    refine ⟨fun x => ?_, fun x e' he => ?_⟩
    · rw [hnew, ← hi.new]
      simp only [set]
      by_cases hx : x = d.name <;> simp [hx]
    · simp only [set] at he
      by_cases hx : x = d.name
      · rw [if_pos hx] at he
        cases he
        subst hx
        refine ⟨d, (gfirst_snoc _ _ _ _).2 (Or.inl ⟨(hg _ _).2 ⟨rfl, rfl⟩, hno⟩), rfl, rfl, ?_⟩
        simp only [fresh, Bool.false_eq_true, false_iff]
        exact fun h => gdefined_first _ _ h hno
      · rw [if_neg hx] at he
        obtain ⟨d', a1, a2, a3, a4⟩ := hi.old x e' he
        exact ⟨d', (gfirst_snoc _ _ _ _).2 (Or.inr a1), a2, a3, a4⟩

theorem live_static (h : List Ev) (e : Ev) (d : D) (he : e = .proto d ∨ e = .def_ d) (hd : d.sc = .static_) (x : Nat) :
    Live (h ++ [e]) x ↔ Live h x ∨ x = d.name := by
  rw [live_snoc]
  have h1 : MakesStatic e x ↔ x = d.name := by
    constructor
    · rintro ⟨d', h1, h2, -⟩
      rcases he with rfl | rfl <;> rcases h1 with h1 | h1 <;> cases h1 <;> exact h2.symm
    · intro hx
      exact ⟨d, he, hx.symm, hd⟩
  have h2 : ¬ Ends e x := by
    rintro (h | ⟨d', h, -, h2⟩)
    · rcases he with rfl | rfl <;> cases h
    · rcases he with rfl | rfl
      · cases h; exact h2 hd
      · cases h
  rw [h1]
  constructor
  · rintro (h | h)
    · exact Or.inr h
    · exact Or.inl h.1
  · rintro (h | h)
    · exact Or.inr ⟨h, h2⟩
    · exact Or.inl h

/-- A declarator of a declaration. -/
theorem proto_inv (st : State) (h : List Ev) (d : D) (hi : GInv st h) :
    GInv (sup true st d).2.1 (h ++ [.proto d]) := by
  by_cases hd : d.sc = .static_
  · obtain ⟨-, -, s3, s4, s5⟩ := sup_isStatic true st h d hi hd
    obtain ⟨t1, t2⟩ := old_same (e := .proto d) (not_global_static h _ d (Or.inl rfl) hd) (gdefined_proto h d) hi.new hi.old
    refine ⟨fun x => ?_, s5, by rw [s3]; exact t1, by rw [s3]; exact t2⟩
    rw [s4, live_static h _ d (Or.inl rfl) hd, hi.none_]
    push Not
    exact Iff.rfl
  · obtain ⟨-, s2, s3⟩ := sup_proto st h d hi hd
    have hg : ∀ x d', Global h (.proto d) x d' ↔ d' = d ∧ x = d.name := by
      intro x d'
      unfold Global
      constructor
      · rintro ⟨h1, -, h3 | ⟨h3, -⟩⟩
        · cases h3; exact ⟨rfl, h1.symm⟩
        · cases h3
      · rintro ⟨rfl, rfl⟩; exact ⟨rfl, hd, Or.inl rfl⟩
    obtain ⟨t1, t2⟩ := after_inv st h d (.proto d) hi hd hg
    refine ⟨fun x => ?_, fun x e he => ?_, by rw [s2]; exact t1, ?_⟩
    · rw [s3, live_snoc]
      have h1 : ¬ MakesStatic (.proto d) x := by
        rintro ⟨d', h1 | h1, -, h2⟩
        · cases h1; exact hd h2
        · cases h1
      by_cases hx : x = d.name
      · have h2 : Ends (.proto d) x := Or.inr ⟨d, rfl, hx.symm, hd⟩
        simp [hx] at h1 h2 ⊢
        exact ⟨h1, fun _ => h2⟩
      · have h2 : ¬ Ends (.proto d) x := by
          rintro (h | ⟨d', h, h3, -⟩)
          · cases h
          · cases h; exact hx h3.symm
        rw [if_neg hx, hi.none_]
        simp [h1, h2]
    · rw [s3] at he
      by_cases hx : x = d.name
      · rw [if_pos hx] at he; cases he
      · rw [if_neg hx] at he; exact hi.static x e he
    · rw [s2]
      intro x e he
      obtain ⟨d', a1, a2, a3, a4⟩ := t2 x e he
      exact ⟨d', a1, a2, a3, by rw [gdefined_proto]; exact a4⟩

theorem setDefined_file (st : State) (x : Nat) : (setDefined st x false).file = st.file := rfl
theorem setDefined_glob (st : State) (x : Nat) : (setDefined st x true).glob = st.glob := rfl

theorem setDefined_true (st : State) (x y : Nat) :
    ((setDefined st x true).file y = none ↔ st.file y = none) ∧
    ∀ e, (setDefined st x true).file y = some e → ∃ e0, st.file y = some e0 ∧ e.sc = e0.sc := by
  simp only [setDefined, if_true, set]
  by_cases hx : y = x
  · subst hx
    cases st.file y with
    | none => simp
    | some e0 => simp
  · simp only [if_neg hx, true_and]
    exact fun e he => ⟨e, he, rfl⟩

/-- A definition. -/
theorem def_inv (st : State) (h : List Ev) (d : D) (hi : GInv st h) :
    GInv (setDefined (sup false st d).2.1 d.name (sup false st d).2.2) (h ++ [.def_ d]) := by
  by_cases hd : d.sc = .static_
  · obtain ⟨-, s2, s3, s4, s5⟩ := sup_isStatic false st h d hi hd
    obtain ⟨t1, t2⟩ := old_same (e := .def_ d) (not_global_static h _ d (Or.inr rfl) hd) (gdefined_static h d hd) hi.new hi.old
    rw [s2]
    refine ⟨fun x => ?_, fun x e he => ?_, by rw [setDefined_glob, s3]; exact t1, by rw [setDefined_glob, s3]; exact t2⟩
    · rw [(setDefined_true _ _ _).1, s4, live_static h _ d (Or.inr rfl) hd, hi.none_]
      push Not
      exact Iff.rfl
    · obtain ⟨e0, h0, h1⟩ := (setDefined_true _ _ _).2 e he
      rw [h1]
      exact s5 x e0 h0
  · obtain ⟨-, s2, s3⟩ := sup_def st h d hi hd
    have hlive : ∀ x, Live (h ++ [.def_ d]) x ↔ Live h x := by
      intro x
      rw [live_snoc]
      have h1 : ¬ MakesStatic (.def_ d) x := by
        rintro ⟨d', h1 | h1, -, h2⟩
        · cases h1
        · cases h1; exact hd h2
      have h2 : ¬ Ends (.def_ d) x := by
        rintro (h | ⟨d', h, -⟩) <;> cases h
      simp [h1, h2]
    rcases s3 with ⟨hw, s3, s4⟩ | ⟨hno, hx, hl, s3, s4⟩
    · have key : (∀ x, after st d x = none ↔ NoGlobal (h ++ [.def_ d]) x) ∧
          ∀ x e', after st d x = some e' → ∃ d', GFirst (h ++ [.def_ d]) x d' ∧ e'.declared = d'.loc ∧ e'.sc = d'.sc ∧
            (e'.defined = true ↔ GDefined h x) := by
        by_cases hgg : d.sc = .extern_ ∨ ¬ Live h d.name
        · refine after_inv st h d (.def_ d) hi hd ?_
          intro x d'
          unfold Global
          constructor
          · rintro ⟨h1, -, h3 | ⟨h3, -⟩⟩
            · cases h3
            · cases h3; exact ⟨rfl, h1.symm⟩
          · rintro ⟨rfl, rfl⟩; exact ⟨rfl, hd, Or.inr ⟨rfl, hgg⟩⟩
        · have hng : ¬ NoGlobal h d.name := by
            rcases hw with h | h
            · exact h
            · exact absurd h hgg
          obtain ⟨e0, he0⟩ : ∃ e0, st.glob d.name = some e0 := by
            cases hg : st.glob d.name with
            | some e0 => exact ⟨e0, rfl⟩
            | none => exact absurd ((hi.new _).1 hg) hng
          have haft : after st d = st.glob := by unfold after; rw [he0]
          rw [haft]
          have hn : ∀ x d', ¬ Global h (.def_ d) x d' := by
            rintro x d' ⟨h1, -, h3 | ⟨h3, h4⟩⟩
            · cases h3
            · cases h3
              rw [← h1] at h4
              exact hgg h4
          refine ⟨fun x => ?_, fun x e' he => ?_⟩
          · rw [noGlobal_snoc, hi.new]
            exact ⟨fun h => ⟨h, hn x⟩, fun h => h.1⟩
          · obtain ⟨d', a1, a2, a3, a4⟩ := hi.old x e' he
            exact ⟨d', (gfirst_snoc _ _ _ _).2 (Or.inr a1), a2, a3, a4⟩
      obtain ⟨t1, t2⟩ := key
      rw [s3]
      have hdefd : ∀ x, GDefined (h ++ [.def_ d]) x ↔ GDefined h x ∨ x = d.name := by
        intro x
        rw [gdefined_snoc]
        constructor
        · rintro (⟨d', h1, h2, -⟩ | h1)
          · cases h1; exact Or.inr h2.symm
          · exact Or.inl h1
        · rintro (h1 | rfl)
          · exact Or.inr h1
          · refine Or.inl ⟨d, rfl, rfl, hd, ?_⟩
            rcases hw with h1 | h1
            · left
              cases hg : st.glob d.name with
              | none => exact absurd ((hi.new _).1 hg) h1
              | some e0 => exact ⟨_, (hi.old _ _ hg).choose_spec.1⟩
            · exact Or.inr ⟨rfl, hd, Or.inr ⟨rfl, h1⟩⟩
      have hglob : ∀ x, (setDefined (sup false st d).2.1 d.name false).glob x =
          if x = d.name then (after st d x).map (fun e => { e with defined := true }) else after st d x := by
        intro x
        simp only [setDefined, Bool.false_eq_true, if_false, set, s4]
        by_cases hx : x = d.name
        · rw [hx]
        · simp [hx]
      refine ⟨fun x => ?_, fun x e he => ?_, fun x => ?_, fun x e he => ?_⟩
      · rw [setDefined_file, s2, hlive]; exact hi.none_ x
      · rw [setDefined_file, s2] at he; exact hi.static x e he
      · rw [hglob, ← t1]
        by_cases hx : x = d.name <;> simp [hx]
      · rw [hglob] at he
        by_cases hx : x = d.name
        · rw [if_pos hx, Option.map_eq_some_iff] at he
          obtain ⟨e0, h0, rfl⟩ := he
          obtain ⟨d', a1, a2, a3, -⟩ := t2 x e0 h0
          refine ⟨d', a1, a2, a3, ?_⟩
          rw [hdefd]
          simp [hx]
        · rw [if_neg hx] at he
          obtain ⟨d', a1, a2, a3, a4⟩ := t2 x e he
          refine ⟨d', a1, a2, a3, ?_⟩
          rw [hdefd, a4]
          simp [hx]
    · rw [s3]
      have hn : ∀ x d', ¬ Global h (.def_ d) x d' := by
        rintro x d' ⟨h1, -, h3 | ⟨h3, h4⟩⟩
        · cases h3
        · cases h3
          rw [← h1] at h4
          exact h4.elim hx (fun h => h hl)
      have hdef : ∀ x, GDefined (h ++ [.def_ d]) x ↔ GDefined h x := by
        intro x
        rw [gdefined_snoc]
        constructor
        · rintro (⟨d', h1, rfl, -, ⟨d0, h3⟩ | h3⟩ | h1)
          · cases h1; exact absurd hno (gfirst_not _ _ _ h3)
          · exact absurd h3 (hn _ _)
          · exact h1
        · exact Or.inr
      obtain ⟨t1, t2⟩ := old_same (e := .def_ d) hn hdef hi.new hi.old
      refine ⟨fun x => ?_, fun x e he => ?_, by rw [setDefined_glob, s4]; exact t1, by rw [setDefined_glob, s4]; exact t2⟩
      · rw [(setDefined_true _ _ _).1, s2, hlive]; exact hi.none_ x
      · obtain ⟨e0, h0, h1⟩ := (setDefined_true _ _ _).2 e he
        rw [h1]
        rw [s2] at h0
        exact hi.static x e0 h0

theorem file_inv (st : State) (h : List Ev) (hi : GInv st h) :
    GInv { st with file := fun _ => none } (h ++ [.file]) := by
  have hn : ∀ x d, ¬ Global h .file x d := by
    rintro x d ⟨-, -, h3 | ⟨h3, -⟩⟩ <;> cases h3
  obtain ⟨t1, t2⟩ := old_same (e := .file) hn (gdefined_file h) hi.new hi.old
  refine ⟨fun x => ?_, fun x e he => (by cases he), t1, t2⟩
  rw [live_snoc]
  simp only [true_iff]
  rintro (⟨d, h1 | h1, -⟩ | ⟨-, h1⟩)
  · cases h1
  · cases h1
  · exact h1 (Or.inl rfl)

theorem ginv_pos {st : State} {h : List Ev} (p : Option (Nat × Bool × Nat)) (hi : GInv st h) :
    GInv { st with pos := p } h := ⟨hi.none_, hi.static, hi.new, hi.old⟩

/-! ### The messages -/

def SaysE (h : List Ev) : Ev → Report → Prop
  | .proto d, r => (r = .shadow d.name d.loc ∧ d.sc ≠ .static_ ∧ Live h d.name) ∨ (r = .redef d.name d.loc ∧ GBad h d)
  | .def_ d, r => r = .redef d.name d.loc ∧ GBad h d
  | .file, _ => False

theorem gbad_static (h : List Ev) (d : D) (hd : d.sc = .static_) : ¬ GBad h d := by
  rintro ⟨h1, -⟩
  rw [hd] at h1
  cases h1

theorem proto_says (st : State) (h : List Ev) (d : D) (hi : GInv st h) (r : Report) :
    r ∈ (sup true st d).1 ↔ SaysE h (.proto d) r := by
  unfold SaysE
  by_cases hd : d.sc = .static_
  · rw [(sup_isStatic true st h d hi hd).1]
    simp [hd, gbad_static h d hd]
  · rw [(sup_proto st h d hi hd).1, List.mem_append]
    by_cases h1 : Live h d.name <;> by_cases h2 : GBad h d <;> simp [h1, h2, hd]

theorem def_says (st : State) (h : List Ev) (d : D) (hi : GInv st h) (r : Report) :
    r ∈ (sup false st d).1 ↔ SaysE h (.def_ d) r := by
  unfold SaysE
  by_cases hd : d.sc = .static_
  · rw [(sup_isStatic false st h d hi hd).1]
    simp [gbad_static h d hd]
  · rw [(sup_def st h d hi hd).1]
    by_cases h2 : GBad h d <;> simp [h2]

theorem split_cons {P : List Ev → Ev → Prop} (p : Ev) (l : List Ev) :
    (∃ a e b, p :: l = a ++ e :: b ∧ P a e) ↔ P [] p ∨ ∃ a e b, l = a ++ e :: b ∧ P (p :: a) e := by
  constructor
  · rintro ⟨a, e, b, h1, h2⟩
    cases a with
    | nil =>
      simp only [List.nil_append, List.cons.injEq] at h1
      obtain ⟨rfl, -⟩ := h1
      exact Or.inl h2
    | cons c a =>
      simp only [List.cons_append, List.cons.injEq] at h1
      obtain ⟨rfl, h1⟩ := h1
      exact Or.inr ⟨a, e, b, h1, h2⟩
  · rintro (h | ⟨a, e, b, rfl, h⟩)
    · exact ⟨[], p, l, rfl, h⟩
    · exact ⟨p :: a, e, b, rfl, h⟩

theorem split_append {P : List Ev → Ev → Prop} (k l : List Ev) :
    (∃ a e b, k ++ l = a ++ e :: b ∧ P a e) ↔
      (∃ a e b, k = a ++ e :: b ∧ P a e) ∨ ∃ a e b, l = a ++ e :: b ∧ P (k ++ a) e := by
  induction k generalizing P with
  | nil => simp
  | cons p k ih =>
    rw [List.cons_append, split_cons, ih, split_cons, or_assoc]
    rfl

theorem sups_says : ∀ (ds : List D) (st : State) (h : List Ev), GInv st h →
    GInv (sups st ds).2 (h ++ ds.map .proto) ∧
    ∀ r, r ∈ (sups st ds).1 ↔ ∃ a e b, ds.map Ev.proto = a ++ e :: b ∧ SaysE (h ++ a) e r
  | [], st, h, hi => ⟨by simpa [sups] using hi, by simp [sups]⟩
  | d :: ds, st, h, hi => by
    obtain ⟨t1, t2⟩ := sups_says ds _ _ (proto_inv st h d hi)
    refine ⟨by simpa [sups] using t1, fun r => ?_⟩
    simp only [sups, List.mem_append, proto_says st h d hi, t2, List.map_cons]
    rw [split_cons (P := fun a e => SaysE (h ++ a) e r)]
    simp

theorem step_says (xh : Nat → Bool) (st : State) (h : List Ev) (i : Item) (hi : GInv st h) :
    GInv (step xh st i).2 (h ++ evs i) ∧
    ∀ r, isRedecl r = false → (r ∈ (step xh st i).1 ↔ ∃ a e b, evs i = a ++ e :: b ∧ SaysE (h ++ a) e r) := by
  cases i with
  | decls ds =>
    obtain ⟨t1, t2⟩ := sups_says ds st h hi
    have hc : GInv (checkDecl xh (sups st ds).2).2 (h ++ ds.map .proto) ∧
        ∀ r, isRedecl r = false → r ∉ (checkDecl xh (sups st ds).2).1 := by
      unfold checkDecl
      split
      · exact ⟨t1, by simp⟩
      · refine ⟨ginv_pos none t1, fun r hr hm => ?_⟩
        dsimp only at hm
        split at hm
        · cases hm
        · rw [List.mem_singleton] at hm
          rw [hm] at hr
          cases hr
    refine ⟨hc.1, fun r hr => ?_⟩
    simp only [step, List.mem_append, t2, evs]
    exact ⟨fun h => h.elim id (fun h => absurd h (hc.2 r hr)), Or.inl⟩
  | defn d =>
    refine ⟨ginv_pos none (def_inv st h d hi), fun r _ => ?_⟩
    simp only [step, evs, def_says st h d hi]
    rw [split_cons (P := fun a e => SaysE (h ++ a) e r)]
    simp
  | other => exact ⟨by simpa [evs, step] using ginv_pos none hi, fun r _ => by simp [step, evs]⟩
  | newFile =>
    refine ⟨file_inv st h hi, fun r _ => ?_⟩
    simp only [step, evs]
    rw [split_cons (P := fun a e => SaysE (h ++ a) e r)]
    simp [SaysE]

theorem run_says (xh : Nat → Bool) : ∀ (is : List Item) (st : State) (h : List Ev), GInv st h →
    ∀ r, isRedecl r = false →
      (r ∈ (run xh st is).1 ↔ ∃ a e b, events is = a ++ e :: b ∧ SaysE (h ++ a) e r)
  | [], _, _, _ => fun r _ => by simp [run, events]
  | i :: is, st, h, hi => fun r hr => by
    obtain ⟨s1, s2⟩ := step_says xh st h i hi
    have hf : events (i :: is) = evs i ++ events is := by simp [events]
    rw [hf, split_append (P := fun a e => SaysE (h ++ a) e r)]
    simp only [run, List.mem_append, s2 r hr, run_says xh is _ _ s1 r hr, List.append_assoc]

/-- **C130**, with any storage classes: "defined more than once" is said of exactly those declarators without a
storage class, at another place than the first declaration of the function that other files see, which had no storage
class either, when that function is defined before. -/
theorem C130_redef_all (xh : Nat → Bool) (is : List Item) (x l : Nat) :
    Report.redef x l ∈ reports xh is ↔
      ∃ a e b d d0, events is = a ++ e :: b ∧ (e = .proto d ∨ e = .def_ d) ∧ d.name = x ∧ d.loc = l ∧ d.sc = .none_ ∧
        GFirst a x d0 ∧ d0.sc = .none_ ∧ d0.loc ≠ l ∧ GDefined a x := by
  unfold reports
  rw [run_says xh is start [] ginv_start _ rfl]
  constructor
  · rintro ⟨a, e, b, h1, h2⟩
    rw [List.nil_append] at h2
    cases e with
    | proto d =>
      rcases h2 with ⟨h2, -⟩ | ⟨h2, b1, b2, d0, b3, b4, b5⟩
      · cases h2
      · cases h2
        exact ⟨a, _, b, d, d0, h1, Or.inl rfl, rfl, rfl, b1, b3, b4, b5, b2⟩
    | def_ d =>
      obtain ⟨h2, b1, b2, d0, b3, b4, b5⟩ := h2
      cases h2
      exact ⟨a, _, b, d, d0, h1, Or.inr rfl, rfl, rfl, b1, b3, b4, b5, b2⟩
    | file => exact h2.elim
  · rintro ⟨a, e, b, d, d0, h1, he, rfl, rfl, b1, b3, b4, b5, b2⟩
    refine ⟨a, e, b, h1, ?_⟩
    rw [List.nil_append]
    have hb : GBad a d := ⟨b1, b2, d0, b3, b4, b5⟩
    rcases he with rfl | rfl
    · exact Or.inr ⟨rfl, hb⟩
    · exact ⟨rfl, hb⟩

/-- **C130**: "shadows static declaration" is said of exactly the declarations without static of a function that was
declared static before in the same file, unless it has been declared without static since then; never of
definitions. -/
theorem C130_shadow_exactly (xh : Nat → Bool) (is : List Item) (x l : Nat) :
    Report.shadow x l ∈ reports xh is ↔
      ∃ a d b, events is = a ++ .proto d :: b ∧ d.name = x ∧ d.loc = l ∧ d.sc ≠ .static_ ∧ Live a x := by
  unfold reports
  rw [run_says xh is start [] ginv_start _ rfl]
  constructor
  · rintro ⟨a, e, b, h1, h2⟩
    rw [List.nil_append] at h2
    cases e with
    | proto d =>
      rcases h2 with ⟨h2, b1, b2⟩ | ⟨h2, -⟩
      · cases h2
        exact ⟨a, d, b, h1, rfl, rfl, b1, b2⟩
      · cases h2
    | def_ d => cases h2.1
    | file => exact h2.elim
  · rintro ⟨a, d, b, h1, rfl, rfl, b1, b2⟩
    exact ⟨a, _, b, h1, Or.inl ⟨rfl, b1, b2⟩⟩

/-! ### Examples -/

/-- a static function that is declared without static and then defined twice: the declaration hides it -/
example : reports noXh [.decls [⟨0, .static_, 1⟩], .decls [⟨0, .none_, 2⟩], .defn ⟨0, .none_, 3⟩, .defn ⟨0, .none_, 4⟩] =
    [.shadow 0 2, .redef 0 4] := by decide

/-- a static declaration and two definitions without static: nothing is reported -/
example : reports noXh [.decls [⟨0, .static_, 1⟩], .defn ⟨0, .none_, 3⟩, .defn ⟨0, .none_, 4⟩] = [] := by decide

/-- the same in two files: the second one is another function -/
example : reports noXh [.decls [⟨0, .static_, 1⟩], .defn ⟨0, .none_, 3⟩, .newFile, .defn ⟨0, .none_, 4⟩,
    .defn ⟨0, .none_, 5⟩] = [.redef 0 5] := by decide

/-- an extern definition goes to the global table in any case -/
example : reports noXh [.decls [⟨0, .static_, 1⟩], .defn ⟨0, .extern_, 3⟩, .defn ⟨0, .none_, 4⟩] = [] ∧
    reports noXh [.decls [⟨0, .static_, 1⟩], .defn ⟨0, .extern_, 3⟩, .newFile, .decls [⟨0, .none_, 4⟩]] =
      [.redecl 0 4 true] := by decide

end Redeclared
end Splint
