import Verif.Tactics
import Verif.Spec.NationalName
/-!
# C128: national naming conventions
-/
namespace Splint
namespace National
open NameCheck

/-! ### Prefixes -/

theorem takeWhile_split (p : UInt8 → Bool) : ∀ (name : Bytes), name.any p = true →
    ∃ u rest, name = name.takeWhile (fun c => !p c) ++ u :: rest ∧ p u = true ∧
      ∀ c ∈ name.takeWhile (fun c => !p c), p c = false
  | [], h => by cases h
  | a :: l, h => by
    by_cases ha : p a = true
    · refine ⟨a, l, ?_, ha, ?_⟩ <;> simp [List.takeWhile_cons, ha]
    · have ha' : p a = false := by simpa using ha
      have hl : l.any p = true := by simpa [ha'] using h
      obtain ⟨u, rest, h1, h2, h3⟩ := takeWhile_split p l hl
      refine ⟨u, rest, ?_, h2, ?_⟩
      · simp only [List.takeWhile_cons, ha', Bool.not_false, if_true, List.cons_append]
        rw [← h1]
      · intro c hc
        simp only [List.takeWhile_cons, ha', Bool.not_false, if_true] at hc
        rcases List.mem_cons.1 hc with rfl | hc
        · exact ha'
        · exact h3 c hc

theorem takeWhile_pre (p : UInt8 → Bool) : ∀ (pfx : Bytes) (u : UInt8) (rest : Bytes), p u = true →
    (∀ c ∈ pfx, p c = false) → (pfx ++ u :: rest).takeWhile (fun c => !p c) = pfx
  | [], u, rest, hu, _ => by simp [List.takeWhile_cons, hu]
  | a :: l, u, rest, hu, h => by
    have ha := h a (by simp)
    have := takeWhile_pre p l u rest hu (fun c hc => h c (by simp [hc]))
    simp only [List.cons_append, List.takeWhile_cons, ha, Bool.not_false, if_true, this]

/-- The prefix is what is in front of the first character with the property, if that is not empty. -/
theorem before_iff (p : UInt8 → Bool) (name pfx : Bytes) (hn : pfx ≠ []) :
    before p name = pfx ↔ ∃ u rest, name = pfx ++ u :: rest ∧ p u = true ∧ ∀ c ∈ pfx, p c = false := by
  unfold before
  constructor
  · intro h
    by_cases ha : name.any p = true
    · rw [if_pos ha] at h
      obtain ⟨u, rest, h1, h2, h3⟩ := takeWhile_split p name ha
      rw [h] at h1 h3
      exact ⟨u, rest, h1, h2, h3⟩
    · rw [if_neg ha] at h; exact absurd h.symm hn
  · rintro ⟨u, rest, rfl, hu, h⟩
    rw [if_pos (by simp [hu]), takeWhile_pre p pfx u rest hu h]

theorem split_czech (name pfx : Bytes) (hn : pfx ≠ []) : czechPrefix name = pfx ↔ Split .czech name pfx := by
  unfold czechPrefix
  rw [before_iff _ _ _ hn]
  show _ ↔ CzechSplit name pfx
  unfold CzechSplit
  constructor
  · rintro ⟨u, rest, h1, h2, h3⟩
    have : u = underscore := by simpa using h2
    subst this
    exact ⟨rest, h1, fun h => by have := h3 _ h; simp at this⟩
  · rintro ⟨rest, h1, h2⟩
    refine ⟨underscore, rest, h1, by simp, fun c hc => ?_⟩
    by_contra h
    have : c = underscore := by simpa using h
    exact h2 (this ▸ hc)

theorem split_slovak (name pfx : Bytes) (hn : pfx ≠ []) : slovakPrefix name = pfx ↔ Split .slovak name pfx := by
  unfold slovakPrefix
  rw [before_iff _ _ _ hn]
  rfl

/-- A name has at most one prefix that is not empty. -/
theorem bare_of (c : Conv) (f : Bytes → Bytes) (hf : ∀ name pfx, pfx ≠ [] → (f name = pfx ↔ Split c name pfx))
    (name : Bytes) : f name = [] ↔ Bare c name := by
  constructor
  · intro h pfx hs
    by_contra hn
    have := (hf name pfx hn).2 hs
    rw [h] at this
    exact hn this.symm
  · intro h
    by_contra hn
    exact hn (h _ ((hf name _ hn).1 rfl))

theorem bare_czech (name : Bytes) : czechPrefix name = [] ↔ Bare .czech name := bare_of .czech _ split_czech name

theorem bare_slovak (name : Bytes) : slovakPrefix name = [] ↔ Bare .slovak name := bare_of .slovak _ split_slovak name

/-! ### One convention -/

theorem prefixed_ok (env : Env) (c : Conv) (d : Decl) (report : Bool) (pfx : Bytes) :
    (prefixed env c d report pfx).ok = true ↔ Usable env c pfx := by
  unfold prefixed Usable ByName
  cases ht : env.types pfx with
  | none =>
    simp only [reduceCtorEq, false_and, exists_false, false_or, true_and]
    by_cases h1 : builtin.contains pfx = true
    · rw [if_pos h1]
      have : pfx ∈ builtin := by simpa using h1
      exact ⟨fun _ => Or.inl this, fun _ => rfl⟩
    · rw [if_neg h1]
      have h1' : pfx ∉ builtin := by simpa using h1
      by_cases h2 : pfx = env.module_
      · simp [h2]
      · have : (pfx == env.module_) = false := by simpa using h2
        simp only [this, Bool.false_eq_true, if_false]
        constructor
        · intro h; cases h
        · rintro (h | h)
          · exact absurd h h1'
          · exact absurd h h2
  | some k =>
    simp only [Option.some.injEq, exists_eq_left', reduceCtorEq, false_and, or_false]
    cases k with
    | user => simp [Accessible]
    | other => simp [Accessible]
    | abstract t =>
      by_cases h1 : env.hasAccess t = true
      · simp [h1, Accessible]
      · by_cases h2 : env.accessOn c = true ∨ env.accessOn .czechoslovak = true
        · have : (env.accessOn c || env.accessOn .czechoslovak) = true := by simpa using h2
          simp [h1, this, h2, gives]
        · have : (env.accessOn c || env.accessOn .czechoslovak) = false := by
            rw [← Bool.not_eq_true, Bool.or_eq_true]; exact h2
          simp only [h1, this, Bool.false_eq_true, if_false, Accessible, fail, h2, or_self]
    | bool =>
      by_cases h1 : env.boolAccess = true
      · simp [h1, Accessible]
      · by_cases h2 : env.accessOn c = true ∨ env.accessOn .czechoslovak = true
        · have : (env.accessOn c || env.accessOn .czechoslovak) = true := by simpa using h2
          simp [h1, this, h2, gives]
        · have : (env.accessOn c || env.accessOn .czechoslovak) = false := by
            rw [← Bool.not_eq_true, Bool.or_eq_true]; exact h2
          simp only [h1, this, Bool.false_eq_true, if_false, Accessible, fail, h2, or_self]

theorem prefixed_access (env : Env) (c : Conv) (d : Decl) (report : Bool) (pfx : Bytes) (t : Nat) :
    t ∈ (prefixed env c d report pfx).access ↔
      Hidden env pfx t ∧ ByName env c ∧ d.kind ∉ [.variable_, .macro_] := by
  have hg : ∀ s, t ∈ (gives d s).access ↔ t = s ∧ d.kind ∉ [.variable_, .macro_] := by
    intro s
    unfold gives
    by_cases h : (d.kind == .variable_ || d.kind == .macro_) = true
    · simp only [h, if_true]
      simp only [Bool.or_eq_true, beq_iff_eq] at h
      simp [h]
    · simp only [h]
      simp only [Bool.or_eq_true, beq_iff_eq] at h
      simp [h]
  have hb : (env.accessOn c || env.accessOn .czechoslovak) = true ↔ ByName env c := by simp [ByName]
  unfold prefixed Hidden
  cases ht : env.types pfx with
  | none =>
    simp only [reduceCtorEq, false_and, or_self, iff_false]
    by_cases h1 : builtin.contains pfx = true
    · rw [if_pos h1]; simp
    · rw [if_neg h1]
      by_cases h2 : (pfx == env.module_) = true
      · rw [if_pos h2]; simp
      · rw [if_neg h2]; simp [fail]
  | some k =>
    cases k with
    | user => simp
    | other => simp
    | abstract s =>
      by_cases h1 : env.hasAccess s = true
      · simp only [h1, if_true]
        constructor
        · intro h; cases h
        · rintro ⟨⟨h, h'⟩ | ⟨h, -⟩, -⟩
          · cases h; rw [h1] at h'; cases h'
          · cases h
      · by_cases h2 : ByName env c
        · simp only [h1, hb.2 h2, if_true, Bool.false_eq_true, if_false, hg]
          constructor
          · rintro ⟨rfl, h⟩; exact ⟨Or.inl ⟨rfl, by simpa using h1⟩, h2, h⟩
          · rintro ⟨⟨h, -⟩ | ⟨h, -⟩, -, h'⟩
            · cases h; exact ⟨rfl, h'⟩
            · cases h
        · have : (env.accessOn c || env.accessOn .czechoslovak) = false := by rw [← Bool.not_eq_true, hb]; exact h2
          simp [h1, this, fail, h2]
    | bool =>
      by_cases h1 : env.boolAccess = true
      · simp only [h1, if_true]
        constructor
        · intro h; cases h
        · rintro ⟨⟨h, -⟩ | ⟨-, h', -⟩, -⟩
          · cases h
          · cases h'
      · by_cases h2 : ByName env c
        · simp only [h1, hb.2 h2, if_true, Bool.false_eq_true, if_false, hg]
          constructor
          · rintro ⟨rfl, h⟩; exact ⟨Or.inr ⟨trivial, trivial, rfl⟩, h2, h⟩
          · rintro ⟨⟨h, -⟩ | ⟨-, -, h⟩, -, h'⟩
            · cases h
            · exact ⟨h, h'⟩
        · have : (env.accessOn c || env.accessOn .czechoslovak) = false := by rw [← Bool.not_eq_true, hb]; exact h2
          simp [h1, this, fail, h2]

/-- A check reports exactly if it fails and is told to. -/
def Faithful (report : Bool) (c : Conv) (o : Out) : Prop :=
  (report = false → o.reports = []) ∧ (report = true → (o.reports ≠ [] ↔ o.ok = false)) ∧
    (∀ x ∈ o.reports, x.1 = c) ∧ (o.ok = true → o.reports = [])

theorem faithful_ok (report : Bool) (c : Conv) (a : List Nat) : Faithful report c { access := a } :=
  ⟨fun _ => rfl, fun _ => by simp, by simp, fun _ => rfl⟩

theorem faithful_fail (report : Bool) (c : Conv) (w : Why) : Faithful report c (fail report c w) := by
  cases report <;> simp [Faithful, fail]

theorem faithful_prefixed (env : Env) (c : Conv) (d : Decl) (report : Bool) (pfx : Bytes) :
    Faithful report c (prefixed env c d report pfx) := by
  unfold prefixed
  repeat' split
  all_goals first | exact faithful_ok report c _ | exact faithful_fail report c _

theorem faithful_czech (env : Env) (d : Decl) (report : Bool) : Faithful report .czech (checkCzech env d report) := by
  unfold checkCzech
  simp only
  repeat' split
  all_goals first
    | exact faithful_fail report _ _ | exact faithful_prefixed env _ d report _ | exact faithful_ok report _ []

theorem faithful_slovak (env : Env) (d : Decl) (report : Bool) :
    Faithful report .slovak (checkSlovak env d report) := by
  unfold checkSlovak
  simp only
  repeat' split
  all_goals first
    | exact faithful_fail report _ _ | exact faithful_prefixed env _ d report _ | exact faithful_ok report _ []

theorem czech_ok (env : Env) (d : Decl) (report : Bool) (hk : d.kind ≠ .datatype) :
    (checkCzech env d report).ok = false ↔ BadCzech env d := by
  have hk' : (d.kind == .datatype) = false := by simpa using hk
  unfold checkCzech
  simp only [hk', Bool.false_eq_true, if_false]
  by_cases hp : czechPrefix d.name = []
  · have hb := (bare_czech d.name).1 hp
    have hno : ¬ ∃ pfx, CzechSplit d.name pfx ∧ pfx ≠ [] ∧ ¬ Usable env .czech pfx := by
      rintro ⟨pfx, h, h', -⟩; exact h' (hb pfx h)
    simp only [hp, List.isEmpty_nil, if_true]
    unfold BadCzech
    simp only [hno, hb, true_and, false_or]
    cases hd : d.kind with
    | function => cases hf : env.fileTypes <;> simp [fail]
    | iter => cases hf : env.fileTypes <;> simp [fail]
    | variable_ =>
      cases ha : d.abstract with
      | none => simp
      | some t => cases hh : env.hasAccess t <;> simp [fail, hh]
    | macro_ =>
      cases ha : d.abstract with
      | none => simp
      | some t => cases hh : env.hasAccess t <;> simp [fail, hh]
    | constant =>
      cases ha : d.abstract with
      | none => simp
      | some t => cases hh : env.hasAccess t <;> simp [fail, hh]
    | datatype => exact absurd hd hk
    | other => simp
  · have hs := (split_czech d.name _ hp).1 rfl
    have he : (czechPrefix d.name).isEmpty = false := by simpa using hp
    simp only [he, Bool.false_eq_true, if_false]
    rw [← Bool.not_eq_true, prefixed_ok]
    unfold BadCzech
    constructor
    · intro h; exact Or.inl ⟨_, hs, hp, h⟩
    · rintro (⟨pfx, h1, h2, h3⟩ | ⟨hb, -⟩)
      · rw [(split_czech d.name pfx h2).2 h1]; exact h3
      · exact absurd ((bare_czech d.name).2 hb) hp

theorem slovak_ok (env : Env) (d : Decl) (report : Bool) (hk : d.kind ≠ .datatype) :
    (checkSlovak env d report).ok = false ↔ BadSlovak env d := by
  have hk' : (d.kind == .datatype) = false := by simpa using hk
  unfold checkSlovak
  simp only [hk', Bool.false_eq_true, if_false]
  by_cases hp : slovakPrefix d.name = []
  · have hb := (bare_slovak d.name).1 hp
    have hno : ¬ ∃ pfx, SlovakSplit d.name pfx ∧ pfx ≠ [] ∧ ¬ Usable env .slovak pfx := by
      rintro ⟨pfx, h, h', -⟩; exact h' (hb pfx h)
    simp only [hp, List.isEmpty_nil, if_true]
    unfold BadSlovak
    simp only [hno, hb, true_and, false_or]
    cases hf : env.fileTypes with
    | nil => simp
    | cons a l =>
      by_cases h1 : d.kind = .function
      · simp [h1, fail]
      · cases h2 : d.ua <;> simp [h1, fail]
  · have hs := (split_slovak d.name _ hp).1 rfl
    have he : (slovakPrefix d.name).isEmpty = false := by simpa using hp
    simp only [he, Bool.false_eq_true, if_false]
    rw [← Bool.not_eq_true, prefixed_ok]
    unfold BadSlovak
    constructor
    · intro h; exact Or.inl ⟨_, hs, hp, h⟩
    · rintro (⟨pfx, h1, h2, h3⟩ | ⟨hb, -⟩)
      · rw [(split_slovak d.name pfx h2).2 h1]; exact h3
      · exact absurd ((bare_slovak d.name).2 hb) hp

theorem czech_access (env : Env) (d : Decl) (report : Bool) (hk : d.kind ≠ .datatype) (t : Nat) :
    t ∈ (checkCzech env d report).access ↔
      ∃ pfx, CzechSplit d.name pfx ∧ pfx ≠ [] ∧ Hidden env pfx t ∧ ByName env .czech ∧
        d.kind ∉ [.variable_, .macro_] := by
  have hk' : (d.kind == .datatype) = false := by simpa using hk
  unfold checkCzech
  simp only [hk', Bool.false_eq_true, if_false]
  by_cases hp : czechPrefix d.name = []
  · have hb := (bare_czech d.name).1 hp
    simp only [hp, List.isEmpty_nil, if_true]
    constructor
    · intro h
      exfalso
      revert h
      repeat' split
      all_goals simp [fail]
    · rintro ⟨pfx, h, h', -⟩; exact absurd (hb pfx h) h'
  · have hs := (split_czech d.name _ hp).1 rfl
    have he : (czechPrefix d.name).isEmpty = false := by simpa using hp
    simp only [he, Bool.false_eq_true, if_false]
    rw [prefixed_access]
    constructor
    · intro h; exact ⟨_, hs, hp, h⟩
    · rintro ⟨pfx, h1, h2, h3⟩
      rw [(split_czech d.name pfx h2).2 h1]; exact h3

theorem slovak_access (env : Env) (d : Decl) (report : Bool) (hk : d.kind ≠ .datatype) (t : Nat) :
    t ∈ (checkSlovak env d report).access ↔
      ∃ pfx, SlovakSplit d.name pfx ∧ pfx ≠ [] ∧ Hidden env pfx t ∧ ByName env .slovak ∧
        d.kind ∉ [.variable_, .macro_] := by
  have hk' : (d.kind == .datatype) = false := by simpa using hk
  unfold checkSlovak
  simp only [hk', Bool.false_eq_true, if_false]
  by_cases hp : slovakPrefix d.name = []
  · have hb := (bare_slovak d.name).1 hp
    simp only [hp, List.isEmpty_nil, if_true]
    constructor
    · intro h
      exfalso
      revert h
      repeat' split
      all_goals simp [fail]
    · rintro ⟨pfx, h, h', -⟩; exact absurd (hb pfx h) h'
  · have hs := (split_slovak d.name _ hp).1 rfl
    have he : (slovakPrefix d.name).isEmpty = false := by simpa using hp
    simp only [he, Bool.false_eq_true, if_false]
    rw [prefixed_access]
    constructor
    · intro h; exact ⟨_, hs, hp, h⟩
    · rintro ⟨pfx, h1, h2, h3⟩
      rw [(split_slovak d.name pfx h2).2 h1]; exact h3

/-! ### The names of types -/

theorem badUnderscore_iff : ∀ (n : Nat) (name : Bytes),
    badUnderscore n name = true ↔ ∃ i, name[i]? = some underscore ∧ n + i ≠ 2 ∧ n + i ≠ 3
  | n, [] => by simp [badUnderscore]
  | n, c :: cs => by
    unfold badUnderscore
    by_cases h : (c == underscore && n != 2 && n != 3) = true
    · rw [if_pos h]
      simp only [Bool.and_eq_true, beq_iff_eq, bne_iff_ne, ne_eq] at h
      exact ⟨fun _ => ⟨0, by simp [h.1.1], h.1.2, h.2⟩, fun _ => rfl⟩
    · rw [if_neg h, badUnderscore_iff (n + 1) cs]
      simp only [Bool.and_eq_true, beq_iff_eq, bne_iff_ne, ne_eq] at h
      constructor
      · rintro ⟨i, h1, h2, h3⟩
        exact ⟨i + 1, by simpa using h1, by omega, by omega⟩
      · rintro ⟨i, h1, h2, h3⟩
        cases i with
        | zero => exact absurd ⟨⟨by simpa using h1, h2⟩, h3⟩ h
        | succ j => exact ⟨j, by simpa using h1, by omega, by omega⟩

theorem far_iff (name : Bytes) : badUnderscore 1 name = true ↔ FarUnderscore name := by
  rw [badUnderscore_iff]
  unfold FarUnderscore
  constructor <;> rintro ⟨i, h1, h2, h3⟩ <;> exact ⟨i, h1, by omega, by omega⟩

theorem csType_iff : ∀ (n : Nat) (name : Bytes),
    (∃ w, (Conv.czechoslovak, w) ∈ csType n name) ↔ badUnderscore n name = true ∨ name.any isupper = true
  | n, [] => by simp [csType, badUnderscore]
  | n, c :: cs => by
    unfold csType badUnderscore
    by_cases h1 : isupper c = true
    · simp [h1]
    · by_cases h2 : (c == underscore && n != 2 && n != 3) = true
      · simp only [h1, Bool.false_eq_true, if_false, if_pos h2]; simp
      · simp only [h1, Bool.false_eq_true, if_false, if_neg h2, csType_iff (n + 1) cs, List.any_cons, Bool.false_or]

theorem csType_conv : ∀ (n : Nat) (name : Bytes) (x : Conv × Why), x ∈ csType n name → x.1 = .czechoslovak
  | _, [], _, h => by cases h
  | n, c :: cs, x, h => by
    unfold csType at h
    split at h
    · simp only [List.mem_singleton] at h; rw [h]
    · split at h
      · simp only [List.mem_singleton] at h; rw [h]
      · exact csType_conv (n + 1) cs x h

/-! ### Which flags apply -/

/-- The name is checked, and the flags of the group are asked: it has external linkage, is not a tag or an
enumeration constant, and is not a global variable that has to have the prefix of globals. -/
def Checked (env : Env) (d : Decl) (g : Group) : Prop :=
  InGroup d.kind g ∧ d.static = false ∧ (d.kind = .variable_ → d.global = true → env.globPrefix = false)

theorem group_iff (env : Env) (d : Decl) (g : Group) :
    (d.static = false ∧ group env d = some g) ↔ Checked env d g := by
  unfold Checked group
  constructor
  · rintro ⟨hs, h⟩
    cases hk : d.kind <;> rw [hk] at h <;> simp only at h
    case variable_ =>
      by_cases hg : (d.global && env.globPrefix) = true
      · rw [if_pos hg] at h; cases h
      · rw [if_neg hg] at h; cases h
        refine ⟨.variable_, hs, fun _ h => ?_⟩
        by_contra h'
        exact hg (by simp [h, h'])
    all_goals cases h <;> exact ⟨by constructor, hs, fun h => by cases h⟩
  · rintro ⟨hg, hs, hv⟩
    refine ⟨hs, ?_⟩
    generalize hk : d.kind = k at *
    cases hg <;> try rfl
    have : (d.global && env.globPrefix) = false := by
      cases hgl : d.global with
      | false => rfl
      | true => simpa using hv rfl hgl
    simp [this]

theorem external_of (env : Env) (d : Decl) (g : Group) (h : Checked env d g) :
    d.static = false ∧ group env d = some g := (group_iff env d g).2 h

/-- Nothing comes of a declaration that is not checked. -/
theorem external_none (env : Env) (d : Decl) (h : ¬ ∃ g, Checked env d g) : checkExternal env d = {} := by
  unfold checkExternal
  by_cases hs : d.static = true
  · rw [if_pos hs]
  · rw [if_neg hs]
    unfold checkNational
    cases hg : group env d with
    | none => rfl
    | some g => exact absurd ⟨g, (group_iff env d g).1 ⟨by simpa using hs, hg⟩⟩ h

theorem checked_unique (env : Env) (d : Decl) (g g' : Group) (h : Checked env d g) (h' : Checked env d g') :
    g = g' := by
  have h1 := (external_of env d g h).2
  have h2 := (external_of env d g' h').2
  rw [h1] at h2
  exact Option.some.inj h2

theorem exists_conv_nil {c : Conv} : (∃ w, (c, w) ∈ ([] : List (Conv × Why))) ↔ False := by simp

theorem czech_mem (env : Env) (d : Decl) (report : Bool) :
    (∃ w, (Conv.czech, w) ∈ (checkCzech env d report).reports) ↔ report = true ∧ (checkCzech env d report).ok = false := by
  obtain ⟨h1, h2, h3, -⟩ := faithful_czech env d report
  constructor
  · rintro ⟨w, hw⟩
    cases report with
    | false => rw [h1 rfl] at hw; cases hw
    | true => exact ⟨rfl, (h2 rfl).1 (fun h => by rw [h] at hw; cases hw)⟩
  · rintro ⟨hr, ho⟩
    obtain ⟨x, hx⟩ := List.exists_mem_of_ne_nil _ ((h2 hr).2 ho)
    have := h3 x hx
    exact ⟨x.2, by rw [← this]; exact hx⟩

theorem slovak_mem (env : Env) (d : Decl) (report : Bool) :
    (∃ w, (Conv.slovak, w) ∈ (checkSlovak env d report).reports) ↔
      report = true ∧ (checkSlovak env d report).ok = false := by
  obtain ⟨h1, h2, h3, -⟩ := faithful_slovak env d report
  constructor
  · rintro ⟨w, hw⟩
    cases report with
    | false => rw [h1 rfl] at hw; cases hw
    | true => exact ⟨rfl, (h2 rfl).1 (fun h => by rw [h] at hw; cases hw)⟩
  · rintro ⟨hr, ho⟩
    obtain ⟨x, hx⟩ := List.exists_mem_of_ne_nil _ ((h2 hr).2 ho)
    have := h3 x hx
    exact ⟨x.2, by rw [← this]; exact hx⟩

/-- The three parts of the check. -/
def czPart (env : Env) (d : Decl) (g : Group) : Out :=
  if env.on .czech g || (d.kind == .function && env.accessOn .czech) then checkCzech env d (env.on .czech g) else {}

def slPart (env : Env) (d : Decl) (g : Group) : Out :=
  if env.on .slovak g || (d.kind == .function && env.accessOn .slovak) then checkSlovak env d (env.on .slovak g)
  else {}

def csPart (env : Env) (d : Decl) (g : Group) : Out :=
  if env.on .czechoslovak g then
    if d.kind == .datatype then { reports := csType 1 d.name }
    else
      let a := checkCzech env d false
      let b := checkSlovak env d false
      { reports := if a.ok || b.ok then [] else [(.czechoslovak, .neither)], access := a.access ++ b.access }
  else {}

theorem external_parts (env : Env) (d : Decl) (g : Group) (h : Checked env d g) :
    checkExternal env d =
      { reports := (czPart env d g).reports ++ (slPart env d g).reports ++ (csPart env d g).reports,
        access := (czPart env d g).access ++ (slPart env d g).access ++ (csPart env d g).access } := by
  obtain ⟨hs, hg⟩ := external_of env d g h
  unfold checkExternal checkNational
  rw [hs, hg]
  rfl

theorem czPart_conv (env : Env) (d : Decl) (g : Group) : ∀ x ∈ (czPart env d g).reports, x.1 = .czech := by
  unfold czPart
  split
  · exact (faithful_czech env d _).2.2.1
  · simp

theorem slPart_conv (env : Env) (d : Decl) (g : Group) : ∀ x ∈ (slPart env d g).reports, x.1 = .slovak := by
  unfold slPart
  split
  · exact (faithful_slovak env d _).2.2.1
  · simp

theorem csPart_conv (env : Env) (d : Decl) (g : Group) : ∀ x ∈ (csPart env d g).reports, x.1 = .czechoslovak := by
  unfold csPart
  split
  · split
    · exact csType_conv 1 d.name
    · simp only
      split <;> simp
  · simp

theorem cz_reports (env : Env) (d : Decl) (g : Group) (h : Checked env d g) :
    (∃ w, (Conv.czech, w) ∈ (checkExternal env d).reports) ↔
      env.on .czech g = true ∧ (checkCzech env d true).ok = false := by
  rw [external_parts env d g h]
  simp only [List.mem_append]
  have e : (∃ w, (((Conv.czech, w) ∈ (czPart env d g).reports ∨ (Conv.czech, w) ∈ (slPart env d g).reports) ∨
      (Conv.czech, w) ∈ (csPart env d g).reports)) ↔ ∃ w, (Conv.czech, w) ∈ (czPart env d g).reports := by
    constructor
    · rintro ⟨w, (hw | hw) | hw⟩
      · exact ⟨w, hw⟩
      · cases slPart_conv env d g _ hw
      · cases csPart_conv env d g _ hw
    · rintro ⟨w, hw⟩; exact ⟨w, Or.inl (Or.inl hw)⟩
  rw [e]
  unfold czPart
  cases ho : env.on .czech g with
  | true => simpa using czech_mem env d true
  | false =>
    by_cases hk : (d.kind == .function && env.accessOn .czech) = true
    · simp only [hk, Bool.or_true, if_true, czech_mem]; simp
    · simp [hk]

theorem sl_reports (env : Env) (d : Decl) (g : Group) (h : Checked env d g) :
    (∃ w, (Conv.slovak, w) ∈ (checkExternal env d).reports) ↔
      env.on .slovak g = true ∧ (checkSlovak env d true).ok = false := by
  rw [external_parts env d g h]
  simp only [List.mem_append]
  have e : (∃ w, (((Conv.slovak, w) ∈ (czPart env d g).reports ∨ (Conv.slovak, w) ∈ (slPart env d g).reports) ∨
      (Conv.slovak, w) ∈ (csPart env d g).reports)) ↔ ∃ w, (Conv.slovak, w) ∈ (slPart env d g).reports := by
    constructor
    · rintro ⟨w, (hw | hw) | hw⟩
      · cases czPart_conv env d g _ hw
      · exact ⟨w, hw⟩
      · cases csPart_conv env d g _ hw
    · rintro ⟨w, hw⟩; exact ⟨w, Or.inl (Or.inr hw)⟩
  rw [e]
  unfold slPart
  cases ho : env.on .slovak g with
  | true => simpa using slovak_mem env d true
  | false =>
    by_cases hk : (d.kind == .function && env.accessOn .slovak) = true
    · simp only [hk, Bool.or_true, if_true, slovak_mem]; simp
    · simp [hk]

theorem cs_reports (env : Env) (d : Decl) (g : Group) (h : Checked env d g) :
    (∃ w, (Conv.czechoslovak, w) ∈ (checkExternal env d).reports) ↔
      ∃ w, (Conv.czechoslovak, w) ∈ (csPart env d g).reports := by
  rw [external_parts env d g h]
  simp only [List.mem_append]
  constructor
  · rintro ⟨w, (hw | hw) | hw⟩
    · cases czPart_conv env d g _ hw
    · cases slPart_conv env d g _ hw
    · exact ⟨w, hw⟩
  · rintro ⟨w, hw⟩; exact ⟨w, Or.inr hw⟩

theorem reports_none {env : Env} {d : Decl} (h : ¬ ∃ g, Checked env d g) (c : Conv) (w : Why) :
    (c, w) ∉ (checkExternal env d).reports := by
  rw [external_none env d h]; simp

/-! ### The theorems -/

/-- The Czech convention: exactly which names are reported. -/
theorem C128_czech_exactly (env : Env) (d : Decl) (hk : d.kind ≠ .datatype) :
    (∃ w, (Conv.czech, w) ∈ (checkExternal env d).reports) ↔
      ∃ g, Checked env d g ∧ env.on .czech g = true ∧ BadCzech env d := by
  by_cases hc : ∃ g, Checked env d g
  · obtain ⟨g, hg⟩ := hc
    rw [cz_reports env d g hg, czech_ok env d true hk]
    constructor
    · rintro ⟨h1, h2⟩; exact ⟨g, hg, h1, h2⟩
    · rintro ⟨g', hg', h1, h2⟩; rw [checked_unique env d g g' hg hg']; exact ⟨h1, h2⟩
  · constructor
    · rintro ⟨w, hw⟩; exact absurd hw (reports_none hc _ _)
    · rintro ⟨g, hg, -⟩; exact absurd ⟨g, hg⟩ hc

/-- The Slovak convention. -/
theorem C128_slovak_exactly (env : Env) (d : Decl) (hk : d.kind ≠ .datatype) :
    (∃ w, (Conv.slovak, w) ∈ (checkExternal env d).reports) ↔
      ∃ g, Checked env d g ∧ env.on .slovak g = true ∧ BadSlovak env d := by
  by_cases hc : ∃ g, Checked env d g
  · obtain ⟨g, hg⟩ := hc
    rw [sl_reports env d g hg, slovak_ok env d true hk]
    constructor
    · rintro ⟨h1, h2⟩; exact ⟨g, hg, h1, h2⟩
    · rintro ⟨g', hg', h1, h2⟩; rw [checked_unique env d g g' hg hg']; exact ⟨h1, h2⟩
  · constructor
    · rintro ⟨w, hw⟩; exact absurd hw (reports_none hc _ _)
    · rintro ⟨g, hg, -⟩; exact absurd ⟨g, hg⟩ hc

/-- The Czechoslovak convention: a name is reported exactly if it violates both. -/
theorem C128_czechoslovak_exactly (env : Env) (d : Decl) (hk : d.kind ≠ .datatype) :
    (∃ w, (Conv.czechoslovak, w) ∈ (checkExternal env d).reports) ↔
      ∃ g, Checked env d g ∧ env.on .czechoslovak g = true ∧ BadCzech env d ∧ BadSlovak env d := by
  have hk' : (d.kind == .datatype) = false := by simpa using hk
  by_cases hc : ∃ g, Checked env d g
  · obtain ⟨g, hg⟩ := hc
    rw [cs_reports env d g hg, ← czech_ok env d false hk, ← slovak_ok env d false hk]
    have : (∃ w, (Conv.czechoslovak, w) ∈ (csPart env d g).reports) ↔ env.on .czechoslovak g = true ∧
        (checkCzech env d false).ok = false ∧ (checkSlovak env d false).ok = false := by
      unfold csPart
      cases ho : env.on .czechoslovak g with
      | false => simp
      | true =>
        simp only [hk', Bool.false_eq_true, if_false, if_true, true_and]
        cases (checkCzech env d false).ok <;> cases (checkSlovak env d false).ok <;> simp
    rw [this]
    constructor
    · rintro ⟨h1, h2⟩; exact ⟨g, hg, h1, h2⟩
    · rintro ⟨g', hg', h1, h2⟩; rw [checked_unique env d g g' hg hg']; exact ⟨h1, h2⟩
  · constructor
    · rintro ⟨w, hw⟩; exact absurd hw (reports_none hc _ _)
    · rintro ⟨g, hg, -⟩; exact absurd ⟨g, hg⟩ hc

theorem checked_type (env : Env) (d : Decl) (hk : d.kind = .datatype) (hs : d.static = false) :
    Checked env d .types :=
  ⟨by rw [hk]; exact .datatype, hs, fun h => by rw [hk] at h; cases h⟩

/-- The names of types: the underscore is only noticed from the fourth character on, or as the first; the uppercase
letter only if `slovak` itself is set. -/
theorem C128_types_exactly (env : Env) (d : Decl) (hk : d.kind = .datatype) (hs : d.static = false) :
    ((∃ w, (Conv.czech, w) ∈ (checkExternal env d).reports) ↔
      env.on .czech .types = true ∧ FarUnderscore d.name) ∧
    ((∃ w, (Conv.slovak, w) ∈ (checkExternal env d).reports) ↔
      env.on .slovak .types = true ∧ env.slovakMode = true ∧ ∃ c ∈ d.name, isupper c = true) ∧
    ((∃ w, (Conv.czechoslovak, w) ∈ (checkExternal env d).reports) ↔
      env.on .czechoslovak .types = true ∧ (FarUnderscore d.name ∨ ∃ c ∈ d.name, isupper c = true)) := by
  have hg := checked_type env d hk hs
  have hk' : (d.kind == .datatype) = true := by simpa using hk
  refine ⟨?_, ?_, ?_⟩
  · rw [cz_reports env d _ hg, ← far_iff]
    unfold checkCzech
    simp only [hk', if_true]
    cases badUnderscore 1 d.name <;> simp [fail]
  · rw [sl_reports env d _ hg]
    unfold checkSlovak
    simp only [hk', if_true]
    by_cases hm : (env.slovakMode && d.name.any isupper) = true
    · simp only [if_pos hm]
      simp only [Bool.and_eq_true, List.any_eq_true] at hm
      simp [fail, hm]
    · simp only [if_neg hm]
      simp only [Bool.and_eq_true, List.any_eq_true] at hm
      simp only [Bool.true_eq_false, and_false, hm]
  · rw [cs_reports env d _ hg, ← far_iff]
    unfold csPart
    cases ho : env.on .czechoslovak .types with
    | false => simp
    | true =>
      simp only [hk', if_true, csType_iff, List.any_eq_true, true_and]

/-- What the manual says of the names of types. -/
def C128_full : Prop := ∀ (env : Env) (d : Decl), d.kind = .datatype → d.static = false →
  (env.on .czech .types = true → underscore ∈ d.name → ∃ w, (Conv.czech, w) ∈ (checkExternal env d).reports) ∧
  (env.on .slovak .types = true → (∃ c ∈ d.name, isupper c = true) →
    ∃ w, (Conv.slovak, w) ∈ (checkExternal env d).reports)

/-- An environment in which the flags of one convention are set. -/
def sampleEnv (c : Conv) : Env where
  on c' _ := c' == c
  accessOn _ := false
  slovakMode := false
  globPrefix := false
  constPrefix := false
  fileTypes := [1]
  hasAccess t := t == 1
  boolAccess := false
  boolType := 9
  types n := if n = lit "set" then some (.abstract 1) else if n = lit "bag" then some (.abstract 2)
    else if n = lit "bool" then some .bool else none
  module_ := lit "main"

def typeNamed (s : String) : Decl := { kind := .datatype, name := lit s }

def funNamed (s : String) : Decl := { kind := .function, name := lit s }

theorem C128_full_is_false : ¬ C128_full := by
  intro h
  obtain ⟨w, hw⟩ := (h (sampleEnv .czech) (typeNamed "a_t") rfl rfl).1 rfl (by decide +kernel)
  have : (checkExternal (sampleEnv .czech) (typeNamed "a_t")).reports = [] := by decide +kernel
  rw [this] at hw
  cases hw

/-- A type of up to three characters, the first no underscore, is never reported for an underscore. -/
theorem C128_short_type (env : Env) (d : Decl) (hk : d.kind = .datatype) (hl : d.name.length ≤ 3)
    (h0 : d.name.head? ≠ some underscore) (w : Why) : (Conv.czech, w) ∉ (checkExternal env d).reports := by
  intro hw
  by_cases hs : d.static = false
  · obtain ⟨-, i, hi, h1, h2⟩ := (C128_types_exactly env d hk hs).1.1 ⟨w, hw⟩
    have : i < d.name.length := (List.getElem?_eq_some_iff.1 hi).1
    have : i = 0 := by omega
    subst this
    rw [List.head?_eq_getElem?] at h0
    exact h0 hi
  · exact reports_none (fun ⟨g, hg⟩ => hs hg.2.1) _ _ hw

/-- Without `slovak` itself, the flag for the names of types has no effect. -/
theorem C128_slovaktypes_alone (env : Env) (d : Decl) (hk : d.kind = .datatype) (hm : env.slovakMode = false)
    (w : Why) : (Conv.slovak, w) ∉ (checkExternal env d).reports := by
  intro hw
  by_cases hs : d.static = false
  · obtain ⟨-, h, -⟩ := (C128_types_exactly env d hk hs).2.1.1 ⟨w, hw⟩
    rw [hm] at h; cases h
  · exact reports_none (fun ⟨g, hg⟩ => hs hg.2.1) _ _ hw

/-- Exactly when a declaration gets access to the representation of a type by its name. -/
theorem C128_access_exactly (env : Env) (d : Decl) (t : Nat) :
    t ∈ (checkExternal env d).access ↔
      ∃ g, Checked env d g ∧ d.kind ∈ [.function, .iter, .constant] ∧
        ((∃ pfx, CzechSplit d.name pfx ∧ pfx ≠ [] ∧ Hidden env pfx t ∧ ByName env .czech ∧
            (env.on .czech g = true ∨ env.on .czechoslovak g = true ∨
              (d.kind = .function ∧ env.accessOn .czech = true))) ∨
         (∃ pfx, SlovakSplit d.name pfx ∧ pfx ≠ [] ∧ Hidden env pfx t ∧ ByName env .slovak ∧
            (env.on .slovak g = true ∨ env.on .czechoslovak g = true ∨
              (d.kind = .function ∧ env.accessOn .slovak = true)))) := by
  by_cases hc : ∃ g, Checked env d g
  · obtain ⟨g, hg⟩ := hc
    have huni : ∀ P : Group → Prop, (∃ g', Checked env d g' ∧ P g') ↔ P g := by
      intro P
      constructor
      · rintro ⟨g', hg', hp⟩; rw [checked_unique env d g g' hg hg']; exact hp
      · intro hp; exact ⟨g, hg, hp⟩
    rw [huni, external_parts env d g hg]
    simp only [List.mem_append]
    by_cases hk : d.kind = .datatype
    · have hk' : (d.kind == .datatype) = true := by simpa using hk
      have h1 : ∀ r, (checkCzech env d r).access = [] := by
        intro r; unfold checkCzech; simp only [hk', if_true]; split <;> rfl
      have h2 : ∀ r, (checkSlovak env d r).access = [] := by
        intro r; unfold checkSlovak; simp only [hk', if_true]; split <;> rfl
      have e1 : (czPart env d g).access = [] := by unfold czPart; split <;> [exact h1 _; rfl]
      have e2 : (slPart env d g).access = [] := by unfold slPart; split <;> [exact h2 _; rfl]
      have e3 : (csPart env d g).access = [] := by
        unfold csPart; simp only [hk', if_true]; split <;> rfl
      rw [e1, e2, e3, hk]
      simp
    · have hk' : (d.kind == .datatype) = false := by simpa using hk
      have hkind : d.kind ∈ [Kind.function, .iter, .constant] ↔ d.kind ∉ [Kind.variable_, .macro_] := by
        have := hg.1
        generalize d.kind = k at *
        cases this <;> simp at hk ⊢
      have a1 : t ∈ (czPart env d g).access ↔ (env.on .czech g = true ∨ (d.kind = .function ∧ env.accessOn .czech = true)) ∧
          t ∈ (checkCzech env d false).access := by
        unfold czPart
        by_cases h : (env.on .czech g || (d.kind == .function && env.accessOn .czech)) = true
        · rw [if_pos h, czech_access env d _ hk, czech_access env d false hk]
          simp only [Bool.or_eq_true, Bool.and_eq_true, beq_iff_eq] at h
          exact ⟨fun x => ⟨h, x⟩, fun x => x.2⟩
        · rw [if_neg h]
          simp only [Bool.or_eq_true, Bool.and_eq_true, beq_iff_eq] at h
          simp [h]
      have a2 : t ∈ (slPart env d g).access ↔ (env.on .slovak g = true ∨ (d.kind = .function ∧ env.accessOn .slovak = true)) ∧
          t ∈ (checkSlovak env d false).access := by
        unfold slPart
        by_cases h : (env.on .slovak g || (d.kind == .function && env.accessOn .slovak)) = true
        · rw [if_pos h, slovak_access env d _ hk, slovak_access env d false hk]
          simp only [Bool.or_eq_true, Bool.and_eq_true, beq_iff_eq] at h
          exact ⟨fun x => ⟨h, x⟩, fun x => x.2⟩
        · rw [if_neg h]
          simp only [Bool.or_eq_true, Bool.and_eq_true, beq_iff_eq] at h
          simp [h]
      have a3 : t ∈ (csPart env d g).access ↔ env.on .czechoslovak g = true ∧
          (t ∈ (checkCzech env d false).access ∨ t ∈ (checkSlovak env d false).access) := by
        unfold csPart
        cases ho : env.on .czechoslovak g <;> simp [hk']
      rw [a1, a2, a3, czech_access env d false hk, slovak_access env d false hk, hkind]
      constructor
      · rintro ((⟨h, p, h1, h2, h3, h4, h5⟩ | ⟨h, p, h1, h2, h3, h4, h5⟩) |
          ⟨h, ⟨p, h1, h2, h3, h4, h5⟩ | ⟨p, h1, h2, h3, h4, h5⟩⟩)
        · exact ⟨h5, Or.inl ⟨p, h1, h2, h3, h4, h.imp id Or.inr⟩⟩
        · exact ⟨h5, Or.inr ⟨p, h1, h2, h3, h4, h.imp id Or.inr⟩⟩
        · exact ⟨h5, Or.inl ⟨p, h1, h2, h3, h4, Or.inr (Or.inl h)⟩⟩
        · exact ⟨h5, Or.inr ⟨p, h1, h2, h3, h4, Or.inr (Or.inl h)⟩⟩
      · rintro ⟨h5, ⟨p, h1, h2, h3, h4, h | h | h⟩ | ⟨p, h1, h2, h3, h4, h | h | h⟩⟩
        · exact Or.inl (Or.inl ⟨Or.inl h, p, h1, h2, h3, h4, h5⟩)
        · exact Or.inr ⟨h, Or.inl ⟨p, h1, h2, h3, h4, h5⟩⟩
        · exact Or.inl (Or.inl ⟨Or.inr h, p, h1, h2, h3, h4, h5⟩)
        · exact Or.inl (Or.inr ⟨Or.inl h, p, h1, h2, h3, h4, h5⟩)
        · exact Or.inr ⟨h, Or.inr ⟨p, h1, h2, h3, h4, h5⟩⟩
        · exact Or.inl (Or.inr ⟨Or.inr h, p, h1, h2, h3, h4, h5⟩)
  · constructor
    · intro h; rw [external_none env d hc] at h; cases h
    · rintro ⟨g, hg, -⟩; exact absurd ⟨g, hg⟩ hc

/-- `accessczechoslovak` gives nothing unless one of the two other access flags, or a flag of a naming convention, is
set. -/
theorem C128_accessczechoslovak_alone (env : Env) (d : Decl) (h1 : env.accessOn .czech = false)
    (h2 : env.accessOn .slovak = false) (h3 : ∀ c g, env.on c g = false) : (checkExternal env d).access = [] := by
  apply List.eq_nil_iff_forall_not_mem.2
  intro t ht
  obtain ⟨g, -, -, ⟨p, -, -, -, -, h⟩ | ⟨p, -, -, -, -, h⟩⟩ := (C128_access_exactly env d t).1 ht
  · rcases h with h | h | ⟨-, h⟩
    · rw [h3] at h; cases h
    · rw [h3] at h; cases h
    · rw [h1] at h; cases h
  · rcases h with h | h | ⟨-, h⟩
    · rw [h3] at h; cases h
    · rw [h3] at h; cases h
    · rw [h2] at h; cases h

/-- A constant gets no access by the access flags alone, though their descriptions say so. -/
theorem C128_constant_no_access (env : Env) (d : Decl) (hk : d.kind ≠ .function)
    (h3 : ∀ c g, env.on c g = false) : (checkExternal env d).access = [] := by
  apply List.eq_nil_iff_forall_not_mem.2
  intro t ht
  obtain ⟨g, -, -, ⟨p, -, -, -, -, h⟩ | ⟨p, -, -, -, -, h⟩⟩ := (C128_access_exactly env d t).1 ht
  all_goals
    rcases h with h | h | ⟨h, -⟩
    · rw [h3] at h; cases h
    · rw [h3] at h; cases h
    · exact hk h

/-- Nothing depends on `constprefix`, so it never takes the place of the convention. -/
theorem C128_constprefix (env : Env) (d : Decl) (b : Bool) :
    checkExternal { env with constPrefix := b } d = checkExternal env d := rfl

/-- While no type is accessible, a name without an underscore, or without an uppercase letter behind its first
character, is never reported for the Czechoslovak convention, whatever its other prefix is. -/
theorem C128_czechoslovak_weak (env : Env) (d : Decl) (hk : d.kind = .function) (hf : env.fileTypes = [])
    (hn : Bare .czech d.name ∨ Bare .slovak d.name) (w : Why) :
    (Conv.czechoslovak, w) ∉ (checkExternal env d).reports := by
  intro hw
  obtain ⟨g, -, -, hb1, hb2⟩ := (C128_czechoslovak_exactly env d (by rw [hk]; simp)).1 ⟨w, hw⟩
  rcases hn with hn | hn
  · rcases hb1 with ⟨p, h1, h2, -⟩ | ⟨-, ⟨-, h⟩ | ⟨h, -⟩⟩
    · exact h2 (hn p h1)
    · exact h hf
    · rw [hk] at h; simp at h
  · rcases hb2 with ⟨p, h1, h2, -⟩ | ⟨-, h, -⟩
    · exact h2 (hn p h1)
    · exact h hf

/-! ### Examples -/

/-- `foo_insert` is reported: `foo` is no type. `set_insert` is not. `bag_insert` is, for `bag` is not accessible,
`insert` because types are accessible. -/
example : ((["foo_insert", "set_insert", "bag_insert", "insert", "int_max", "main_run"].map
    fun s => (checkExternal (sampleEnv .czech) (funNamed s)).reports)) =
    [[(.czech, .notType)], [], [(.czech, .notAccessible)], [(.czech, .noPrefix)], [], []] := by decide +kernel

example : ((["fooInsert", "setInsert", "bagInsert", "insert", "Insert", "intMax"].map
    fun s => (checkExternal (sampleEnv .slovak) (funNamed s)).reports)) =
    [[(.slovak, .notType)], [], [(.slovak, .notAccessible)], [(.slovak, .noPrefix)], [(.slovak, .noPrefix)], []] := by
  decide +kernel

example : ((["fooInsert", "setInsert", "set_insert", "insert"].map
    fun s => (checkExternal (sampleEnv .czechoslovak) (funNamed s)).reports)) =
    [[(.czechoslovak, .neither)], [], [], [(.czechoslovak, .neither)]] := by decide +kernel

/-- `Checked` is met, and so is `BadCzech`. -/
example : Checked (sampleEnv .czech) (funNamed "foo_insert") .functions := ⟨.function, rfl, fun h => (by cases h)⟩

example : ∃ g, Checked (sampleEnv .czech) (funNamed "foo_insert") g ∧ (sampleEnv .czech).on .czech g = true ∧
    BadCzech (sampleEnv .czech) (funNamed "foo_insert") :=
  (C128_czech_exactly _ _ (by simp [funNamed])).1 ⟨.notType, by decide +kernel⟩

/-- The names of types. -/
example : (["a_t", "ab_", "list_t", "_t", "a__t"].map
    fun s => (checkExternal (sampleEnv .czech) (typeNamed s)).reports) =
    [[], [], [(.czech, .underscore)], [(.czech, .underscore)], []] := by decide +kernel

example : (checkExternal (sampleEnv .slovak) (typeNamed "List")).reports = [] ∧
    (checkExternal { sampleEnv .slovak with slovakMode := true } (typeNamed "List")).reports = [(.slovak, .upper)] := by
  decide +kernel

example : (checkExternal (sampleEnv .czechoslovak) (typeNamed "List")).reports = [(.czechoslovak, .upper)] := by
  decide +kernel

/-- Access by name. -/
def byCzech (c : Conv) : Env := { sampleEnv .czech with on := fun _ _ => false, accessOn := fun c' => c' == c }

example : (checkExternal (byCzech .czech) (funNamed "bag_insert")).access = [2] ∧
    (checkExternal (byCzech .slovak) (funNamed "bag_insert")).access = [] ∧
    (checkExternal (byCzech .slovak) (funNamed "bagInsert")).access = [2] ∧
    (checkExternal (byCzech .czechoslovak) (funNamed "bag_insert")).access = [] ∧
    (checkExternal (byCzech .czech) (funNamed "bool_not")).access = [9] ∧
    (checkExternal (byCzech .czech) { kind := .constant, name := lit "bag_empty" }).access = [] := by
  decide +kernel

/-- With `czechfunctions` and `accessczechoslovak` access is given. -/
example : (checkExternal { sampleEnv .czech with accessOn := fun c => c == .czechoslovak } (funNamed "bag_insert")) =
    { access := [2] } := by decide +kernel

example : Bare .czech (lit "badPrefix") := by
  rw [← bare_czech]; decide +kernel

end National
end Splint
