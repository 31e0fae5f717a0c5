import Verif.Tactics
import Verif.Spec.CompleteDef
/-!
# C127: transferred storage must be completely defined
-/
namespace Splint
namespace CompleteDef

variable {α β : Type}

theorem excused_iff (env : Env α β) (t : β) : excused (env.tstate t) = true ↔ Excused env t := by
  unfold Excused; cases env.tstate t <;> simp [excused]

theorem passable_iff (s : SState) : passable s = true ↔ Fine s := by
  unfold Fine; cases s <;> simp [passable, partlyDefined]

theorem partly_iff (s : SState) : partlyDefined s = true ↔ Partly s := by
  unfold Partly; cases s <;> simp [partlyDefined]

theorem fine_not_dead (s : SState) (h : Fine s) : s ≠ .dead := by
  intro hd; subst hd; simp [Fine] at h

theorem mem_items (env : Env α β) (f : α) (t : β) (name : Nat) (f' : α) (t' : β) :
    (name, f', t') ∈ items env f t ∧ env.recursive t' = false ↔ Field env f t name f' t' := by
  unfold items Field
  by_cases hp : partlyDefined (env.state f) = true
  · have hna : env.state f ≠ .allocated := by intro h; rw [h] at hp; cases hp
    rw [if_pos hp]
    have := (partly_iff (env.state f)).1 hp
    constructor
    · rintro ⟨hm, hr⟩
      obtain ⟨p, hm', he⟩ := List.mem_map.1 hm
      obtain ⟨p1, p2⟩ := p
      simp only [Prod.mk.injEq] at he
      obtain ⟨rfl, rfl, rfl⟩ := he
      exact ⟨rfl, hr, Or.inl ⟨this, hm'⟩⟩
    · rintro ⟨rfl, hr, ⟨-, hm⟩ | ⟨ha, -⟩⟩
      · exact ⟨List.mem_map.2 ⟨_, hm, rfl⟩, hr⟩
      · exact absurd ha hna
  · rw [if_neg hp]
    have hnp : ¬ Partly (env.state f) := fun h => hp ((partly_iff _).2 h)
    by_cases ha : env.state f = .allocated
    · rw [if_pos ha]
      constructor
      · rintro ⟨hm, hr⟩
        obtain ⟨p, hm', he⟩ := List.mem_map.1 hm
        obtain ⟨p1, p2⟩ := p
        simp only [Prod.mk.injEq] at he
        obtain ⟨rfl, rfl, rfl⟩ := he
        exact ⟨rfl, hr, Or.inr ⟨ha, hm'⟩⟩
      · rintro ⟨rfl, hr, ⟨h, -⟩ | ⟨-, hm⟩⟩
        · exact absurd h hnp
        · exact ⟨List.mem_map.2 ⟨_, hm, rfl⟩, hr⟩
    · rw [if_neg ha]
      constructor
      · rintro ⟨hm, -⟩; cases hm
      · rintro ⟨-, -, ⟨h, -⟩ | ⟨h, -⟩⟩
        · exact absurd h hnp
        · exact absurd h ha

theorem mem_unionItems (env : Env α β) (f : α) (t : β) (f' : α) (t' : β) :
    (∃ name, (name, f', t') ∈ unionItems env f t) ↔ Alt env f t f' t' := by
  unfold unionItems Alt
  constructor
  · rintro ⟨name, h⟩
    obtain ⟨p, hm, he⟩ := List.mem_map.1 h
    obtain ⟨p1, p2⟩ := p
    simp only [Prod.mk.injEq] at he
    obtain ⟨rfl, rfl, rfl⟩ := he
    exact ⟨p1, rfl, hm⟩
  · rintro ⟨name, rfl, hm⟩
    exact ⟨name, List.mem_map.2 ⟨_, hm, rfl⟩⟩

theorem several_eq (env : Env α β) (f : α) (t : β) :
    decide (1 < (unionItems env f t).length) = Several env f := by
  unfold unionItems Several
  simp

/-- Unfolding for storage whose parts are looked at. -/
theorem check_enters (env : Env α β) (tt : Transfer) (u : Bool) (n : Nat) (f : α) (t : β)
    (top du report : Bool) (h : Enters env f t) :
    check env tt u (n + 1) f t top du report = inside env tt u f t du report
      fun f t du report => check env tt u n f t false du report := by
  have hd : (env.state f == .dead) = false := by
    simpa using fine_not_dead _ h.2.2
  have he : excused (env.tstate t) = false := by
    rw [← Bool.not_eq_true, excused_iff]; exact h.2.1
  have hp := (passable_iff (env.state f)).2 h.2.2
  conv_lhs => unfold check
  simp only [h.1, hd, he, hp, Bool.not_true, Bool.and_false, Bool.false_and, Bool.false_eq_true, if_false,
    List.nil_append]

/-- Unfolding for undefined storage. -/
theorem check_undef (env : Env α β) (tt : Transfer) (u : Bool) (n : Nat) (f : α) (t : β)
    (top du report : Bool) (h : Undef env f t)
    (hd : ¬ (top = false ∧ env.state f = .dead ∧ (du = true ∨ env.shown f = true))) :
    check env tt u (n + 1) f t top du report =
      ((if !top && env.state f == .dead then [.releasedPart f] else []) ++ (notDefined env tt f top report).1,
        (notDefined env tt f top report).2) := by
  have he : excused (env.tstate t) = false := by
    rw [← Bool.not_eq_true, excused_iff]; exact h.2.1
  have hp : passable (env.state f) = false := by
    rw [← Bool.not_eq_true, passable_iff]; exact h.2.2
  have h1 : (!top && env.state f == .dead && du) = false := by
    cases top <;> cases du <;> simp_all
  have h2 : (!top && env.state f == .dead && env.shown f) = false := by
    cases top <;> cases hs : env.shown f <;> simp_all
  unfold check
  simp only [h.1, h1, h2, he, hp, Bool.not_true, Bool.not_false, Bool.false_eq_true, if_false, if_true]

/-- Unfolding for dead parts that stop the check. -/
theorem check_dead (env : Env α β) (tt : Transfer) (u : Bool) (n : Nat) (f : α) (t : β)
    (du report : Bool) (hk : env.known f = true) (hd : env.state f = .dead) :
    (du = true → check env tt u (n + 1) f t false du report = ([], .no)) ∧
    (du = false → env.shown f = true →
      check env tt u (n + 1) f t false du report = ([.releasedPart f], .yes)) := by
  constructor
  · intro h; unfold check; simp [hk, hd, h]
  · intro h h'; unfold check; simp [hk, hd, h, h']

/-- Unfolding for storage about which nothing is asked. -/
theorem check_excused (env : Env α β) (tt : Transfer) (u : Bool) (n : Nat) (f : α) (t : β)
    (top du report : Bool) (hk : env.known f = true) (h : Excused env t)
    (hd : ¬ (top = false ∧ env.state f = .dead ∧ (du = true ∨ env.shown f = true))) :
    check env tt u (n + 1) f t top du report =
      (if !top && env.state f == .dead then [.releasedPart f] else [], .yes) := by
  have he := (excused_iff env t).2 h
  have h1 : (!top && env.state f == .dead && du) = false := by
    cases top <;> cases du <;> simp_all
  have h2 : (!top && env.state f == .dead && env.shown f) = false := by
    cases top <;> cases hs : env.shown f <;> simp_all
  unfold check
  simp only [hk, h1, h2, he, Bool.not_true, Bool.false_eq_true, if_false, if_true, List.append_nil]

theorem check_unknown (env : Env α β) (tt : Transfer) (u : Bool) (n : Nat) (f : α) (t : β)
    (top du report : Bool) (hk : env.known f = false) : check env tt u n f t top du report = ([], .yes) := by
  cases n with
  | zero => rfl
  | succ n => unfold check; simp [hk]

/-- The four kinds of storage. -/
theorem cases4 (env : Env α β) (f : α) (t : β) (top du : Bool) :
    env.known f = false ∨ (env.known f = true ∧ top = false ∧ env.state f = .dead ∧ (du = true ∨ env.shown f = true)) ∨
    (env.known f = true ∧ ¬ (top = false ∧ env.state f = .dead ∧ (du = true ∨ env.shown f = true)) ∧
      (Excused env t ∨ Undef env f t ∨ Enters env f t)) := by
  unfold Undef Enters
  cases hk : env.known f with
  | false => exact Or.inl rfl
  | true =>
    refine Or.inr ?_
    by_cases hd : top = false ∧ env.state f = .dead ∧ (du = true ∨ env.shown f = true)
    · exact Or.inl ⟨rfl, hd⟩
    · refine Or.inr ⟨rfl, hd, ?_⟩
      by_cases he : Excused env t
      · exact Or.inl he
      · by_cases hf : Fine (env.state f)
        · exact Or.inr (Or.inr ⟨rfl, he, hf⟩)
        · exact Or.inr (Or.inl ⟨rfl, he, hf⟩)

theorem notDefined_result (env : Env α β) (tt : Transfer) (f : α) (top report : Bool) :
    (notDefined env tt f top report).2 = .no ↔ ¬ Lenient env tt f := by
  unfold notDefined Lenient
  cases tt <;> cases env.fresh f <;> simp

theorem notDefined_result' (env : Env α β) (tt : Transfer) (f : α) (top report : Bool) :
    (notDefined env tt f top report).2 ≠ .maybe := by
  unfold notDefined
  cases tt <;> cases env.fresh f <;> simp

theorem notDefined_reps (env : Env α β) (tt : Transfer) (f : α) (top report : Bool) (r : Rep α) :
    r ∈ (notDefined env tt f top report).1 ↔ report = true ∧
      ((r = .undefined f ∧ (tt ∈ [.globReturn, .globPass] ∨ (tt ∈ [.paramReturn, .leave] ∧ top = false) ∨
        (tt ∈ [.fieldAssign, .globInit, .fcnPass, .fcnReturn] ∧ env.fresh f = false ∧
          env.state f ≠ .dead))) ∨
       (r = .released f ∧ tt ∈ [.fieldAssign, .globInit, .fcnPass, .fcnReturn] ∧ env.fresh f = false ∧
          env.state f = .dead)) := by
  unfold notDefined
  by_cases hd : env.state f = .dead <;>
    cases tt <;> cases hf : env.fresh f <;> cases report <;> cases top <;> simp [hd]

theorem hollow_inv {env : Env α β} {tt : Transfer} {n : Nat} {f : α} {t : β} {du : Bool}
    (h : Hollow env tt (n + 1) f t du) :
    (env.known f = true ∧ env.state f = .dead ∧ du = true) ∨
    (Undef env f t ∧ ¬ (env.state f = .dead ∧ env.shown f = true) ∧ ¬ Lenient env tt f) ∨
    (Enters env f t ∧ env.view f = .pointer ∧ env.state f = .unknown) ∨
    (Follows env f t ∧ Hollow env tt n (env.deref f) (env.tderef t) false) := by
  cases h
  · exact Or.inl ⟨by assumption, by assumption, rfl⟩
  · exact Or.inr (Or.inl ⟨by assumption, by assumption, by assumption⟩)
  · exact Or.inr (Or.inr (Or.inl ⟨by assumption, by assumption, by assumption⟩))
  · exact Or.inr (Or.inr (Or.inr ⟨by assumption, by assumption⟩))

/-- The result for a part: only what it points to matters. -/
theorem inner_result (env : Env α β) (tt : Transfer) : ∀ (n : Nat) (f : α) (t : β) (du : Bool),
    ((check env tt false n f t false du false).2 = .no ↔ Hollow env tt n f t du) ∧
    (check env tt false n f t false du false).2 ≠ .maybe := by
  intro n
  induction n with
  | zero =>
    intro f t du
    refine ⟨⟨fun h => (by cases h), fun h => (by cases h)⟩, fun h => (by cases h)⟩
  | succ n ih =>
    intro f t du
    rcases cases4 env f t false du with hk | ⟨hk, -, hd, hs⟩ | ⟨hk, hd, he | hu | hen⟩
    · rw [check_unknown env tt false (n + 1) f t false du false hk]
      refine ⟨⟨fun h => (by cases h), fun h => ?_⟩, fun h => (by cases h)⟩
      rcases hollow_inv h with ⟨h1, -⟩ | ⟨h1, -⟩ | ⟨h1, -⟩ | ⟨h1, -⟩
      · rw [hk] at h1; cases h1
      · have := h1.1; rw [hk] at this; cases this
      · have := h1.1; rw [hk] at this; cases this
      · have := h1.1.1; rw [hk] at this; cases this
    · have := check_dead env tt false n f t du false hk hd
      cases du with
      | true =>
        rw [this.1 rfl]
        exact ⟨⟨fun _ => .dead n f t hk hd, fun _ => rfl⟩, fun h => (by cases h)⟩
      | false =>
        have hs' : env.shown f = true := by simpa using hs
        rw [this.2 rfl hs']
        refine ⟨⟨fun h => (by cases h), fun h => ?_⟩, fun h => (by cases h)⟩
        rcases hollow_inv h with ⟨-, -, h1⟩ | ⟨-, h2, -⟩ | ⟨h1, -⟩ | ⟨h1, -⟩
        · cases h1
        · exact absurd ⟨hd, hs'⟩ h2
        · exact absurd hd (fine_not_dead _ h1.2.2)
        · exact absurd hd (fine_not_dead _ h1.1.2.2)
    · rw [check_excused env tt false n f t false du false hk he hd]
      refine ⟨⟨fun h => (by cases h), fun h => ?_⟩, fun h => (by cases h)⟩
      rcases hollow_inv h with ⟨-, h2, h3⟩ | ⟨h1, -⟩ | ⟨h1, -⟩ | ⟨h1, -⟩
      · exact absurd ⟨rfl, h2, Or.inl h3⟩ hd
      · exact absurd he h1.2.1
      · exact absurd he h1.2.1
      · exact absurd he h1.1.2.1
    · rw [check_undef env tt false n f t false du false hu hd]
      refine ⟨?_, notDefined_result' _ _ _ _ _⟩
      simp only
      rw [notDefined_result]
      constructor
      · intro hl
        refine .undef n f t du hu ?_ hl
        rintro ⟨h1, h2⟩
        exact hd ⟨rfl, h1, Or.inr h2⟩
      · intro h
        rcases hollow_inv h with ⟨-, h2, h3⟩ | ⟨-, -, h3⟩ | ⟨h1, -⟩ | ⟨h1, -⟩
        · exact absurd ⟨rfl, h2, Or.inl h3⟩ hd
        · exact h3
        · exact absurd h1.2.2 hu.2.2
        · exact absurd h1.1.2.2 hu.2.2
    · rw [check_enters env tt false n f t false du false hen]
      have hnd : env.state f ≠ .dead := fine_not_dead _ hen.2.2
      have inv : Hollow env tt (n + 1) f t du → env.view f = .pointer ∧ (env.state f = .unknown ∨
          (env.state f ≠ .unknown ∧ env.tpointer t = true ∧
            Hollow env tt n (env.deref f) (env.tderef t) false)) := by
        intro h
        rcases hollow_inv h with ⟨-, h2, -⟩ | ⟨h1, -⟩ | ⟨h1, h2, h3⟩ | ⟨h1, h2⟩
        · exact absurd h2 hnd
        · exact absurd hen.2.2 h1.2.2
        · exact ⟨h2, Or.inl h3⟩
        · exact ⟨h1.2.1, Or.inr ⟨h1.2.2.1, h1.2.2.2, h2⟩⟩
      unfold inside
      cases hv : env.view f with
      | unknown =>
        refine ⟨⟨fun h => (by cases h), fun h => ?_⟩, fun h => (by cases h)⟩
        have := (inv h).1; rw [hv] at this; cases this
      | other =>
        refine ⟨⟨fun h => (by cases h), fun h => ?_⟩, fun h => (by cases h)⟩
        have := (inv h).1; rw [hv] at this; cases this
      | pointer =>
        simp only
        by_cases hu : env.state f = .unknown
        · rw [if_pos hu]
          exact ⟨⟨fun _ => .unknownTarget n f t du hen hv hu, fun _ => rfl⟩, fun h => (by cases h)⟩
        · rw [if_neg hu]
          by_cases hp : env.tpointer t = true
          · rw [if_pos hp]
            refine ⟨?_, (ih _ _ _).2⟩
            rw [(ih _ _ _).1]
            constructor
            · intro h; exact .target n f t du ⟨hen, hv, hu, hp⟩ h
            · intro h
              rcases (inv h).2 with h | ⟨-, -, h⟩
              · exact absurd h hu
              · exact h
          · rw [if_neg hp]
            refine ⟨⟨fun h => (by cases h), fun h => ?_⟩, fun h => (by cases h)⟩
            rcases (inv h).2 with h | ⟨-, h, -⟩
            · exact absurd h hu
            · exact absurd h hp
      | struct =>
        simp only
        have hno : ¬ Hollow env tt (n + 1) f t du := by
          intro h; have := (inv h).1; rw [hv] at this; cases this
        by_cases hf : env.fits f t = true
        · rw [if_pos hf]
          by_cases hu : env.state f = .unknown
          · rw [if_pos hu]
            exact ⟨⟨fun h => (by cases h), fun h => absurd h hno⟩, fun h => (by cases h)⟩
          · rw [if_neg hu]
            unfold structResult
            simp [hno]
        · rw [if_neg hf]
          exact ⟨⟨fun h => (by cases h), fun h => absurd h hno⟩, fun h => (by cases h)⟩
      | union =>
        simp only
        have hno : ¬ Hollow env tt (n + 1) f t du := by
          intro h; have := (inv h).1; rw [hv] at this; cases this
        by_cases hu : env.state f = .unknown
        · rw [if_pos hu]
          exact ⟨⟨fun h => (by cases h), fun h => absurd h hno⟩, fun h => (by cases h)⟩
        · rw [if_neg hu]
          split
          · unfold unionResult
            simp [hno]
          · exact ⟨⟨fun h => (by cases h), fun h => absurd h hno⟩, fun h => (by cases h)⟩

/-- The check of a part. -/
def run (env : Env α β) (tt : Transfer) (n : Nat) (c : Cfg α β) : List (Rep α) × Ynm :=
  check env tt false n c.f c.t c.top c.du c.report

/-- The results of the fields of a structure. -/
def fieldResults (env : Env α β) (tt : Transfer) (n : Nat) (f : α) (t : β) : List (Nat × List (Rep α) × Ynm) :=
  (items env f t).map fun p =>
    (p.1, if env.recursive p.2.2 then ([], .yes) else check env tt false n p.2.1 p.2.2 false false false)

def altResults (env : Env α β) (tt : Transfer) (n : Nat) (f : α) (t : β) : List (Nat × List (Rep α) × Ynm) :=
  (unionItems env f t).map fun p =>
    (p.1, check env tt false n p.2.1 p.2.2 false (Several env f) false)

theorem run_struct (env : Env α β) (tt : Transfer) (n : Nat) (c : Cfg α β) (h : Struct env c.f c.t) :
    run env tt (n + 1) c = structResult tt c.f (partlyDefined (env.state c.f)) false c.du c.report
      (fieldResults env tt n c.f c.t) := by
  unfold run
  rw [check_enters env tt false n c.f c.t _ _ _ h.1]
  unfold inside
  rw [h.2.1]
  simp only
  rw [if_pos h.2.2.1, if_neg h.2.2.2]
  rfl

theorem run_union (env : Env α β) (tt : Transfer) (n : Nat) (c : Cfg α β) (h : Union env c.f c.t) :
    run env tt (n + 1) c = unionResult env tt c.f false c.report (altResults env tt n c.f c.t) := by
  unfold run
  rw [check_enters env tt false n c.f c.t _ _ _ h.1]
  unfold inside
  rw [h.2.1]
  simp only
  rw [if_neg h.2.2.2.2, if_pos (by simp [h.2.2.1, h.2.2.2.1]), several_eq]
  rfl

theorem run_target (env : Env α β) (tt : Transfer) (n : Nat) (c : Cfg α β) (h : Follows env c.f c.t) :
    run env tt (n + 1) c = run env tt n ⟨env.deref c.f, env.tderef c.t, false, false, c.report⟩ := by
  unfold run
  rw [check_enters env tt false n c.f c.t _ _ _ h.1]
  unfold inside
  rw [h.2.1]
  simp only
  rw [if_neg h.2.2.1, if_pos h.2.2.2]

/-- Storage whose parts are looked at, otherwise. -/
theorem run_enters (env : Env α β) (tt : Transfer) (n : Nat) (c : Cfg α β) (h : Enters env c.f c.t) :
    Follows env c.f c.t ∨ Struct env c.f c.t ∨ Union env c.f c.t ∨
    ((run env tt (n + 1) c).1 = [] ∧
      (run env tt (n + 1) c).2 = if env.view c.f = .pointer ∧ env.state c.f = .unknown then .no else .yes) := by
  unfold Follows Struct Union run
  rw [check_enters env tt false n c.f c.t _ _ _ h]
  unfold inside
  cases hv : env.view c.f with
  | unknown => simp
  | other => simp
  | pointer =>
    by_cases hu : env.state c.f = .unknown
    · simp [hu]
    · by_cases hp : env.tpointer c.t = true
      · exact Or.inl ⟨h, rfl, hu, hp⟩
      · simp [hu, hp]
  | struct =>
    by_cases hf : env.fits c.f c.t = true
    · by_cases hu : env.state c.f = .unknown
      · simp [hu, hf]
      · exact Or.inr (Or.inl ⟨h, rfl, hf, hu⟩)
    · simp [hf]
  | union =>
    by_cases hu : env.state c.f = .unknown
    · simp [hu]
    · by_cases hf : env.tknown c.t = true ∧ env.fits c.f c.t = true
      · exact Or.inr (Or.inr (Or.inl ⟨h, rfl, hf.1, hf.2, hu⟩))
      · have : (env.tknown c.t && env.fits c.f c.t) = false := by
          cases h1 : env.tknown c.t <;> cases h2 : env.fits c.f c.t <;> simp_all
        simp [hu, this]

theorem mem_fieldReps (env : Env α β) (tt : Transfer) (n : Nat) (f : α) (t : β) (r : Rep α) :
    r ∈ (fieldResults env tt n f t).flatMap (fun r => r.2.1) ↔
      ∃ name f' t', Field env f t name f' t' ∧ r ∈ (run env tt n ⟨f', t', false, false, false⟩).1 := by
  unfold fieldResults run
  rw [List.mem_flatMap]
  constructor
  · rintro ⟨x, hx, hr⟩
    obtain ⟨⟨name, f', t'⟩, hp, rfl⟩ := List.mem_map.1 hx
    by_cases hrec : env.recursive t' = true
    · simp [hrec] at hr
    · simp only [hrec] at hr
      exact ⟨name, f', t', (mem_items env f t name f' t').1 ⟨hp, by simpa using hrec⟩, hr⟩
  · rintro ⟨name, f', t', hf, hr⟩
    obtain ⟨hp, hrec⟩ := (mem_items env f t name f' t').2 hf
    refine ⟨_, List.mem_map.2 ⟨_, hp, rfl⟩, ?_⟩
    simp only [hrec]
    exact hr

theorem mem_badNames (env : Env α β) (tt : Transfer) (n : Nat) (f : α) (t : β) (name : Nat) :
    name ∈ ((fieldResults env tt n f t).filter fun r => r.2.2 == .no).map (·.1) ↔
      ∃ f' t', Field env f t name f' t' ∧ Hollow env tt n f' t' false := by
  unfold fieldResults
  simp only [List.mem_map, List.mem_filter]
  constructor
  · rintro ⟨x, ⟨⟨⟨name', f', t'⟩, hp, rfl⟩, hno⟩, rfl⟩
    by_cases hrec : env.recursive t' = true
    · simp [hrec] at hno
    · simp only [hrec] at hno
      refine ⟨f', t', (mem_items env f t name' f' t').1 ⟨hp, by simpa using hrec⟩, ?_⟩
      exact (inner_result env tt n f' t' false).1.1 (by simpa using hno)
  · rintro ⟨f', t', hf, hh⟩
    obtain ⟨hp, hrec⟩ := (mem_items env f t name f' t').2 hf
    refine ⟨_, ⟨⟨_, hp, rfl⟩, ?_⟩, rfl⟩
    simp only [hrec]
    have := (inner_result env tt n f' t' false).1.2 hh
    simp [this]

theorem mem_altReps (env : Env α β) (tt : Transfer) (n : Nat) (f : α) (t : β) (r : Rep α) :
    r ∈ (altResults env tt n f t).flatMap (fun r => r.2.1) ↔
      ∃ f' t', Alt env f t f' t' ∧ r ∈ (run env tt n ⟨f', t', false, Several env f, false⟩).1 := by
  unfold altResults run
  rw [List.mem_flatMap]
  constructor
  · rintro ⟨x, hx, hr⟩
    obtain ⟨⟨name, f', t'⟩, hp, rfl⟩ := List.mem_map.1 hx
    exact ⟨f', t', (mem_unionItems env f t f' t').1 ⟨name, hp⟩, hr⟩
  · rintro ⟨f', t', hf, hr⟩
    obtain ⟨name, hp⟩ := (mem_unionItems env f t f' t').2 hf
    exact ⟨_, List.mem_map.2 ⟨_, hp, rfl⟩, hr⟩

theorem good_alt (env : Env α β) (tt : Transfer) (n : Nat) (f : α) (t : β) :
    (altResults env tt n f t).any (fun r => r.2.2 == .yes) = false ↔
      ∀ f' t', Alt env f t f' t' → Hollow env tt n f' t' (Several env f) := by
  unfold altResults
  rw [List.any_eq_false]
  constructor
  · intro h f' t' ha
    obtain ⟨name, hp⟩ := (mem_unionItems env f t f' t').2 ha
    have := h _ (List.mem_map.2 ⟨_, hp, rfl⟩)
    obtain ⟨h1, h2⟩ := inner_result env tt n f' t' (Several env f)
    rw [← h1]
    cases hr : (check env tt false n f' t' false (Several env f) false).2 with
    | no => rfl
    | yes => simp [hr] at this
    | maybe => exact absurd hr h2
  · intro h x hx
    obtain ⟨⟨name, f', t'⟩, hp, rfl⟩ := List.mem_map.1 hx
    have := (inner_result env tt n f' t' (Several env f)).1.2 (h f' t' ((mem_unionItems env f t f' t').1 ⟨name, hp⟩))
    simp [this]

theorem mem_struct (tt : Transfer) (f : α) (partly du report : Bool) (rs : List (Nat × List (Rep α) × Ynm))
    (r : Rep α) : r ∈ (structResult tt f partly false du report rs).1 ↔
      r ∈ rs.flatMap (fun r => r.2.1) ∨
      ((rs.filter fun r => r.2.2 == .no).map (·.1) ≠ [] ∧ tt ≠ .leave ∧
        r = .fields f ((rs.filter fun r => r.2.2 == .no).map (·.1))) := by
  unfold structResult
  simp only [List.mem_append]
  refine or_congr Iff.rfl ?_
  generalize (rs.filter fun r => r.2.2 == .no).map (·.1) = names
  cases names with
  | nil => simp
  | cons a l =>
    by_cases h : tt = .leave
    · simp [h]
    · simp [h]

theorem sound (env : Env α β) (tt : Transfer) : ∀ (n : Nat) (c : Cfg α β) (r : Rep α),
    r ∈ (run env tt n c).1 → ∃ m d, Visit env n c (m + 1) d ∧ Wrong env tt m d r := by
  intro n
  induction n with
  | zero => intro c r h; cases h
  | succ n ih =>
    intro c r h
    rcases cases4 env c.f c.t c.top c.du with hk | ⟨hk, htop, hd, hs⟩ | ⟨hk, hd, he | hu | hen⟩
    · unfold run at h
      rw [check_unknown env tt false (n + 1) c.f c.t _ _ _ hk] at h
      cases h
    · have hch := check_dead env tt false n c.f c.t c.du c.report hk hd
      unfold run at h
      rw [htop] at h
      cases hdu : c.du with
      | true => rw [hdu] at h hch; rw [hch.1 rfl] at h; cases h
      | false =>
        rw [hdu] at h hch hs
        rw [hch.2 rfl (by simpa using hs)] at h
        have hr : r = .releasedPart c.f := by simpa using h
        subst hr
        exact ⟨n, c, .here _ _, .releasedPart n c hk htop hd hdu⟩
    · unfold run at h
      rw [check_excused env tt false n c.f c.t _ _ _ hk he hd] at h
      split at h
      · rename_i hc
        have hr : r = .releasedPart c.f := by simpa using h
        subst hr
        have htop : c.top = false := by cases ht : c.top <;> simp_all
        have hdd : env.state c.f = .dead := by cases ht : c.top <;> simp_all
        refine ⟨n, c, .here _ _, .releasedPart n c hk htop hdd ?_⟩
        cases hdu : c.du with
        | false => rfl
        | true => exact absurd ⟨htop, hdd, Or.inl hdu⟩ hd
      · cases h
    · unfold run at h
      rw [check_undef env tt false n c.f c.t _ _ _ hu hd] at h
      simp only [List.mem_append] at h
      rcases h with h | h
      · split at h
        · rename_i hc
          have hr : r = .releasedPart c.f := by simpa using h
          subst hr
          have htop : c.top = false := by cases ht : c.top <;> simp_all
          have hdd : env.state c.f = .dead := by cases ht : c.top <;> simp_all
          refine ⟨n, c, .here _ _, .releasedPart n c hk htop hdd ?_⟩
          cases hdu : c.du with
          | false => rfl
          | true => exact absurd ⟨htop, hdd, Or.inl hdu⟩ hd
        · cases h
      · rw [notDefined_reps] at h
        obtain ⟨hrep, ⟨rfl, h⟩ | ⟨rfl, h1, h2, h3⟩⟩ := h
        · exact ⟨n, c, .here _ _, .undefined n c hu hrep hd h⟩
        · exact ⟨n, c, .here _ _, .released n c hu hrep (fun hx => hd ⟨hx.1, h3, hx.2⟩) h1 h2 h3⟩
    · rcases run_enters env tt n c hen with hf | hs | hun | ⟨h0, -⟩
      · rw [run_target env tt n c hf] at h
        obtain ⟨m, d, hv, hw⟩ := ih _ _ h
        exact ⟨m, d, .step n _ _ _ _ (.target c hf) hv, hw⟩
      · rw [run_struct env tt n c hs] at h
        rw [mem_struct] at h
        rcases h with h | ⟨h1, h2, rfl⟩
        · obtain ⟨name, f', t', hfd, hr⟩ := (mem_fieldReps env tt n c.f c.t r).1 h
          obtain ⟨m, d, hv, hw⟩ := ih _ _ hr
          exact ⟨m, d, .step n _ _ _ _ (.field c name f' t' hs hfd) hv, hw⟩
        · exact ⟨n, c, .here _ _, .fields n c _ hs h2 h1 (mem_badNames env tt n c.f c.t)⟩
      · rw [run_union env tt n c hun] at h
        unfold unionResult at h
        simp only [List.mem_append] at h
        rcases h with h | h
        · obtain ⟨f', t', hfd, hr⟩ := (mem_altReps env tt n c.f c.t r).1 h
          obtain ⟨m, d, hv, hw⟩ := ih _ _ hr
          exact ⟨m, d, .step n _ _ _ _ (.alt c f' t' hun hfd) hv, hw⟩
        · split at h
          · rename_i hc
            simp only [Bool.not_false, Bool.and_true, Bool.and_eq_true, Bool.not_eq_true', bne_iff_ne] at hc
            obtain ⟨⟨⟨⟨⟨h1, h2⟩, h3⟩, h4⟩, h5⟩, h6⟩ := hc
            have hr : r = .union c.f := List.mem_singleton.1 h
            subst hr
            refine ⟨n, c, .here _ _, .union n c hun ?_ h3 (by simp [h4, h5, h6])
              ((good_alt env tt n c.f c.t).1 h1)⟩
            rw [← partly_iff, h2]
            simp
          · cases h
      · rw [h0] at h; cases h

/-- Two reports are the same up to the order and multiplicity of the names of fields. -/
def Same (r r' : Rep α) : Prop :=
  r = r' ∨ ∃ f a b, r = .fields f a ∧ r' = .fields f b ∧ ∀ x, x ∈ a ↔ x ∈ b

theorem complete_here (env : Env α β) (tt : Transfer) (m : Nat) (d : Cfg α β) (r : Rep α)
    (h : Wrong env tt m d r) : ∃ r', Same r r' ∧ r' ∈ (run env tt (m + 1) d).1 := by
  cases h with
  | releasedPart hk htop hd hdu =>
    refine ⟨_, Or.inl rfl, ?_⟩
    unfold run
    by_cases hsh : env.shown d.f = true
    · rw [htop, (check_dead env tt false m d.f d.t d.du d.report hk hd).2 hdu hsh]
      simp
    · have hx : ¬ (d.top = false ∧ env.state d.f = .dead ∧ (d.du = true ∨ env.shown d.f = true)) := by
        rintro ⟨-, -, h | h⟩
        · rw [hdu] at h; cases h
        · exact hsh h
      by_cases he : Excused env d.t
      · rw [check_excused env tt false m d.f d.t _ _ _ hk he hx]
        simp [htop, hd]
      · have hu : Undef env d.f d.t := ⟨hk, he, fun hf => fine_not_dead _ hf hd⟩
        rw [check_undef env tt false m d.f d.t _ _ _ hu hx]
        simp [htop, hd]
  | undefined hu hrep hd htt =>
    refine ⟨_, Or.inl rfl, ?_⟩
    unfold run
    rw [check_undef env tt false m d.f d.t _ _ _ hu hd]
    refine List.mem_append_right _ ?_
    rw [notDefined_reps]
    exact ⟨hrep, Or.inl ⟨rfl, htt⟩⟩
  | released hu hrep hd htt hfr hdead =>
    refine ⟨_, Or.inl rfl, ?_⟩
    unfold run
    rw [check_undef env tt false m d.f d.t _ _ _ hu (fun hx => hd ⟨hx.1, hx.2.2⟩)]
    refine List.mem_append_right _ ?_
    rw [notDefined_reps]
    exact ⟨hrep, Or.inr ⟨rfl, htt, hfr, hdead⟩⟩
  | fields names hs htt hne hn =>
    have hne' : ((fieldResults env tt m d.f d.t).filter fun r => r.2.2 == .no).map (·.1) ≠ [] := by
      obtain ⟨x, hx⟩ := List.exists_mem_of_ne_nil names hne
      have := (mem_badNames env tt m d.f d.t x).2 ((hn x).1 hx)
      intro h0
      rw [h0] at this
      cases this
    refine ⟨.fields d.f (((fieldResults env tt m d.f d.t).filter fun r => r.2.2 == .no).map (·.1)),
      Or.inr ⟨d.f, names, ((fieldResults env tt m d.f d.t).filter fun r => r.2.2 == .no).map (·.1),
        rfl, rfl, ?_⟩, ?_⟩
    · intro x
      rw [hn x, mem_badNames]
    · rw [run_struct env tt m d hs, mem_struct]
      exact Or.inr ⟨hne', htt, rfl⟩
  | union hun hp hud htt hall =>
    refine ⟨_, Or.inl rfl, ?_⟩
    rw [run_union env tt m d hun]
    unfold unionResult
    refine List.mem_append_right _ ?_
    have h1 := (good_alt env tt m d.f d.t).2 hall
    have h2 : partlyDefined (env.state d.f) = false := by
      rw [← Bool.not_eq_true, partly_iff]; exact hp
    simp only [List.mem_cons, List.not_mem_nil, or_false, not_or] at htt
    rw [if_pos]
    · exact List.mem_singleton.2 rfl
    · simp [h1, h2, hud, htt]

theorem goes_mono (env : Env α β) (tt : Transfer) (n : Nat) (c d : Cfg α β) (h : Goes env c d) (r : Rep α)
    (hr : r ∈ (run env tt n d).1) : r ∈ (run env tt (n + 1) c).1 := by
  cases h with
  | target hf => rw [run_target env tt n c hf]; exact hr
  | field name f t hs hfd =>
    rw [run_struct env tt n c hs]
    exact List.mem_append_left _ ((mem_fieldReps env tt n c.f c.t r).2 ⟨name, f, t, hfd, hr⟩)
  | alt f t hun hfd =>
    rw [run_union env tt n c hun]
    exact List.mem_append_left _ ((mem_altReps env tt n c.f c.t r).2 ⟨f, t, hfd, hr⟩)

theorem visit_mono (env : Env α β) (tt : Transfer) (n m : Nat) (c d : Cfg α β) (h : Visit env n c m d)
    (r : Rep α) (hr : r ∈ (run env tt m d).1) : r ∈ (run env tt n c).1 := by
  induction h with
  | here n c => exact hr
  | step n m c d e hg _ ih => exact goes_mono env tt n c d hg r (ih hr)

/-- The transferred storage itself. -/
def start (f : α) (t : β) : Cfg α β := ⟨f, t, true, false, true⟩

/-- C127: exactly what is reported about transferred storage: what is wrong with some part that is looked at,
within eleven levels. -/
theorem C127_exactly (env : Env α β) (tt : Transfer) (f : α) (t : β) :
    (∀ r ∈ (transfer env tt f t).1, ∃ m d, Visit env 11 (start f t) (m + 1) d ∧ Wrong env tt m d r) ∧
    (∀ m d r, Visit env 11 (start f t) (m + 1) d → Wrong env tt m d r →
      ∃ r' ∈ (transfer env tt f t).1, Same r r') := by
  constructor
  · intro r hr
    exact sound env tt 11 (start f t) r hr
  · intro m d r hv hw
    obtain ⟨r', hs, hr⟩ := complete_here env tt m d r hw
    exact ⟨r', visit_mono env tt 11 (m + 1) (start f t) d hv r' hr, hs⟩

/-! ## Complete storage -/

/-- Nothing is wrong with a part itself. -/
def Sound (env : Env α β) (c : Cfg α β) : Prop :=
  ¬ Undef env c.f c.t ∧ env.state c.f ≠ .dead ∧
  ¬ (Enters env c.f c.t ∧ env.view c.f = .pointer ∧ env.state c.f = .unknown) ∧
  (Union env c.f c.t → Partly (env.state c.f))

theorem hollow_visit (env : Env α β) (tt : Transfer) (n : Nat) (f : α) (t : β) (du : Bool)
    (h : Hollow env tt n f t du) (top report : Bool) :
    ∃ m d, Visit env n ⟨f, t, top, du, report⟩ (m + 1) d ∧ ¬ Sound env d := by
  induction h generalizing top with
  | dead n f t hk hd => exact ⟨n, _, .here _ _, fun hs => hs.2.1 hd⟩
  | undef n f t du hu _ _ => exact ⟨n, _, .here _ _, fun hs => hs.1 hu⟩
  | unknownTarget n f t du he hv hu => exact ⟨n, _, .here _ _, fun hs => hs.2.2.1 ⟨he, hv, hu⟩⟩
  | target n f t du hf _ ih =>
    obtain ⟨m, d, hv, hs⟩ := ih false
    exact ⟨m, d, .step n _ _ _ _ (.target ⟨f, t, top, du, report⟩ hf) hv, hs⟩

theorem run_result_sound (env : Env α β) (tt : Transfer) : ∀ (n : Nat) (c : Cfg α β),
    (∀ m d, Visit env n c (m + 1) d → Sound env d) → (run env tt n c).2 = .yes := by
  intro n
  induction n with
  | zero => intro c _; rfl
  | succ n ih =>
    intro c h
    have hc := h n c (.here _ _)
    rcases cases4 env c.f c.t c.top c.du with hk | ⟨hk, htop, hd, hs⟩ | ⟨hk, hd, he | hu | hen⟩
    · unfold run; rw [check_unknown env tt false (n + 1) c.f c.t _ _ _ hk]
    · exact absurd hd hc.2.1
    · unfold run; rw [check_excused env tt false n c.f c.t _ _ _ hk he hd]
    · exact absurd hu hc.1
    · rcases run_enters env tt n c hen with hf | hs | hun | ⟨-, h0⟩
      · rw [run_target env tt n c hf]
        exact ih _ fun m d hv => h m d (.step n _ _ _ _ (.target c hf) hv)
      · rw [run_struct env tt n c hs]
        have : ((fieldResults env tt n c.f c.t).filter fun r => r.2.2 == .no).map (·.1) = [] := by
          by_contra hne
          obtain ⟨x, hx⟩ := List.exists_mem_of_ne_nil _ hne
          obtain ⟨f', t', hfd, hh⟩ := (mem_badNames env tt n c.f c.t x).1 hx
          obtain ⟨m, d, hv, hns⟩ := hollow_visit env tt n f' t' false hh false false
          exact hns (h m d (.step n _ _ _ _ (.field c x f' t' hs hfd) hv))
        unfold structResult
        simp [this]
      · rw [run_union env tt n c hun]
        have := (partly_iff _).2 (hc.2.2.2 hun)
        unfold unionResult
        simp [this]
      · rw [h0, if_neg]
        exact fun hx => hc.2.2.1 ⟨hen, hx.1, hx.2⟩

/-- C127: if nothing is wrong with any part, nothing is reported, and the storage passes. -/
theorem C127_complete (env : Env α β) (tt : Transfer) (f : α) (t : β)
    (h : ∀ m d, Visit env 11 (start f t) (m + 1) d → Sound env d) : transfer env tt f t = ([], .yes) := by
  have h2 : (transfer env tt f t).2 = .yes := run_result_sound env tt 11 (start f t) h
  have h1 : (transfer env tt f t).1 = [] := by
    rw [List.eq_nil_iff_forall_not_mem]
    intro r hr
    obtain ⟨m, d, hv, hw⟩ := (C127_exactly env tt f t).1 r hr
    have hs := h m d hv
    cases hw with
    | releasedPart hk htop hd hdu => exact hs.2.1 hd
    | undefined hu _ _ _ => exact hs.1 hu
    | released hu _ _ _ _ _ => exact hs.1 hu
    | fields names hst htt hne hn =>
      obtain ⟨x, hx⟩ := List.exists_mem_of_ne_nil names hne
      obtain ⟨f', t', hfd, hh⟩ := (hn x).1 hx
      obtain ⟨k, e, hv', hns⟩ := hollow_visit env tt m f' t' false hh false false
      refine hns (h k e ?_)
      have : ∀ (n m : Nat) (c d : Cfg α β), Visit env n c m d → ∀ k e, Visit env m d k e → Visit env n c k e := by
        intro n m c d hv
        induction hv with
        | here n c => intro k e h; exact h
        | step n m c d e hg _ ih => intro k e' h; exact .step n _ _ _ _ hg (ih _ _ h)
      exact this _ _ _ _ hv _ _ (.step m _ _ _ _ (.field d x f' t' hst hfd) hv')
    | union hun hp _ _ _ => exact hp (hs.2.2.2 hun)
  exact Prod.ext h1 h2

/-! ## Undefined parts -/

/-- The parts that are reached without a union. -/
inductive Reach (env : Env α β) : Nat → α → β → Nat → α → β → Prop
  | here (n : Nat) (f : α) (t : β) : Reach env n f t n f t
  | target (n m : Nat) (f g : α) (t u : β) : Follows env f t →
      Reach env n (env.deref f) (env.tderef t) m g u → Reach env (n + 1) f t m g u
  | field (n m : Nat) (f f' g : α) (t t' u : β) (name : Nat) : Struct env f t → Field env f t name f' t' →
      Reach env n f' t' m g u → Reach env (n + 1) f t m g u

/-- What pointers lead to. -/
inductive Chain (env : Env α β) : Nat → α → β → Nat → α → β → Prop
  | here (n : Nat) (f : α) (t : β) : Chain env n f t n f t
  | target (n m : Nat) (f g : α) (t u : β) : Follows env f t →
      Chain env n (env.deref f) (env.tderef t) m g u → Chain env (n + 1) f t m g u

theorem chain_hollow (env : Env α β) (tt : Transfer) (n m : Nat) (f g : α) (t u : β)
    (h : Chain env n f t (m + 1) g u) (hu : Undef env g u)
    (hd : ¬ (env.state g = .dead ∧ env.shown g = true)) (hl : ¬ Lenient env tt g) :
    Hollow env tt n f t false := by
  generalize hm : m + 1 = k at h
  induction h with
  | here n f t => subst hm; exact .undef m f t false hu hd hl
  | target n k f g t u hf _ ih => exact .target n f t false hf (ih hu hd hl hm)

theorem chain_visit (env : Env α β) (n m : Nat) (f g : α) (t u : β) (h : Chain env n f t m g u)
    (top du report : Bool) : ∃ top' du', (n ≠ m → top' = false ∧ du' = false) ∧
      (n = m → top' = top ∧ du' = du) ∧ m ≤ n ∧
      Visit env n ⟨f, t, top, du, report⟩ m ⟨g, u, top', du', report⟩ := by
  induction h generalizing top du with
  | here n f t => exact ⟨top, du, fun h => absurd rfl h, fun _ => ⟨rfl, rfl⟩, Nat.le_refl _, .here _ _⟩
  | target n k f g t u hf _ ih =>
    obtain ⟨top', du', h1, h2, h3, h4⟩ := ih false false
    refine ⟨top', du', fun _ => ?_, fun h => by omega, by omega,
      .step n _ _ _ _ (.target ⟨f, t, top, du, report⟩ hf) h4⟩
    by_cases hnk : n = k
    · exact h2 hnk
    · exact h1 hnk

/-- From a part reached without a union, back to the structure that contains it. -/
theorem reach_split (env : Env α β) (n m : Nat) (f g : α) (t u : β) (h : Reach env n f t m g u)
    (top du report : Bool) :
    Chain env n f t m g u ∨ ∃ k d name f' t', Visit env n ⟨f, t, top, du, report⟩ (k + 1) d ∧
      Struct env d.f d.t ∧ Field env d.f d.t name f' t' ∧ Chain env k f' t' m g u := by
  induction h generalizing top du report with
  | here n f t => exact Or.inl (.here n f t)
  | target n m f g t u hf _ ih =>
    rcases ih false false report with h | ⟨k, d, name, f', t', hv, hs, hfd, hc⟩
    · exact Or.inl (.target n m f g t u hf h)
    · exact Or.inr ⟨k, d, name, f', t', .step n _ _ _ _ (.target ⟨f, t, top, du, report⟩ hf) hv, hs, hfd, hc⟩
  | field n m f f' g t t' u name hs hfd _ ih =>
    rcases ih false false false with h | ⟨k, d, name', f'', t'', hv, hs', hfd', hc⟩
    · exact Or.inr ⟨n, ⟨f, t, top, du, report⟩, name, f', t', .here _ _, hs, hfd, h⟩
    · exact Or.inr ⟨k, d, name', f'', t'',
        .step n _ _ _ _ (.field ⟨f, t, top, du, report⟩ name f' t' hs hfd) hv, hs', hfd', hc⟩

theorem visit_trans (env : Env α β) (n m k : Nat) (c d e : Cfg α β) (h : Visit env n c m d)
    (h' : Visit env m d k e) : Visit env n c k e := by
  induction h with
  | here n c => exact h'
  | step n m c d e' hg _ ih => exact .step n _ _ _ _ hg (ih h')

/-- C127: undefined storage that is reached without a union is reported when storage is passed, returned from
a function, or left in a global variable. -/
theorem C127_undefined (env : Env α β) (tt : Transfer) (f g : α) (t u : β) (m : Nat)
    (htt : tt ∈ [.globReturn, .globPass, .fcnPass, .fcnReturn])
    (hr : Reach env 11 f t (m + 1) g u) (hu : Undef env g u) (hfr : env.fresh g = false) :
    (transfer env tt f t).1 ≠ [] := by
  have key : ∀ (m : Nat) (d : Cfg α β) (r : Rep α), Visit env 11 (start f t) (m + 1) d → Wrong env tt m d r →
      (transfer env tt f t).1 ≠ [] := by
    intro m d r hv hw h0
    obtain ⟨r', hr', -⟩ := (C127_exactly env tt f t).2 m d r hv hw
    rw [h0] at hr'
    cases hr'
  have hl : ¬ Lenient env tt g := by
    unfold Lenient
    rw [hfr]
    simp only [List.mem_cons, List.not_mem_nil, or_false] at htt
    rcases htt with rfl | rfl | rfl | rfl <;> simp
  have htt2 : tt ≠ .leave := by
    rintro rfl; simp at htt
  rcases reach_split env _ _ _ _ _ _ hr true false true with hc | ⟨k, d, name, f', t', hv, hs, hfd, hc⟩
  · obtain ⟨top', du', h1, h2, h3, hv⟩ := chain_visit env _ _ _ _ _ _ hc true false true
    have hdu : du' = false := by
      by_cases h : 11 = m + 1
      · exact (h2 h).2
      · exact (h1 h).2
    subst hdu
    by_cases hd : top' = false ∧ env.state g = .dead ∧ env.shown g = true
    · exact key m _ _ hv (.releasedPart m ⟨g, u, top', false, true⟩ hu.1 hd.1 hd.2.1 rfl)
    · have hd' : ¬ (top' = false ∧ env.state g = .dead ∧ (false = true ∨ env.shown g = true)) := by
        rintro ⟨h1, h2, h3 | h3⟩
        · cases h3
        · exact hd ⟨h1, h2, h3⟩
      simp only [List.mem_cons, List.not_mem_nil, or_false] at htt
      by_cases hdead : env.state g = .dead
      · rcases htt with rfl | rfl | rfl | rfl
        · exact key m _ _ hv (.undefined m ⟨g, u, top', false, true⟩ hu rfl hd' (Or.inl (by simp)))
        · exact key m _ _ hv (.undefined m ⟨g, u, top', false, true⟩ hu rfl hd' (Or.inl (by simp)))
        · exact key m _ _ hv (.released m ⟨g, u, top', false, true⟩ hu rfl
            (fun hx => hd' ⟨hx.1, hdead, hx.2⟩) (by simp) hfr hdead)
        · exact key m _ _ hv (.released m ⟨g, u, top', false, true⟩ hu rfl
            (fun hx => hd' ⟨hx.1, hdead, hx.2⟩) (by simp) hfr hdead)
      · refine key m _ _ hv (.undefined m ⟨g, u, top', false, true⟩ hu rfl hd' ?_)
        rcases htt with rfl | rfl | rfl | rfl
        · exact Or.inl (by simp)
        · exact Or.inl (by simp)
        · exact Or.inr (Or.inr ⟨by simp, hfr, hdead⟩)
        · exact Or.inr (Or.inr ⟨by simp, hfr, hdead⟩)
  · by_cases hd : env.state g = .dead ∧ env.shown g = true
    · obtain ⟨top', du', h1, h2, h3, hv'⟩ := chain_visit env _ _ _ _ _ _ hc false false false
      have htd : top' = false ∧ du' = false := by
        by_cases h : k = m + 1
        · exact h2 h
        · exact h1 h
      refine key m _ _ (visit_trans env _ _ _ _ _ _ hv
        (.step k _ _ _ _ (.field d name f' t' hs hfd) hv')) (.releasedPart m ⟨g, u, top', du', false⟩ hu.1 htd.1 hd.1 htd.2)
    · have hh := chain_hollow env tt _ _ _ _ _ _ hc hu hd hl
      have hmem := (mem_badNames env tt k d.f d.t name).2 ⟨f', t', hfd, hh⟩
      refine key k d _ hv (.fields k d (((fieldResults env tt k d.f d.t).filter fun r => r.2.2 == .no).map (·.1))
        hs htt2 ?_ (mem_badNames env tt k d.f d.t))
      intro h0
      rw [h0] at hmem
      cases hmem

/-! ## Unions -/

/-- C127 in full: a union one of whose fields is completely defined is not reported. -/
def C127_full : Prop :=
  ∀ (α β : Type) (env : Env α β) (tt : Transfer) (f g : α) (t u : β), Union env f t →
    Alt env f t g u → (∀ m d, Visit env 10 ⟨g, u, false, Several env f, false⟩ (m + 1) d → Sound env d) →
    (transfer env tt f t).1 = []

/-- References of `union { int i; struct { int x; } s; } u`. -/
inductive Ref where
  | u | i | s | x
deriving DecidableEq, Repr

def unionEnv : Env Ref Ref where
  known := fun _ => true
  state := fun | .u => .pDefined | .i => .defined | .s => .allocated | .x => .undefined
  view := fun | .u => .union | .s => .struct | _ => .other
  fresh := fun _ => false
  deref := fun r => r
  mentioned := fun | .u => [(0, .i), (1, .s)] | _ => []
  fields := fun | .s => [(2, .x)] | _ => []
  tstate := fun _ => .defined
  tpointer := fun _ => false
  tknown := fun _ => true
  tderef := fun r => r
  tfield := fun _ n => if n = 0 then .i else if n = 1 then .s else .x
  recursive := fun _ => false
  fits := fun _ _ => true
  shown := fun _ => true
  unionDef := true

theorem C127_full_is_false : ¬ C127_full := by
  intro h
  have hun : Union unionEnv .u .u := ⟨⟨rfl, by unfold Excused; decide, by unfold Fine; decide⟩, rfl, rfl, rfl, by decide⟩
  have := h Ref Ref unionEnv .fcnPass .u .i .u .i hun ⟨0, rfl, by decide⟩ ?_
  · revert this
    decide
  · intro m d hv
    cases hv with
    | here =>
      refine ⟨?_, by decide, ?_, ?_⟩
      · rintro ⟨-, -, hf⟩; exact hf (by unfold Fine; decide)
      · rintro ⟨-, hv, -⟩; cases hv
      · rintro ⟨-, hv, -⟩; cases hv
    | step _ _ _ _ _ hg _ =>
      exfalso
      cases hg with
      | target hf => have := hf.2.1; cases this
      | field _ _ _ hs _ => have := hs.2.1; cases this
      | alt _ _ hun _ => have := hun.2.1; cases this

/-- C127, the other way: an undefined field of a structure in a union is reported, whatever the other fields of
the union. -/
theorem C127_union_struct (env : Env α β) (tt : Transfer) (f s g : α) (t u v : β) (name : Nat)
    (htt : tt ≠ .leave) (hun : Union env f t) (ha : Alt env f t s u) (hs : Struct env s u)
    (hf : Field env s u name g v) (hh : Hollow env tt 9 g v false) :
    ∃ names, name ∈ names ∧ Rep.fields s names ∈ (transfer env tt f t).1 := by
  have hv : Visit env 11 (start f t) (9 + 1) ⟨s, u, false, Several env f, false⟩ :=
    .step 10 _ _ _ _ (.alt (start f t) s u hun ha) (.here 10 _)
  have hmem := (mem_badNames env tt 9 s u name).2 ⟨g, v, hf, hh⟩
  have hw : Wrong env tt 9 ⟨s, u, false, Several env f, false⟩
      (.fields s (((fieldResults env tt 9 s u).filter fun r => r.2.2 == .no).map (·.1))) :=
    .fields 9 ⟨s, u, false, Several env f, false⟩ _ hs htt (fun h0 => by rw [h0] at hmem; cases hmem)
      (mem_badNames env tt 9 s u)
  obtain ⟨r', hr', hsame⟩ := (C127_exactly env tt f t).2 9 _ _ hv hw
  rcases hsame with rfl | ⟨f0, a, b, h1, rfl, hab⟩
  · exact ⟨_, hmem, hr'⟩
  · cases h1
    exact ⟨b, (hab name).1 hmem, hr'⟩

/-- C127: a union that is only allocated does not pass, even if one of its fields is defined; nothing is reported
about it then. -/
theorem C127_union_fails (env : Env α β) (tt : Transfer) (f g : α) (t u : β) (hun : Union env f t)
    (ha : Alt env f t g u) (hst : env.state f = .allocated)
    (hd : ∀ m d, Visit env 10 ⟨g, u, false, Several env f, false⟩ (m + 1) d → Sound env d) :
    (transfer env tt f t).2 = .no ∧ Rep.union f ∉ (transfer env tt f t).1 ∨
      ∃ m d, Visit env 11 (start f t) (m + 1) d ∧ m + 1 ≠ 11 ∧ d.f = f := by
  by_cases hex : ∃ m d, Visit env 11 (start f t) (m + 1) d ∧ m + 1 ≠ 11 ∧ d.f = f
  · exact Or.inr hex
  refine Or.inl ⟨?_, ?_⟩
  · show (run env tt 11 (start f t)).2 = .no
    rw [run_union env tt 10 (start f t) hun]
    unfold unionResult
    simp [start, hst, partlyDefined]
  · intro hm
    obtain ⟨m, d, hv, hw⟩ := (C127_exactly env tt f t).1 _ hm
    have hdf : d.f = f := by cases hw; rfl
    have h11 : m + 1 = 11 := by
      by_contra hne; exact hex ⟨m, d, hv, hne, hdf⟩
    have hdec : ∀ (n m : Nat) (c d : Cfg α β), Visit env n c m d → m ≤ n ∧ (m = n → c = d) := by
      intro n m c d hv
      induction hv with
      | here n c => exact ⟨Nat.le_refl _, fun _ => rfl⟩
      | step n m c d e _ _ ih => exact ⟨by omega, fun h => by omega⟩
    have hcd := (hdec _ _ _ _ hv).2 h11
    have hm10 : m = 10 := by omega
    subst hcd hm10
    cases hw with
    | union _ _ _ _ hall =>
      have hh := hall g u ha
      obtain ⟨k, e, hv', hns⟩ := hollow_visit env tt 10 g u _ hh false false
      exact hns (hd k e hv')

/-- An allocated union with a defined field: no report, but it does not pass. -/
example : transfer { unionEnv with state := fun | .u => .allocated | .i => .defined | .s => .allocated | .x => .defined
                                   mentioned := fun | .u => [(0, .i)] | _ => [] } .fcnPass .u .u = ([], .no) := by
  decide

/-- C127, partial: a union that was written, all of whose mentioned fields are complete, is not reported. Missing:
unions with incomplete fields beside a complete one (`C127_union_struct`). -/
theorem C127_partial (env : Env α β) (tt : Transfer) (f : α) (t : β) (hun : Union env f t)
    (hp : Partly (env.state f))
    (h : ∀ g u, Alt env f t g u →
      ∀ m d, Visit env 10 ⟨g, u, false, Several env f, false⟩ (m + 1) d → Sound env d) :
    transfer env tt f t = ([], .yes) := by
  refine C127_complete env tt f t ?_
  intro m d hv
  cases hv with
  | here =>
    refine ⟨fun hu => hu.2.2 hun.1.2.2, fine_not_dead _ hun.1.2.2, ?_, fun _ => hp⟩
    rintro ⟨-, hv, -⟩
    have := hun.2.1
    have hv' : env.view f = .pointer := hv
    rw [this] at hv'
    cases hv'
  | step _ _ _ _ _ hg hv =>
    have hview := hun.2.1
    cases hg with
    | target hf => have hx : env.view f = .pointer := hf.2.1; rw [hview] at hx; cases hx
    | field _ _ _ hs _ => have hx : env.view f = .struct := hs.2.1; rw [hview] at hx; cases hx
    | alt g u _ ha => exact h g u ha m d hv

/-- C127: at the end of a block, undefined fields of structures are never reported. -/
theorem C127_leave (env : Env α β) (f g : α) (t : β) (names : List Nat) :
    Rep.fields g names ∉ (transfer env .leave f t).1 := by
  intro h
  obtain ⟨m, d, -, hw⟩ := (C127_exactly env .leave f t).1 _ h
  cases hw with
  | fields _ _ htt _ _ => exact htt rfl

/-- C127: a pointer in an unknown state does not pass, but is not reported; as a field of a structure it is
reported as undefined. -/
theorem C127_unknown_pointer (env : Env α β) (tt : Transfer) (f : α) (t : β) (he : Enters env f t)
    (hv : env.view f = .pointer) (hu : env.state f = .unknown) : transfer env tt f t = ([], .no) := by
  have : run env tt 11 (start f t) = ([], .no) := by
    rcases run_enters env tt 10 (start f t) he with h | h | h | ⟨h1, h2⟩
    · exact absurd hu h.2.2.1
    · exact absurd hu h.2.2.2
    · exact absurd hu h.2.2.2.2
    · rw [if_pos ⟨hv, hu⟩] at h2
      exact Prod.ext h1 h2
  exact this

/-- The hypotheses of `C127_undefined`: the field of a structure. -/
example : Reach unionEnv 11 .s .s 10 .x .x ∧ Undef unionEnv .x .x ∧
    (transfer unionEnv .fcnReturn .s .s) = ([.fields .s [2]], .no) := by
  refine ⟨.field 10 10 Ref.s Ref.x Ref.x Ref.s Ref.x Ref.x 2 ⟨⟨rfl, by unfold Excused; decide, by unfold Fine; decide⟩, rfl, rfl, by decide⟩
    ⟨rfl, rfl, Or.inr ⟨rfl, by decide⟩⟩ (.here _ _ _), ⟨rfl, by unfold Excused; decide, by unfold Fine; decide⟩, by decide⟩

/-! ## The result -/

theorem fails_inv {env : Env α β} {tt : Transfer} {n : Nat} {f : α} {t : β} {top : Bool}
    (h : Fails env tt (n + 1) f t top) :
    (Undef env f t ∧ ¬ (top = false ∧ env.state f = .dead ∧ env.shown f = true) ∧ ¬ Lenient env tt f) ∨
    (Enters env f t ∧ env.view f = .pointer ∧ env.state f = .unknown) ∨
    (Follows env f t ∧ Fails env tt n (env.deref f) (env.tderef t) false) ∨
    (Struct env f t ∧ ∃ name f' t', Field env f t name f' t' ∧ Hollow env tt n f' t' false) ∨
    (Union env f t ∧ ¬ Partly (env.state f)) := by
  cases h
  · exact Or.inl ⟨by assumption, by assumption, by assumption⟩
  · exact Or.inr (Or.inl ⟨by assumption, by assumption, by assumption⟩)
  · exact Or.inr (Or.inr (Or.inl ⟨by assumption, by assumption⟩))
  · exact Or.inr (Or.inr (Or.inr (Or.inl ⟨by assumption, _, _, _, by assumption, by assumption⟩)))
  · exact Or.inr (Or.inr (Or.inr (Or.inr ⟨by assumption, by assumption⟩)))

theorem run_result (env : Env α β) (tt : Transfer) : ∀ (n : Nat) (f : α) (t : β) (top : Bool),
    ((run env tt n ⟨f, t, top, false, true⟩).2 = .no ↔ Fails env tt n f t top) ∧
    (run env tt n ⟨f, t, top, false, true⟩).2 ≠ .maybe := by
  intro n
  induction n with
  | zero =>
    intro f t top
    exact ⟨⟨fun h => (by cases h), fun h => (by cases h)⟩, fun h => (by cases h)⟩
  | succ n ih =>
    intro f t top
    rcases cases4 env f t top false with hk | ⟨hk, htop, hd, hs⟩ | ⟨hk, hd, he | hu | hen⟩
    · unfold run
      rw [check_unknown env tt false (n + 1) f t _ _ _ hk]
      refine ⟨⟨fun h => (by cases h), fun h => ?_⟩, fun h => (by cases h)⟩
      exfalso
      rcases fails_inv h with ⟨h1, -⟩ | ⟨h1, -⟩ | ⟨h1, -⟩ | ⟨h1, -⟩ | ⟨h1, -⟩
      · have := h1.1; rw [hk] at this; cases this
      · have := h1.1; rw [hk] at this; cases this
      · have := h1.1.1; rw [hk] at this; cases this
      · have := h1.1.1; rw [hk] at this; cases this
      · have := h1.1.1; rw [hk] at this; cases this
    · subst htop
      have hs' : env.shown f = true := by simpa using hs
      unfold run
      rw [(check_dead env tt false n f t false true hk hd).2 rfl hs']
      refine ⟨⟨fun h => (by cases h), fun h => ?_⟩, fun h => (by cases h)⟩
      exfalso
      rcases fails_inv h with ⟨-, h1, -⟩ | ⟨h1, -⟩ | ⟨h1, -⟩ | ⟨h1, -⟩ | ⟨h1, -⟩
      · exact h1 ⟨rfl, hd, hs'⟩
      · exact fine_not_dead _ h1.2.2 hd
      · exact fine_not_dead _ h1.1.2.2 hd
      · exact fine_not_dead _ h1.1.2.2 hd
      · exact fine_not_dead _ h1.1.2.2 hd
    · unfold run
      rw [check_excused env tt false n f t _ _ _ hk he hd]
      refine ⟨⟨fun h => (by cases h), fun h => ?_⟩, fun h => (by cases h)⟩
      exfalso
      rcases fails_inv h with ⟨h1, -⟩ | ⟨h1, -⟩ | ⟨h1, -⟩ | ⟨h1, -⟩ | ⟨h1, -⟩
      · exact h1.2.1 he
      · exact h1.2.1 he
      · exact h1.1.2.1 he
      · exact h1.1.2.1 he
      · exact h1.1.2.1 he
    · unfold run
      rw [check_undef env tt false n f t _ _ _ hu hd]
      refine ⟨?_, notDefined_result' _ _ _ _ _⟩
      simp only
      rw [notDefined_result]
      constructor
      · intro hl
        refine .undef n f t top hu ?_ hl
        rintro ⟨h1, h2, h3⟩
        exact hd ⟨h1, h2, Or.inr h3⟩
      · intro h
        rcases fails_inv h with ⟨-, -, h1⟩ | ⟨h1, -⟩ | ⟨h1, -⟩ | ⟨h1, -⟩ | ⟨h1, -⟩
        · exact h1
        · exact absurd h1.2.2 hu.2.2
        · exact absurd h1.1.2.2 hu.2.2
        · exact absurd h1.1.2.2 hu.2.2
        · exact absurd h1.1.2.2 hu.2.2
    · have hnu : ¬ Undef env f t := fun h => h.2.2 hen.2.2
      rcases run_enters env tt n ⟨f, t, top, false, true⟩ hen with hf | hs | hun | ⟨-, h0⟩
      · rw [run_target env tt n _ hf]
        refine ⟨?_, (ih _ _ _).2⟩
        rw [(ih _ _ _).1]
        constructor
        · intro h; exact .target n f t top hf h
        · intro h
          have hv : env.view f = .pointer := hf.2.1
          rcases fails_inv h with ⟨h1, -⟩ | ⟨-, -, h1⟩ | ⟨-, h1⟩ | ⟨h1, -⟩ | ⟨h1, -⟩
          · exact absurd h1 hnu
          · exact absurd h1 hf.2.2.1
          · exact h1
          · have := h1.2.1; rw [hv] at this; cases this
          · have := h1.2.1; rw [hv] at this; cases this
      · rw [run_struct env tt n _ hs]
        have hv : env.view f = .struct := hs.2.1
        have hiff : ((fieldResults env tt n f t).filter fun r => r.2.2 == .no).map (·.1) ≠ [] ↔
            Fails env tt (n + 1) f t top := by
          constructor
          · intro hne
            obtain ⟨x, hx⟩ := List.exists_mem_of_ne_nil _ hne
            obtain ⟨f', t', hfd, hh⟩ := (mem_badNames env tt n f t x).1 hx
            exact .field n f t top x f' t' hs hfd hh
          · intro h h0
            rcases fails_inv h with ⟨h1, -⟩ | ⟨-, h1, -⟩ | ⟨h1, -⟩ | ⟨-, x, f', t', hfd, hh⟩ | ⟨h1, -⟩
            · exact hnu h1
            · rw [hv] at h1; cases h1
            · have := h1.2.1; rw [hv] at this; cases this
            · have := (mem_badNames env tt n f t x).2 ⟨f', t', hfd, hh⟩
              rw [h0] at this
              cases this
            · have := h1.2.1; rw [hv] at this; cases this
        rw [← hiff]
        unfold structResult
        generalize ((fieldResults env tt n f t).filter fun r => r.2.2 == .no).map (·.1) = names
        cases names <;> simp
      · rw [run_union env tt n _ hun]
        have hv : env.view f = .union := hun.2.1
        have hiff : partlyDefined (env.state f) = false ↔ Fails env tt (n + 1) f t top := by
          rw [← Bool.not_eq_true, partly_iff]
          constructor
          · intro hp; exact .union n f t top hun hp
          · intro h
            rcases fails_inv h with ⟨h1, -⟩ | ⟨-, h1, -⟩ | ⟨h1, -⟩ | ⟨h1, -⟩ | ⟨-, h1⟩
            · exact absurd h1 hnu
            · rw [hv] at h1; cases h1
            · have := h1.2.1; rw [hv] at this; cases this
            · have := h1.2.1; rw [hv] at this; cases this
            · exact h1
        rw [← hiff]
        unfold unionResult
        cases partlyDefined (env.state f) <;> simp
      · rw [h0]
        by_cases hc : env.view f = .pointer ∧ env.state f = .unknown
        · rw [if_pos hc]
          exact ⟨⟨fun _ => .unknownTarget n f t top hen hc.1 hc.2, fun _ => rfl⟩, fun h => (by cases h)⟩
        · rw [if_neg hc]
          refine ⟨⟨fun h => (by cases h), fun h => ?_⟩, fun h => (by cases h)⟩
          exfalso
          have hno : ∀ m, (run env tt (n + 1) ⟨f, t, top, false, true⟩).2 = m → m = .yes := by
            intro m hm; rw [h0, if_neg hc] at hm; exact hm.symm
          rcases fails_inv h with ⟨h1, -⟩ | ⟨-, h1, h2⟩ | ⟨h1, h2⟩ | ⟨h1, x, f', t', hfd, hh⟩ | ⟨h1, h2⟩
          · exact hnu h1
          · exact hc ⟨h1, h2⟩
          · have := hno .no (by rw [run_target env tt n ⟨f, t, top, false, true⟩ h1]; exact (ih _ _ _).1.2 h2)
            cases this
          · have hmem := (mem_badNames env tt n f t x).2 ⟨f', t', hfd, hh⟩
            have := hno .no (by
              rw [run_struct env tt n ⟨f, t, top, false, true⟩ h1]
              unfold structResult
              simp only
              generalize ((fieldResults env tt n f t).filter fun r => r.2.2 == .no).map (·.1) = names at hmem
              cases names with
              | nil => cases hmem
              | cons a l => simp)
            cases this
          · have := hno .no (by
              rw [run_union env tt n ⟨f, t, top, false, true⟩ h1]
              unfold unionResult
              have : partlyDefined (env.state f) = false := by
                rw [← Bool.not_eq_true, partly_iff]; exact h2
              simp [this])
            cases this

/-- C127: exactly which storage does not pass (so that an assignment does not make the target defined). -/
theorem C127_result (env : Env α β) (tt : Transfer) (f : α) (t : β) :
    ((transfer env tt f t).2 = .no ↔ Fails env tt 11 f t true) ∧ (transfer env tt f t).2 ≠ .maybe :=
  run_result env tt 11 f t true

end CompleteDef
end Splint
