import Verif.Spec.GlobReturn
/-!
# Globals when a function returns (C164)
-/
namespace Splint.GlobReturnProps
open Splint.GlobReturn Splint.GlobReturnSpec

theorem check_about {on : Bool} {s : State} {g : Nat} {k : Bool} : ∀ e ∈ (checkGlobal on s g k).1, Ev.about e = g := by
  intro e he
  unfold checkGlobal at he
  dsimp only at he
  split_ifs at he
  all_goals try (simp at he; done)
  all_goals try (split at he)
  all_goals simp at he
  all_goals try split_ifs at he
  all_goals simp_all [Ev.about]
  all_goals rcases he with rfl | rfl <;> rfl

theorem check_other {on : Bool} {s : State} {g n : Nat} {k : Bool} (h : n ≠ g) : (checkGlobal on s g k).2 n = s n := by
  unfold checkGlobal
  dsimp only
  split_ifs
  all_goals first | rfl | (simp [State.setUnknown, h]; done) | (split <;> rfl)

theorem check_var {on : Bool} {s : State} {g n : Nat} {k : Bool} : ((checkGlobal on s g k).2 n).isVar = (s n).isVar := by
  by_cases h : n = g
  · subst h
    unfold checkGlobal
    dsimp only
    split_ifs
    all_goals first | rfl | (simp [State.setUnknown]; done) | (split <;> rfl)
  · rw [check_other h]

/-- what is done for a global depends on what is known of it only -/
theorem check_congr {on : Bool} {s s' : State} {g : Nat} {k : Bool} (h : s g = s' g) :
    (checkGlobal on s g k).1 = (checkGlobal on s' g k).1 := by
  unfold checkGlobal
  dsimp only
  rw [h]
  split_ifs <;> first | rfl | (split <;> rfl) | simp [State.setUnknown, h]

def abt (g : Nat) (l : List Ev) : List Ev := l.filter fun e => Ev.about e == g

theorem abt_append (g : Nat) (a b : List Ev) : abt g (a ++ b) = abt g a ++ abt g b := by simp [abt]

theorem abt_self {g : Nat} {l : List Ev} (h : ∀ e ∈ l, Ev.about e = g) : abt g l = l := by
  simp only [abt, List.filter_eq_self, beq_iff_eq]; exact h

theorem abt_other {g n : Nat} {l : List Ev} (h : ∀ e ∈ l, Ev.about e = n) (hn : n ≠ g) : abt g l = [] := by
  simp only [abt, List.filter_eq_nil_iff, beq_iff_eq]
  intro e he; rw [h e he]; exact hn

theorem listed_none {on : Bool} {g : Nat} : ∀ {s : State} {rs : List Ref}, (∀ r ∈ rs, r.g ≠ g) →
    abt g (listed on s rs).1 = [] ∧ (listed on s rs).2 g = s g := by
  intro s rs
  induction rs generalizing s with
  | nil => intro _; exact ⟨rfl, rfl⟩
  | cons r rs ih =>
    intro h
    have h1 : r.g ≠ g := h r (by simp)
    have h2 : ∀ r ∈ rs, r.g ≠ g := fun r hr => h r (by simp [hr])
    unfold listed
    dsimp only
    split_ifs
    · obtain ⟨i1, i2⟩ := ih (s := (checkGlobal on s r.g r.killed).2) h2
      exact ⟨by rw [abt_append, abt_other check_about h1, i1]; rfl, by rw [i2, check_other (Ne.symm h1)]⟩
    · exact ih h2

theorem listed_var {on : Bool} {g : Nat} : ∀ {s : State} {rs : List Ref},
    ((listed on s rs).2 g).isVar = (s g).isVar := by
  intro s rs
  induction rs generalizing s with
  | nil => rfl
  | cons r rs ih =>
    unfold listed
    dsimp only
    split_ifs
    · rw [ih, check_var]
    · exact ih

theorem listed_one {on : Bool} : ∀ {s : State} {rs : List Ref} {r : Ref}, (rs.map (·.g)).Nodup → r ∈ rs →
    abt r.g (listed on s rs).1 = if (s r.g).isVar then (checkGlobal on s r.g r.killed).1 else [] := by
  intro s rs
  induction rs generalizing s with
  | nil => intro r _ h; simp at h
  | cons q rs ih =>
    intro r hn hr
    simp only [List.map_cons, List.nodup_cons, List.mem_map, not_exists, not_and] at hn
    unfold listed
    dsimp only
    rcases List.mem_cons.1 hr with rfl | hr
    · have hno : ∀ q ∈ rs, q.g ≠ r.g := fun q hq => hn.1 q hq
      by_cases hv : (s r.g).isVar = true
      · rw [if_pos hv, if_pos hv, abt_append, abt_self check_about, (listed_none hno).1, List.append_nil]
      · rw [if_neg hv, if_neg hv]
        exact (listed_none hno).1
    · have hne : q.g ≠ r.g := fun h => hn.1 r hr h.symm
      by_cases hv : (s q.g).isVar = true
      · rw [if_pos hv, abt_append, abt_other check_about hne, List.nil_append, ih hn.2 hr, check_var]
        rw [check_congr (check_other (Ne.symm hne))]
      · rw [if_neg hv]
        exact ih hn.2 hr

theorem used_none {on : Bool} {sg : List Ref} {g : Nat} : ∀ {s : State} {gs : List Nat},
    (g ∉ gs ∨ ∃ r ∈ sg, r.g = g) → abt g (used on sg s gs).1 = [] := by
  intro s gs
  induction gs generalizing s with
  | nil => intro _; rfl
  | cons n gs ih =>
    intro h
    have h2 : g ∉ gs ∨ ∃ r ∈ sg, r.g = g := h.imp (fun h hg => h (by simp [hg])) id
    unfold used
    dsimp only
    split_ifs with hc
    · have hne : n ≠ g := by
        rintro rfl
        rcases h with h | ⟨r, hr, he⟩
        · exact h (by simp)
        · simp only [Bool.and_eq_true, Bool.not_eq_true', List.any_eq_false, beq_iff_eq] at hc
          exact hc.1 r hr he
      rw [abt_append, abt_other check_about hne, ih h2]; rfl
    · exact ih h2

theorem used_one {on : Bool} {sg : List Ref} {g : Nat} (hno : ∀ r ∈ sg, r.g ≠ g) : ∀ {s : State} {gs : List Nat},
    gs.Nodup → g ∈ gs → abt g (used on sg s gs).1 = if (s g).isVar then (checkGlobal on s g false).1 else [] := by
  have hany : (sg.any fun r => r.g == g) = false := by
    simp only [List.any_eq_false, beq_iff_eq]; exact hno
  intro s gs
  induction gs generalizing s with
  | nil => intro _ h; simp at h
  | cons n gs ih =>
    intro hn hg
    simp only [List.nodup_cons] at hn
    unfold used
    dsimp only
    rcases List.mem_cons.1 hg with rfl | hg
    · by_cases hv : (s g).isVar = true
      · rw [if_pos (by simp [hany, hv]), if_pos hv, abt_append, abt_self check_about, used_none (.inl hn.1),
          List.append_nil]
      · rw [if_neg (by simp [hv]), if_neg hv]
        exact used_none (.inl hn.1)
    · have hne : n ≠ g := fun h => hn.1 (h ▸ hg)
      split_ifs with hc
      · rw [abt_append, abt_other check_about hne, List.nil_append, ih hn.2 hg, check_var,
          check_congr (check_other (Ne.symm hne))]
        rename_i hv
        rw [if_pos hv]
      · rw [abt_append, abt_other check_about hne, List.nil_append, ih hn.2 hg, check_var]
        rename_i hv
        rw [if_neg hv]
      · rw [ih hn.2 hg, if_pos (by assumption)]
      · rw [ih hn.2 hg, if_neg (by assumption)]

/-- **C164** Every global that the function lists or uses is checked once, by itself: with the state it has when the
function returns, and as a killed one just if it is listed so. -/
theorem C164_each (on : Bool) (sglobs : List Ref) (uglobs : List Nat) (s : State)
    (h1 : (sglobs.map (·.g)).Nodup) (h2 : uglobs.Nodup) (g : Nat) (hv : (s g).isVar = true) :
    (∀ r ∈ sglobs, r.g = g → abt g (checkReturn on sglobs uglobs s).1 = (checkGlobal on s g r.killed).1) ∧
    ((∀ r ∈ sglobs, r.g ≠ g) → g ∈ uglobs →
      abt g (checkReturn on sglobs uglobs s).1 = (checkGlobal on s g false).1) ∧
    (¬Concerns sglobs uglobs g → abt g (checkReturn on sglobs uglobs s).1 = []) := by
  refine ⟨?_, ?_, ?_⟩
  · rintro r hr rfl
    simp only [checkReturn, abt_append]
    rw [listed_one h1 hr, used_none (.inr ⟨r, hr, rfl⟩), if_pos hv, List.append_nil]
  · intro hno hg
    simp only [checkReturn, abt_append]
    rw [(listed_none hno).1, used_one hno h2 hg, (listed_none hno).2, if_pos hv, List.nil_append,
      check_congr (listed_none hno).2]
  · intro hc
    simp only [Concerns, not_or, not_exists, not_and] at hc
    simp only [checkReturn, abt_append]
    rw [(listed_none hc.1).1, used_none (.inl hc.2)]; rfl

theorem mem_abt {g : Nat} {l : List Ev} {e : Ev} : e ∈ abt g l ↔ e ∈ l ∧ Ev.about e = g := by simp [abt]

theorem abt_kept (sglobs : List Ref) (uglobs : List Nat) (s : State)
    (h1 : (sglobs.map (·.g)).Nodup) (h2 : uglobs.Nodup) (g : Nat) (hv : (s g).isVar = true)
    (hc : Concerns sglobs uglobs g) (hk : ∀ r ∈ sglobs, r.g = g → r.killed = false) :
    abt g (checkReturn true sglobs uglobs s).1 = (checkGlobal true s g false).1 := by
  obtain ⟨a, b, _⟩ := C164_each true sglobs uglobs s h1 h2 g hv
  by_cases hr : ∃ r ∈ sglobs, r.g = g
  · obtain ⟨r, hr, he⟩ := hr
    rw [a r hr he, hk r hr he]
  · push Not at hr
    exact b hr (hc.resolve_left fun ⟨r, h, he⟩ => hr r h he)

theorem check_good {s : State} {g : Nat} : (∃ e ∈ (checkGlobal true s g false).1, Message e) ↔ ¬Good (s g) := by
  unfold checkGlobal
  generalize hx : s g = x
  rcases x with ⟨v, st, kept, mn, cn, dn, ptr, sh⟩
  have hs : (s.setUnknown g) g = { s g with st := .unknown } := by simp [State.setUnknown]
  constructor
  · rintro ⟨e, he, hm⟩ ⟨h1, ⟨h2, h3⟩, h4⟩
    simp only at h1 h2 h3 h4
    subst h3
    cases st <;> cases ptr <;> cases mn <;> cases dn <;> simp_all [Message]
  · intro h
    by_contra hn
    apply h
    push Not at hn
    refine ⟨?_, ⟨?_, ?_⟩, ?_⟩ <;>
      cases st <;> cases kept <;> cases ptr <;> cases mn <;> cases dn <;> simp_all [Message]

/-- **C164** For a global that is not listed as killed, something is reported just if its state is not good. -/
theorem C164_kept_exactly (sglobs : List Ref) (uglobs : List Nat) (s : State)
    (h1 : (sglobs.map (·.g)).Nodup) (h2 : uglobs.Nodup) (g : Nat) (hv : (s g).isVar = true)
    (hc : Concerns sglobs uglobs g) (hk : ∀ r ∈ sglobs, r.g = g → r.killed = false) :
    (∃ e ∈ (checkReturn true sglobs uglobs s).1, Message e ∧ Ev.about e = g) ↔ ¬Good (s g) := by
  rw [← check_good]
  have hab := abt_kept sglobs uglobs s h1 h2 g hv hc hk
  constructor
  · rintro ⟨e, he, hm, hg⟩
    exact ⟨e, hab ▸ mem_abt.2 ⟨he, hg⟩, hm⟩
  · rintro ⟨e, he, hm⟩
    have := mem_abt.1 (hab.symm ▸ he : e ∈ abt g (checkReturn true sglobs uglobs s).1)
    exact ⟨e, this.1, hm, this.2⟩

theorem check_which {s : State} {g : Nat} (hd : (s g).st ≠ .undefined) :
    (∀ b, .references g b ∈ (checkGlobal true s g false).1 ↔
      ((s g).st = .dead ∨ (s g).kept = true) ∧ (b = true ↔ (s g).st = .dead)) ∧
    (.null g ∈ (checkGlobal true s g false).1 ↔
      (s g).ptr = true ∧ (s g).mayNull = true ∧ (s g).declNull = false) ∧
    (∀ x, .transfer g x ∈ (checkGlobal true s g false).1 ↔
      ¬((s g).ptr = true ∧ (s g).mayNull = true ∧ (s g).declNull = false) ∧
      x = if (s g).st = .dead ∨ (s g).kept = true then .unknown else (s g).st) := by
  have hs : (s.setUnknown g) g = { s g with st := .unknown } := by simp [State.setUnknown]
  simp only [checkGlobal, Bool.not_true, Bool.false_eq_true, if_false, if_neg hd]
  generalize hx : s g = x at *
  rcases x with ⟨v, st, kept, mn, cn, dn, ptr, sh⟩
  cases st <;> cases kept <;> cases ptr <;> cases mn <;> cases dn <;> simp_all

/-- **C164** Which messages they are: that it holds released storage if it does, and else kept storage; that it is null
apart from that. Unless it is null, its transfer is checked, with the state forgotten if that was reported. -/
theorem C164_which (sglobs : List Ref) (uglobs : List Nat) (s : State)
    (h1 : (sglobs.map (·.g)).Nodup) (h2 : uglobs.Nodup) (g : Nat) (hv : (s g).isVar = true)
    (hc : Concerns sglobs uglobs g) (hk : ∀ r ∈ sglobs, r.g = g → r.killed = false) :
    (.undef g ∈ (checkReturn true sglobs uglobs s).1 ↔ (s g).st = .undefined) ∧
    ((s g).st ≠ .undefined →
      (∀ b, .references g b ∈ (checkReturn true sglobs uglobs s).1 ↔
        ((s g).st = .dead ∨ (s g).kept = true) ∧ (b = true ↔ (s g).st = .dead)) ∧
      (.null g ∈ (checkReturn true sglobs uglobs s).1 ↔
        (s g).ptr = true ∧ (s g).mayNull = true ∧ (s g).declNull = false) ∧
      (∀ x, .transfer g x ∈ (checkReturn true sglobs uglobs s).1 ↔
        ¬((s g).ptr = true ∧ (s g).mayNull = true ∧ (s g).declNull = false) ∧
        x = if (s g).st = .dead ∨ (s g).kept = true then .unknown else (s g).st)) := by
  have hab := abt_kept sglobs uglobs s h1 h2 g hv hc hk
  have hm : ∀ e, Ev.about e = g →
      (e ∈ (checkReturn true sglobs uglobs s).1 ↔ e ∈ (checkGlobal true s g false).1) := by
    intro e he
    rw [← hab, mem_abt]
    exact ⟨fun h => ⟨h, he⟩, fun h => h.1⟩
  refine ⟨?_, ?_⟩
  · rw [hm _ rfl]
    simp only [checkGlobal, Bool.not_true, Bool.false_eq_true, if_false]
    by_cases hd : (s g).st = .undefined
    · simp [hd]
    · rw [if_neg hd]
      simp only [hd, iff_false, List.mem_append, not_or]
      constructor <;> split_ifs <;> simp
  · intro hd
    obtain ⟨a, b, c⟩ := check_which hd
    exact ⟨fun x => (hm _ rfl).trans (a x), (hm _ rfl).trans b, fun x => (hm _ rfl).trans (c x)⟩

/-- three globals: a good one, a null one, a released one -/
def some3 : State := fun n => if n = 1 then { ptr := true, mayNull := true } else if n = 2 then { st := .dead } else {}

example : (checkReturn true [⟨0, false⟩, ⟨1, false⟩] [1, 2] some3).1
    = [.transfer 0 .live, .null 1, .references 2 true, .transfer 2 .unknown] := by decide

/-- **C164** For one that is killed, it is reported that it is not released just if its storage is still there and can
be shared; if it cannot, it is checked as storage that is lost. -/
theorem C164_killed_exactly (sglobs : List Ref) (uglobs : List Nat) (s : State)
    (h1 : (sglobs.map (·.g)).Nodup) (h2 : uglobs.Nodup) (r : Ref) (hr : r ∈ sglobs) (hk : r.killed = true)
    (hv : (s r.g).isVar = true) :
    abt r.g (checkReturn true sglobs uglobs s).1 =
      if (s r.g).st = .live then (if (s r.g).sharable then [.notReleased r.g] else [.destroyed r.g]) else [] := by
  rw [(C164_each true sglobs uglobs s h1 h2 r.g hv).1 r hr rfl, hk]
  simp only [checkGlobal, Bool.not_true, Bool.false_eq_true, if_false, if_true]
  cases (s r.g).st <;> simp

example : (checkReturn true [⟨0, true⟩, ⟨2, true⟩] [] fun n => if n = 0 then { sharable := true } else some3 n).1
    = [.notReleased 0] := by decide

/-- The full statement: a killed global that is certainly null, as it is when its storage was released and it was then
cleared, is not reported. -/
def C164_full : Prop :=
  ∀ (s : State) (g : Nat), (s g).isVar = true → (s g).mayNull = true → (s g).defNull = true →
    ∀ e ∈ (checkReturn true [⟨g, true⟩] [] s).1, ¬Message e

/-- **C164** Whether a killed global is null plays no part. -/
theorem C164_null_ignored (sglobs : List Ref) (uglobs : List Nat) (s s' : State)
    (h1 : (sglobs.map (·.g)).Nodup) (h2 : uglobs.Nodup) (r : Ref) (hr : r ∈ sglobs) (hk : r.killed = true)
    (hv : (s r.g).isVar = true) (m c d : Bool)
    (hs : s' r.g = { s r.g with mayNull := m, defNull := c, declNull := d }) :
    abt r.g (checkReturn true sglobs uglobs s').1 = abt r.g (checkReturn true sglobs uglobs s).1 := by
  rw [C164_killed_exactly sglobs uglobs s h1 h2 r hr hk hv,
    C164_killed_exactly sglobs uglobs s' h1 h2 r hr hk (by rw [hs]; exact hv), hs]

theorem C164_full_is_false : ¬C164_full := by
  intro h
  exact h (fun _ => { sharable := true, mayNull := true, defNull := true, ptr := true }) 0 rfl rfl rfl (.notReleased 0) (by decide) trivial

/-- **C164** Without the flag nothing is done. -/
theorem C164_off (sglobs : List Ref) (uglobs : List Nat) (s : State) : checkReturn false sglobs uglobs s = ([], s) := by
  have h0 : ∀ s g k, checkGlobal false s g k = ([], s) := fun s g k => by simp [checkGlobal]
  have hl : ∀ rs, listed false s rs = ([], s) := by
    intro rs
    induction rs with
    | nil => rfl
    | cons r rs ih => simp [listed, h0, ih]
  have hu : ∀ gs, used false sglobs s gs = ([], s) := by
    intro gs
    induction gs with
    | nil => rfl
    | cons g gs ih => simp [used, h0, ih]
  simp [checkReturn, hl, hu]

end Splint.GlobReturnProps
