import Verif.Spec.Destroyed
import Verif.Tactics
namespace Splint.Destroyed
open Spec
open Transfer (isOnly isDependent)

theorem dependentReference_none (as : List Alias) : dependentReference as = none ↔ as = [] := by
  cases as with
  | nil => simp [dependentReference]
  | cons a as =>
    simp only [dependentReference, List.head?_cons, reduceCtorEq, iff_false]
    split <;> simp

theorem settled_none (p : Part) (r : Nat) : settled p r = none ↔ Held p := by
  unfold settled Held
  by_cases hk : p.known = true
  swap
  · simp [hk]
  by_cases hn : p.null = true
  · simp [hk, hn]
  by_cases hl : (isDependent p.al || decide (p.al = .shared) || decide (p.al = .kept)) = true
  · simp only [hk, Bool.not_true, Bool.false_eq_true, if_false, hn, hl, if_true, reduceCtorEq, false_iff]
    simp [isDependent] at hl
    tauto
  cases ha : dependentReference p.aliases with
  | some a =>
    have : p.aliases ≠ [] := fun h => by rw [(dependentReference_none _).2 h] at ha; cases ha
    simp [hk, hn, hl, this]
  | none =>
    have := (dependentReference_none _).1 ha
    simp [isDependent] at hl
    simp [hk, hn, isDependent, hl, this]

theorem mustRelease_iff {p : Part} (h : Held p) : mustRelease p = true ↔ Own p := by
  obtain ⟨_, h2, _⟩ := h
  unfold mustRelease Own
  simp [isOnly, h2]
  tauto

theorem hides_iff (strict f : Bool) (p : Part) : hides strict f p = true ↔ Hid strict f p := by
  unfold hides Hid
  simp
  tauto

/-- What is done at a part itself. -/
def nodeEv (strict top f hide : Bool) (p : Part) (r : Nat) : List Ev :=
  match settled p r with
  | some l => l
  | none => if !top && mustRelease p then (report p r (hide || hides strict f p)).2 else []

/-- Is the search continued below a part? -/
def goes (top : Bool) (p : Part) (r : Nat) : Bool :=
  settled p r = none && (top || !(mustRelease p || p.ds = .dead || (p.ds = .pDefined && !p.derived)))

theorem goes_iff (top : Bool) (p : Part) (r : Nat) : goes top p r = true ↔
    Held p ∧ (top = true ∨ ¬ Own p ∧ p.ds ≠ .dead ∧ (p.ds = .pDefined → p.derived = true)) := by
  unfold goes
  rw [Bool.and_eq_true, decide_eq_true_iff, settled_none]
  constructor
  · rintro ⟨h, h2⟩
    refine ⟨h, ?_⟩
    rw [← mustRelease_iff h]
    revert h2
    cases top <;> simp <;> tauto
  · rintro ⟨h, h2⟩
    refine ⟨h, ?_⟩
    rw [← mustRelease_iff h] at h2
    revert h2
    cases top <;> simp <;> tauto

/-- `check` in terms of these. -/
theorem check_succ (G : Graph) (strict : Bool) (n : Nat) (top f h : Bool) (r : Nat) (e : Ev) (he : ∀ x, e ≠ .tooDeep x) :
    e ∈ (check G strict (n + 1) top f h r).2 ↔
      e ∈ nodeEv strict top f h (G.part r) r ∨
      (goes top (G.part r) r = true ∧
        (((G.part r).ty = .ptr ∨ (G.part r).ty = .arr ∧
            ((G.part r).derived = true ∨ (G.part r).ds ≠ .unknown ∧ (G.part r).ds ≠ .allocated)) ∧
          e ∈ (check G strict n false false (h || hides strict f (G.part r)) (G.deref r)).2 ∨
        (G.part r).ty = .struct ∧ n ≠ 0 ∧
          ∃ m ∈ G.fields r, e ∈ (check G strict n false true (h || hides strict f (G.part r)) m).2)) := by
  rw [check]
  simp only
  cases hs : settled (G.part r) r with
  | some l => simp [nodeEv, goes, hs]
  | none =>
    simp only [nodeEv, goes, hs]
    by_cases h1 : (!top && mustRelease (G.part r)) = true
    · simp only [h1, if_true]
      simp only [Bool.and_eq_true, Bool.not_eq_true'] at h1
      simp [h1]
    · simp only [h1, Bool.false_eq_true, if_false, List.not_mem_nil, false_or]
      by_cases h2 : (!top && (decide ((G.part r).ds = .dead) || decide ((G.part r).ds = .pDefined) && !(G.part r).derived)) = true
      · rw [if_pos h2]
        simp only [Bool.and_eq_true, Bool.not_eq_true', Bool.or_eq_true, decide_eq_true_iff] at h2
        obtain ⟨h3, h4⟩ := h2
        simp only [List.not_mem_nil, false_iff]
        rintro ⟨h5, -⟩
        rw [h3] at h5
        simp only [decide_true, Bool.true_and, Bool.false_or, Bool.not_eq_true', Bool.or_eq_false_iff,
          decide_eq_false_iff_not, Bool.and_eq_false_iff, Bool.not_eq_false'] at h5
        rcases h4 with h4 | h4
        · exact h5.1.2 h4
        · rcases h5.2 with h6 | h6
          · exact h6 h4.1
          · rw [h4.2] at h6; cases h6
      · rw [if_neg h2]
        have hg : (decide True &&
            (top || !(mustRelease (G.part r) || decide ((G.part r).ds = .dead) || (decide ((G.part r).ds = .pDefined) && !(G.part r).derived)))) = true := by
          revert h1 h2
          cases top <;> simp <;> tauto
        rw [hg]
        simp only [true_and]
        cases ht : (G.part r).ty with
        | ptr => simp
        | arr =>
          simp only
          split_ifs with h3
          · simp only [Bool.and_eq_true, Bool.or_eq_true, decide_eq_true_iff, Bool.not_eq_true'] at h3
            simp
            intro h4
            rw [h3.2] at h4
            simp at h4
            tauto
          · simp only [Bool.and_eq_true, Bool.or_eq_true, decide_eq_true_iff, Bool.not_eq_true'] at h3
            have : ((G.part r).derived = true ∨ (G.part r).ds ≠ .unknown ∧ (G.part r).ds ≠ .allocated) := by
              cases hd : (G.part r).derived
              · right; rw [hd] at h3; tauto
              · left; rfl
            simp [this]
        | struct =>
          simp only
          split_ifs with h3
          · simp [h3, he]
          · simp [h3]
        | other => simp

theorem path_hid {G strict top f h r k h' f' q} (p : Path G strict top f h r k h' f' q) {g : Prop} (e : h ↔ g) :
    ∃ g', (h' ↔ g') ∧ Path G strict top f g r k g' f' q := by
  obtain rfl := propext e
  exact ⟨_, Iff.rfl, p⟩

/-- Each event other than the search being too deep is one of a part that is reached. -/
theorem check_mem (G : Graph) (strict : Bool) (e : Ev) (he : ∀ x, e ≠ .tooDeep x) : ∀ (n : Nat) (top f h : Bool) (r : Nat),
    e ∈ (check G strict n top f h r).2 ↔
      ∃ k h' f' q, Path G strict top f (h = true) r k (h' = true) f' q ∧ k < n ∧
        e ∈ nodeEv strict (top && decide (k = 0)) f' h' (G.part q) q := by
  intro n
  induction n with
  | zero => intro top f h r; simp [check, he]
  | succ n ih =>
    intro top f h r
    rw [check_succ G strict n top f h r e he, goes_iff]
    constructor
    · rintro (h1 | ⟨⟨h1, h2⟩, (⟨h3, h4⟩ | ⟨h3, _, m, h5, h4⟩)⟩)
      · exact ⟨0, h, f, r, .here, by omega, by simpa using h1⟩
      · obtain ⟨k, h', f', q, p, hk, hm⟩ := (ih _ _ _ _).1 h4
        refine ⟨k + 1, h', f', q, ?_, by omega, by simpa using hm⟩
        refine Path.deref h1 h2 h3 ?_
        have : (h = true ∨ Hid strict f (G.part r)) = ((h || hides strict f (G.part r)) = true) := by
          rw [Bool.or_eq_true, hides_iff]
        rw [this]; exact p
      · obtain ⟨k, h', f', q, p, hk, hm⟩ := (ih _ _ _ _).1 h4
        refine ⟨k + 1, h', f', q, ?_, by omega, by simpa using hm⟩
        refine Path.field h1 h2 h3 h5 ?_
        have : (h = true ∨ Hid strict f (G.part r)) = ((h || hides strict f (G.part r)) = true) := by
          rw [Bool.or_eq_true, hides_iff]
        rw [this]; exact p
    · rintro ⟨k, h', f', q, p, hk, hm⟩
      have : (h = true ∨ Hid strict f (G.part r)) = ((h || hides strict f (G.part r)) = true) := by
        rw [Bool.or_eq_true, hides_iff]
      generalize hX : (h = true) = X at p
      generalize hY : (h' = true) = Y at p
      cases p with
      | here =>
        left
        have : h' = h := by
          have : (h = true) = (h' = true) := hX.trans hY.symm
          cases h <;> cases h' <;> simp_all
        subst this
        simpa using hm
      | deref h1 h2 h3 p =>
        right
        refine ⟨⟨h1, h2⟩, .inl ⟨h3, (ih _ _ _ _).2 ?_⟩⟩
        subst hX hY
        rw [this] at p
        exact ⟨_, h', f', q, p, by omega, by simpa using hm⟩
      | field h1 h2 h3 h5 p =>
        right
        refine ⟨⟨h1, h2⟩, .inr ⟨h3, by omega, _, h5, (ih _ _ _ _).2 ?_⟩⟩
        subst hX hY
        rw [this] at p
        exact ⟨_, h', f', q, p, by omega, by simpa using hm⟩

theorem settled_msgs {p : Part} {r : Nat} {l : List Ev} (h : settled p r = some l) :
    (∀ x, .leak x ∉ l) ∧ (∀ x, .maybe x ∉ l) := by
  unfold settled at h
  cases hd : dependentReference p.aliases with
  | none =>
    simp only [hd] at h
    split_ifs at h <;> (cases h; simp)
  | some a =>
    simp only [hd] at h
    split_ifs at h <;> (cases h; simp)

theorem nodeEv_leak (strict top f hide : Bool) (p : Part) (r x : Nat) : Ev.leak x ∈ nodeEv strict top f hide p r ↔
    x = r ∧ top = false ∧ Held p ∧ Own p ∧ p.ds ≠ .hoffa ∧ p.ds ≠ .relDef ∧ p.ds ≠ .undefined ∧ hide = false ∧ ¬ Hid strict f p := by
  unfold nodeEv
  cases hs : settled p r with
  | some l =>
    have : ¬ Held p := by rw [← settled_none p r, hs]; simp
    simp [(settled_msgs hs).1 x, this]
  | none =>
    have h := (settled_none p r).1 hs
    rw [← mustRelease_iff h, ← hides_iff]
    unfold report
    cases top <;> cases mustRelease p <;> cases hide <;> cases hides strict f p <;> simp [h]
    all_goals (split_ifs <;> simp_all <;> tauto)

theorem nodeEv_maybe (strict top f hide : Bool) (p : Part) (r x : Nat) : Ev.maybe x ∈ nodeEv strict top f hide p r ↔
    x = r ∧ top = false ∧ Held p ∧ Own p ∧ (p.ds = .hoffa ∨ p.ds = .relDef) ∧ hide = false ∧ ¬ Hid strict f p := by
  unfold nodeEv
  cases hs : settled p r with
  | some l =>
    have : ¬ Held p := by rw [← settled_none p r, hs]; simp
    simp [(settled_msgs hs).2 x, this]
  | none =>
    have h := (settled_none p r).1 hs
    rw [← mustRelease_iff h, ← hides_iff]
    unfold report
    cases top <;> cases mustRelease p <;> cases hide <;> cases hides strict f p <;> simp [h]
    all_goals (split_ifs <;> simp_all)

theorem path_top {G strict f h r k h' f' q} (p : Path G strict true f h r k h' f' q) : k = 0 → q = r := by
  intro hk; subst hk; cases p; rfl

/-- If the answer is that all was released, nothing was reported. -/
theorem check_true (G : Graph) (strict : Bool) : ∀ (n : Nat) (top f h : Bool) (r : Nat),
    (check G strict n top f h r).1 = true → ∀ x, Ev.leak x ∉ (check G strict n top f h r).2 ∧
      Ev.maybe x ∉ (check G strict n top f h r).2 := by
  intro n
  induction n with
  | zero => intro top f h r _ x; simp [check]
  | succ n ih =>
    intro top f h r
    rw [check]
    simp only
    cases hs : settled (G.part r) r with
    | some l => exact fun _ x => ⟨(settled_msgs hs).1 x, (settled_msgs hs).2 x⟩
    | none =>
      simp only
      by_cases c1 : (!top && mustRelease (G.part r)) = true
      · rw [if_pos c1]
        unfold report
        split_ifs <;> simp
      rw [if_neg c1]
      by_cases c2 : (!top && (decide ((G.part r).ds = .dead) || decide ((G.part r).ds = .pDefined) && !(G.part r).derived)) = true
      · rw [if_pos c2]; simp
      · rw [if_neg c2]
        cases (G.part r).ty with
        | ptr => exact ih _ _ _ _
        | arr =>
          simp only
          split_ifs
          · simp
          · exact ih _ _ _ _
        | struct =>
          simp only
          split_ifs
          · simp
          · intro h1 x
            simp only [List.all_map, List.all_eq_true, Function.comp] at h1
            constructor
            · simp only [List.flatMap_map, List.mem_flatMap, not_exists, not_and]
              exact fun m hm => (ih _ _ _ _ (h1 m hm) x).1
            · simp only [List.flatMap_map, List.mem_flatMap, not_exists, not_and]
              exact fun m hm => (ih _ _ _ _ (h1 m hm) x).2
        | other => simp

theorem dependentReference_mem {as : List Alias} {a : Alias} (h : dependentReference as = some a) : a ∈ as := by
  unfold dependentReference at h
  cases hf : as.find? (fun x => decide (x.al = .owned)) with
  | some b => rw [hf] at h; cases h; exact List.mem_of_find?_eq_some hf
  | none => rw [hf] at h; exact List.mem_of_head? h

end Splint.Destroyed
