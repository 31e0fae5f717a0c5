import Verif.Model.LoopHeuristics
import Verif.Spec.LoopHeuristics
import Verif.Props.Constraint
/-!
C133: what is required of a loop holds in every iteration.
-/
namespace Splint.Bounds.Heur
open Splint.Bounds Splint.Bounds.Spec Splint.Bounds.HeurSpec

/-! ### Expressions are linear in the number of iterations -/

open Classical in
/-- by how much the value of an expression moves in each iteration -/
noncomputable def slope (sim : Nat → Nat → Bool) (ts : List Term) : Expr → Int
  | .term t => if OneOf sim ts t then 1 else 0
  | .un _ e => - slope sim ts e
  | .bin .plus a b => slope sim ts a + slope sim ts b
  | .bin .minus a b => slope sim ts a - slope sim ts b

theorem apply_move (op : BinOp) (x y : Val) (a b : Int) :
    Val.apply op (x.move a) (y.move b)
      = (Val.apply op x y).map fun v =>
          v.move (match op with | .plus => a + b | .minus => a - b) := by
  obtain ⟨bx, ox⟩ := x
  obtain ⟨by', oy⟩ := y
  cases op <;> cases bx <;> cases by' <;> simp [Val.apply, Val.add, Val.sub, Val.move]
  all_goals first
    | omega
    | (split_ifs <;> simp <;> omega)

theorem _root_.Splint.Bounds.HeurSpec.After.mono {sim : Nat → Nat → Bool} {ts l l' : List Term} {ρ σ : State} {k : Int}
    (h : After sim ts l ρ k σ) (hs : ∀ t ∈ l', t ∈ l) : After sim ts l' ρ k σ :=
  ⟨h.size, fun t ht => h.moved t (hs t ht), fun t ht => h.kept t (hs t ht)⟩

theorem move_zero (v : Val) : v.move 0 = v := by
  obtain ⟨b, o⟩ := v
  simp [Val.move]

/-- the value after `k` iterations -/
theorem eval_after {sim : Nat → Nat → Bool} {ts : List Term} {ρ σ : State} {k : Int} (e : Expr)
    (h : After sim ts (terms e) ρ k σ) :
    eval σ e = (eval ρ e).map fun v => v.move (slope sim ts e * k) := by
  induction e with
  | term t =>
    simp only [eval, slope, Option.map]
    by_cases ht : OneOf sim ts t
    · rw [if_pos ht, h.moved t (by simp [terms]) ht, Int.one_mul]
    · rw [if_neg ht, h.kept t (by simp [terms]) ht, Int.zero_mul, move_zero]
  | un op e ih =>
    simp only [eval, slope]
    rw [ih h, h.size]
    rcases eval ρ e with _ | ⟨_ | b, o⟩
    · rfl
    · rfl
    · simp only [Option.map, Val.move, Option.some.injEq, Val.mk.injEq, true_and]
      rw [Int.neg_mul]
      omega
  | bin op a b iha ihb =>
    simp only [eval]
    rw [iha (h.mono (by simp +contextual [terms])), ihb (h.mono (by simp +contextual [terms]))]
    rcases eval ρ a with _ | x
    · rfl
    rcases eval ρ b with _ | y
    · rfl
    simp only [Option.map_some]
    rw [apply_move]
    cases op <;> simp [slope, Int.add_mul, Int.sub_mul]

/-- the value with the variable advanced by `n` -/
theorem eval_searchAdd {sim : Nat → Nat → Bool} {t0 : Term} {ρ : State} {N : Expr} {n : Int}
    (hN : eval ρ N = some (.int n)) (e : Expr) :
    eval ρ (searchAdd sim (.term t0) N e)
      = (eval ρ e).map fun v => v.move (slope sim [t0] e * n) := by
  induction e with
  | term t =>
    by_cases ht : t.similar sim t0 = true
    · have h1 : OneOf sim [t0] t := ⟨t0, by simp, ht⟩
      simp only [searchAdd, slope]
      rw [if_pos h1, show (if (Expr.term t).similar sim (.term t0) = true then Expr.bin .plus (.term t) N
        else .term t) = _ from if_pos ht]
      simp only [eval, hN, Option.map, Val.apply, Int.one_mul]
      rcases evalTerm ρ t with ⟨_ | b, o⟩ <;> rfl
    · have h1 : ¬ OneOf sim [t0] t := by
        rintro ⟨u, hu, h⟩
        simp at hu
        subst hu
        exact ht h
      simp only [searchAdd, slope]
      rw [if_neg h1, show (if (Expr.term t).similar sim (.term t0) = true then Expr.bin .plus (.term t) N
        else .term t) = _ from if_neg ht]
      simp only [eval, Option.map, Int.zero_mul, move_zero]
  | un op e ih =>
    simp only [searchAdd, Expr.similar, Bool.false_eq_true, if_false, eval, slope]
    rw [ih]
    rcases eval ρ e with _ | ⟨_ | b, o⟩
    · rfl
    · rfl
    · simp only [Option.map, Val.move, Option.some.injEq, Val.mk.injEq, true_and]
      rw [Int.neg_mul]
      omega
  | bin op a b iha ihb =>
    simp only [searchAdd, Expr.similar, Bool.false_eq_true, if_false, eval]
    rw [iha, ihb]
    rcases eval ρ a with _ | x
    · rfl
    rcases eval ρ b with _ | y
    · rfl
    simp only [Option.map_some]
    rw [apply_move]
    cases op <;> simp [slope, Int.add_mul, Int.sub_mul]

/-- only the operands matter -/
theorem slope_congr {sim : Nat → Nat → Bool} {ts us : List Term} (e : Expr)
    (h : ∀ t ∈ terms e, OneOf sim ts t ↔ OneOf sim us t) : slope sim ts e = slope sim us e := by
  induction e with
  | term t =>
    simp only [slope]
    have := h t (by simp [terms])
    by_cases h1 : OneOf sim us t
    · rw [if_pos h1, if_pos (this.2 h1)]
    · rw [if_neg h1, if_neg (fun h2 => h1 (this.1 h2))]
  | un op e ih => simp only [slope, ih h]
  | bin op a b iha ihb =>
    have ha := iha fun t ht => h t (by simp [terms, ht])
    have hb := ihb fun t ht => h t (by simp [terms, ht])
    cases op <;> simp only [slope, ha, hb]

theorem slope_zero {sim : Nat → Nat → Bool} {ts : List Term} (e : Expr)
    (h : ∀ t ∈ terms e, ¬ OneOf sim ts t) : slope sim ts e = 0 := by
  induction e with
  | term t => simp only [slope]; rw [if_neg (h t (by simp [terms]))]
  | un op e ih => simp only [slope, ih h]; rfl
  | bin op a b iha ihb =>
    have ha := iha fun t ht => h t (by simp [terms, ht])
    have hb := ihb fun t ht => h t (by simp [terms, ht])
    cases op <;> simp only [slope, ha, hb] <;> rfl

/-- What holds at both ends holds between them. -/
theorem rel_between {ar : Ar} {x y : Val} {a b n k : Int} (h0 : Rel ar x y)
    (hn : Rel ar (x.move (a * n)) (y.move (b * n))) (hk : 0 ≤ k) (hkn : k ≤ n) :
    Rel ar (x.move (a * k)) (y.move (b * k)) := by
  have key : (0 ≤ a - b → 0 ≤ (a - b) * k ∧ (a - b) * k ≤ (a - b) * n)
      ∧ (a - b ≤ 0 → (a - b) * k ≤ 0 ∧ (a - b) * n ≤ (a - b) * k) := by
    constructor
    · intro h
      exact ⟨Int.mul_nonneg h hk, Int.mul_le_mul_of_nonneg_left hkn h⟩
    · intro h
      have h1 := Int.mul_nonneg (show 0 ≤ b - a by omega) hk
      have h2 := Int.mul_le_mul_of_nonneg_left hkn (show 0 ≤ b - a by omega)
      have e1 : (a - b) * k = - ((b - a) * k) := by rw [← Int.neg_mul]; congr 1; omega
      have e2 : (a - b) * n = - ((b - a) * n) := by rw [← Int.neg_mul]; congr 1; omega
      rw [e1, e2]
      omega
  rw [Int.sub_mul, Int.sub_mul] at key
  obtain ⟨bx, ox⟩ := x
  obtain ⟨by', oy⟩ := y
  rcases Int.le_total 0 (a - b) with hs | hs
  · have key := key.1 hs
    cases ar <;> simp only [Rel, Val.move, Val.mk.injEq] at * <;>
      exact ⟨h0.1, by omega⟩
  · have key := key.2 hs
    cases ar <;> simp only [Rel, Val.move, Val.mk.injEq] at * <;>
      exact ⟨h0.1, by omega⟩

/-! ### Lists -/

theorem addList_hold {res : Constraint → List Constraint → Bool} {ρ : State}
    (hres : ∀ l c, res c l = true → AllHold ρ l → Holds ρ c) {l new : List Constraint}
    (h : AllHold ρ (addList res l new)) : AllHold ρ l ∧ AllHold ρ new := by
  induction new generalizing l with
  | nil => exact ⟨h, by intro c hc; cases hc⟩
  | cons c cs ih =>
    obtain ⟨h1, h2⟩ := ih (l := add res l c) h
    unfold add at h1
    by_cases hr : res c l = true
    · rw [if_pos hr] at h1
      refine ⟨h1, ?_⟩
      intro d hd
      rcases List.mem_cons.1 hd with rfl | hd
      · exact hres l _ hr h1
      · exact h2 d hd
    · rw [if_neg hr] at h1
      refine ⟨fun d hd => h1 d (List.mem_append_left _ hd), ?_⟩
      intro d hd
      rcases List.mem_cons.1 hd with rfl | hd
      · exact h1 _ (by simp)
      · exact h2 d hd

theorem addList_mem {res : Constraint → List Constraint → Bool} {l new : List Constraint}
    {c : Constraint} (h : c ∈ addList res l new) : c ∈ l ∨ c ∈ new := by
  induction new generalizing l with
  | nil => exact Or.inl h
  | cons d ds ih =>
    rcases ih (l := add res l d) h with h | h
    · unfold add at h
      split_ifs at h
      · exact Or.inl h
      · rcases List.mem_append.1 h with h | h
        · exact Or.inl h
        · exact Or.inr (by simp at h; simp [h])
    · exact Or.inr (by simp [h])

theorem searchAddL_hold {sim : Nat → Nat → Bool} {res : Constraint → List Constraint → Bool}
    {ρ : State} (hres : ∀ l c, res c l = true → AllHold ρ l → Holds ρ c) {find N : Expr}
    {l : List Constraint} (h : AllHold ρ (searchAddL sim res find N l)) :
    AllHold ρ l ∧ ∀ c ∈ l, Constraint.search sim find c = true → Holds ρ (searchAddC sim find N c) := by
  obtain ⟨h1, h2⟩ := addList_hold hres h
  obtain ⟨_, h3⟩ := addList_hold hres h2
  refine ⟨h1, fun c hc hs => h3 _ ?_⟩
  exact List.mem_map.2 ⟨c, List.mem_filter.2 ⟨hc, hs⟩, rfl⟩

theorem adjust_hold {sim : Nat → Nat → Bool} {res : Constraint → List Constraint → Bool}
    {ρ : State} (hres : ∀ l c, res c l = true → AllHold ρ l → Holds ρ c) {N : Expr}
    {ens l : List Constraint} (h : AllHold ρ (adjust sim res N ens l)) :
    AllHold ρ l ∧ ∀ el ∈ ens, incVar sim el = true → ∀ c ∈ l, Constraint.search sim el.l c = true →
      Holds ρ (searchAddC sim el.l N c) := by
  induction ens generalizing l with
  | nil => exact ⟨h, by intro _ hx; cases hx⟩
  | cons el ens ih =>
    simp only [adjust, List.foldl_cons] at h
    obtain ⟨h1, h2⟩ := ih h
    by_cases hi : incVar sim el = true
    · rw [if_pos hi] at h1 h2
      obtain ⟨h3, h4⟩ := searchAddL_hold hres h1
      refine ⟨h3, ?_⟩
      intro el' hel' hi' c hc hs
      rcases List.mem_cons.1 hel' with rfl | hel'
      · exact h4 c hc hs
      · refine h2 el' hel' hi' c ?_ hs
        have keep : ∀ (new l : List Constraint), c ∈ l → c ∈ addList res l new := by
          intro new
          induction new with
          | nil => intro l h; exact h
          | cons d ds ihd =>
            intro l h
            refine ihd (add res l d) ?_
            unfold add
            split_ifs
            · exact h
            · exact List.mem_append_left _ h
        exact keep _ _ hc
    · rw [if_neg hi] at h1 h2
      refine ⟨h1, ?_⟩
      intro el' hel' hi' c hc hs
      rcases List.mem_cons.1 hel' with rfl | hel'
      · exact absurd hi' hi
      · exact h2 el' hel' hi' c hc hs

/-! ### The theorems -/

/-- The constraint that is added holds if and only if the requirement holds `n` iterations later,
where `n` is the number that was guessed (and the body's other variables do not occur in it). -/
theorem C133_advance {sim : Nat → Nat → Bool} {ts : List Term} {t0 : Term} {ρ σ : State} {N : Expr}
    {n : Int} {c : Constraint} (hN : eval ρ N = some (.int n)) (ht : t0 ∈ ts)
    (only : ∀ t ∈ termsC c, OneOf sim ts t → t.similar sim t0 = true)
    (ha : After sim ts (termsC c) ρ n σ) :
    Holds ρ (advance sim (.term t0) N c) ↔ Holds σ c := by
  have hi : ∀ t ∈ termsC c, OneOf sim ts t ↔ OneOf sim [t0] t := by
    intro t hm
    constructor
    · intro h; exact ⟨t0, by simp, only t hm h⟩
    · rintro ⟨u, hu, h⟩
      simp at hu
      subst hu
      exact ⟨u, ht, h⟩
  have e1 := eval_after c.l (ha.mono (l' := terms c.l) (by simp +contextual [termsC]))
  have e2 := eval_after c.r (ha.mono (l' := terms c.r) (by simp +contextual [termsC]))
  rw [slope_congr c.l (us := [t0]) fun t h => hi t (by simp [termsC, h]), ← eval_searchAdd hN] at e1
  rw [slope_congr c.r (us := [t0]) fun t h => hi t (by simp [termsC, h]), ← eval_searchAdd hN] at e2
  simp only [Holds, advance, e1, e2]

theorem search_of_similar {sim : Nat → Nat → Bool} {t0 t : Term} (e : Expr) (h : t ∈ terms e)
    (hs : t.similar sim t0 = true) : Expr.search sim (.term t0) e = true := by
  induction e with
  | term u =>
    simp [terms] at h
    subst h
    exact hs
  | un op e ih => simp [Expr.search, ih h]
  | bin op a b iha ihb =>
    simp only [terms, List.mem_append] at h
    rcases h with h | h
    · simp [Expr.search, iha h]
    · simp [Expr.search, ihb h]

/-- **C133**: if the number `n` of iterations is guessed, and what is then required holds before the
loop, the requirements of the body hold in the first `n + 1` iterations.  Missing: requirements in
which two of the variables that are incremented occur, and constraints that simplification changes
(C26). -/
theorem C133_partial {sim : Nat → Nat → Bool} {res : Constraint → List Constraint → Bool}
    {name : Option Nat → Option Nat → Bool} {L : Loop} {ts : List Term} {ρ : State} {N : Expr} {n : Int}
    {t0 : Term} {el c : Constraint}
    (hres : ∀ l d, res d l = true → AllHold ρ l → Holds ρ d)
    (hf : forTimes sim res name L = some N) (hN : eval ρ N = some (.int n))
    (hel : el ∈ L.bodyEnsures) (hinc : Increment sim t0 el) (ht : t0 ∈ ts)
    (hc : c ∈ L.requires) (only : ∀ t ∈ termsC c, OneOf sim ts t → t.similar sim t0 = true)
    (exact : Holds ρ (searchAddC sim (.term t0) N c) → Holds ρ (advance sim (.term t0) N c))
    (h : AllHold ρ (heuristics sim res name L)) {k : Int} (hk : 0 ≤ k) (hkn : k ≤ n) {σ : State}
    (ha : After sim ts (termsC c) ρ k σ) : Holds σ c := by
  simp only [heuristics, hf] at h
  obtain ⟨h1, h2⟩ := adjust_hold hres h
  obtain ⟨hl, har, u, hr, hu⟩ := hinc
  have hv : incVar sim el = true := by
    simp [incVar, har, hr, isInc, Expr.isLit, hl, Expr.similar, hu]
  have e1 := eval_after c.l (ha.mono (l' := terms c.l) (by simp +contextual [termsC]))
  have e2 := eval_after c.r (ha.mono (l' := terms c.r) (by simp +contextual [termsC]))
  obtain ⟨x, y, hx, hy, hrel⟩ := h1 c hc
  rw [hx] at e1
  rw [hy] at e2
  refine ⟨_, _, e1, e2, ?_⟩
  by_cases hs : Constraint.search sim (.term t0) c = true
  · have h3 := exact (by
      have := h2 el hel hv c hc (by rw [hl]; exact hs)
      rwa [hl] at this)
    have hi : ∀ t ∈ termsC c, OneOf sim ts t ↔ OneOf sim [t0] t := by
      intro t hm
      constructor
      · intro h; exact ⟨t0, by simp, only t hm h⟩
      · rintro ⟨u, hu, h⟩
        simp at hu
        subst hu
        exact ⟨u, ht, h⟩
    obtain ⟨x', y', hx', hy', hrel'⟩ := h3
    simp only [advance] at hx' hy' hrel'
    rw [eval_searchAdd hN, hx, ← slope_congr c.l (ts := ts) fun t h => hi t (by simp [termsC, h])] at hx'
    rw [eval_searchAdd hN, hy, ← slope_congr c.r (ts := ts) fun t h => hi t (by simp [termsC, h])] at hy'
    simp only [Option.map_some, Option.some.injEq] at hx' hy'
    subst hx'
    subst hy'
    exact rel_between hrel hrel' hk hkn
  · have no : ∀ t ∈ termsC c, ¬ OneOf sim ts t := by
      intro t hm ho
      apply hs
      simp only [Constraint.search, Bool.or_eq_true]
      rcases List.mem_append.1 hm with hm' | hm'
      · exact Or.inl (search_of_similar _ hm' (only t hm ho))
      · exact Or.inr (search_of_similar _ hm' (only t hm ho))
    rw [slope_zero c.l fun t h => no t (by simp [termsC, h]),
      slope_zero c.r fun t h => no t (by simp [termsC, h])]
    simp only [Int.zero_mul, move_zero]
    exact hrel

/-- Where the number of iterations comes from: a `<` or `<=` between a variable that the increment
increments and the number, or `*p` and `p++`. -/
theorem C133_guess {sim : Nat → Nat → Bool} {res : Constraint → List Constraint → Bool}
    {name : Option Nat → Option Nat → Bool} {L : Loop} {N : Expr}
    (hf : forTimes sim res name L = some N) :
    (∃ el ∈ L.testTrue, (el.ar = .lt ∨ el.ar = .lte) ∧ el.r = N
      ∧ ∃ el2 ∈ L.incEnsures, incVar sim el2 = true ∧ el2.l.similar sim el.l = true)
    ∨ (∃ t1 t2, L.deref = some t1 ∧ L.postInc = some t2 ∧ name t1.ref t2.ref = true
      ∧ N = .un .maxSet (.term (.node t1))) := by
  unfold forTimes at hf
  split at hf
  next el h =>
    cases hf
    refine Or.inl ⟨el, ?_⟩
    have h1 := List.mem_of_find?_eq_some h
    have h2 := List.find?_some h
    rcases addList_mem h1 with h1 | h1
    · cases h1
    rw [List.mem_filter] at h1
    rw [List.any_eq_true] at h2
    obtain ⟨el2, h3, h4⟩ := h2
    rcases addList_mem h3 with h3 | h3
    · cases h3
    rw [List.mem_filter] at h3
    exact ⟨h1.1, by simpa using h1.2, rfl, el2, h3.1, h3.2, h4⟩
  next h =>
    refine Or.inr ?_
    unfold byString at hf
    split at hf
    next t1 t2 e1 e2 =>
      split_ifs at hf with hn
      cases hf
      exact ⟨t1, t2, e1, e2, hn, rfl⟩
    next => cases hf

/-- A requirement of the loop: one of the body, or one with a variable that the body increments, advanced
by the number of iterations. -/
inductive Required (sim : Nat → Nat → Bool) (L : Loop) (N : Expr) : Constraint → Prop
  | body {c : Constraint} (h : c ∈ L.requires) : Required sim L N c
  | later {c el : Constraint} (h : Required sim L N c) (he : el ∈ L.bodyEnsures)
      (hi : incVar sim el = true) (hs : Constraint.search sim el.l c = true) :
      Required sim L N (searchAddC sim el.l N c)

/-- Nothing else is required. -/
theorem C133_only {sim : Nat → Nat → Bool} {res : Constraint → List Constraint → Bool}
    {name : Option Nat → Option Nat → Bool} {L : Loop} {c : Constraint}
    (h : c ∈ heuristics sim res name L) :
    c ∈ L.requires ∨ ∃ N, forTimes sim res name L = some N ∧ Required sim L N c := by
  unfold heuristics at h
  split at h
  next N hN =>
    refine Or.inr ⟨N, hN, ?_⟩
    have key : ∀ ens l, (∀ el ∈ ens, el ∈ L.bodyEnsures) → (∀ d ∈ l, Required sim L N d) →
        ∀ d ∈ adjust sim res N ens l, Required sim L N d := by
      intro ens
      induction ens with
      | nil => intro l _ hl; exact hl
      | cons el ens ih =>
        intro l hm hl
        refine ih _ (fun e he => hm e (by simp [he])) ?_
        intro d hd
        dsimp only at hd
        by_cases hi : incVar sim el = true
        · rw [if_pos hi] at hd
          rcases addList_mem hd with hd | hd
          · exact hl d hd
          · rcases addList_mem hd with hd | hd
            · cases hd
            · obtain ⟨e, he, rfl⟩ := List.mem_map.1 hd
              rw [List.mem_filter] at he
              exact .later (hl e he.1) (hm el (by simp)) hi he.2
        · rw [if_neg hi] at hd
          exact hl d hd
    exact key _ _ (fun _ h => h) (fun _ h => .body h) c h
  next => exact Or.inl h

/-- what a variable that is incremented is: `x = x + 1` -/
theorem C133_increment {sim : Nat → Nat → Bool} {c : Constraint} :
    incVar sim c = true ↔ c.ar = .eq ∧ ∃ a, c.r = .bin .plus a (.lit 1) ∧ c.l.similar sim a = true := by
  obtain ⟨l, ar, r⟩ := c
  constructor
  · intro h
    simp only [incVar, Bool.and_eq_true, beq_iff_eq] at h
    refine ⟨h.1, ?_⟩
    replace h := h.2
    split at h
    next a ha =>
      unfold isInc at ha
      split at ha
      next x y =>
        split_ifs at ha with hl
        cases ha
        refine ⟨_, ?_, h⟩
        unfold Expr.isLit at hl
        split at hl
        next => cases hl; rfl
        next => cases hl
      next => cases ha
    next => cases h
  · rintro ⟨h1, a, h2, h3⟩
    simp only at h1 h2 h3
    subst h1
    subst h2
    simp [incVar, isInc, Expr.isLit, h3]

/-- A counter that starts at 0 or above counts at most as many iterations as its bound. -/
theorem C133_counter {sim : Nat → Nat → Bool} {ts : List Term} {ρ σ : State} {el : Constraint} {n k : Int}
    (hc : Counter sim ts ρ el) (har : el.ar = .lt ∨ el.ar = .lte) (hn : eval ρ el.r = some (.int n))
    (ha : After sim ts (termsC el) ρ k σ) (hh : Holds σ el) : k ≤ n := by
  obtain ⟨t, hl, ho, i0, hi, hpos⟩ := hc.var
  have e2 := eval_after el.r (ha.mono (l' := terms el.r) (by simp +contextual [termsC]))
  rw [slope_zero _ hc.fixed, hn] at e2
  obtain ⟨x, y, hx, hy, hr⟩ := hh
  rw [hl] at hx
  simp only [eval, Option.some.injEq] at hx
  rw [ha.moved t (by simp [termsC, hl, terms]) ho, hi] at hx
  rw [e2] at hy
  simp only [Option.map_some, Option.some.injEq] at hy
  subst hx
  subst hy
  rcases har with e | e <;> rw [e] at hr <;> simp [Rel, Val.move] at hr <;> omega

/-- So if the loop has a counter that starts at 0 or above, what is required before the loop makes the
body's requirements hold in every iteration that takes place. -/
theorem C133_sound_partial {sim : Nat → Nat → Bool} {res : Constraint → List Constraint → Bool}
    {name : Option Nat → Option Nat → Bool} {L : Loop} {ts : List Term} {ρ : State} {N : Expr}
    {t0 : Term} {el c : Constraint}
    (hres : ∀ l d, res d l = true → AllHold ρ l → Holds ρ d)
    (hf : forTimes sim res name L = some N) (hd : L.deref = none)
    (hcount : ∀ f ∈ L.testTrue, (∃ g ∈ L.incEnsures, incVar sim g = true ∧ g.l.similar sim f.l = true)
      → Counter sim ts ρ f)
    (hel : el ∈ L.bodyEnsures) (hinc : Increment sim t0 el) (ht : t0 ∈ ts)
    (hc : c ∈ L.requires) (only : ∀ t ∈ termsC c, OneOf sim ts t → t.similar sim t0 = true)
    (exact : Holds ρ (searchAddC sim (.term t0) N c) → Holds ρ (advance sim (.term t0) N c))
    (h : AllHold ρ (heuristics sim res name L)) {k : Int} (hk : 0 ≤ k) {σ : State}
    (ha : After sim ts (termsC c ++ L.testTrue.flatMap termsC) ρ k σ)
    (test : AllHold σ L.testTrue) : Holds σ c := by
  rcases C133_guess hf with ⟨f, hfm, har, hfr, g, hg, hgi, hgs⟩ | ⟨t1, t2, h1, _⟩
  · have hC := hcount f hfm ⟨g, hg, hgi, hgs⟩
    obtain ⟨n, hn⟩ := hC.bound
    have hle := C133_counter hC har hn
      (ha.mono fun t hm => List.mem_append_right _ (List.mem_flatMap.2 ⟨f, hfm, hm⟩)) (test f hfm)
    exact C133_partial hres hf (hfr ▸ hn) hel hinc ht hc only exact h hk hle
      (ha.mono fun t hm => List.mem_append_left _ hm)
  · rw [hd] at h1
    cases h1

/-- The iterations of `for (; *p; p++)` are fewer than the characters that can be set, if one of these
is the end of the string: the guess `maxSet(p)` is large enough. -/
theorem C133_string {content : Int → Int} {n z k : Int} (hz : content z = 0) (hzn : z ≤ n) (h0 : 0 ≤ z)
    (hk : ∀ j, 0 ≤ j → j ≤ k → content j ≠ 0) : k ≤ n := by
  by_contra h
  exact hk z h0 (by omega) hz

/-- If nothing can be guessed, or the body increments nothing by one, nothing is added. -/
theorem C133_nothing {sim : Nat → Nat → Bool} {res : Constraint → List Constraint → Bool}
    {name : Option Nat → Option Nat → Bool} {L : Loop}
    (h : forTimes sim res name L = none ∨ ∀ el ∈ L.bodyEnsures, incVar sim el = false) :
    heuristics sim res name L = L.requires := by
  unfold heuristics
  split
  next N hN =>
    rcases h with h | h
    · rw [h] at hN; cases hN
    · have : ∀ ens l, (∀ el ∈ ens, incVar sim el = false) → adjust sim res N ens l = l := by
        intro ens
        induction ens with
        | nil => intro l _; rfl
        | cons el ens ih =>
          intro l h
          simp only [adjust, List.foldl_cons, h el (by simp), Bool.false_eq_true, if_false]
          exact ih l fun e he => h e (by simp [he])
      exact this _ _ h
  next => rfl

/-! ### `for (i = i0; i < n; i++) { *p = 0; p++; }` -/

namespace HeurEx

abbrev same (a b : Nat) : Bool := a == b
/-- the real `constraintList_resolve` -/
def res (c : Constraint) (l : List Constraint) : Bool := (Constraint.resolve same c l).getD false
def name (a b : Option Nat) : Bool := a == b
def pT : Term := .ref 0 none
def iT : Term := .ref 1 none
def p : Expr := .term pT
def i : Expr := .term iT
def n : Expr := .term (.ref 2 none)
def inc (e : Expr) : Constraint := ⟨e, .eq, .bin .plus e (.lit 1)⟩
/-- `maxSet(p) >= 0`, from `*p = 0` -/
def set : Constraint := ⟨.un .maxSet p, .gte, .lit 0⟩

/-- the loop; `strict` for `i < n`, and `i <= n` otherwise -/
def loop (strict : Bool) : Loop where
  testTrue := [⟨i, if strict then .lt else .lte, n⟩]
  incEnsures := [inc i]
  bodyEnsures := [inc p]
  requires := [set]

/-- before the loop: `p` is the start of a buffer with indices up to `top` -/
def start (top i0 m : Int) : State where
  ref := fun r => if r = 0 then .ptr 0 0 else if r = 1 then .int i0 else .int m
  node := fun _ => .int 0
  size := fun _ _ => top

/-- in iteration `k` -/
def iter (top i0 m k : Int) : State where
  ref := fun r => if r = 0 then .ptr 0 k else if r = 1 then .int (i0 + k) else .int m
  node := fun _ => .int 0
  size := fun _ _ => top

theorem after (top i0 m k : Int) :
    After same [pT, iT] (termsC set ++ [iT, .ref 2 none]) (start top i0 m) k (iter top i0 m k) := by
  refine ⟨rfl, ?_, ?_⟩
  · intro t ht ho
    simp [termsC, set, terms, p, pT, iT] at ht
    rcases ht with rfl | rfl | rfl | rfl
    · simp [evalTerm, start, iter, Val.move]
    · exact absurd ho (by rintro ⟨u, hu, h⟩; simp [pT, iT] at hu; rcases hu with rfl | rfl <;> cases h)
    · simp [evalTerm, start, iter, Val.move]
    · exact absurd ho (by rintro ⟨u, hu, h⟩; simp [pT, iT] at hu; rcases hu with rfl | rfl <;> cases h)
  · intro t ht ho
    simp [termsC, set, terms, p, pT, iT] at ht
    rcases ht with rfl | rfl | rfl | rfl
    · exact absurd ⟨pT, by simp, rfl⟩ ho
    · rfl
    · exact absurd ⟨iT, by simp, rfl⟩ ho
    · rfl

/-- `maxSet(p) >= n` is added. -/
theorem added (strict : Bool) :
    heuristics same res name (loop strict) = [set, ⟨.un .maxSet p, .gte, n⟩] := by
  cases strict <;> decide +kernel

theorem set_iter (top i0 m k : Int) : Holds (iter top i0 m k) set ↔ k ≤ top := by
  constructor
  · rintro ⟨x, y, hx, hy, hr⟩
    cases hx
    cases hy
    have := hr.2
    simp [iter, evalTerm] at this
    omega
  · intro h
    exact ⟨_, _, rfl, rfl, rfl, show top - k ≥ 0 by omega⟩

theorem required (strict : Bool) (top i0 m : Int) :
    AllHold (start top i0 m) (heuristics same res name (loop strict)) ↔ 0 ≤ top ∧ m ≤ top := by
  rw [added]
  constructor
  · intro h
    obtain ⟨x, y, hx, hy, hr⟩ := h set (by simp)
    cases hx
    cases hy
    obtain ⟨x, y, hx, hy, hr'⟩ := h ⟨.un .maxSet p, .gte, n⟩ (by simp)
    cases hx
    cases hy
    have h1 := hr.2
    have h2 := hr'.2
    simp [start, evalTerm] at h1 h2
    omega
  · rintro ⟨h1, h2⟩ c hc
    simp at hc
    rcases hc with rfl | rfl
    · exact ⟨_, _, rfl, rfl, rfl, show top - 0 ≥ 0 by omega⟩
    · exact ⟨_, _, rfl, rfl, rfl, show top - 0 ≥ m by omega⟩

end HeurEx

/-- For this loop, exactly when what is required is what is needed: the buffer has indices 0 to `n`,
while indices 0 to `n - 1 - i0` (for `<`) and 0 to `n - i0` (for `<=`) are used. -/
theorem C133_exactly (strict : Bool) (top i0 m : Int) :
    (AllHold (HeurEx.start top i0 m) (heuristics HeurEx.same HeurEx.res HeurEx.name (HeurEx.loop strict))
      ↔ 0 ≤ top ∧ m ≤ top)
    ∧ ((∀ k, Executed strict i0 m k → Holds (HeurEx.iter top i0 m k) HeurEx.set)
      ↔ ((if strict then m - 1 - i0 else m - i0) < 0 ∨ (if strict then m - 1 - i0 else m - i0) ≤ top)) := by
  refine ⟨HeurEx.required strict top i0 m, ?_⟩
  simp only [HeurEx.set_iter, Executed]
  cases strict
  · simp only [Bool.false_eq_true, if_false]
    constructor
    · intro h
      by_cases h0 : m - i0 < 0
      · exact Or.inl h0
      · exact Or.inr (h (m - i0) ⟨by omega, by omega⟩)
    · rintro h k ⟨h1, h2⟩
      omega
  · simp only [if_true]
    constructor
    · intro h
      by_cases h0 : m - 1 - i0 < 0
      · exact Or.inl h0
      · exact Or.inr (h (m - 1 - i0) ⟨by omega, by omega⟩)
    · rintro h k ⟨h1, h2⟩
      omega

/-- A buffer of exactly `n` elements, which `for (i = 0; i < n; i++)` fills, is not enough. -/
theorem C133_off_by_one (m : Int) (_h : 1 ≤ m) :
    (∀ k, Executed true 0 m k → Holds (HeurEx.iter (m - 1) 0 m k) HeurEx.set)
    ∧ ¬ AllHold (HeurEx.start (m - 1) 0 m)
        (heuristics HeurEx.same HeurEx.res HeurEx.name (HeurEx.loop true)) := by
  obtain ⟨h1, h2⟩ := C133_exactly true (m - 1) 0 m
  refine ⟨h2.2 (Or.inr (by simp)), ?_⟩
  rw [h1]
  omega

/-- If the counter starts below -1, iterations are not checked: some buffer is written past its end
though all that is required holds. -/
theorem C133_negative_start (i0 m : Int) (h : i0 < -1) (hm : 0 ≤ m) :
    AllHold (HeurEx.start m i0 m) (heuristics HeurEx.same HeurEx.res HeurEx.name (HeurEx.loop true))
    ∧ ∃ k, Executed true i0 m k ∧ ¬ Holds (HeurEx.iter m i0 m k) HeurEx.set := by
  refine ⟨(C133_exactly true m i0 m).1.2 ⟨hm, by omega⟩, m - 1 - i0, ⟨by omega, ?_⟩, ?_⟩
  · simp only [if_true]; omega
  · rw [HeurEx.set_iter]; omega

/-- What one would want: for this loop, what is required holds if and only if every iteration that
takes place is in order. -/
def C133_full : Prop :=
  ∀ (strict : Bool) (top i0 m : Int),
    AllHold (HeurEx.start top i0 m) (heuristics HeurEx.same HeurEx.res HeurEx.name (HeurEx.loop strict))
    ↔ ∀ k, Executed strict i0 m k → Holds (HeurEx.iter top i0 m k) HeurEx.set

theorem C133_full_is_false : ¬ C133_full := fun h =>
  (C133_off_by_one 1 (by decide)).2 ((h true 0 0 1).2 (C133_off_by_one 1 (by decide)).1)

/-- For `<=` and a counter that starts at 0 it is so, if the body is executed at all. -/
theorem C133_exact_lte (top m : Int) (hm : 0 ≤ m) :
    AllHold (HeurEx.start top 0 m) (heuristics HeurEx.same HeurEx.res HeurEx.name (HeurEx.loop false))
    ↔ ∀ k, Executed false 0 m k → Holds (HeurEx.iter top 0 m k) HeurEx.set := by
  rw [(C133_exactly false top 0 m).1, (C133_exactly false top 0 m).2]
  simp
  omega

/-- A body that advances its pointer by two is checked for the first iteration only. -/
theorem C133_step_two (b : Bool) :
    heuristics HeurEx.same HeurEx.res HeurEx.name
      { HeurEx.loop b with bodyEnsures := [⟨HeurEx.p, .eq, .bin .plus HeurEx.p (.lit 2)⟩] }
      = [HeurEx.set] := by
  cases b <;> decide +kernel

/-- `n > i` says the same as `i < n`, but is not understood. -/
theorem C133_reversed :
    heuristics HeurEx.same HeurEx.res HeurEx.name
      { HeurEx.loop true with testTrue := [⟨HeurEx.n, .gt, HeurEx.i⟩] } = [HeurEx.set] := by
  decide +kernel

/-- `for (; *q; q++) { *p = *q; p++; }`: `maxSet(p) >= maxSet(q)` -/
example : heuristics HeurEx.same HeurEx.res HeurEx.name
    { testTrue := [], incEnsures := [HeurEx.inc (.term (.ref 3 none))], bodyEnsures := [HeurEx.inc HeurEx.p],
      requires := [HeurEx.set], deref := some ⟨7, some 3, none, none, none, none⟩,
      postInc := some ⟨8, some 3, none, none, none, none⟩ }
    = [HeurEx.set, ⟨.un .maxSet HeurEx.p, .gte,
        .un .maxSet (.term (.node ⟨7, some 3, none, none, none, none⟩))⟩] := by decide +kernel

/-- the hypotheses of `C133_sound_partial`, for `for (i = 0; i < 5; i++)` and a buffer of 6 elements -/
example : Holds (HeurEx.iter 5 0 5 4) HeurEx.set :=
  C133_sound_partial (sim := HeurEx.same) (res := fun _ _ => false) (name := HeurEx.name)
    (L := HeurEx.loop true) (ts := [HeurEx.pT, HeurEx.iT]) (ρ := HeurEx.start 5 0 5) (N := HeurEx.n)
    (t0 := HeurEx.pT) (el := HeurEx.inc HeurEx.p) (c := HeurEx.set) (k := 4)
    (fun _ _ h => by cases h) rfl rfl
    (by
      intro f hf _
      simp [HeurEx.loop] at hf
      subst hf
      refine ⟨⟨HeurEx.iT, rfl, ⟨HeurEx.iT, by simp, rfl⟩, 0, rfl, by decide⟩, ⟨5, rfl⟩, ?_⟩
      rintro t ht ⟨u, hu, h⟩
      simp [HeurEx.n, terms] at ht
      subst ht
      simp [HeurEx.pT, HeurEx.iT] at hu
      rcases hu with rfl | rfl <;> cases h)
    (by simp [HeurEx.loop]) ⟨rfl, rfl, HeurEx.pT, rfl, rfl⟩ (by simp) (by simp [HeurEx.loop])
    (by
      rintro t ht ⟨u, hu, h⟩
      simp [termsC, HeurEx.set, terms, HeurEx.p] at ht
      rcases ht with rfl | rfl
      · rfl
      · simp [HeurEx.pT, HeurEx.iT] at hu
        rcases hu with rfl | rfl <;> cases h)
    (fun _ => ⟨_, _, rfl, rfl, rfl, by decide⟩)
    (by
      intro c hc
      have e : heuristics HeurEx.same (fun _ _ => false) HeurEx.name (HeurEx.loop true)
          = [HeurEx.set, ⟨.un .maxSet HeurEx.p, .gte, HeurEx.n⟩] := by decide +kernel
      rw [e] at hc
      simp at hc
      rcases hc with rfl | rfl
      · exact ⟨_, _, rfl, rfl, rfl, by decide⟩
      · exact ⟨_, _, rfl, rfl, rfl, by decide⟩)
    (by decide) (HeurEx.after 5 0 5 4)
    (by
      intro c hc
      simp [HeurEx.loop] at hc
      subst hc
      exact ⟨_, _, rfl, rfl, rfl, by decide⟩)

end Splint.Bounds.Heur
