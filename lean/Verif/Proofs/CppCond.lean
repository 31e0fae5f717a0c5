import Verif.Spec.CppCond
import Verif.Proofs.CppSkip
namespace Splint.CppCond
open CppSkip (Kind SLine render skipGroup oneLine_pass oneLine_found)

variable {α σ : Type}

/-! ### Skipping complete groups -/

theorem skipLines_cons (kind : α → Kind) (st : List FType) (l : α) (ls : List α) : skipLines kind st (l :: ls) =
    match kind l, st with
    | .opens, st => skipLines kind (.tIf :: st) ls
    | .other, st => skipLines kind st ls
    | _, [] => (0, [], l :: ls)
    | .endif, _ :: st => skipLines kind st ls
    | .elif, t :: st =>
      ((skipLines kind (.tElif :: st) ls).1 + (if t = .tElse then 1 else 0), (skipLines kind (.tElif :: st) ls).2)
    | .els, t :: st =>
      ((skipLines kind (.tElse :: st) ls).1 + (if t = .tElse then 1 else 0), (skipLines kind (.tElse :: st) ls).2) := by
  conv_lhs => rw [skipLines.eq_def]
  simp only
  generalize kind l = k
  cases k <;> cases st <;> rfl

mutual
theorem skip_block (kind : α → Kind) (b : Block α) (h : b.Ok kind) (st : List FType) (r : List α) :
    skipLines kind st (b.lines ++ r) = skipLines kind st r := by
  match b, h with
  | .nil, _ => rfl
  | .line l b, h =>
    simp only [Block.lines, List.cons_append]
    rw [skipLines_cons, h.1]
    simp only
    exact skip_block kind b h.2 st r
  | .cond l b t c, h =>
    simp only [Block.lines, List.cons_append, List.append_assoc]
    rw [skipLines_cons, h.1]
    simp only
    rw [skip_block kind b h.2.1, skip_tail kind t h.2.2.1 .tIf (by decide), skip_block kind c h.2.2.2]
theorem skip_tail (kind : α → Kind) (t : Tail α) (h : t.Ok kind) (f : FType) (hf : f ≠ .tElse) (st : List FType) (r : List α) :
    skipLines kind (f :: st) (t.lines ++ r) = skipLines kind st r := by
  match t, h with
  | .endif l, h =>
    simp only [Tail.lines, List.cons_append, List.nil_append]
    have h : kind l = .endif := h
    rw [skipLines_cons, h]
  | .els l b e, h =>
    simp only [Tail.lines, List.cons_append, List.append_assoc, List.nil_append]
    rw [skipLines_cons, h.1]
    simp only [if_neg hf]
    rw [skip_block kind b h.2.1, skipLines_cons, h.2.2]
    rfl
  | .elif l b t, h =>
    simp only [Tail.lines, List.cons_append, List.append_assoc]
    rw [skipLines_cons, h.1]
    simp only [if_neg hf]
    rw [skip_block kind b h.2.1, skip_tail kind t h.2.2 .tElif (by decide)]
    rfl
end

/-- Skipping ends at the line after the group. -/
theorem skip_group (kind : α → Kind) (b : Block α) (hb : b.Ok kind) {l : α} (hl : kind l = .elif ∨ kind l = .els ∨ kind l = .endif)
    (r : List α) : skipLines kind [] (b.lines ++ l :: r) = (0, [], l :: r) := by
  rw [skip_block kind b hb, skipLines_cons]
  rcases hl with h | h | h <;> simp only [h]

theorem tail_head (kind : α → Kind) (t : Tail α) (h : t.Ok kind) :
    ∃ l ls, t.lines = l :: ls ∧ (kind l = .elif ∨ kind l = .els ∨ kind l = .endif) := by
  cases t with
  | endif l => exact ⟨l, _, rfl, .inr (.inr h)⟩
  | els l b e => exact ⟨l, _, rfl, .inr (.inl h.1)⟩
  | elif l b t => exact ⟨l, _, rfl, .inl h.1⟩

theorem skip_group_tail (kind : α → Kind) (b : Block α) (hb : b.Ok kind) (t : Tail α) (ht : t.Ok kind) (r : List α) :
    skipLines kind [] (b.lines ++ (t.lines ++ r)) = (0, [], t.lines ++ r) := by
  obtain ⟨l, ls, h1, h2⟩ := tail_head kind t ht
  rw [h1, List.cons_append, skip_group kind b hb h2]

/-! ### Running -/

theorem run_other {E : Env α σ} {st : List Frame} {s : σ} {l : α} {ls : List α} (h : E.kind l = .other) :
    run E st s (l :: ls) = run E st (E.exec s l) ls := by
  rw [run.eq_def]; simp only [h]

theorem run_opens {E : Env α σ} {st : List Frame} {s : σ} {l : α} {ls : List α} (h : E.kind l = .opens) :
    run E st s (l :: ls) =
      if (E.cond s l).1 then run E ({ succeeded := true, type := .tIf } :: st) (E.cond s l).2 ls
      else
        let k := skipLines E.kind [] ls
        let r := run E (leftover k.2.1 ++ { succeeded := false, type := .tIf } :: st) (E.cond s l).2 k.2.2
        (k.1 + r.1, r.2) := by
  rw [run.eq_def]; simp only [h]

theorem run_elif {E : Env α σ} {f : Frame} {st : List Frame} {s : σ} {l : α} {ls : List α} (h : E.kind l = .elif) :
    run E (f :: st) s (l :: ls) =
        let n := if f.type = .tElse then 1 else 0
        if f.succeeded then
          let k := skipLines E.kind [] ls
          let r := run E (leftover k.2.1 ++ { f with type := .tElif } :: st) s k.2.2
          (n + k.1 + r.1, r.2)
        else if (E.cond s l).1 then
          let r := run E ({ succeeded := true, type := .tElif } :: st) (E.cond s l).2 ls
          (n + r.1, r.2)
        else
          let k := skipLines E.kind [] ls
          let r := run E (leftover k.2.1 ++ { f with type := .tElif } :: st) (E.cond s l).2 k.2.2
          (n + k.1 + r.1, r.2) := by
  rw [run.eq_def]; simp only [h]

theorem run_els {E : Env α σ} {f : Frame} {st : List Frame} {s : σ} {l : α} {ls : List α} (h : E.kind l = .els) :
    run E (f :: st) s (l :: ls) =
        let n := if f.type = .tElse then 1 else 0
        if f.succeeded then
          let k := skipLines E.kind [] ls
          let r := run E (leftover k.2.1 ++ { f with type := .tElse } :: st) s k.2.2
          (n + k.1 + r.1, r.2)
        else
          let r := run E ({ succeeded := true, type := .tElse } :: st) s ls
          (n + r.1, r.2) := by
  rw [run.eq_def]; simp only [h]

theorem run_endif {E : Env α σ} {f : Frame} {st : List Frame} {s : σ} {l : α} {ls : List α} (h : E.kind l = .endif) :
    run E (f :: st) s (l :: ls) = run E st s ls := by
  rw [run.eq_def]; simp only [h]

/-- After a group that was processed, the rest of the conditional is passed over. -/
theorem run_done {E : Env α σ} (t : Tail α) (ht : t.Ok E.kind) (f : FType) (hf : f ≠ .tElse) (st : List Frame) (s : σ) (r : List α) :
    run E ({ succeeded := true, type := f } :: st) s (t.lines ++ r) = run E st s r := by
  match t, ht with
  | .endif l, ht =>
    simp only [Tail.lines, List.cons_append, List.nil_append]
    rw [run_endif (show E.kind l = .endif from ht)]
  | .els l b e, ht =>
    simp only [Tail.lines, List.cons_append, List.nil_append, List.append_assoc]
    rw [run_els ht.1]
    simp only [if_neg hf, if_true, skip_group E.kind b ht.2.1 (.inr (.inr ht.2.2)), leftover, List.map_nil, List.nil_append]
    rw [run_endif ht.2.2]
    simp
  | .elif l b t, ht =>
    simp only [Tail.lines, List.cons_append, List.append_assoc]
    rw [run_elif ht.1]
    simp only [if_neg hf, if_true, skip_group_tail E.kind b ht.2.1 t ht.2.2, leftover, List.map_nil, List.nil_append]
    rw [run_done t ht.2.2 .tElif (by decide)]
    simp

mutual
theorem run_block {E : Env α σ} (b : Block α) (hb : b.Ok E.kind) (st : List Frame) (s : σ) (r : List α) :
    run E st s (b.lines ++ r) = run E st (b.sem E s) r := by
  match b, hb with
  | .nil, _ => simp [Block.lines, Block.sem]
  | .line l b, hb =>
    simp only [Block.lines, List.cons_append, Block.sem]
    rw [run_other hb.1, run_block b hb.2]
  | .cond l b t c, hb =>
    simp only [Block.lines, List.cons_append, List.append_assoc, Block.sem]
    rw [run_opens hb.1]
    by_cases hc : (E.cond s l).1 = true
    · simp only [hc, if_true]
      rw [run_block b hb.2.1, run_done t hb.2.2.1 .tIf (by decide), run_block c hb.2.2.2]
    · simp only [hc, if_false, skip_group_tail E.kind b hb.2.1 t hb.2.2.1, leftover, List.map_nil, List.nil_append, Bool.false_eq_true]
      rw [run_tail t hb.2.2.1 .tIf (by decide), run_block c hb.2.2.2]
      simp
theorem run_tail {E : Env α σ} (t : Tail α) (ht : t.Ok E.kind) (f : FType) (hf : f ≠ .tElse) (st : List Frame) (s : σ) (r : List α) :
    run E ({ succeeded := false, type := f } :: st) s (t.lines ++ r) = run E st (t.sem E s) r := by
  match t, ht with
  | .endif l, ht =>
    simp only [Tail.lines, List.cons_append, List.nil_append, Tail.sem]
    rw [run_endif (show E.kind l = .endif from ht)]
  | .els l b e, ht =>
    simp only [Tail.lines, List.cons_append, List.nil_append, List.append_assoc, Tail.sem]
    rw [run_els ht.1]
    simp only [if_neg hf, Bool.false_eq_true, if_false]
    rw [run_block b ht.2.1, run_endif ht.2.2]
    simp
  | .elif l b t, ht =>
    simp only [Tail.lines, List.cons_append, List.append_assoc, Tail.sem]
    rw [run_elif ht.1]
    simp only [if_neg hf, Bool.false_eq_true, if_false]
    by_cases hc : (E.cond s l).1 = true
    · simp only [hc, if_true]
      rw [run_block b ht.2.1, run_done t ht.2.2 .tElif (by decide)]
      simp
    · simp only [hc, if_false, skip_group_tail E.kind b ht.2.1 t ht.2.2, leftover, List.map_nil, List.nil_append, Bool.false_eq_true]
      rw [run_tail t ht.2.2 .tElif (by decide)]
      simp
end

/-! ### When there is no complaint -/

/-- Whether the directives of the file are in order: `true` for a conditional whose #else was seen. -/
def check (kind : α → Kind) : List Bool → List α → Option (List Bool)
  | st, [] => some st
  | st, l :: ls =>
    match kind l, st with
    | .other, st => check kind st ls
    | .opens, st => check kind (false :: st) ls
    | .elif, false :: st => check kind (false :: st) ls
    | .els, false :: st => check kind (true :: st) ls
    | .endif, _ :: st => check kind st ls
    | _, _ => none

theorem check_cons (kind : α → Kind) (st : List Bool) (l : α) (ls : List α) : check kind st (l :: ls) =
    match kind l, st with
    | .other, st => check kind st ls
    | .opens, st => check kind (false :: st) ls
    | .elif, false :: st => check kind (false :: st) ls
    | .els, false :: st => check kind (true :: st) ls
    | .endif, _ :: st => check kind st ls
    | _, _ => none := by
  conv_lhs => rw [check.eq_def]

/-- What `check` knows of a frame. -/
def isElse (t : FType) : Bool := match t with
  | .tElse => true
  | _ => false

theorem isElse_ne {t : FType} (h : t ≠ .tElse) : isElse t = false := by cases t <;> first | rfl | exact absurd rfl h

theorem check_skip (kind : α → Kind) : ∀ (st : List FType) (ls : List α) (top : List Bool),
    ((skipLines kind st ls).1 = 0 → check kind (st.map isElse ++ top) ls =
      check kind ((skipLines kind st ls).2.1.map isElse ++ top) (skipLines kind st ls).2.2) ∧
    ((skipLines kind st ls).1 ≠ 0 → check kind (st.map isElse ++ top) ls = none) := by
  intro st ls
  fun_induction skipLines kind st ls with
  | case1 st => intro top; simp
  | case2 st l ls hk ih =>
    intro top
    have := ih top
    rw [check_cons]
    simp only [hk]
    exact this
  | case3 st l ls hk ih =>
    intro top
    have := ih top
    rw [check_cons]
    simp only [hk]
    exact this
  | case4 => intro top; simp
  | case5 l ls t st hk ih =>
    intro top
    have := ih top
    rw [check_cons]
    simp only [hk, List.map_cons, List.cons_append]
    exact this
  | case6 l ls t st hk ih =>
    intro top
    have := ih top
    by_cases ht : t = .tElse
    · subst ht
      rw [check_cons]
      simp [hk, isElse]
    · rw [check_cons]
      simp only [hk, List.map_cons, List.cons_append, isElse_ne ht, if_neg ht, Nat.add_zero]
      exact this
  | case7 l ls t st hk ih =>
    intro top
    have := ih top
    by_cases ht : t = .tElse
    · subst ht
      rw [check_cons]
      simp [hk, isElse]
    · rw [check_cons]
      simp only [hk, List.map_cons, List.cons_append, isElse_ne ht, if_neg ht, Nat.add_zero]
      exact this

/-- What `check` knows of the stack. -/
def seen (st : List Frame) : List Bool := st.map fun f => isElse f.type

theorem seen_leftover (x : List FType) (st : List Frame) : seen (leftover x ++ st) = x.map isElse ++ seen st := by
  simp [seen, leftover, Function.comp_def]

/-- The outcome of a run agrees with `check`. -/
def Agrees (r : Nat × List Frame × σ) (c : Option (List Bool)) : Prop :=
  (r.1 = 0 → c = some (seen r.2.1)) ∧ (r.1 ≠ 0 → c = none)

theorem Agrees.bad {r : Nat × List Frame × σ} (h : r.1 ≠ 0) : Agrees r none := ⟨fun h' => absurd h' h, fun _ => rfl⟩

/-- Skipping and then running. -/
theorem agrees_skip {E : Env α σ} {ls : List α} {f : Frame} {st : List Frame} {r : Nat × List Frame × σ}
    (ih : Agrees r (check E.kind (seen (leftover (skipLines E.kind [] ls).2.1 ++ f :: st)) (skipLines E.kind [] ls).2.2)) :
    Agrees ((skipLines E.kind [] ls).1 + r.1, r.2) (check E.kind (isElse f.type :: seen st) ls) := by
  have h := check_skip E.kind [] ls (isElse f.type :: seen st)
  simp only [List.map_nil, List.nil_append] at h
  rw [seen_leftover, show seen (f :: st) = isElse f.type :: seen st from rfl] at ih
  by_cases h0 : (skipLines E.kind [] ls).1 = 0
  · rw [h.1 h0, h0]
    simpa [Agrees] using ih
  · rw [h.2 h0]
    exact Agrees.bad (by simp only; omega)

theorem run_check (E : Env α σ) : ∀ (n : Nat) (st : List Frame) (s : σ) (ls : List α), ls.length ≤ n →
    Agrees (run E st s ls) (check E.kind (seen st) ls) := by
  intro n
  induction n with
  | zero =>
    intro st s ls h
    have : ls = [] := by simpa using h
    subst this
    rw [run.eq_def]
    simp [Agrees, check]
  | succ n ih =>
    intro st s ls h
    match ls with
    | [] => rw [run.eq_def]; simp [Agrees, check]
    | l :: ls =>
      have hl : ls.length ≤ n := by simpa using h
      have hk := skipLines_le E.kind [] ls
      have hsk : (skipLines E.kind [] ls).2.2.length ≤ n := by omega
      rw [check_cons]
      match hkind : E.kind l, st with
      | .other, st => rw [run_other hkind]; exact ih _ _ _ hl
      | .opens, st =>
        rw [run_opens hkind]
        split
        · exact ih _ _ _ hl
        · exact agrees_skip (f := { succeeded := false, type := .tIf }) (ih _ _ _ hsk)
      | .endif, f :: st => rw [run_endif hkind]; exact ih _ _ _ hl
      | .endif, [] => rw [run.eq_def]; simp only [hkind]; exact Agrees.bad (by simp only; omega)
      | .els, [] => rw [run.eq_def]; simp only [hkind]; exact Agrees.bad (by simp only; omega)
      | .elif, [] => rw [run.eq_def]; simp only [hkind]; exact Agrees.bad (by simp only; omega)
      | .els, f :: st =>
        rw [run_els hkind]
        by_cases ht : f.type = .tElse
        · have : seen (f :: st) = true :: seen st := by simp [seen, ht, isElse]
          rw [this]
          simp only [ht, if_true]
          split <;> exact Agrees.bad (by simp only; omega)
        · have : seen (f :: st) = false :: seen st := by simp [seen, isElse_ne ht]
          rw [this]
          simp only [ht, if_false, Nat.zero_add]
          split
          · exact agrees_skip (f := { f with type := .tElse }) (ih _ _ _ hsk)
          · exact ih ({ succeeded := true, type := .tElse } :: st) _ _ hl
      | .elif, f :: st =>
        rw [run_elif hkind]
        by_cases ht : f.type = .tElse
        · have : seen (f :: st) = true :: seen st := by simp [seen, ht, isElse]
          rw [this]
          simp only [ht, if_true]
          split
          · exact Agrees.bad (by simp only; omega)
          · split <;> exact Agrees.bad (by simp only; omega)
        · have : seen (f :: st) = false :: seen st := by simp [seen, isElse_ne ht]
          rw [this]
          simp only [ht, if_false, Nat.zero_add]
          split
          · exact agrees_skip (f := { f with type := .tElif }) (ih _ _ _ hsk)
          · split
            · exact ih ({ succeeded := true, type := .tElif } :: st) _ _ hl
            · exact agrees_skip (f := { f with type := .tElif }) (ih _ _ _ hsk)

/-! ### `check` and nesting -/

mutual
theorem check_block (kind : α → Kind) (b : Block α) (h : b.Ok kind) (st : List Bool) (r : List α) :
    check kind st (b.lines ++ r) = check kind st r := by
  match b, h with
  | .nil, _ => rfl
  | .line l b, h =>
    simp only [Block.lines, List.cons_append]
    rw [check_cons, h.1]
    simp only
    exact check_block kind b h.2 st r
  | .cond l b t c, h =>
    simp only [Block.lines, List.cons_append, List.append_assoc]
    rw [check_cons, h.1]
    simp only
    rw [check_block kind b h.2.1, check_tail kind t h.2.2.1, check_block kind c h.2.2.2]
theorem check_tail (kind : α → Kind) (t : Tail α) (h : t.Ok kind) (st : List Bool) (r : List α) :
    check kind (false :: st) (t.lines ++ r) = check kind st r := by
  match t, h with
  | .endif l, h =>
    simp only [Tail.lines, List.cons_append, List.nil_append]
    have h : kind l = .endif := h
    rw [check_cons, h]
  | .els l b e, h =>
    simp only [Tail.lines, List.cons_append, List.append_assoc, List.nil_append]
    rw [check_cons, h.1]
    simp only
    rw [check_block kind b h.2.1, check_cons, h.2.2]
  | .elif l b t, h =>
    simp only [Tail.lines, List.cons_append, List.append_assoc]
    rw [check_cons, h.1]
    simp only
    rw [check_block kind b h.2.1, check_tail kind t h.2.2]
end

/-- The lines complete the conditionals that are open. -/
def Closes (kind : α → Kind) : List Bool → List α → Prop
  | [], ls => Nested kind ls
  | false :: st, ls => ∃ b : Block α, ∃ t : Tail α, ∃ r, b.Ok kind ∧ t.Ok kind ∧ ls = b.lines ++ (t.lines ++ r) ∧ Closes kind st r
  | true :: st, ls => ∃ b : Block α, ∃ e, ∃ r, b.Ok kind ∧ kind e = .endif ∧ ls = b.lines ++ e :: r ∧ Closes kind st r

theorem closes_other {kind : α → Kind} {st : List Bool} {l : α} {ls : List α} (hl : kind l = .other) (h : Closes kind st ls) :
    Closes kind st (l :: ls) := by
  match st, h with
  | [], ⟨b, h1, h2⟩ => exact ⟨.line l b, ⟨hl, h1⟩, by simp [Block.lines, h2]⟩
  | false :: st, ⟨b, t, r, h1, h2, h3, h4⟩ => exact ⟨.line l b, t, r, ⟨hl, h1⟩, h2, by simp [Block.lines, h3], h4⟩
  | true :: st, ⟨b, e, r, h1, h2, h3, h4⟩ => exact ⟨.line l b, e, r, ⟨hl, h1⟩, h2, by simp [Block.lines, h3], h4⟩

theorem closes_opens {kind : α → Kind} {st : List Bool} {l : α} {ls : List α} (hl : kind l = .opens)
    (h : Closes kind (false :: st) ls) : Closes kind st (l :: ls) := by
  obtain ⟨b, t, r, h1, h2, h3, h4⟩ := h
  match st, h4 with
  | [], ⟨c, k1, k2⟩ => exact ⟨.cond l b t c, ⟨hl, h1, h2, k1⟩, by simp [Block.lines, h3, k2]⟩
  | false :: st, ⟨c, t', r', k1, k2, k3, k4⟩ =>
    exact ⟨.cond l b t c, t', r', ⟨hl, h1, h2, k1⟩, k2, by simp [Block.lines, h3, k3], k4⟩
  | true :: st, ⟨c, e, r', k1, k2, k3, k4⟩ =>
    exact ⟨.cond l b t c, e, r', ⟨hl, h1, h2, k1⟩, k2, by simp [Block.lines, h3, k3], k4⟩

theorem check_closes (kind : α → Kind) : ∀ (ls : List α) (st : List Bool), check kind st ls = some [] → Closes kind st ls := by
  intro ls
  induction ls with
  | nil =>
    intro st h
    simp only [check, Option.some.injEq] at h
    subst h
    exact ⟨.nil, trivial, rfl⟩
  | cons l ls ih =>
    intro st h
    rw [check_cons] at h
    split at h
    · exact closes_other ‹_› (ih _ h)
    · exact closes_opens ‹_› (ih _ h)
    · obtain ⟨b, t, r, h1, h2, h3, h4⟩ := ih _ h
      exact ⟨.nil, .elif l b t, r, trivial, ⟨‹_›, h1, h2⟩, by simp [Block.lines, Tail.lines, h3], h4⟩
    · obtain ⟨b, e, r, h1, h2, h3, h4⟩ := ih _ h
      exact ⟨.nil, .els l b e, r, trivial, ⟨‹_›, h1, h2⟩, by simp [Block.lines, Tail.lines, h3], h4⟩
    · rename_i x st hk
      have h4 := ih _ h
      cases x with
      | false => exact ⟨.nil, .endif l, ls, trivial, hk, by simp [Block.lines, Tail.lines], h4⟩
      | true => exact ⟨.nil, l, ls, trivial, hk, by simp [Block.lines], h4⟩
    · simp at h

theorem check_nested (kind : α → Kind) (ls : List α) : check kind [] ls = some [] ↔ Nested kind ls := by
  constructor
  · exact check_closes kind ls []
  · rintro ⟨b, h1, rfl⟩
    have := check_block kind b h1 [] []
    rw [List.append_nil] at this
    rw [this, check]

theorem check_append (kind : α → Kind) : ∀ (a : List α) (st : List Bool) (b : List α),
    check kind st (a ++ b) = (check kind st a).bind (fun st' => check kind st' b) := by
  intro a
  induction a with
  | nil => intro st b; rfl
  | cons l a ih =>
    intro st b
    rw [List.cons_append, check_cons, check_cons]
    split <;> first | exact ih _ _ | rfl

/-- Lines that are in order so far can be completed. -/
theorem check_extend (kind : α → Kind) {e : α} (he : kind e = .endif) : ∀ st : List Bool,
    check kind st (List.replicate st.length e) = some [] := by
  intro st
  induction st with
  | nil => rfl
  | cons x st ih => rw [List.length_cons, List.replicate_succ, check_cons, he]; exact ih

theorem check_some (kind : α → Kind) {e : α} (he : kind e = .endif) (ls : List α) :
    (∃ st, check kind [] ls = some st) ↔ ∃ more, Nested kind (ls ++ more) := by
  constructor
  · rintro ⟨st, h⟩
    exact ⟨List.replicate st.length e, (check_nested kind _).1 (by rw [check_append, h]; exact check_extend kind he st)⟩
  · rintro ⟨more, h⟩
    have := (check_nested kind _).2 h
    rw [check_append] at this
    cases hc : check kind [] ls with
    | none => rw [hc] at this; simp at this
    | some st => exact ⟨st, rfl⟩

/-! ### Characters and lines -/

/-- Skipping by characters ends where skipping by lines does. -/
theorem skip_refines : ∀ (ls : List SLine) (st : List FType) (fuel : Nat) (b : List Char), (∀ l ∈ ls, l.Valid) →
    ls.length < fuel →
    ∃ pre, ls = pre ++ (skipLines SLine.kind st ls).2.2 ∧
      skipGroup fuel st.length (b, render ls) =
        some ((render pre).reverse ++ b, render (skipLines SLine.kind st ls).2.2) := by
  intro ls
  induction ls with
  | nil =>
    intro st fuel b _ hf
    obtain ⟨n, rfl⟩ : ∃ n, fuel = n + 1 := ⟨fuel - 1, by simp at hf; omega⟩
    refine ⟨[], by simp [skipLines], ?_⟩
    simp only [render, skipLines, skipGroup, CppSkip.oneLine]
    rw [CppSkip.skipHspace]
    rfl
  | cons l ls ih =>
    intro st fuel b hv hf
    obtain ⟨n, rfl⟩ : ∃ n, fuel = n + 1 := ⟨fuel - 1, by simp at hf; omega⟩
    have hl := hv l (by simp)
    have hvs : ∀ l ∈ ls, l.Valid := fun x hx => hv x (by simp [hx])
    have hfn : ls.length < n := by simpa using hf
    have step : ∀ st', (st.length ≠ 0 ∨ l.kind = .opens ∨ l.kind = .other) → CppSkip.after st.length l = st'.length →
        (skipLines SLine.kind st (l :: ls)).2.2 = (skipLines SLine.kind st' ls).2.2 →
        ∃ pre, l :: ls = pre ++ (skipLines SLine.kind st (l :: ls)).2.2 ∧
          skipGroup (n + 1) st.length (b, render (l :: ls)) =
            some ((render pre).reverse ++ b, render (skipLines SLine.kind st (l :: ls)).2.2) := by
      intro st' h1 h2 h3
      obtain ⟨pre, p1, p2⟩ := ih st' n ('\n' :: (l.chars.reverse ++ b)) hvs hfn
      refine ⟨l :: pre, ?_, ?_⟩
      · rw [h3, List.cons_append, ← p1]
      · rw [skipGroup]
        simp only [render]
        rw [oneLine_pass hl h1, h2]
        simp only
        rw [p2, h3]
        simp
    match hk : l.kind, st with
    | .opens, st =>
      exact step (.tIf :: st) (.inr (.inl hk)) (by simp [CppSkip.after, hk]) (by rw [skipLines_cons, hk])
    | .other, st =>
      exact step st (.inr (.inr hk)) (by simp [CppSkip.after, hk]) (by rw [skipLines_cons, hk])
    | .elif, [] =>
      refine ⟨[], by rw [skipLines_cons, hk]; rfl, ?_⟩
      rw [skipGroup, skipLines_cons, hk]
      simp only [render, List.length_nil, oneLine_found hl (.inl hk)]
      rfl
    | .els, [] =>
      refine ⟨[], by rw [skipLines_cons, hk]; rfl, ?_⟩
      rw [skipGroup, skipLines_cons, hk]
      simp only [render, List.length_nil, oneLine_found hl (.inr (.inl hk))]
      rfl
    | .endif, [] =>
      refine ⟨[], by rw [skipLines_cons, hk]; rfl, ?_⟩
      rw [skipGroup, skipLines_cons, hk]
      simp only [render, List.length_nil, oneLine_found hl (.inr (.inr hk))]
      rfl
    | .elif, t :: st =>
      exact step (.tElif :: st) (.inl (by simp)) (by simp [CppSkip.after, hk]) (by rw [skipLines_cons, hk])
    | .els, t :: st =>
      exact step (.tElse :: st) (.inl (by simp)) (by simp [CppSkip.after, hk]) (by rw [skipLines_cons, hk])
    | .endif, t :: st =>
      exact step st (.inl (by simp)) (by simp [CppSkip.after, hk]) (by rw [skipLines_cons, hk])

end Splint.CppCond
