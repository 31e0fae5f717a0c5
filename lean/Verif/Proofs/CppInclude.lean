import Verif.Spec.CppInclude
import Verif.Proofs.CppCond
namespace Splint.CppInclude
open CppCond (Block Tail FType skipLines skip_group skip_group_tail tail_head)

variable {κ : Type}

/-! ### One line -/

theorem r_nil (S : Sys κ) (opt : Bool) (depth : Nat) (cur : String) (st : List Frame) (s : St) :
    run S opt depth cur st s ([]) = some (st, s) := by
  cases depth <;> (simp only [run]; rw [runIn])

theorem r_blank (S : Sys κ) (opt : Bool) (depth : Nat) (cur : String) (st : List Frame) (s : St) (ls : List (Ln κ)) :
    run S opt depth cur st s (.blank :: ls) = run S opt depth cur st s ls := by
  cases depth <;> (simp only [run]; rw [runIn])

theorem r_text (S : Sys κ) (opt : Bool) (depth : Nat) (cur : String) (st : List Frame) (s : St) (t : String) (ls : List (Ln κ)) :
    run S opt depth cur st s (.text t :: ls) = run S opt depth cur st { s with out := s.out ++ [t], fresh := false } ls := by
  cases depth <;> (simp only [run]; rw [runIn])

theorem r_define (S : Sys κ) (opt : Bool) (depth : Nat) (cur : String) (st : List Frame) (s : St) (m : String) (ls : List (Ln κ)) :
    run S opt depth cur st s (.define m :: ls) = run S opt depth cur st { s with macros := fun x => x == m || s.macros x } ls := by
  cases depth <;> (simp only [run]; rw [runIn])

theorem r_undef (S : Sys κ) (opt : Bool) (depth : Nat) (cur : String) (st : List Frame) (s : St) (m : String) (ls : List (Ln κ)) :
    run S opt depth cur st s (.undef m :: ls) = run S opt depth cur st { s with macros := fun x => x != m && s.macros x } ls := by
  cases depth <;> (simp only [run]; rw [runIn])

theorem r_ifndef (S : Sys κ) (opt : Bool) (depth : Nat) (cur : String) (st : List Frame) (s : St) (m : String) (ls : List (Ln κ)) :
    run S opt depth cur st s (.ifndef m :: ls) =
    if s.macros m then
      let k := skipLines Ln.kind [] ls
      run S opt depth cur (leftover k.2.1 ++ { succeeded := false, type := .tIf, control := none } :: st) (skipped s) k.2.2
    else run S opt depth cur ({ succeeded := true, type := .tIf, control := if s.fresh then some m else none } :: st) s ls := by
  cases depth <;> (simp only [run]; rw [runIn])

theorem r_ifc (S : Sys κ) (opt : Bool) (depth : Nat) (cur : String) (st : List Frame) (s : St) (c : κ) (ls : List (Ln κ)) :
    run S opt depth cur st s (.ifc c :: ls) =
    if S.eval c s.macros then run S opt depth cur ({ succeeded := true, type := .tIf, control := none } :: st) s ls
    else
      let k := skipLines Ln.kind [] ls
      run S opt depth cur (leftover k.2.1 ++ { succeeded := false, type := .tIf, control := none } :: st) (skipped s) k.2.2 := by
  cases depth <;> (simp only [run]; rw [runIn])

theorem r_elif (S : Sys κ) (opt : Bool) (depth : Nat) (cur : String) (st : List Frame) (s : St) (c : κ) (ls : List (Ln κ)) :
    run S opt depth cur st s (.elif c :: ls) =
    match st with
    | [] => run S opt depth cur [] s ls
    | f :: st =>
      if f.succeeded then
        let k := skipLines Ln.kind [] ls
        run S opt depth cur (leftover k.2.1 ++ { f with type := .tElif } :: st) (skipped s) k.2.2
      else if S.eval c s.macros then
        run S opt depth cur ({ f with succeeded := true, type := .tElif } :: st) s ls
      else
        let k := skipLines Ln.kind [] ls
        run S opt depth cur (leftover k.2.1 ++ { f with type := .tElif } :: st) (skipped s) k.2.2 := by
  cases depth <;> (simp only [run]; rw [runIn.eq_def]; cases st <;> rfl)

theorem r_els (S : Sys κ) (opt : Bool) (depth : Nat) (cur : String) (st : List Frame) (s : St) (ls : List (Ln κ)) :
    run S opt depth cur st s (.els :: ls) =
    match st with
    | [] => run S opt depth cur [] s ls
    | f :: st =>
      if f.succeeded then
        let k := skipLines Ln.kind [] ls
        run S opt depth cur (leftover k.2.1 ++ { f with type := .tElse, control := none } :: st) (skipped s) k.2.2
      else run S opt depth cur ({ succeeded := true, type := .tElse, control := none } :: st) s ls := by
  cases depth <;> (simp only [run]; rw [runIn.eq_def]; cases st <;> rfl)

theorem r_endif (S : Sys κ) (opt : Bool) (depth : Nat) (cur : String) (st : List Frame) (s : St) (ls : List (Ln κ)) :
    run S opt depth cur st s (.endif :: ls) =
    match st with
    | [] => run S opt depth cur [] s ls
    | f :: st =>
      match f.control with
      | none => run S opt depth cur st s ls
      | some g => run S opt depth cur st (if blank ls then { s with files := setControl cur g s.files } else s) ls := by
  cases depth <;> (simp only [run]; rw [runIn.eq_def]; cases st <;> rfl)

theorem r_incl (S : Sys κ) (opt : Bool) (depth : Nat) (cur : String) (st : List Frame) (s : St) (f : String) (ls : List (Ln κ)) :
    run S opt depth cur st s (.incl f :: ls) =
    match S.file f with
    | none => run S opt depth cur st s ls
    | some inner =>
      if opt && redundant s f then run S opt depth cur st s ls
      else
        match depth with
        | 0 => none
        | d + 1 =>
          match run S opt d f [] { addFile s f with fresh := true } inner with
          | none => none
          | some r => run S opt (d + 1) cur (r.1 ++ st) r.2 ls := by
  cases depth <;> (simp only [run]; rw [runIn])
  · cases S.file f with
    | none => rfl
    | some inner => rfl
  · cases S.file f with
    | none => rfl
    | some inner => rfl

/-- One line. -/
macro "rrun" : tactic => `(tactic| first | rw [r_nil] | rw [r_blank] | rw [r_text] | rw [r_define] | rw [r_undef] | rw [r_ifndef] | rw [r_ifc] | (rw [r_elif]; try dsimp only) | (rw [r_els]; try dsimp only) | (rw [r_endif]; try dsimp only) | rw [r_incl])

/-! ### Blank lines -/

theorem blank_append : ∀ a b : List (Ln κ), blank (a ++ b) = (blank a && blank b) := by
  intro a b
  induction a with
  | nil => simp [blank]
  | cons l a ih => cases l <;> simp [blank, ih]

theorem blank_block : ∀ b : Block (Ln κ), b.Ok Ln.kind → blank b.lines = true → Blanks b := by
  intro b
  match b with
  | .nil => intro _ _; trivial
  | .line l r =>
    intro hb h
    simp only [Block.lines] at h
    cases l <;> simp only [blank, Bool.false_eq_true] at h
    exact ⟨rfl, blank_block r hb.2 h⟩
  | .cond l g t r =>
    intro hb h
    have h1 := hb.1
    simp only [Block.lines] at h
    cases l <;> simp [blank, Ln.kind] at h h1

theorem blank_tail (t : Tail (Ln κ)) (ht : t.Ok Ln.kind) (r : List (Ln κ)) : blank (t.lines ++ r) = false := by
  obtain ⟨l, ls, h1, h2⟩ := tail_head Ln.kind t ht
  rw [h1]
  cases l <;> simp [Ln.kind] at h2 <;> rfl

theorem run_blank (S : Sys κ) (opt : Bool) (d : Nat) (cur : String) (st : List Frame) (s : St) : ∀ (b : Block (Ln κ)), Blanks b →
    ∀ r, run S opt d cur st s (b.lines ++ r) = run S opt d cur st s r := by
  intro b
  match b with
  | .nil => intro _ r; rfl
  | .line l b =>
    intro hb r
    obtain ⟨rfl, hb⟩ := hb
    simp only [Block.lines, List.cons_append]
    rrun; rw [run_blank S opt d cur st s b hb]
  | .cond .. => intro hb; exact absurd hb (by simp [Blanks])

/-! ### The two runs -/

/-- A file that may be passed over when `g` is defined. -/
def Once (S : Sys κ) (f g : String) : Prop := ∀ ls, S.file f = some ls → ∃ b : Block (Ln κ), b.Ok Ln.kind ∧ b.lines = ls ∧ Guarded g b

/-- What is recorded is true. -/
def Recorded (S : Sys κ) (s : St) : Prop := ∀ f g, (f, some g) ∈ s.files → Once S f g

/-- The state of the run that asks, and of the one that does not. -/
structure Rel (S : Sys κ) (s s' : St) : Prop where
  macros : s.macros = s'.macros
  out : s.out = s'.out
  recorded : Recorded S s

/-- The run that does not ask fails, or both go on from related states. With `p`, text was the last thing
seen; with `q`, it still is. -/
def Sim (S : Sys κ) (d : Nat) (cur : String) (p q : Bool) (st st' : List Frame) (s s' : St) (ls : List (Ln κ)) (st1 st1' : List Frame)
    (r : List (Ln κ)) : Prop :=
  run S false d cur st' s' ls = none ∨
  ∃ s1 s1', Rel S s1 s1' ∧ run S false d cur st' s' ls = run S false d cur st1' s1' r ∧
    run S true d cur st s ls = run S true d cur st1 s1 r ∧ ((p = true → s.fresh = false) → q = true → s1.fresh = false)

theorem Sim.refl {S : Sys κ} {d : Nat} {cur : String} {p : Bool} {st st' : List Frame} {s s' : St} {r : List (Ln κ)} (h : Rel S s s') :
    Sim S d cur p p st st' s s' r st st' r := .inr ⟨s, s', h, rfl, rfl, fun hp => hp⟩

/-- A step of both runs. -/
theorem Sim.step {S : Sys κ} {d : Nat} {cur : String} {p q : Bool} {st st' st1 st1' st2 st2' : List Frame} {s s' s1 s1' : St}
    {ls ls1 r : List (Ln κ)} (h1 : run S false d cur st' s' ls = run S false d cur st1' s1' ls1)
    (h2 : run S true d cur st s ls = run S true d cur st1 s1 ls1) (hf : s.fresh = false → s1.fresh = false)
    (h : Sim S d cur p q st1 st1' s1 s1' ls1 st2 st2' r) :
    Sim S d cur p q st st' s s' ls st2 st2' r := by
  rcases h with h | ⟨x, x', hr, k1, k2, k3⟩
  · exact .inl (h1.trans h)
  · exact .inr ⟨x, x', hr, h1.trans k1, h2.trans k2, fun hp => k3 (fun hp' => hf (hp hp'))⟩

theorem Sim.trans {S : Sys κ} {d : Nat} {cur : String} {p q t : Bool} {st st' st1 st1' st2 st2' : List Frame} {s s' : St}
    {ls ls1 r : List (Ln κ)} (h : Sim S d cur p q st st' s s' ls st1 st1' ls1) (hp : p = true → s.fresh = false)
    (h2 : ∀ s1 s1', Rel S s1 s1' → (q = true → s1.fresh = false) → Sim S d cur q t st1 st1' s1 s1' ls1 st2 st2' r) :
    Sim S d cur p t st st' s s' ls st2 st2' r := by
  rcases h with h | ⟨x, x', hr, k1, k2, k3⟩
  · exact .inl h
  · rcases h2 x x' hr (k3 hp) with h | ⟨y, y', hy, j1, j2, j3⟩
    · exact .inl (k1.trans h)
    · exact .inr ⟨y, y', hy, k1.trans j1, k2.trans j2, fun hp => j3 (k3 hp)⟩

theorem Sim.weaken {S : Sys κ} {d : Nat} {cur : String} {p q q' : Bool} {st st' st1 st1' : List Frame} {s s' : St}
    {ls ls1 : List (Ln κ)} (h : Sim S d cur p q st st' s s' ls st1 st1' ls1) (hq : q' = true → q = true) :
    Sim S d cur p q' st st' s s' ls st1 st1' ls1 := by
  rcases h with h | ⟨x, x', hr, k1, k2, k3⟩
  · exact .inl h
  · exact .inr ⟨x, x', hr, k1, k2, fun hp h => k3 hp (hq h)⟩

/-! ### Steps -/

theorem run_skip_ifndef (S : Sys κ) (opt : Bool) (d : Nat) (cur : String) (st : List Frame) (s : St) {m : String} (hm : s.macros m = true)
    (g : Block (Ln κ)) (hg : g.Ok Ln.kind) (t : Tail (Ln κ)) (ht : t.Ok Ln.kind) (r : List (Ln κ)) :
    run S opt d cur st s (.ifndef m :: (g.lines ++ (t.lines ++ r))) =
      run S opt d cur ({ succeeded := false, type := .tIf, control := none } :: st) (skipped s) (t.lines ++ r) := by
  rrun; rw [if_pos hm]
  simp only [skip_group_tail Ln.kind g hg t ht, leftover, List.map_nil, List.nil_append]

theorem run_skip_ifc (S : Sys κ) (opt : Bool) (d : Nat) (cur : String) (st : List Frame) (s : St) {c : κ} (hc : ¬ S.eval c s.macros = true)
    (g : Block (Ln κ)) (hg : g.Ok Ln.kind) (t : Tail (Ln κ)) (ht : t.Ok Ln.kind) (r : List (Ln κ)) :
    run S opt d cur st s (.ifc c :: (g.lines ++ (t.lines ++ r))) =
      run S opt d cur ({ succeeded := false, type := .tIf, control := none } :: st) (skipped s) (t.lines ++ r) := by
  rrun; rw [if_neg hc]
  simp only [skip_group_tail Ln.kind g hg t ht, leftover, List.map_nil, List.nil_append]

/-- After a group that was processed. -/
theorem run_done (S : Sys κ) (opt : Bool) (d : Nat) (cur : String) (f : FType) (ctl : Option String) (st : List Frame) (s : St)
    (t : Tail (Ln κ)) (ht : t.Ok Ln.kind) (r : List (Ln κ)) :
    ∃ s1, run S opt d cur ({ succeeded := true, type := f, control := ctl } :: st) s (t.lines ++ r) = run S opt d cur st s1 r ∧
      s1.macros = s.macros ∧ s1.out = s.out ∧ (s.fresh = false → s1.fresh = false) ∧
      (s1.files = s.files ∨ ∃ g, ctl = some g ∧ NoElse t ∧ blank r = true ∧ s1.files = setControl cur g s.files) := by
  match t, ht with
  | .endif l, ht =>
    cases l <;> simp only [Tail.Ok, Ln.kind, reduceCtorEq] at ht
    simp only [Tail.lines, List.cons_append, List.nil_append]
    rrun
    cases ctl with
    | none => exact ⟨s, rfl, rfl, rfl, id, .inl rfl⟩
    | some g =>
      simp only
      by_cases hb : blank r = true
      · rw [if_pos hb]
        exact ⟨_, rfl, rfl, rfl, id, .inr ⟨g, rfl, trivial, hb, rfl⟩⟩
      · rw [if_neg hb]
        exact ⟨s, rfl, rfl, rfl, id, .inl rfl⟩
  | .els l b e, ht =>
    obtain ⟨h1, h2, h3⟩ := ht
    cases l <;> simp only [Ln.kind, reduceCtorEq] at h1
    simp only [Tail.lines, List.cons_append, List.append_assoc, List.nil_append]
    rrun
    simp only [if_true, skip_group Ln.kind b h2 (.inr (.inr h3)), leftover, List.map_nil, List.nil_append]
    cases e <;> simp only [Ln.kind, reduceCtorEq] at h3
    rrun
    exact ⟨_, rfl, rfl, rfl, fun _ => rfl, .inl rfl⟩
  | .elif l b t, ht =>
    obtain ⟨h1, h2, h3⟩ := ht
    cases l <;> simp only [Ln.kind, reduceCtorEq] at h1
    simp only [Tail.lines, List.cons_append, List.append_assoc]
    rrun
    simp only [if_true, skip_group_tail Ln.kind b h2 t h3, leftover, List.map_nil, List.nil_append]
    obtain ⟨s1, k1, k2, k3, k4, k5⟩ := run_done S opt d cur .tElif ctl st (skipped s) t h3 r
    exact ⟨s1, k1, k2, k3, fun _ => k4 rfl, k5⟩

theorem mem_setControl {f g : String} : ∀ {fs : List (String × Option String)} {e : String × Option String},
    e ∈ setControl f g fs → e ∈ fs ∨ e = (f, some g) := by
  intro fs
  induction fs with
  | nil => intro e h; simp [setControl] at h
  | cons x fs ih =>
    intro e h
    simp only [setControl] at h
    split at h
    · rename_i hx
      rw [beq_iff_eq] at hx
      rcases List.mem_cons.1 h with rfl | h
      · right; rw [hx]
      · left; simp [h]
    · rcases List.mem_cons.1 h with rfl | h
      · left; simp
      · rcases ih h with h | h
        · left; simp [h]
        · right; exact h

theorem recorded_addFile {S : Sys κ} {s : St} {f : String} (h : Recorded S s) : Recorded S { addFile s f with fresh := true } := by
  intro x g hx
  unfold addFile at hx
  split at hx
  · exact h x g hx
  · simp only [List.mem_cons, Prod.mk.injEq, reduceCtorEq, and_false, false_or] at hx
    exact h x g hx

/-- Both runs after a group that was processed. -/
theorem sim_done {S : Sys κ} {d : Nat} {cur : String} {p : Bool} {f f' : FType} {ctl ctl' : Option String} {st st' : List Frame} {s s' : St}
    (h : Rel S s s') {t : Tail (Ln κ)} (ht : t.Ok Ln.kind) {r : List (Ln κ)}
    (hg : ∀ g, ctl = some g → NoElse t → blank r = true → Once S cur g) :
    Sim S d cur p p ({ succeeded := true, type := f, control := ctl } :: st) ({ succeeded := true, type := f', control := ctl' } :: st') s s'
      (t.lines ++ r) st st' r := by
  obtain ⟨s1, k1, k2, k3, k5, k4⟩ := run_done S true d cur f ctl st s t ht r
  obtain ⟨s2, j1, j2, j3, _⟩ := run_done S false d cur f' ctl' st' s' t ht r
  refine .inr ⟨s1, s2, ⟨by rw [k2, j2, h.macros], by rw [k3, j3, h.out], ?_⟩, j1, k1, fun hp h => k5 (hp h)⟩
  rcases k4 with k4 | ⟨g, c1, c2, c3, c4⟩
  · intro x y hx; rw [k4] at hx; exact h.recorded x y hx
  · intro x y hx
    rw [c4] at hx
    rcases mem_setControl hx with hx | hx
    · exact h.recorded x y hx
    · rw [Prod.mk.injEq, Option.some.injEq] at hx
      rw [hx.1, hx.2]
      exact hg g c1 c2 c3

/-- A guarded file does nothing when its macro is defined. -/
theorem run_guarded (S : Sys κ) (opt : Bool) (d : Nat) (cur : String) (st : List Frame) (s : St) {g : String} (hg : s.macros g = true) :
    ∀ (b : Block (Ln κ)), b.Ok Ln.kind → Guarded g b → run S opt d cur st s b.lines = some (st, skipped s) := by
  intro b
  match b with
  | .nil => intro _ h; exact absurd h (by simp [Guarded])
  | .line l r =>
    intro hb h
    obtain ⟨rfl, h⟩ := h
    simp only [Block.lines]
    rrun; rw [run_guarded S opt d cur st s hg r hb.2 h]
  | .cond l c t r =>
    intro hb h
    obtain ⟨rfl, ⟨e, rfl⟩, h⟩ := h
    obtain ⟨_, hc, ht, hr⟩ := hb
    simp only [Block.lines]
    rw [run_skip_ifndef S opt d cur st s hg c hc _ ht]
    simp only [Tail.lines, List.cons_append, List.nil_append]
    have ht : e.kind = .endif := ht
    cases e <;> simp only [Ln.kind, reduceCtorEq] at ht
    rrun
    have := run_blank S opt d cur st (skipped s) r h []
    rw [List.append_nil] at this
    rw [this]; rrun

/-! ### The simulation -/

/-- Files included from here behave. -/
def Inner (S : Sys κ) (d : Nat) : Prop := ∀ f ls s s', S.file f = some ls → Rel S s s' →
  run S false d f [] s' ls = none ∨
  ∃ s1 s1', Rel S s1 s1' ∧ run S false d f [] s' ls = some ([], s1') ∧ run S true d f [] s ls = some ([], s1)

theorem sim_line {S : Sys κ} {d : Nat} {cur : String} (hin : ∀ e, d = e + 1 → Inner S e) {st st' : List Frame} {s s' : St} (h : Rel S s s')
    {l : Ln κ} (hl : l.kind = .other) (p : Bool) (r : List (Ln κ)) : Sim S d cur p (seenAfter p l) st st' s s' (l :: r) st st' r := by
  cases l with
  | blank => exact .step (by rrun) (by rrun) id (.refl h)
  | text t =>
    refine .inr ⟨{ s with out := s.out ++ [t], fresh := false }, { s' with out := s'.out ++ [t], fresh := false },
      ⟨h.macros, ?_, h.recorded⟩, by rrun, by rrun, fun _ _ => rfl⟩
    simp only [h.out]
  | define m =>
    refine .inr ⟨{ s with macros := fun x => x == m || s.macros x }, { s' with macros := fun x => x == m || s'.macros x },
      ⟨?_, h.out, h.recorded⟩, by rrun, by rrun, fun hp => hp⟩
    simp only [h.macros]
  | undef m =>
    refine .inr ⟨{ s with macros := fun x => x != m && s.macros x }, { s' with macros := fun x => x != m && s'.macros x },
      ⟨?_, h.out, h.recorded⟩, by rrun, by rrun, fun hp => hp⟩
    simp only [h.macros]
  | ifndef m => simp [Ln.kind] at hl
  | ifc m => simp [Ln.kind] at hl
  | elif m => simp [Ln.kind] at hl
  | els => simp [Ln.kind] at hl
  | endif => simp [Ln.kind] at hl
  | incl f =>
    cases hf : S.file f with
    | none => exact .weaken (.step (by rrun; rw [hf]) (by rrun; rw [hf]) id (.refl (p := p) h)) (by simp [seenAfter])
    | some inner =>
      have e1 : ∀ r, run S false 0 cur st' s' (.incl f :: r) = none := by
        intro r; rrun; rw [hf]; simp
      cases d with
      | zero => exact .inl (e1 r)
      | succ e =>
        have e2 : run S false (e + 1) cur st' s' (.incl f :: r) =
            match run S false e f [] { addFile s' f with fresh := true } inner with
            | none => none
            | some x => run S false (e + 1) cur (x.1 ++ st') x.2 r := by
          rrun; rw [hf]; simp only [Bool.false_and, Bool.false_eq_true, if_false]
        have hadd : ∀ x : St, (addFile x f).macros = x.macros ∧ (addFile x f).out = x.out := by
          intro x; unfold addFile; split <;> exact ⟨rfl, rfl⟩
        by_cases hred : redundant s f = true
        · have e3 : run S true (e + 1) cur st s (.incl f :: r) = run S true (e + 1) cur st s r := by
            rrun; rw [hf]; simp [hred]
          unfold redundant at hred
          rw [List.any_eq_true] at hred
          obtain ⟨⟨x, y⟩, hx, hy⟩ := hred
          simp only [Bool.and_eq_true, beq_iff_eq] at hy
          obtain ⟨rfl, hy⟩ := hy
          cases y with
          | none => simp at hy
          | some g =>
            obtain ⟨b, b1, b2, b3⟩ := h.recorded x g hx inner hf
            have := run_guarded S false e x [] { addFile s' x with fresh := true } (g := g)
              (by rw [h.macros] at hy; simpa [(hadd s').1] using hy) b b1 b3
            rw [← b2, this] at e2
            refine .inr ⟨s, _, ⟨?_, ?_, h.recorded⟩, e2, e3, fun _ h => by simp [seenAfter] at h⟩
            · simp only [skipped, (hadd s').1, h.macros]
            · simp only [skipped, (hadd s').2, h.out]
        · have e3 : run S true (e + 1) cur st s (.incl f :: r) =
            match run S true e f [] { addFile s f with fresh := true } inner with
            | none => none
            | some x => run S true (e + 1) cur (x.1 ++ st) x.2 r := by
            rrun; rw [hf]; simp only [hred, Bool.and_false, Bool.false_eq_true, if_false]
          rcases hin e rfl f inner { addFile s f with fresh := true } { addFile s' f with fresh := true } hf
            ⟨by simp only [(hadd s).1, (hadd s').1, h.macros], by simp only [(hadd s).2, (hadd s').2, h.out], recorded_addFile h.recorded⟩
            with k | ⟨s1, s1', k1, k2, k3⟩
          · rw [k] at e2; exact .inl e2
          · rw [k2] at e2
            rw [k3] at e3
            exact .inr ⟨s1, s1', k1, e2, e3, fun _ h => by simp [seenAfter] at h⟩

/-- What is known after a block. -/
def seenBlock (p : Bool) : Block (Ln κ) → Bool
  | .nil => p
  | .line l r => seenBlock (seenAfter p l) r
  | .cond _ c t r => seenBlock (p && !(c.lines ++ t.lines).any isIncl) r

theorem seenBlock_noIncl : ∀ (b : Block (Ln κ)) (p : Bool), p = true → b.lines.any isIncl = false → seenBlock p b = true := by
  intro b
  match b with
  | .nil => intro p hp _; exact hp
  | .line l r =>
    intro p hp h
    simp only [Block.lines, List.any_cons, Bool.or_eq_false_iff] at h
    refine seenBlock_noIncl r _ ?_ h.2
    cases l <;> simp [isIncl, seenAfter] at h ⊢ <;> exact hp
  | .cond l c t r =>
    intro p hp h
    simp only [Block.lines, List.any_cons, List.any_append, Bool.or_eq_false_iff] at h
    refine seenBlock_noIncl r _ ?_ h.2.2.2
    simp only [List.any_append, h.2.1, h.2.2.1, hp, Bool.or_false, Bool.not_false, Bool.and_true]

mutual
theorem sim_block {S : Sys κ} {d : Nat} {cur : String} (hin : ∀ e, d = e + 1 → Inner S e) (b : Block (Ln κ)) (hb : b.Ok Ln.kind)
    (p : Bool) (st st' : List Frame) (s s' : St) (h : Rel S s s') (hp : p = true → s.fresh = false) (r : List (Ln κ))
    (hg : blank r = true → ∀ g, Ends p g b → Once S cur g) : Sim S d cur p (seenBlock p b) st st' s s' (b.lines ++ r) st st' r := by
  match b, hb with
  | .nil, _ => exact .refl h
  | .line l b, hb =>
    simp only [Block.lines, List.cons_append]
    exact .trans (sim_line hin h hb.1 p _) hp (fun s1 s1' h1 hp1 => sim_block hin b hb.2 _ st st' s1 s1' h1 hp1 r (fun hr g he => hg hr g he))
  | .cond l c t b, hb =>
    obtain ⟨hl, hc, ht, hb⟩ := hb
    simp only [Block.lines, List.cons_append, List.append_assoc]
    have hrest : ∀ s1 s1', Rel S s1 s1' → ((p && !(c.lines ++ t.lines).any isIncl) = true → s1.fresh = false) →
        Sim S d cur (p && !(c.lines ++ t.lines).any isIncl) (seenBlock p (.cond l c t b)) st st' s1 s1' (b.lines ++ r) st st' r :=
      fun s1 s1' h1 hp1 => sim_block hin b hb _ st st' s1 s1' h1 hp1 r (fun hr g he => hg hr g (.inr he))
    have hnb : blank (t.lines ++ (b.lines ++ r)) = false := blank_tail t ht _
    have hgrp : ∀ f f' s1 s1', Rel S s1 s1' → (p = true → s1.fresh = false) → Sim S d cur p (p && !(c.lines ++ t.lines).any isIncl)
        (f :: st) (f' :: st') s1 s1' (c.lines ++ (t.lines ++ (b.lines ++ r)))
        (f :: st) (f' :: st') (t.lines ++ (b.lines ++ r)) := fun f f' s1 s1' h1 hp1 =>
      .weaken (sim_block hin c hc p _ _ s1 s1' h1 hp1 _ (fun hr => by rw [hnb] at hr; simp at hr)) (fun hq => by
        simp only [List.any_append, Bool.and_eq_true, Bool.not_eq_true', Bool.or_eq_false_iff] at hq
        exact seenBlock_noIncl c p hq.1 hq.2.1)
    have hskip : ∀ s1 s1', Rel S s1 s1' → (p = true → s1.fresh = false) → Sim S d cur p (p && !(c.lines ++ t.lines).any isIncl) ({ succeeded := false, type := .tIf, control := none } :: st)
        ({ succeeded := false, type := .tIf, control := none } :: st') s1 s1' (t.lines ++ (b.lines ++ r)) st st' (b.lines ++ r) :=
      fun s1 s1' h1 hp1 => .weaken (sim_tail hin t ht p .tIf .tIf st st' s1 s1' h1 hp1 _) (fun hq => by
        simp only [List.any_append, Bool.and_eq_true, Bool.not_eq_true', Bool.or_eq_false_iff] at hq
        simp only [hq.1, hq.2.2, Bool.not_false, Bool.and_true])
    have hskd : Rel S (skipped s) (skipped s') := ⟨h.macros, h.out, h.recorded⟩
    cases l with
    | ifndef m =>
      by_cases hm : s.macros m = true
      · have hm' : s'.macros m = true := by rw [← h.macros]; exact hm
        exact .step (run_skip_ifndef S false d cur st' s' hm' c hc t ht _) (run_skip_ifndef S true d cur st s hm c hc t ht _)
          (fun _ => rfl) (.trans (hskip _ _ hskd (fun _ => rfl)) (fun _ => rfl) hrest)
      · have hm' : ¬ s'.macros m = true := by rw [← h.macros]; exact hm
        refine .step (by rrun; rw [if_neg hm']) (by rrun; rw [if_neg hm]) id
          (.trans (hgrp _ _ s s' h hp) hp (fun s1 s1' h1 hp1 => .trans (sim_done h1 ht ?_) hp1 hrest))
        intro g hctl hne hbl
        rw [blank_append, Bool.and_eq_true] at hbl
        split at hctl
        · rename_i hfr
          rw [Option.some.injEq] at hctl
          refine hg hbl.2 g (.inl ⟨?_, by rw [hctl], hne, blank_block b hb hbl.1⟩)
          cases p with
          | false => rfl
          | true => rw [hp rfl] at hfr; simp at hfr
        · simp at hctl
    | ifc k =>
      by_cases hk : S.eval k s.macros = true
      · have hk' : S.eval k s'.macros = true := by rw [← h.macros]; exact hk
        refine .step (by rrun; rw [if_pos hk']) (by rrun; rw [if_pos hk]) id
          (.trans (hgrp _ _ s s' h hp) hp (fun s1 s1' h1 hp1 => .trans (sim_done h1 ht ?_) hp1 hrest))
        intro g hctl
        simp at hctl
      · have hk' : ¬ S.eval k s'.macros = true := by rw [← h.macros]; exact hk
        exact .step (run_skip_ifc S false d cur st' s' hk' c hc t ht _) (run_skip_ifc S true d cur st s hk c hc t ht _)
          (fun _ => rfl) (.trans (hskip _ _ hskd (fun _ => rfl)) (fun _ => rfl) hrest)
    | blank => simp [Ln.kind] at hl
    | text t => simp [Ln.kind] at hl
    | define t => simp [Ln.kind] at hl
    | undef t => simp [Ln.kind] at hl
    | elif t => simp [Ln.kind] at hl
    | els => simp [Ln.kind] at hl
    | endif => simp [Ln.kind] at hl
    | incl f => simp [Ln.kind] at hl
theorem sim_tail {S : Sys κ} {d : Nat} {cur : String} (hin : ∀ e, d = e + 1 → Inner S e) (t : Tail (Ln κ)) (ht : t.Ok Ln.kind)
    (p : Bool) (f f' : FType) (st st' : List Frame) (s s' : St) (h : Rel S s s') (hp : p = true → s.fresh = false) (r : List (Ln κ)) :
    Sim S d cur p (p && !t.lines.any isIncl) ({ succeeded := false, type := f, control := none } :: st) ({ succeeded := false, type := f', control := none } :: st')
      s s' (t.lines ++ r) st st' r := by
  match t, ht with
  | .endif l, ht =>
    cases l <;> simp only [Tail.Ok, Ln.kind, reduceCtorEq] at ht
    simp only [Tail.lines, List.cons_append, List.nil_append]
    exact .weaken (.step (by rrun) (by rrun) id (.refl (p := p) h)) (fun hq => (Bool.and_eq_true _ _ ▸ hq).1)
  | .els l b e, ht =>
    obtain ⟨h1, h2, h3⟩ := ht
    cases l <;> simp only [Ln.kind, reduceCtorEq] at h1
    simp only [Tail.lines, List.cons_append, List.append_assoc, List.nil_append]
    have e0 : ∀ opt k st s ls, run S opt d cur ({ succeeded := false, type := k, control := none } :: st) s (.els :: ls) =
        run S opt d cur ({ succeeded := true, type := .tElse, control := none } :: st) s ls := by
      intro opt k st s ls
      rrun
      simp
    refine .step (e0 _ _ _ _ _) (e0 _ _ _ _ _) id ?_
    refine .weaken (.trans (sim_block hin b h2 p _ _ s s' h hp (e :: r) (fun hr => ?_)) hp (fun s1 s1' k _ => ?_))
      (q := seenBlock p b) (fun hq => ?_)
    · cases e <;> simp [Ln.kind, blank] at h3 hr
    · cases e <;> simp only [Ln.kind, reduceCtorEq] at h3
      exact .step (by rrun) (by rrun) id (.refl k)
    · simp only [Tail.lines, List.any_cons, List.any_append, Bool.and_eq_true, Bool.not_eq_true', Bool.or_eq_false_iff] at hq
      exact seenBlock_noIncl b p hq.1 hq.2.2.1
  | .elif l b t, ht =>
    obtain ⟨h1, h2, h3⟩ := ht
    cases l with
    | elif c =>
      simp only [Tail.lines, List.cons_append, List.append_assoc]
      have e1 : ∀ opt k st s ls, S.eval c s.macros = true →
          run S opt d cur ({ succeeded := false, type := k, control := none } :: st) s (.elif c :: ls) =
          run S opt d cur ({ succeeded := true, type := .tElif, control := none } :: st) s ls := by
        intro opt k st s ls hk
        rrun
        simp [hk]
      have e2 : ∀ opt k st s, ¬ S.eval c s.macros = true →
          run S opt d cur ({ succeeded := false, type := k, control := none } :: st) s (.elif c :: (b.lines ++ (t.lines ++ r))) =
          run S opt d cur ({ succeeded := false, type := .tElif, control := none } :: st) (skipped s) (t.lines ++ r) := by
        intro opt k st s hk
        rrun
        simp [hk, skip_group_tail Ln.kind b h2 t h3, leftover]
      by_cases hk : S.eval c s.macros = true
      · have hk' : S.eval c s'.macros = true := by rw [← h.macros]; exact hk
        refine .step (e1 _ _ _ _ _ hk') (e1 _ _ _ _ _ hk) id ?_
        refine .weaken (.trans (sim_block hin b h2 p _ _ s s' h hp _ (fun hr => ?_)) hp
          (fun s1 s1' k _ => sim_done k h3 (fun g hg => by simp at hg))) (fun hq => ?_)
        · rw [blank_tail t h3] at hr; simp at hr
        · simp only [Tail.lines, List.any_cons, List.any_append, Bool.and_eq_true, Bool.not_eq_true', Bool.or_eq_false_iff] at hq
          exact seenBlock_noIncl b p hq.1 hq.2.2.1
      · have hk' : ¬ S.eval c s'.macros = true := by rw [← h.macros]; exact hk
        refine .step (e2 _ _ _ _ hk') (e2 _ _ _ _ hk) (fun _ => rfl) ?_
        refine .weaken (sim_tail hin t h3 p .tElif .tElif st st' (skipped s) (skipped s') ⟨h.macros, h.out, h.recorded⟩ (fun _ => rfl) r)
          (fun hq => ?_)
        simp only [Tail.lines, List.any_cons, List.any_append, Bool.and_eq_true, Bool.not_eq_true', Bool.or_eq_false_iff] at hq
        simp only [hq.1, hq.2.2.2, Bool.not_false, Bool.and_true]
    | blank => simp [Ln.kind] at h1
    | text t => simp [Ln.kind] at h1
    | define t => simp [Ln.kind] at h1
    | undef t => simp [Ln.kind] at h1
    | ifndef t => simp [Ln.kind] at h1
    | ifc t => simp [Ln.kind] at h1
    | els => simp [Ln.kind] at h1
    | endif => simp [Ln.kind] at h1
    | incl f => simp [Ln.kind] at h1
end

theorem inner_all {S : Sys κ} (hS : ∀ f ls, S.file f = some ls → Good ls) : ∀ d, Inner S d := by
  intro d
  induction d with
  | zero =>
    intro f ls s s' hf h
    obtain ⟨b, h1, h2, h3⟩ := hS f ls hf
    have := sim_block (S := S) (d := 0) (cur := f) (by simp) b h1 false [] [] s s' h (by simp) []
      (fun _ g he ls' hf' => by rw [hf, Option.some.injEq] at hf'; subst hf'; exact ⟨b, h1, h2, h3 g he⟩)
    rw [List.append_nil, h2] at this
    rcases this with k | ⟨s1, s1', k1, k2, k3, _⟩
    · exact .inl k
    · exact .inr ⟨s1, s1', k1, by rw [k2]; rrun, by rw [k3]; rrun⟩
  | succ d ih =>
    intro f ls s s' hf h
    obtain ⟨b, h1, h2, h3⟩ := hS f ls hf
    have := sim_block (S := S) (d := d + 1) (cur := f) (fun e he => by
        have : e = d := by omega
        subst this; exact ih) b h1 false [] [] s s' h (by simp) []
      (fun _ g he ls' hf' => by rw [hf, Option.some.injEq] at hf'; subst hf'; exact ⟨b, h1, h2, h3 g he⟩)
    rw [List.append_nil, h2] at this
    rcases this with k | ⟨s1, s1', k1, k2, k3, _⟩
    · exact .inl k
    · exact .inr ⟨s1, s1', k1, by rw [k2]; rrun, by rw [k3]; rrun⟩

end Splint.CppInclude
