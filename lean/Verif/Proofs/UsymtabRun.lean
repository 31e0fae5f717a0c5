import Verif.Proofs.UsymtabCase
/-! Whole programs: the table says what it should after each statement. -/
namespace Splint.Symtab
open Spec

variable {S : Type}

theorem nobrk (p : Stmt S) (hp : Simple p) {E E' : Env S} {k : Exit} (h : Path false p E E' k) : k ≠ .brk := by
  match p, hp with
  | .skip, _ => cases h; decide
  | .act _ _, _ => cases h; decide
  | .decl _ _, _ => cases h; decide
  | .seq a b, hp =>
    cases h with
    | seq _ h2 => exact nobrk b hp.2 h2
    | seqExit h1 _ => exact nobrk a hp.1 h1
  | .block b, hp =>
    cases h with
    | block h1 => exact nobrk b hp h1
  | .ifThen _ b, hp =>
    cases h with
    | ifThen h1 => exact nobrk b hp h1
    | ifNot => decide
  | .ifElse _ _ a b, hp =>
    cases h with
    | ifTrue h1 => exact nobrk a hp.1 h1
    | ifFalse h1 => exact nobrk b hp.2 h1
  | .loop _ b, _ =>
    cases h with
    | loopMore hm => cases hm
    | _ => decide
  | .andAlso b, hp =>
    cases h with
    | andNot => decide
    | andThen h1 => exact nobrk b hp h1
  | .orElse b, hp =>
    cases h with
    | orNot => decide
    | orThen h1 => exact nobrk b hp h1
  | .brk, hp => exact absurd hp id
  | .ret, _ => cases h; decide
  | .switch _ _, _ => cases h <;> decide
  termination_by sizeOf p

theorem after_placed (p : Stmt S) (hp : Placed false p) (sc : Scopes) : after p sc = sc := by
  match p, hp with
  | .skip, _ => rfl
  | .act _ _, _ => rfl
  | .decl _ _, hp => exact absurd hp (by simp [Placed])
  | .seq a b, hp => rw [after, after_placed a hp.1, after_placed b hp.2]
  | .block b, _ => rfl
  | .ifThen _ b, _ => rfl
  | .ifElse _ _ a b, _ => rfl
  | .loop _ b, _ => rfl
  | .andAlso b, _ => rfl
  | .orElse b, _ => rfl
  | .brk, _ => rfl
  | .ret, _ => rfl
  | .switch _ _, _ => rfl
  termination_by sizeOf p

/-- What is assumed for the table to allow for every path. -/
structure Sound (le : S → S → Prop) (o : Ops S) : Prop where
  merges : Merges le o
  andFix : ∀ t s, le s (o.andFix t s)

/-- What is to hold of a statement. -/
structure Good (o : Ops S) (p : Stmt S) (st st' : Stack S) : Prop where
  run : run o p st = some st'
  wf : WF st'
  keeps : Keeps st st'
  names : names (view st').cur = after p (names (view st).cur)
  trace : trace o p st = uses p (Spec.names (view st).cur)
  sound : ∀ le, Sound le o → Fair false le p → Simple p → ∀ E E', Below le E (view st).cur →
    Path false p E E' .next → Below le E' (view st').cur

/-- A declaration is only met if the innermost table is that of a scope. -/
def Here (d : Bool) (st : Stack S) : Prop := d = true → ∃ t r, st = t :: r ∧ t.kind = .normal

theorem here_keeps {d : Bool} {st st' : Stack S} (h : Here d st) (hk : Keeps st st') : Here d st' := by
  intro hd
  obtain ⟨t, r, rfl, ht⟩ := h hd
  cases st' with
  | nil => cases hk
  | cons t' r' => exact ⟨t', r', rfl, hk.1.trans ht⟩

theorem keeps_stops {t : Table S} {r st : Stack S} (h : Keeps (t :: r) st) (hs : t.kind.stops) :
    ∃ t', st = t' :: r ∧ t'.kind = t.kind ∧ t'.level = t.level
      ∧ (t.mustBreak = false → t'.mustBreak = false) ∧ (t.escape = false → t'.escape = false) := by
  cases st with
  | nil => cases h
  | cons t' r' =>
    obtain ⟨a1, a2, a3, a4, a5⟩ := h
    rw [if_pos hs] at a5
    exact ⟨t', by rw [a5], a1, a2, a3, a4⟩

theorem keeps_plain {t : Table S} {r st : Stack S} (h : Keeps (t :: r) st) (hs : ¬ t.kind.stops) :
    ∃ t' r', st = t' :: r' ∧ t'.kind = t.kind ∧ Keeps r r'
      ∧ (t.mustBreak = false → t'.mustBreak = false) ∧ (t.escape = false → t'.escape = false) := by
  cases st with
  | nil => cases h
  | cons t' r' =>
    obtain ⟨a1, a2, a3, a4, a5⟩ := h
    rw [if_neg hs] at a5
    exact ⟨t', r', rfl, a1, a5, a3, a4⟩

theorem lev_length {st st' : Stack S} (hl : Lev st) (hk : Keeps st st')
    (hn : names (view st').cur = names (view st).cur) : Lev st' :=
  lev_keeps hl hk (by rw [← names_length, hn, names_length])

theorem declare_length (x : Nat) (sc : Scopes) : (Spec.declare x sc).length = sc.length := by
  cases sc <;> rfl

theorem after_length (p : Stmt S) (sc : Scopes) : (after p sc).length = sc.length := by
  match p with
  | .decl x _ => exact declare_length x sc
  | .seq a b => rw [after, after_length b, after_length a]
  | .skip => rfl
  | .act _ _ => rfl
  | .block b => rfl
  | .ifThen _ b => rfl
  | .ifElse _ _ a b => rfl
  | .loop _ b => rfl
  | .andAlso b => rfl
  | .orElse b => rfl
  | .brk => rfl
  | .ret => rfl
  | .switch _ _ => rfl
  termination_by sizeOf p

theorem after_tail (p : Stmt S) (sc : Scopes) : (after p sc).tail = sc.tail := by
  match p with
  | .decl x _ => cases sc <;> rfl
  | .seq a b => rw [after, after_tail b, after_tail a]
  | .skip => rfl
  | .act _ _ => rfl
  | .block b => rfl
  | .ifThen _ b => rfl
  | .ifElse _ _ a b => rfl
  | .loop _ b => rfl
  | .andAlso b => rfl
  | .orElse b => rfl
  | .brk => rfl
  | .ret => rfl
  | .switch _ _ => rfl
  termination_by sizeOf p

theorem below_tail {le : S → S → Prop} {E E' : Env S} (h : Below le E E') :
    Below le E.tail E'.tail := by
  unfold Below at h ⊢
  cases h with
  | nil => exact .nil
  | cons _ hr => exact hr

theorem below_push {le : S → S → Prop} {E E' : Env S} (h : Below le E E') :
    Below le ([] :: E) ([] :: E') := .cons .nil h

theorem good_lev {o : Ops S} {p : Stmt S} {st st' : Stack S} (h : Good o p st st') (hl : Lev st) :
    Lev st' :=
  lev_keeps hl h.keeps (by
    rw [← names_length, h.names, after_length, names_length])

theorem below_bind {le : S → S → Prop} (hr : ∀ a, le a a) {E E' : Env S} (h : Below le E E') (x : Nat)
    (s : S) : Below le (Spec.bind x s E) (Spec.bind x s E') := by
  have hn := Below.names h
  unfold Below at h ⊢
  cases h with
  | nil => exact .nil
  | @cons fr fr' r r' hf hrest =>
    simp only [Spec.bind]
    refine .cons ?_ hrest
    have : fr.map (·.1) = fr'.map (·.1) := by
      simp only [Spec.names, List.map_cons, List.cons.injEq] at hn
      exact hn.1
    rw [this]
    split
    · exact hf
    · exact List.rel_append hf (.cons ⟨rfl, hr s⟩ .nil)

theorem declare_spec (x : Nat) (s : S) {t : Table S} {r : Stack S} (hk : t.kind = .normal)
    (h : WF (t :: r)) :
    WF (declare x s (t :: r)) ∧ Keeps (t :: r) (declare x s (t :: r))
    ∧ (view (declare x s (t :: r))).cur = Spec.bind x s (view (t :: r)).cur := by
  rw [declare]
  have hfr : (frame t).map (·.1) = t.entries.map (·.name) := by simp [frame, Function.comp_def]
  rcases find_cases t x with ⟨g1, g2, g3⟩ | ⟨i, e, g1, g2, -, g4, g5⟩
  · rw [g1]
    simp only
    obtain ⟨⟨o1, -, -, -⟩, hw⟩ := h
    obtain ⟨n1, n2, n3⟩ := o1 hk
    refine ⟨⟨⟨fun _ => ⟨?_, n2, ?_⟩, ?_, ?_, ?_⟩, hw⟩, ⟨rfl, rfl, id, id, ?_⟩, ?_⟩
    · rw [List.map_append, List.nodup_append]
      refine ⟨n1, by simp, ?_⟩
      rintro a ha b hb rfl
      simp only [List.map_cons, List.map_nil, List.mem_singleton] at hb
      exact g3 (hb ▸ ha)
    · intro e he
      rcases List.mem_append.1 he with he | he
      · exact n3 e he
      · rw [List.mem_singleton] at he
        rw [he]
    · intro hx; rw [show _ = Kind.normal from hk] at hx; cases hx
    · intro hx; rw [show _ = Kind.normal from hk] at hx; cases hx
    · intro hx; rw [show _ = Kind.normal from hk] at hx; cases hx
    · split
      · rfl
      · exact keeps_refl r
    · rw [view_normal r hk, view_normal r (by exact hk)]
      simp only [Spec.bind]
      rw [if_neg (by rw [hfr]; exact g3)]
      simp [frame]
  · rw [g1]
    refine ⟨h, keeps_refl _, ?_⟩
    rw [view_normal r hk]
    simp only [Spec.bind]
    rw [if_pos]
    rw [hfr, ← g4]
    exact List.mem_map_of_mem g5

theorem names_bind (x : Nat) (s : S) (E : Env S) :
    names (Spec.bind x s E) = Spec.declare x (names E) := by
  cases E with
  | nil => rfl
  | cons fr r =>
    simp only [Spec.bind, names, List.map_cons, Spec.declare]
    congr 1
    split <;> simp

/-- Handing marks on changes nothing that is known. -/
theorem flags_view {u : Table S} (r : Stack S) (a b : Bool) :
    view ({ u with mustBreak := a, escape := b } :: r) = view (u :: r)
    ∧ (WF ({ u with mustBreak := a, escape := b } :: r) ↔ WF (u :: r)) := ⟨rfl, Iff.rfl⟩

theorem exitScope_normal {n u : Table S} {r : Stack S} (hn : n.kind = .normal) :
    exitScope (n :: u :: r) = some ({ u with mustBreak := n.mustBreak, escape := n.escape } :: r) := by
  rw [exitScope, if_neg (by rw [hn]; decide), if_pos hn]

theorem exitScope_cases {cts : Stack S} (hc : AllCase cts) {n u : Table S} {r : Stack S}
    (hn : n.kind = .normal) :
    exitScope (cts ++ n :: u :: r)
      = some (cts ++ { u with mustBreak := n.mustBreak, escape := n.escape } :: r) := by
  induction cts with
  | nil => exact exitScope_normal hn
  | cons c cts ih =>
    rw [List.cons_append, exitScope.eq_def]
    simp only
    rw [if_pos (hc c (by simp)), ih fun c h => hc c (by simp [h])]
    rfl

/-- What is to hold of the cases of a `switch`. -/
structure GoodCases (o : Ops S) (cs : Cases S) (cts rest cts' rest' : Stack S) : Prop where
  run : runCases o cs (cts ++ rest) = some (cts' ++ rest')
  all : AllCase cts'
  wf : WF (cts' ++ rest')
  view : view rest' = view rest
  keeps : Keeps rest rest'
  some : cs ≠ .nil ∨ cts ≠ [] → cts' ≠ []
  trace : traceCases o cs (cts ++ rest) = usesCases cs (names (Symtab.view rest).cur)
  persist : ∀ c ∈ cts, c.mustBreak = true → c ∈ cts'
  sound : ∀ le, Sound le o → FairCases false le cs → SimpleCases cs → ∀ E E' k, k ≠ .stop →
    ((∃ d ds, cts = d :: ds ∧ d.mustBreak = false ∧ d.escape = false
        ∧ Below le E (mapVis (over d) [] (Symtab.view rest).cur)) → From false cs E E' k →
      ∃ c ∈ cts', c.escape = false ∧ Below le E' (mapVis (over c) [] (Symtab.view rest).cur))
    ∧ (Below le E (Symtab.view rest).cur → Enter false cs E E' k →
      ∃ c ∈ cts', c.escape = false ∧ Below le E' (mapVis (over c) [] (Symtab.view rest).cur))

theorem find_nil {t : Table S} (h : t.entries = []) (n : Nat) : t.find n = none := by
  simp [Table.find, h]

theorem branch_below {le : S → S → Prop} (hr : ∀ a, le a a) (ht : ∀ a b c, le a b → le b c → le a c)
    {h g : Nat → S → S} (hh : ∀ n s, le (h n s) (g n s)) {E F : Env S}
    (hE : Below le E (mapVis h [] F)) : Below le E (mapVis g [] F) :=
  below_trans ht hE (mapVis_le_self hr hh [] F)

theorem mapVis_none {E : Env S} : mapVis (fun _ s => s) [] E = E := mapVis_id fun _ _ _ => rfl

theorem self_below {le : S → S → Prop} (hr : ∀ a, le a a) (ht : ∀ a b c, le a b → le b c → le a c)
    {g : Nat → S → S} (hh : ∀ n s, le s (g n s)) {E F : Env S}
    (hE : Below le E F) : Below le E (mapVis g [] F) :=
  branch_below hr ht (h := fun _ s => s) hh (by rw [mapVis_none]; exact hE)

/-- A branch has been run on a new table: what is there then. -/
theorem branch_run {o : Ops S} {p : Stmt S} {t : Table S} {r : Stack S} {k : Kind} {st' : Stack S}
    (hk : k = .tbranch ∨ (k = .fbranch ∧ t.kind = .tbranch)) (hw : WF (t :: r)) (hl : Lev (t :: r))
    (h : Good o p (push k (t :: r)) st') :
    ∃ b, st' = b :: t :: r ∧ b.kind = k ∧ WF (b :: t :: r) ∧ b.level = t.level
      ∧ (view st').cur = mapVis (over b) [] (beneath k (t :: r))
      ∧ Spec.names (beneath k (t :: r)) = Spec.names (view (push k (t :: r))).cur := by
  have hs : k.stops := by rcases hk with rfl | ⟨rfl, -⟩ <;> rfl
  obtain ⟨b, rfl, h1, h2, -, -⟩ := keeps_stops (t := (push k (t :: r)).head (by simp [push]))
    (r := t :: r) h.keeps hs
  have hbk : b.kind = k := h1
  have hn : k ≠ .normal := by rintro rfl; cases hs
  refine ⟨b, rfl, hbk, h.wf, ?_, ?_, ?_⟩
  · rw [h2]
    simp [push, hn]
  · rw [view_stops _ (by rw [hbk]; exact hs), hbk]
  · rw [(push_stops hw hl k (by tauto)).2.2]

theorem popTrue_spec (o : Ops S) (eT : Bool) {b : Table S} {st : Stack S} (hb : b.kind = .tbranch)
    (hw : WF (b :: st)) (hl : Lev (b :: st)) :
    ∃ st' ft, popTrueBranch o eT (b :: st) = some st' ∧ WF st' ∧ Keeps st st' ∧ ft.entries = []
      ∧ (view st').cur = mapVis (merged o eT false b ft) [] (view st).cur := by
  rw [popTrueBranch, altBranch, if_pos hb]
  simp only [Option.bind_some]
  have hp := push_stops hw hl .fbranch (by tauto)
  obtain ⟨st', h1, h2, h3, h4⟩ := popBranches_spec o eT false
    (ft := (push .fbranch (b :: st)).head (by simp [push])) rfl hb hp.1
  exact ⟨st', _, h1, h2, h4, rfl, h3⟩

theorem lev_cons {st : Stack S} (h : Lev st) : ∃ t r, st = t :: r := by
  cases st with
  | nil => cases h
  | cons t r => exact ⟨t, r, rfl⟩

/-- A branch without alternative. -/
theorem trueBranch (o : Ops S) (e : Bool) (b : Stmt S) (st : Stack S) (hw : WF st) (hl : Lev st)
    (hrun : ∀ st, WF st → Lev st → ∃ st', Good o b st st') :
    ∃ st1 st2, popTrueBranch o e st1 = some st2 ∧ Good o b (push .tbranch st) st1 ∧ WF st2
      ∧ Keeps st st2
      ∧ (∃ h, (view st2).cur = mapVis h [] (view st).cur)
      ∧ (view (push .tbranch st)).cur = (view st).cur
      ∧ ∀ le, Sound le o →
        (e = false → ∀ E, Below le E (view st1).cur → Below le E (view st2).cur)
        ∧ ∀ E, Below le E (view st).cur → Below le E (view st2).cur := by
  obtain ⟨t, r, rfl⟩ := lev_cons hl
  obtain ⟨p1, p2, p3⟩ := push_stops hw hl .tbranch (by tauto)
  obtain ⟨st1, ha⟩ := hrun _ p1 p2
  obtain ⟨tt, rfl, t1, t2, t3, t4, t5⟩ := branch_run (by tauto) hw hl ha
  obtain ⟨st2, ft, h1, h2, h3, h4, h5⟩ := popTrue_spec o e t1 t2 (good_lev ha p2)
  refine ⟨_, st2, h1, ha, h2, h3, ⟨_, h5⟩, p3, ?_⟩
  intro le hso
  rw [h5]
  refine ⟨?_, ?_⟩
  · rintro rfl E hE
    rw [t4] at hE
    exact branch_below hso.merges.refl hso.merges.trans (merged_true hso.merges tt ft) hE
  · intro E hE
    refine self_below hso.merges.refl hso.merges.trans ?_ hE
    intro n s
    have := merged_false hso.merges (eT := e) tt ft n s
    rwa [over, find_nil h4] at this

mutual

theorem run_good (o : Ops S) (p : Stmt S) (d : Bool) (st : Stack S) (hw : WF st) (hl : Lev st)
    (hd : Here d st) (hp : Placed d p) : ∃ st', Good o p st st' := by
  match p, hp with
  | .skip, _ =>
    refine ⟨st, rfl, hw, keeps_refl st, rfl, rfl, ?_⟩
    intro le _ _ _ E E' hE hpath
    cases hpath
    exact hE
  | .brk, _ =>
    refine ⟨st, rfl, hw, keeps_refl st, rfl, rfl, ?_⟩
    intro le _ _ hs
    exact absurd hs id
  | .ret, _ =>
    refine ⟨st, rfl, hw, keeps_refl st, rfl, rfl, ?_⟩
    intro le _ _ _ E E' hE hpath
    cases hpath
  | .act x f, _ =>
    obtain ⟨u1, u2, u3⟩ := update_spec x f st hw
    refine ⟨_, rfl, u1, u3, by rw [u2, names_assign]; rfl, ?_, ?_⟩
    · have hF := lookup_found x st hw
      rw [trace, uses, ← get_resolve]
      congr 1
      cases hq : (lookup x st).2 with
      | none => rw [hF.none hq]; rfl
      | some q =>
        obtain ⟨s, r, g1, -, g3⟩ := hF.some q hq
        rw [g1]
        exact g3
    · intro le _ hf _ E E' hE hpath
      cases hpath
      rw [u2, assign_mapVis, assign_mapVis]
      refine mapVis_le hE ?_
      intro n a b hab
      unfold only
      split
      · exact hf a b hab
      · exact hab
  | .decl x s, hp =>
    obtain ⟨t, r, rfl, ht⟩ := hd hp
    obtain ⟨u1, u2, u3⟩ := declare_spec x s ht hw
    refine ⟨_, rfl, u1, u2, by rw [u3, names_bind]; rfl, rfl, ?_⟩
    intro le hso _ _ E E' hE hpath
    cases hpath
    rw [u3]
    exact below_bind hso.merges.refl hE x s
  | .seq a b, hp =>
    obtain ⟨st1, ha⟩ := run_good o a d st hw hl hd hp.1
    obtain ⟨st2, hb⟩ := run_good o b d st1 ha.wf (good_lev ha hl) (here_keeps hd ha.keeps) hp.2
    refine ⟨st2, ?_, hb.wf, keeps_trans ha.keeps hb.keeps, ?_, ?_, ?_⟩
    · rw [run, ha.run]
      exact hb.run
    · rw [hb.names, ha.names]
      rfl
    · rw [trace, ha.run, ha.trace, uses, ← ha.names]
      simp only
      rw [hb.trace]
    · intro le hso hf hs E E' hE hpath
      cases hpath with
      | seq h1 h2 => exact hb.sound le hso hf.2 hs.2 _ _ (ha.sound le hso hf.1 hs.1 _ _ hE h1) h2
      | seqExit _ h2 => exact absurd rfl h2
  | .block b, hp =>
    obtain ⟨t, r, rfl⟩ := lev_cons hl
    obtain ⟨p1, p2, p3⟩ := push_normal hw hl
    obtain ⟨st1, hb⟩ := run_good o b true (push .normal (t :: r)) p1 p2
      (fun _ => ⟨_, _, rfl, rfl⟩) hp
    obtain ⟨n, r', rfl, k1, k2, k3, k4⟩ := keeps_plain
      (t := (push .normal (t :: r)).head (by simp [push])) (r := t :: r) hb.keeps
      (by simp [push, Kind.stops])
    have hn : n.kind = .normal := k1
    cases r' with
    | nil => cases k2
    | cons u r' =>
      refine ⟨{ u with mustBreak := n.mustBreak, escape := n.escape } :: r', ?_, hb.wf.2, ?_, ?_, ?_, ?_⟩
      · rw [run, hb.run]
        exact exitScope_normal hn
      · obtain ⟨a1, a2, a3, a4, a5⟩ := k2
        exact ⟨a1, a2, fun _ => k3 rfl, fun _ => k4 rfl, a5⟩
      · have := hb.names
        rw [p3, view_normal _ hn] at this
        have ht := congrArg List.tail this
        rw [after_tail] at ht
        change names (view (u :: r')).cur = names (view (t :: r)).cur
        simpa [names] using ht
      · rw [trace, hb.trace, p3]
        rfl
      · intro le hso hf hs E E' hE hpath
        cases hpath with
        | block h1 =>
          have := hb.sound le hso hf hs _ _ (by rw [p3]; exact below_push hE) h1
          rw [view_normal _ hn] at this
          exact below_tail this
  | .ifThen e b, hp =>
    obtain ⟨st1, st2, hrun, hb, b1, b2, ⟨_, b3⟩, b4, b5⟩ := trueBranch o e b st hw hl
      (fun st hw hl => run_good o b false st hw hl (fun h => by cases h) hp)
    refine ⟨st2, ?_, b1, b2, ?_, ?_, ?_⟩
    · rw [run, hb.run]
      exact hrun
    · rw [b3, names_mapVis]
      rfl
    · rw [trace, hb.trace, b4]
      rfl
    · intro le hso hf hs E E' hE hpath
      obtain ⟨q1, q2⟩ := b5 le hso
      cases hpath with
      | ifThen h1 =>
        refine q1 ?_ E' (hb.sound le hso hf.2 hs _ _ (by rw [b4]; exact hE) h1)
        cases e with
        | false => rfl
        | true => exact absurd h1 (hf.1 rfl _ _)
      | ifNot => exact q2 _ hE
  | .loop e b, hp =>
    obtain ⟨st1, st2, hrun, hb, b1, b2, ⟨_, b3⟩, b4, b5⟩ := trueBranch o e b st hw hl
      (fun st hw hl => run_good o b false st hw hl (fun h => by cases h) hp)
    refine ⟨st2, ?_, b1, b2, ?_, ?_, ?_⟩
    · rw [run, hb.run]
      exact hrun
    · rw [b3, names_mapVis]
      rfl
    · rw [trace, hb.trace, b4]
      rfl
    · intro le hso hf hs E E' hE hpath
      obtain ⟨q1, q2⟩ := b5 le hso
      cases hpath with
      | loopOnce h1 hk =>
        rename_i k
        have hk' := nobrk b hs h1
        cases k with
        | brk => exact absurd rfl hk'
        | stop => exact absurd rfl hk
        | next =>
          refine q1 ?_ E' (hb.sound le hso hf.2 hs _ _ (by rw [b4]; exact hE) h1)
          cases e with
          | false => rfl
          | true => exact absurd h1 (hf.1 rfl _ _)
      | loopZero => exact q2 _ hE
      | loopMore hm => cases hm
  | .ifElse eT eF a b, hp =>
    obtain ⟨t, r, rfl⟩ := lev_cons hl
    obtain ⟨p1, p2, p3⟩ := push_stops hw hl .tbranch (by tauto)
    obtain ⟨st1, ha⟩ := run_good o a false _ p1 p2 (fun h => by cases h) hp.1
    obtain ⟨tt, rfl, t1, t2, t3, t4, t5⟩ := branch_run (by tauto) hw hl ha
    have hl1 := good_lev ha p2
    obtain ⟨q1, q2, q3⟩ := push_stops t2 hl1 .fbranch (by tauto)
    obtain ⟨st2, hb⟩ := run_good o b false _ q1 q2 (fun h => by cases h) hp.2
    obtain ⟨ft, rfl, f1, f2, f3, f4, f5⟩ := branch_run (by tauto) t2 hl1 hb
    have hbn : beneath .fbranch (tt :: t :: r) = (view (t :: r)).cur := by
      rw [beneath, view_stops _ (by rw [t1]; rfl)]
    obtain ⟨st', e1, e2, e3, e4⟩ := popBranches_spec o eT eF f1 t1 f2
    have halt : altBranch (tt :: t :: r) = some (push .fbranch (tt :: t :: r)) := by
      rw [altBranch, if_pos t1]
    refine ⟨st', ?_, e2, e4, ?_, ?_, ?_⟩
    · rw [run, ha.run, Option.bind_some, halt, Option.bind_some, hb.run]
      exact e1
    · rw [e3, names_mapVis]
      rfl
    · rw [trace, ha.run, Option.bind_some, halt, ha.trace, uses]
      simp only
      rw [hb.trace, q3, hbn, p3]
      rfl
    · intro le hso hf hs E E' hE hpath
      rw [e3]
      cases hpath with
      | ifTrue h1 =>
        have h2 := ha.sound le hso hf.2.2.1 hs.1 _ _ (by rw [p3]; exact hE) h1
        rw [t4] at h2
        cases eT with
        | true => exact absurd h1 (hf.1 rfl _ _)
        | false => exact branch_below hso.merges.refl hso.merges.trans (merged_true hso.merges tt ft) h2
      | ifFalse h1 =>
        have h2 := hb.sound le hso hf.2.2.2 hs.2 _ _ (by rw [q3, hbn]; exact hE) h1
        rw [f4, hbn] at h2
        cases eF with
        | true => exact absurd h1 (hf.2.1 rfl _ _)
        | false => exact branch_below hso.merges.refl hso.merges.trans (merged_false hso.merges tt ft) h2
  | .andAlso b, hp =>
    obtain ⟨t, r, rfl⟩ := lev_cons hl
    obtain ⟨p1, p2, p3⟩ := push_stops hw hl .tbranch (by tauto)
    obtain ⟨st1, ha⟩ := run_good o b false _ p1 p2 (fun h => by cases h) hp
    obtain ⟨tt, rfl, t1, t2, t3, t4, t5⟩ := branch_run (by tauto) hw hl ha
    obtain ⟨e1, e2, e3⟩ := updates_spec
      (fun e old => o.andFix e.state (o.join old e.state)) tt.entries (wf_names t2) (t :: r) hw
    refine ⟨_, ?_, e1, e3, ?_, ?_, ?_⟩
    · rw [run, ha.run, Option.bind_some, popAndBranch, if_pos t1]
    · rw [e2, names_mapVis]
      rfl
    · rw [trace, ha.trace, p3]
      rfl
    · intro le hso hf hs E E' hE hpath
      rw [e2]
      cases hpath with
      | andNot =>
        refine self_below hso.merges.refl hso.merges.trans ?_ hE
        intro n s
        unfold apply
        split
        · exact hso.merges.trans _ _ _ (hso.merges.left _ _) (hso.andFix _ _)
        · exact hso.merges.refl _
      | andThen h1 =>
        have h2 := ha.sound le hso hf hs _ _ (by rw [p3]; exact hE) h1
        rw [t4] at h2
        refine branch_below hso.merges.refl hso.merges.trans ?_ h2
        intro n s
        unfold apply over Table.find
        split
        · exact hso.merges.trans _ _ _ (hso.merges.right _ _) (hso.andFix _ _)
        · exact hso.merges.refl _
  | .orElse b, hp =>
    obtain ⟨t, r, rfl⟩ := lev_cons hl
    obtain ⟨p1, p2, p3⟩ := push_stops hw hl .tbranch (by tauto)
    obtain ⟨st1, ha⟩ := run_good o b false _ p1 p2 (fun h => by cases h) hp
    obtain ⟨tt, rfl, t1, t2, t3, t4, t5⟩ := branch_run (by tauto) hw hl ha
    obtain ⟨e1, e2, e3⟩ := updates_spec
      (fun e old => o.join old e.state) tt.entries (wf_names t2) (t :: r) hw
    refine ⟨_, ?_, e1, e3, ?_, ?_, ?_⟩
    · rw [run, ha.run, Option.bind_some, popOrBranch, if_pos t1]
    · rw [e2, names_mapVis]
      rfl
    · rw [trace, ha.trace, p3]
      rfl
    · intro le hso hf hs E E' hE hpath
      rw [e2]
      cases hpath with
      | orNot =>
        refine self_below hso.merges.refl hso.merges.trans ?_ hE
        intro n s
        unfold apply
        split
        · exact hso.merges.left _ _
        · exact hso.merges.refl _
      | orThen h1 =>
        have h2 := ha.sound le hso hf hs _ _ (by rw [p3]; exact hE) h1
        rw [t4] at h2
        refine branch_below hso.merges.refl hso.merges.trans ?_ h2
        intro n s
        unfold apply over Table.find
        split
        · exact hso.merges.right _ _
        · exact hso.merges.refl _
  | .switch all cs, hp =>
    obtain ⟨p1, p2, p3⟩ := push_switch hw hl
    obtain ⟨q1, q2, q3⟩ := push_normal p1 p2
    obtain ⟨cts, rest, hC⟩ := runCases_good o cs [] (push .normal (push .switch st)) _ _ rfl rfl
      (fun c h => by cases h) q1 q2 hp.2
    obtain ⟨n, r1, rfl, n1, n2, -, -⟩ := keeps_plain
      (t := (push .normal (push .switch st)).head (by simp [push])) (r := push .switch st) hC.keeps
      (by simp [push, Kind.stops])
    obtain ⟨sw, out, rfl, s1, s2, -, -⟩ := keeps_plain
      (t := (push .switch st).head (by simp [push])) (r := st) n2
      (by simp [push, Kind.stops])
    have hn : n.kind = .normal := n1
    have hsw : sw.kind = .switch := s1
    have hv := congrArg View.cur hC.view
    rw [q3, p3, view_normal _ hn, view_switch _ hsw] at hv
    simp only [List.cons.injEq] at hv
    obtain ⟨hv1, hv2⟩ := hv
    have hne : cts ≠ [] := hC.some (.inl hp.1)
    have hout : out ≠ [] := by
      obtain ⟨t, r, rfl⟩ := lev_cons hl
      rintro rfl
      cases s2
    have hwf : WF (cts ++ { sw with mustBreak := n.mustBreak, escape := n.escape } :: out) := by
      have := (wf_cases hC.all).1 hC.wf
      refine (wf_cases hC.all).2 ⟨this.1.2, ?_⟩
      intro c hc
      have h1 := this.2 c hc
      rw [view_normal _ hn, view_switch _ hsw, hv1] at h1
      rw [view_switch (t := { sw with mustBreak := n.mustBreak, escape := n.escape }) _ hsw]
      exact over_nil_frame h1
    obtain ⟨out', x1, x2, x3, x4, x5⟩ := exitSwitch_spec o all
      (sw := { sw with mustBreak := n.mustBreak, escape := n.escape }) hC.all hne hsw hout hwf
    have hrun := hC.run
    rw [List.nil_append] at hrun
    refine ⟨out', ?_, x2, keeps_trans s2 x3, ?_, ?_, ?_⟩
    · rw [run, hrun, Option.bind_some, exitScope_cases hC.all hn, Option.bind_some]
      exact x1
    · rw [x4, hv2]
      rfl
    · have := hC.trace
      rw [List.nil_append] at this
      rw [trace, this, q3, p3]
      rfl
    · intro le hso hf hs E E' hE hpath
      obtain ⟨y1, y2⟩ := x5 hs.1 le hso.merges
      rw [hv2] at y1 y2
      cases hpath with
      | switchNone => exact y1 _ hE
      | switchNext h1 hk =>
        obtain ⟨c, c1, c2, c3⟩ := (hC.sound le hso hf hs.2 _ _ _ hk).2
          (by rw [q3, p3]; exact below_push hE) h1
        rw [q3, p3] at c3
        exact y2 c c1 c2 _ (below_tail c3)
  termination_by sizeOf p

theorem runCases_good (o : Ops S) (cs : Cases S) (cts rest : Stack S) (n : Table S) (r : Stack S)
    (hr : rest = n :: r) (hn : n.kind = .normal) (hc : AllCase cts) (hw : WF (cts ++ rest))
    (hl : Lev (cts ++ rest)) (hp : PlacedCases cs) :
    ∃ cts' rest', GoodCases o cs cts rest cts' rest' := by
  match cs, hp with
  | .nil, _ =>
    refine ⟨cts, rest, rfl, hc, hw, rfl, keeps_refl _, ?_, rfl, fun c h _ => h, ?_⟩
    · rintro (h | h)
      · exact absurd rfl h
      · exact h
    · intro le hso _ _ E E' k hk
      refine ⟨?_, ?_⟩
      · rintro ⟨d, ds, rfl, h1, h2, h3⟩ hf
        cases hf
        exact ⟨d, by simp, h2, h3⟩
      · intro _ he
        cases he with
        | here h _ => exact absurd rfl h
  | .cons b e cs, hp =>
    obtain ⟨c, cs1, rest1, a1, a2, a3, a4, a5, a6, a7, a8, a9, -, a10⟩ := newCase_spec o hr hn hc hw hl
    obtain ⟨st2, hb⟩ := run_good o b false _ a5 a6 (fun h => by cases h) hp.1
    have hck : c.kind = .cbranch := a2 c (by simp)
    obtain ⟨c2, rfl, k1, k2, k3, k4⟩ := keeps_stops hb.keeps (by rw [hck]; rfl)
    have hcs1 : AllCase cs1 := fun x h => a2 x (by simp [h])
    have hbase : (view rest1).base = (view rest).cur := by rw [a7, hr, view_normal r hn]
    have hA2 : ∀ x : Table S, x.kind = .cbranch → AllCase (x :: cs1) := by
      intro x hx y hy
      rcases List.mem_cons.1 hy with rfl | hy
      · exact hx
      · exact hcs1 y hy
    have hcur1 : (view (c :: (cs1 ++ rest1))).cur = mapVis (over c) [] (view rest).cur := by
      rw [cases_cur a2, hbase]
    have hcur2 : (view (c2 :: (cs1 ++ rest1))).cur = mapVis (over c2) [] (view rest).cur := by
      rw [cases_cur (hA2 c2 (k1.trans hck)), hbase]
    obtain ⟨n1, r1, rfl, m1, -, -, -⟩ := keeps_plain (by rw [hr] at a8; exact a8)
      (by rw [hn]; decide)
    let c3 : Table S := match e with
      | .brk => { c2 with mustBreak := true }
      | .ret => { c2 with mustBreak := true, escape := true }
      | .fall => c2
    have hc3k : c3.kind = .cbranch := by
      simp only [c3]
      cases e <;> exact k1.trans hck
    have hc3v : view (c3 :: (cs1 ++ n1 :: r1)) = view (c2 :: (cs1 ++ n1 :: r1)) := by
      simp only [c3]
      cases e <;> rfl
    have hc3w : WF (c3 :: (cs1 ++ n1 :: r1)) := by
      simp only [c3]
      cases e <;> exact hb.wf
    have hc3l : c3.level = c2.level := by
      simp only [c3]
      cases e <;> rfl
    have hset : setEnd e (c2 :: (cs1 ++ n1 :: r1)) = (c3 :: cs1) ++ n1 :: r1 := by
      cases e <;> rfl
    have hlev := good_lev hb a6
    obtain ⟨cts', rest', hC⟩ := runCases_good o cs (c3 :: cs1) (n1 :: r1) n1 r1 rfl (m1.trans hn)
      (hA2 c3 hc3k) hc3w (by
        have h1 : c2.level + 1 = (view (c2 :: (cs1 ++ n1 :: r1))).cur.length := hlev
        change c3.level + 1 = (view (c3 :: (cs1 ++ n1 :: r1))).cur.length
        rw [hc3v, hc3l, h1]) hp.2
    refine ⟨cts', rest', ?_, hC.all, hC.wf, hC.view.trans a7, keeps_trans a8 hC.keeps, ?_, ?_, ?_, ?_⟩
    · rw [runCases, a1, Option.bind_some, hb.run, Option.bind_some, hset]
      exact hC.run
    · intro _
      exact hC.some (.inr (by simp))
    · rw [traceCases, a1]
      simp only
      rw [hb.run, hb.trace]
      simp only
      rw [hset, hC.trace, hcur1, names_mapVis, a7, usesCases, after_placed b hp.1]
    · intro x hx hxb
      exact hC.persist x (List.mem_cons_of_mem _ (a9 x hx hxb)) hxb
    · intro le hso hf hs E E' k hk
      obtain ⟨z1, z2⟩ := a10 le hso.merges
      have hmain : ∀ E, Below le E (mapVis (over c) [] (view rest).cur) → From false (.cons b e cs) E E' k →
          ∃ x ∈ cts', x.escape = false ∧ Below le E' (mapVis (over x) [] (view rest).cur) := by
        intro E hE hfrom
        have hpath : ∀ E1, Path false b E E1 .next → Below le E1 (mapVis (over c2) [] (view rest).cur) := by
          intro E1 h1
          have := hb.sound le hso hf.1 hs.1 _ _ (by rw [hcur1]; exact hE) h1
          rw [hcur2] at this
          exact this
        cases hfrom with
        | exit h1 h2 =>
          have := nobrk b hs.1 h1
          cases k with
          | next => exact absurd rfl h2
          | brk => exact absurd rfl this
          | stop => exact absurd rfl hk
        | brk h1 =>
          refine ⟨c3, hC.persist c3 (by simp) rfl, k4 a4, ?_⟩
          exact hpath _ h1
        | ret => exact absurd rfl hk
        | fall h1 h2 =>
          have := (hC.sound le hso hf.2 hs.2 _ _ _ hk).1
            ⟨c3, cs1, rfl, k3 a3, k4 a4, by rw [a7]; exact hpath _ h1⟩ h2
          rw [a7] at this
          exact this
      refine ⟨?_, ?_⟩
      · rintro ⟨d, ds, h1, h2, h3, h4⟩ hfrom
        exact hmain E (z2 d ds h1 h2 h3 E h4) hfrom
      · intro hE henter
        cases henter with
        | here _ h1 => exact hmain E (z1 E hE) h1
        | there h1 =>
          have := (hC.sound le hso hf.2 hs.2 _ _ _ hk).2 (by rw [a7]; exact hE) h1
          rw [a7] at this
          exact this
  termination_by sizeOf cs

end

end Splint.Symtab
