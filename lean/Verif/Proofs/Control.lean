import Verif.Spec.Control
import Verif.Tactics
/-! Lemmas about control information and executions. -/
namespace Splint.Control

theorem combine_must : ∀ a b : ExitKind, (a.combine b).mustEscape = true →
    a.mustEscape = true ∧ b.mustEscape = true := by decide +kernel

theorem makeConditional_not_must : ∀ a : ExitKind, a.makeConditional.mustEscape = false := by
  decide +kernel

theorem combine_error : ∀ a b : ExitKind, a.combine b = .error → a = .error ∨ b = .error := by
  decide +kernel

theorem makeConditional_error : ∀ a : ExitKind, a.makeConditional = .error → a = .error := by
  decide +kernel

theorem combineControl_must (a b : Info) (h : (combineControl a b).mustEscape = true) :
    a.mustEscape = true ∧ b.mustEscape = true := by
  simp only [combineControl, Info.mustEscape, Bool.or_eq_true, Bool.and_eq_true] at h ⊢
  rcases h with h | h
  · have := combine_must _ _ h; tauto
  · tauto

/-- An expression node that must escape is never evaluated to a value. -/
theorem ev_must {e : Expr} {b : Bool} (h : Ev e b) : e.info.mustEscape = true → b = false := by
  induction h with
  | plain => decide
  | @callRet k hk =>
    intro h; exfalso; revert h hk
    simp only [Expr.info]
    revert k; decide +kernel
  | callExit => simp
  | paren _ ih => exact ih
  | op1 _ _ => intro h; simp [Expr.info, Info.mustEscape, ExitKind.mustEscape] at h
  | op2 _ _ _ _ => intro h; simp [Expr.info, Info.mustEscape, ExitKind.mustEscape] at h
  | comma1 _ _ => simp
  | comma2 _ _ ih1 ih2 =>
    intro h
    simp only [Expr.info, Info.mustEscape, Bool.or_eq_true] at h ih1 ih2
    rcases h with h | h | h
    · have := combine_must _ _ h; exact ih2 (Or.inl this.2)
    · have := ih1 (Or.inr h); simp at this
    · exact ih2 (Or.inr h)
  | condP _ _ => simp
  | condA _ _ _ ih => intro h; exact ih (combineControl_must _ _ h).1
  | condB _ _ _ ih => intro h; exact ih (combineControl_must _ _ h).2

theorem expr_canBreak (e : Expr) : e.info.canBreak = false := by
  induction e with
  | plain => rfl
  | call k => cases k <;> rfl
  | paren e ih => exact ih
  | op a b => rfl
  | comma a b iha ihb => simp [Expr.info, iha, ihb]
  | cond p a b _ iha ihb => simp [Expr.info, combineControl, iha, ihb]

/-! ## Entering a statement -/

theorem exec_at_inside {s : Stmt} {en : Entry} {o : Out} (h : Exec s en o) :
    ∀ m, en = .at m → (∀ l, m = .label l → l ∈ labels s) ∧ (m.isLabel = false → ownsCase s = true) := by
  induction h <;> intro m hm <;>
    first
    | (cases hm; done)
    | (cases hm; simp [labels, ownsCase, Marker.isLabel]; done)
    | skip
  case block ih => exact ih m hm
  case seqStop ih => have := ih m hm; simp only [labels, ownsCase, List.mem_append, Bool.or_eq_true]; tauto
  case seqGo ih _ => have := ih m hm; simp only [labels, ownsCase, List.mem_append, Bool.or_eq_true]; tauto
  case seqAt ih => have := ih m hm; simp only [labels, ownsCase, List.mem_append, Bool.or_eq_true]; tauto
  case ifAt ih => exact ih m hm
  case elseAt1 ih => have := ih m hm; simp only [labels, ownsCase, List.mem_append, Bool.or_eq_true]; tauto
  case elseAt2 ih => have := ih m hm; simp only [labels, ownsCase, List.mem_append, Bool.or_eq_true]; tauto
  case whileAtLeave ih => exact ih m hm
  case whileAtAgain ih _ => exact ih m hm
  case doLeave ih => exact ih m hm
  case doEnd ih => exact ih m hm
  case doExit ih => exact ih m hm
  case doAgain ih _ => exact ih m hm
  case forLeave ih => exact ih m hm
  case forAgain ih _ => exact ih m hm
  case switchAt l _ _ ih => cases hm; have := ih (.label l) rfl; simp [labels, Marker.isLabel] at this ⊢; exact this

theorem not_exec_sealed {s : Stmt} {m : Marker} {o : Out} (hs : sealed_ s = true) : ¬ Exec s (.at m) o := by
  intro h
  have := exec_at_inside h m rfl
  simp only [sealed_, Bool.and_eq_true, decide_eq_true_eq, Bool.not_eq_true'] at hs
  cases m with
  | label l => have := this.1 l rfl; rw [hs.1] at this; simp at this
  | case_ v => have := this.2 rfl; rw [hs.2] at this; simp at this
  | dflt => have := this.2 rfl; rw [hs.2] at this; simp at this

/-! ## The scan of a switch body -/

/-- A node that certainly escapes. -/
def Item.escapes : Item → Bool
  | .node me _ => me
  | _ => false

/-- A node that may break. -/
def Item.breaks : Item → Bool
  | .node _ cb => cb
  | _ => false

def Item.isMarker : Item → Bool
  | .node _ _ => false
  | _ => true

theorem scan_mustReturn_mono (xs : List Item) (s : Scan) (h : s.mustReturn = false) :
    (xs.foldl Scan.step s).mustReturn = false := by
  induction xs generalizing s with
  | nil => exact h
  | cons x xs ih =>
    apply ih
    cases x <;> simp [Scan.step, Scan.marker, h]

/-- Value of the scan at the end of the body. -/
def scanEnd (s : Scan) : Bool :=
  if s.inSwitch then (if !s.thisReturn || s.canBreak then false else s.mustReturn) else s.mustReturn

theorem scanEnd_false (s : Scan) (h : s.mustReturn = false) : scanEnd s = false := by
  simp [scanEnd, h]

theorem scan_break (xs : List Item) (s : Scan)
    (h : s.mustReturn = false ∨ (s.inSwitch = true ∧ s.canBreak = true ∧ s.fallThrough = false)) :
    scanEnd (xs.foldl Scan.step s) = false := by
  induction xs generalizing s with
  | nil =>
    rcases h with h | ⟨h1, h2, h3⟩
    · exact scanEnd_false _ h
    · simp [scanEnd, h1, h2]
  | cons x xs ih =>
    apply ih
    rcases h with h | ⟨h1, h2, h3⟩
    · left; cases x <;> simp [Scan.step, Scan.marker, h]
    · cases x
      · left; simp [Scan.step, Scan.marker, h1, h2, h3]
      · left; simp [Scan.step, Scan.marker, h1, h2, h3]
      · right; simp [Scan.step, h1, h2]

/-- After a marker, a node that may break makes the result false. -/
theorem scan_break_mem (xs : List Item) (s : Scan) (hs : s.inSwitch = true)
    (h : ∃ x ∈ xs, x.breaks = true) : scanEnd (xs.foldl Scan.step s) = false := by
  induction xs generalizing s with
  | nil => simp at h
  | cons x xs ih =>
    have hs' : (s.step x).inSwitch = true := by cases x <;> simp [Scan.step, Scan.marker, hs]
    obtain ⟨y, hy, hb⟩ := h
    rcases List.mem_cons.1 hy with rfl | hy
    · cases y with
      | node me cb =>
        simp only [Item.breaks] at hb; subst hb
        apply scan_break xs
        right; simp [Scan.step, hs]
      | _ => simp [Item.breaks] at hb
    · exact ih _ hs' ⟨y, hy, hb⟩

/-- After a marker, if no node escapes then the result is false. -/
theorem scan_no_escape (xs : List Item) (s : Scan) (hs : s.inSwitch = true)
    (ht : s.thisReturn = false) (h : ∀ x ∈ xs, x.escapes = false) :
    scanEnd (xs.foldl Scan.step s) = false := by
  induction xs generalizing s with
  | nil => simp [scanEnd, hs, ht]
  | cons x xs ih =>
    apply ih
    · cases x <;> simp [Scan.step, Scan.marker, hs]
    · cases x with
      | node me cb => have := h (.node me cb) (by simp); simp [Item.escapes] at this; simp [Scan.step, ht, this]
      | case_ => simp [Scan.step, Scan.marker]
      | dflt => simp [Scan.step, Scan.marker]
    · exact fun y hy => h y (by simp [hy])

theorem checkSwitch_eq (a : Bool) (xs : List Item) :
    checkSwitch a xs = (((xs.foldl Scan.step {}).hasDefault || a) && scanEnd (xs.foldl Scan.step {})) := rfl

/-- If the result is true, then from each marker on some node escapes and none may break. -/
theorem checkSwitch_from_marker (a : Bool) (xs ys : List Item) (x : Item) (hx : x.isMarker = true)
    (h : checkSwitch a (xs ++ x :: ys) = true) :
    (∃ y ∈ ys, y.escapes = true) ∧ (∀ y ∈ ys, y.breaks = false) := by
  rw [checkSwitch_eq, Bool.and_eq_true] at h
  have h2 := h.2
  rw [List.foldl_append, List.foldl_cons] at h2
  set s := (xs.foldl Scan.step {}).step x with hsdef
  have hin : s.inSwitch = true := by
    cases x <;> simp_all [Scan.step, Scan.marker, Item.isMarker]
  have hth : s.thisReturn = false := by
    cases x <;> simp_all [Scan.step, Scan.marker, Item.isMarker]
  constructor
  · by_contra hc
    push Not at hc
    have := scan_no_escape ys s hin hth (fun y hy => by simpa using hc y hy)
    rw [this] at h2; simp at h2
  · intro y hy
    by_contra hc
    have := scan_break_mem ys s hin ⟨y, hy, by simpa using hc⟩
    rw [this] at h2; simp at h2

/-- The scan sees a default only if there is one. -/
theorem scan_hasDefault (xs : List Item) (s : Scan) :
    (xs.foldl Scan.step s).hasDefault = true → s.hasDefault = true ∨ Item.dflt ∈ xs := by
  induction xs generalizing s with
  | nil => intro h; exact Or.inl h
  | cons x xs ih =>
    intro h
    rcases ih _ h with h | h
    · cases x <;> simp_all [Scan.step, Scan.marker]
    · right; simp [h]

theorem flat_dflt (s : Stmt) : Item.dflt ∈ s.flat → ownsDefault s = true := by
  induction s with
  | block s ih => intro h; exact ih (by simpa [Stmt.flat, Stmt.analyse] using h)
  | seq f r s1 s2 ih1 ih2 =>
    intro h
    simp only [Stmt.flat, Stmt.analyse, List.mem_append] at h ih1 ih2
    simp only [ownsDefault, Bool.or_eq_true]
    exact h.imp ih1 ih2
  | _ => simp [Stmt.flat, Stmt.analyse, ownsDefault]

/-! ## Soundness of `mustEscape` and `canBreak` -/

/-- The statement is built by the analysis as one node of a flattened list. -/
def isNode : Stmt → Bool
  | .block _ => false
  | .seq _ _ _ _ => false
  | .case_ _ => false
  | .dflt => false
  | _ => true

theorem flat_node (s : Stmt) (h : isNode s = true) :
    s.flat = [.node s.info.mustEscape s.info.canBreak] := by
  cases s <;> first | rfl | (simp [isNode] at h)

theorem concatInfo_canBreak (f r sm : Bool) (a b : Info) (h : a.canBreak = true ∨ b.canBreak = true) :
    (concatInfo f r sm a b).canBreak = true := by
  unfold concatInfo
  simp only []
  repeat' split
  all_goals simp_all

/-- When a statement list must escape: its second part must escape, or the first part must and
the second part can only be entered from it. -/
theorem concatInfo_must (f r sm : Bool) (a b : Info) (h : (concatInfo f r sm a b).mustEscape = true) :
    b.mustEscape = true ∨
      (a.mustEscape = true ∧ b.isJump = false ∧ f = true ∧ (sm = true ∨ r = false)) := by
  unfold concatInfo at h
  simp only [] at h
  have ha : ∀ i : Info, (i.mustEscape || i.mustBreak) = i.mustEscape := by
    intro i; simp only [Info.mustEscape]; cases i.mustBreak <;> simp
  rw [ha] at h
  split at h
  · next hc =>
    simp only [Bool.and_eq_true, Bool.not_eq_true'] at hc
    split at h
    · next hf =>
      split at h
      · right; simp_all
      · split at h
        · exfalso; revert h; simp [Info.mustEscape, ExitKind.mustEscape]
        · right; simp_all
    · left; simpa [Info.mustEscape] using h
  · left; simpa [Info.mustEscape] using h

theorem tame_seq_second {f r : Bool} {s1 s2 : Stmt} (h : tame (.seq f r s1 s2) = true)
    (hf : f = true) (hr : s2.isSemi = true ∨ r = false) (hj : s2.info.isJump = false) :
    sealed_ s2 = true := by
  simp only [tame, Bool.and_eq_true, Bool.or_eq_true, hj] at h
  rcases hr with hr | hr
  · cases s2 <;> simp [Stmt.isSemi] at hr
    rfl
  · subst hf hr; simpa using h.2

/-- The claims proved together about an execution. -/
structure Sound (s : Stmt) (en : Entry) (o : Out) : Prop where
  must : o = .normal → s.info.mustEscape = false
  canBreak : o = .brk → s.info.canBreak = true
  /-- entered at the beginning: all flattened nodes are passed -/
  flatStart : flatCases s = true → en = .start →
    (o = .normal → ∀ x ∈ s.flat, x.escapes = false) ∧ (o = .brk → ∃ x ∈ s.flat, x.breaks = true)
  /-- entered at a case or default: the nodes after the corresponding marker are passed -/
  flatAt : flatCases s = true → ∀ m, en = .at m → m.isLabel = false →
    ∃ xs x ys, s.flat = xs ++ x :: ys ∧ x.isMarker = true ∧
      (o = .normal → ∀ y ∈ ys, y.escapes = false) ∧ (o = .brk → ∃ y ∈ ys, y.breaks = true)

/-- For a node of a flattened list the last two claims follow from the first two. -/
theorem Sound.ofNode {s : Stmt} {en : Entry} {o : Out} (hn : isNode s = true)
    (hex : Exec s en o) (h1 : o = .normal → s.info.mustEscape = false)
    (h2 : o = .brk → s.info.canBreak = true) : Sound s en o := by
  refine ⟨h1, h2, ?_, ?_⟩
  · intro _ _
    rw [flat_node s hn]
    refine ⟨fun h => by simp [Item.escapes, h1 h], fun h => by simp [Item.breaks, h2 h]⟩
  · intro hf m hm hl
    exfalso
    subst hm
    have h3 := (exec_at_inside hex m rfl).2 hl
    cases s <;> simp_all [flatCases, isNode]

theorem exec_sound {s : Stmt} {en : Entry} {o : Out} (h : Exec s en o) :
    tame s = true → Sound s en o := by
  induction h with
  | semi => intro _; exact .ofNode rfl .semi (by decide) (by simp)
  | @expr e h =>
    intro _
    refine .ofNode rfl (.expr h) ?_ (by simp)
    intro _
    have := ev_must h
    simp only [Stmt.info, Stmt.analyse, Info.mustEscape] at *
    by_contra hc; simp only [Bool.not_eq_false] at hc; have := this hc; simp at this
  | exprExit h => intro _; exact .ofNode rfl (.exprExit h) (by simp) (by simp)
  | ret => intro _; exact .ofNode rfl .ret (by simp) (by simp)
  | brk => intro _; exact .ofNode rfl .brk (by simp) (by intro _; rfl)
  | cont => intro _; exact .ofNode rfl .cont (by simp) (by simp)
  | goto_ => intro _; exact .ofNode rfl .goto_ (by simp) (by simp)
  | label => intro _; exact .ofNode rfl .label (by intro _; rfl) (by simp)
  | labelAt => intro _; exact .ofNode rfl .labelAt (by intro _; rfl) (by simp)
  | case_ =>
    intro _
    exact ⟨fun _ => rfl, by simp, by simp [Stmt.flat, Stmt.analyse, Item.escapes], by simp⟩
  | caseAt =>
    intro _
    exact ⟨fun _ => rfl, by simp, by simp,
      fun _ m hm _ => ⟨[], .case_, [], rfl, rfl, by simp, by simp⟩⟩
  | dflt =>
    intro _
    exact ⟨fun _ => rfl, by simp, by simp [Stmt.flat, Stmt.analyse, Item.escapes], by simp⟩
  | dfltAt =>
    intro _
    exact ⟨fun _ => rfl, by simp, by simp,
      fun _ m hm _ => ⟨[], .dflt, [], rfl, rfl, by simp, by simp⟩⟩
  | block _ ih => intro ht; exact ⟨(ih ht).must, (ih ht).canBreak, (ih ht).flatStart, (ih ht).flatAt⟩
  | @seqStop f r s1 s2 en o h1 hne ih =>
    intro ht
    have ht1 : tame s1 = true := by simp only [tame, Bool.and_eq_true] at ht; exact ht.1.1
    have S := ih ht1
    refine ⟨fun h => absurd h hne, ?_, ?_, ?_⟩
    · intro hb; exact concatInfo_canBreak _ _ _ _ _ (Or.inl (S.canBreak hb))
    · intro hf hs
      simp only [flatCases, Bool.and_eq_true] at hf
      have := S.flatStart hf.1 hs
      refine ⟨fun h => absurd h hne, fun hb => ?_⟩
      obtain ⟨x, hx, hxb⟩ := this.2 hb
      exact ⟨x, List.mem_append_left _ hx, hxb⟩
    · intro hf m hm hl
      simp only [flatCases, Bool.and_eq_true] at hf
      obtain ⟨xs, x, ys, e, hmk, -, hb⟩ := S.flatAt hf.1 m hm hl
      refine ⟨xs, x, ys ++ s2.flat, ?_, hmk, fun h => absurd h hne, ?_⟩
      · show s1.flat ++ s2.flat = _
        rw [e]; simp
      · intro h
        obtain ⟨y, hy, hyb⟩ := hb h
        exact ⟨y, List.mem_append_left _ hy, hyb⟩
  | @seqGo f r s1 s2 en o h1 h2 ih1 ih2 =>
    intro ht
    have ht' := ht
    simp only [tame, Bool.and_eq_true] at ht'
    have S1 := ih1 ht'.1.1
    have S2 := ih2 ht'.1.2
    refine ⟨?_, ?_, ?_, ?_⟩
    · intro ho
      by_contra hc
      simp only [Bool.not_eq_false] at hc
      rcases concatInfo_must _ _ _ _ _ hc with h | ⟨h, -⟩
      · have := S2.must ho
        rw [show s2.analyse.1 = s2.info from rfl, this] at h; simp at h
      · have := S1.must rfl
        rw [show s1.analyse.1 = s1.info from rfl, this] at h; simp at h
    · intro hb; exact concatInfo_canBreak _ _ _ _ _ (Or.inr (S2.canBreak hb))
    · intro hf hs
      simp only [flatCases, Bool.and_eq_true] at hf
      have F1 := S1.flatStart hf.1 hs
      have F2 := S2.flatStart hf.2 rfl
      constructor
      · intro ho x hx
        rcases List.mem_append.1 (show x ∈ s1.flat ++ s2.flat from hx) with hx | hx
        · exact F1.1 rfl x hx
        · exact F2.1 ho x hx
      · intro hb
        obtain ⟨x, hx, hxb⟩ := F2.2 hb
        exact ⟨x, List.mem_append_right _ hx, hxb⟩
    · intro hf m hm hl
      simp only [flatCases, Bool.and_eq_true] at hf
      obtain ⟨xs, x, ys, e, hmk, hn, -⟩ := S1.flatAt hf.1 m hm hl
      have F2 := S2.flatStart hf.2 rfl
      refine ⟨xs, x, ys ++ s2.flat, ?_, hmk, ?_, ?_⟩
      · show s1.flat ++ s2.flat = _
        rw [e]; simp
      · intro ho y hy
        rcases List.mem_append.1 hy with hy | hy
        · exact hn rfl y hy
        · exact F2.1 ho y hy
      · intro hb
        obtain ⟨y, hy, hyb⟩ := F2.2 hb
        exact ⟨y, List.mem_append_right _ hy, hyb⟩
  | @seqAt f r s1 s2 m o h ih =>
    intro ht
    have ht' := ht
    simp only [tame, Bool.and_eq_true] at ht'
    have S2 := ih ht'.1.2
    refine ⟨?_, ?_, by simp, ?_⟩
    · intro ho
      by_contra hc
      simp only [Bool.not_eq_false] at hc
      rcases concatInfo_must _ _ _ _ _ hc with h' | ⟨-, hj, hf, hr⟩
      · have := S2.must ho
        rw [show s2.analyse.1 = s2.info from rfl, this] at h'; simp at h'
      · exact not_exec_sealed (tame_seq_second ht hf hr hj) h
    · intro hb; exact concatInfo_canBreak _ _ _ _ _ (Or.inr (S2.canBreak hb))
    · intro hf m' hm hl
      simp only [flatCases, Bool.and_eq_true] at hf
      obtain ⟨xs, x, ys, e, hmk, hn, hb⟩ := S2.flatAt hf.2 m' hm hl
      refine ⟨s1.flat ++ xs, x, ys, ?_, hmk, hn, hb⟩
      show s1.flat ++ s2.flat = _
      rw [e]; simp
  | @ifTrue e s o he h ih =>
    intro ht
    refine .ofNode rfl (.ifTrue he h) (fun _ => ?_) (fun hb => (ih ht).canBreak hb)
    simp [Stmt.info, Stmt.analyse, Info.mustEscape, makeConditional_not_must]
  | @ifFalse e s he =>
    intro ht
    refine .ofNode rfl (.ifFalse he) (fun _ => ?_) (by simp)
    simp [Stmt.info, Stmt.analyse, Info.mustEscape, makeConditional_not_must]
  | ifExit he => intro _; exact .ofNode rfl (.ifExit he) (by simp) (by simp)
  | @ifAt e s m o h ih =>
    intro ht
    refine .ofNode rfl (.ifAt h) (fun _ => ?_) (fun hb => (ih ht).canBreak hb)
    simp [Stmt.info, Stmt.analyse, Info.mustEscape, makeConditional_not_must]
  | @elseTrue e s1 s2 o he h ih =>
    intro ht
    simp only [tame, Bool.and_eq_true] at ht
    have S := ih ht.1
    refine .ofNode rfl (.elseTrue he h) (fun ho => ?_) (fun hb => ?_)
    · by_contra hc
      simp only [Bool.not_eq_false] at hc
      have := (combineControl_must _ _ hc).1
      rw [show s1.analyse.1 = s1.info from rfl, S.must ho] at this; simp at this
    · have := S.canBreak hb
      show (s1.info.canBreak || s2.info.canBreak) = true
      simp [this]
  | @elseFalse e s1 s2 o he h ih =>
    intro ht
    simp only [tame, Bool.and_eq_true] at ht
    have S := ih ht.2
    refine .ofNode rfl (.elseFalse he h) (fun ho => ?_) (fun hb => ?_)
    · by_contra hc
      simp only [Bool.not_eq_false] at hc
      have := (combineControl_must _ _ hc).2
      rw [show s2.analyse.1 = s2.info from rfl, S.must ho] at this; simp at this
    · have := S.canBreak hb
      show (s1.info.canBreak || s2.info.canBreak) = true
      simp [this]
  | elseExit he => intro _; exact .ofNode rfl (.elseExit he) (by simp) (by simp)
  | @elseAt1 e s1 s2 m o h ih =>
    intro ht
    simp only [tame, Bool.and_eq_true] at ht
    have S := ih ht.1
    refine .ofNode rfl (.elseAt1 h) (fun ho => ?_) (fun hb => ?_)
    · by_contra hc
      simp only [Bool.not_eq_false] at hc
      have := (combineControl_must _ _ hc).1
      rw [show s1.analyse.1 = s1.info from rfl, S.must ho] at this; simp at this
    · have := S.canBreak hb
      show (s1.info.canBreak || s2.info.canBreak) = true
      simp [this]
  | @elseAt2 e s1 s2 m o h ih =>
    intro ht
    simp only [tame, Bool.and_eq_true] at ht
    have S := ih ht.2
    refine .ofNode rfl (.elseAt2 h) (fun ho => ?_) (fun hb => ?_)
    · by_contra hc
      simp only [Bool.not_eq_false] at hc
      have := (combineControl_must _ _ hc).2
      rw [show s2.analyse.1 = s2.info from rfl, S.must ho] at this; simp at this
    · have := S.canBreak hb
      show (s1.info.canBreak || s2.info.canBreak) = true
      simp [this]
  | @whileEnd k e s he hk =>
    intro _
    refine .ofNode rfl (.whileEnd he hk) (fun _ => ?_) (by simp)
    simp [Stmt.info, Stmt.analyse, hk, Info.mustEscape, ExitKind.mustEscape]
  | whileExit he => intro _; exact .ofNode rfl (.whileExit he) (by simp) (by simp)
  | @whileLeave k e s o he hk h h1 h2 ih =>
    intro ht
    have S := ih ht
    refine .ofNode rfl (.whileLeave he hk h h1 h2) (fun ho => ?_) (fun hb => ?_)
    · have hb : o = .brk := by cases o <;> simp_all [afterSwitch]
      have := S.canBreak hb
      simp only [Stmt.info] at this
      simp [Stmt.info, Stmt.analyse, this, Info.mustEscape, ExitKind.mustEscape]
    · cases o <;> simp_all [afterSwitch]
  | @whileAgain k e s o o' he hk h ho h' _ ih' =>
    intro ht
    exact .ofNode rfl (.whileAgain he hk h ho h') (ih' ht).must (ih' ht).canBreak
  | @whileAtLeave k e s m o h h1 h2 ih =>
    intro ht
    have S := ih ht
    refine .ofNode rfl (.whileAtLeave h h1 h2) (fun ho => ?_) (fun hb => ?_)
    · have hb : o = .brk := by cases o <;> simp_all [afterSwitch]
      have := S.canBreak hb
      simp only [Stmt.info] at this
      simp [Stmt.info, Stmt.analyse, this, Info.mustEscape, ExitKind.mustEscape]
    · cases o <;> simp_all [afterSwitch]
  | @whileAtAgain k e s m o o' h ho h' _ ih' =>
    intro ht
    exact .ofNode rfl (.whileAtAgain h ho h') (ih' ht).must (ih' ht).canBreak
  | @doLeave s e en o h h1 h2 ih =>
    intro ht
    refine .ofNode rfl (.doLeave h h1 h2) (fun ho => ?_) (fun hb => ?_)
    · simp [Stmt.info, Stmt.analyse, Info.mustEscape, makeConditional_not_must]
    · cases o <;> simp_all [afterSwitch]
  | @doEnd s e en o h h1 he ih =>
    intro ht
    refine .ofNode rfl (.doEnd h h1 he) (fun ho => ?_) (by simp)
    simp [Stmt.info, Stmt.analyse, Info.mustEscape, makeConditional_not_must]
  | doExit h h1 he _ => intro ht; exact .ofNode rfl (.doExit h h1 he) (by simp) (by simp)
  | @doAgain s e en o o' h h1 he h' _ ih' =>
    intro ht
    exact .ofNode rfl (.doAgain h h1 he h') (ih' ht).must (ih' ht).canBreak
  | @forEnd s =>
    intro _
    refine .ofNode rfl .forEnd (fun _ => ?_) (by simp)
    simp [Stmt.info, Stmt.analyse, Info.mustEscape, makeConditional_not_must]
  | forExit => intro _; exact .ofNode rfl .forExit (by simp) (by simp)
  | @forLeave t s en o h h1 h2 ih =>
    intro ht
    have S := ih ht
    refine .ofNode rfl (.forLeave h h1 h2) (fun ho => ?_) (fun hb => ?_)
    · have hb : o = .brk := by cases o <;> simp_all [afterSwitch]
      have := S.canBreak hb
      simp only [Stmt.info] at this
      simp [Stmt.info, Stmt.analyse, this, Info.mustEscape, makeConditional_not_must]
    · cases o <;> simp_all [afterSwitch]
  | @forAgain t s en o o' h ho h' _ ih' =>
    intro ht
    exact .ofNode rfl (.forAgain h ho h') (ih' ht).must (ih' ht).canBreak
  | switchExit he => intro _; exact .ofNode rfl (.switchExit he) (by simp) (by simp)
  | @switchSkip a e s he hd =>
    intro _
    refine .ofNode rfl (.switchSkip he hd) (fun _ => ?_) (by simp)
    have hc : checkSwitch a s.analyse.2 = false := by
      rw [checkSwitch_eq]
      simp only [Bool.or_eq_false_iff] at hd
      have : (s.analyse.2.foldl Scan.step {}).hasDefault = false := by
        by_contra hh
        simp only [Bool.not_eq_false] at hh
        rcases scan_hasDefault _ _ hh with h | h
        · simp at h
        · have := flat_dflt s h; rw [hd.1] at this; simp at this
      simp [this, hd.2]
    have he' : e.info.mustEscape = false := by
      by_contra hh; have := ev_must he (by simpa using hh); simp at this
    simpa [Stmt.info, Stmt.analyse, hc, Info.mustEscape] using he'
  | @switchGo a e s m o he hm h ih =>
    intro ht
    have ht' := ht
    simp only [tame, Bool.and_eq_true] at ht'
    have S := ih ht'.1.1
    refine .ofNode rfl (.switchGo he hm h) (fun ho => ?_) (fun hb => ?_)
    · have he' : e.info.mustEscape = false := by
        by_contra hh; have := ev_must he (by simpa using hh); simp at this
      have hc : checkSwitch a s.analyse.2 = false := by
        by_contra hh
        simp only [Bool.not_eq_false] at hh
        obtain ⟨xs, x, ys, ef, hmk, hn, hb⟩ := S.flatAt ht'.1.2 m rfl hm
        rw [show s.analyse.2 = s.flat from rfl, ef] at hh
        obtain ⟨⟨y, hy, hye⟩, hnb⟩ := checkSwitch_from_marker a xs ys x hmk hh
        cases o with
        | normal => have := hn rfl y hy; rw [this] at hye; simp at hye
        | brk => obtain ⟨z, hz, hzb⟩ := hb rfl; rw [hnb z hz] at hzb; simp at hzb
        | _ => simp [afterSwitch] at ho
      simpa [Stmt.info, Stmt.analyse, hc, Info.mustEscape] using he'
    · cases o <;> simp_all [afterSwitch]
  | @switchAt a e s l o h ih =>
    intro ht
    exfalso
    simp only [tame, Bool.and_eq_true, decide_eq_true_eq] at ht
    have := (exec_at_inside h (.label l) rfl).1 l rfl
    rw [ht.2] at this; simp at this

theorem seq_base (f r : Bool) (s1 s2 : Stmt) (h : s1.info.mustEscape = false) :
    (Stmt.seq f r s1 s2).info.mustEscape = s2.info.mustEscape ∧
    (Stmt.seq f r s1 s2).info.isJump = s1.info.isJump := by
  have hb : s1.info.mustBreak = false := by
    simp only [Info.mustEscape, Bool.or_eq_false_iff] at h; exact h.2
  simp only [Stmt.info] at h hb
  simp only [Stmt.info, Stmt.analyse, concatInfo, h, hb]
  simp [Info.mustEscape]

/-! ## Reaching statements -/

theorem reaches_at_inside {s : Stmt} {en : Entry} {p : List Nat} (h : Reaches s en p) :
    ∀ m, en = .at m → (∀ l, m = .label l → l ∈ labels s) ∧ (m.isLabel = false → ownsCase s = true) := by
  induction h <;> intro m hm <;> first | (cases hm; done) | skip
  case hereAt h => obtain ⟨o, ho⟩ := h; exact exec_at_inside ho m hm
  case block ih => exact ih m hm
  case seq1 ih => have := ih m hm; simp only [labels, ownsCase, List.mem_append, Bool.or_eq_true]; tauto
  case seq2 h1 _ _ =>
    have := exec_at_inside h1 m hm
    simp only [labels, ownsCase, List.mem_append, Bool.or_eq_true]; tauto
  case seqAt ih => have := ih m hm; simp only [labels, ownsCase, List.mem_append, Bool.or_eq_true]; tauto
  case if_ ih => exact ih m hm
  case else1 ih => have := ih m hm; simp only [labels, ownsCase, List.mem_append, Bool.or_eq_true]; tauto
  case else2 ih => have := ih m hm; simp only [labels, ownsCase, List.mem_append, Bool.or_eq_true]; tauto
  case while_ ih => exact ih m hm
  case whileAgain h _ _ => exact exec_at_inside h m hm
  case do_ ih => exact ih m hm
  case doAgain h _ _ => exact exec_at_inside h m hm
  case for_ ih => exact ih m hm
  case forAgain h _ _ => exact exec_at_inside h m hm
  case switchAt l _ _ ih =>
    cases hm
    have := ih (.label l) rfl
    simp only [labels]
    exact ⟨this.1, by simp [Marker.isLabel]⟩

theorem not_reaches_sealed {s : Stmt} {m : Marker} {p : List Nat} (hs : sealed_ s = true) :
    ¬ Reaches s (.at m) p := by
  intro h
  have := reaches_at_inside h m rfl
  simp only [sealed_, Bool.and_eq_true, decide_eq_true_eq, Bool.not_eq_true'] at hs
  cases m with
  | label l => have := this.1 l rfl; rw [hs.1] at this; simp at this
  | case_ v => have := this.2 rfl; rw [hs.2] at this; simp at this
  | dflt => have := this.2 rfl; rw [hs.2] at this; simp at this

/-- Reaching a place inside a part means reaching that place from some entry of the part. -/
theorem reaches_split {s : Stmt} {en : Entry} {p : List Nat} (h : Reaches s en p) :
    ∀ q r t, p = q ++ r → sub s q = some t → ∃ en', Reaches t en' r := by
  induction h with
  | here => intro q r t hp hs; obtain ⟨rfl, rfl⟩ := List.append_eq_nil_iff.1 hp.symm
            simp only [sub] at hs; cases hs; exact ⟨_, .here⟩
  | hereAt h => intro q r t hp hs; obtain ⟨rfl, rfl⟩ := List.append_eq_nil_iff.1 hp.symm
                simp only [sub] at hs; cases hs; exact ⟨_, .hereAt h⟩
  | whileAgain h h' ih =>
    intro q r t hp hs
    cases q with
    | nil => simp only [sub] at hs; cases hs; simp only [List.nil_append] at hp; subst hp; exact ⟨_, .whileAgain h h'⟩
    | cons => exact ih _ _ _ hp hs
  | doAgain h h' ih =>
    intro q r t hp hs
    cases q with
    | nil => simp only [sub] at hs; cases hs; simp only [List.nil_append] at hp; subst hp; exact ⟨_, .doAgain h h'⟩
    | cons => exact ih _ _ _ hp hs
  | forAgain h h' ih =>
    intro q r t hp hs
    cases q with
    | nil => simp only [sub] at hs; cases hs; simp only [List.nil_append] at hp; subst hp; exact ⟨_, .forAgain h h'⟩
    | cons => exact ih _ _ _ hp hs
  | block h ih =>
    intro q r t hp hs
    cases q with
    | nil => simp only [sub] at hs; cases hs; simp only [List.nil_append] at hp; subst hp; exact ⟨_, .block h⟩
    | cons => cases hp; exact ih _ _ _ rfl hs
  | seq1 h ih =>
    intro q r t hp hs
    cases q with
    | nil => simp only [sub] at hs; cases hs; simp only [List.nil_append] at hp; subst hp; exact ⟨_, .seq1 h⟩
    | cons => cases hp; exact ih _ _ _ rfl hs
  | seq2 h0 h ih =>
    intro q r t hp hs
    cases q with
    | nil => simp only [sub] at hs; cases hs; simp only [List.nil_append] at hp; subst hp; exact ⟨_, .seq2 h0 h⟩
    | cons => cases hp; exact ih _ _ _ rfl hs
  | seqAt h ih =>
    intro q r t hp hs
    cases q with
    | nil => simp only [sub] at hs; cases hs; simp only [List.nil_append] at hp; subst hp; exact ⟨_, .seqAt h⟩
    | cons => cases hp; exact ih _ _ _ rfl hs
  | if_ h ih =>
    intro q r t hp hs
    cases q with
    | nil => simp only [sub] at hs; cases hs; simp only [List.nil_append] at hp; subst hp; exact ⟨_, .if_ h⟩
    | cons => cases hp; exact ih _ _ _ rfl hs
  | else1 h ih =>
    intro q r t hp hs
    cases q with
    | nil => simp only [sub] at hs; cases hs; simp only [List.nil_append] at hp; subst hp; exact ⟨_, .else1 h⟩
    | cons => cases hp; exact ih _ _ _ rfl hs
  | else2 h ih =>
    intro q r t hp hs
    cases q with
    | nil => simp only [sub] at hs; cases hs; simp only [List.nil_append] at hp; subst hp; exact ⟨_, .else2 h⟩
    | cons => cases hp; exact ih _ _ _ rfl hs
  | while_ h ih =>
    intro q r t hp hs
    cases q with
    | nil => simp only [sub] at hs; cases hs; simp only [List.nil_append] at hp; subst hp; exact ⟨_, .while_ h⟩
    | cons => cases hp; exact ih _ _ _ rfl hs
  | do_ h ih =>
    intro q r t hp hs
    cases q with
    | nil => simp only [sub] at hs; cases hs; simp only [List.nil_append] at hp; subst hp; exact ⟨_, .do_ h⟩
    | cons => cases hp; exact ih _ _ _ rfl hs
  | for_ h ih =>
    intro q r t hp hs
    cases q with
    | nil => simp only [sub] at hs; cases hs; simp only [List.nil_append] at hp; subst hp; exact ⟨_, .for_ h⟩
    | cons => cases hp; exact ih _ _ _ rfl hs
  | switch_ h ih =>
    intro q r t hp hs
    cases q with
    | nil => simp only [sub] at hs; cases hs; simp only [List.nil_append] at hp; subst hp; exact ⟨_, .switch_ h⟩
    | cons => cases hp; exact ih _ _ _ rfl hs
  | switchAt h ih =>
    intro q r t hp hs
    cases q with
    | nil => simp only [sub] at hs; cases hs; simp only [List.nil_append] at hp; subst hp; exact ⟨_, .switchAt h⟩
    | cons => cases hp; exact ih _ _ _ rfl hs

/-- The part at a path of a tame statement is tame. -/
theorem tame_sub (s : Stmt) (q : List Nat) (t : Stmt) (hs : sub s q = some t) (ht : tame s = true) :
    tame t = true := by
  fun_induction sub s q <;> simp_all [tame]

/-! ## The error kind -/

theorem expr_not_error (e : Expr) : e.info.exit ≠ .error := by
  induction e with
  | plain => decide
  | call k => cases k <;> decide
  | paren e ih => exact ih
  | op a b => simp [Expr.info]
  | comma a b iha ihb =>
    simp only [Expr.info]
    intro h; rcases combine_error _ _ h with h | h
    · exact iha h
    · exact ihb h
  | cond p a b _ iha ihb =>
    simp only [Expr.info, combineControl]
    intro h; rcases combine_error _ _ h with h | h
    · exact iha h
    · exact ihb h

/-- The error kind marks a reported unreachable statement. -/
theorem error_flagged (s : Stmt) : s.info.exit = .error →
    ∃ q f r s1 s2, sub s q = some (.seq f r s1 s2) ∧ flagged f r s1 s2 = true := by
  induction s with
  | expr e => intro h; exact absurd h (expr_not_error e)
  | block s ih =>
    intro h; obtain ⟨q, f, r, s1, s2, hq, hf⟩ := ih h
    exact ⟨0 :: q, f, r, s1, s2, hq, hf⟩
  | seq f r s1 s2 ih1 ih2 =>
    intro h
    by_cases hfl : flagged f r s1 s2 = true
    · exact ⟨[], f, r, s1, s2, rfl, hfl⟩
    · have h2 : s2.info.exit = .error := by
        simp only [flagged, Stmt.info] at hfl
        simp only [Stmt.info, Stmt.analyse, concatInfo] at h ⊢
        repeat' split at h
        all_goals simp_all
      obtain ⟨q, f, r, s1, s2, hq, hf⟩ := ih2 h2
      exact ⟨1 :: q, f, r, s1, s2, hq, hf⟩
  | if_ e s ih =>
    intro h; obtain ⟨q, f, r, s1, s2, hq, hf⟩ := ih (makeConditional_error _ h)
    exact ⟨0 :: q, f, r, s1, s2, hq, hf⟩
  | ifElse e s1 s2 ih1 ih2 =>
    intro h
    rcases combine_error _ _ h with h | h
    · obtain ⟨q, f, r, s1, s2, hq, hf⟩ := ih1 h
      exact ⟨0 :: q, f, r, s1, s2, hq, hf⟩
    · obtain ⟨q, f, r, s1, s2, hq, hf⟩ := ih2 h
      exact ⟨1 :: q, f, r, s1, s2, hq, hf⟩
  | while_ k e s ih =>
    intro h; exfalso; revert h
    simp only [Stmt.info, Stmt.analyse]
    split <;> simp
  | doWhile s e ih =>
    intro h; obtain ⟨q, f, r, s1, s2, hq, hf⟩ := ih (makeConditional_error _ h)
    exact ⟨0 :: q, f, r, s1, s2, hq, hf⟩
  | for_ t s ih =>
    intro h
    have : s.info.exit = .error := by
      revert h
      simp only [Stmt.info, Stmt.analyse]
      split
      · simp
      · exact makeConditional_error _
    obtain ⟨q, f, r, s1, s2, hq, hf⟩ := ih this
    exact ⟨0 :: q, f, r, s1, s2, hq, hf⟩
  | switch_ a e s ih =>
    intro h; exfalso; revert h
    simp only [Stmt.info, Stmt.analyse]
    split
    · simp
    · exact expr_not_error e
  | _ => intro h; simp [Stmt.info, Stmt.analyse] at h

end Splint.Control
