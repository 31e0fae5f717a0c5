import Verif.Proofs.MetaState
/-!
# C138: transfers of user-defined states
-/
namespace Splint
namespace MetaState

open States

variable {decls : Decls} {infos : Infos}

theorem fit_of_valid {s : Refs} (hV : Valid decls s) {f t : Nat} {ft : VTab} (hf : s f = some ft)
    (k : String) (hk : k ∈ ft.keys) : Fit decls f t k (fun r => value s r k) := by
  have hl := value_of_look (look_of_mem hf hk)
  obtain ⟨d, hd, hv⟩ := hV f k _ hl
  refine ⟨d, _, hd, hl, hv, fun tv htv => ?_⟩
  obtain ⟨d', hd', hv'⟩ := hV t k tv htv
  rw [hd] at hd'
  rw [Option.some.inj hd']
  exact hv'

theorem mem_keys_of_value {s : Refs} {f : Nat} {ft : VTab} (hf : s f = some ft) {k : String} {v : Int}
    (h : value s f k = some v) : k ∈ ft.keys := by
  by_contra hk
  unfold value at h
  rw [look_none_of_not_mem hf hk] at h
  cases h

/-- The transfers that are reported: those of the names that both have where the declaration has an error. -/
def wrongKeys (decls : Decls) (s : Refs) (f t : Nat) (ks : List String) : List String :=
  ks.filter fun k =>
    match decls k, value s f k, value s t k with
    | some d, some fv, some tv => decide (Wrong d fv tv)
    | _, _, _ => false

theorem flatMap_transferR (decls : Decls) (s : Refs) (f t loc : Nat) (ks : List String) :
    (ks.flatMap fun k => transferR decls f t loc k (fun q => value s q k)) =
      (wrongKeys decls s f t ks).map fun k => (⟨.transfer, f, k, loc⟩ : Report) := by
  induction ks with
  | nil => rfl
  | cons k ks ih =>
    rw [List.flatMap_cons, ih]
    unfold wrongKeys
    rw [List.filter_cons]
    unfold transferR
    cases hd : decls k with
    | none => simp
    | some d =>
      cases hf : value s f k with
      | none => simp [hf]
      | some fv =>
        cases ht : value s t k with
        | none => simp [hf, ht]
        | some tv =>
          by_cases hw : Wrong d fv tv <;> simp [hf, ht, hw]

theorem flatMap_leftR (decls : Decls) (s : Refs) (null : Bool) (f t loc : Nat) (ks : List String) :
    (ks.flatMap fun k => leftR decls null f t loc k (fun q => value s q k)) =
      if null then [] else (wrongKeys decls s f t ks).map fun k => (⟨.inconsistent, f, k, loc⟩ : Report) := by
  induction ks with
  | nil => cases null <;> rfl
  | cons k ks ih =>
    rw [List.flatMap_cons, ih]
    unfold wrongKeys
    rw [List.filter_cons]
    unfold leftR
    cases null with
    | true =>
      cases hd : decls k with
      | none => simp
      | some d =>
        cases hf : value s f k with
        | none => simp [hf]
        | some fv => cases ht : value s t k <;> simp [hf, ht]
    | false =>
      cases hd : decls k with
      | none => simp
      | some d =>
        cases hf : value s f k with
        | none => simp [hf]
        | some fv =>
          cases ht : value s t k with
          | none => simp [hf, ht]
          | some tv =>
            by_cases hw : Wrong d fv tv <;> simp [hf, ht, hw]

/-- **C138, transfers**: a value that is passed, returned, or assigned to storage that is not a local variable.  The
transfers for which the declarations have an error are reported, each once and no others.  The source is then in the
state that the declaration says, it stays as it is after a report, and is in no state after it was returned.  All else
stays as it is. -/
theorem C138_transfer (hR : Read decls infos) (kind : Kind) (lcl : Bool) (f t loc : Nat)
    (hk : ¬ (kind = .doAssign ∧ lcl = true)) (s : St) (hV : Valid decls s.refs) (hS : Simple s.refs)
    (ft tt : VTab) (hf : s.refs f = some ft) (ht : s.refs t = some tt) :
    ∃ s', transfer infos kind lcl f t loc s = some s' ∧
      s'.reports = s.reports ++ (wrongKeys decls s.refs f t ft.keys).map (fun k => ⟨.transfer, f, k, loc⟩) ∧
      (∀ k d fv tv, decls k = some d → value s.refs f k = some fv → value s.refs t k = some tv →
        value s'.refs f k = some (sourceAfter d (decide (kind = .fcnReturn)) fv tv)) ∧
      (∀ r k, r ≠ f ∨ value s.refs t k = none → value s'.refs r k = value s.refs r k) := by
  obtain ⟨s', e, g, rr⟩ := loop (fun s : St => s.refs) (fun s => s.reports) (transferStep infos kind lcl f t loc)
    (Fit decls f t) (transferG decls (decide (kind = .fcnReturn)) f t) (transferR decls f t loc)
    (fun s k h => transferStep_spec hR kind lcl f t loc hk s k h) ft.keys (hS f ft hf) s
    (fun k hk => fit_of_valid hV hf k hk)
  refine ⟨s', by simp only [transfer, hf, ht]; exact e, ?_, ?_, ?_⟩
  · rw [rr, flatMap_transferR]
  · intro k d fv tv hd h1 h2
    rw [g, if_pos (mem_keys_of_value hf h1)]
    simp [transferG, hd, h1, h2]
  · intro r k h
    rw [g]
    split_ifs with hm
    · unfold transferG
      cases hd : decls k with
      | none => rfl
      | some d =>
        cases h1 : value s.refs f k with
        | none => simp [h1]
        | some fv =>
          cases h2 : value s.refs t k with
          | none => simp [h1, h2]
          | some tv =>
            rcases h with h | h
            · simp [h, h1, h2]
            · rw [h2] at h; cases h
    · rfl

/-- **C138, assignments to local variables**: nothing is reported, and the variable takes over the states of the value,
except those that are unknown after an error. -/
theorem C138_assign_local (hR : Read decls infos) (f t loc : Nat) (s : St) (hV : Valid decls s.refs)
    (hS : Simple s.refs) (ft tt : VTab) (hf : s.refs f = some ft) (ht : s.refs t = some tt) :
    ∃ s', transfer infos .doAssign true f t loc s = some s' ∧ s'.reports = s.reports ∧
      (∀ k fv tv, value s.refs f k = some fv → value s.refs t k = some tv →
        value s'.refs t k = some (if fv = -1 then tv else fv)) ∧
      (∀ r k, r ≠ t ∨ value s.refs f k = none → value s'.refs r k = value s.refs r k) := by
  obtain ⟨s', e, g, rr⟩ := loop (fun s : St => s.refs) (fun s => s.reports) (transferStep infos .doAssign true f t loc)
    (Fit decls f t) (localG decls f t) (fun _ _ => ([] : List Report))
    (fun s k h => localStep_spec hR f t loc s k h) ft.keys (hS f ft hf) s
    (fun k hk => fit_of_valid hV hf k hk)
  refine ⟨s', by simp only [transfer, hf, ht]; exact e, ?_, ?_, ?_⟩
  · rw [rr]; simp
  · intro k fv tv h1 h2
    rw [g, if_pos (mem_keys_of_value hf h1)]
    obtain ⟨d, hd, _⟩ := hV f k fv h1
    simp [localG, hd, h1, h2]
  · intro r k h
    rw [g]
    split_ifs with hm
    · unfold localG
      cases hd : decls k with
      | none => rfl
      | some d =>
        cases h1 : value s.refs f k with
        | none => simp [h1]
        | some fv =>
          cases h2 : value s.refs t k with
          | none => simp [h1, h2]
          | some tv =>
            rcases h with h | h
            · simp [h, h1, h2]
            · rw [h1] at h; cases h
    · rfl

/-- A value without table, or a target without, is not checked. -/
theorem C138_no_table (kind : Kind) (b : Bool) (f t loc : Nat) (s : St) (h : s.refs f = none ∨ s.refs t = none) :
    transfer infos kind b f t loc s = some s ∧ consistent infos kind b f t loc s = some s := by
  unfold transfer consistent
  rcases h with h | h
  · simp [h]
  · rw [h]
    cases s.refs f <;> simp

/-- **C138, storage that is left behind** (globals and parts of parameters when a function returns, globals at a call):
the same, except that nothing is said about null pointers, and that a state is unknown after a report. -/
theorem C138_left (hR : Read decls infos) (kind : Kind) (null : Bool) (f t loc : Nat) (s : St)
    (hV : Valid decls s.refs) (hS : Simple s.refs) (ft tt : VTab) (hf : s.refs f = some ft) (ht : s.refs t = some tt)
    (hk : kind ≠ .leaveTrans ∨ null = true ∨ wrongKeys decls s.refs f t ft.keys = []) :
    ∃ s', consistent infos kind null f t loc s = some s' ∧
      s'.reports = s.reports ++
        (if null then [] else (wrongKeys decls s.refs f t ft.keys).map (fun k => ⟨.inconsistent, f, k, loc⟩)) ∧
      (∀ k d fv tv, null = false → decls k = some d → value s.refs f k = some fv → value s.refs t k = some tv →
        value s'.refs f k = some (leftAfter d fv tv)) ∧
      (∀ r k, r ≠ f ∨ null = true ∨ value s.refs t k = none → value s'.refs r k = value s.refs r k) := by
  have hnoR : kind ≠ .leaveTrans ∨ ∀ k ∈ ft.keys, leftR decls null f t loc k (fun q => value s.refs q k) = [] := by
    rcases hk with h | h | h
    · exact Or.inl h
    · right
      intro k hk
      have := flatMap_leftR decls s.refs null f t loc ft.keys
      rw [if_pos h] at this
      exact List.flatMap_eq_nil_iff.1 this k hk
    · right
      intro k hk
      have := flatMap_leftR decls s.refs null f t loc ft.keys
      rw [h] at this
      exact List.flatMap_eq_nil_iff.1 (this.trans (by split <;> rfl)) k hk
  obtain ⟨s', e, g, rr⟩ := loop (fun s : St => s.refs) (fun s => s.reports) (consistentStep infos kind null f t loc)
    (fun k col => Fit decls f t k col ∧ (kind ≠ .leaveTrans ∨ leftR decls null f t loc k col = []))
    (leftG decls null f t) (leftR decls null f t loc)
    (fun s k h => consistentStep_spec hR kind null f t loc s k h.1 h.2) ft.keys (hS f ft hf) s
    (fun k hk => ⟨fit_of_valid hV hf k hk, by
      rcases hnoR with h | h
      · exact Or.inl h
      · exact Or.inr (h k hk)⟩)
  refine ⟨s', by simp only [consistent, hf, ht]; exact e, ?_, ?_, ?_⟩
  · rw [rr, flatMap_leftR]
  · intro k d fv tv hn hd h1 h2
    rw [g, if_pos (mem_keys_of_value hf h1)]
    simp [leftG, hd, h1, h2, hn]
  · intro r k h
    rw [g]
    split_ifs with hm
    · unfold leftG
      cases hd : decls k with
      | none => rfl
      | some d =>
        cases h1 : value s.refs f k with
        | none => simp [h1]
        | some fv =>
          cases h2 : value s.refs t k with
          | none => simp [h1, h2]
          | some tv =>
            rcases h with h | h | h
            · simp [h, h1, h2]
            · simp [h, h1, h2]
            · rw [h2] at h; cases h
    · rfl

/-- **C138**: when the function is left with a wrong state, this is an internal bug, not a message. -/
theorem C138_leave_bug (hR : Read decls infos) (f t loc : Nat) (s : St)
    (hV : Valid decls s.refs) (hS : Simple s.refs) (ft tt : VTab) (hf : s.refs f = some ft) (ht : s.refs t = some tt)
    (hw : wrongKeys decls s.refs f t ft.keys ≠ []) : consistent infos .leaveTrans false f t loc s = none := by
  have key : ∀ (ks : List String) (s : St), ks.Nodup →
      (∀ k ∈ ks, Fit decls f t k (fun q => value s.refs q k)) → wrongKeys decls s.refs f t ks ≠ [] →
      ks.foldlM (consistentStep infos .leaveTrans false f t loc) s = none := by
    intro ks
    induction ks with
    | nil => intro s _ _ h; exact absurd rfl h
    | cons k ks ih =>
      intro s hnd hP hne
      obtain ⟨hk, hnd⟩ := List.nodup_cons.1 hnd
      have hPk := hP k (by simp)
      by_cases hr : leftR decls false f t loc k (fun q => value s.refs q k) = []
      · obtain ⟨s1, e1, g1, r1⟩ := consistentStep_spec hR .leaveTrans false f t loc s k hPk (Or.inr hr)
        have hcol : ∀ x, x ≠ k → ∀ q, value s1.refs q x = value s.refs q x := by
          intro x hx q; rw [g1, if_neg hx]
        have : wrongKeys decls s1.refs f t ks = wrongKeys decls s.refs f t ks := by
          unfold wrongKeys
          apply List.filter_congr
          intro x hx
          have hxk : x ≠ k := fun h => hk (h ▸ hx)
          rw [hcol x hxk, hcol x hxk]
        rw [List.foldlM_cons, e1]
        refine ih s1 hnd ?_ ?_
        · intro x hx
          have hxk : x ≠ k := fun h => hk (h ▸ hx)
          have : (fun q => value s1.refs q x) = fun q => value s.refs q x := funext (hcol x hxk)
          rw [this]
          exact hP x (by simp [hx])
        · rw [this]
          intro h0
          apply hne
          have := flatMap_leftR decls s.refs false f t loc (k :: ks)
          rw [List.flatMap_cons, hr, flatMap_leftR, h0] at this
          simpa using this
      · obtain ⟨d, fv, hd, h1, hfv, htv⟩ := hPk
        have h1 : value s.refs f k = some fv := h1
        unfold leftR at hr
        rw [hd] at hr
        simp only [h1] at hr
        cases h2 : value s.refs t k with
        | none => rw [h2] at hr; exact absurd rfl hr
        | some tv =>
          rw [h2] at hr
          simp only [true_and] at hr
          have hW : Wrong d fv tv := by
            by_contra hc; rw [if_neg hc] at hr; exact hr rfl
          obtain ⟨fl, hfl, rfl⟩ := look_of_value h1
          obtain ⟨tl, htl, rfl⟩ := look_of_value h2
          obtain ⟨info, hi, htr, _, _⟩ := hR.says hd
          have hf' : 0 ≤ fl.v ∧ fl.v < d.vals.length := by rcases hfv with h | h; exact absurd h hW.1; exact h
          have ht' : 0 ≤ tl.v ∧ tl.v < d.vals.length := by rcases htv _ h2 with h | h; exact absurd h hW.2.1; exact h
          obtain ⟨e, he, hev⟩ := htr fl.v tl.v hf'.1 hf'.2 ht'.1 ht'.2
          have : consistentStep infos .leaveTrans false f t loc s k = none := by
            simp only [consistentStep, hfl, htl, Option.bind_some, hi, he, hev, hW.2.2, hW.1, hW.2.1]
            simp
          rw [List.foldlM_cons, this]; rfl
  simp only [consistent, hf, ht]
  exact key ft.keys s (hS f ft hf) (fun k hk => fit_of_valid hV hf k hk) hw

/-- **C138, lost references**: a variable that goes out of scope is reported once for each state that must not be lost,
unless it is null or undefined. -/
theorem C138_lost (hR : Read decls infos) (null undef : Bool) (r loc : Nat) (s : St)
    (hV : Valid decls s.refs) (hS : Simple s.refs) (t : VTab) (ht : s.refs r = some t) :
    ∃ s', lose infos null undef r loc s = some s' ∧
      (∀ q k, value s'.refs q k = value s.refs q k) ∧
      s'.reports = s.reports ++ (if null || undef then [] else
        (t.keys.filter fun k => match decls k, value s.refs r k with
          | some d, some v => decide (v ≠ -1) && d.losing v
          | _, _ => false).map fun k => ⟨.lost, r, k, loc⟩) := by
  unfold lose
  cases null with
  | true => exact ⟨s, rfl, fun _ _ => rfl, by simp⟩
  | false =>
    obtain ⟨s', e, g, rr⟩ := loop (fun s : St => s.refs) (fun s => s.reports) (loseStep infos undef r loc)
      (Fit decls r r) (fun _ col => col) (loseR decls undef r loc)
      (fun s k h => loseStep_spec hR undef r loc s k h) t.keys (hS r t ht) s
      (fun k hk => fit_of_valid hV ht k hk)
    simp only [Bool.false_eq_true, if_false, ht, Bool.false_or]
    refine ⟨s', e, fun q k => ?_, ?_⟩
    · rw [g]; split_ifs <;> rfl
    · rw [rr]
      congr 1
      generalize t.keys = ks
      induction ks with
      | nil => cases undef <;> rfl
      | cons k ks ih =>
        rw [List.flatMap_cons, ih, List.filter_cons]
        unfold loseR
        cases decls k with
        | none => simp
        | some d =>
          cases hv : value s.refs r k with
          | none => simp [hv]
          | some v =>
            cases undef with
            | true => simp [hv]
            | false => by_cases h1 : v = -1 <;> by_cases h2 : d.losing v = true <;> simp [hv, h1, h2]

/-! ### Sequences of checks -/

theorem simple_put {s : Refs} (h : Simple s) (r : Nat) (k : String) (v : Val) : Simple (put s r k v) := by
  intro q t ht
  unfold put at ht
  split_ifs at ht with hq
  · cases hs : s r with
    | none =>
      rw [hs] at ht
      simp only [Option.some.injEq] at ht
      rw [← ht]; simp
    | some u =>
      rw [hs] at ht
      simp only [Option.some.injEq] at ht
      rw [← ht]
      have := h r u hs
      by_cases hk : k ∈ u.keys
      · simpa [hk] using this
      · simp only [hk, if_false]
        rw [List.nodup_append]
        exact ⟨this, by simp, by intro a ha b hb; simp only [List.mem_singleton] at hb; rintro rfl; exact hk (hb ▸ ha)⟩
  · exact h q t ht

theorem foldlM_inv {σ : Type} (P : σ → Prop) (step : σ → String → Option σ)
    (h : ∀ s k s', step s k = some s' → P s → P s') (ks : List String) (s s' : σ)
    (e : ks.foldlM step s = some s') (hp : P s) : P s' := by
  induction ks generalizing s with
  | nil => rw [List.foldlM_nil] at e; exact Option.some.inj e ▸ hp
  | cons k ks ih =>
    rw [List.foldlM_cons] at e
    cases h1 : step s k with
    | none => rw [h1] at e; cases e
    | some s1 => rw [h1] at e; exact ih s1 e (h s k s1 h1 hp)

theorem transfer_simple (kind : Kind) (lcl : Bool) (f t loc : Nat) (s s' : St)
    (e : transfer infos kind lcl f t loc s = some s') (h : Simple s.refs) : Simple s'.refs := by
  unfold transfer at e
  cases h1 : s.refs f with
  | none => rw [h1] at e; exact Option.some.inj e ▸ h
  | some ft =>
    cases h2 : s.refs t with
    | none => rw [h1, h2] at e; exact Option.some.inj e ▸ h
    | some tt =>
      rw [h1, h2] at e
      refine foldlM_inv (fun s => Simple s.refs) _ ?_ ft.keys s s' e h
      intro s k s' hs hp
      unfold transferStep at hs
      obtain ⟨fv, _, hs⟩ := Option.bind_eq_some_iff.1 hs
      split at hs
      · exact Option.some.inj hs ▸ hp
      · obtain ⟨info, _, hs⟩ := Option.bind_eq_some_iff.1 hs
        split_ifs at hs <;> first
          | exact Option.some.inj hs ▸ hp
          | exact Option.some.inj hs ▸ simple_put hp _ _ _
          | (obtain ⟨e, _, hs⟩ := Option.bind_eq_some_iff.1 hs
             first
              | exact Option.some.inj hs ▸ simple_put hp _ _ _
              | split_ifs at hs
             all_goals first
              | exact Option.some.inj hs ▸ hp
              | exact Option.some.inj hs ▸ simple_put hp _ _ _)

theorem consistent_simple (kind : Kind) (null : Bool) (f t loc : Nat) (s s' : St)
    (e : consistent infos kind null f t loc s = some s') (h : Simple s.refs) : Simple s'.refs := by
  unfold consistent at e
  cases h1 : s.refs f with
  | none => rw [h1] at e; exact Option.some.inj e ▸ h
  | some ft =>
    cases h2 : s.refs t with
    | none => rw [h1, h2] at e; exact Option.some.inj e ▸ h
    | some tt =>
      rw [h1, h2] at e
      refine foldlM_inv (fun s => Simple s.refs) _ ?_ ft.keys s s' e h
      intro s k s' hs hp
      unfold consistentStep at hs
      obtain ⟨fv, _, hs⟩ := Option.bind_eq_some_iff.1 hs
      split at hs
      · exact Option.some.inj hs ▸ hp
      · obtain ⟨info, _, hs⟩ := Option.bind_eq_some_iff.1 hs
        split_ifs at hs <;> first
          | exact Option.some.inj hs ▸ hp
          | exact Option.some.inj hs ▸ simple_put hp _ _ _
          | (obtain ⟨e, _, hs⟩ := Option.bind_eq_some_iff.1 hs
             first
              | exact Option.some.inj hs ▸ simple_put hp _ _ _
              | split_ifs at hs
             all_goals first
              | exact Option.some.inj hs ▸ hp
              | exact Option.some.inj hs ▸ simple_put hp _ _ _)

theorem lose_simple (null undef : Bool) (r loc : Nat) (s s' : St)
    (e : lose infos null undef r loc s = some s') (h : Simple s.refs) : Simple s'.refs := by
  unfold lose at e
  split_ifs at e with hn
  · exact Option.some.inj e ▸ h
  · cases h1 : s.refs r with
    | none => rw [h1] at e; exact Option.some.inj e ▸ h
    | some ft =>
      rw [h1] at e
      refine foldlM_inv (fun s => Simple s.refs) _ ?_ ft.keys s s' e h
      intro s k s' hs hp
      unfold loseStep at hs
      obtain ⟨fv, _, hs⟩ := Option.bind_eq_some_iff.1 hs
      obtain ⟨info, _, hs⟩ := Option.bind_eq_some_iff.1 hs
      split_ifs at hs
      · exact Option.some.inj hs ▸ hp
      · obtain ⟨e, _, hs⟩ := Option.bind_eq_some_iff.1 hs
        split_ifs at hs
        · exact Option.some.inj hs ▸ hp
        · exact Option.some.inj hs ▸ hp

theorem about_map (w : What) (f loc r : Nat) (k : String) (ks : List String) (hnd : ks.Nodup) :
    about r k (ks.map fun k => (⟨w, f, k, loc⟩ : Report)) = if r = f ∧ k ∈ ks then [⟨w, f, k, loc⟩] else [] := by
  induction ks with
  | nil => simp [about]
  | cons x ks ih =>
    obtain ⟨hx, hnd⟩ := List.nodup_cons.1 hnd
    have ih := ih hnd
    unfold about at ih ⊢
    rw [List.map_cons, List.filter_cons, ih]
    by_cases hr : r = f
    · subst hr
      by_cases hk : k = x
      · subst hk; simp [hx]
      · have hk' : ¬ x = k := fun h => hk h.symm
        simp [hk, hk']
    · have hr' : ¬ f = r := fun h => hr h.symm
      simp [hr, hr']

theorem wrongKeys_nodup {s : Refs} {f t : Nat} {ks : List String} (h : ks.Nodup) :
    (wrongKeys decls s f t ks).Nodup := List.Pairwise.filter _ h

theorem mem_wrongKeys {s : Refs} {f t : Nat} {ks : List String} {k : String}
    (h : k ∈ wrongKeys decls s f t ks) : ∃ d fv tv, decls k = some d ∧ value s f k = some fv ∧ value s t k = some tv ∧
      Wrong d fv tv := by
  unfold wrongKeys at h
  have := (List.mem_filter.1 h).2
  cases hd : decls k with
  | none => rw [hd] at this; simp at this
  | some d =>
    cases h1 : value s f k with
    | none => rw [hd, h1] at this; simp at this
    | some fv =>
      cases h2 : value s t k with
      | none => rw [hd, h1, h2] at this; simp at this
      | some tv =>
        rw [hd, h1, h2] at this
        exact ⟨d, fv, tv, rfl, rfl, rfl, by simpa using this⟩

theorem sourceAfter_isValue (d : Decl) (b : Bool) (f t : Int) (h : IsValue d f) : IsValue d (sourceAfter d b f t) := by
  unfold sourceAfter
  split_ifs with h1 h2
  · exact h
  · exact Or.inl rfl
  · rcases h with h | h
    · exact absurd (Or.inl h) h1
    · exact transfer_isValue d f t h.1 h.2

theorem leftAfter_isValue (d : Decl) (f t : Int) (h : IsValue d f) : IsValue d (leftAfter d f t) := by
  unfold leftAfter
  split_ifs with h1
  · exact h
  · rcases h with h | h
    · exact absurd (Or.inl h) h1
    · exact transfer_isValue d f t h.1 h.2

/-- the facts about one check that the theorems about sequences need -/
structure Sound (decls : Decls) (op : Op) (s s' : St) : Prop where
  valid : Valid decls s'.refs
  simple : Simple s'.refs
  /-- what it reports -/
  reports : ∃ l, s'.reports = s.reports ++ l ∧ ∀ r k,
    about r k l = [] ∨ ∃ x, about r k l = [x] ∧ value s.refs r k ≠ some (-1) ∧
      (x.what = .inconsistent → value s'.refs r k = some (-1))
  /-- an unknown state stays unknown -/
  unknown : ∀ r k, ¬ op.assigns r → value s.refs r k = some (-1) → value s'.refs r k = some (-1)

theorem sound_refl (op : Op) (s : St) (hV : Valid decls s.refs) (hS : Simple s.refs) : Sound decls op s s :=
  ⟨hV, hS, ⟨[], by simp, fun _ _ => Or.inl rfl⟩, fun _ _ _ h => h⟩

theorem transfer_sound (hR : Read decls infos) (kind : Kind) (lcl : Bool) (f t loc : Nat) (s : St)
    (hV : Valid decls s.refs) (hS : Simple s.refs) :
    ∃ s', transfer infos kind lcl f t loc s = some s' ∧ Sound decls (.transfer kind lcl f t loc) s s' := by
  cases h1 : s.refs f with
  | none => exact ⟨s, (C138_no_table kind lcl f t loc s (Or.inl h1)).1, sound_refl _ s hV hS⟩
  | some ft =>
  cases h2 : s.refs t with
  | none => exact ⟨s, (C138_no_table kind lcl f t loc s (Or.inr h2)).1, sound_refl _ s hV hS⟩
  | some tt =>
  by_cases hk : kind = .doAssign ∧ lcl = true
  · obtain ⟨rfl, rfl⟩ := hk
    obtain ⟨s', e, hrep, hval, hrest⟩ := C138_assign_local hR f t loc s hV hS ft tt h1 h2
    refine ⟨s', e, ?_, transfer_simple _ _ _ _ _ _ _ e hS, ⟨[], by simpa using hrep, fun _ _ => Or.inl rfl⟩, ?_⟩
    · intro r k v hv
      by_cases hr : r ≠ t ∨ value s.refs f k = none
      · rw [hrest r k hr] at hv; exact hV r k v hv
      · push Not at hr
        obtain ⟨rfl, hf⟩ := hr
        obtain ⟨fv, hf⟩ := Option.ne_none_iff_exists'.1 hf
        cases ht : value s.refs r k with
        | none =>
          obtain ⟨d, hd, hvd⟩ := hV f k fv hf
          exfalso
          -- the loop leaves names alone that the target does not have
          have hl := look_none ht
          obtain ⟨s2, e2, g2, _⟩ := loop (fun s : St => s.refs) (fun s => s.reports)
            (transferStep infos .doAssign true f r loc) (Fit decls f r) (localG decls f r)
            (fun _ _ => ([] : List Report)) (fun s k h => localStep_spec hR f r loc s k h) ft.keys (hS f ft h1) s
            (fun k hk => fit_of_valid hV h1 k hk)
          have : s2 = s' := by
            have e' := e
            simp only [transfer, h1, h2] at e'
            rw [e2] at e'; exact Option.some.inj e'
          subst this
          have := g2 r k
          rw [if_pos (mem_keys_of_value h1 hf)] at this
          simp only [localG, hd, hf, ht] at this
          rw [this] at hv; cases hv
        | some tv =>
          rw [hval k fv tv hf ht] at hv
          have hv := Option.some.inj hv
          obtain ⟨d, hd, hvd⟩ := hV f k fv hf
          obtain ⟨d', hd', hvd'⟩ := hV r k tv ht
          rw [hd] at hd'
          have := Option.some.inj hd'; subst this
          refine ⟨d, hd, ?_⟩
          rw [← hv]; split_ifs
          · exact hvd'
          · exact hvd
    · intro r k ha hv
      have : r ≠ t := fun h => ha ⟨rfl, rfl, h.symm⟩
      rw [hrest r k (Or.inl this)]; exact hv
  · obtain ⟨s', e, hrep, hval, hrest⟩ := C138_transfer hR kind lcl f t loc hk s hV hS ft tt h1 h2
    refine ⟨s', e, ?_, transfer_simple _ _ _ _ _ _ _ e hS, ⟨_, hrep, ?_⟩, ?_⟩
    · intro r k v hv
      by_cases hr : r ≠ f ∨ value s.refs t k = none
      · rw [hrest r k hr] at hv; exact hV r k v hv
      · push Not at hr
        obtain ⟨rfl, ht⟩ := hr
        obtain ⟨tv, ht⟩ := Option.ne_none_iff_exists'.1 ht
        obtain ⟨d, hd, hvd⟩ := hV t k tv ht
        cases hf : value s.refs r k with
        | none =>
          exfalso
          obtain ⟨s2, e2, g2, _⟩ := loop (fun s : St => s.refs) (fun s => s.reports)
            (transferStep infos kind lcl r t loc) (Fit decls r t) (transferG decls (decide (kind = .fcnReturn)) r t)
            (transferR decls r t loc) (fun s k h => transferStep_spec hR kind lcl r t loc hk s k h) ft.keys
            (hS r ft h1) s (fun k hk => fit_of_valid hV h1 k hk)
          have : s2 = s' := by
            have e' := e
            simp only [transfer, h1, h2] at e'
            rw [e2] at e'; exact Option.some.inj e'
          subst this
          have := g2 r k
          simp only [transferG, hd, hf] at this
          rw [this] at hv; split_ifs at hv
        | some fv =>
          rw [hval k d fv tv hd hf ht] at hv
          obtain ⟨d', hd', hvd'⟩ := hV r k fv hf
          rw [hd] at hd'
          have := Option.some.inj hd'; subst this
          exact ⟨d, hd, Option.some.inj hv ▸ sourceAfter_isValue d _ fv tv hvd'⟩
    · intro r k
      rw [about_map _ _ _ _ _ _ (wrongKeys_nodup (hS f ft h1))]
      split_ifs with h
      · right
        obtain ⟨d, fv, tv, hd, hf, ht, hw⟩ := mem_wrongKeys h.2
        refine ⟨_, rfl, ?_, fun h => by cases h⟩
        rw [h.1, hf]
        intro h; exact hw.1 (Option.some.inj h)
      · left; rfl
    · intro r k _ hv
      by_cases hr : r ≠ f ∨ value s.refs t k = none
      · rw [hrest r k hr]; exact hv
      · push Not at hr
        obtain ⟨rfl, ht⟩ := hr
        obtain ⟨tv, ht⟩ := Option.ne_none_iff_exists'.1 ht
        obtain ⟨d, hd, _⟩ := hV t k tv ht
        rw [hval k d (-1) tv hd hv ht]
        simp [sourceAfter]

theorem left_sound (hR : Read decls infos) (kind : Kind) (null : Bool) (f t loc : Nat) (s : St)
    (hV : Valid decls s.refs) (hS : Simple s.refs) (hk : kind ≠ .leaveTrans) :
    ∃ s', consistent infos kind null f t loc s = some s' ∧ Sound decls (.left kind null f t loc) s s' := by
  cases h1 : s.refs f with
  | none => exact ⟨s, (C138_no_table kind null f t loc s (Or.inl h1)).2, sound_refl _ s hV hS⟩
  | some ft =>
  cases h2 : s.refs t with
  | none => exact ⟨s, (C138_no_table kind null f t loc s (Or.inr h2)).2, sound_refl _ s hV hS⟩
  | some tt =>
  obtain ⟨s', e, hrep, hval, hrest⟩ := C138_left hR kind null f t loc s hV hS ft tt h1 h2 (Or.inl hk)
  have hcase : ∀ r k, (r ≠ f ∨ null = true ∨ value s.refs t k = none ∨ value s.refs f k = none →
      value s'.refs r k = value s.refs r k) := by
    intro r k h
    rcases h with h | h | h | h
    · exact hrest r k (Or.inl h)
    · exact hrest r k (Or.inr (Or.inl h))
    · exact hrest r k (Or.inr (Or.inr h))
    · obtain ⟨s2, e2, g2, _⟩ := loop (fun s : St => s.refs) (fun s => s.reports)
        (consistentStep infos kind null f t loc) (Fit decls f t) (leftG decls null f t)
        (leftR decls null f t loc)
        (fun s k h => consistentStep_spec hR kind null f t loc s k h (Or.inl hk)) ft.keys
        (hS f ft h1) s (fun k hk => fit_of_valid hV h1 k hk)
      have : s2 = s' := by
        have e' := e
        simp only [consistent, h1, h2] at e'
        rw [e2] at e'; exact Option.some.inj e'
      subst this
      rw [g2, if_neg]
      intro hm
      rw [value_of_look (look_of_mem h1 hm)] at h; cases h
  refine ⟨s', e, ?_, consistent_simple _ _ _ _ _ _ _ e hS, ⟨_, hrep, ?_⟩, ?_⟩
  · intro r k v hv
    by_cases hr : r ≠ f ∨ null = true ∨ value s.refs t k = none ∨ value s.refs f k = none
    · rw [hcase r k hr] at hv; exact hV r k v hv
    · push Not at hr
      obtain ⟨rfl, hn, ht, hf⟩ := hr
      obtain ⟨tv, ht⟩ := Option.ne_none_iff_exists'.1 ht
      obtain ⟨fv, hf⟩ := Option.ne_none_iff_exists'.1 hf
      obtain ⟨d, hd, hvd⟩ := hV r k fv hf
      rw [hval k d fv tv (by simpa using hn) hd hf ht] at hv
      exact ⟨d, hd, Option.some.inj hv ▸ leftAfter_isValue d fv tv hvd⟩
  · intro r k
    cases hn : null with
    | true => left; rfl
    | false =>
      simp only [Bool.false_eq_true, if_false]
      rw [about_map _ _ _ _ _ _ (wrongKeys_nodup (hS f ft h1))]
      split_ifs with h
      · right
        obtain ⟨d, fv, tv, hd, hf, ht, hw⟩ := mem_wrongKeys h.2
        refine ⟨_, rfl, ?_, fun _ => ?_⟩
        · rw [h.1, hf]
          intro h; exact hw.1 (Option.some.inj h)
        · rw [h.1, hval k d fv tv hn hd hf ht]
          simp [leftAfter, hw.1, hw.2.1, hw.2.2]
      · left; rfl
  · intro r k _ hv
    by_cases hr : r ≠ f ∨ null = true ∨ value s.refs t k = none ∨ value s.refs f k = none
    · rw [hcase r k hr]; exact hv
    · push Not at hr
      obtain ⟨rfl, hn, ht, hf⟩ := hr
      obtain ⟨tv, ht⟩ := Option.ne_none_iff_exists'.1 ht
      obtain ⟨d, hd, hvd⟩ := hV r k (-1) hv
      rw [hval k d (-1) tv (by simpa using hn) hd hv ht]
      simp [leftAfter]

theorem lost_sound (hR : Read decls infos) (null undef : Bool) (r loc : Nat) (s : St)
    (hV : Valid decls s.refs) (hS : Simple s.refs) :
    ∃ s', lose infos null undef r loc s = some s' ∧ Sound decls (.lost null undef r loc) s s' := by
  cases h1 : s.refs r with
  | none =>
    refine ⟨s, ?_, sound_refl _ s hV hS⟩
    unfold lose; rw [h1]; cases null <;> rfl
  | some t =>
    obtain ⟨s', e, hval, hrep⟩ := C138_lost hR null undef r loc s hV hS t h1
    refine ⟨s', e, fun q k v hv => hV q k v (by rw [← hval]; exact hv), lose_simple _ _ _ _ _ _ e hS, ⟨_, hrep, ?_⟩,
      fun q k _ hv => by rw [hval]; exact hv⟩
    intro q k
    split_ifs with hn
    · left; rfl
    · rw [about_map _ _ _ _ _ _ (List.Pairwise.filter _ (hS r t h1))]
      split_ifs with h
      · right
        refine ⟨_, rfl, ?_, fun h => by cases h⟩
        intro hv
        have hm := (List.mem_filter.1 h.2).2
        rw [← h.1, hv] at hm
        cases hd : decls k <;> rw [hd] at hm <;> simp at hm
      · left; rfl

/-- a check that is not the one of a function that is left -/
def Op.fine : Op → Prop
  | .left kind _ _ _ _ => kind ≠ .leaveTrans
  | _ => True

theorem op_sound (hR : Read decls infos) (op : Op) (hop : op.fine) (s : St)
    (hV : Valid decls s.refs) (hS : Simple s.refs) : ∃ s', op.run infos s = some s' ∧ Sound decls op s s' := by
  cases op with
  | transfer kind lcl f t loc => exact transfer_sound hR kind lcl f t loc s hV hS
  | left kind null f t loc => exact left_sound hR kind null f t loc s hV hS hop
  | lost null undef r loc => exact lost_sound hR null undef r loc s hV hS

/-- **C138, sequences**: with values that are declared no sequence of checks ends in an internal bug, or reads outside a
table, and the values remain declared ones. -/
theorem C138_runs (hR : Read decls infos) (ops : List Op) (hops : ∀ op ∈ ops, op.fine) (s : St)
    (hV : Valid decls s.refs) (hS : Simple s.refs) :
    ∃ s', runs infos ops s = some s' ∧ Valid decls s'.refs ∧ Simple s'.refs := by
  unfold runs
  induction ops generalizing s with
  | nil => exact ⟨s, rfl, hV, hS⟩
  | cons op ops ih =>
    obtain ⟨s1, e1, h1⟩ := op_sound hR op (hops op (by simp)) s hV hS
    obtain ⟨s2, e2, h2⟩ := ih (fun o ho => hops o (by simp [ho])) s1 h1.valid h1.simple
    exact ⟨s2, by simp [List.foldlM_cons, e1, e2], h2⟩

/-- **C138**: nothing is reported about a state that is unknown, and it stays unknown until the variable is assigned. -/
theorem C138_unknown (hR : Read decls infos) (ops : List Op) (hops : ∀ op ∈ ops, op.fine) (s s' : St)
    (hV : Valid decls s.refs) (hS : Simple s.refs) (e : runs infos ops s = some s') (r : Nat) (k : String)
    (ha : ∀ op ∈ ops, ¬ op.assigns r) (hv : value s.refs r k = some (-1)) :
    value s'.refs r k = some (-1) ∧ ∃ l, s'.reports = s.reports ++ l ∧ about r k l = [] := by
  unfold runs at e
  induction ops generalizing s with
  | nil =>
    rw [List.foldlM_nil] at e
    have := Option.some.inj e; subst this
    exact ⟨hv, [], by simp, rfl⟩
  | cons op ops ih =>
    obtain ⟨s1, e1, h1⟩ := op_sound hR op (hops op (by simp)) s hV hS
    rw [List.foldlM_cons, e1] at e
    have hv1 := h1.unknown r k (ha op (by simp)) hv
    obtain ⟨hv2, l2, hl2, ha2⟩ := ih (fun o ho => hops o (by simp [ho])) s1 h1.valid h1.simple
      e (fun o ho => ha o (by simp [ho])) hv1
    obtain ⟨l1, hl1, ha1⟩ := h1.reports
    refine ⟨hv2, l1 ++ l2, by rw [hl2, hl1, List.append_assoc], ?_⟩
    rcases ha1 r k with h | ⟨x, _, hx, _⟩
    · unfold about at h ha2 ⊢
      rw [List.filter_append, h, ha2]; rfl
    · exact absurd hv hx

/-- **C138**: after the report that storage is left in a wrong state, nothing else is reported about this state of the
storage, by no sequence of checks, until it is assigned. -/
theorem C138_once (hR : Read decls infos) (ops : List Op) (hops : ∀ op ∈ ops, op.fine) (s s' : St)
    (hV : Valid decls s.refs) (hS : Simple s.refs) (e : runs infos ops s = some s') (r : Nat) (k : String)
    (ha : ∀ op ∈ ops, ¬ op.assigns r) :
    ∃ l, s'.reports = s.reports ++ l ∧ ∀ x ∈ (about r k l).dropLast, x.what ≠ .inconsistent := by
  unfold runs at e
  induction ops generalizing s with
  | nil =>
    rw [List.foldlM_nil] at e
    have := Option.some.inj e; subst this
    exact ⟨[], by simp, by simp [about]⟩
  | cons op ops ih =>
    obtain ⟨s1, e1, h1⟩ := op_sound hR op (hops op (by simp)) s hV hS
    rw [List.foldlM_cons, e1] at e
    obtain ⟨l1, hl1, ha1⟩ := h1.reports
    rcases ha1 r k with h | ⟨x, hx, _, hx2⟩
    · obtain ⟨l2, hl2, ha2⟩ := ih (fun o ho => hops o (by simp [ho])) s1 h1.valid h1.simple e
        (fun o ho => ha o (by simp [ho]))
      refine ⟨l1 ++ l2, by rw [hl2, hl1, List.append_assoc], ?_⟩
      unfold about at h ha2 ⊢
      rw [List.filter_append, h, List.nil_append]
      exact ha2
    · by_cases hw : x.what = .inconsistent
      · obtain ⟨_, l2, hl2, ha2⟩ := C138_unknown hR ops (fun o ho => hops o (by simp [ho])) s1 s' h1.valid h1.simple e r k
          (fun o ho => ha o (by simp [ho])) (hx2 hw)
        refine ⟨l1 ++ l2, by rw [hl2, hl1, List.append_assoc], ?_⟩
        unfold about at hx ha2 ⊢
        rw [List.filter_append, hx, ha2]
        simp
      · obtain ⟨l2, hl2, ha2⟩ := ih (fun o ho => hops o (by simp [ho])) s1 h1.valid h1.simple e
          (fun o ho => ha o (by simp [ho]))
        refine ⟨l1 ++ l2, by rw [hl2, hl1, List.append_assoc], ?_⟩
        unfold about at hx ha2 ⊢
        rw [List.filter_append, hx]
        intro y hy
        cases hl : l2.filter (fun x => decide (x.ref = r ∧ x.key = k)) with
        | nil => rw [hl] at hy; simp at hy
        | cons z zs =>
          rw [hl] at hy ha2
          rw [List.singleton_append, List.dropLast_cons_of_ne_nil (by simp)] at hy
          rcases List.mem_cons.1 hy with rfl | hy
          · exact hw
          · exact ha2 y hy

/-- **C138**: a wrong transfer changes nothing about the state, so that it is reported each time. -/
theorem C138_wrong_transfer_repeats (hR : Read decls infos) (kind : Kind) (lcl : Bool) (f t loc : Nat)
    (hk : ¬ (kind = .doAssign ∧ lcl = true)) (s : St) (hV : Valid decls s.refs) (hS : Simple s.refs)
    (ft tt : VTab) (hf : s.refs f = some ft) (ht : s.refs t = some tt)
    (k : String) (hw : k ∈ wrongKeys decls s.refs f t ft.keys) :
    ∃ s', transfer infos kind lcl f t loc s = some s' ∧ value s'.refs f k = value s.refs f k ∧
      value s'.refs t k = value s.refs t k ∧
      about f k s'.reports = about f k s.reports ++ [⟨.transfer, f, k, loc⟩] := by
  obtain ⟨s', e, hrep, hval, hrest⟩ := C138_transfer hR kind lcl f t loc hk s hV hS ft tt hf ht
  obtain ⟨d, fv, tv, hd, h1, h2, hW⟩ := mem_wrongKeys hw
  have hsame : value s'.refs f k = value s.refs f k := by
    rw [hval k d fv tv hd h1 h2, h1]
    simp [sourceAfter, hW.2.2]
  refine ⟨s', e, hsame, ?_, ?_⟩
  · by_cases htf : t = f
    · rw [htf]; exact hsame
    · exact hrest t k (Or.inl htf)
  · have := about_map .transfer f loc f k _ (wrongKeys_nodup (decls := decls) (s := s.refs) (f := f) (t := t) (hS f ft hf))
    rw [if_pos ⟨rfl, hw⟩] at this
    unfold about at this ⊢
    rw [hrep, List.filter_append, this]

/-! ### Examples -/

/-- `attribute file: oneof open, closed; transfers closed as open ==> error; losereference open ==> error "must close";
merge open + closed ==> error` -/
def exDecl : Decl := ⟨["open", "closed"], [⟨"closed", "open", .error (some "not open")⟩], [⟨"open", some "must close"⟩], []⟩

def exDecls : Decls := fun k => if k = "file" then some exDecl else none

def exInfo : Info :=
  ⟨(transferTable exDecl.vals exDecl.transfers exDecl.loses).getD (create 0),
    (mergeTable exDecl.vals exDecl.merges).getD (create 0)⟩

def exInfos : Infos := fun k => if k = "file" then some exInfo else none

theorem exRead : Read exDecls exInfos := by
  intro k d hd
  unfold exDecls at hd
  split_ifs at hd with hk
  have := Option.some.inj hd; subst this
  refine ⟨exInfo, by simp [exInfos, hk], by decide +kernel, by decide +kernel, ?_⟩
  intro c hc; cases hc

/-- a reference 0 that is closed, one 1 that is open, and one 2 that is unknown -/
def exSt : St := ⟨fun r =>
  if r = 0 then some ⟨["file"], fun _ => ⟨1, 7⟩⟩
  else if r = 1 then some ⟨["file"], fun _ => ⟨0, 3⟩⟩
  else if r = 2 then some ⟨["file"], fun _ => ⟨-1, 5⟩⟩
  else none, []⟩

theorem exValid : Valid exDecls exSt.refs ∧ Simple exSt.refs := by
  have hcases : ∀ r t, exSt.refs r = some t → t.keys = ["file"] ∧
      ((t.val "file").v = 1 ∨ (t.val "file").v = 0 ∨ (t.val "file").v = -1) := by
    intro r t h
    unfold exSt at h
    simp only at h
    split_ifs at h <;> (have := Option.some.inj h; subst this; simp)
  constructor
  · intro r k v hv
    obtain ⟨x, hx, rfl⟩ := look_of_value hv
    unfold look at hx
    obtain ⟨t, ht, hx⟩ := Option.bind_eq_some_iff.1 hx
    obtain ⟨hk, hval⟩ := hcases r t ht
    split_ifs at hx with hm
    rw [hk] at hm
    simp only [List.mem_singleton] at hm
    subst hm
    have := Option.some.inj hx; subst this
    refine ⟨exDecl, rfl, ?_⟩
    unfold IsValue
    have hl : exDecl.vals.length = 2 := rfl
    rw [hl]
    omega
  · intro r t h
    rw [(hcases r t h).1]; simp

/-- passing the closed file where an open one is expected -/
example : wrongKeys exDecls exSt.refs 0 1 ["file"] = ["file"] ∧
    (transfer exInfos .fcnPass false 0 1 9 exSt).map (fun s => (s.reports, value s.refs 0 "file")) =
      some ([⟨.transfer, 0, "file", 9⟩], some 1) ∧
    (consistent exInfos .globReturn false 0 1 9 exSt).map (fun s => (s.reports, value s.refs 0 "file")) =
      some ([⟨.inconsistent, 0, "file", 9⟩], some (-1)) ∧
    (transfer exInfos .doAssign true 0 1 9 exSt).map (fun s => (s.reports, value s.refs 1 "file")) =
      some ([], some 1) ∧
    (transfer exInfos .fcnReturn false 1 0 9 exSt).map (fun s => (s.reports, value s.refs 1 "file")) =
      some ([], some (-1)) ∧
    (lose exInfos false false 1 9 exSt).map (fun s => s.reports) = some [⟨.lost, 1, "file", 9⟩] := by decide +kernel

/-- An attempt to use storage in a wrong state is reported once only. -/
def C138_full : Prop := ∀ (decls : Decls) (infos : Infos), Read decls infos → ∀ (ops : List Op) (s s' : St),
  Valid decls s.refs → Simple s.refs → runs infos ops s = some s' → ∀ (r : Nat) (k : String),
  (∀ op ∈ ops, ¬ op.assigns r) → ∃ l, s'.reports = s.reports ++ l ∧ (about r k l).length ≤ 1

theorem C138_full_is_false : ¬ C138_full := by
  intro h
  let ops : List Op := [.transfer .fcnPass false 0 1 9, .transfer .fcnPass false 0 1 10]
  have hrep : (runs exInfos ops exSt).map (fun s => s.reports) =
      some [⟨.transfer, 0, "file", 9⟩, ⟨.transfer, 0, "file", 10⟩] := by decide +kernel
  cases hr : runs exInfos ops exSt with
  | none => rw [hr] at hrep; cases hrep
  | some s' =>
    rw [hr] at hrep
    simp only [Option.map_some, Option.some.injEq] at hrep
    obtain ⟨l, hl, hlen⟩ := h exDecls exInfos exRead ops exSt s' exValid.1 exValid.2 hr 0 "file"
      (by intro op hop; simp only [ops, List.mem_cons, List.not_mem_nil, or_false] at hop
          rcases hop with rfl | rfl <;> simp [Op.assigns])
    rw [hrep] at hl
    have : exSt.reports = [] := rfl
    rw [this, List.nil_append] at hl
    rw [← hl] at hlen
    exact absurd hlen (by decide)

/-- **C138**: storage that is left behind in a wrong state, or lost, is reported once; a transfer to a wrong state once for
each transfer. -/
theorem C138_partial (hR : Read decls infos) (ops : List Op) (hops : ∀ op ∈ ops, op.fine) (s : St)
    (hV : Valid decls s.refs) (hS : Simple s.refs) (r : Nat) (k : String) (ha : ∀ op ∈ ops, ¬ op.assigns r) :
    ∃ s' l, runs infos ops s = some s' ∧ s'.reports = s.reports ++ l ∧
      ((about r k l).filter fun x => x.what = .inconsistent).length ≤ 1 := by
  obtain ⟨s', e, _⟩ := C138_runs hR ops hops s hV hS
  obtain ⟨l, hl, hd⟩ := C138_once hR ops hops s s' hV hS e r k ha
  refine ⟨s', l, e, hl, ?_⟩
  rcases List.eq_nil_or_concat (about r k l) with h | ⟨ys, y, h⟩
  · rw [h]; simp
  · rw [List.concat_eq_append] at h
    rw [h] at hd ⊢
    rw [List.dropLast_concat] at hd
    rw [List.filter_append]
    have : ys.filter (fun x => decide (x.what = What.inconsistent)) = [] := by
      rw [List.filter_eq_nil_iff]
      intro x hx
      simpa using hd x hx
    rw [this, List.nil_append]
    exact Nat.le_trans (List.length_filter_le _ _) (by simp)

end MetaState
end Splint
