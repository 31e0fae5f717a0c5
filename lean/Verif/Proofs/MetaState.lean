import Verif.Spec.MetaState
import Verif.Props.StateTable
/-! Lemmas about the checks of user-defined states. -/
namespace Splint.MetaState

open States

theorem look_put (s : Refs) (r q : Nat) (k x : String) (v : Val) :
    look (put s r k v) q x = if q = r ∧ x = k then some v else look s q x := by
  unfold look put
  by_cases hq : q = r
  · subst hq
    simp only [if_true, Option.bind_some]
    cases hs : s q with
    | none =>
      by_cases hx : x = k
      · simp [hx]
      · simp [hx]
    | some t =>
      by_cases hx : x = k
      · subst hx
        by_cases hm : x ∈ t.keys <;> simp [hm]
      · by_cases hm : k ∈ t.keys
        · simp [hm, hx]
        · simp [hm, hx]
  · simp [hq]

theorem value_put (s : Refs) (r q : Nat) (k x : String) (v : Val) :
    value (put s r k v) q x = if q = r ∧ x = k then some v.v else value s q x := by
  unfold value; rw [look_put]; split_ifs <;> rfl

theorem look_putAll (s : Refs) (r q : Nat) (as : List Nat) (k x : String) (v : Val) :
    look (putAll s r as k v) q x = if (q = r ∨ q ∈ as) ∧ x = k then some v else look s q x := by
  unfold putAll
  have key : ∀ (as : List Nat) (s : Refs), look (as.foldl (fun s a => put s a k v) s) q x =
      if q ∈ as ∧ x = k then some v else look s q x := by
    intro as
    induction as with
    | nil => intro s; simp
    | cons a as ih =>
      intro s
      rw [List.foldl_cons, ih, look_put]
      by_cases h1 : q ∈ as <;> by_cases h2 : q = a <;> by_cases h3 : x = k <;> simp [h1, h2, h3]
  rw [key, look_put]
  by_cases h1 : q ∈ as <;> by_cases h2 : q = r <;> by_cases h3 : x = k <;> simp [h1, h2, h3]

theorem value_putAll (s : Refs) (r q : Nat) (as : List Nat) (k x : String) (v : Val) :
    value (putAll s r as k v) q x = if (q = r ∨ q ∈ as) ∧ x = k then some v.v else value s q x := by
  unfold value; rw [look_putAll]; split_ifs <;> rfl

theorem look_of_mem {s : Refs} {r : Nat} {t : VTab} {k : String} (h : s r = some t) (hk : k ∈ t.keys) :
    look s r k = some (t.val k) := by unfold look; rw [h]; simp [hk]

theorem look_none_of_not_mem {s : Refs} {r : Nat} {t : VTab} {k : String} (h : s r = some t) (hk : k ∉ t.keys) :
    look s r k = none := by unfold look; rw [h]; simp [hk]

theorem value_of_look {s : Refs} {r : Nat} {k : String} {v : Val} (h : look s r k = some v) :
    value s r k = some v.v := by unfold value; rw [h]; rfl

/-! ### Tables -/

/-- an entry that a transfer clause may give -/
theorem transfersFor_value (vals : List String) (i j : Nat) (ts : List Transfer) (e : Entry)
    (h : e ∈ transfersFor vals i j ts) : e.value = -1 ∨ (0 ≤ e.value ∧ e.value < vals.length) := by
  unfold transfersFor at h
  obtain ⟨c, _, hc⟩ := List.mem_filterMap.1 h
  split_ifs at hc
  unfold meaning at hc
  cases ha : c.action with
  | value n =>
    rw [ha] at hc
    simp only [Option.map_eq_some_iff] at hc
    obtain ⟨p, hp, rfl⟩ := hc
    have := pos_lt hp
    right; simp only; omega
  | error m =>
    rw [ha] at hc
    simp only [Option.some.injEq] at hc
    left; rw [← hc]

theorem transfer_isValue (d : Decl) (i j : Int) (h0 : 0 ≤ i) (h1 : i < d.vals.length) : IsValue d (d.transfer i j) := by
  unfold Decl.transfer IsValue
  cases h : (transfersFor d.vals i.toNat j.toNat d.transfers).getLast? with
  | none => right; exact ⟨h0, h1⟩
  | some e => exact transfersFor_value _ _ _ _ _ (List.mem_of_getLast? h)

theorem merge_isValue (d : Decl) (i j : Int) (h0 : 0 ≤ i) (h1 : i < d.vals.length) : IsValue d (d.merge i j) := by
  unfold Decl.merge IsValue
  rcases C47_merge_closed d.vals d.merges i.toNat j.toNat (by omega) with h | ⟨k, hk, h⟩
  · left; exact h
  · right; rw [h]; omega

variable {decls : Decls} {infos : Infos}

/-- what the tables say -/
theorem Read.says (h : Read decls infos) {k : String} {d : Decl} (hd : decls k = some d) :
    ∃ info, infos k = some info ∧
      (∀ i j : Int, 0 ≤ i → i < d.vals.length → 0 ≤ j → j < d.vals.length →
        ∃ e, info.transfer.lookup i j = some e ∧ e.value = d.transfer i j) ∧
      (∀ i j : Int, 0 ≤ i → i < d.vals.length → 0 ≤ j → j < d.vals.length →
        ∃ e, info.merge.lookup i j = some e ∧ e.value = d.merge i j) ∧
      (∀ i : Int, 0 ≤ i → i < d.vals.length →
        ∃ e, info.transfer.lookupLose i = some e ∧ e.msg.isSome = d.losing i) := by
  obtain ⟨info, hi, ht, hm, hown⟩ := h k d hd
  have h40 := C40_transfers d.vals d.transfers d.loses
  have hgood : (∀ i j, i < d.vals.length → j < d.vals.length → noRedeclaration (transfersFor d.vals i j d.transfers)) ∧
      (∀ i, i < d.vals.length → ∀ m ∈ (losesFor d.vals i d.loses).dropLast, m = none) := by
    by_contra hc
    have := h40.2 hc
    rw [ht] at this; cases this
  obtain ⟨t, e1, hl, hlose⟩ := h40.1 hgood
  rw [ht] at e1
  have e1 := Option.some.inj e1
  subst e1
  obtain ⟨t, e2, hmerge⟩ := C47_merge_table d.vals d.merges hown
  rw [hm] at e2
  have e2 := Option.some.inj e2
  subst e2
  refine ⟨info, hi, ?_, ?_, ?_⟩
  · intro i j h1 h2 h3 h4
    have := hl i.toNat j.toNat (by omega) (by omega)
    rw [Int.toNat_of_nonneg h1, Int.toNat_of_nonneg h3] at this
    exact ⟨_, this, rfl⟩
  · intro i j h1 h2 h3 h4
    have := hmerge i.toNat j.toNat (by omega) (by omega)
    rw [Int.toNat_of_nonneg h1, Int.toNat_of_nonneg h3] at this
    exact ⟨_, this, rfl⟩
  · intro i h1 h2
    have := hlose i.toNat (by omega)
    rw [Int.toNat_of_nonneg h1] at this
    refine ⟨_, this, ?_⟩
    unfold Decl.losing
    cases (losesFor d.vals i.toNat d.loses).getLast? with
    | none => rfl
    | some m => cases m <;> rfl

/-! ### Loops -/

/-- a loop over names whose turns change, and depend on, the values of one name only -/
theorem loop {σ α : Type} (refs : σ → Refs) (reps : σ → List α) (step : σ → String → Option σ)
    (P : String → (Nat → Option Int) → Prop) (G : String → (Nat → Option Int) → Nat → Option Int)
    (R : String → (Nat → Option Int) → List α)
    (hstep : ∀ s k, P k (fun r => value (refs s) r k) → ∃ s', step s k = some s' ∧
      (∀ r x, value (refs s') r x = if x = k then G k (fun q => value (refs s) q k) r else value (refs s) r x) ∧
      reps s' = reps s ++ R k (fun q => value (refs s) q k))
    (ks : List String) (hnd : ks.Nodup) (s : σ) (hP : ∀ k ∈ ks, P k (fun r => value (refs s) r k)) :
    ∃ s', ks.foldlM step s = some s' ∧
      (∀ r x, value (refs s') r x = if x ∈ ks then G x (fun q => value (refs s) q x) r else value (refs s) r x) ∧
      reps s' = reps s ++ ks.flatMap fun k => R k (fun q => value (refs s) q k) := by
  induction ks generalizing s with
  | nil => exact ⟨s, rfl, by simp, by simp⟩
  | cons k ks ih =>
    obtain ⟨s1, e1, g1, r1⟩ := hstep s k (hP k (by simp))
    obtain ⟨hk, hnd⟩ := List.nodup_cons.1 hnd
    have hcol : ∀ x, x ≠ k → (fun q => value (refs s1) q x) = fun q => value (refs s) q x := by
      intro x hx; funext q; rw [g1, if_neg hx]
    obtain ⟨s2, e2, g2, r2⟩ := ih hnd s1 (by
      intro x hx
      rw [hcol x (fun h => hk (h ▸ hx))]
      exact hP x (by simp [hx]))
    refine ⟨s2, by simp [List.foldlM_cons, e1, e2], ?_, ?_⟩
    · intro r x
      rw [g2]
      by_cases hx : x ∈ ks
      · have hxk : x ≠ k := fun h => hk (h ▸ hx)
        rw [if_pos hx, if_pos (by simp [hx]), hcol x hxk]
      · rw [if_neg hx, g1]
        by_cases hxk : x = k
        · subst hxk; simp
        · rw [if_neg hxk, if_neg (by simp [hx, hxk])]
    · rw [r2, r1, List.append_assoc, List.flatMap_cons]
      congr 2
      apply List.flatMap_congr
      intro x hx
      rw [hcol x (fun h => hk (h ▸ hx))]

/-! ### The turns of the loops -/

/-- the values of one name -/
abbrev Col := Nat → Option Int

/-- there is a declared value for the source, and one for the target if it has any -/
def Fit (decls : Decls) (f t : Nat) (k : String) (col : Col) : Prop :=
  ∃ d fv, decls k = some d ∧ col f = some fv ∧ IsValue d fv ∧ ∀ tv, col t = some tv → IsValue d tv

/-- what a transfer to other storage does to the values of one name -/
def transferG (decls : Decls) (returned : Bool) (f t : Nat) (k : String) (col : Col) : Nat → Option Int := fun r =>
  match decls k, col f, col t with
  | some d, some fv, some tv => if r = f then some (sourceAfter d returned fv tv) else col r
  | _, _, _ => col r

def transferR (decls : Decls) (f t loc : Nat) (k : String) (col : Col) : List Report :=
  match decls k, col f, col t with
  | some d, some fv, some tv => if Wrong d fv tv then [⟨.transfer, f, k, loc⟩] else []
  | _, _, _ => []

theorem look_of_value {s : Refs} {r : Nat} {k : String} {x : Int} (h : value s r k = some x) :
    ∃ v, look s r k = some v ∧ v.v = x := by
  unfold value at h
  simpa [Option.map_eq_some_iff] using h

theorem look_none {s : Refs} {r : Nat} {k : String} (h : value s r k = none) : look s r k = none := by
  unfold value at h; simpa using h

theorem transferStep_spec (hR : Read decls infos) (kind : Kind) (lcl : Bool) (f t loc : Nat)
    (hk : ¬ (kind = .doAssign ∧ lcl = true)) (s : St) (k : String)
    (hP : Fit decls f t k (fun r => value s.refs r k)) :
    ∃ s', transferStep infos kind lcl f t loc s k = some s' ∧
      (∀ r x, value s'.refs r x =
        if x = k then transferG decls (decide (kind = .fcnReturn)) f t k (fun q => value s.refs q k) r
        else value s.refs r x) ∧
      s'.reports = s.reports ++ transferR decls f t loc k (fun q => value s.refs q k) := by
  obtain ⟨d, fv, hd, hf, hfv, htv⟩ := hP
  obtain ⟨fl, hfl, rfl⟩ := look_of_value hf
  have hf : value s.refs _ k = some fl.v := hf
  have hsame : ∀ r x, value s.refs r x = if x = k then value s.refs r k else value s.refs r x := by
    intro r x; split_ifs with h; rw [h]; rfl
  unfold transferStep
  rw [hfl, Option.bind_some]
  cases ht : value s.refs t k with
  | none =>
    refine ⟨s, by rw [look_none ht], ?_, ?_⟩
    · intro r x
      simp only [transferG, hd, hf, ht]
      exact hsame r x
    · simp [transferR, hd, hf, ht]
  | some tv =>
    obtain ⟨tl, htl, rfl⟩ := look_of_value ht
    obtain ⟨info, hi, htr, _, _⟩ := hR.says hd
    rw [htl]
    simp only [hi, Option.bind_some]
    have hl : (lcl && decide (kind = .doAssign)) = false := by
      cases lcl with
      | false => rfl
      | true => simp only [Bool.true_and, decide_eq_false_iff_not]; exact fun h => hk ⟨h, rfl⟩
    have hskip : (fl.v = -1 ∨ tl.v = -1 ∨ d.transfer fl.v tl.v = -1) →
        ∀ r x, value s.refs r x = if x = k then
          transferG decls (decide (kind = .fcnReturn)) f t k (fun q => value s.refs q k) r else value s.refs r x := by
      intro hc r x
      simp only [transferG, hd, hf, ht, sourceAfter, if_pos hc]
      by_cases hx : x = k
      · rw [if_pos hx]
        by_cases hr : r = f
        · rw [if_pos hr, hr, hx, hf]
        · rw [if_neg hr, hx]
      · rw [if_neg hx]
    by_cases h1 : fl.v = -1
    · refine ⟨s, by rw [if_pos h1], hskip (Or.inl h1), ?_⟩
      simp [transferR, hd, hf, ht, Wrong, h1]
    rw [if_neg h1]
    by_cases h2 : tl.v = -1
    · refine ⟨s, by rw [if_pos h2, hl]; rfl, hskip (Or.inr (Or.inl h2)), ?_⟩
      simp [transferR, hd, hf, ht, Wrong, h2]
    rw [if_neg h2]
    have hf' : 0 ≤ fl.v ∧ fl.v < d.vals.length := by rcases hfv with h | h; exact absurd h h1; exact h
    have ht' : 0 ≤ tl.v ∧ tl.v < d.vals.length := by rcases htv _ ht with h | h; exact absurd h h2; exact h
    obtain ⟨e, he, hev⟩ := htr fl.v tl.v hf'.1 hf'.2 ht'.1 ht'.2
    rw [he, Option.bind_some, if_neg hk]
    by_cases h3 : e.value = -1
    · rw [if_pos h3]
      refine ⟨_, rfl, ?_, ?_⟩
      · exact hskip (Or.inr (Or.inr (hev ▸ h3)))
      · simp [transferR, hd, hf, ht, Wrong, h1, h2, ← hev, h3, St.report]
    rw [if_neg h3]
    have hno : ¬ (fl.v = -1 ∨ tl.v = -1 ∨ d.transfer fl.v tl.v = -1) := by
      rintro (h | h | h)
      · exact h1 h
      · exact h2 h
      · exact h3 (hev.trans h)
    have hrep : transferR decls f t loc k (fun q => value s.refs q k) = [] := by
      simp [transferR, hd, hf, ht, Wrong, ← hev, h3]
    rw [hrep, List.append_nil]
    have hput : ∀ v : Val, v.v = sourceAfter d (decide (kind = .fcnReturn)) fl.v tl.v →
        ∀ r x, value (s.put f k v).refs r x = if x = k then
          transferG decls (decide (kind = .fcnReturn)) f t k (fun q => value s.refs q k) r else value s.refs r x := by
      intro v hv r x
      simp only [St.put, value_put, transferG, hd, hf, ht]
      by_cases hx : x = k <;> by_cases hr : r = f <;> simp [hx, hr, hv]
    by_cases h4 : kind = .fcnReturn
    · rw [if_pos h4]
      exact ⟨_, rfl, hput _ (by simp [sourceAfter, hno, h4]), rfl⟩
    rw [if_neg h4]
    have h4' : decide (kind = .fcnReturn) = false := by simpa using h4
    by_cases h5 : fl.v = e.value
    · rw [if_neg (by simpa using h5)]
      refine ⟨s, rfl, ?_, rfl⟩
      intro r x
      simp only [transferG, hd, hf, ht]
      have : sourceAfter d (decide (kind = .fcnReturn)) fl.v tl.v = fl.v := by
        rw [sourceAfter, if_neg hno, h4', if_neg (by simp), ← hev, h5]
      rw [this]
      by_cases hx : x = k
      · rw [if_pos hx]
        by_cases hr : r = f
        · rw [if_pos hr, hr, hx, hf]
        · rw [if_neg hr, hx]
      · rw [if_neg hx]
    · rw [if_pos h5]
      exact ⟨_, rfl, hput _ (by simp [sourceAfter, hno, h4, hev]), rfl⟩

/-- what an assignment to a local variable does to the values of one name -/
def localG (decls : Decls) (f t : Nat) (k : String) (col : Col) : Nat → Option Int := fun r =>
  match decls k, col f, col t with
  | some _, some fv, some tv => if r = t then some (if fv = -1 then tv else fv) else col r
  | _, _, _ => col r

theorem localStep_spec (hR : Read decls infos) (f t loc : Nat) (s : St) (k : String)
    (hP : Fit decls f t k (fun r => value s.refs r k)) :
    ∃ s', transferStep infos .doAssign true f t loc s k = some s' ∧
      (∀ r x, value s'.refs r x =
        if x = k then localG decls f t k (fun q => value s.refs q k) r else value s.refs r x) ∧
      s'.reports = s.reports ++ ([] : List Report) := by
  obtain ⟨d, fv, hd, hf, hfv, htv⟩ := hP
  obtain ⟨fl, hfl, rfl⟩ := look_of_value hf
  have hf : value s.refs _ k = some fl.v := hf
  unfold transferStep
  rw [hfl, Option.bind_some, List.append_nil]
  cases ht : value s.refs t k with
  | none =>
    refine ⟨s, by rw [look_none ht], ?_, rfl⟩
    intro r x
    simp only [localG, hd, hf, ht]
    split_ifs with h
    · rw [h]
    · rfl
  | some tv =>
    obtain ⟨tl, htl, rfl⟩ := look_of_value ht
    obtain ⟨info, hi, htr, _, _⟩ := hR.says hd
    rw [htl]
    simp only [hi, Option.bind_some]
    by_cases h1 : fl.v = -1
    · refine ⟨s, by rw [if_pos h1], ?_, rfl⟩
      intro r x
      simp only [localG, hd, hf, ht, if_pos h1]
      by_cases hx : x = k
      · rw [if_pos hx]
        by_cases hr : r = t
        · rw [if_pos hr, hr, hx, ht]
        · rw [if_neg hr, hx]
      · rw [if_neg hx]
    rw [if_neg h1]
    have hput : ∀ r x, value (s.put t k ⟨fl.v, loc⟩).refs r x = if x = k then
        localG decls f t k (fun q => value s.refs q k) r else value s.refs r x := by
      intro r x
      simp only [St.put, value_put, localG, hd, hf, ht, if_neg h1]
      by_cases hx : x = k <;> by_cases hr : r = t <;> simp [hx, hr]
    by_cases h2 : tl.v = -1
    · exact ⟨_, by rw [if_pos h2]; rfl, hput, rfl⟩
    rw [if_neg h2]
    have hf' : 0 ≤ fl.v ∧ fl.v < d.vals.length := by rcases hfv with h | h; exact absurd h h1; exact h
    have ht' : 0 ≤ tl.v ∧ tl.v < d.vals.length := by rcases htv _ ht with h | h; exact absurd h h2; exact h
    obtain ⟨e, he, hev⟩ := htr fl.v tl.v hf'.1 hf'.2 ht'.1 ht'.2
    rw [he, Option.bind_some]
    simp only [and_self, if_true]
    exact ⟨_, rfl, hput, rfl⟩

/-- what leaving storage behind does to the values of one name -/
def leftG (decls : Decls) (null : Bool) (f t : Nat) (k : String) (col : Col) : Nat → Option Int := fun r =>
  match decls k, col f, col t with
  | some d, some fv, some tv => if r = f ∧ null = false then some (leftAfter d fv tv) else col r
  | _, _, _ => col r

def leftR (decls : Decls) (null : Bool) (f t loc : Nat) (k : String) (col : Col) : List Report :=
  match decls k, col f, col t with
  | some d, some fv, some tv => if null = false ∧ Wrong d fv tv then [⟨.inconsistent, f, k, loc⟩] else []
  | _, _, _ => []

theorem consistentStep_spec (hR : Read decls infos) (kind : Kind) (null : Bool) (f t loc : Nat) (s : St) (k : String)
    (hP : Fit decls f t k (fun r => value s.refs r k))
    (hk : kind ≠ .leaveTrans ∨ leftR decls null f t loc k (fun r => value s.refs r k) = []) :
    ∃ s', consistentStep infos kind null f t loc s k = some s' ∧
      (∀ r x, value s'.refs r x =
        if x = k then leftG decls null f t k (fun q => value s.refs q k) r else value s.refs r x) ∧
      s'.reports = s.reports ++ leftR decls null f t loc k (fun q => value s.refs q k) := by
  obtain ⟨d, fv, hd, hf, hfv, htv⟩ := hP
  obtain ⟨fl, hfl, rfl⟩ := look_of_value hf
  have hf : value s.refs _ k = some fl.v := hf
  unfold consistentStep
  rw [hfl, Option.bind_some]
  cases ht : value s.refs t k with
  | none =>
    refine ⟨s, by rw [look_none ht], ?_, ?_⟩
    · intro r x
      simp only [leftG, hd, hf, ht]
      split_ifs with h
      · rw [h]
      · rfl
    · simp [leftR, hd, hf, ht]
  | some tv =>
    obtain ⟨tl, htl, rfl⟩ := look_of_value ht
    obtain ⟨info, hi, htr, _, _⟩ := hR.says hd
    rw [htl]
    simp only [hi, Option.bind_some]
    have hskip : (null = true ∨ leftAfter d fl.v tl.v = fl.v) →
        ∀ r x, value s.refs r x = if x = k then
          leftG decls null f t k (fun q => value s.refs q k) r else value s.refs r x := by
      intro hc r x
      simp only [leftG, hd, hf, ht]
      by_cases hx : x = k
      · rw [if_pos hx]
        by_cases hr : r = f ∧ null = false
        · rw [if_pos hr, hr.1, hx, hf]
          rcases hc with h | h
          · rw [hr.2] at h; cases h
          · rw [h]
        · rw [if_neg hr, hx]
      · rw [if_neg hx]
    by_cases h1 : fl.v = -1 ∨ tl.v = -1
    · refine ⟨s, by rw [if_pos h1], hskip (Or.inr (by simp [leftAfter, h1])), ?_⟩
      rcases h1 with h1 | h1 <;> simp [leftR, hd, hf, ht, Wrong, h1]
    rw [if_neg h1]
    by_cases hn : null = true
    · refine ⟨s, by rw [if_pos hn], hskip (Or.inl hn), ?_⟩
      simp [leftR, hd, hf, ht, hn]
    rw [if_neg hn]
    have hn' : null = false := by simpa using hn
    push Not at h1
    have hf' : 0 ≤ fl.v ∧ fl.v < d.vals.length := by rcases hfv with h | h; exact absurd h h1.1; exact h
    have ht' : 0 ≤ tl.v ∧ tl.v < d.vals.length := by rcases htv _ ht with h | h; exact absurd h h1.2; exact h
    obtain ⟨e, he, hev⟩ := htr fl.v tl.v hf'.1 hf'.2 ht'.1 ht'.2
    rw [he, Option.bind_some]
    have hla : leftAfter d fl.v tl.v = e.value := by simp [leftAfter, h1.1, h1.2, hev]
    have hput : ∀ (s1 : St) (v : Val), s1.refs = s.refs → v.v = e.value →
        ∀ r x, value (s1.put f k v).refs r x = if x = k then
          leftG decls null f t k (fun q => value s.refs q k) r else value s.refs r x := by
      intro s1 v h1 hv r x
      simp only [St.put, value_put, leftG, hd, hf, ht, h1, hn']
      by_cases hx : x = k <;> by_cases hr : r = f <;> simp [hx, hr, hv, hla]
    by_cases h3 : e.value = -1
    · rw [if_pos h3]
      have hw : leftR decls null f t loc k (fun q => value s.refs q k) = [⟨.inconsistent, f, k, loc⟩] := by
        simp [leftR, hd, hf, ht, hn', Wrong, h1.1, h1.2, ← hev, h3]
      have hkk : kind ≠ .leaveTrans := by
        rcases hk with h | h
        · exact h
        · rw [hw] at h; cases h
      rw [if_neg hkk, hw]
      exact ⟨_, rfl, hput _ _ rfl h3.symm, rfl⟩
    rw [if_neg h3]
    have hw : leftR decls null f t loc k (fun q => value s.refs q k) = [] := by
      simp [leftR, hd, hf, ht, Wrong, ← hev, h3]
    rw [hw, List.append_nil]
    by_cases h5 : fl.v = e.value
    · rw [if_neg (by simpa using h5)]
      exact ⟨s, rfl, hskip (Or.inr (hla.trans h5.symm)), rfl⟩
    · rw [if_pos h5]
      exact ⟨_, rfl, hput _ _ rfl rfl, rfl⟩

def loseR (decls : Decls) (undef : Bool) (r loc : Nat) (k : String) (col : Col) : List Report :=
  match decls k, col r with
  | some d, some v => if v ≠ -1 ∧ undef = false ∧ d.losing v = true then [⟨.lost, r, k, loc⟩] else []
  | _, _ => []

theorem loseStep_spec (hR : Read decls infos) (undef : Bool) (r loc : Nat) (s : St) (k : String)
    (hP : Fit decls r r k (fun q => value s.refs q k)) :
    ∃ s', loseStep infos undef r loc s k = some s' ∧
      (∀ q x, value s'.refs q x = if x = k then value s.refs q k else value s.refs q x) ∧
      s'.reports = s.reports ++ loseR decls undef r loc k (fun q => value s.refs q k) := by
  obtain ⟨d, fv, hd, hf, hfv, _⟩ := hP
  obtain ⟨fl, hfl, rfl⟩ := look_of_value hf
  have hf : value s.refs _ k = some fl.v := hf
  obtain ⟨info, hi, _, _, hlo⟩ := hR.says hd
  have hsame : ∀ q x, value s.refs q x = if x = k then value s.refs q k else value s.refs q x := by
    intro q x; split_ifs with h; rw [h]; rfl
  unfold loseStep
  rw [hfl, Option.bind_some, hi, Option.bind_some]
  by_cases h1 : fl.v = -1 ∨ undef = true
  · refine ⟨s, by rw [if_pos h1], hsame, ?_⟩
    rcases h1 with h1 | h1 <;> simp [loseR, hd, hf, h1]
  rw [if_neg h1]
  push Not at h1
  have hf' : 0 ≤ fl.v ∧ fl.v < d.vals.length := by rcases hfv with h | h; exact absurd h h1.1; exact h
  obtain ⟨e, he, hem⟩ := hlo fl.v hf'.1 hf'.2
  rw [he, Option.bind_some]
  have hu : undef = false := by simpa using h1.2
  by_cases h2 : e.msg.isSome = true
  · rw [if_pos h2]
    refine ⟨_, rfl, hsame, ?_⟩
    simp [loseR, hd, hf, h1.1, hu, ← hem, h2, St.report]
  · rw [if_neg h2]
    refine ⟨_, rfl, hsame, ?_⟩
    simp [loseR, hd, hf, ← hem, h2]

end Splint.MetaState
