import Verif.Props.MetaState
/-!
# C139: merges of user-defined states
-/
namespace Splint
namespace MetaState

open States

variable {decls : Decls} {infos : Infos}

/-! ### Branches -/

/-- both branches have a declared value -/
def Fit2 (decls : Decls) (res other : Nat) (k : String) (col : Col) : Prop :=
  ∃ d fv tv, decls k = some d ∧ col other = some fv ∧ col res = some tv ∧ IsValue d fv ∧ IsValue d tv

/-- is the value of the reference and its aliases set, even if to what it is? -/
def written (d : Decl) (c : Ctx) (r o : Int) : Prop :=
  (o = -1 ∨ c.resNull = true) ∨
    (¬ (r = -1 ∨ c.otherNull = true) ∧ c.gone = false ∧ ¬ (d.merge o r = o ∧ d.merge o r = r))

instance (d : Decl) (c : Ctx) (r o : Int) : Decidable (written d c r o) := by unfold written; infer_instance

def mergeG (decls : Decls) (c : Ctx) (res other : Nat) (k : String) (col : Col) : Nat → Option Int := fun r =>
  match decls k, col other, col res with
  | some d, some fv, some tv =>
    if r = res ∨ (r ∈ c.aliases ∧ written d c tv fv) then some (mergeAfter d c tv fv) else col r
  | _, _, _ => col r

def mergeR (decls : Decls) (c : Ctx) (res other : Nat) (k : String) (col : Col) : List (What × Nat × String) :=
  match decls k, col other, col res with
  | some d, some fv, some tv => if Conflict d c tv fv then [(.merge, res, k)] else []
  | _, _, _ => []

/-- a report without its place -/
def bare (r : Report) : What × Nat × String := (r.what, r.ref, r.key)

theorem mergeStep_spec (hR : Read decls infos) (c : Ctx) (res other : Nat) (sl : St × Nat) (k : String)
    (hP : Fit2 decls res other k (fun r => value sl.1.refs r k)) :
    ∃ sl', mergeStep infos c res other sl k = some sl' ∧
      (∀ r x, value sl'.1.refs r x =
        if x = k then mergeG decls c res other k (fun q => value sl.1.refs q k) r else value sl.1.refs r x) ∧
      sl'.1.reports.map bare = sl.1.reports.map bare ++ mergeR decls c res other k (fun q => value sl.1.refs q k) := by
  obtain ⟨d, fv, tv, hd, ho, hr, hfv, htv⟩ := hP
  obtain ⟨fl, hfl, rfl⟩ := look_of_value ho
  have ho : value sl.1.refs other k = some fl.v := ho
  obtain ⟨tl, htl, rfl⟩ := look_of_value hr
  have hr : value sl.1.refs res k = some tl.v := hr
  obtain ⟨info, hi, _, hme, _⟩ := hR.says hd
  unfold mergeStep
  rw [hfl, Option.bind_some, htl, Option.bind_some, hi, Option.bind_some]
  have hput : ∀ (v : Val), v.v = mergeAfter d c tl.v fl.v → written d c tl.v fl.v →
      ∀ r x, value (putAll sl.1.refs res c.aliases k v) r x = if x = k then
        mergeG decls c res other k (fun q => value sl.1.refs q k) r else value sl.1.refs r x := by
    intro v hv hw r x
    simp only [value_putAll, mergeG, hd, ho, hr, hw, and_true]
    by_cases hx : x = k <;> by_cases hq : r = res ∨ r ∈ c.aliases <;> simp [hx, hq, hv]
  have hskip : mergeAfter d c tl.v fl.v = tl.v → ¬ written d c tl.v fl.v →
      ∀ r x, value sl.1.refs r x = if x = k then
        mergeG decls c res other k (fun q => value sl.1.refs q k) r else value sl.1.refs r x := by
    intro hv hw r x
    simp only [mergeG, hd, ho, hr, hw, and_false, or_false, hv]
    by_cases hx : x = k
    · rw [if_pos hx, hx]
      by_cases hq : r = res
      · rw [if_pos hq, hq, hr]
      · rw [if_neg hq]
    · rw [if_neg hx]
  by_cases h1 : fl.v = -1 ∨ c.resNull = true
  · rw [if_pos h1]
    refine ⟨_, rfl, hput _ (by simp [mergeAfter, h1]) (Or.inl h1), ?_⟩
    rcases h1 with h1 | h1 <;> simp [mergeR, hd, ho, hr, Conflict, h1]
  rw [if_neg h1]
  by_cases h2 : tl.v = -1 ∨ c.otherNull = true
  · rw [if_pos h2]
    refine ⟨_, rfl, hskip ?_ ?_, ?_⟩
    · rw [mergeAfter, if_neg h1, if_pos]
      rcases h2 with h2 | h2
      · exact Or.inl h2
      · exact Or.inr (Or.inl h2)
    · rintro (h | h)
      · exact h1 h
      · exact h.1 h2
    · rcases h2 with h2 | h2 <;> simp [mergeR, hd, ho, hr, Conflict, h2]
  rw [if_neg h2]
  by_cases h3 : c.gone = true
  · rw [if_pos h3]
    refine ⟨_, rfl, hskip ?_ ?_, ?_⟩
    · rw [mergeAfter, if_neg h1, if_pos (Or.inr (Or.inr h3))]
    · rintro (h | h)
      · exact h1 h
      · rw [h3] at h; exact absurd h.2.1 (by simp)
    · simp [mergeR, hd, ho, hr, Conflict, h3]
  rw [if_neg h3]
  have h3' : c.gone = false := by simpa using h3
  have h1' : fl.v ≠ -1 ∧ c.resNull = false := by push Not at h1; exact ⟨h1.1, by simpa using h1.2⟩
  have h2' : tl.v ≠ -1 ∧ c.otherNull = false := by push Not at h2; exact ⟨h2.1, by simpa using h2.2⟩
  have hf' : 0 ≤ fl.v ∧ fl.v < d.vals.length := by rcases hfv with h | h; exact absurd h h1'.1; exact h
  have ht' : 0 ≤ tl.v ∧ tl.v < d.vals.length := by rcases htv with h | h; exact absurd h h2'.1; exact h
  obtain ⟨e, he, hev⟩ := hme fl.v tl.v hf'.1 hf'.2 ht'.1 ht'.2
  rw [he, Option.bind_some]
  have hma : mergeAfter d c tl.v fl.v = e.value := by
    rw [mergeAfter, if_neg h1, if_neg (by rintro (h | h | h); exact h2 (Or.inl h); exact h2 (Or.inr h); exact h3 h), hev]
  have hrep : mergeR decls c res other k (fun q => value sl.1.refs q k) =
      if e.value = -1 then [(.merge, res, k)] else [] := by
    simp [mergeR, hd, ho, hr, Conflict, h1', h2', h3', hev]
  have hrefs : (if e.value = -1 then sl.1.report ⟨.merge, res, k, sl.2⟩ else sl.1).refs = sl.1.refs := by
    split_ifs <;> rfl
  have hreps : ((if e.value = -1 then sl.1.report ⟨.merge, res, k, sl.2⟩ else sl.1).reports).map bare =
      sl.1.reports.map bare ++ mergeR decls c res other k (fun q => value sl.1.refs q k) := by
    rw [hrep]; split_ifs <;> simp [St.report, bare]
  dsimp only
  by_cases h4 : e.value = fl.v ∧ e.value = tl.v
  · rw [if_pos h4]
    refine ⟨_, rfl, ?_, hreps⟩
    rw [hrefs]
    refine hskip (hma.trans h4.2) ?_
    rintro (h | h)
    · exact h1 h
    · exact h.2.2 (by rw [← hev]; exact h4)
  · rw [if_neg h4]
    refine ⟨_, rfl, ?_, hreps⟩
    rw [hrefs]
    exact hput _ hma.symm (Or.inr ⟨h2, h3', by rw [← hev]; exact h4⟩)

/-- **C139, branches**: for each name that the other branch has.  The value is merged as declared; it is unknown if
it is in one of the branches; where a pointer is null, the other branch counts.  The conflicts are reported, each once.
The aliases follow if the value changes. -/
theorem C139_merge (hR : Read decls infos) (c : Ctx) (res other loc : Nat) (s : St)
    (hV : Valid decls s.refs) (hS : Simple s.refs) (rt ot : VTab) (hr : s.refs res = some rt)
    (ho : s.refs other = some ot) (hsub : ∀ k ∈ ot.keys, k ∈ rt.keys) :
    ∃ s', mergeValues infos false c res other loc s = some s' ∧
      (∀ k d fv tv, decls k = some d → value s.refs other k = some fv → value s.refs res k = some tv →
        value s'.refs res k = some (mergeAfter d c tv fv) ∧
        ∀ a ∈ c.aliases, mergeAfter d c tv fv ≠ tv → value s'.refs a k = some (mergeAfter d c tv fv)) ∧
      (∀ r k, (r ≠ res ∧ r ∉ c.aliases) ∨ value s.refs other k = none → value s'.refs r k = value s.refs r k) ∧
      s'.reports.map bare = s.reports.map bare ++ (ot.keys.filter fun k =>
        match decls k, value s.refs other k, value s.refs res k with
        | some d, some fv, some tv => decide (Conflict d c tv fv)
        | _, _, _ => false).map fun k => (.merge, res, k) := by
  have hfit : ∀ k ∈ ot.keys, Fit2 decls res other k (fun r => value s.refs r k) := by
    intro k hk
    have h1 := value_of_look (look_of_mem ho hk)
    have h2 := value_of_look (look_of_mem hr (hsub k hk))
    obtain ⟨d, hd, hv⟩ := hV other k _ h1
    obtain ⟨d', hd', hv'⟩ := hV res k _ h2
    rw [hd] at hd'
    have := Option.some.inj hd'; subst this
    exact ⟨d, _, _, hd, h1, h2, hv, hv'⟩
  obtain ⟨sl, e, g, rr⟩ := loop (fun sl : St × Nat => sl.1.refs) (fun sl => sl.1.reports.map bare)
    (mergeStep infos c res other) (Fit2 decls res other) (mergeG decls c res other) (mergeR decls c res other)
    (fun sl k h => mergeStep_spec hR c res other sl k h) ot.keys (hS other ot ho) (s, loc) hfit
  refine ⟨sl.1, ?_, ?_, ?_, ?_⟩
  · simp only [mergeValues, hr, ho, Bool.false_eq_true, if_false]
    rw [e]; rfl
  · intro k d fv tv hd h1 h2
    have hm := mem_keys_of_value ho h1
    constructor
    · rw [g, if_pos hm]
      simp [mergeG, hd, h1, h2]
    · intro a ha hne
      rw [g, if_pos hm]
      have hw : written d c tv fv := by
        by_contra hw
        apply hne
        unfold written at hw
        push Not at hw
        obtain ⟨⟨hw1, hw1'⟩, hw2⟩ := hw
        rw [mergeAfter, if_neg (by push Not; exact ⟨hw1, hw1'⟩)]
        split_ifs with hw3
        · rfl
        · push Not at hw3
          exact (hw2 ⟨hw3.1, hw3.2.1⟩ (by simpa using hw3.2.2)).2
      simp [mergeG, hd, h1, h2, ha, hw]
  · intro r k h
    rw [g]
    split_ifs with hm
    · unfold mergeG
      cases hd : decls k with
      | none => rfl
      | some d =>
        cases h1 : value s.refs other k with
        | none => simp [h1]
        | some fv =>
          cases h2 : value s.refs res k with
          | none => simp [h1, h2]
          | some tv =>
            rcases h with h | h
            · simp [h, h1, h2]
            · rw [h1] at h; cases h
    · rfl
  · rw [rr]
    congr 1
    generalize ot.keys = ks
    induction ks with
    | nil => rfl
    | cons k ks ih =>
      rw [List.flatMap_cons, ih, List.filter_cons]
      unfold mergeR
      cases hd : decls k with
      | none => simp
      | some d =>
        cases h1 : value s.refs other k with
        | none => simp [h1]
        | some fv =>
          cases h2 : value s.refs res k with
          | none => simp [h1, h2]
          | some tv => by_cases hw : Conflict d c tv fv <;> simp [h1, h2, hw]

/-- After a branch that must return, and without tables, nothing is merged. -/
theorem C139_merge_nothing (c : Ctx) (res other loc : Nat) (s : St) (b : Bool)
    (h : b = true ∨ s.refs other = none ∨ s.refs res = none) : mergeValues infos b c res other loc s = some s := by
  unfold mergeValues
  rcases h with h | h | h
  · simp [h]
  · cases b <;> simp [h]
  · cases b
    · rw [h]; cases s.refs other <;> rfl
    · rfl

/-- **C139**: a name that only the other branch has is an internal bug. -/
theorem C139_merge_bug (c : Ctx) (res other loc : Nat) (s : St) (hS : Simple s.refs) (rt ot : VTab)
    (hr : s.refs res = some rt) (ho : s.refs other = some ot) (k : String) (hk : k ∈ ot.keys) (hn : k ∉ rt.keys) :
    mergeValues infos false c res other loc s = none := by
  have key : ∀ (ks : List String) (sl : St × Nat), ks.Nodup → k ∈ ks → look sl.1.refs res k = none →
      ks.foldlM (mergeStep infos c res other) sl = none := by
    intro ks
    induction ks with
    | nil => intro _ _ h; cases h
    | cons x ks ih =>
      intro sl hnd hm hl
      obtain ⟨hx, hnd⟩ := List.nodup_cons.1 hnd
      rw [List.foldlM_cons]
      by_cases hxk : x = k
      · subst hxk
        have : mergeStep infos c res other sl x = none := by
          unfold mergeStep
          rw [hl]
          cases look sl.1.refs other x <;> rfl
        rw [this]; rfl
      · have hm' : k ∈ ks := by
          rcases List.mem_cons.1 hm with h | h
          · exact absurd h.symm hxk
          · exact h
        cases hs : mergeStep infos c res other sl x with
        | none => rfl
        | some sl' =>
          refine ih sl' hnd hm' ?_
          have hkx : k ≠ x := fun h => hxk h.symm
          have hput : ∀ (s : Refs) v, look s res k = none → look (putAll s res c.aliases x v) res k = none := by
            intro s v h
            rw [look_putAll, if_neg (fun h => hkx h.2)]; exact h
          unfold mergeStep at hs
          obtain ⟨fv, _, hs⟩ := Option.bind_eq_some_iff.1 hs
          obtain ⟨tv, _, hs⟩ := Option.bind_eq_some_iff.1 hs
          obtain ⟨info, _, hs⟩ := Option.bind_eq_some_iff.1 hs
          by_cases h1 : fv.v = -1 ∨ c.resNull = true
          · rw [if_pos h1] at hs
            exact Option.some.inj hs ▸ hput _ _ hl
          rw [if_neg h1] at hs
          by_cases h2 : tv.v = -1 ∨ c.otherNull = true
          · rw [if_pos h2] at hs
            exact Option.some.inj hs ▸ hl
          rw [if_neg h2] at hs
          by_cases h3 : c.gone = true
          · rw [if_pos h3] at hs
            exact Option.some.inj hs ▸ hl
          rw [if_neg h3] at hs
          obtain ⟨e, _, hs⟩ := Option.bind_eq_some_iff.1 hs
          dsimp only at hs
          have hl' : look (if e.value = -1 then sl.1.report ⟨.merge, res, x, sl.2⟩ else sl.1).refs res k = none := by
            split_ifs <;> exact hl
          split_ifs at hs <;> first
            | exact Option.some.inj hs ▸ hl
            | exact Option.some.inj hs ▸ hput _ _ hl
  have hl : look s.refs res k = none := look_none_of_not_mem hr hn
  simp only [mergeValues, hr, ho, Bool.false_eq_true, if_false]
  rw [key ot.keys (s, loc) (hS other ot ho) hk hl]
  rfl

/-- the branches the other way around -/
def Ctx.swap (c : Ctx) : Ctx := { c with resNull := c.otherNull, otherNull := c.resNull }

/-- **C139**: the order of the branches does not matter if the declared merge is symmetric, and no pointer is null. -/
theorem C139_order_partial (d : Decl) (c : Ctx) (r o : Int) (hs : d.merge o r = d.merge r o)
    (hn : c.resNull = false ∧ c.otherNull = false) (hg : c.gone = false) :
    mergeAfter d c r o = mergeAfter d c.swap o r := by
  unfold mergeAfter Ctx.swap
  simp only [hn.1, hn.2, hg, Bool.false_eq_true, or_false]
  by_cases h1 : o = -1 <;> by_cases h2 : r = -1 <;> simp [h1, h2, hs]

/-- The same with null pointers. -/
def C139_order_full : Prop := ∀ (d : Decl) (c : Ctx) (r o : Int), d.merge o r = d.merge r o → c.gone = false →
  mergeAfter d c r o = mergeAfter d c.swap o r

/-- An unknown state of a null pointer in the other branch counts, in this branch it does not. -/
theorem C139_order_full_is_false : ¬ C139_order_full := by
  intro h
  have := h exDecl ⟨false, true, false, []⟩ 0 (-1) (by decide +kernel) rfl
  exact absurd this (by decide +kernel)

/-- Every conflict is reported at the place where the branches meet. -/
def C139_place_full : Prop := ∀ (decls : Decls) (infos : Infos), Read decls infos → ∀ (c : Ctx) (res other loc : Nat)
  (s s' : St), Valid decls s.refs → Simple s.refs → mergeValues infos false c res other loc s = some s' →
  ∀ x ∈ s'.reports, x ∈ s.reports ∨ x.loc = loc

/-- two states, one of which has a merge -/
def exDecls2 : Decls := fun k =>
  if k = "a" then some ⟨["x", "y"], [], [], [⟨.value "x", .value "y", .value "y"⟩]⟩
  else if k = "b" then some ⟨["x", "y"], [], [], []⟩ else none

def exInfos2 : Infos := fun k => (exDecls2 k).map fun d =>
  ⟨(transferTable d.vals d.transfers d.loses).getD (create 0), (mergeTable d.vals d.merges).getD (create 0)⟩

def exSt2 : St := ⟨fun r =>
  if r = 0 then some ⟨["a", "b"], fun _ => ⟨0, 3⟩⟩
  else if r = 1 then some ⟨["a", "b"], fun _ => ⟨1, 4⟩⟩
  else none, []⟩

theorem exRead2 : Read exDecls2 exInfos2 := by
  intro k d hd
  have hd' := hd
  unfold exDecls2 at hd'
  split_ifs at hd' with h1 h2
  · have := Option.some.inj hd'; subst this
    refine ⟨_, by unfold exInfos2; rw [hd]; rfl, by decide +kernel, by decide +kernel, ?_⟩
    intro c hc
    simp only [List.mem_singleton] at hc
    subst hc; decide
  · have := Option.some.inj hd'; subst this
    refine ⟨_, by unfold exInfos2; rw [hd]; rfl, by decide +kernel, by decide +kernel, ?_⟩
    intro c hc; cases hc

theorem exValid2 : Valid exDecls2 exSt2.refs ∧ Simple exSt2.refs := by
  have hcases : ∀ r t, exSt2.refs r = some t → t.keys = ["a", "b"] ∧ ∀ k, (t.val k).v = 0 ∨ (t.val k).v = 1 := by
    intro r t h
    unfold exSt2 at h
    simp only at h
    split_ifs at h <;> (have := Option.some.inj h; subst this; simp)
  constructor
  · intro r k v hv
    obtain ⟨x, hx, rfl⟩ := look_of_value hv
    unfold look at hx
    obtain ⟨t, ht, hx⟩ := Option.bind_eq_some_iff.1 hx
    obtain ⟨hk, hval⟩ := hcases r t ht
    split_ifs at hx with hm
    rw [hk] at hm
    have := Option.some.inj hx; subst this
    have hval := hval k
    simp only [List.mem_cons, List.not_mem_nil, or_false] at hm
    rcases hm with rfl | rfl
    · refine ⟨_, rfl, ?_⟩
      unfold IsValue
      simp only [List.length_cons, List.length_nil]
      omega
    · refine ⟨_, rfl, ?_⟩
      unfold IsValue
      simp only [List.length_cons, List.length_nil]
      omega
  · intro r t h
    rw [(hcases r t h).1]; decide

/-- After a state that could be merged, conflicts are reported at the place where that state got its value. -/
theorem C139_place_full_is_false : ¬ C139_place_full := by
  intro h
  have hrep : (mergeValues exInfos2 false ⟨false, false, false, []⟩ 0 1 9 exSt2).map (fun s => s.reports) =
      some [⟨.merge, 0, "b", 4⟩] := by decide +kernel
  cases hr : mergeValues exInfos2 false ⟨false, false, false, []⟩ 0 1 9 exSt2 with
  | none => rw [hr] at hrep; cases hrep
  | some s' =>
    rw [hr] at hrep
    simp only [Option.map_some, Option.some.injEq] at hrep
    have := h exDecls2 exInfos2 exRead2 _ 0 1 9 exSt2 s' exValid2.1 exValid2.2 hr ⟨.merge, 0, "b", 4⟩ (by rw [hrep]; simp)
    rcases this with h | h
    · cases h
    · exact absurd h (by decide)

/-! ### Ensures clauses -/

/-- the references of an expression in which `...` is last -/
def operands (rs : List Nat) (qs : Option (List Nat)) : List Operand :=
  rs.map .one ++ (match qs with | some q => [.dots (some q)] | none => [])

theorem evalLoop_eq (info : Info) (k : String) (cur : Nat) (rs : List Nat) (qs : Option (List Nat))
    (st : St × Option Nat) :
    evalLoop info k cur st (operands rs qs) = dotsLoop info k cur st (rs ++ qs.getD []) := by
  induction rs generalizing st with
  | nil =>
    cases qs with
    | none => rfl
    | some q =>
      simp only [operands, List.map_nil, List.nil_append, evalLoop, Option.getD_some]
      cases dotsLoop info k cur st q <;> rfl
  | cons r rs ih =>
    have : operands (r :: rs) qs = .one r :: operands rs qs := rfl
    rw [this, evalLoop, List.cons_append, dotsLoop]
    congr 1
    funext st
    split_ifs
    · rfl
    · exact ih st

/-- the values of the operands that have one -/
def valuesOf (s : Refs) (k : String) (rs : List Nat) : List Int := rs.filterMap fun r => value s r k

/-- merging further operands into the value of `p` -/
theorem dotsLoop_some (hR : Read decls infos) {k : String} {d : Decl} {info : Info} (hd : decls k = some d)
    (hi : infos k = some info) (cur p : Nat) (rs : List Nat) (s : St) (v : Int) (hp : p ∉ rs)
    (hv : value s.refs p k = some v) (hvv : 0 ≤ v ∧ v < d.vals.length)
    (hw : ∀ r ∈ rs, ∀ w, value s.refs r k = some w → 0 ≤ w ∧ w < d.vals.length) :
    ∃ s', dotsLoop info k cur (s, some p) rs = some (s', some p) ∧
      value s'.refs p k = some (folded d v (valuesOf s.refs k rs)) ∧
      (∀ r x, r ≠ p ∨ x ≠ k → value s'.refs r x = value s.refs r x) ∧
      ∃ l, s'.reports = s.reports ++ l ∧
        (if folded d v (valuesOf s.refs k rs) = -1 then ∃ r, r ∈ rs ∧ l = [⟨.ensures, r, k, cur⟩] else l = []) := by
  induction rs generalizing s v with
  | nil =>
    refine ⟨s, rfl, hv, fun _ _ _ => rfl, [], by simp, ?_⟩
    have : folded d v (valuesOf s.refs k []) = v := rfl
    rw [this, if_neg (by omega)]
  | cons r rs ih =>
    obtain ⟨info', hi', _, hme, _⟩ := hR.says hd
    rw [hi] at hi'
    have := Option.some.inj hi'; subst this
    have hpr : p ≠ r := fun h => hp (by simp [h])
    have hprs : p ∉ rs := fun h => hp (by simp [h])
    obtain ⟨pl, hpl, rfl⟩ := look_of_value hv
    rw [dotsLoop]
    cases hr : value s.refs r k with
    | none =>
      have hc : combine info k cur (s, some p) r = some (s, some p) := by
        simp [combine, look_none hr]
      have hne : isErr k (s, some p) = false := by
        simp only [isErr, hpl]; simp; omega
      rw [hc, Option.bind_some, hne]
      have hvs : valuesOf s.refs k (r :: rs) = valuesOf s.refs k rs := by simp [valuesOf, List.filterMap_cons, hr]
      rw [hvs]
      obtain ⟨s', e, h1, h2, l, h3, h4⟩ := ih s pl.v hprs hv hvv (fun q hq => hw q (by simp [hq]))
      refine ⟨s', e, h1, h2, l, h3, ?_⟩
      split_ifs at h4 ⊢ with h
      · obtain ⟨q, hq, hl⟩ := h4
        exact ⟨q, by simp [hq], hl⟩
      · exact h4
    | some w =>
      obtain ⟨wl, hwl, rfl⟩ := look_of_value hr
      have hwv := hw r (by simp) wl.v hr
      obtain ⟨e, he, hev⟩ := hme pl.v wl.v hvv.1 hvv.2 hwv.1 hwv.2
      let s1 : St := (if e.value = -1 then s.report ⟨.ensures, r, k, cur⟩ else s).put p k ⟨e.value, cur⟩
      have hc : combine info k cur (s, some p) r = some (s1, some p) := by
        simp only [combine, hwl, hpl, Option.bind_some, he]; rfl
      have hs1 : ∀ q x, value s1.refs q x = if q = p ∧ x = k then some e.value else value s.refs q x := by
        intro q x
        have : s1.refs = put s.refs p k ⟨e.value, cur⟩ := by
          simp only [s1, St.put]; split_ifs <;> rfl
        rw [this, value_put]
      have hvs : valuesOf s.refs k (r :: rs) = wl.v :: valuesOf s.refs k rs := by
        simp [valuesOf, List.filterMap_cons, hr]
      have hv1 : value s1.refs p k = some e.value := by rw [hs1]; simp
      have hvne : pl.v ≠ -1 := by omega
      have hfold : folded d pl.v (valuesOf s.refs k (r :: rs)) = folded d e.value (valuesOf s.refs k rs) := by
        rw [hvs, folded, if_neg hvne, hev]
      rw [hc, Option.bind_some, hfold]
      by_cases h1 : e.value = -1
      · have herr : isErr k (s1, some p) = true := by
          obtain ⟨x, hx, hx1⟩ := look_of_value hv1
          simp only [isErr, hx]; simp [hx1, h1]
        rw [herr, if_pos rfl]
        have hf1 : folded d e.value (valuesOf s.refs k rs) = -1 := by
          rw [h1]; cases valuesOf s.refs k rs <;> simp [folded]
        refine ⟨s1, rfl, by rw [hv1, hf1, h1], ?_, [⟨.ensures, r, k, cur⟩], ?_, ?_⟩
        · intro q x hq
          rw [hs1, if_neg (by rintro ⟨h, h'⟩; rcases hq with hq | hq; exact hq h; exact hq h')]
        · simp [s1, St.put, St.report, h1]
        · rw [if_pos hf1]; exact ⟨r, by simp, rfl⟩
      · have herr : isErr k (s1, some p) = false := by
          obtain ⟨x, hx, hx1⟩ := look_of_value hv1
          simp only [isErr, hx]; simp [hx1, h1]
        rw [herr]
        have heval : 0 ≤ e.value ∧ e.value < d.vals.length := by
          rcases merge_isValue d pl.v wl.v hvv.1 hvv.2 with h | h
          · exact absurd (hev.trans h) h1
          · rw [hev]; exact h
        have hsame : ∀ q ∈ rs, value s1.refs q k = value s.refs q k := by
          intro q hq
          rw [hs1, if_neg]
          rintro ⟨rfl, _⟩
          exact hprs hq
        obtain ⟨s', e', h2, h3, l, h4, h5⟩ := ih s1 e.value hprs hv1 heval
          (fun q hq w hq' => hw q (by simp [hq]) w (by rw [← hsame q hq]; exact hq'))
        have hvals : valuesOf s1.refs k rs = valuesOf s.refs k rs := by
          unfold valuesOf
          apply List.filterMap_congr
          intro q hq; exact hsame q hq
        rw [hvals] at h2 h5
        refine ⟨s', e', h2, ?_, l, ?_, ?_⟩
        · intro q x hq
          rw [h3 q x hq, hs1, if_neg (by rintro ⟨h, h'⟩; rcases hq with hq | hq; exact hq h; exact hq h')]
        · rw [h4]; simp [s1, St.put, h1]
        · split_ifs at h5 ⊢ with h
          · obtain ⟨q, hq, hl⟩ := h5
            exact ⟨q, by simp [hq], hl⟩
          · exact h5

theorem dotsLoop_none (info : Info) (k : String) (cur : Nat) (as rs : List Nat) (s : St)
    (ha : ∀ r ∈ as, value s.refs r k = none) :
    dotsLoop info k cur (s, none) (as ++ rs) = dotsLoop info k cur (s, none) rs := by
  induction as with
  | nil => rfl
  | cons a as ih =>
    have : combine info k cur (s, none) a = some (s, none) := by
      simp [combine, look_none (ha a (by simp))]
    rw [List.cons_append, dotsLoop, this, Option.bind_some]
    simp only [isErr, Bool.false_eq_true, if_false]
    exact ih fun r hr => ha r (by simp [hr])

/-- **C139, ensures clauses**: the operands are those without a value, `r`, and the rest; no operand is twice there, and
the states of all are known.  The left side and its aliases get the value that results from merging the operands one
after the other.  A conflict is reported once, and the rest is not merged then.  But `r`, the first operand with a value,
gets this value too.  Nothing else changes. -/
theorem C139_ensures (hR : Read decls infos) {k : String} {d : Decl} {info : Info} (hd : decls k = some d)
    (hi : infos k = some info) (cur lhs r v : Nat) (aliases as rs ones : List Nat) (qs : Option (List Nat)) (s : St)
    (hos : ones ++ qs.getD [] = as ++ r :: rs) (ha : ∀ q ∈ as, value s.refs q k = none) (hr : r ∉ rs)
    (hv : value s.refs r k = some (v : Int)) (hvd : v < d.vals.length)
    (hw : ∀ q ∈ rs, ∀ w, value s.refs q k = some w → 0 ≤ w ∧ w < d.vals.length) :
    ∃ s', ensures info k cur lhs aliases (operands ones qs) s = some s' ∧
      (∀ q, q = lhs ∨ q ∈ aliases ∨ q = r → value s'.refs q k = some (folded d v (valuesOf s.refs k rs))) ∧
      (∀ q x, (q ≠ lhs ∧ q ∉ aliases ∧ q ≠ r) ∨ x ≠ k → value s'.refs q x = value s.refs q x) ∧
      ∃ l, s'.reports = s.reports ++ l ∧
        (if folded d v (valuesOf s.refs k rs) = -1 then ∃ q, q ∈ rs ∧ l = [⟨.ensures, q, k, cur⟩] else l = []) := by
  obtain ⟨rl, hrl, hrv⟩ := look_of_value hv
  have hc : combine info k cur (s, none) r = some (s, some r) := by simp [combine, hrl]
  have hne : isErr k (s, some r) = false := by simp only [isErr, hrl]; simp [hrv]
  obtain ⟨s', e, h1, h2, l, h3, h4⟩ := dotsLoop_some hR hd hi cur r rs s v hr hv ⟨by omega, by omega⟩ hw
  have he : evalLoop info k cur (s, none) (operands ones qs) = some (s', some r) := by
    rw [evalLoop_eq, hos, dotsLoop_none info k cur as _ s ha, dotsLoop, hc, Option.bind_some, hne]
    exact e
  obtain ⟨fl, hfl, hfv⟩ := look_of_value h1
  refine ⟨⟨putAll s'.refs lhs aliases k ⟨fl.v, cur⟩, s'.reports⟩, ?_, ?_, ?_, l, h3, h4⟩
  · unfold ensures
    rw [he, Option.bind_some]
    simp only [hfl, Option.map_some]
  · intro q hq
    rw [value_putAll]
    by_cases hq' : q = lhs ∨ q ∈ aliases
    · rw [if_pos ⟨hq', rfl⟩, hfv]
    · rw [if_neg (fun h => hq' h.1)]
      rcases hq with h | h | h
      · exact absurd (Or.inl h) hq'
      · exact absurd (Or.inr h) hq'
      · rw [h]; exact h1
  · intro q x hq
    rw [value_putAll]
    rcases hq with ⟨hq1, hq2, hq3⟩ | hx
    · rw [if_neg (by rintro ⟨h | h, _⟩; exact hq1 h; exact hq2 h), h2 q x (Or.inl hq3)]
    · rw [if_neg (fun h => hx h.2), h2 q x (Or.inr hx)]

/-- Without any value nothing happens. -/
theorem C139_ensures_nothing (info : Info) (k : String) (cur lhs : Nat) (aliases ones : List Nat)
    (qs : Option (List Nat)) (s : St) (h : ∀ q ∈ ones ++ qs.getD [], value s.refs q k = none) :
    ensures info k cur lhs aliases (operands ones qs) s = some s := by
  unfold ensures
  rw [evalLoop_eq]
  have := dotsLoop_none info k cur (ones ++ qs.getD []) [] s h
  rw [List.append_nil] at this
  rw [this]; rfl

/-- An unknown first operand makes the left side unknown. -/
theorem C139_ensures_unknown (info : Info) (k : String) (cur lhs r : Nat) (aliases as rs ones : List Nat)
    (qs : Option (List Nat)) (s : St) (hos : ones ++ qs.getD [] = as ++ r :: rs)
    (ha : ∀ q ∈ as, value s.refs q k = none) (hv : value s.refs r k = some (-1)) :
    ensures info k cur lhs aliases (operands ones qs) s =
      some ⟨putAll s.refs lhs aliases k ⟨-1, cur⟩, s.reports⟩ := by
  obtain ⟨rl, hrl, hrv⟩ := look_of_value hv
  have hc : combine info k cur (s, none) r = some (s, some r) := by simp [combine, hrl]
  have hne : isErr k (s, some r) = true := by simp only [isErr, hrl]; simp [hrv]
  unfold ensures
  rw [evalLoop_eq, hos, dotsLoop_none info k cur as _ s ha, dotsLoop, hc, Option.bind_some, hne]
  simp [hrl, hrv]

/-- **C139**: a further operand whose state is unknown is an internal bug. -/
theorem C139_ensures_bug (hR : Read decls infos) {k : String} {d : Decl} {info : Info} (hd : decls k = some d)
    (hi : infos k = some info) (cur lhs r v q : Nat) (aliases as bs rest ones : List Nat) (qs : Option (List Nat)) (s : St)
    (hos : ones ++ qs.getD [] = as ++ r :: (bs ++ q :: rest)) (ha : ∀ q ∈ as, value s.refs q k = none)
    (hr : r ∉ bs) (hrq : q ≠ r) (hv : value s.refs r k = some (v : Int)) (hvd : v < d.vals.length)
    (hw : ∀ q ∈ bs, ∀ w, value s.refs q k = some w → 0 ≤ w ∧ w < d.vals.length)
    (hf : folded d v (valuesOf s.refs k bs) ≠ -1) (hq : value s.refs q k = some (-1)) :
    ensures info k cur lhs aliases (operands ones qs) s = none := by
  obtain ⟨rl, hrl, hrv⟩ := look_of_value hv
  have hc : combine info k cur (s, none) r = some (s, some r) := by simp [combine, hrl]
  have hne : isErr k (s, some r) = false := by simp only [isErr, hrl]; simp [hrv]
  -- the operands before `q`, then `q`
  have key : ∀ (bs : List Nat) (s : St) (v : Int), r ∉ bs → value s.refs r k = some v → (0 ≤ v ∧ v < d.vals.length) →
      (∀ q ∈ bs, ∀ w, value s.refs q k = some w → 0 ≤ w ∧ w < d.vals.length) →
      folded d v (valuesOf s.refs k bs) ≠ -1 → value s.refs q k = some (-1) →
      dotsLoop info k cur (s, some r) (bs ++ q :: rest) = none := by
    intro bs
    induction bs with
    | nil =>
      intro s v _ hv hvv _ _ hq
      obtain ⟨a, ha, _⟩ := look_of_value hv
      obtain ⟨b, hb, hbv⟩ := look_of_value hq
      have : combine info k cur (s, some r) q = none := by
        simp [combine, ha, hb, hbv, Table.lookup]
      rw [List.nil_append, dotsLoop, this]; rfl
    | cons b bs ih =>
      intro s v hrb hv hvv hw hf hq
      have hrb1 : r ≠ b := fun h => hrb (by simp [h])
      have hrb2 : r ∉ bs := fun h => hrb (by simp [h])
      obtain ⟨s1, e1, h1, h2, l, h3, h4⟩ := dotsLoop_some hR hd hi cur r [b] s v (by simpa using hrb1) hv hvv
        (fun q hq w h => hw q (by simp only [List.mem_singleton] at hq; simp [hq]) w h)
      have hfold : folded d v (valuesOf s.refs k (b :: bs)) =
          folded d (folded d v (valuesOf s.refs k [b])) (valuesOf s.refs k bs) := by
        cases hb : value s.refs b k with
        | none =>
          have e1 : valuesOf s.refs k (b :: bs) = valuesOf s.refs k bs := by simp [valuesOf, List.filterMap_cons, hb]
          have e2 : valuesOf s.refs k [b] = [] := by simp [valuesOf, List.filterMap_cons, hb]
          rw [e1, e2]; rfl
        | some w =>
          have e1 : valuesOf s.refs k (b :: bs) = w :: valuesOf s.refs k bs := by
            simp [valuesOf, List.filterMap_cons, hb]
          have e2 : valuesOf s.refs k [b] = [w] := by simp [valuesOf, List.filterMap_cons, hb]
          have hvne : v ≠ -1 := by omega
          rw [e1, e2, folded, folded, if_neg hvne, if_neg hvne]; rfl
      have hmid : folded d v (valuesOf s.refs k [b]) ≠ -1 := by
        intro h
        apply hf
        rw [hfold, h]
        cases valuesOf s.refs k bs <;> simp [folded]
      have hmidv : 0 ≤ folded d v (valuesOf s.refs k [b]) ∧ folded d v (valuesOf s.refs k [b]) < d.vals.length := by
        cases hb : value s.refs b k with
        | none =>
          have e2 : valuesOf s.refs k [b] = [] := by simp [valuesOf, List.filterMap_cons, hb]
          rw [e2]; exact hvv
        | some w =>
          have e2 : valuesOf s.refs k [b] = [w] := by simp [valuesOf, List.filterMap_cons, hb]
          have hvne : v ≠ -1 := by omega
          rw [e2, folded, if_neg hvne] at hmid ⊢
          rcases merge_isValue d v w hvv.1 hvv.2 with h | h
          · exact absurd h hmid
          · exact h
      have hsame : ∀ x ∈ bs, value s1.refs x k = value s.refs x k := fun x hx =>
        h2 x k (Or.inl (fun h => hrb2 (h ▸ hx)))
      have hvals : valuesOf s1.refs k bs = valuesOf s.refs k bs := by
        unfold valuesOf
        apply List.filterMap_congr
        intro x hx; exact hsame x hx
      have := ih s1 _ hrb2 h1 hmidv (fun x hx w h => hw x (by simp [hx]) w (by rw [← hsame x hx]; exact h))
        (by rw [hvals, ← hfold]; exact hf) (by rw [h2 q k (Or.inl hrq)]; exact hq)
      rw [List.cons_append, dotsLoop]
      rw [dotsLoop] at e1
      cases hcb : combine info k cur (s, some r) b with
      | none => rfl
      | some st =>
        rw [hcb, Option.bind_some] at e1
        rw [Option.bind_some]
        have hst : st = (s1, some r) := by
          split_ifs at e1
          · exact Option.some.inj e1
          · rw [dotsLoop] at e1; exact Option.some.inj e1
        subst hst
        have hnerr : isErr k (s1, some r) = false := by
          obtain ⟨a, ha, hav⟩ := look_of_value h1
          simp only [isErr, ha]; simp [hav, hmid]
        rw [hnerr]
        exact this
  unfold ensures
  rw [evalLoop_eq, hos, dotsLoop_none info k cur as _ s ha, dotsLoop, hc, Option.bind_some, hne]
  rw [if_neg (by simp), key bs s v hr hv ⟨by omega, by omega⟩ hw hf hq]
  rfl

/-- **C139**: when the arguments for `...` cannot be merged, a further operand with a value is an internal bug. -/
theorem C139_dots_bug (hR : Read decls infos) {k : String} {d : Decl} {info : Info} (hd : decls k = some d)
    (hi : infos k = some info) (cur lhs r v q : Nat) (aliases as rs : List Nat) (rest : List Operand) (s : St)
    (ha : ∀ q ∈ as, value s.refs q k = none) (hr : r ∉ rs) (hv : value s.refs r k = some (v : Int))
    (hvd : v < d.vals.length) (hw : ∀ q ∈ rs, ∀ w, value s.refs q k = some w → 0 ≤ w ∧ w < d.vals.length)
    (hf : folded d v (valuesOf s.refs k rs) = -1) (hq : value s.refs q k ≠ none) :
    ensures info k cur lhs aliases (.dots (some (as ++ r :: rs)) :: .one q :: rest) s = none := by
  obtain ⟨rl, hrl, hrv⟩ := look_of_value hv
  have hc : combine info k cur (s, none) r = some (s, some r) := by simp [combine, hrl]
  have hne : isErr k (s, some r) = false := by simp only [isErr, hrl]; simp [hrv]
  obtain ⟨s', e, h1, h2, l, h3, h4⟩ := dotsLoop_some hR hd hi cur r rs s v hr hv ⟨by omega, by omega⟩ hw
  rw [hf] at h1
  obtain ⟨fl, hfl, hfv⟩ := look_of_value h1
  have hq' : value s'.refs q k ≠ none := by
    by_cases h : q = r
    · rw [h, h1]; simp
    · rw [h2 q k (Or.inl h)]; exact hq
  obtain ⟨w, hq'⟩ := Option.ne_none_iff_exists'.1 hq'
  obtain ⟨ql, hql, _⟩ := look_of_value hq'
  unfold ensures
  rw [evalLoop, dotsLoop_none info k cur as _ s ha, dotsLoop, hc, Option.bind_some, hne, if_neg (by simp), e,
    Option.bind_some, evalLoop]
  have : combine info k cur (s', some r) q = none := by
    simp [combine, hfl, hql, hfv, Table.lookup]
  rw [this]; rfl

/-- An ensures clause sets the states of its left side, and of nothing else but its aliases. -/
def C139_full : Prop := ∀ (decls : Decls) (infos : Infos), Read decls infos → ∀ (k : String) (info : Info),
  infos k = some info → ∀ (cur lhs : Nat) (aliases : List Nat) (os : List Operand) (s s' : St), Valid decls s.refs →
  ensures info k cur lhs aliases os s = some s' → ∀ q x, q ≠ lhs → q ∉ aliases → value s'.refs q x = value s.refs q x

/-- `ensures a:result = a:p | a:q` changes the state of `p`. -/
theorem C139_full_is_false : ¬ C139_full := by
  intro h
  have hd : exDecls2 "a" = some ⟨["x", "y"], [], [], [⟨.value "x", .value "y", .value "y"⟩]⟩ := rfl
  obtain ⟨info, hi, _⟩ := exRead2.says hd
  obtain ⟨s', e, h1, _⟩ := C139_ensures exRead2 hd hi 9 5 0 0 [] [] [1] [0, 1] none exSt2 rfl (by simp) (by simp)
    (by decide +kernel) (by decide) (by
      intro q hq w hw
      simp only [List.mem_singleton] at hq
      subst hq
      have : value exSt2.refs 1 "a" = some 1 := by decide +kernel
      rw [this] at hw
      have := Option.some.inj hw; subst this
      decide)
  have h2 := h exDecls2 exInfos2 exRead2 "a" info hi 9 5 [] _ exSt2 s' exValid2.1 e 0 "a" (by decide) (by simp)
  rw [h1 0 (Or.inr (Or.inr rfl))] at h2
  exact absurd h2 (by decide +kernel)

/-- **C139**, what holds of it: only the first operand with a value is changed besides. -/
theorem C139_partial (hR : Read decls infos) {k : String} {d : Decl} {info : Info} (hd : decls k = some d)
    (hi : infos k = some info) (cur lhs r v : Nat) (aliases rs : List Nat) (s : St) (hr : r ∉ rs)
    (hv : value s.refs r k = some (v : Int)) (hvd : v < d.vals.length)
    (hw : ∀ q ∈ rs, ∀ w, value s.refs q k = some w → 0 ≤ w ∧ w < d.vals.length) :
    ∃ s', ensures info k cur lhs aliases (operands (r :: rs) none) s = some s' ∧
      value s'.refs lhs k = some (folded d v (valuesOf s.refs k rs)) ∧
      ∀ q x, q ≠ lhs → q ∉ aliases → q ≠ r → value s'.refs q x = value s.refs q x := by
  obtain ⟨s', e, h1, h2, _⟩ := C139_ensures hR hd hi cur lhs r v aliases [] rs (r :: rs) none s (by simp) (by simp) hr hv
    hvd hw
  exact ⟨s', e, h1 lhs (Or.inl rfl), fun q x h3 h4 h5 => h2 q x (Or.inl ⟨h3, h4, h5⟩)⟩

/-! ### Examples -/

/-- branches: `a` can be merged, `b` cannot -/
example : (mergeValues exInfos2 false ⟨false, false, false, [7]⟩ 0 1 9 exSt2).map
    (fun s => (value s.refs 0 "a", value s.refs 7 "a", value s.refs 0 "b", s.reports)) =
    some (some 1, some 1, some (-1), [⟨.merge, 0, "b", 4⟩]) := by decide +kernel

/-- null pointers and dead references are not merged -/
example : (mergeValues exInfos2 false ⟨true, false, false, []⟩ 0 1 9 exSt2).map
    (fun s => (value s.refs 0 "b", s.reports)) = some (some 1, []) ∧
    (mergeValues exInfos2 false ⟨false, true, false, []⟩ 0 1 9 exSt2).map
    (fun s => (value s.refs 0 "b", s.reports)) = some (some 0, []) ∧
    (mergeValues exInfos2 false ⟨false, false, true, []⟩ 0 1 9 exSt2).map
    (fun s => (value s.refs 0 "b", s.reports)) = some (some 0, []) := by decide +kernel

/-- an unknown state in the second place, and after `...` -/
example : (exInfos "file").bind (fun i => (ensures i "file" 9 5 [] [.one 2, .one 0] exSt).map
      (fun s => value s.refs 5 "file")) = some (some (-1)) ∧
    ((exInfos "file").bind fun i => ensures i "file" 9 5 [] [.one 0, .one 2] exSt).isNone = true ∧
    ((exInfos "file").bind fun i => ensures i "file" 9 5 [] [.dots (some [0, 1]), .one 0] exSt).isNone = true ∧
    ((exInfos "file").bind fun i => ensures i "file" 9 5 [] [.one 0, .dots (some [1])] exSt).map
      (fun s => (value s.refs 5 "file", s.reports)) = some (some (-1), [⟨.ensures, 1, "file", 9⟩]) := by decide +kernel

/-- the same argument twice: what is merged the second time is not its state -/
example : (exInfos2 "a").bind (fun i => (ensures i "a" 9 5 [] [.one 0, .one 1, .one 0] exSt2).map
      (fun s => (value s.refs 5 "a", value s.refs 0 "a"))) = some (some 1, some 1) := by decide +kernel

/-- `...` in a function without -/
example : (exInfos "file").bind (fun i => (ensures i "file" 9 5 [] [.one 0, .dots none, .one 1] exSt).map
      (fun s => (value s.refs 5 "file", s.reports))) = some (some 1, [⟨.elipsis, 0, "file", 9⟩]) := by decide +kernel

end MetaState
end Splint
