import Verif.Proofs.UseMarks
/-! Running statements, for C105. -/
namespace Splint.Symtab.Uses

open Splint.Symtab.Uses.Spec

def names (E : List Scope) : List (List Nat) := E.map fun f => f.map (·.1)

theorem names_mark (x : Nat) (E : List Scope) : names (mark x E) = names E := by
  induction E with
  | nil => rfl
  | cons f E ih =>
    rw [mark]
    split
    · simp only [names, List.map_cons, List.map_map]
      congr 1
      apply List.map_congr_left
      intro v _
      simp only [Function.comp_apply]
      split <;> rfl
    · simp only [names, List.map_cons] at ih ⊢
      rw [ih]

theorem tail_enter (x : Nat) (E : List Scope) : (names (enter x E)).tail = (names E).tail := by
  cases E with
  | nil => rfl
  | cons f E => rw [enter]; split <;> rfl

theorem tail_enters (ds : List Nat) : ∀ E, (names (enters ds E)).tail = (names E).tail := by
  induction ds with
  | nil => intro E; rfl
  | cons x ds ih => intro E; rw [enters, ih, tail_enter]

theorem names_tail (E : List Scope) : names E.tail = (names E).tail := by
  cases E <;> rfl

mutual

theorem scan_tail (p : Prog) (d : Bool) (h : Placed d p) (E : List Scope) : (names (scan p E).1).tail = (names E).tail
    ∧ (d = false → names (scan p E).1 = names E) := by
  cases p with
  | skip => rw [scan]; exact ⟨rfl, fun _ => rfl⟩
  | use x => rw [scan]; simp only [names_mark]; exact ⟨trivial, fun _ => trivial⟩
  | decl x =>
    rw [scan]
    rw [Uses.Spec.Placed] at h
    exact ⟨tail_enter _ _, fun hd => by rw [hd] at h; cases h⟩
  | seq a b =>
    rw [Uses.Spec.Placed] at h
    have h1 := scan_tail a d h.1 E
    have h2 := scan_tail b d h.2 (scan a E).1
    rw [scan]
    exact ⟨h2.1.trans h1.1, fun hd => (h2.2 hd).trans (h1.2 hd)⟩
  | block b =>
    rw [Uses.Spec.Placed] at h
    have h1 := (scan_tail b true h ([] :: E)).1
    rw [scan]
    simp only [names_tail, h1]
    exact ⟨rfl, fun _ => rfl⟩
  | ifThen b =>
    rw [Uses.Spec.Placed] at h
    have h1 := (scan_tail b false h E).2 rfl
    rw [scan, h1]
    exact ⟨rfl, fun _ => rfl⟩
  | ifElse a b =>
    rw [Uses.Spec.Placed] at h
    have h1 := (scan_tail a false h.1 E).2 rfl
    have h2 := (scan_tail b false h.2 (scan a E).1).2 rfl
    rw [scan]
    simp only [h2, h1]
    exact ⟨trivial, fun _ => trivial⟩
  | second b =>
    rw [Uses.Spec.Placed] at h
    have h1 := (scan_tail b false h E).2 rfl
    rw [scan, h1]
    exact ⟨rfl, fun _ => rfl⟩
  | switch ds cs =>
    rw [Uses.Spec.Placed] at h
    have h1 := scanCases_names cs h (enters ds ([] :: E))
    rw [scan]
    simp only [names_tail, h1, tail_enters]
    exact ⟨rfl, fun _ => rfl⟩

theorem scanCases_names (cs : Cases) (h : PlacedCases cs) (E : List Scope) : names (scanCases cs E).1 = names E := by
  cases cs with
  | nil => rw [scanCases]
  | cons b e cs =>
    rw [Uses.Spec.PlacedCases] at h
    rw [scanCases, scanCases_names cs h.2, (scan_tail b false h.1 E).2 rfl]

end

theorem kinds_split {A B : Stack Bool} : ∀ {st : Stack Bool}, kinds st = kinds (A ++ B) →
    ∃ A' B', st = A' ++ B' ∧ kinds A' = kinds A ∧ kinds B' = kinds B := by
  induction A with
  | nil => intro st h; exact ⟨[], st, rfl, rfl, h⟩
  | cons a A ih =>
    intro st h
    cases st with
    | nil => simp [kinds] at h
    | cons t st =>
      simp only [kinds, List.cons_append, List.map_cons, List.cons.injEq] at h
      obtain ⟨A', B', h1, h2, h3⟩ := ih h.2
      refine ⟨t :: A', B', by rw [h1]; rfl, ?_, h3⟩
      simp only [kinds, List.map_cons, h.1]
      rw [show List.map (fun x => x.kind) A' = List.map (fun x => x.kind) A from h2]

theorem kinds_cons {k : Kind} {ks : List Kind} {st : Stack Bool} (h : kinds st = k :: ks) : ∃ t r, st = t :: r ∧ t.kind = k
    ∧ kinds r = ks := by
  cases st with
  | nil => cases h
  | cons t r =>
    simp only [kinds, List.map_cons, List.cons.injEq] at h
    exact ⟨t, r, rfl, h.1, h.2⟩

theorem kinds_allCases {A B : Stack Bool} (h : AllCases A) (hk : kinds B = kinds A) : AllCases B := by
  intro t ht
  have : t.kind ∈ kinds A := by rw [← hk]; exact List.mem_map_of_mem ht
  obtain ⟨u, hu, he⟩ := List.mem_map.mp this
  rw [← he]
  exact h u hu

/-- where a statement may be -/
def Ready (d : Bool) (st : Stack Bool) : Prop := ∃ k ks, kinds st = k :: ks ∧ k ≠ .switch ∧ (d = true → k = .normal)

mutual

theorem run_ok (p : Prog) (d : Bool) (hp : Placed d p) (ho : Ordinary p) (st : Stack Bool) (hi : Inv st) (hr : Ready d st) :
    ∃ st', run p st = some (st', (scan p (abs0 st)).2) ∧ Inv st' ∧ kinds st' = kinds st ∧ abs0 st' = (scan p (abs0 st)).1 := by
  have hpush : ∀ k, Ready false (push k st) ∨ k = .switch := by
    intro k
    by_cases hk : k = .switch
    · exact .inr hk
    · exact .inl ⟨k, kinds st, push_kinds k st, hk, by simp⟩
  cases p with
  | skip => rw [run, scan]; exact ⟨st, rfl, hi, rfl, rfl⟩
  | use x =>
    rw [run, scan]
    refine ⟨_, rfl, inv_update _ _ _ hi (by simp), update_kinds _ _ _ hi, ?_⟩
    unfold abs0
    rw [abs_update x (fun _ => true) true st hi (by simp), abs_mark]
  | decl x =>
    rw [Uses.Spec.Placed] at hp
    obtain ⟨k, ks, hk, _, hd⟩ := hr
    obtain ⟨t, r, rfl, ht, _⟩ := kinds_cons hk
    obtain ⟨a1, a2, a3⟩ := declare_ok x hi (ht.trans (hd hp))
    rw [run, scan]
    exact ⟨_, rfl, a1, a2, a3⟩
  | seq a b =>
    rw [Uses.Spec.Placed] at hp
    rw [Ordinary] at ho
    obtain ⟨s1, a1, a2, a3, a4⟩ := run_ok a d hp.1 ho.1 st hi hr
    obtain ⟨s2, b1, b2, b3, b4⟩ := run_ok b d hp.2 ho.2 s1 a2 (by rw [Ready, a3]; exact hr)
    rw [a4] at b1 b4
    rw [run, scan, a1, Option.bind_some, b1]
    exact ⟨s2, rfl, b2, b3.trans a3, b4⟩
  | block b =>
    rw [Uses.Spec.Placed] at hp
    rw [Ordinary] at ho
    obtain ⟨k, ks, hk, hsw, _⟩ := hr
    obtain ⟨s1, a1, a2, a3, a4⟩ := run_ok b true hp ho (push .normal st) (push_inv _ _ hi (by simp))
      ⟨.normal, kinds st, push_kinds _ _, by simp, fun _ => rfl⟩
    rw [push_normal_abs] at a1 a4
    rw [push_kinds, hk] at a3
    obtain ⟨t, r, rfl, ht, hr'⟩ := kinds_cons a3
    obtain ⟨u, r, rfl, hu, hr''⟩ := kinds_cons hr'
    obtain ⟨s2, b1, b2, b3, b4⟩ := leave_ok a2 ht (by rw [hu]; exact hsw)
    rw [run, scan, a1, Option.bind_some, b1]
    refine ⟨s2, ?_, b2, ?_, ?_⟩
    · rw [a4]; rfl
    · rw [b3, hr', hk]
    · rw [b4, a4]
  | ifThen b =>
    rw [Uses.Spec.Placed] at hp
    rw [Ordinary] at ho
    obtain ⟨s1, a1, a2, a3, a4⟩ := run_ok b false hp ho (push .tbranch st) (push_inv _ _ hi (by simp)) ((hpush _).resolve_right (by simp))
    rw [show abs0 (push .tbranch st) = abs0 st from push_abs _ _ _ (by simp)] at a1 a4
    rw [push_kinds] at a3
    obtain ⟨t, r, rfl, ht, hr'⟩ := kinds_cons a3
    obtain ⟨s2, b1, b2, b3, b4⟩ := popTrue_ok a2 ht
    rw [run, scan, a1, Option.bind_some, b1]
    exact ⟨s2, rfl, b2, b3.trans hr', b4.trans a4⟩
  | ifElse a b =>
    rw [Uses.Spec.Placed] at hp
    rw [Ordinary] at ho
    obtain ⟨s1, a1, a2, a3, a4⟩ := run_ok a false hp.1 ho.1 (push .tbranch st) (push_inv _ _ hi (by simp)) ((hpush _).resolve_right (by simp))
    rw [show abs0 (push .tbranch st) = abs0 st from push_abs _ _ _ (by simp)] at a1 a4
    rw [push_kinds] at a3
    obtain ⟨t, r, rfl, ht, hr'⟩ := kinds_cons a3
    have hi2 := push_inv .fbranch (t :: r) a2 (fun _ => ⟨t, r, rfl, ht⟩)
    obtain ⟨s2, b1, b2, b3, b4⟩ := run_ok b false hp.2 ho.2 (push .fbranch (t :: r)) hi2 ⟨.fbranch, _, push_kinds _ _, by simp, by simp⟩
    rw [show abs0 (push .fbranch (t :: r)) = abs0 (t :: r) from push_abs _ _ _ (by simp), a4] at b1 b4
    rw [push_kinds, a3] at b3
    obtain ⟨f, r1, rfl, hf, hr1⟩ := kinds_cons b3
    obtain ⟨t1, r2, rfl, ht1, hr2⟩ := kinds_cons hr1
    obtain ⟨s3, c1, c2, c3, c4⟩ := popBranches_ok b2 hf ht1
    rw [run, scan, a1, Option.bind_some, altBranch_true _ ht, Option.bind_some, b1, Option.bind_some, c1]
    exact ⟨s3, rfl, c2, c3.trans hr2, c4.trans b4⟩
  | second b =>
    rw [Uses.Spec.Placed] at hp
    rw [Ordinary] at ho
    obtain ⟨s1, a1, a2, a3, a4⟩ := run_ok b false hp ho (push .tbranch st) (push_inv _ _ hi (by simp)) ((hpush _).resolve_right (by simp))
    rw [show abs0 (push .tbranch st) = abs0 st from push_abs _ _ _ (by simp)] at a1 a4
    rw [push_kinds] at a3
    obtain ⟨t, r, rfl, ht, hr'⟩ := kinds_cons a3
    obtain ⟨s2, b1, b2, b3, b4⟩ := popOne_ok a2 ht
    rw [run, scan, a1, Option.bind_some, b1]
    exact ⟨s2, rfl, b2, b3.trans hr', b4.trans a4⟩
  | switch ds cs =>
    rw [Uses.Spec.Placed] at hp
    rw [Ordinary] at ho
    obtain ⟨rfl, hne, ho⟩ := ho
    obtain ⟨k, ks, hk, hsw, _⟩ := hr
    have hI : Inv (push .normal (push .switch st)) := push_inv _ _ (push_inv _ _ hi (by simp)) (by simp)
    have hA : abs0 (push .normal (push .switch st)) = [] :: abs0 st := by
      rw [push_normal_abs, show abs0 (push .switch st) = abs0 st from push_abs _ _ _ (by simp)]
    obtain ⟨ts, R, a1, a2, a3, a4, a5, a6⟩ := runCases_ok cs hp ho [] (push .normal (push .switch st)) (by intro t ht; cases ht)
      (by intro t r he; injection he with h1 h2; rw [← h1]; simp) (by simp [push]) hI
    rw [List.nil_append, hA] at a1 a5
    rw [push_kinds, push_kinds, hk] at a3
    obtain ⟨t, R1, rfl, ht, h1⟩ := kinds_cons a3
    obtain ⟨sw, R2, rfl, hs, h2⟩ := kinds_cons h1
    obtain ⟨top, o, rfl, htop, h3⟩ := kinds_cons h2
    have hts : ts ≠ [] := a6 (.inl hne)
    have hnames := scanCases_names cs hp ([] :: abs0 st)
    obtain ⟨l, us, rfl⟩ := List.exists_cons_of_ne_nil hts
    have hte : t.entries = [] ∧ noUse (abs0 (l :: us ++ t :: sw :: top :: o)) = [] := by
      have h4 : names (abs0 (l :: us ++ t :: sw :: top :: o)) = [] :: names (abs0 st) := by rw [a5, hnames]; rfl
      unfold abs0 at h4 ⊢
      rw [abs_cases _ a2, abs_normal (t := t) ht] at h4 ⊢
      simp only [names, List.map_cons, List.map_map, List.cons.injEq, List.map_eq_nil_iff] at h4
      exact ⟨h4.1, by rw [noUse, List.headD_cons, h4.1]; rfl⟩
    obtain ⟨sw', b1, b2, b3, b4⟩ := leave_switch a2 ht hs a4 hte.1
    obtain ⟨s3, c1, c2, c3, c4⟩ := exitSwitch_ok a2 b2 b3
    rw [run, scan, declares, a1, Option.bind_some, b1, Option.bind_some, c1]
    refine ⟨s3, ?_, c2, ?_, ?_⟩
    · rw [enters, ← a5, hte.2]; rfl
    · rw [c3, h2, hk]
    · rw [c4, b4, a5, enters]

theorem runCases_ok (cs : Cases) (hp : PlacedCases cs) (ho : OrdinaryCases cs) (ts R : Stack Bool) (hc : AllCases ts) (hR : NoCase R)
    (hne : R ≠ []) (hi : Inv (ts ++ R)) :
    ∃ ts' R', runCases cs (ts ++ R) = some (ts' ++ R', (scanCases cs (abs0 (ts ++ R))).2) ∧ AllCases ts' ∧ kinds R' = kinds R
      ∧ Inv (ts' ++ R') ∧ abs0 (ts' ++ R') = (scanCases cs (abs0 (ts ++ R))).1 ∧ (cs ≠ .nil ∨ ts ≠ [] → ts' ≠ []) := by
  cases cs with
  | nil => rw [runCases, scanCases]; exact ⟨ts, R, rfl, hc, rfl, hi, rfl, fun h => h.resolve_left (by simp)⟩
  | cons b e cs =>
    rw [Uses.Spec.PlacedCases] at hp
    rw [OrdinaryCases] at ho
    obtain ⟨c, ts1, R1, a1, a2, a3, a4, a5⟩ := newCase_ok hc hR hne hi
    obtain ⟨s2, b1, b2, b3, b4⟩ := run_ok b false hp.1 ho.1 _ a4
      ⟨.cbranch, kinds (ts1 ++ R1), by rw [← a2 c List.mem_cons_self]; rfl, by simp, by simp⟩
    obtain ⟨ts2, R2, rfl, h1, h2⟩ := kinds_split b3
    obtain ⟨l, us, rfl, hl, hus⟩ := kinds_cons h1
    have hc2 := kinds_allCases a2 h1
    obtain ⟨l', g1, g2, g3⟩ := setEnd_same e l (us ++ R2)
    have hc3 : AllCases (l' :: us) := by
      intro t ht
      rcases List.mem_cons.mp ht with rfl | ht
      · rw [g2]; exact hc2 l List.mem_cons_self
      · exact hc2 t (List.mem_cons_of_mem _ ht)
    have hR2 : NoCase R2 := kinds_noCase hR (h2.trans a3)
    have hne2 : R2 ≠ [] := by
      intro h
      rw [h, a3] at h2
      cases R with
      | nil => exact hne rfl
      | cons t r => simp [kinds] at h2
    have hi3 : Inv (l' :: us ++ R2) := inv_head g2 g3 b2
    obtain ⟨ts', R', c1, c2, c3, c4, c5, c6⟩ := runCases_ok cs hp.2 ho.2 (l' :: us) R2 hc3 hR2 hne2 hi3
    have hab : abs0 (l' :: us ++ R2) = (scan b (abs0 (ts ++ R))).1 := by
      rw [show abs0 (l' :: us ++ R2) = abs0 (l :: us ++ R2) from abs_flags g2 g3 _, b4, a5]
    rw [hab] at c1 c5
    rw [a5] at b1
    rw [runCases, scanCases, a1, Option.bind_some, b1, Option.bind_some, List.cons_append]
    simp only
    rw [g1, ← List.cons_append, c1]
    exact ⟨ts', R', rfl, c2, c3.trans (h2.trans a3), c4, c5, fun _ => c6 (.inr (by simp))⟩

end

end Splint.Symtab.Uses
