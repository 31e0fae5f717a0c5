import Verif.Spec.IncludeNest
/-!
# The include stack: proofs
-/
namespace Splint.IncludeNest

/-- The space is enough for the elements and what is free. -/
def Stack.Fits (s : Stack) : Prop := s.elems.length + s.free ≤ s.alloc

theorem push_ok {s : Stack} (h : s.Fits) (el : Fl) : ∃ s', s.push el = some s' ∧ s'.elems = el :: s.elems ∧ s'.Fits := by
  unfold Stack.Fits at h
  unfold Stack.push Stack.put
  by_cases hf : s.free ≤ 0
  · rw [if_pos hf]
    have : s.grow.elems.length < s.grow.alloc := by simp only [Stack.grow, baseSize]; omega
    rw [if_pos this]
    exact ⟨_, rfl, rfl, by simp only [Stack.Fits, Stack.grow, baseSize, List.length_cons]; omega⟩
  · rw [if_neg hf, if_pos (by omega)]
    exact ⟨_, rfl, rfl, by simp only [Stack.Fits, List.length_cons]; omega⟩

theorem popPush_new {s : Stack} (h : s.Fits) {el : Fl} (hn : ∀ e ∈ s.elems, e.file ≠ el.file) :
    ∃ s', s.popPush el = some (s', true) ∧ s'.elems = el :: s.elems ∧ s'.Fits := by
  unfold Stack.popPush
  have : s.elems.dropWhile (fun e => e.file != el.file) = [] := by
    rw [← List.append_nil (s.elems), List.dropWhile_append_of_pos (by intro e he; simpa using hn e he)]
    rfl
  rw [this]
  obtain ⟨s', h1, h2, h3⟩ := push_ok h el
  exact ⟨s', by simp only [h1, Option.map_some], h2, h3⟩

theorem popPush_old {s : Stack} (h : s.Fits) {el e : Fl} {a b : List Fl} (hs : s.elems = a ++ e :: b) (he : e.file = el.file)
    (ha : ∀ x ∈ a, x.file ≠ el.file) :
    ∃ s', s.popPush el = some (s', false) ∧ s'.elems = el :: b ∧ s'.Fits := by
  unfold Stack.popPush
  have : s.elems.dropWhile (fun e => e.file != el.file) = e :: b := by
    rw [hs, List.dropWhile_append_of_pos (by intro x hx; simpa using ha x hx), List.dropWhile_cons_of_neg (by simpa using he)]
  rw [this]
  refine ⟨_, rfl, rfl, ?_⟩
  unfold Stack.Fits at h ⊢
  rw [hs] at h
  simp only [List.length_append, List.length_cons] at h ⊢
  omega

theorem run_append (special : Nat → Bool) (max : Nat) : ∀ (a : List Ev) (s : St) (b : List Ev),
    run special max s (a ++ b) = (run special max s a).bind fun s => run special max s b := by
  intro a
  induction a with
  | nil => intro s b; rfl
  | cons e a ih =>
    intro s b
    simp only [List.cons_append, run]
    cases step special max s e with
    | none => rfl
    | some s => exact ih s b

theorem sites_eq (special : Nat → Bool) : ∀ l : List Fl, sites special l = listed special l := by
  intro l
  match l with
  | [] => rfl
  | [e] => rfl
  | e :: x :: r =>
    have ih := sites_eq special (x :: r)
    rw [sites]
    · simp only [ih, listed, List.dropLast_cons_cons, List.filter_cons, List.getLast?_cons_cons]
      cases special e.file <;> simp
    · simp

/-- What is reported when the file `f` above `chain` is pushed. -/
def check (special : Nat → Bool) (max : Nat) (chain : List Fl) (f : Nat) : List Report :=
  match chain with
  | [] => []
  | site :: outer =>
    let depth := ((f :: chain.map (·.file)).dropLast.filter (fun f => !special f)).length
    if depth > max then [⟨depth, site, listed special outer⟩] else []

theorem depth_eq (special : Nat → Bool) (s : Stack) (e : Fl) (chain : List Fl) (h : s.elems = e :: chain) :
    s.depth special = ((e.file :: chain.map (·.file)).dropLast.filter (fun f => !special f)).length := by
  have : (e.file :: chain.map (·.file)) = (e :: chain).map (·.file) := rfl
  rw [this, List.dropLast_eq_take, ← List.map_take, List.filter_map, List.length_map, List.length_map, ← List.dropLast_eq_take,
    Stack.depth, h, List.countP_eq_length_filter]
  rfl

/-- A new file is pushed. -/
theorem setFilename_new (special : Nat → Bool) (max : Nat) {s : St} (hf : s.stack.Fits) (hn : ∀ e ∈ s.stack.elems, e.file ≠ s.cur.file)
    {f n : Nat} (hc : s.cur.file ≠ f) :
    ∃ k, setFilename special max s f n = some ⟨⟨f, n⟩, k, s.out ++ check special max s.stack.elems s.cur.file⟩ ∧
      k.elems = s.cur :: s.stack.elems ∧ k.Fits := by
  obtain ⟨k, h1, h2, h3⟩ := popPush_new hf hn
  refine ⟨k, ?_, h2, h3⟩
  unfold setFilename
  rw [if_neg hc, h1]
  simp only [Bool.true_and]
  have hd := depth_eq special k _ _ h2
  cases hch : s.stack.elems with
  | nil =>
    have : k.depth special = 0 := by rw [hd, hch]; rfl
    rw [if_neg (by simp [this]), check]
    simp
  | cons site outer =>
    rw [hch] at h2 hd
    simp only [check]
    rw [← hd]
    by_cases hm : k.depth special > max
    · have hl : k.elems.length > max := by
        have : k.depth special ≤ k.elems.dropLast.length := List.countP_le_length
        rw [List.length_dropLast] at this
        omega
      rw [if_pos (by simp [hm, hl]), if_pos hm, h2]
      simp only [sites_eq]
    · rw [if_neg (by simp [hm]), if_neg hm]
      simp

/-- A file that is there already. -/
theorem setFilename_old (special : Nat → Bool) (max : Nat) {s : St} (hf : s.stack.Fits) {e : Fl} {a b : List Fl}
    (hs : s.stack.elems = a ++ e :: b) (he : e.file = s.cur.file) (ha : ∀ x ∈ a, x.file ≠ s.cur.file) {f n : Nat} (hc : s.cur.file ≠ f) :
    ∃ k, setFilename special max s f n = some ⟨⟨f, n⟩, k, s.out⟩ ∧ k.elems = s.cur :: b ∧ k.Fits := by
  obtain ⟨k, h1, h2, h3⟩ := popPush_old hf hs he ha
  refine ⟨k, ?_, h2, h3⟩
  unfold setFilename
  rw [if_neg hc, h1]
  simp

/-- In a file, with what is still to be reported about it. -/
structure In (special : Nat → Bool) (max : Nat) (f : Nat) (chain : List Fl) (s : St) (todo : List Report) : Prop where
  cur : s.cur.file = f
  fits : s.stack.Fits
  here : (s.stack.elems = chain ∧ todo = check special max chain f) ∨
    (todo = [] ∧ ∃ a e, s.stack.elems = a ++ e :: chain ∧ e.file = f ∧ ∀ x ∈ a, x.file ≠ f)

/-- Leaving a file, for another. -/
theorem In.leave {special : Nat → Bool} {max f : Nat} {chain : List Fl} {s : St} {todo : List Report} (h : In special max f chain s todo)
    (hc : ∀ e ∈ chain, e.file ≠ f) {g n : Nat} (hg : g ≠ f) :
    ∃ k, setFilename special max s g n = some ⟨⟨g, n⟩, k, s.out ++ todo⟩ ∧ k.elems = s.cur :: chain ∧ k.Fits := by
  rcases h.here with ⟨h1, h2⟩ | ⟨h1, a, e, h2, h3, h4⟩
  · obtain ⟨k, k1, k2, k3⟩ := setFilename_new special max h.fits (by rw [h1, h.cur]; exact hc) (f := g) (n := n) (by rw [h.cur]; exact Ne.symm hg)
    refine ⟨k, ?_, by rw [k2, h1], k3⟩
    rw [k1, h1, h.cur, h2]
  · obtain ⟨k, k1, k2, k3⟩ := setFilename_old special max h.fits h2 (by rw [h3, h.cur]) (by rw [h.cur]; exact h4) (f := g) (n := n)
      (by rw [h.cur]; exact Ne.symm hg)
    refine ⟨k, ?_, k2, k3⟩
    rw [k1, h1, List.append_nil]

theorem In.line {special : Nat → Bool} {max f : Nat} {chain : List Fl} {s : St} {todo : List Report} (h : In special max f chain s todo)
    (n : Nat) : In special max f chain { s with cur := { s.cur with line := n } } todo := ⟨h.cur, h.fits, h.here⟩

mutual
theorem run_tree (special : Nat → Bool) (max : Nat) (t : Tree) (chain : List Fl) (s : St)
    (hc : t.Once (chain.map (·.file))) (h : In special max t.root chain s (check special max chain t.root)) :
    ∃ s' todo, run special max s t.events = some s' ∧ In special max t.root chain s' todo ∧
      s'.out ++ todo = s.out ++ t.tooDeep special max chain := by
  match t, hc with
  | .file f body last, hc =>
    simp only [Tree.root] at h ⊢
    obtain ⟨s1, todo, h1, h2, h3⟩ := run_body special max body f chain s _ hc.1 hc.2 h
    refine ⟨_, todo, ?_, h2.line last, ?_⟩
    · rw [Tree.events, run_append, h1]
      rfl
    · simp only [h3, Tree.tooDeep]
      rfl
theorem run_body (special : Nat → Bool) (max : Nat) (b : Body) (f : Nat) (chain : List Fl) (s : St) (todo : List Report)
    (hf : f ∉ chain.map (·.file)) (hc : b.Once (f :: chain.map (·.file))) (h : In special max f chain s todo) :
    ∃ s' todo', run special max s (b.events f) = some s' ∧ In special max f chain s' todo' ∧
      s'.out ++ todo' = s.out ++ (todo ++ b.tooDeep special max f chain) := by
  match b, hc with
  | .nil, _ => exact ⟨s, todo, rfl, h, by simp [Body.tooDeep]⟩
  | .incl site t rest, hc =>
    have hfc : ∀ e ∈ chain, e.file ≠ f := by
      intro e he hef
      exact hf (List.mem_map.2 ⟨e, he, hef⟩)
    have hroot : t.root ≠ f ∧ ∀ e ∈ chain, e.file ≠ t.root := by
      match t, hc.1 with
      | .file g _ _, hg =>
        simp only [Tree.Once, List.mem_cons, not_or] at hg
        refine ⟨hg.1.1, fun e he hef => hg.1.2 (List.mem_map.2 ⟨e, he, hef⟩)⟩
    obtain ⟨k, k1, k2, k3⟩ := (h.line site).leave hfc (n := 1) hroot.1
    have hin : In special max t.root (⟨f, site⟩ :: chain) ⟨⟨t.root, 1⟩, k, s.out ++ todo⟩ (check special max (⟨f, site⟩ :: chain) t.root) := by
      refine ⟨rfl, k3, .inl ⟨?_, rfl⟩⟩
      rw [k2, ← h.cur]
    obtain ⟨s1, todo1, h1, h2, h3⟩ := run_tree special max t (⟨f, site⟩ :: chain) _ hc.1 hin
    obtain ⟨k', j1, j2, j3⟩ := h2.leave (g := f) (n := site + 1) (by
      intro e he
      rcases List.mem_cons.1 he with rfl | he
      · exact Ne.symm hroot.1
      · exact hroot.2 e he) (Ne.symm hroot.1)
    have hback : In special max f chain ⟨⟨f, site + 1⟩, k', s1.out ++ todo1⟩ [] := by
      refine ⟨rfl, j3, .inr ⟨rfl, [s1.cur], ⟨f, site⟩, j2, rfl, ?_⟩⟩
      intro x hx
      rw [List.mem_singleton] at hx
      rw [hx, h2.cur]
      exact hroot.1
    obtain ⟨s2, todo2, i1, i2, i3⟩ := run_body special max rest f chain _ [] hf hc.2 hback
    refine ⟨s2, todo2, ?_, i2, ?_⟩
    · rw [Body.events, run, step]
      simp only
      rw [run, step, k1]
      simp only
      rw [run_append, h1]
      simp only [Option.bind_some]
      rw [run, step, j1]
      exact i1
    · rw [i3]
      simp only [h3, Body.tooDeep, List.nil_append, List.append_assoc]
end

/-! ### Any sequence -/

theorem setFilename_any (special : Nat → Bool) (max : Nat) {s : St} (hf : s.stack.Fits) (hd : (s.stack.elems.map (·.file)).Nodup) (f n : Nat) :
    ∃ s', setFilename special max s f n = some s' ∧ s'.stack.Fits ∧ (s'.stack.elems.map (·.file)).Nodup ∧ s'.cur = ⟨f, n⟩ := by
  by_cases hc : s.cur.file = f
  · refine ⟨{ s with cur := { s.cur with line := n } }, by rw [setFilename, if_pos hc], hf, hd, ?_⟩
    simp only [hc]
  · by_cases hm : ∃ e ∈ s.stack.elems, e.file = s.cur.file
    · obtain ⟨e, he, hef⟩ := hm
      obtain ⟨a, b, hab⟩ := List.append_of_mem he
      rw [hab] at hd
      simp only [List.map_append, List.map_cons, List.nodup_append, List.nodup_cons, List.mem_cons, List.mem_map] at hd
      obtain ⟨k, k1, k2, k3⟩ := setFilename_old special max hf hab hef (by
        intro x hx hxf
        exact hd.2.2 x.file ⟨x, hx, rfl⟩ e.file (.inl rfl) (by rw [hxf, hef])) hc (n := n)
      refine ⟨_, k1, k3, ?_, rfl⟩
      simp only [k2, List.map_cons, List.nodup_cons, List.mem_map]
      exact ⟨by rw [← hef]; exact hd.2.1.1, hd.2.1.2⟩
    · have hn : ∀ e ∈ s.stack.elems, e.file ≠ s.cur.file := fun e he hef => hm ⟨e, he, hef⟩
      obtain ⟨k, k1, k2, k3⟩ := setFilename_new special max hf hn hc (n := n)
      refine ⟨_, k1, k3, ?_, rfl⟩
      simp only [k2, List.map_cons, List.nodup_cons, List.mem_map]
      exact ⟨fun ⟨e, he, hef⟩ => hn e he hef, hd⟩

theorem run_any (special : Nat → Bool) (max : Nat) : ∀ (es : List Ev) (s : St), s.stack.Fits → (s.stack.elems.map (·.file)).Nodup →
    ∃ s', run special max s es = some s' ∧ s'.stack.Fits ∧ (s'.stack.elems.map (·.file)).Nodup := by
  intro es
  induction es with
  | nil => intro s h1 h2; exact ⟨s, rfl, h1, h2⟩
  | cons e es ih =>
    intro s h1 h2
    cases e with
    | line n =>
      obtain ⟨s', k⟩ := ih { s with cur := { s.cur with line := n } } h1 h2
      exact ⟨s', by rw [run, step]; exact k.1, k.2⟩
    | marker f n =>
      obtain ⟨s1, k1, k2, k3, _⟩ := setFilename_any special max h1 h2 f n
      obtain ⟨s', k⟩ := ih s1 k2 k3
      exact ⟨s', by rw [run, step, k1]; exact k.1, k.2⟩

end Splint.IncludeNest
