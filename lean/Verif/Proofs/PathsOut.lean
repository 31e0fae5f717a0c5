import Verif.Proofs.Paths
namespace Splint.Path
open Spec

theorem common_eq (a b : Name) : a = (common a b).1 ++ (common a b).2.1
    ∧ b = (common a b).1 ++ (common a b).2.2
    ∧ ((common a b).2.1 = [] ∨ (common a b).2.2 = []
      ∨ (common a b).2.1.head? ≠ (common a b).2.2.head?) := by
  induction a generalizing b with
  | nil => simp [common]
  | cons c a ih =>
    cases b with
    | nil => simp [common]
    | cons d b =>
      unfold common
      split_ifs with h
      · obtain ⟨h1, h2, h3⟩ := ih b
        subst h
        refine ⟨?_, ?_, h3⟩
        · simp only [List.cons_append]; rw [← h1]
        · simp only [List.cons_append]; rw [← h2]
      · refine ⟨rfl, rfl, .inr (.inr ?_)⟩
        simpa using h

theorem common_prefix (f x : Name) : common (f ++ x) f = (f, x, []) := by
  induction f with
  | nil => cases x <;> simp [common]
  | cons c f ih => rw [List.cons_append, common, if_pos rfl, ih]

theorem afterSlash_eq {s : Name} (h : '/' ∈ s) : ∃ b, s = b ++ '/' :: afterSlash s := by
  unfold afterSlash
  generalize hp : (fun c : Char => decide (c ≠ '/')) = p
  have h1 := List.takeWhile_append_dropWhile (p := p) (l := s.reverse)
  cases hd : s.reverse.dropWhile p with
  | nil =>
    rw [hd, List.append_nil] at h1
    have h2 : (s.reverse.takeWhile p).all p = true := List.all_takeWhile
    rw [h1, List.all_eq_true] at h2
    have := h2 '/' (List.mem_reverse.2 h)
    rw [← hp] at this
    simp at this
  | cons x xs =>
    have hx : x = '/' := by
      have h2 := List.head_dropWhile_not p (l := s.reverse) (by rw [hd]; simp)
      simp only [hd, List.head_cons] at h2
      rw [← hp] at h2
      simpa using h2
    refine ⟨xs.reverse, ?_⟩
    rw [hd] at h1
    have h3 := congrArg List.reverse h1
    rw [List.reverse_append, List.reverse_reverse, List.reverse_cons, hx] at h3
    rw [List.append_assoc] at h3
    exact h3.symm

theorem pieces_ups (n : Nat) (y : Name) :
    pieces ((List.replicate n ['.', '.', '/']).flatten ++ y)
      = List.replicate n ['.', '.'] ++ pieces y := by
  induction n with
  | zero => rfl
  | succ n ih =>
    have h := pieces_append ['.', '.'] ((List.replicate n ['.', '.', '/']).flatten ++ y)
    rw [ih, pieces_plain (w := ['.', '.']) (by decide)] at h
    exact h

theorem foldl_ups (n : Nat) (cs ws : List Name) (h : ws.length = n) :
    (List.replicate n ['.', '.']).foldl step (cs ++ ws) = cs := by
  induction n generalizing ws with
  | zero => rw [List.length_eq_zero_iff.1 h]; simp
  | succ n ih =>
    rw [List.replicate_succ, List.foldl_cons]
    have e : step (cs ++ ws) ['.', '.'] = (cs ++ ws).dropLast := by
      unfold step; rw [if_neg (by decide), if_pos rfl]
    have hw : ws ≠ [] := by rintro rfl; cases h
    rw [e, List.dropLast_append_of_ne_nil hw]
    exact ih _ (by rw [List.length_dropLast, h]; rfl)

theorem pieces_from {w : Name} (hw : '/' ∉ w) {y v : Name} {vs : List Name}
    (h : pieces y = v :: vs) : pieces (w ++ y) = (w ++ v) :: vs := by
  induction w with
  | nil => exact h
  | cons c w ih =>
    rw [List.cons_append, pieces_cons (fun e => hw (by simp [e])) (ih (fun e => hw (by simp [e])))]
    rfl

/-- The parts of a name before and after a slash. -/
theorem parts {ds : List Name} (hd : ∀ w ∈ ds, Proper w) {b t : Name}
    (h : render ds = b ++ '/' :: t) :
    ∃ cs, pieces b = [] :: cs ∧ ds = cs ++ pieces t := by
  have h1 := pieces_render (fun w hw => (hd w hw).2.2.2)
  rw [h, pieces_append] at h1
  cases hb : pieces b with
  | nil => exact absurd hb (pieces_ne_nil b)
  | cons x cs =>
    rw [hb, List.cons_append, List.cons.injEq] at h1
    exact ⟨cs, by rw [h1.1], h1.2.symm⟩

theorem resolve_full (cwd r : Name) (hr : r.head? ≠ some '/') :
    resolve (full cwd r) = (pieces r).foldl step (resolve cwd) := by
  unfold full resolve
  rw [if_neg hr, pieces_append, List.foldl_append]

theorem full_abs (cwd : Name) {f : Name} (h : f.head? = some '/') : full cwd f = f := by
  unfold full; rw [if_pos h]

theorem render_head {cs : List Name} (h : cs ≠ []) : (render cs).head? = some '/' := by
  cases cs with
  | nil => exact absurd rfl h
  | cons c cs => rw [render_cons]; rfl

theorem ups_head {n : Nat} (h : n ≠ 0) (y : Name) :
    ((List.replicate n ['.', '.', '/']).flatten ++ y).head? = some '.' := by
  cases n with
  | zero => exact absurd rfl h
  | succ n => rfl

/-- The name with its trailing slash removed leads to the same place. -/
def trim (rel : Name) : Name := if rel.getLast? = some '/' then rel.dropLast else rel

theorem render_last {fs : List Name} (hf : ∀ w ∈ fs, Proper w) (h : fs ≠ []) :
    (render fs).getLast? ≠ some '/' := by
  rcases List.eq_nil_or_concat fs with rfl | ⟨cs, w, rfl⟩
  · exact absurd rfl h
  · have hw := hf w (by simp)
    have e : render (cs.concat w) = render cs ++ '/' :: w := by
      rw [List.concat_eq_append, render_append]; simp [render]
    rw [e, ← List.head?_reverse]
    exact noSlash cs w hw.1 hw.2.2.2

theorem pieces_ups_trim (n : Nat) :
    pieces (trim (List.replicate (n + 1) ['.', '.', '/']).flatten)
      = List.replicate (n + 1) ['.', '.'] := by
  have e : (List.replicate (n + 1) ['.', '.', '/']).flatten
      = ((List.replicate n ['.', '.', '/']).flatten ++ ['.', '.']) ++ ['/'] := by
    rw [List.replicate_succ', List.flatten_append]
    simp
  unfold trim
  rw [e, List.getLast?_append]
  rw [if_pos (by simp), List.dropLast_concat, pieces_ups, pieces_plain (by decide),
    List.replicate_succ']

theorem ups_trim_head (n : Nat) :
    (trim (List.replicate (n + 1) ['.', '.', '/']).flatten).head? = some '.' := by
  have e : (List.replicate (n + 1) ['.', '.', '/']).flatten
      = ((List.replicate n ['.', '.', '/']).flatten ++ ['.', '.']) ++ ['/'] := by
    rw [List.replicate_succ', List.flatten_append]
    simp
  unfold trim
  rw [e, List.getLast?_append]
  rw [if_pos (by simp), List.dropLast_concat]
  cases n with
  | zero => rfl
  | succ n => rfl

/-- When the name is not where the working directory has another character. -/
theorem outputPath_good {ds fs : List Name} (hd : ∀ w ∈ ds, Proper w) (hdn : ds ≠ [])
    (hf : ∀ w ∈ fs, Proper w) (hfn : fs ≠ [])
    (hb : ¬∃ c d, render ds = render fs ++ c :: d ∧ c ≠ '/' ∧ 3 * d.count '/' < (render fs).length) :
    ∃ r, outputPath (render ds) (render fs) = some r ∧ resolve (full (render ds) r) = fs := by
  have hfh := render_head hfn
  have hdh := render_head hdn
  have hne : render fs ≠ [] := by intro e; rw [e] at hfh; cases hfh
  have self : ∃ r, some (render fs) = some r ∧ resolve (full (render ds) r) = fs :=
    ⟨_, rfl, by rw [full_abs _ hfh, resolve_render hf]⟩
  obtain ⟨h1, h2, h3⟩ := common_eq (render ds) (render fs)
  unfold outputPath
  rw [if_neg hne]
  generalize common (render ds) (render fs) = t at h1 h2 h3
  obtain ⟨pre, c, p⟩ := t
  simp only at h1 h2 h3 ⊢
  by_cases hc : c = [] ∧ (p = [] ∨ p.head? = some '/')
  · rw [if_pos hc]
    obtain ⟨rfl, hp⟩ := hc
    rw [List.append_nil] at h1
    by_cases hp0 : p = []
    · subst hp0
      rw [List.append_nil] at h2
      refine ⟨_, rfl, ?_⟩
      rw [resolve_full _ _ (by decide), resolve_render hd, pieces_plain (by decide)]
      have : ds = fs := by
        have := congrArg resolve (h1.trans h2.symm)
        rwa [resolve_render hd, resolve_render hf] at this
      rw [this]
      rfl
    · rw [if_neg hp0]
      rcases hp with hp | hp
      · exact absurd hp hp0
      · obtain ⟨q, rfl⟩ : ∃ q, p = '/' :: q := by
          cases p with
          | nil => cases hp
          | cons x q => simp only [List.head?_cons, Option.some.injEq] at hp; exact ⟨q, by rw [hp]⟩
        rw [← h1] at h2
        obtain ⟨cs, hx, hcs⟩ := parts hf h2
        have hq : q.head? ≠ some '/' := by
          intro hq
          have : [] ∈ pieces q := by
            cases q with
            | nil => cases hq
            | cons x q =>
              simp only [List.head?_cons, Option.some.injEq] at hq
              rw [hq, pieces_slash]; simp
          exact (hf [] (by rw [hcs]; simp [this])).1 rfl
        refine ⟨_, rfl, ?_⟩
        simp only [List.drop_succ_cons, List.drop_zero]
        rw [resolve_full _ _ hq, resolve_render hd]
        have hdc : ds = cs := by
          have := pieces_render (fun w hw => (hd w hw).2.2.2)
          rw [hx] at this
          exact (List.cons.inj this).2.symm
        rw [foldl_proper _ _ (fun w hw => hf w (by rw [hcs]; simp [hw])), hdc, ← hcs]
  · rw [if_neg hc]
    by_cases hp0 : p = []
    · subst hp0
      rw [List.append_nil] at h2
      simp only [if_true, List.nil_append, Nat.zero_add, List.length_nil, Nat.add_zero,
        List.append_nil]
      cases c with
      | nil => exact absurd ⟨rfl, .inl rfl⟩ hc
      | cons c0 d =>
        by_cases hl : (c0 :: d).count '/' * 3 ≥ (render fs).length
        · rw [if_pos hl]; exact self
        · rw [if_neg hl]
          by_cases h0 : c0 = '/'
          · subst h0
            rw [List.count_cons_self]
            rw [← h2] at h1
            obtain ⟨cs, hx, hcs⟩ := parts hd h1
            have hcf : cs = fs := by
              have := pieces_render (fun w hw => (hf w hw).2.2.2)
              rw [hx] at this
              exact (List.cons.inj this).2
            have hne2 : (List.replicate (d.count '/' + 1) ['.', '.', '/']).flatten ≠ [] := by
              rw [List.replicate_succ]; simp
            rw [if_neg hne2]
            refine ⟨trim (List.replicate (d.count '/' + 1) ['.', '.', '/']).flatten, ?_, ?_⟩
            · unfold trim
              split_ifs <;> rfl
            · rw [resolve_full _ _ (by rw [ups_trim_head]; decide), pieces_ups_trim,
                resolve_render hd, hcs, foldl_ups _ _ _ (pieces_length d), hcf]
          · exfalso
            rw [← h2] at h1
            refine hb ⟨c0, d, h1, h0, ?_⟩
            rw [List.count_cons_of_ne h0] at hl
            omega
    · simp only [if_neg hp0]
      by_cases hl : (1 + (afterSlash pre ++ c).count '/') * 3 + (afterSlash pre ++ p).length
          ≥ (render fs).length
      · rw [if_pos hl]; exact self
      · rw [if_neg hl]
        have hpre : '/' ∈ pre := by
          cases pre with
          | nil =>
            exfalso
            rw [List.nil_append] at h1 h2
            rcases h3 with h3 | h3 | h3
            · rw [h1, h3] at hdh; cases hdh
            · exact hp0 h3
            · rw [← h1, ← h2, hdh, hfh] at h3; exact h3 rfl
          | cons x pre =>
            rw [h1] at hdh
            simp only [List.cons_append, List.head?_cons, Option.some.injEq] at hdh
            rw [hdh]; simp
        obtain ⟨b, hbk⟩ := afterSlash_eq hpre
        generalize afterSlash pre = k at hbk hl ⊢
        rw [hbk, List.append_assoc, List.cons_append] at h1 h2
        obtain ⟨cs, hx, hcs⟩ := parts hd h1
        obtain ⟨cs', hx', hfs⟩ := parts hf h2
        have hcc : cs' = cs := by
          rw [hx] at hx'
          exact (List.cons.inj hx').2.symm
        rw [hcc] at hfs
        have hn : 1 + (k ++ c).count '/' ≠ 0 := by omega
        have hkp : k ++ p ≠ [] := by simp [hp0]
        have hlast : ((List.replicate (1 + (k ++ c).count '/') ['.', '.', '/']).flatten
            ++ (k ++ p)).getLast? ≠ some '/' := by
          rw [List.getLast?_append]
          have h5 := render_last hf hfn
          rw [h2, List.getLast?_append, List.getLast?_cons] at h5
          intro h6
          apply h5
          rcases List.eq_nil_or_concat (k ++ p) with e | ⟨l, x, e⟩
          · exact absurd e hkp
          · rw [e] at h6 ⊢
            simp at h6 ⊢
            exact h6
        rw [if_neg (by simp [hp0]), if_neg hlast]
        refine ⟨_, rfl, ?_⟩
        rw [resolve_full _ _ (by rw [ups_head hn]; decide), pieces_ups, List.foldl_append,
          resolve_render hd, hcs, foldl_ups _ _ _ (by rw [pieces_length, Nat.add_comm]),
          foldl_proper _ _ (fun w hw => hf w (by rw [hfs]; simp [hw])), ← hfs]

/-- When it is. -/
theorem outputPath_bad {ds fs : List Name} (hd : ∀ w ∈ ds, Proper w)
    (hf : ∀ w ∈ fs, Proper w) (hfn : fs ≠ []) {c : Char} {d : Name}
    (hcd : render ds = render fs ++ c :: d) (hc : c ≠ '/')
    (hl : 3 * d.count '/' < (render fs).length) {r : Name}
    (hr : outputPath (render ds) (render fs) = some r) : resolve (full (render ds) r) ≠ fs := by
  have hfh := render_head hfn
  have hne : render fs ≠ [] := by intro e; rw [e] at hfh; cases hfh
  unfold outputPath at hr
  rw [if_neg hne] at hr
  have hcm : common (render ds) (render fs) = (render fs, c :: d, []) := by
    rw [hcd]; exact common_prefix _ _
  rw [hcm] at hr
  simp only at hr
  rw [if_neg (by simp)] at hr
  simp only [if_true, List.nil_append, Nat.zero_add, List.length_nil, Nat.add_zero,
    List.append_nil, List.count_cons_of_ne hc] at hr
  rw [if_neg (by omega)] at hr
  obtain ⟨is, w, rfl⟩ : ∃ is w, fs = is ++ [w] := by
    rcases List.eq_nil_or_concat fs with e | ⟨l, x, e⟩
    · exact absurd e hfn
    · exact ⟨l, x, by rw [e, List.concat_eq_append]⟩
  have hw := hf w (by simp)
  have e : render (is ++ [w]) = render is ++ '/' :: w := by
    rw [render_append]; simp [render]
  rw [e, List.append_assoc, List.cons_append] at hcd
  obtain ⟨cs, hx, hcs⟩ := parts hd hcd
  have hci : cs = is := by
    have := pieces_render (cs := is) (fun x hx => (hf x (List.mem_append_left _ hx)).2.2.2)
    rw [hx] at this
    exact (List.cons.inj this).2
  cases hv : pieces d with
  | nil => exact absurd hv (pieces_ne_nil d)
  | cons v vs =>
    rw [pieces_from hw.2.2.2 (pieces_cons hc hv), hci] at hcs
    have hlen : vs.length = d.count '/' := by
      have := pieces_length d
      rw [hv, List.length_cons] at this
      omega
    cases hn : d.count '/' with
    | zero =>
      rw [hn] at hr
      simp at hr
    | succ m =>
      rw [hn] at hr hlen
      have hne2 : (List.replicate (m + 1) ['.', '.', '/']).flatten ≠ [] := by
        rw [List.replicate_succ]; simp
      rw [if_neg hne2] at hr
      have hr2 : r = trim (List.replicate (m + 1) ['.', '.', '/']).flatten := by
        unfold trim
        split_ifs at hr ⊢ <;> exact (Option.some.inj hr).symm
      have hcs2 : ds = (is ++ [w ++ c :: v]) ++ vs := by rw [hcs]; simp
      rw [hr2, resolve_full _ _ (by rw [ups_trim_head]; decide), pieces_ups_trim,
        resolve_render hd, hcs2, foldl_ups _ _ _ hlen]
      intro h
      have := congrArg List.getLast? h
      simp at this

end Splint.Path
