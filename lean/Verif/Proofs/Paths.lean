import Verif.Spec.Paths
import Verif.Tactics
namespace Splint.Path
open Spec

theorem pieces_nil : pieces [] = [[]] := rfl

theorem pieces_slash (s : Name) : pieces ('/' :: s) = [] :: pieces s := by
  rw [pieces, if_pos rfl]

theorem pieces_ne_nil (s : Name) : pieces s ≠ [] := by
  cases s with
  | nil => simp [pieces]
  | cons c s =>
    rw [pieces]
    split_ifs
    · simp
    · split <;> simp

theorem pieces_cons {c : Char} (h : c ≠ '/') {s w : Name} {ws : List Name} (hs : pieces s = w :: ws) :
    pieces (c :: s) = (c :: w) :: ws := by
  rw [pieces, if_neg h, hs]

theorem pieces_append (x y : Name) : pieces (x ++ '/' :: y) = pieces x ++ pieces y := by
  induction x with
  | nil => rw [List.nil_append, pieces_slash]; rfl
  | cons c x ih =>
    rw [List.cons_append]
    by_cases h : c = '/'
    · subst h; rw [pieces_slash, pieces_slash, ih]; rfl
    · cases hx : pieces x with
      | nil => exact absurd hx (pieces_ne_nil x)
      | cons w ws =>
        rw [pieces_cons h hx, pieces_cons h (w := w) (ws := ws ++ pieces y) (by rw [ih, hx]; rfl)]
        rfl

theorem pieces_plain {w : Name} (h : '/' ∉ w) : pieces w = [w] := by
  induction w with
  | nil => rfl
  | cons c w ih =>
    rw [pieces_cons (fun e => h (by simp [e])) (ih (fun e => h (by simp [e])))]

theorem pieces_length (s : Name) : (pieces s).length = s.count '/' + 1 := by
  induction s with
  | nil => rfl
  | cons c s ih =>
    by_cases h : c = '/'
    · subst h; rw [pieces_slash, List.length_cons, ih, List.count_cons_self]
    · cases hx : pieces s with
      | nil => exact absurd hx (pieces_ne_nil s)
      | cons w ws =>
        rw [pieces_cons h hx, List.count_cons_of_ne h, ← ih, hx]
        rfl

theorem pieces_noSlash (s : Name) : ∀ w ∈ pieces s, '/' ∉ w := by
  induction s with
  | nil => intro w hw; rw [pieces_nil, List.mem_singleton] at hw; subst hw; simp
  | cons c s ih =>
    by_cases h : c = '/'
    · subst h
      rw [pieces_slash]
      intro w hw
      rcases List.mem_cons.1 hw with rfl | hw
      · simp
      · exact ih w hw
    · cases hx : pieces s with
      | nil => exact absurd hx (pieces_ne_nil s)
      | cons v ws =>
        rw [hx] at ih
        rw [pieces_cons h hx]
        intro w hw
        rcases List.mem_cons.1 hw with rfl | hw
        · intro hm
          rcases List.mem_cons.1 hm with e | hm
          · exact h e.symm
          · exact ih v (by simp) hm
        · exact ih w (by simp [hw])

theorem render_cons (c : Name) (cs : List Name) : render (c :: cs) = '/' :: (c ++ render cs) := by
  simp [render]

theorem render_append (a b : List Name) : render (a ++ b) = render a ++ render b := by
  simp [render]

theorem pieces_render_from {cs : List Name} (h : ∀ w ∈ cs, '/' ∉ w) {w : Name} (hw : '/' ∉ w) :
    pieces (w ++ render cs) = w :: cs := by
  induction cs generalizing w with
  | nil => simpa [render] using pieces_plain hw
  | cons c cs ih =>
    rw [render_cons, pieces_append, pieces_plain hw,
      ih (fun x hx => h x (by simp [hx])) (h c (by simp))]
    rfl

theorem pieces_render {cs : List Name} (h : ∀ w ∈ cs, '/' ∉ w) : pieces (render cs) = [] :: cs :=
  pieces_render_from h (w := []) (by simp)

theorem step_proper (cs : List Name) {w : Name} (h : Proper w) : step cs w = cs ++ [w] := by
  unfold step
  rw [if_neg (by rintro (e | e); exacts [h.1 e, h.2.1 e]), if_neg h.2.2.1]

theorem foldl_proper (cs ws : List Name) (h : ∀ w ∈ ws, Proper w) : ws.foldl step cs = cs ++ ws := by
  induction ws generalizing cs with
  | nil => simp
  | cons w ws ih =>
    rw [List.foldl_cons, step_proper _ (h w (by simp)), ih _ (fun x hx => h x (by simp [hx]))]
    simp

/-- The parts reached are proper. -/
theorem foldl_step_proper (ps cs : List Name) (h : ∀ w ∈ cs, Proper w) (hp : ∀ w ∈ ps, '/' ∉ w) :
    ∀ w ∈ ps.foldl step cs, Proper w := by
  induction ps generalizing cs with
  | nil => exact h
  | cons p ps ih =>
    rw [List.foldl_cons]
    apply ih
    · unfold step
      split_ifs with h1 h2
      · exact h
      · exact fun w hw => h w (List.dropLast_subset _ hw)
      · intro w hw
        rcases List.mem_append.1 hw with hw | hw
        · exact h w hw
        · rw [List.mem_singleton] at hw
          subst hw
          push Not at h1
          exact ⟨h1.1, h1.2, h2, hp w (by simp)⟩
    · exact fun w hw => hp w (by simp [hw])

theorem resolve_proper (n : Name) : ∀ w ∈ resolve n, Proper w :=
  foldl_step_proper _ _ (by simp) (pieces_noSlash n)

theorem resolve_render {cs : List Name} (h : ∀ w ∈ cs, Proper w) : resolve (render cs) = cs := by
  unfold resolve
  rw [pieces_render (fun w hw => (h w hw).2.2.2), List.foldl_cons, foldl_proper _ _ h]
  rfl

/-- The parts that a name leads to, `none` if above the root. -/
def walk (cs : List Name) : List Name → Option (List Name)
  | [] => some cs
  | p :: ps =>
    if p = c!".." then if cs = [] then none else walk cs.dropLast ps
    else walk (step cs p) ps

theorem walk_none (cs ps : List Name) :
    walk cs ps = none ↔ ∃ a b, ps = a ++ c!".." :: b ∧ a.foldl step cs = [] := by
  induction ps generalizing cs with
  | nil => simp [walk]
  | cons p ps ih =>
    have key : ∀ q, step cs p = q → (walk q ps = none ↔ ∃ a b, p :: ps = (p :: a) ++ c!".." :: b
        ∧ (p :: a).foldl step cs = []) := by
      intro q hq
      rw [ih]
      constructor
      · rintro ⟨a, b, h1, h2⟩
        exact ⟨a, b, by rw [h1]; rfl, by rw [List.foldl_cons, hq]; exact h2⟩
      · rintro ⟨a, b, h1, h2⟩
        refine ⟨a, b, by simpa using h1, ?_⟩
        rw [List.foldl_cons, hq] at h2
        exact h2
    rw [walk]
    constructor
    · intro h
      split_ifs at h with h1 h2
      · exact ⟨[], ps, by rw [h1]; rfl, by simpa using h2⟩
      · obtain ⟨a, b, h3, h4⟩ := (key cs.dropLast (by rw [h1]; rfl)).1 h
        exact ⟨_, b, h3, h4⟩
      · obtain ⟨a, b, h3, h4⟩ := (key _ rfl).1 h
        exact ⟨_, b, h3, h4⟩
    · rintro ⟨a, b, h1, h2⟩
      cases a with
      | nil =>
        simp only [List.nil_append, List.cons.injEq] at h1
        rw [if_pos h1.1, if_pos (by simpa using h2)]
      | cons x a =>
        have hx : p = x := by simpa using (List.cons.inj h1).1
        subst hx
        split_ifs with h3 h4
        · rfl
        · exact (key _ (by rw [h3]; rfl)).2 ⟨a, b, h1, h2⟩
        · exact (key _ rfl).2 ⟨a, b, h1, h2⟩

theorem walk_some {cs ps : List Name} (h : walk cs ps ≠ none) : walk cs ps = some (ps.foldl step cs) := by
  induction ps generalizing cs with
  | nil => rfl
  | cons p ps ih =>
    rw [walk] at h ⊢
    split_ifs at h ⊢ with h1 h2
    · exact absurd rfl h
    · rw [ih h, h1]; rfl
    · rw [ih h]; rfl

/-! ### `absLoop` -/

theorem absLoop_plain {out : List Char} (h : out.head? ≠ some '/') {c : Char} (hc : c ≠ '/')
    (r : List Char) : absLoop out (c :: r) = absLoop (c :: out) r := by
  rw [absLoop.eq_def]
  split
  · rename_i h1; cases h1
  · rename_i h1; simp only [List.cons.injEq] at h1; exact absurd h1.1 hc
  · rename_i h1; simp only [List.cons.injEq] at h1; rw [if_neg h, h1.1, h1.2]
  · rename_i h1; simp only [List.cons.injEq] at h1; rw [if_neg h, h1.1, h1.2]
  · rename_i h1; simp only [List.cons.injEq] at h1; rw [if_neg h, h1.1, h1.2]
  · rename_i h1; simp only [List.cons.injEq] at h1; rw [if_neg h, h1.1, h1.2]
  · rename_i h1; simp only [List.cons.injEq] at h1; rw [h1.1, h1.2]

/-- The end of `osd_absolutePath`. -/
def strip (out : List Char) : Name := (if out.head? = some '/' then out.drop 1 else out).reverse

theorem backup_render {cs : List Name} (h : ∀ w ∈ cs, '/' ∉ w) :
    backup (render cs ++ ['/']).reverse
      = if cs = [] then none else some (render cs.dropLast ++ ['/']).reverse := by
  unfold backup
  rw [List.reverse_append]
  simp only [List.reverse_cons, List.reverse_nil, List.nil_append, List.singleton_append,
    List.drop_succ_cons, List.drop_zero]
  rcases List.eq_nil_or_concat cs with rfl | ⟨cs, w, rfl⟩
  · rfl
  · have hw : '/' ∉ w := h w (by simp)
    have e : render (cs ++ [w]) = render cs ++ '/' :: w := by
      rw [render_append]; simp [render]
    rw [List.concat_eq_append, e, List.reverse_append, List.reverse_cons, List.append_assoc]
    have e2 : (w.reverse ++ (['/'] ++ (render cs).reverse)).dropWhile (· ≠ '/')
        = '/' :: (render cs).reverse := by
      rw [List.dropWhile_append_of_pos]
      · rfl
      · intro x hx
        have : x ≠ '/' := by rintro rfl; exact hw (by simpa using hx)
        simpa using this
    rw [e2]
    simp

theorem noSlash (cs : List Name) (w : Name) (hw : w ≠ []) (hs : '/' ∉ w) :
    (render cs ++ '/' :: w).reverse.head? ≠ some '/' := by
  rcases List.eq_nil_or_concat w with rfl | ⟨l, x, rfl⟩
  · exact absurd rfl hw
  · intro e
    apply hs
    simp at e
    simp [e]

theorem absLoop_walk : ∀ (n : Nat) (inp : List Char), inp.length ≤ n →
    (∀ cs : List Name, (∀ w ∈ cs, '/' ∉ w) →
      (absLoop (render cs ++ ['/']).reverse inp).map strip = (walk cs (pieces inp)).map render)
    ∧ (∀ (cs : List Name) (w v : Name) (vs : List Name), (∀ w ∈ cs, '/' ∉ w) → w ≠ [] → '/' ∉ w →
      pieces inp = v :: vs →
      (absLoop (render cs ++ '/' :: w).reverse inp).map strip
        = (walk (cs ++ [w ++ v]) vs).map render) := by
  intro n
  induction n with
  | zero =>
    intro inp h
    have : inp = [] := List.length_eq_zero_iff.1 (by omega)
    subst this
    refine ⟨?_, ?_⟩
    · intro cs hc
      rw [absLoop, pieces_nil]
      simp [strip, walk, step]
    · intro cs w v vs hc hw hs hv
      rw [pieces_nil] at hv
      simp only [List.cons.injEq] at hv
      rw [← hv.1, ← hv.2, absLoop, List.append_nil]
      have e := noSlash cs w hw hs
      simp only [Option.map_some, walk, strip, if_neg e, List.reverse_reverse]
      rw [render_append]
      simp [render]
  | succ n ih =>
    intro inp h
    have slash : ∀ cs : List Name, (render cs ++ ['/']).reverse.head? = some '/' := by
      intro cs; simp
    have second : ∀ (cs : List Name) (w v : Name) (vs : List Name), (∀ w ∈ cs, '/' ∉ w) → w ≠ [] →
        '/' ∉ w → pieces inp = v :: vs →
        (absLoop (render cs ++ '/' :: w).reverse inp).map strip
          = (walk (cs ++ [w ++ v]) vs).map render := by
      intro cs w v vs hc hw hs hv
      cases inp with
      | nil => exact (ih [] (by simp)).2 cs w v vs hc hw hs hv
      | cons c r =>
        rw [List.length_cons] at h
        by_cases hcs : c = '/'
        · subst hcs
          rw [pieces_slash] at hv
          simp only [List.cons.injEq] at hv
          rw [absLoop, if_neg (noSlash cs w hw hs), ← hv.1, ← hv.2, List.append_nil]
          have := (ih r (by omega)).1 (cs ++ [w]) (by
            intro x hx
            rcases List.mem_append.1 hx with hx | hx
            · exact hc x hx
            · rw [List.mem_singleton] at hx; subst hx; exact hs)
          rw [← this, render_append]
          simp [render]
        · rw [absLoop_plain (noSlash cs w hw hs) hcs]
          cases hx : pieces r with
          | nil => exact absurd hx (pieces_ne_nil r)
          | cons u us =>
            rw [pieces_cons hcs hx] at hv
            simp only [List.cons.injEq] at hv
            have := (ih r (by omega)).2 cs (w ++ [c]) u us hc (by simp) (by
              simp only [List.mem_append, List.mem_singleton, not_or]
              exact ⟨hs, fun e => hcs e.symm⟩) hx
            have e : (render cs ++ '/' :: (w ++ [c])).reverse = c :: (render cs ++ '/' :: w).reverse := by
              simp
            rw [e] at this
            rw [this, ← hv.1, ← hv.2]
            simp
    refine ⟨?_, second⟩
    intro cs hc
    -- An ordinary part begins.
    have start : ∀ (c : Char) (r : List Char), c ≠ '/' → inp = c :: r →
        (∀ v vs, pieces inp = v :: vs → v ≠ c!"." ∧ v ≠ c!"..") →
        (absLoop (c :: (render cs ++ ['/']).reverse) r).map strip
          = (walk cs (pieces inp)).map render := by
      intro c r hcs hi hp
      cases hx : pieces r with
      | nil => exact absurd hx (pieces_ne_nil r)
      | cons u us =>
        have hpi : pieces inp = (c :: u) :: us := by rw [hi]; exact pieces_cons hcs hx
        have h1 := hp _ _ hpi
        have hlen : r.length ≤ n := by rw [hi, List.length_cons] at h; omega
        have := (ih r hlen).2 cs [c] u us hc (by simp) (by simpa using fun e => hcs e.symm) hx
        have e : (render cs ++ '/' :: [c]).reverse = c :: (render cs ++ ['/']).reverse := by simp
        rw [e] at this
        rw [this, hpi, walk, if_neg h1.2]
        have e2 : step cs (c :: u) = cs ++ [c :: u] := by
          unfold step
          rw [if_neg (by
            rintro (h | h)
            · cases h
            · exact h1.1 h), if_neg h1.2]
        rw [e2]
        rfl
    rw [absLoop.eq_def]
    split
    · exact (by
        have := (ih [] (by simp)).1 cs hc
        rw [absLoop] at this
        exact this)
    · rename_i r
      rw [if_pos (slash cs), pieces_slash, walk, if_neg (by decide)]
      rw [List.length_cons] at h
      exact (ih r (by omega)).1 cs hc
    · rw [if_pos (slash cs), pieces_plain (by decide), walk, if_neg (by decide), walk]
      simp [strip, step]
    · rename_i r
      have e : pieces ('.' :: '/' :: r) = c!"." :: pieces r := pieces_append ['.'] r
      rw [if_pos (slash cs), e, walk, if_neg (by decide)]
      simp only [List.length_cons] at h
      exact (ih r (by omega)).1 cs hc
    · rw [if_pos (slash cs), backup_render hc, pieces_plain (by decide), walk, if_pos rfl]
      by_cases hn : cs = []
      · rw [if_pos hn, if_pos hn]; rfl
      · rw [if_neg hn, if_neg hn, Option.bind_some]
        have := (ih [] (by simp)).1 cs.dropLast (fun w hw => hc w (List.dropLast_subset _ hw))
        rw [this]
        simp [pieces_nil, walk, step]
    · rename_i r
      have e : pieces ('.' :: '.' :: '/' :: r) = c!".." :: pieces r := pieces_append ['.', '.'] r
      rw [if_pos (slash cs), backup_render hc, e, walk, if_pos rfl]
      simp only [List.length_cons] at h
      by_cases hn : cs = []
      · rw [if_pos hn, if_pos hn]; rfl
      · rw [if_neg hn, if_neg hn, Option.bind_some]
        exact (ih r (by omega)).1 cs.dropLast (fun w hw => hc w (List.dropLast_subset _ hw))
    · rename_i c r h1 h2 h3 h4 h5
      have hcs : c ≠ '/' := by rintro rfl; exact h1 rfl
      have hp : ∀ v vs, pieces (c :: r) = v :: vs → v ≠ c!"." ∧ v ≠ c!".." := by
        intro v vs hv
        cases hx : pieces r with
        | nil => exact absurd hx (pieces_ne_nil r)
        | cons u us =>
          rw [pieces_cons hcs hx] at hv
          simp only [List.cons.injEq] at hv
          rw [← hv.1]
          have first : ∀ r u us, pieces r = u :: us → u = [] → r = [] ∨ ∃ r', r = '/' :: r' := by
            intro r u us hx hu
            cases r with
            | nil => exact .inl rfl
            | cons d r' =>
              by_cases hd : d = '/'
              · exact .inr ⟨r', by rw [hd]⟩
              · cases hy : pieces r' with
                | nil => exact absurd hy (pieces_ne_nil r')
                | cons y ys =>
                  rw [pieces_cons hd hy] at hx
                  simp only [List.cons.injEq] at hx
                  rw [hu] at hx
                  exact absurd hx.1 (by simp)
          constructor
          · intro he
            simp only [List.cons.injEq] at he
            rcases first r u us hx he.2 with hr | ⟨r', hr⟩
            · exact h2 he.1 hr
            · exact h3 r' he.1 hr
          · intro he
            simp only [List.cons.injEq] at he
            cases r with
            | nil => rw [pieces_nil] at hx; simp only [List.cons.injEq] at hx; rw [← hx.1] at he; simp at he
            | cons d r' =>
              by_cases hd : d = '/'
              · rw [hd, pieces_slash] at hx
                simp only [List.cons.injEq] at hx
                rw [← hx.1] at he
                simp at he
              · cases hy : pieces r' with
                | nil => exact absurd hy (pieces_ne_nil r')
                | cons y ys =>
                  rw [pieces_cons hd hy] at hx
                  simp only [List.cons.injEq] at hx
                  rw [← hx.1] at he
                  simp only [List.cons.injEq] at he
                  rcases first r' y ys hy he.2.2 with hr | ⟨r'', hr⟩
                  · exact h4 he.1 (by rw [hr, he.2.1])
                  · exact h5 r'' he.1 (by rw [hr, he.2.1])
      exact start c r hcs rfl hp

end Splint.Path
