import Verif.Proofs.PathsOut
/-! C95: absolute names of files.  C96: names of files in messages. -/
namespace Splint
open Path Path.Spec

/-! ### C95 -/

/-- The working directory of the examples. -/
def PathEx.cwd : Name := c!"/home/u/src"

theorem PathEx.absolute_walk {cwd : Name} (hc : cwd.head? = some '/') (f : Name) :
    absolutePath cwd f = (walk [] (pieces (full cwd f))).map render := by
  have hh : (full cwd f).head? = some '/' := by
    unfold full
    split_ifs with h
    · exact h
    · cases cwd with
      | nil => cases hc
      | cons c cwd => exact hc
  unfold absolutePath
  cases hf : full cwd f with
  | nil => rw [hf] at hh; cases hh
  | cons c r =>
    rw [hf] at hh
    simp only [List.head?_cons, Option.some.injEq] at hh
    subst hh
    have := (absLoop_walk r.length r (Nat.le_refl _)).1 [] (by simp)
    rw [pieces_slash, walk, if_neg (by decide)]
    exact this

/-- "the absolutized filename … eliminates redundant slashes and single dots and eliminates double
dots": the result is the shortest absolute name that leads to the same place. -/
def C95_full : Prop :=
  ∀ cwd f : Name, cwd.head? = some '/' → absolutePath cwd f
    = some (if resolve (full cwd f) = [] then ['/'] else render (resolve (full cwd f)))

/-- The root directory comes out as the empty name. -/
theorem C95_full_is_false : ¬C95_full := by
  intro h
  have := h c!"/" c!"." (by decide)
  revert this
  decide +kernel

/-- What happens exactly: a name that leads above the root is a fatal error, the root is the empty
name, and otherwise the result is the shortest absolute name that leads to the same place. -/
theorem C95_exactly {cwd : Name} (hc : cwd.head? = some '/') (f : Name) :
    (absolutePath cwd f = none ↔ Climbs (full cwd f))
    ∧ (¬Climbs (full cwd f) → absolutePath cwd f = some (render (resolve (full cwd f)))) := by
  rw [PathEx.absolute_walk hc]
  have h : walk [] (pieces (full cwd f)) = none ↔ Climbs (full cwd f) := walk_none _ _
  refine ⟨by rw [Option.map_eq_none_iff, h], ?_⟩
  intro hn
  rw [walk_some (fun e => hn (h.1 e))]
  rfl

/-- Names that lead below the root and not above it on the way.  Missing: the root
(`C95_full_is_false`), and `/..`, which the system takes to be the root. -/
theorem C95_partial {cwd : Name} (hc : cwd.head? = some '/') (f : Name)
    (h : ¬Climbs (full cwd f)) (hr : resolve (full cwd f) ≠ []) : absolutePath cwd f
      = some (if resolve (full cwd f) = [] then ['/'] else render (resolve (full cwd f))) := by
  rw [(C95_exactly hc f).2 h, if_neg hr]

theorem PathEx.not_climbs {n : Name} (h : walk [] (pieces n) ≠ none) : ¬Climbs n :=
  fun hc => h ((walk_none _ _).2 hc)

example : ¬Climbs (full PathEx.cwd c!"..//./lib/x.h")
    ∧ resolve (full PathEx.cwd c!"..//./lib/x.h") = [c!"home", c!"u", c!"lib", c!"x.h"]
    ∧ absolutePath PathEx.cwd c!"..//./lib/x.h" = some c!"/home/u/lib/x.h" :=
  ⟨PathEx.not_climbs (by decide +kernel), by decide +kernel, by decide +kernel⟩

/-- `splint ../../x.c` in `/p` ends with an internal error. -/
example : Climbs (full c!"/p" c!"../../x.c") ∧ absolutePath c!"/p" c!"../../x.c" = none :=
  ⟨(walk_none _ _).1 (by decide +kernel), by decide +kernel⟩

/-- Two names have the same absolute name exactly when they lead to the same place. -/
theorem C95_same {cwd : Name} (hc : cwd.head? = some '/') {f g : Name}
    (hf : ¬Climbs (full cwd f)) (hg : ¬Climbs (full cwd g)) :
    absolutePath cwd f = absolutePath cwd g ↔ resolve (full cwd f) = resolve (full cwd g) := by
  rw [(C95_exactly hc f).2 hf, (C95_exactly hc g).2 hg, Option.some.injEq]
  constructor
  · intro h
    have := congrArg resolve h
    rwa [resolve_render (resolve_proper _), resolve_render (resolve_proper _)] at this
  · intro h; rw [h]

example : ¬Climbs (full PathEx.cwd c!"x.c") ∧ ¬Climbs (full PathEx.cwd c!"../src/x.c")
    ∧ resolve (full PathEx.cwd c!"x.c") = resolve (full PathEx.cwd c!"../src/x.c") :=
  ⟨PathEx.not_climbs (by decide +kernel), PathEx.not_climbs (by decide +kernel), by decide +kernel⟩

/-- The absolute name of an absolute name is itself, unless it is the root. -/
theorem C95_again {cwd : Name} (hc : cwd.head? = some '/') {f n : Name}
    (h : absolutePath cwd f = some n) (hn : n ≠ []) (cwd' : Name) (hc' : cwd'.head? = some '/') :
    Normal n ∧ absolutePath cwd' n = some n := by
  have h1 : ¬Climbs (full cwd f) := by
    rw [← (C95_exactly hc f).1, h]; simp
  rw [(C95_exactly hc f).2 h1, Option.some.injEq] at h
  subst h
  have hr : resolve (full cwd f) ≠ [] := by
    intro e; rw [e] at hn; exact hn rfl
  have hp := resolve_proper (full cwd f)
  refine ⟨⟨_, hr, hp, rfl⟩, ?_⟩
  rw [PathEx.absolute_walk hc', full_abs _ (render_head hr), pieces_render (fun w hw => (hp w hw).2.2.2)]
  have : ∀ (ws cs : List Name), (∀ w ∈ ws, Proper w) → walk cs ws = some (cs ++ ws) := by
    intro ws
    induction ws with
    | nil => intro cs _; simp [walk]
    | cons w ws ih =>
      intro cs h
      have hw := h w (by simp)
      rw [walk, if_neg hw.2.2.1, step_proper _ hw, ih _ (fun x hx => h x (by simp [hx]))]
      simp
  rw [walk, if_neg (by decide)]
  show (walk [] _).map render = _
  rw [this _ _ hp]
  rfl

example : absolutePath PathEx.cwd c!"a/../b.c" = some c!"/home/u/src/b.c" := by decide +kernel

/-! ### C96 -/

/-- The name given in a message leads to the file it is about. -/
def C96_full : Prop :=
  ∀ cwd f : Name, Cwd cwd → Normal f →
    ∃ r, outputPath cwd f = some r ∧ resolve (full cwd r) = resolve f

theorem PathEx.proper_of {ws : List Name}
    (h : ws.all fun w => w ≠ [] && w ≠ c!"." && w ≠ c!".." && !w.contains '/') :
    ∀ w ∈ ws, Proper w := by
  intro w hw
  have := List.all_eq_true.1 h w hw
  simpa [Proper, and_assoc] using this

/-- In the directory `/u/x.c.old` the file `/u/x.c` has no name at all, and the character before the
buffer is read; in `/u/x.c.old/d` it is called `..`. -/
theorem C96_full_is_false : ¬C96_full := by
  intro h
  obtain ⟨r, h1, -⟩ := h c!"/u/x.c.old" c!"/u/x.c"
    (.inr ⟨[c!"u", c!"x.c.old"], by simp, PathEx.proper_of (by decide +kernel), by decide +kernel⟩)
    ⟨[c!"u", c!"x.c"], by simp, PathEx.proper_of (by decide +kernel), by decide +kernel⟩
  have : outputPath c!"/u/x.c.old" c!"/u/x.c" = none := by decide +kernel
  rw [this] at h1
  cases h1

example : outputPath c!"/u/x.c.old/d" c!"/u/x.c" = some c!".." := by decide +kernel

/-- What happens exactly: the name is wrong, or missing, when the name of the working directory begins
with it and goes on with something other than a slash, unless there are too many directories after
it. -/
theorem C96_exactly {cwd f : Name} (hc : Cwd cwd) (hf : Normal f) :
    (∃ r, outputPath cwd f = some r ∧ resolve (full cwd r) = resolve f)
    ↔ ¬∃ c d, cwd = f ++ c :: d ∧ c ≠ '/' ∧ 3 * d.count '/' < f.length := by
  obtain ⟨fs, hfn, hfp, rfl⟩ := hf
  rw [resolve_render hfp]
  rcases hc with rfl | ⟨ds, hdn, hdp, rfl⟩
  · have hfh := render_head hfn
    have hne : render fs ≠ [] := by intro e; rw [e] at hfh; cases hfh
    constructor
    · rintro - ⟨c, d, h, -, -⟩
      have hl := congrArg List.length h
      simp only [List.length_cons, List.length_nil, List.length_append] at hl
      have : 0 < (render fs).length := List.length_pos_iff.2 hne
      omega
    · intro _
      refine ⟨render fs, ?_, by rw [full_abs _ hfh, resolve_render hfp]⟩
      cases fs with
      | nil => exact absurd rfl hfn
      | cons w fs =>
        have hw := hfp w (by simp)
        rw [render_cons]
        cases w with
        | nil => exact absurd rfl hw.1
        | cons x w =>
          have hx : x ≠ '/' := fun e => hw.2.2.2 (by simp [e])
          unfold outputPath
          rw [if_neg (by simp), List.cons_append, common, if_pos rfl, common]
          · simp only [List.cons_ne_nil, false_or, true_and, List.head?_cons, Option.some.injEq]
            have hk : afterSlash ['/'] = [] := by decide
            rw [if_neg hx, hk]
            simp only [List.cons_ne_nil, if_false, List.nil_append, List.count_nil, List.length_cons]
            rw [if_pos (by omega)]
          · simp
  · constructor
    · rintro ⟨r, h1, h2⟩ ⟨c, d, h3, h4, h5⟩
      exact outputPath_bad hdp hfp hfn h3 h4 h5 h1 h2
    · intro h
      exact outputPath_good hdp hdn hfp hfn h

/-- Unless the name of the working directory begins with that of the file.  Missing: that case
(`C96_full_is_false`). -/
theorem C96_partial {cwd f : Name} (hc : Cwd cwd) (hf : Normal f) (h : ∀ x, cwd ≠ f ++ x) :
    ∃ r, outputPath cwd f = some r ∧ resolve (full cwd r) = resolve f :=
  (C96_exactly hc hf).2 fun ⟨c, d, h1, _⟩ => h (c :: d) h1

example : Cwd PathEx.cwd ∧ Normal c!"/home/u/lib/x.h"
    ∧ outputPath PathEx.cwd c!"/home/u/lib/x.h" = some c!"../lib/x.h"
    ∧ outputPath PathEx.cwd c!"/home/u/src/d/x.h" = some c!"d/x.h" :=
  ⟨.inr ⟨[c!"home", c!"u", c!"src"], by simp, PathEx.proper_of (by decide +kernel), by decide +kernel⟩,
   ⟨[c!"home", c!"u", c!"lib", c!"x.h"], by simp, PathEx.proper_of (by decide +kernel),
    by decide +kernel⟩, by decide +kernel, by decide +kernel⟩

theorem PathEx.length_ups (n : Nat) : (List.replicate n ['.', '.', '/']).flatten.length = n * 3 := by
  induction n with
  | zero => rfl
  | succ n ih =>
    rw [List.replicate_succ, List.flatten_cons, List.length_append, ih]
    simp only [List.length_cons, List.length_nil]
    omega

/-- The name in a message is no longer than the absolute name. -/
theorem C96_short {cwd f r : Name} (h : outputPath cwd f = some r) : r.length ≤ f.length := by
  unfold outputPath at h
  split_ifs at h with h0
  have hlen : 0 < f.length := List.length_pos_iff.2 h0
  obtain ⟨-, h2, -⟩ := common_eq cwd f
  generalize common cwd f = t at h h2
  obtain ⟨pre, c, p⟩ := t
  simp only at h h2
  have hl := congrArg List.length h2
  rw [List.length_append] at hl
  split_ifs at h with h3 h4 h5 h6 h7 h8 h9 h10
  all_goals
    cases h
    first
    | (simp only [List.length_singleton]; omega)
    | (simp only [List.length_drop]; omega)
    | exact Nat.le_refl _
    | (simp only [List.length_dropLast, List.length_append, PathEx.length_ups] at *
       omega)

example : outputPath PathEx.cwd c!"/tmp/x.c" = some c!"/tmp/x.c" := by decide +kernel

end Splint
