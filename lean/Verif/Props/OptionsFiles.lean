import Verif.Proofs.OptionsPerform
import Verif.Proofs.OptionsRc
import Verif.Props.Options
/-! C92: the command line overrides the options files, and the default options files are read when
they should be.  C93: the flags of an options file.  C94: every options file is read once. -/
namespace Splint
open Flag Opt

/-! ### C92 -/

/-- The default options files are read unless `-nof` or `-f` is given, before anything but the
options that control messages. -/
def C92_defaults_full : Prop :=
  ∀ (e : Env) (is : List Opt.Spec.Item), (∀ i ∈ is, i.Ok) → (∀ i ∈ is, i.Calm) →
    startup e (Opt.Spec.spell is)
      = is.flatMap Opt.Spec.Item.early
        ++ (Opt.Spec.defaultFiles e is ++ loop true (Opt.Spec.spell is))

/-- What happens exactly: a file for messages also keeps the options file in the home directory from
being read. -/
theorem C92_defaults_exactly (e : Env) (is : List Opt.Spec.Item) (h : ∀ i ∈ is, i.Ok)
    (hc : ∀ i ∈ is, i.Calm) :
    startup e (Opt.Spec.spell is)
      = is.flatMap Opt.Spec.Item.early
        ++ ((if is.any (Opt.Spec.Item.flagIs FLG_NOF) || is.any (Opt.Spec.Item.flagIs FLG_OPTF) then []
            else (if is.any Opt.Spec.Item.stream then [] else e.home.map (.rc · false))
              ++ e.here.map (.rc · false))
          ++ loop true (Opt.Spec.spell is)) := by
  have h1 := prescan_items {} is h hc []
  rw [List.append_nil, prescan_nil, foldl_upPre, List.append_nil] at h1
  unfold startup
  simp only
  rw [h1]
  simp only [Bool.false_or, Bool.true_and]
  unfold defaults
  simp only
  congr 1
  congr 1
  cases is.any (Opt.Spec.Item.flagIs FLG_NOF) <;> cases is.any (Opt.Spec.Item.flagIs FLG_OPTF) <;>
    simp

/-- Without files for messages it is as it should be.  Missing: those
(`C92_defaults_full_is_false`), and arguments of options that look like options
(`C92_argument_is_option`). -/
theorem C92_defaults_partial (e : Env) (is : List Opt.Spec.Item) (h : ∀ i ∈ is, i.Ok)
    (hc : ∀ i ∈ is, i.Calm) (hs : ∀ i ∈ is, i.stream = false) :
    startup e (Opt.Spec.spell is)
      = is.flatMap Opt.Spec.Item.early
        ++ (Opt.Spec.defaultFiles e is ++ loop true (Opt.Spec.spell is)) := by
  rw [C92_defaults_exactly e is h hc]
  have : is.any Opt.Spec.Item.stream = false := by
    rw [List.any_eq_false]
    intro i hi
    rw [hs i hi]
    decide
  rw [this]
  simp [Opt.Spec.defaultFiles]

/-- Where the options files are in the examples. -/
def OptEx.env : Env :=
  { home := [c!"/h/.splintrc", c!"/h/.lclintrc"], here := [c!"/p/.splintrc", c!"/p/.lclintrc"] }

/-- `-messagestream out.txt`. -/
def OptEx.streamItems : List Opt.Spec.Item := [.optArg c!"-messagestream" c!"out.txt"]

theorem OptEx.streamItems_ok : (∀ i ∈ OptEx.streamItems, i.Ok) ∧ ∀ i ∈ OptEx.streamItems, i.Calm := by
  unfold OptEx.streamItems
  simp only [List.mem_singleton, forall_eq]
  exact ⟨⟨OptEx.signed_minus _, FLG_MESSAGESTREAM, by decide +kernel,
    .inl ((wants_iff _).2 (by decide +kernel))⟩, OptEx.not_signed (by decide)⟩

theorem C92_defaults_full_is_false : ¬C92_defaults_full := by
  intro h
  have h1 := h OptEx.env OptEx.streamItems OptEx.streamItems_ok.1 OptEx.streamItems_ok.2
  revert h1
  decide +kernel

/-- `-f opts +showscan x.c`. -/
def OptEx.fItems : List Opt.Spec.Item :=
  [.optArg c!"-f" c!"opts", .opt c!"+showscan", .file c!"x.c"]

theorem OptEx.fItems_ok : (∀ i ∈ OptEx.fItems, i.Ok) ∧ ∀ i ∈ OptEx.fItems, i.Calm := by
  unfold OptEx.fItems
  simp only [List.mem_cons, List.not_mem_nil, or_false, forall_eq_or_imp, forall_eq]
  refine ⟨⟨⟨OptEx.signed_minus _, FLG_OPTF, by decide +kernel,
    .inl ((wants_iff _).2 (by decide +kernel))⟩, ⟨OptEx.signed_plus _, ?_⟩,
    OptEx.not_signed (by decide)⟩, OptEx.not_signed (by decide), trivial, trivial⟩
  exact OptEx.not_wants (f := FLG_SHOWSCAN) (by decide +kernel) (by decide +kernel) (by decide)

example : (∀ i ∈ OptEx.fItems, i.Ok) ∧ (∀ i ∈ OptEx.fItems, i.Calm)
    ∧ (∀ i ∈ OptEx.fItems, i.stream = false)
    ∧ startup OptEx.env (Opt.Spec.spell OptEx.fItems)
      = [.rc c!"opts" true, .set FLG_SHOWSCAN true, .set FLG_OPTF false, .file c!"x.c"] :=
  ⟨OptEx.fItems_ok.1, OptEx.fItems_ok.2, by decide +kernel, by decide +kernel⟩

/-- The first pass takes the arguments of options for options: the options files are not read
although `-nof` is the name of the directory for temporary files. -/
theorem C92_argument_is_option :
    startup OptEx.env [c!"-tmpdir", c!"-nof"]
      = [.set FLG_TMPDIR false, .string FLG_TMPDIR c!"-nof"]
    ∧ startup OptEx.env [c!"-tmpdir", c!"d"]
      = OptEx.env.home.map (.rc · false) ++ OptEx.env.here.map (.rc · false)
        ++ [.set FLG_TMPDIR false, .string FLG_TMPDIR c!"d"] := by decide +kernel

/-- "Command-line flags override settings in either file": the last flag of the command line is set
as it says there when the options have been processed, whatever the options files contain. -/
def C92_override_full : Prop :=
  ∀ (e : Env) (fs : Files) (seen : List Word) (s : St) (is : List Opt.Spec.Item) (f : Nat) (r : Row)
    (c : Char) (n : Word), (∀ i ∈ is, i.Ok) → (∀ i ∈ is, i.ends = false) →
    table[f]? = some r → r.arg = .none → Flag.Spec.bare n = r.name → (c = '-' ∨ c = '+') →
    Flag.Spec.deviates f (c == '+') = false →
    ¬(c = '+' ∧ (f = FLG_NEVERINCLUDE ∨ f = FLG_EXPORTHEADER)) →
    Quiet (perform fs seen (startup e (Opt.Spec.spell is ++ [c :: n]))) →
    (flagsAfter s (perform fs seen (startup e (Opt.Spec.spell is ++ [c :: n])))).flags f
      = Flag.Spec.own f (c == '+')

/-- The flags that control messages are set before the options files are read and not again, so that
an options file overrides the command line. -/
theorem C92_override_full_is_false : ¬C92_override_full := by
  intro h
  obtain ⟨r, hr, ha, hn⟩ : ∃ r, table[FLG_SHOWSCAN]? = some r ∧ r.arg = .none
      ∧ Flag.Spec.bare c!"showscan" = r.name := ⟨_, rfl, by decide +kernel, by decide +kernel⟩
  have hp : perform [(c!"/p/.splintrc", c!"+showscan")] []
      (startup OptEx.env (Opt.Spec.spell [] ++ [c!"-showscan"]))
      = [.set FLG_SHOWSCAN false, .loading c!"/p/.splintrc", .set FLG_SHOWSCAN true] :=
    perform_of_for (k := 20) (by decide +kernel)
  have h1 := h OptEx.env [(c!"/p/.splintrc", c!"+showscan")] [] FlagEx.s0 [] FLG_SHOWSCAN r '-'
    c!"showscan" (by simp) (by simp) hr ha hn (.inl rfl) (by decide +kernel) (by decide)
    (by unfold Quiet; rw [hp]; decide +kernel)
  rw [hp] at h1
  revert h1
  decide +kernel

/-- Every other flag: the last one of the command line wins.  Missing: the flags that control
messages (`C92_override_full_is_false`), `-i` and obsolete options before it, and the settings
excluded by C35. -/
theorem C92_override_partial (e : Env) (fs : Files) (seen : List Word) (s : St)
    (is : List Opt.Spec.Item) {f : Nat} {r : Row} {c : Char} {n : Word} (h : ∀ i ∈ is, i.Ok)
    (he : ∀ i ∈ is, i.ends = false)
    (hr : table[f]? = some r) (ha : r.arg = .none) (hn : Flag.Spec.bare n = r.name)
    (hc : c = '-' ∨ c = '+') (hd : Flag.Spec.deviates f (c == '+') = false)
    (hx : ¬(c = '+' ∧ (f = FLG_NEVERINCLUDE ∨ f = FLG_EXPORTHEADER)))
    (hq : Quiet (perform fs seen (startup e (Opt.Spec.spell is ++ [c :: n]))))
    (hm : f ∉ Opt.Spec.controlsMessages) :
    (flagsAfter s (perform fs seen (startup e (Opt.Spec.spell is ++ [c :: n])))).flags f
      = Flag.Spec.own f (c == '+') := by
  have e1 : ∃ X, startup e (Opt.Spec.spell is ++ [c :: n]) = X ++ [.set f (c == '+')] := by
    unfold startup
    simp only
    rw [C90_partial true is [c :: n] h he, C91_flag true hr ha hn hc (fun _ => hm) [], loop_nil]
    exact ⟨_, by rw [← List.append_assoc, ← List.append_assoc]⟩
  obtain ⟨X, hX⟩ := e1
  rw [hX] at hq ⊢
  rw [perform_append fs seen X f _ (perform_quiet fs seen X f _ hq)]
  unfold flagsAfter
  rw [List.foldl_append, List.foldl_cons, List.foldl_nil]
  have hf : f < NUMFLAGS := by
    rw [← table_length]
    exact (List.getElem?_eq_some_iff.1 hr).1
  have := FlagEx.cmd_flags ((perform fs seen X).foldl applyAct s) (c := .flag f (c == '+') none)
    ⟨hf, hd, by simp, by simpa using hx⟩ f
  show (userSetFlag ((perform fs seen X).foldl applyAct s) f (c == '+')).flags f = _
  refine this.trans ?_
  simp [FlagEx.opt, Flag.Spec.Opt.mentions, Flag.Spec.documented]

/-- Two options files. -/
def OptEx.two : Files :=
  [(c!"/p/.splintrc", c!"+nullderef # on\n-f more"), (c!"more", c!"+nullderef")]

example : perform OptEx.two [] (startup OptEx.env [c!"x.c", c!"-nullderef"])
      = [.loading c!"/p/.splintrc", .set FLG_NULLDEREF true, .set FLG_OPTF false, .loading c!"more",
         .set FLG_NULLDEREF true, .file c!"x.c", .set FLG_NULLDEREF false]
    ∧ FLG_NULLDEREF ∉ Opt.Spec.controlsMessages
    ∧ Flag.Spec.deviates FLG_NULLDEREF false = false :=
  ⟨perform_of_for (k := 20) (by decide +kernel), by decide, by decide +kernel⟩

/-- The second pass leaves the flags that control messages alone. -/
theorem C92_control {f : Nat} {r : Row} (hr : table[f]? = some r) (ha : r.arg = .none)
    {n : Word} (hn : Flag.Spec.bare n = r.name) {c : Char} (hc : c = '-' ∨ c = '+')
    (hm : f ∈ Opt.Spec.controlsMessages) (b : List Word) :
    loop true ((c :: n) :: b) = loop true b := by
  have hA : argOf f = .none := by simp [argOf, hr, ha]
  have hl := controls_letters f hm
  have hi : identify (Opt.Spec.name (c :: n)) = .flag f := by
    rw [← flagName_eq]
    have h1 : Flag.Spec.bare (flagName (c :: n)) = r.name := by
      rw [← hn]
      unfold flagName
      simp only [List.drop_succ_cons, List.drop_zero]
      split_ifs with h
      · cases n with
        | nil => simp at h
        | cons d n =>
          simp only [List.head?_cons, Option.some.injEq] at h
          subst h
          simp [Flag.Spec.bare, Flag.Spec.punctuation]
      · rfl
    rcases C37_names hr h1 with h | h
    · exact h
    · exact absurd h hl.1
  have ho : isOption (c :: n) = true := by rcases hc with rfl | rfl <;> rfl
  have hh : f ≠ FLG_HELP := by
    rintro rfl
    exact absurd hm (by decide)
  have hlet := hl.1
  simp only [Opt.Spec.letters, List.mem_cons, List.not_mem_nil, or_false] at hlet
  rw [loop_cons]
  unfold one
  rw [if_pos ho, flagName_eq, hi]
  simp only
  rw [if_neg hh, if_neg (by tauto), if_neg (by tauto),
    if_pos (by rw [(isMessageControl_iff f).2 hm]; rfl)]
  have hA' : hasArgument f = false := by simp [hasArgument, hA]
  rw [hA']
  rfl

example : FLG_WARNRC ∈ Opt.Spec.controlsMessages
    ∧ loop true [c!"-warnrc", c!"x.c"] = [.file c!"x.c"] := by decide +kernel

/-! ### C93 -/

/-- The flags found in a line of an options file are exactly those of the description; "Missing flag"
does not happen. -/
theorem C93_line (s : Word) (ws : List Word) : lineFlags s = some ws ↔ Opt.Spec.Line s ws :=
  lineFlags_iff s ws

theorem C93_noMissing (s : Word) : lineFlags s ≠ none := by
  obtain ⟨ws, h⟩ := lineFlags_some s
  rw [h]
  simp

example : lineFlags c!"  -DX=\"a b\" +strict # -nof\n" = some [c!"-DX=\"a b\"", c!"+strict"] := by
  decide +kernel

/-- The flags of a line are determined by it. -/
theorem C93_deterministic {s : Word} {ws ws' : List Word} (h : Opt.Spec.Line s ws)
    (h' : Opt.Spec.Line s ws') : ws = ws' := by
  have h1 := lineFlags_of_line h
  rw [lineFlags_of_line h'] at h1
  exact (Option.some.inj h1).symm

example : Opt.Spec.Line c!"+a\n" [c!"+a"] := (lineFlags_iff _ _).1 (by decide +kernel)

/-- "the # character may be used to indicate that the remainder of the line is a comment" (outside
quotes). -/
def C93_comment_full : Prop :=
  ∀ s t, Opt.Spec.place s = .plain → lineFlags (s ++ '#' :: t) = lineFlags s

/-- In `-nof#x` the `#` is part of the flag. -/
theorem C93_comment_full_is_false : ¬C93_comment_full := by
  intro h
  have := h c!"-nof" c!"x" (by decide)
  revert this
  decide +kernel

theorem OptEx.place_append (a b : Word) :
    Opt.Spec.place (a ++ b) = b.foldl Opt.Spec.Place.step (Opt.Spec.place a) := by
  simp [Opt.Spec.place]

theorem OptEx.line_comment {s : Word} {ws : List Word} (h : Opt.Spec.Line s ws) (t : Word) {k : Char}
    (hk : k = '#' ∨ k = ';')
    (hp : Opt.Spec.place s = .plain) (hb : ∀ d ∈ s.getLast?, Opt.Spec.isBlank d) :
    Opt.Spec.Line (s ++ k :: t) ws := by
  induction h with
  | nil => exact .comment t (by tauto)
  | @blank c s ws h _ ih =>
    refine .blank h (ih ?_ ?_)
    · have : Opt.Spec.Place.step .plain c = .plain := by
        rcases h with rfl | rfl <;> rfl
      unfold Opt.Spec.place at hp ⊢
      rw [List.foldl_cons, this] at hp
      exact hp
    · intro d hd
      apply hb
      rw [List.getLast?_cons]
      rw [Option.mem_def] at hd ⊢
      rw [hd]
      rfl
  | @comment c s h => exact .comment _ h
  | @flag c w rest ws hc hw hr hl ih =>
    rcases hr with rfl | ⟨hpl, d, u, rfl, hd⟩
    · exfalso
      rw [List.append_nil] at hp hb
      have hne : c :: w ≠ [] := by simp
      have h1 := List.dropLast_append_getLast hne
      have h2 : Opt.Spec.isBlank ((c :: w).getLast hne) :=
        hb _ (by rw [Option.mem_def, List.getLast?_eq_getLast_of_ne_nil hne])
      refine hw (c :: w).dropLast _ [] h1.symm ?_ (.inl h2)
      rw [← h1, OptEx.place_append, List.foldl_cons, List.foldl_nil] at hp
      cases hq : Opt.Spec.place (c :: w).dropLast with
      | plain => rfl
      | quoted =>
        rw [hq] at hp
        rcases h2 with h2 | h2 <;> rw [h2] at hp <;> simp [Opt.Spec.Place.step] at hp
      | escaped =>
        rw [hq] at hp
        simp [Opt.Spec.Place.step] at hp
    · rw [List.append_assoc]
      refine .flag hc hw (.inr ⟨hpl, d, u ++ k :: t, by simp, hd⟩) (ih ?_ ?_)
      · rw [OptEx.place_append, hpl] at hp
        exact hp
      · intro x hx
        apply hb
        rw [Option.mem_def] at hx ⊢
        rw [List.getLast?_append, hx]
        rfl

/-- A `#` (or `;`) at the beginning of the line or after a blank, outside quotes, starts a comment.
Missing: after anything else it is part of the flag (`C93_comment_full_is_false`). -/
theorem C93_comment_partial (s t : Word) {k : Char} (hk : k = '#' ∨ k = ';')
    (hp : Opt.Spec.place s = .plain) (hb : ∀ d ∈ s.getLast?, Opt.Spec.isBlank d) :
    lineFlags (s ++ k :: t) = lineFlags s := by
  obtain ⟨ws, h⟩ := line_exists s
  rw [lineFlags_of_line h, lineFlags_of_line (OptEx.line_comment h t hk hp hb)]

example : Opt.Spec.place c!"-DX=\"a #\" " = .plain
    ∧ (∀ d ∈ (c!"-DX=\"a #\" ").getLast?, Opt.Spec.isBlank d)
    ∧ lineFlags c!"-DX=\"a #\" # b" = some [c!"-DX=\"a #\""] := by
  refine ⟨by decide, ?_, by decide +kernel⟩
  intro d hd
  have : d = ' ' := by simpa using hd.symm
  exact .inl this

/-- The text of an options file is its lines, each of which ends with the end of line, but for the
last. -/
theorem C93_lines (t : List Char) :
    (lines t).flatten = t ∧ (∀ l ∈ lines t, l ≠ [] ∧ '\n' ∉ l.dropLast)
    ∧ ∀ l ∈ (lines t).dropLast, l.getLast? = some '\n' := by
  induction t with
  | nil => simp [lines]
  | cons c t ih =>
    obtain ⟨h1, h2, h3⟩ := ih
    unfold lines
    split_ifs with hc
    · refine ⟨by simp [h1], ?_, ?_⟩
      · intro l hl
        rcases List.mem_cons.1 hl with rfl | hl
        · simp
        · exact h2 l hl
      · intro l hl
        cases hls : lines t with
        | nil => rw [hls] at hl; simp at hl
        | cons x xs =>
          rw [hls, List.dropLast_cons_of_ne_nil (by simp)] at hl
          rcases List.mem_cons.1 hl with rfl | hl
          · simp [hc]
          · exact h3 l (by rw [hls]; exact hl)
    · cases hls : lines t with
      | nil =>
        rw [hls] at h1
        simp only [List.flatten_nil] at h1
        simp [← h1]
      | cons x xs =>
        rw [hls] at h1 h2 h3
        have hx := h2 x (by simp)
        refine ⟨?_, ?_, ?_⟩
        · simp only [List.flatten_cons, List.cons_append] at h1 ⊢
          rw [h1]
        · intro l hl
          rcases List.mem_cons.1 hl with rfl | hl
          · refine ⟨by simp, ?_⟩
            rw [List.dropLast_cons_of_ne_nil hx.1, List.mem_cons]
            rintro (h | h)
            · exact hc h.symm
            · exact hx.2 h
          · exact h2 l (by simp [hl])
        · intro l hl
          cases xs with
          | nil => simp at hl
          | cons y ys =>
            rw [List.dropLast_cons_of_ne_nil (by simp)] at hl h3
            rcases List.mem_cons.1 hl with rfl | hl
            · have := h3 x (by simp)
              rw [List.getLast?_cons, this]
              rfl
            · exact h3 l (by simp [hl])

example : lines c!"+a\n\n-b" = [c!"+a\n", c!"\n", c!"-b"] := by decide +kernel

/-- Every options file can be read. -/
def C93_full : Prop :=
  ∀ t, ∃ wss : List (List Word), List.Forall₂ Opt.Spec.Line (lines t) wss
    ∧ rcArgs t = some wss.flatten

/-- What happens exactly: a line of more than 1024 characters is written beyond the end of the
buffer; otherwise the flags are those of all the lines, in order. -/
theorem C93_exactly (t : List Char) :
    (rcArgs t = none ↔ ∃ l ∈ lines t, 1024 < l.length)
    ∧ ((∀ l ∈ lines t, l.length ≤ 1024) → ∃ wss : List (List Word),
        List.Forall₂ Opt.Spec.Line (lines t) wss ∧ rcArgs t = some wss.flatten) := by
  unfold rcArgs
  generalize lines t = ls
  induction ls with
  | nil => exact ⟨by simp, fun _ => ⟨[], .nil, rfl⟩⟩
  | cons l ls ih =>
    rw [List.foldr_cons]
    obtain ⟨ws, hl⟩ := line_exists l
    by_cases h : l.length ≤ maxLine
    · rw [if_pos h, lineFlags_of_line hl]
      have h' : ¬ 1024 < l.length := by unfold maxLine at h; omega
      constructor
      · have : (∃ x ∈ l :: ls, 1024 < x.length) ↔ ∃ x ∈ ls, 1024 < x.length := by
          simp [h']
        rw [this, ← ih.1]
        generalize List.foldr _ _ ls = r
        cases r <;> simp
      · intro hx
        obtain ⟨wss, h1, h2⟩ := ih.2 (fun x hx' => hx x (by simp [hx']))
        refine ⟨ws :: wss, .cons hl h1, ?_⟩
        rw [h2]
        rfl
    · rw [if_neg h]
      unfold maxLine at h
      refine ⟨⟨fun _ => ⟨l, by simp, by omega⟩, fun _ => rfl⟩, fun hx => absurd (hx l (by simp)) h⟩

theorem C93_full_is_false : ¬C93_full := by
  intro h
  obtain ⟨wss, _, h1⟩ := h (List.replicate 1025 'a')
  have : rcArgs (List.replicate 1025 'a') = none := by
    rw [(C93_exactly _).1]
    have : lines (List.replicate 1025 'a') = [List.replicate 1025 'a'] := by decide +kernel
    rw [this]
    exact ⟨_, List.mem_singleton_self _, by rw [List.length_replicate]; omega⟩
  rw [this] at h1
  cases h1

/-- With lines of at most 1024 characters, the flags are those of all the lines, in order.  Missing:
longer lines. -/
theorem C93_partial (t : List Char) (h : ∀ l ∈ lines t, l.length ≤ 1024) :
    ∃ wss : List (List Word), List.Forall₂ Opt.Spec.Line (lines t) wss
      ∧ rcArgs t = some wss.flatten := (C93_exactly t).2 h

example : (∀ l ∈ lines c!"+strict\n# x\n-linelen\n100\n", l.length ≤ 1024)
    ∧ rcArgs c!"+strict\n# x\n-linelen\n100\n" = some [c!"+strict", c!"-linelen", c!"100"] := by
  decide +kernel

/-! ### C94 -/

theorem OptEx.processRc_loaded (args : List Word) : loaded (processRc args) = [] := by
  unfold processRc
  simp only
  have h1 : ∀ p : Opt.Act → Bool, loaded ((loop false args).filter p) = [] := by
    intro p
    have := loop_loaded false args
    unfold loaded at this ⊢
    rw [List.filterMap_eq_nil_iff] at this ⊢
    intro a ha
    exact this a (List.mem_filter.1 ha).1
  split_ifs
  · exact h1 _
  · rw [loaded_append, h1]
    rfl

/-- Whatever options are asked for, and whatever the options files contain, even if they name each
other, reading them comes to an end (`perform` is total), every options file is read at most once,
none that was read before, and only files that can be opened. -/
theorem C94_once (fs : Files) (seen : List Word) (as : List Opt.Act) (h : loaded as = []) :
    (loaded (perform fs seen as)).Nodup
    ∧ ∀ n ∈ loaded (perform fs seen as), n ∉ seen ∧ (fs.lookup n).isSome := by
  refine perform.induct fs (fun seen as => loaded as = [] → (loaded (perform fs seen as)).Nodup
    ∧ ∀ n ∈ loaded (perform fs seen as), n ∉ seen ∧ (fs.lookup n).isSome)
    ?_ ?_ ?_ ?_ ?_ ?_ ?_ ?_ seen as h
  · intro seen _
    simp [loaded]
  · intro seen n r as hn ih h
    have h2 : loaded as = [] := h
    have e : loaded (perform fs seen (.rc n r :: as)) = loaded (perform fs seen as) := by
      rw [perform_seen fs hn, loaded_append]
      cases r <;> simp [loaded]
    rw [e]
    exact ih h2
  · intro seen n r as hn hl ih h
    have h2 : loaded as = [] := h
    have e : loaded (perform fs seen (.rc n r :: as)) = loaded (perform fs seen as) := by
      rw [perform_none hn hl, loaded_append]
      cases r <;> simp [loaded]
    rw [e]
    exact ih h2
  · intro seen n r as hn t hl ha _
    rw [perform_bad hn hl ha]
    have : loaded [.loading n, .outOfBounds] = [n] := rfl
    rw [this]
    refine ⟨by simp, fun m hm => ?_⟩
    rw [List.mem_singleton] at hm
    subst hm
    exact ⟨hn, by rw [hl]; rfl⟩
  · intro seen n r as hn t hl args ha ih h
    have h2 : loaded as = [] := h
    obtain ⟨i1, i2⟩ := ih (by rw [loaded_append, OptEx.processRc_loaded, h2]; rfl)
    rw [perform_load hn hl ha]
    have : ∀ l, loaded (.loading n :: l) = n :: loaded l := fun l => rfl
    rw [this, List.nodup_cons]
    refine ⟨⟨fun hm => (i2 n hm).1 (by simp), i1⟩, ?_⟩
    intro m hm
    rcases List.mem_cons.1 hm with rfl | hm
    · exact ⟨hn, by simp [hl]⟩
    · have := i2 m hm
      simp only [List.mem_cons, not_or] at this
      exact ⟨this.1.2, this.2⟩
  · intro seen as _
    simp [loaded]
  · intro seen as _
    simp [loaded]
  · intro seen a as h1 h2 h3 ih h
    rw [perform_other fs seen as h1 h2 h3]
    have e : loaded as = [] := by
      unfold loaded at h ⊢
      rw [List.filterMap_eq_nil_iff] at h ⊢
      exact fun x hx => h x (by simp [hx])
    have e2 : loaded (a :: perform fs seen as) = loaded (perform fs seen as) := by
      cases a with
      | loading n => cases h
      | _ => rfl
    rw [e2]
    exact ih e

/-- For the whole command line. -/
theorem C94_startup (e : Env) (fs : Files) (seen args : List Word) :
    (loaded (perform fs seen (startup e args))).Nodup
    ∧ ∀ n ∈ loaded (perform fs seen (startup e args)), n ∉ seen ∧ (fs.lookup n).isSome := by
  apply C94_once
  unfold startup
  simp only
  rw [loaded_append, loaded_append, loop_loaded]
  have h1 : ∀ p, loaded (prescan p args).1 = [] := by
    suffices h : ∀ n, ∀ args : List Word, args.length ≤ n → ∀ p, loaded (prescan p args).1 = [] from
      h args.length args (Nat.le_refl _)
    intro n
    induction n with
    | zero =>
      intro args h p
      have : args = [] := List.length_eq_zero_iff.1 (by omega)
      rw [this]
      simp [loaded]
    | succ n ih =>
      intro args h p
      cases args with
      | nil => simp [loaded]
      | cons a rest =>
        rw [List.length_cons] at h
        rw [prescan_cons]
        simp only
        have h2 : loaded (preOne p a rest.head?).1 = [] := by
          unfold preOne
          (repeat' split) <;> simp only <;> (repeat' split) <;> rfl
        rw [loaded_append, h2]
        cases (preOne p a rest.head?).2.2 with
        | next => simpa using ih rest (by omega) _
        | skip => simpa using ih rest.tail (by rw [List.length_tail]; omega) _
        | stop => simp [loaded]
  have h2 : ∀ p, loaded (defaults e p) = [] := by
    intro p
    unfold defaults
    have h3 : ∀ l : List Word, loaded (l.map (Opt.Act.rc · false)) = [] := by
      intro l
      induction l with
      | nil => rfl
      | cons x l ih => exact ih
    split_ifs
    · rw [loaded_append, h3]; rfl
    · rw [loaded_append, h3, h3]; rfl
    · rfl
  rw [h1, h2]
  rfl

/-- An options file that is asked for is read, unless it has been before or cannot be opened, or
reading stops at an error. -/
theorem C94_read (fs : Files) (seen : List Word) (as : List Opt.Act) {n : Word} {r : Bool}
    (hm : Opt.Act.rc n r ∈ as) (hq : Quiet (perform fs seen as)) :
    n ∈ seen ∨ fs.lookup n = none ∨ n ∈ loaded (perform fs seen as) := by
  refine perform.induct fs (fun seen as => Opt.Act.rc n r ∈ as → Quiet (perform fs seen as) →
    n ∈ seen ∨ fs.lookup n = none ∨ n ∈ loaded (perform fs seen as))
    ?_ ?_ ?_ ?_ ?_ ?_ ?_ ?_ seen as hm hq
  · intro seen h
    simp at h
  · intro seen m q as hn ih h hq
    rw [perform_seen fs hn] at hq ⊢
    rcases List.mem_cons.1 h with h | h
    · cases h; exact .inl hn
    · rcases ih h (quiet_append.1 hq).2 with h | h | h
      · exact .inl h
      · exact .inr (.inl h)
      · rw [loaded_append]
        exact .inr (.inr (List.mem_append_right _ h))
  · intro seen m q as hn hl ih h hq
    rw [perform_none hn hl] at hq ⊢
    rcases List.mem_cons.1 h with h | h
    · cases h; exact .inr (.inl hl)
    · rcases ih h (quiet_append.1 hq).2 with h | h | h
      · exact .inl h
      · exact .inr (.inl h)
      · rw [loaded_append]
        exact .inr (.inr (List.mem_append_right _ h))
  · intro seen m q as hn t hl ha h hq
    rw [perform_bad hn hl ha] at hq
    exact absurd (by simp) hq.2
  · intro seen m q as hn t hl args ha ih h hq
    rw [perform_load hn hl ha] at hq ⊢
    have e : ∀ l, loaded (.loading m :: l) = m :: loaded l := fun l => rfl
    rw [e]
    rcases List.mem_cons.1 h with h | h
    · cases h; exact .inr (.inr (by simp))
    · rcases ih (List.mem_append_right _ h) (quiet_cons hq) with h | h | h
      · rcases List.mem_cons.1 h with h | h
        · exact .inr (.inr (by simp [h]))
        · exact .inl h
      · exact .inr (.inl h)
      · exact .inr (.inr (List.mem_cons_of_mem _ h))
  · intro seen as _ hq
    rw [perform_fatal] at hq
    exact absurd (by simp) hq.1
  · intro seen as _ hq
    rw [perform_oob] at hq
    exact absurd (by simp) hq.2
  · intro seen a as h1 h2 h3 ih h hq
    rw [perform_other fs seen as h1 h2 h3] at hq ⊢
    rcases List.mem_cons.1 h with h | h
    · exact absurd h.symm (fun hx => h1 _ _ hx)
    · rcases ih h (quiet_cons hq) with h | h | h
      · exact .inl h
      · exact .inr (.inl h)
      · right; right
        unfold loaded at h ⊢
        rw [List.filterMap_cons]
        split
        · exact h
        · exact List.mem_cons_of_mem _ h

/-- Two options files that name each other. -/
def OptEx.cycle : Files := [(c!"a", c!"-f b\n+null\n"), (c!"b", c!"-f a\n-null\n")]

example : perform OptEx.cycle [] [.rc c!"a" true]
    = [.loading c!"a", .set FLG_OPTF false, .loading c!"b", .set FLG_OPTF false, .msg (.again c!"a"),
       .set FLG_NULL false, .set FLG_NULL true] :=
  perform_of_for (k := 20) (by decide +kernel)

end Splint
