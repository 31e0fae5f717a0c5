import Verif.Proofs.FlagFile
import Mathlib.Data.List.Induction
import Mathlib.Data.List.TakeWhile
/-! C35: setting a mode or a flag group sets exactly the documented flags.
C36: local flag changes end with the file. -/
namespace Splint
open Splint.Flag

/-- Some state. -/
def FlagEx.s0 : St :=
  { flags := fun g => g == FLG_NULLDEREF || g == FLG_TOPUNUSED || g == FLG_PREDBOOLPTR
      || g == FLG_SHIFTNEGATIVE || g == FLG_NAMECHECKS || g == FLG_MAINTYPE
    values := fun _ => 63, saveflags := fun _ => false, saved := false
    setLocally := fun _ => false, setGlobally := fun _ => false, anyExports := false, markers := [] }

/-! ### C35 -/

/-- Setting a mode sets every mode flag to what the table of the mode says and leaves every other
flag, all values and the saved flags as they are, in every state. -/
theorem C35_mode (s : St) {m : List Char} {l : List Nat} (h : Spec.modes.lookup m = some l) :
    (setMode s m).2 = true
    ∧ (∀ g, (setMode s m).1.flags g = if Spec.isMode g then l.contains g else s.flags g)
    ∧ (setMode s m).1.values = s.values ∧ (setMode s m).1.saved = s.saved
    ∧ (setMode s m).1.saveflags = s.saveflags := by
  have hm : modeTable m = some l := by
    simp only [Spec.modes, List.lookup_cons, List.lookup_nil, beq_iff_eq] at h
    unfold modeTable
    by_cases h1 : m = c!"standard"
    · simpa [h1] using h
    · by_cases h2 : m = c!"weak"
      · simpa [h2] using h
      · by_cases h3 : m = c!"checks"
        · simpa [h3] using h
        · by_cases h4 : m = c!"strict"
          · simpa [h4] using h
          · have e1 : (m == c!"standard") = false := by simpa using h1
            have e2 : (m == c!"weak") = false := by simpa using h2
            have e3 : (m == c!"checks") = false := by simpa using h3
            have e4 : (m == c!"strict") = false := by simpa using h4
            simp only [e1, e2, e3, e4] at h
            cases h
  refine ⟨by simp [setMode, hm], setMode_flags s hm, setMode_values s m, setMode_saved s m⟩

example : Spec.modes.lookup c!"strict" = some mode_strict := by decide +kernel
example : (setMode FlagEx.s0 c!"weak").1.flags FLG_IFEMPTY = true
    ∧ (setMode FlagEx.s0 c!"weak").1.flags FLG_NULLDEREF = false
    ∧ (setMode FlagEx.s0 c!"weak").1.flags FLG_NAMECHECKS = true := by
  refine ⟨?_, ?_, ?_⟩ <;> rw [(C35_mode FlagEx.s0 (l := mode_weak) (by decide +kernel)).2.1] <;>
    decide +kernel

/-- All flags in the mode tables are mode flags, so that `SETFLAGS` never stops with an internal
bug. -/
theorem C35_modeTables {m : List Char} {l : List Nat} (h : modeTable m = some l) {f : Nat}
    (hf : f ∈ l) : Spec.isMode f = true := modeTable_mode h hf

example : modeTable c!"strict" = some mode_strict ∧ FLG_NULLDEREF ∈ mode_strict := by decide +kernel

/-- A name that is not exactly that of a mode turns all mode flags off. -/
theorem C35_badMode (s : St) {m : List Char} (h : modeTable m = none) :
    (setMode s m).2 = false
    ∧ ∀ g, (setMode s m).1.flags g = if Spec.isMode g then false else s.flags g := by
  refine ⟨by simp [setMode, h], fun g => ?_⟩
  simp only [setMode, h]
  exact resetModeFlags_flags s g

example : modeTable c!"stan_dard" = none := by decide +kernel

/-- What the setting of a flag should do: exactly what its documentation says. -/
def C35_full : Prop :=
  ∀ (s : St) (f : Nat) (b : Bool), f < NUMFLAGS →
    ∀ g, (setFlag s f b).flags g = Spec.after s.flags f b g

theorem C35_full_is_false : ¬C35_full := by
  intro h
  have h1 := h FlagEx.s0 FLG_PARTIAL true (by decide) FLG_TOPUNUSED
  revert h1
  decide +kernel

/-- The flags of a setting that is not among the deviating ones come out as documented: the group is
set, everything else stays.  Since the state is arbitrary this is after any other settings, so that
the later setting wins.  In control comments (`inFile`) the same is set.
Missing: the settings listed at `Spec.deviates`. -/
theorem C35_flag_partial (s : St) {f : Nat} {b : Bool} (inFile : Bool) (hf : f < NUMFLAGS)
    (hd : Spec.deviates f b = false) (g : Nat) :
    (setFlagAux s f b inFile).flags g = Spec.after s.flags f b g :=
  setFlagAux_documented s inFile hf hd g

example : Spec.deviates FLG_PREDBOOL false = false
    ∧ Spec.after FlagEx.s0.flags FLG_PREDBOOL false FLG_PREDBOOLPTR = false
    ∧ FlagEx.s0.flags FLG_PREDBOOLPTR = true := by decide +kernel
example : Spec.deviates FLG_ITS4RISKY true = false
    ∧ Spec.after FlagEx.s0.flags FLG_ITS4RISKY true FLG_ITS4LOWRISK = true
    ∧ Spec.after FlagEx.s0.flags FLG_ITS4RISKY true FLG_ITS4MOSTRISKY = false := by decide +kernel

/-- And these are the only ones: a setting is as documented in every state exactly when it is not
listed at `Spec.deviates`. -/
theorem C35_flag_exactly {f : Nat} (b inFile : Bool) (hf : f < NUMFLAGS) :
    (∀ (s : St) (g : Nat), (setFlagAux s f b inFile).flags g = Spec.after s.flags f b g)
      ↔ Spec.deviates f b = false := by
  constructor
  · intro h
    by_contra hd
    rw [Bool.not_eq_false] at hd
    obtain ⟨flags, g, hne⟩ := setFlagAux_deviates inFile hf hd FlagEx.s0
    exact hne (h { FlagEx.s0 with flags } g)
  · exact fun hd s g => setFlagAux_documented s inFile hf hd g

example : (setFlag FlagEx.s0 FLG_MEMTRANS true).flags FLG_READONLYTRANS = false
    ∧ (setFlag FlagEx.s0 FLG_MEMTRANS true).flags FLG_STATICTRANS = true := by decide +kernel
example : (setFlag FlagEx.s0 FLG_MACRODECL true).flags FLG_MACROFCNDECL = false := by decide +kernel
example : (setFlag FlagEx.s0 FLG_EXTERNALNAMELEN false).flags FLG_EXTERNALNAMELEN = true := by
  decide +kernel

/-- An option as the specification sees it. -/
def FlagEx.opt : Cmd → Spec.Opt
  | .flag f b _ => .flag f b
  | .mode m => .mode m

/-- The options `C35_history_partial` is about. -/
def FlagEx.Clean : Cmd → Prop
  | .flag f b v => f < NUMFLAGS ∧ Spec.deviates f b = false ∧ (v ≠ none → b = true)
      ∧ ¬(b = true ∧ (f = FLG_NEVERINCLUDE ∨ f = FLG_EXPORTHEADER))
  | .mode m => (Spec.modes.lookup m).isSome

theorem FlagEx.cmd_flags (s : St) {c : Cmd} (h : FlagEx.Clean c) (g : Nat) :
    (cmd s c).flags g = ((FlagEx.opt c).mentions g).getD (s.flags g) := by
  cases c with
  | mode m =>
    obtain ⟨l, hl⟩ := Option.isSome_iff_exists.1 h
    show (setMode s m).1.flags g = _
    rw [(C35_mode s hl).2.1]
    simp only [FlagEx.opt, Spec.Opt.mentions, hl]
    split_ifs <;> rfl
  | flag f b v =>
    obtain ⟨hf, hd, hv, hh⟩ := h
    have hu : (userSetFlag s f b).flags g = Spec.after s.flags f b g := by
      unfold userSetFlag
      rw [if_neg (fun e => hh ⟨e.2, Or.inl e.1⟩), if_neg (fun e => hh ⟨e.2.1, Or.inr e.1⟩)]
      exact setFlagAux_documented _ false hf hd g
    have hm : (FlagEx.opt (.flag f b v)).mentions g = (Spec.documented f b).lookup g := rfl
    rw [hm]
    cases v with
    | none => exact hu
    | some v =>
      have hb := hv (by simp)
      subst hb
      show (setValueFlag (userSetFlag s f true) f v).flags g = _
      rw [setValueFlag_flags]
      split_ifs with hc
      · rw [hc.2.2]
        simp [Spec.documented, Spec.own]
      · exact hu

/-- After any sequence of options none of which deviates, every flag has the setting given by the
last option that mentions it, by itself, by its group or by a mode; flags never mentioned are
unchanged.  Missing: the deviating settings, values with `-flag`, `+exportheader` and
`+neverinclude` (see `C35_headers_partial`), and unknown modes (`C35_badMode`). -/
theorem C35_history_partial (s : St) (cs : List Cmd) (h : ∀ c ∈ cs, FlagEx.Clean c) (g : Nat) :
    (cs.foldl cmd s).flags g = Spec.settled s.flags (cs.map FlagEx.opt) g := by
  induction cs using List.reverseRecOn with
  | nil => rfl
  | append_singleton cs c ih =>
    rw [List.foldl_append, List.foldl_cons, List.foldl_nil, FlagEx.cmd_flags _ (h c (by simp)) g,
      ih (fun x hx => h x (by simp [hx]))]
    simp only [Spec.settled, List.map_append, List.map_cons, List.map_nil, List.reverse_append,
      List.reverse_cons, List.reverse_nil, List.nil_append, List.singleton_append,
      List.findSome?_cons]
    cases (FlagEx.opt c).mentions g <;> rfl

example : ∀ c ∈ [Cmd.mode c!"strict", .flag FLG_NULL false none, .flag FLG_LINELEN true (some 90),
    .flag FLG_NULLDEREF true none], FlagEx.Clean c := by
  simp only [List.mem_cons, List.not_mem_nil, or_false, forall_eq_or_imp, forall_eq]
  refine ⟨?_, ?_, ?_, ?_⟩ <;> unfold FlagEx.Clean <;> decide +kernel
example : Spec.settled FlagEx.s0.flags [.mode c!"strict", .flag FLG_NULL false,
    .flag FLG_NULLDEREF true] FLG_NULLDEREF = true
    ∧ Spec.settled FlagEx.s0.flags [.mode c!"strict", .flag FLG_NULL false,
    .flag FLG_NULLDEREF true] FLG_NULLPASS = false := by decide +kernel

/-- What `context_userSetFlag` is to ensure (its warnings say so). -/
def C35_headers_full : Prop :=
  ∀ (s : St) (cs : List Cmd), (∀ f b v, Cmd.flag f b v ∈ cs → f < NUMFLAGS) →
    ¬(s.flags FLG_EXPORTHEADER = true ∧ s.flags FLG_NEVERINCLUDE = true) →
    ¬((cs.foldl cmd s).flags FLG_EXPORTHEADER = true
      ∧ (cs.foldl cmd s).flags FLG_NEVERINCLUDE = true)

/-- `+neverinclude +strict` leaves both on. -/
theorem C35_headers_full_is_false : ¬C35_headers_full := by
  intro h
  refine h FlagEx.s0 [.flag FLG_NEVERINCLUDE true none, .mode c!"strict"] ?_ (by decide) ⟨?_, ?_⟩
  · intro f b v hm
    simp only [List.mem_cons, Cmd.flag.injEq, reduceCtorEq, List.not_mem_nil, or_false] at hm
    rw [hm.1]; decide
  all_goals
    show (setMode (cmd FlagEx.s0 (.flag FLG_NEVERINCLUDE true none)) c!"strict").1.flags _ = true
    rw [(C35_mode _ (l := mode_strict) (by decide +kernel)).2.1]
    decide +kernel

/-- Headers are never both checked and left out: no sequence of options leaves `exportheader` and
`neverinclude` on together if they were not before.  Missing: the modes that turn `exportheader` on
(`C35_headers_full_is_false`). -/
theorem C35_headers_partial (s : St) (cs : List Cmd)
    (hc : ∀ f b v, Cmd.flag f b v ∈ cs → f < NUMFLAGS)
    (hm : ∀ m, Cmd.mode m ∈ cs → m = c!"standard" ∨ m = c!"weak")
    (h : ¬(s.flags FLG_EXPORTHEADER = true ∧ s.flags FLG_NEVERINCLUDE = true)) :
    ¬((cs.foldl cmd s).flags FLG_EXPORTHEADER = true
      ∧ (cs.foldl cmd s).flags FLG_NEVERINCLUDE = true) := by
  induction cs generalizing s with
  | nil => exact h
  | cons c cs ih =>
    rw [List.foldl_cons]
    apply ih _ (fun f b v hx => hc f b v (by simp [hx])) (fun m hx => hm m (by simp [hx]))
    have hx : headers.contains FLG_EXPORTHEADER = true := by decide
    have hn : headers.contains FLG_NEVERINCLUDE = true := by decide
    cases c with
    | mode m =>
      show ¬((setMode s m).1.flags _ = true ∧ (setMode s m).1.flags _ = true)
      have hl : (setMode s m).1.flags FLG_EXPORTHEADER = false := by
        rcases hm m (by simp) with rfl | rfl
        · rw [setMode_flags s (l := mode_standard) (by decide +kernel),
            if_pos (by decide +kernel)]
          decide +kernel
        · rw [setMode_flags s (l := mode_weak) (by decide +kernel),
            if_pos (by decide +kernel)]
          decide +kernel
      rw [hl]; simp
    | flag f b v =>
      have hf := hc f b v (by simp)
      have hu : ¬((userSetFlag s f b).flags FLG_EXPORTHEADER = true
          ∧ (userSetFlag s f b).flags FLG_NEVERINCLUDE = true) := by
        unfold userSetFlag
        split_ifs with h1 h2 h3
        · obtain ⟨rfl, hb⟩ := h1
          rw [setFlag, setFlagAux_documented _ false (by decide) (by revert hb; cases b <;> decide)]
          have : ∀ fl : Nat → Bool, Spec.after fl FLG_NEVERINCLUDE b FLG_EXPORTHEADER
              = fl FLG_EXPORTHEADER := by
            intro fl
            have hl : (Spec.documented FLG_NEVERINCLUDE b).lookup FLG_EXPORTHEADER = none := by
              cases b <;> decide +kernel
            rw [Spec.after, hl]; rfl
          rw [this]
          simp [upd]
        · obtain ⟨rfl, hb⟩ := h1
          rw [setFlag, setFlagAux_documented _ false (by decide) (by revert hb; cases b <;> decide)]
          have : ∀ fl : Nat → Bool, Spec.after fl FLG_NEVERINCLUDE b FLG_EXPORTHEADER
              = fl FLG_EXPORTHEADER := by
            intro fl
            have hl : (Spec.documented FLG_NEVERINCLUDE b).lookup FLG_EXPORTHEADER = none := by
              cases b <;> decide +kernel
            rw [Spec.after, hl]; rfl
          rw [this]
          exact fun e => h2 e.1
        · simp [upd]
        · by_cases hh : headers.contains f = true
          · have hcases : f = FLG_NEVERINCLUDE ∨ f = FLG_EXPORTHEADER := by
              simpa [headers, List.contains_iff_mem] using hh
            rcases hcases with rfl | rfl
            · have hb : b = false := by
                cases b with
                | false => rfl
                | true => exact absurd ⟨rfl, rfl⟩ h1
              subst hb
              rw [setFlag, setFlagAux_documented _ false (by decide) (by decide),
                setFlagAux_documented _ false (by decide) (by decide)]
              have hl : (Spec.documented FLG_NEVERINCLUDE false).lookup FLG_NEVERINCLUDE
                  = some false := by decide +kernel
              simp only [Spec.after, hl]
              simp
            · cases b with
              | false =>
                rw [setFlag, setFlagAux_documented _ false (by decide) (by decide),
                  setFlagAux_documented _ false (by decide) (by decide)]
                have hl : (Spec.documented FLG_EXPORTHEADER false).lookup FLG_EXPORTHEADER
                    = some false := by decide +kernel
                simp only [Spec.after, hl]
                simp
              | true =>
                have hni : s.flags FLG_NEVERINCLUDE = false := by
                  rw [← Bool.not_eq_true]
                  exact fun e => h3 ⟨rfl, rfl, e⟩
                rw [setFlag, setFlagAux_documented _ false (by decide) (by decide),
                  setFlagAux_documented _ false (by decide) (by decide)]
                have hl : (Spec.documented FLG_EXPORTHEADER true).lookup FLG_NEVERINCLUDE = none := by
                  decide +kernel
                simp only [Spec.after, hl]
                simp [hni]
          · rw [Bool.not_eq_true] at hh
            rw [setFlag, setFlag_headers hf hh _ b false hx, setFlag_headers hf hh _ b false hn]
            exact h
      cases v with
      | none => exact hu
      | some v =>
        show ¬((setValueFlag (userSetFlag s f b) f v).flags _ = true
          ∧ (setValueFlag (userSetFlag s f b) f v).flags _ = true)
        rw [setValueFlag_flags, setValueFlag_flags]
        have n1 : ¬(hasNumber f ∧ 0 ≤ v ∧ FLG_EXPORTHEADER = f) := by
          rintro ⟨a, _, rfl⟩; revert a; decide +kernel
        have n2 : ¬(hasNumber f ∧ 0 ≤ v ∧ FLG_NEVERINCLUDE = f) := by
          rintro ⟨a, _, rfl⟩; revert a; decide +kernel
        rw [if_neg n1, if_neg n2]
        exact hu

example : ¬(FlagEx.s0.flags FLG_EXPORTHEADER = true ∧ FlagEx.s0.flags FLG_NEVERINCLUDE = true) := by
  decide
example : (([.flag FLG_EXPORTHEADER true none, .flag FLG_NEVERINCLUDE true none] : List Cmd).foldl cmd
    FlagEx.s0).flags FLG_EXPORTHEADER = false := by decide +kernel

/-! ### C36 -/

/-- What should hold: every file is checked starting with the flags and values of the command
line. -/
def C36_full : Prop :=
  ∀ (s : St) (pps : List (List (Nat × Ynm))) (files : List (List Ev)), s.saved = false →
    (∀ cs ∈ pps, ∀ c ∈ cs, c.1 ∈ cppFlags) →
    ∀ t ∈ starts s pps files, t.flags = s.flags ∧ t.values = s.values

/-- After a file the flags are those of the time of its first control comment about a flag, and
those of its end if there is none; if flags were still saved when the file was begun they are the
saved ones. -/
theorem C36_file_exactly (s : St) (evs : List Ev) :
    (checkFile s evs).flags
      = (if s.saved then s.saveflags
         else ((evs.takeWhile fun e => !e.isLocal).foldl step s).flags)
    ∧ (checkFile s evs).saved = false :=
  ⟨by rw [checkFile, exitFile_flags, base_foldl], checkFile_saved s evs⟩

/-- The event sets no flags except by a control comment about a flag. -/
def Flag.Spec.Tidy : Ev → Prop
  | .flag _ _ _ => True
  | _ => False

/-- The event sets no value. -/
def Flag.Spec.NoValue : Ev → Prop
  | .flag f _ v => v = none ∧ ¬ f ∈ [FLG_ANSI89LIMITS, FLG_ISO99LIMITS,
      FLG_EXTERNALNAMECASEINSENSITIVE, FLG_INTERNALNAMECASEINSENSITIVE, FLG_INTERNALNAMELOOKALIKE]
  | _ => True

/-- A file in which flags are only set by control comments leaves the flags as they were, whatever
flags are set or restored, in whatever order.  Missing: files that set a mode or have an old-style
`main`, before any flag (`C36_file_exactly`). -/
theorem C36_file_partial (s : St) (hs : s.saved = false) (evs : List Ev)
    (h : ∀ e ∈ evs.takeWhile (fun e => !e.isLocal), Spec.Tidy e) :
    (checkFile s evs).flags = s.flags := by
  rw [(C36_file_exactly s evs).1, if_neg (by simp [hs])]
  have hl : ∀ e ∈ evs.takeWhile (fun e => !e.isLocal), e.isLocal = false := by
    intro e he
    have := List.mem_takeWhile_imp he
    simpa using this
  revert h hl
  generalize evs.takeWhile (fun e => !e.isLocal) = l
  intro h hl
  induction l with
  | nil => rfl
  | cons e l ih =>
    have hst : step s e = s := by
      cases e with
      | flag f y v =>
        have := hl (.flag f y v) (by simp)
        simp only [Ev.isLocal, Bool.not_eq_false'] at this
        simp [step, this]
      | mode m => exact absurd (h (.mode m) (by simp)) (by simp [Spec.Tidy])
      | oldMain => exact absurd (h .oldMain (by simp)) (by simp [Spec.Tidy])
    rw [List.foldl_cons, hst]
    exact ih (fun x hx => h x (by simp [hx])) (fun x hx => hl x (by simp [hx]))

example : (checkFile FlagEx.s0 [.flag FLG_NULL .no none, .flag FLG_NULL .maybe none,
    .mode c!"strict"]).flags = FlagEx.s0.flags :=
  C36_file_partial FlagEx.s0 rfl _ (by
    have : ([.flag FLG_NULL .no none, .flag FLG_NULL .maybe none, .mode c!"strict"] : List Ev).takeWhile
      (fun e => !e.isLocal) = [] := by decide +kernel
    rw [this]; simp)

/-- Over a whole run in which the preprocessor meets none of the control comments it acts on, each
file starts with the flags of the command line. -/
theorem C36_partial (s : St) (hs : s.saved = false) (pps : List (List (Nat × Ynm)))
    (hp : ∀ cs ∈ pps, cs = []) (files : List (List Ev))
    (h : ∀ evs ∈ files, ∀ e ∈ evs.takeWhile (fun e => !e.isLocal), Spec.Tidy e) :
    ∀ t ∈ starts s pps files, t.flags = s.flags ∧ t.saved = false := by
  have hpp : pps.foldl preprocessFile s = s := by
    induction pps with
    | nil => rfl
    | cons cs pps ih =>
      rw [List.foldl_cons, hp cs (by simp)]
      exact ih fun x hx => hp x (by simp [hx])
  rw [starts, hpp]
  clear hpp hp
  induction files generalizing s with
  | nil => simp [startsFrom]
  | cons evs files ih =>
    intro t ht
    rw [startsFrom, List.mem_cons] at ht
    rcases ht with rfl | ht
    · exact ⟨rfl, hs⟩
    · obtain ⟨h1, h2⟩ := ih (checkFile s evs) (checkFile_saved s evs)
        (fun x hx => h x (by simp [hx])) t ht
      exact ⟨h1.trans (C36_file_partial s hs evs (h evs (by simp))), h2⟩

example : ∀ evs ∈ [[Ev.flag FLG_NULL .no none], [.flag FLG_NULL .yes none, .mode c!"weak"]],
    ∀ e ∈ evs.takeWhile (fun e => !e.isLocal), Spec.Tidy e := by
  have h1 : ([.flag FLG_NULL .no none] : List Ev).takeWhile (fun e => !e.isLocal) = [] := by
    decide +kernel
  have h2 : ([.flag FLG_NULL .yes none, .mode c!"weak"] : List Ev).takeWhile
      (fun e => !e.isLocal) = [] := by
    decide +kernel
  simp [h1, h2]

theorem preprocessFile_saved (s : St) (cs : List (Nat × Ynm)) :
    (preprocessFile s cs).base = s.base ∧ (cs ≠ [] ∨ s.saved = true → (preprocessFile s cs).saved = true)
    := by
  induction cs generalizing s with
  | nil => exact ⟨rfl, fun h => h.resolve_left (by simp)⟩
  | cons c cs ih =>
    obtain ⟨h1, h2⟩ := fileSetFlag_saved s c.1 c.2
    obtain ⟨h3, h4⟩ := ih (fileSetFlag s c.1 c.2)
    refine ⟨?_, fun _ => h4 (Or.inr h1)⟩
    show (preprocessFile (fileSetFlag s c.1 c.2) cs).base = s.base
    rw [h3, St.base, h1, if_pos rfl, h2]

/-- If the preprocessor acts on a control comment in any file, the flags so set are in force in the
rest of the preprocessing and at the start of the first file; from the end of the first file on the
flags are those of the command line, even if the first file sets a mode. -/
theorem C36_preprocessor (s : St) (hs : s.saved = false) (pps : List (List (Nat × Ynm)))
    (hp : ∃ cs ∈ pps, cs ≠ []) (evs : List Ev) (files : List (List Ev))
    (h : ∀ evs ∈ files, ∀ e ∈ evs.takeWhile (fun e => !e.isLocal), Spec.Tidy e) :
    ∃ u, starts s pps (evs :: files) = pps.foldl preprocessFile s :: u
      ∧ ∀ t ∈ u, t.flags = s.flags ∧ t.saved = false := by
  have key : (pps.foldl preprocessFile s).base = s.base
      ∧ (s.saved = true ∨ (∃ cs ∈ pps, cs ≠ []) → (pps.foldl preprocessFile s).saved = true) := by
    clear hs hp h
    induction pps generalizing s with
    | nil => exact ⟨rfl, fun h => h.elim id (by simp)⟩
    | cons cs pps ih =>
      obtain ⟨h1, h2⟩ := preprocessFile_saved s cs
      obtain ⟨h3, h4⟩ := ih (preprocessFile s cs)
      refine ⟨h3.trans h1, fun h => h4 ?_⟩
      rcases h with h | ⟨x, hx, hne⟩
      · exact Or.inl (h2 (Or.inr h))
      · rcases List.mem_cons.1 hx with rfl | hx
        · exact Or.inl (h2 (Or.inl hne))
        · exact Or.inr ⟨x, hx, hne⟩
  refine ⟨_, rfl, ?_⟩
  have hsv := key.2 (Or.inr hp)
  have hb : (checkFile (pps.foldl preprocessFile s) evs).flags = s.flags := by
    rw [(C36_file_exactly _ evs).1, if_pos hsv]
    have := key.1
    rw [St.base, if_pos hsv, St.base, if_neg (by simp [hs])] at this
    exact this
  intro t ht
  obtain ⟨h1, h2⟩ := C36_partial (checkFile (pps.foldl preprocessFile s) evs) (checkFile_saved _ _) []
    (by simp) files h t ht
  exact ⟨h1.trans hb, h2⟩

example : ∃ cs ∈ [[], [(FLG_MACROREDEF, Ynm.no)]], cs ≠ [] := ⟨[(FLG_MACROREDEF, .no)], by simp, by simp⟩

/-- A file that sets no value leaves the values as they were.  Missing: values set by control
comments, which stay for the files that follow (`C36_full_is_false`). -/
theorem C36_values_partial (s : St) (evs : List Ev) (h : ∀ e ∈ evs, Spec.NoValue e) :
    (checkFile s evs).values = s.values := by
  have hx : ∀ t : St, (exitFile t).values = t.values := by
    intro t; unfold exitFile; cases t.saved <;> rfl
  rw [checkFile, hx]
  induction evs generalizing s with
  | nil => rfl
  | cons e evs ih =>
    rw [List.foldl_cons, ih _ (fun x hx => h x (by simp [hx]))]
    have he := h e (by simp)
    cases e with
    | mode m => exact setMode_values s m
    | oldMain => rfl
    | flag f y v =>
      obtain ⟨rfl, hn⟩ := he
      have hn : valueSetters.contains f = false := by
        rw [← Bool.not_eq_true, List.contains_iff_mem]
        exact hn
      simp only [step]
      split_ifs
      · rfl
      · have : (fileSetFlag s f y).values = s.values := by
          unfold fileSetFlag
          have h0 : (if s.saved then s else saveFlagSettings s).values = s.values := by
            cases s.saved <;> rfl
          revert h0
          generalize (if s.saved then s else saveFlagSettings s) = t
          intro h0
          cases y with
          | no => exact (setFlagAux_values t hn false true).trans h0
          | yes => exact (setFlagAux_values t hn true true).trans h0
          | maybe =>
            simp only [restoreFlag]
            split_ifs
            · exact (setFlagAux_values _ hn _ false).trans h0
            · exact h0
        cases y <;> exact this

example : ∀ e ∈ [Ev.flag FLG_NULL .no none, .mode c!"weak", .oldMain], Spec.NoValue e := by
  simp [Spec.NoValue]

/-- Flags and values leak: a mode set by a control comment, the value of a limit, a control comment
met by the preprocessor, an old-style `main`. -/
theorem C36_full_is_false : ¬C36_full := by
  intro h
  have h1 := (h FlagEx.s0 [] [[.oldMain], []] rfl (by simp)
    (checkFile FlagEx.s0 [.oldMain]) (by simp [starts, startsFrom])).1
  have h2 := congrFun h1 FLG_MAINTYPE
  revert h2
  decide +kernel

/-- The mode set in the first file is in force in the second. -/
theorem C36_mode_leaks :
    (checkFile FlagEx.s0 [.mode c!"strict"]).flags FLG_NULLPASS = true
    ∧ FlagEx.s0.flags FLG_NULLPASS = false := by
  refine ⟨?_, by decide⟩
  rw [(C36_file_exactly _ _).1]
  show (setMode FlagEx.s0 c!"strict").1.flags FLG_NULLPASS = true
  rw [(C35_mode FlagEx.s0 (l := mode_strict) (by decide +kernel)).2.1]
  decide +kernel

/-- The limit set in the first file is in force in the second though the flag is not. -/
theorem C36_value_leaks :
    (checkFile FlagEx.s0 [.flag FLG_INCLUDENEST .yes (some 3)]).values FLG_INCLUDENEST = 3
    ∧ FlagEx.s0.values FLG_INCLUDENEST = 63 := by decide +kernel

/-- `/*@-namechecks@*/` in the second file is in force in the first. -/
theorem C36_preprocessor_leaks :
    ((starts FlagEx.s0 [[], [(FLG_NAMECHECKS, .no)]] [[], []]).map fun t => t.flags FLG_NAMECHECKS)
      = [false, true] ∧ FlagEx.s0.flags FLG_NAMECHECKS = true := by decide +kernel

/-- What should hold of `=flag`: the flag, and the flags of its group, get the settings of the
command line. -/
def C36_restore_full : Prop :=
  ∀ (s : St) (evs : List Ev) (f : Nat), s.saved = false → (∀ e ∈ evs, Spec.Tidy e) →
    f < NUMFLAGS → isGlobal f = false →
    ∀ g, (step (evs.foldl step s) (.flag f .maybe none)).flags g
      = if ((Spec.documented f (s.flags f)).lookup g).isSome then s.flags g
        else (evs.foldl step s).flags g

/-- After `-null`, `=null` leaves `nullderef` off. -/
theorem C36_restore_full_is_false : ¬C36_restore_full := by
  intro h
  have := h FlagEx.s0 [.flag FLG_NULL .no none] FLG_NULL rfl (by simp [Spec.Tidy]) (by decide)
    (by decide +kernel) FLG_NULLDEREF
  revert this
  decide +kernel

theorem base_tidy (s : St) (hs : s.saved = false) (evs : List Ev) (h : ∀ e ∈ evs, Spec.Tidy e) :
    (evs.foldl step s).base = s.flags := by
  have h1 := C36_file_partial s hs evs (fun e he => h e ((List.takeWhile_sublist _).subset he))
  rw [checkFile, exitFile_flags] at h1
  exact h1

/-- `=flag` gives a flag that concerns only itself the setting of the command line and leaves all
others alone, after any control comments about flags.  Missing: groups (`C36_restore_exactly`),
idempotent flags, and modes. -/
theorem C36_restore_partial (s : St) (hs : s.saved = false) (evs : List Ev)
    (h : ∀ e ∈ evs, Spec.Tidy e) {f : Nat} (hf : f < NUMFLAGS) (hg : isGlobal f = false)
    (hp : plain f = true) (v : Option Int) (g : Nat) :
    (step (evs.foldl step s) (.flag f .maybe v)).flags g
      = if g = f then s.flags f else (evs.foldl step s).flags g := by
  have hst : (step (evs.foldl step s) (.flag f .maybe v)) = fileSetFlag (evs.foldl step s) f .maybe := by
    simp only [step, hg]
    rfl
  rw [hst, restore_flags, plain_sets hf hp, base_tidy s hs evs h]
  by_cases hgf : g = f
  · subst hgf; simp [lastOf]
  · simp [lastOf, hgf, Ne.symm hgf]

example : plain FLG_SHIFTNEGATIVE = true ∧ isGlobal FLG_SHIFTNEGATIVE = false
    ∧ FlagEx.s0.flags FLG_SHIFTNEGATIVE = true
    ∧ (([.flag FLG_SHIFTNEGATIVE .no none, .flag FLG_BITWISEOPS .yes none] : List Ev).foldl step
        FlagEx.s0).flags FLG_SHIFTNEGATIVE = false := by decide +kernel

/-- `=flag` on a group: every flag of the group gets the setting the group flag itself has on the
command line. -/
theorem C36_restore_exactly (s : St) (hs : s.saved = false) (evs : List Ev)
    (h : ∀ e ∈ evs, Spec.Tidy e) {f : Nat} (hf : f < NUMFLAGS) (hg : isGlobal f = false)
    (hd : Spec.deviates f (s.flags f) = false) (v : Option Int) (g : Nat) :
    (step (evs.foldl step s) (.flag f .maybe v)).flags g
      = Spec.after (evs.foldl step s).flags f (s.flags f) g := by
  have hst : (step (evs.foldl step s) (.flag f .maybe v)) = fileSetFlag (evs.foldl step s) f .maybe := by
    simp only [step, hg]
    rfl
  rw [hst, restore_flags, base_tidy s hs evs h, ← setFlagAux_flags _ f _ false]
  exact setFlagAux_documented _ false hf hd g

example : Spec.deviates FLG_NULL (FlagEx.s0.flags FLG_NULL) = false
    ∧ isGlobal FLG_NULL = false := by decide +kernel

end Splint
