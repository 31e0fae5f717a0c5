import Verif.Model.Flags
import Verif.Model.FlagName
/-! Processing the command line and the options files: `src/flags.c` (`flags_processFlags`),
`src/rcfiles.c` and the first pass of `main` in `src/llmain.c`. -/
namespace Splint.Opt
open Flag

abbrev Word := List Char

/-- The messages about options. -/
inductive Msg where
  /-- "Unrecognized option", `src/flags.c:1711-1718` -/
  | unrecognized (a : Word)
  /-- "Help flag must be first", "Help flags can only be used on the command line",
  `src/flags.c:1719-1735` -/
  | help (a : Word)
  /-- "Flag must be followed by" a directory name, a number, a character or a string,
  `src/flags.c:1763-1770`, `1812-1818`, `1828-1834`, `1888-1894`, `src/llmain.c:553-560` -/
  | missing (f : Nat)
  /-- "Cannot list files in .splintrc files", `src/flags.c:1983-1991` -/
  | files (ws : List Word)
  /-- "Multiple attempts to read options file", `src/rcfiles.c:41-50` -/
  | again (n : Word)
  /-- "Cannot open options file", `src/rcfiles.c:68-77` -/
  | cannotOpen (n : Word)
deriving DecidableEq

/-- The effects of options, in the order in which they happen. -/
inductive Act where
  | msg (m : Msg)
  /-- `context_userSetFlag` -/
  | set (f : Nat) (b : Bool)
  /-- `flags_setValueFlag` -/
  | value (f : Nat) (v : Word)
  /-- `flags_setStringFlag` -/
  | string (f : Nat) (v : Word)
  /-- an argument for the preprocessor -/
  | pass (a : Word)
  /-- `cppAddIncludeDir` -/
  | incl (d : Word)
  /-- a directory added to `g_localSpecPath` -/
  | spec (d : Word)
  /-- `context_setMode` -/
  | mode (n : Word)
  /-- `lslinit_setInitFile` -/
  | init (n : Word)
  /-- `addLarchPathFile` and `addXHFile` for `-mts` -/
  | mts (n : Word)
  /-- `rcfiles_read`, with its argument `report` -/
  | rc (n : Word) (report : Bool)
  /-- an options file is opened, "reading options from", `src/rcfiles.c:58-64` -/
  | loading (n : Word)
  /-- a file to be checked -/
  | file (a : Word)
  /-- `llfatalerror` -/
  | fatal
  /-- `flags` and the arrays of `gc` are accessed at the index `SKIP_FLAG`, which is `-2`:
  undefined -/
  | outOfBounds
deriving DecidableEq

/-- The kind of argument of a flag, `flags[f].argtype`. -/
def argOf (f : Nat) : Arg := (table[f]?).elim .none (·.arg)

/-- `flagcode_hasArgument`, `src/flags.c:1463-1466`. -/
def hasArgument (f : Nat) : Bool := argOf f != .none

/-- `flagcode_hasString`, `src/flags.c:1478-1484`. -/
def hasString (f : Nat) : Bool :=
  argOf f == .string || argOf f == .file || argOf f == .dir || argOf f == .path

/-- `flagcode_isMessageControlFlag`, `src/flags.c:237-257`. -/
def isMessageControl (f : Nat) : Bool :=
  f == FLG_SHOWSCAN || f == FLG_WARNRC || f == FLG_PARENFILEFORMAT
  || f == FLG_MESSAGESTREAMSTDERR || f == FLG_MESSAGESTREAMSTDOUT
  || f == FLG_WARNINGSTREAMSTDERR || f == FLG_WARNINGSTREAMSTDOUT
  || f == FLG_ERRORSTREAMSTDERR || f == FLG_ERRORSTREAMSTDOUT
  || f == FLG_MESSAGESTREAM || f == FLG_WARNINGSTREAM || f == FLG_ERRORSTREAM
  || f == FLG_STREAMOVERWRITE

/-- Where a loop over the arguments goes on: at the next argument, at the one after it, or not at
all. -/
inductive After where
  | next | skip | stop
deriving DecidableEq

/-- `*thisarg == '-' || *thisarg == '+'`. -/
def isOption (a : Word) : Bool := a.head? == some '-' || a.head? == some '+'

/-- The name of the flag, `src/flags.c:1702-1706`. -/
def flagName (a : Word) : Word := if (a.drop 1).head? = some '-' then a.drop 2 else a.drop 1

/-- A flag that is not processed elsewhere, `src/flags.c:1797-1903`.  After `-i` the `break` at
`src/flags.c:1865` leaves the loop over the arguments. -/
def controlFlag (cl : Bool) (f : Nat) (b : Bool) (nxt : Option Word) : List Act × After :=
  if hasArgument f then
    if hasNumber f || hasChar f then
      match nxt with
      | some v => ([.set f b, .value f v], .skip)
      | none => ([.set f b, .msg (.missing f)], .skip)
    else if hasString f || f == FLG_INIT || f == FLG_OPTF then
      match nxt with
      | some v =>
        if f = FLG_OPTF then if cl then ([.set f b], .skip) else ([.set f b, .rc v true], .skip)
        else if f = FLG_INIT then ([.set f b, .init v], .stop)
        else if f = FLG_MTSFILE then ([.set f b, .mts v], .skip)
        else ([.set f b, .string f v], .skip)
      | none => ([.set f b, .msg (.missing f)], .skip)
    else ([.set f b], .next)
  else ([.set f b], .next)

/-- The options `-I` and `-S`, `src/flags.c:1746-1792`; a length below 2 cannot be. -/
def path (f : Nat) (a : Word) (nxt : Option Word) : List Act × After :=
  if a = ['-', 'I', '-'] then ([.incl a], .next)
  else
    let add (d : Word) : Act := if f = FLG_INCLUDEPATH then .incl d else .spec d
    if a.drop 2 = [] then
      match nxt with
      | some d => ([add d], .skip)
      | none => ([.msg (.missing f), add []], .skip)
    else ([add (a.drop 2)], .next)

/-- One round of the loop of `flags_processFlags`, `src/flags.c:1687-1911`, on the argument `a` with
the following argument `nxt`; `cl` is `inCommandLine`. -/
def one (cl : Bool) (a : Word) (nxt : Option Word) : List Act × After :=
  if isOption a then
    match identify (flagName a) with
    | .invalid => ([.msg (.unrecognized a)], .next)
    | .modeName => ([.mode (flagName a)], .next)
    | .skip => ([.outOfBounds], .stop)
    | .flag f =>
      if f = FLG_HELP then ([.msg (.help a)], .next)
      else if f = FLG_DEFINE ∨ f = FLG_UNDEFINE then ([.pass (a.drop 1)], .next)
      else if f = FLG_INCLUDEPATH ∨ f = FLG_SPECPATH then path f a nxt
      else if cl && isMessageControl f then ([], if hasArgument f then .skip else .next)
      else controlFlag cl f (a.head? == some '+') nxt
  else ([.file a], .next)

/-- The loop of `flags_processFlags`, `src/flags.c:1687-1911`. -/
def loop (cl : Bool) : List Word → List Act
  | [] => []
  | a :: rest =>
    (one cl a rest.head?).1 ++
      match (one cl a rest.head?).2 with
      | .next => loop cl rest
      | .skip => loop cl rest.tail
      | .stop => []
termination_by l => l.length
decreasing_by all_goals simp only [List.length_cons, List.length_tail]; omega

/-- The files among the effects. -/
def filesOf (l : List Act) : List Word := l.filterMap fun | .file a => some a | _ => none

/-- `flags_processFlags` for an options file, `src/flags.c:1676-1996`: what it finds to be names of
files is not checked.  With undefined behaviour nothing comes after it. -/
def processRc (args : List Word) : List Act :=
  let l := loop false args
  let l' := l.filter fun | .file _ => false | _ => true
  if filesOf l = [] ∨ .outOfBounds ∈ l then l' else l' ++ [.msg (.files (filesOf l))]

/-! ### The first pass of `main` -/

/-- The variables of the first pass, `src/llmain.c:513-516`. -/
structure Pre where
  nof : Bool := false
  defaultf : Bool := true
  fname : Bool := false
deriving DecidableEq

/-- One round of the first pass, `src/llmain.c:518-590`. -/
def preOne (p : Pre) (a : Word) (nxt : Option Word) : List Act × Pre × After :=
  if isOption a then
    match identify (a.drop 1) with
    | .flag f =>
      if f = FLG_NOF then ([], { p with nof := true }, .next)
      else if isMessageControl f then
        let b := a.head? == some '+'
        if hasArgument f then
          match nxt with
          | some v => ([.set f b, .string f v], { p with fname := true }, .skip)
          | none => ([.set f b, .msg (.missing f)], p, .skip)
        else ([.set f b], p, .next)
      else if f = FLG_OPTF then
        match nxt with
        | some v => ([.rc v true], { p with defaultf := false, fname := true }, .skip)
        | none => ([.fatal], p, .stop)
      else ([], p, .next)
    | _ => ([], p, .next)
  else ([], p, .next)

/-- The first pass, `src/llmain.c:518-590`. -/
def prescan (p : Pre) : List Word → List Act × Pre
  | [] => ([], p)
  | a :: rest =>
    let r := preOne p a rest.head?
    let t := match r.2.2 with
      | .next => prescan r.2.1 rest
      | .skip => prescan r.2.1 rest.tail
      | .stop => ([], r.2.1)
    (r.1 ++ t.1, t.2)
termination_by l => l.length
decreasing_by all_goals simp only [List.length_cons, List.length_tail]; omega

/-- Where the default options files are: in the home directory, if there is one, and in the current
directory, each with its two names (`src/llmain.c:600-662`). -/
structure Env where
  home : List Word
  here : List Word

/-- The reading of the default options files, `src/llmain.c:594-664`.  The warnings about files with
both names are left out. -/
def defaults (e : Env) (p : Pre) : List Act :=
  if !p.nof && p.defaultf then
    (if p.fname then [] else e.home.map (.rc · false)) ++ e.here.map (.rc · false)
  else []

/-- Both passes over the arguments without the name of the program, `src/llmain.c:507-678`. -/
def startup (e : Env) (args : List Word) : List Act :=
  let p := prescan {} args
  p.1 ++ (defaults e p.2 ++ loop true args)

/-! ### Options files -/

/-- The loop over one flag, `src/rcfiles.c:127-163`: the characters of the flag and the rest. -/
def scan (escaped quoted : Bool) : Word → Word × Word
  | [] => ([], [])
  | c :: s =>
    if escaped then let r := scan false quoted s; (c :: r.1, r.2)
    else if quoted then
      let r := if c = '\\' then scan true true s
        else if c = '"' then scan false false s
        else scan false true s
      (c :: r.1, r.2)
    else if c = '"' then let r := scan false true s; (c :: r.1, r.2)
    else if c = ' ' ∨ c = '\t' ∨ c = '\n' then ([], c :: s)
    else let r := scan false false s; (c :: r.1, r.2)

theorem scan_length (e q : Bool) (s : Word) : (scan e q s).1.length + (scan e q s).2.length = s.length := by
  induction s generalizing e q with
  | nil => rfl
  | cons c s ih =>
    unfold scan
    simp only
    repeat' split
    all_goals simp only [List.length_cons, List.length_nil]
    all_goals first | omega | (have h1 := ih false q; have h2 := ih true true; have h3 := ih false false; have h4 := ih false true; omega)

/-- Skipping blanks, `src/rcfiles.c:103-107` and `186-190`. -/
def skipBlanks (s : Word) : Word := s.dropWhile fun c => c == ' ' || c == '\t'

/-- "Missing flag", `src/rcfiles.c:169-173`, is `none`. -/
def flagsFrom (s : Word) : Option (List Word) :=
  match s with
  | [] => some []
  | c :: cs =>
    if c = '#' ∨ c = ';' ∨ c = '\n' then some []
    else
      match h : scan false false (c :: cs) with
      | (w, rest) =>
        if hw : w = [] then none
        else (flagsFrom (skipBlanks rest)).map (w :: ·)
termination_by s.length
decreasing_by
  have h1 := scan_length false false (c :: cs)
  rw [h] at h1
  have h2 : (skipBlanks rest).length ≤ rest.length := (List.dropWhile_sublist _).length_le
  have h3 : 0 < w.length := List.length_pos_iff.2 hw
  simp only at h1
  omega

/-- The flags of one line, `src/rcfiles.c:97-192`; the text ends where `fgets` ended it. -/
def lineFlags (s : Word) : Option (List Word) := flagsFrom (skipBlanks s)

/-- The lines of a file, as `fgets` gives them. -/
def lines : List Char → List Word
  | [] => []
  | c :: s =>
    if c = '\n' then [c] :: lines s
    else match lines s with
      | [] => [[c]]
      | l :: ls => (c :: l) :: ls

/-- `MAX_LINE_LENGTH`, `src/Headers/constants.h:76`; `mstring_create` adds one for the end of the
text (`src/general.c`). -/
def maxLine : Nat := 1024

/-- `rcfiles_loadFile` up to the processing of the flags, `src/rcfiles.c:83-193`.  `reader_readLine`
(`src/reader.c:234-250`) reads up to 16384 characters of a line into the buffer of 1024: `none` is
the overflow, and "Missing flag". -/
def rcArgs (text : List Char) : Option (List Word) :=
  (lines text).foldr (fun l acc =>
    if l.length ≤ maxLine then
      match lineFlags l, acc with
      | some ws, some r => some (ws ++ r)
      | _, _ => none
    else none) (some [])

/-- The contents of the files that can be opened. -/
abbrev Files := List (Word × List Char)

/-- The files that have not been seen. -/
def unseen (fs : Files) (seen : List Word) : Nat := (fs.filter fun p => !seen.contains p.1).length

theorem unseen_lt {fs : Files} {seen : List Word} {n : Word} {t : List Char}
    (h : fs.lookup n = some t) (hn : n ∉ seen) : unseen fs (n :: seen) < unseen fs seen := by
  unfold unseen
  induction fs with
  | nil => cases h
  | cons p fs ih =>
    have hle : ∀ l : Files, (l.filter fun p => !(n :: seen).contains p.1).length
        ≤ (l.filter fun p => !seen.contains p.1).length := by
      intro l
      rw [← List.countP_eq_length_filter, ← List.countP_eq_length_filter]
      apply List.countP_mono_left
      intro x _ hx
      simp only [List.contains_cons, Bool.not_or, Bool.and_eq_true] at hx
      exact hx.2
    rw [List.lookup_cons] at h
    by_cases hp : n = p.1
    · have h1 : ((p :: fs).filter fun p => !(n :: seen).contains p.1)
          = fs.filter fun p => !(n :: seen).contains p.1 := by
        rw [List.filter_cons_of_neg]
        simp [hp]
      have h2 : ((p :: fs).filter fun p => !seen.contains p.1)
          = p :: fs.filter fun p => !seen.contains p.1 := by
        rw [List.filter_cons_of_pos]
        simpa [← hp] using hn
      rw [h1, h2, List.length_cons]
      exact Nat.lt_succ_of_le (hle fs)
    · have hb : (n == p.1) = false := by simpa using hp
      rw [hb] at h
      have := ih h
      rw [List.filter_cons, List.filter_cons]
      by_cases hs : p.1 ∈ seen
      · have e1 : (!seen.contains p.1) = false := by simpa using hs
        have e2 : (!(n :: seen).contains p.1) = false := by simp [hs]
        rw [if_neg (by rw [e2]; decide), if_neg (by rw [e1]; decide)]
        exact this
      · have e1 : (!seen.contains p.1) = true := by simpa using hs
        have e2 : (!(n :: seen).contains p.1) = true := by
          simp [hs]
          exact fun h => hp h.symm
        rw [if_pos e2, if_pos e1, List.length_cons, List.length_cons]
        omega

/-- What the effects come to when options files are read where they are asked for
(`rcfiles_read`, `src/rcfiles.c:37-81`).  `seen` are the names in the table of files
(`fileTable_exists`; `fileloc_createRc`, `src/fileloc.c:488-493`, enters the file that is read), which
are taken to be the absolute names.  Nothing comes after a fatal error and after undefined
behaviour. -/
def perform (fs : Files) (seen : List Word) : List Act → List Act
  | [] => []
  | .rc n report :: as =>
    if hn : n ∈ seen then (if report then [.msg (.again n)] else []) ++ perform fs seen as
    else
      match ht : fs.lookup n with
      | none => (if report then [.msg (.cannotOpen n)] else []) ++ perform fs seen as
      | some t =>
        match rcArgs t with
        | none => [.loading n, .outOfBounds]
        | some args => .loading n :: perform fs (n :: seen) (processRc args ++ as)
  | .fatal :: _ => [.fatal]
  | .outOfBounds :: _ => [.outOfBounds]
  | a :: as => a :: perform fs seen as
termination_by as => (unseen fs seen, as.length)
decreasing_by
  · exact Prod.Lex.right _ (by simp)
  · exact Prod.Lex.right _ (by simp)
  · exact Prod.Lex.left _ _ (unseen_lt ht hn)
  · exact Prod.Lex.right _ (by simp)

/-- `cstring_toPosInt`, `src/cstring.c:93-110`, without a bound on the number. -/
def toPosInt (w : Word) : Int :=
  if w.all fun c => c.isDigit then (w.foldl (fun v c => v * 10 + ((c.toNat - '0'.toNat : Nat) : Int)) 0)
  else -1

/-- What an effect does to the flags. -/
def applyAct (s : St) : Act → St
  | .set f b => userSetFlag s f b
  | .value f v => setValueFlag s f (if hasNumber f then toPosInt v else (v.headD ' ').toNat)
  | .mode n => (setMode s n).1
  | _ => s

/-- The flags after the options have been processed. -/
def flagsAfter (s : St) (as : List Act) : St := as.foldl applyAct s

end Splint.Opt
