import Verif.Proofs.Message
/-!
# C115: a call of `message` that the check accepts prints what its format says
-/
namespace Splint.Message
open Spec

variable {T : Type}

/-- What is known of the argument of a code -/
theorem directive_code {types : Int → List Char} {k : Char} {e : Expect} {q : Pass} {v : VArg} {ds : List Char}
    {last : Int} {args : List VArg} (hm : (k, e, q) ∈ codes) (hw : k ≠ 'w') (hq : passOf v = q) (hv : Passable v) :
    ∃ t last', directive types (codeOf k) (number ds) last (v :: args) = some (t, last', args)
      ∧ ∀ ps o, Prints types last' ps args o → Prints types last (.dir ds k :: ps) (v :: args) (t ++ o) := by
  have hint : ∀ z, Passable (.int z) → (decimal z).take 63 = decimal z := fun z h =>
    List.take_of_length_le (decimal_short h)
  have hstr : ∀ s, field (number ds) s (if number ds ≠ 0 then fill s (number ds) else s.getD []) := by
    intro s
    by_cases h : number ds = 0
    · simp [h, field]
    · rw [if_pos h]; exact fill_field h s
  unfold codes at hm
  simp only [List.mem_cons, Prod.mk.injEq, List.not_mem_nil, or_false] at hm
  rcases hm with h | h | h | h | h | h | h | h | h | h | h | h | h | h <;> obtain ⟨rfl, rfl, rfl⟩ := h <;>
    cases v <;> simp only [passOf, reduceCtorEq] at hq
  · exact ⟨_, _, rfl, fun ps o h => .char (Or.inl rfl) (charText_spec _) h⟩
  · exact ⟨_, _, rfl, fun ps o h => .char (Or.inr rfl) (charText_spec _) h⟩
  · exact ⟨_, _, rfl, fun ps o h => .str (Or.inl rfl) (hstr _) h⟩
  · exact ⟨_, _, rfl, fun ps o h => .str (Or.inr (Or.inl rfl)) (hstr _) h⟩
  · exact ⟨_, _, rfl, fun ps o h => .str (Or.inr (Or.inr rfl)) (hstr _) h⟩
  · rename_i z
    exact ⟨_, _, rfl, fun ps o h => .int (Or.inl rfl) (by rw [hint z hv]; exact decimal_toString z) h⟩
  · rename_i z
    exact ⟨_, _, rfl, fun ps o h => .int (Or.inr rfl) (by rw [hint z hv]; exact decimal_toString z) h⟩
  · exact absurd rfl hw
  · rename_i x
    refine ⟨_, _, rfl, fun ps o h => ?_⟩
    rw [List.take_of_length_le hv]
    exact .float h
  · rename_i z
    refine ⟨_, _, rfl, fun ps o h => ?_⟩
    have : (if z ≠ 0 then ['t', 'r', 'u', 'e'] else ['f', 'a', 'l', 's', 'e'])
        = (if z = 0 then "false" else "true").toList := by
      by_cases hz : z = 0 <;> simp [hz]
    rw [this]
    exact .bool h
  · exact ⟨_, _, rfl, fun ps o h => .type h⟩
  · rename_i x
    refine ⟨_, _, rfl, fun ps o h => ?_⟩
    rw [List.take_of_length_le hv]
    exact .ptr h
  · exact ⟨_, _, rfl, fun ps o h => .loc h⟩
  · rename_i z
    refine ⟨_, _, rfl, fun ps o h => ?_⟩
    have : (if z ≠ 0 then ['r', 'e'] else []) = (if z = 0 then [] else ['r', 'e']) := by
      by_cases hz : z = 0 <;> simp [hz]
    rw [this]
    exact .re h

/-- no `%w` and no number that is too large -/
def NoWide : Piece → Prop
  | .lit _ => True
  | .dir ds k => k ≠ 'w' ∧ number ds < 2147483648

theorem run_prints {ok : Expect → T → Bool} {pass : T → Pass} {types : Int → List Char}
    (hs : ∀ k e q a, (k, e, q) ∈ codes → ok e a = true → pass a = q)
    {ps : List Piece} (hw : WF ps) (hn : ∀ p ∈ ps, NoWide p) :
    ∀ (n : Nat) (last : Int) (tys : List T) (args : List VArg), (text ps).length < n → Asks ok ps tys →
      List.Forall₂ (fun a v => passOf v = pass a) tys args → (∀ v ∈ args, Passable v) →
      ∃ t, run types n (text ps) last args = some (t, []) ∧ Prints types last ps args t := by
  induction ps with
  | nil =>
    intro n last tys args hlen ha hf _
    cases ha
    cases hf
    cases n with
    | zero => omega
    | succ n => exact ⟨[], rfl, .nil⟩
  | cons p ps ih =>
    intro n last tys args hlen ha hf hv
    have hwp := hw p (by simp)
    have hnp := hn p (by simp)
    have ih := ih (fun x hx => hw x (by simp [hx])) (fun x hx => hn x (by simp [hx]))
    cases n with
    | zero => omega
    | succ n =>
      rw [text_cons] at hlen ⊢
      cases p with
      | lit c =>
        have hc : ¬ (c = '%') := hwp
        cases ha with
        | lit ha =>
          obtain ⟨t, h1, h2⟩ := ih n last tys args (by simp [Piece.text] at hlen; omega) ha hf hv
          exact ⟨c :: t, by simp [Piece.text, run, hc, h1], .lit h2⟩
      | dir ds k =>
        obtain ⟨hd, hk⟩ := hwp
        obtain ⟨hkw, hnum⟩ := hnp
        have hlen' : (text ps).length < n := by simp [Piece.text] at hlen; omega
        have htext : Piece.text (.dir ds k) ++ text ps = '%' :: (ds ++ k :: text ps) := by simp [Piece.text]
        rw [htext]
        cases ha with
        | none hk' ha =>
          obtain ⟨t, h1, h2⟩ := ih n last tys args hlen' ha hf hv
          rcases hk' with rfl | rfl
          · refine ⟨'%' :: t, ?_, .percent h2⟩
            simp only [run, if_true, identify_dir hd hk (by unfold Blank; decide), if_pos hnum, Option.bind_some]
            have : codeOf '%' = .percent := by decide
            simp [this, directive, h1]
          · refine ⟨(if last = 1 then [] else ['s']) ++ t, ?_, .plural h2⟩
            simp only [run, if_true, identify_dir hd hk (by unfold Blank; decide), if_pos hnum, Option.bind_some]
            have : codeOf '&' = .plural := by decide
            by_cases hl : last = 1
            · subst hl; simp [this, directive, h1]
            · simp [this, directive, h1, hl]
        | @code _ _ e q _ a tys hm ho ha =>
          cases hf with
          | @cons _ v _ args hav hf =>
            obtain ⟨t, last', h1, h2⟩ := directive_code (types := types) (ds := ds) (last := last) (args := args) hm hkw
              (hav.trans (hs _ _ _ _ hm ho)) (hv v (by simp))
            obtain ⟨o, h3, h4⟩ := ih n last' tys args hlen' ha hf fun x hx => hv x (by simp [hx])
            refine ⟨t ++ o, ?_, h2 ps o h4⟩
            simp only [run, if_true, identify_dir hd hk (codes_not hm).2.2, if_pos hnum, Option.bind_some, h1, h3,
              Option.map_some]

/-- What the check asks for is what the format asks for. -/
theorem fits_asks {ok : Expect → T → Bool} {cur : T} {ps : List Piece} {args : List T} (h : Fits ok cur ps args) :
    Asks ok ps args := by
  induction h with
  | nil => exact .nil
  | lit _ ih => exact .lit ih
  | percent _ ih => exact .none (Or.inl rfl) ih
  | plural _ _ ih => exact .none (Or.inr rfl) ih
  | code hm ho _ ih => exact .code hm ho ih

/-- A directive that takes an argument, and gets one of another kind, goes wrong; otherwise the argument is
consumed. -/
theorem directive_consumes {types : Int → List Char} {k : Char} {e : Expect} {q : Pass} {m : Nat} {last : Int} {v : VArg}
    {args : List VArg} {r : List Char × Int × List VArg} (hm : (k, e, q) ∈ codes)
    (h : directive types (codeOf k) m last (v :: args) = some r) : r.2.2 = args := by
  unfold codes at hm
  simp only [List.mem_cons, Prod.mk.injEq, List.not_mem_nil, or_false] at hm
  rcases hm with hh | hh | hh | hh | hh | hh | hh | hh | hh | hh | hh | hh | hh | hh <;> obtain ⟨rfl, rfl, rfl⟩ := hh <;>
    cases v <;> first
      | (have h' := Option.some.inj h; rw [← h'])
      | (exact absurd h (by simp [directive, codeOf]))

theorem run_w {ok : Expect → T → Bool} {pass : T → Pass} {types : Int → List Char}
    (hs : ∀ k e q a, (k, e, q) ∈ codes → ok e a = true → pass a = q)
    {ps : List Piece} (hw : WF ps) {ds : List Char} (hin : .dir ds 'w' ∈ ps) :
    ∀ (n : Nat) (last : Int) (tys : List T) (args : List VArg), Asks ok ps tys →
      List.Forall₂ (fun a v => passOf v = pass a) tys args → run types n (text ps) last args = none := by
  induction ps with
  | nil => cases hin
  | cons p ps ih =>
    intro n last tys args ha hf
    have hwp := hw p (by simp)
    have ih := ih (fun x hx => hw x (by simp [hx]))
    cases n with
    | zero => rfl
    | succ n =>
      rw [text_cons]
      cases p with
      | lit c =>
        have hc : ¬ (c = '%') := hwp
        have hin' : .dir ds 'w' ∈ ps := by simpa using hin
        cases ha with
        | lit ha => simp [Piece.text, run, hc, ih hin' n last tys args ha hf]
      | dir ds' k =>
        obtain ⟨hd, hk⟩ := hwp
        have htext : Piece.text (.dir ds' k) ++ text ps = '%' :: (ds' ++ k :: text ps) := by simp [Piece.text]
        rw [htext]
        by_cases hnum : number ds' < 2147483648
        · cases ha with
          | none hk' ha =>
            have hin' : .dir ds 'w' ∈ ps := by
              rcases List.mem_cons.1 hin with h | h
              · cases h; rcases hk' with h | h <;> exact absurd h (by decide)
              · exact h
            have hb : ¬ Blank k := by rcases hk' with rfl | rfl <;> (unfold Blank; decide)
            simp only [run, if_true, identify_dir hd hk hb, if_pos hnum, Option.bind_some]
            rcases hk' with rfl | rfl
            · have : codeOf '%' = .percent := by decide
              simp [this, directive, ih hin' n last tys args ha hf]
            · have : codeOf '&' = .plural := by decide
              simp [this, directive, ih hin' n last tys args ha hf]
          | @code _ _ e q _ a tys hm ho ha =>
            cases hf with
            | @cons _ v _ args hav hf =>
              simp only [run, if_true, identify_dir hd hk (codes_not hm).2.2, if_pos hnum, Option.bind_some]
              rcases List.mem_cons.1 hin with h | hin'
              · cases h
                have hpass := hs _ _ _ _ hm ho
                rw [← hav] at hpass
                have hq : q = .ulong := by
                  unfold codes at hm
                  simp only [List.mem_cons, Prod.mk.injEq, List.not_mem_nil, or_false] at hm
                  rcases hm with hh | hh | hh | hh | hh | hh | hh | hh | hh | hh | hh | hh | hh | hh <;>
                    first | exact hh.2.2 | exact absurd hh.1 (by decide)
                rw [hq] at hpass
                cases v <;> simp only [passOf, reduceCtorEq] at hpass
                have : codeOf 'w' = .int := by decide
                simp [this, directive]
              · cases hdir : directive types (codeOf k) (number ds') last (v :: args) with
                | none => rfl
                | some r =>
                  have hr := directive_consumes hm hdir
                  simp [hr, ih hin' n r.2.1 tys args ha hf]
        · have hb : ¬ Blank k := by
            cases ha with
            | none hk' _ => rcases hk' with rfl | rfl <;> (unfold Blank; decide)
            | code hm _ _ => exact (codes_not hm).2.2
          simp [run, identify_dir hd hk hb, hnum]

theorem run_end {types : Int → List Char} {ps : List Piece} (hw : WF ps) {ds : List Char} (hds : ∀ d ∈ ds, Digit d)
    (hne : ds ≠ []) (hbl : ∀ ds' k, .dir ds' k ∈ ps → ¬ Blank k) :
    ∀ (n : Nat) (last : Int) (args : List VArg), run types n (text ps ++ '%' :: ds) last args = none := by
  induction ps with
  | nil =>
    intro n last args
    cases n with
    | zero => rfl
    | succ n => simp [text, run, identify_end hds hne]
  | cons p ps ih =>
    intro n last args
    have hwp := hw p (by simp)
    have ih := ih (fun x hx => hw x (by simp [hx])) (fun x y h => hbl x y (by simp [h]))
    cases n with
    | zero => rfl
    | succ n =>
      rw [text_cons]
      cases p with
      | lit c =>
        have hc : ¬ (c = '%') := hwp
        simp [Piece.text, run, hc, ih n last args]
      | dir ds' k =>
        obtain ⟨hd, hk⟩ := hwp
        have htext : Piece.text (.dir ds' k) ++ text ps ++ '%' :: ds = '%' :: (ds' ++ k :: (text ps ++ '%' :: ds)) := by
          simp [Piece.text]
        rw [htext]
        simp only [run, if_true, identify_dir hd hk (hbl ds' k (by simp))]
        split_ifs with h
        · cases hdir : directive types (codeOf k) (number ds') last args with
          | none => simp [hdir]
          | some r => simp [hdir, ih n r.2.1 r.2.2]
        · rfl

end Splint.Message

namespace Splint
open Message Message.Spec

/-- a matcher that only accepts types that are passed alike -/
def SoundMatch {T : Type} (ok : Expect → T → Bool) (pass : T → Pass) : Prop :=
  ∀ k e q a, (k, e, q) ∈ codes → ok e a = true → pass a = q

/-- A call that the check accepts prints what the format says, if arguments are accepted only when they are passed
like the type expected. -/
def C115_full : Prop :=
  ∀ (T : Type) (ok : Expect → T → Bool) (pass : T → Pass) (types : Int → List Char) (fmtTy : T) (fmt : List Char)
    (tys : List T) (args : List VArg), SoundMatch ok pass →
    List.Forall₂ (fun a v => passOf v = pass a) tys args → (∀ v ∈ args, Passable v) →
    checkMessageArgs ok fmtTy fmt tys = some [] →
    ∃ ps t, WF ps ∧ fmt = text ps ∧ message types fmt args = some t ∧ Prints types 0 ps args t

/-- What the check accepts, exactly: the arguments are those of the codes, one for each, and for `%&` the argument
last looked at is an `int`; and every other format is read behind its end. -/
theorem C115_accepts_exactly {T : Type} (ok : Expect → T → Bool) (fmtTy : T) (fmt : List Char) (tys : List T) :
    checkMessageArgs ok fmtTy fmt tys = some [] ↔ ∃ ps, WF ps ∧ fmt = text ps ∧ Fits ok fmtTy ps tys := by
  unfold checkMessageArgs
  constructor
  · intro h
    rcases pieces fmt with ⟨ps, hw, rfl⟩ | ⟨ps, ds, hw, hds, rfl⟩
    · exact ⟨ps, hw, rfl, (check_exact hw _ _ _ (by omega)).1 h⟩
    · rw [check_end hw hds] at h; cases h
  · rintro ⟨ps, hw, rfl, hf⟩
    exact (check_exact hw _ _ _ (by omega)).2 hf

/-- What holds of it: if there is no `%w` and no number of 2147483648 or more. -/
theorem C115_partial {T : Type} (ok : Expect → T → Bool) (pass : T → Pass) (types : Int → List Char) (fmtTy : T)
    (ps : List Piece) (tys : List T) (args : List VArg) (hs : SoundMatch ok pass)
    (hf : List.Forall₂ (fun a v => passOf v = pass a) tys args) (hv : ∀ v ∈ args, Passable v) (hw : WF ps)
    (hc : checkMessageArgs ok fmtTy (text ps) tys = some [])
    (hn : ∀ ds k, .dir ds k ∈ ps → k ≠ 'w' ∧ number ds < 2147483648) :
    ∃ t, message types (text ps) args = some t ∧ Prints types 0 ps args t := by
  have hfit := (check_exact hw _ _ _ (by omega)).1 hc
  obtain ⟨t, h1, h2⟩ := run_prints (types := types) hs hw (fun p hp => by
    cases p with
    | lit c => trivial
    | dir ds k => exact hn ds k hp) ((text ps).length + 1) 0 tys args (by omega) (fits_asks hfit) hf hv
  exact ⟨t, by simp [message, h1], h2⟩

/-- The types of arguments, for examples -/
def exOk (e : Expect) (a : Expect) : Bool := e = a

def exPass : Expect → Pass
  | .cstring => .str
  | .ulint => .ulong
  | .float => .dbl
  | .voidPtr => .ptr
  | .fileloc => .loc
  | _ => .int

theorem exSound : SoundMatch exOk exPass := by
  intro k e q a hm ho
  have : e = a := by simpa [exOk] using ho
  subst this
  unfold codes at hm
  simp only [List.mem_cons, Prod.mk.injEq, List.not_mem_nil, or_false] at hm
  rcases hm with h | h | h | h | h | h | h | h | h | h | h | h | h | h <;> obtain ⟨rfl, rfl, rfl⟩ := h <;> rfl

/-- `message ("%d file%&: %5s", 2, "ab")` -/
example : checkMessageArgs exOk .voidPtr "%d file%&: %5s".toList [.int, .cstring] = some []
    ∧ message (fun _ => []) "%d file%&: %5s".toList [.int 2, .str (some ['a', 'b'])] = some "2 files: ab   ".toList := by
  decide +kernel

/-- `%w` is checked to be an `unsigned long`, and read as an `int`: whatever else, no such call goes well. -/
theorem C115_unsigned_long {T : Type} (ok : Expect → T → Bool) (pass : T → Pass) (types : Int → List Char) (fmtTy : T)
    (ps : List Piece) (tys : List T) (args : List VArg) (hs : SoundMatch ok pass)
    (hf : List.Forall₂ (fun a v => passOf v = pass a) tys args) (hw : WF ps)
    (hc : checkMessageArgs ok fmtTy (text ps) tys = some []) (ds : List Char) (hin : .dir ds 'w' ∈ ps) :
    message types (text ps) args = none := by
  have hfit := (check_exact hw _ _ _ (by omega)).1 hc
  unfold message
  rw [run_w hs hw hin _ 0 tys args (fits_asks hfit) hf]
  rfl

theorem C115_full_is_false : ¬ C115_full := by
  intro h
  obtain ⟨ps, t, -, -, hm, -⟩ := h Expect exOk exPass (fun _ => []) .voidPtr "%w".toList [.ulint] [.ulong 1] exSound
    (.cons rfl .nil) (by simp [Passable]) (by decide +kernel)
  have : message (fun _ => []) "%w".toList [.ulong 1] = none := by decide +kernel
  rw [this] at hm
  cases hm

/-- A format that ends with `%`, or with `%` and digits: the check reads behind the end of the format. -/
theorem C115_check_past_the_end {T : Type} (ok : Expect → T → Bool) (fmtTy : T) (tys : List T) (ps : List Piece)
    (hw : WF ps) (ds : List Char) (hds : ∀ d ∈ ds, Digit d) :
    checkMessageArgs ok fmtTy (text ps ++ '%' :: ds) tys = none :=
  check_end hw hds _ _ _

/-- With digits, so does `message`. -/
theorem C115_message_past_the_end (types : Int → List Char) (ps : List Piece) (hw : WF ps) (ds : List Char)
    (hds : ∀ d ∈ ds, Digit d) (hne : ds ≠ []) (hbl : ∀ ds' k, .dir ds' k ∈ ps → k ≠ '\n' ∧ k ≠ ' ' ∧ k ≠ '\t')
    (args : List VArg) : message types (text ps ++ '%' :: ds) args = none := by
  unfold message
  rw [run_end hw hds hne (fun ds' k h => by have := hbl ds' k h; unfold Blank; tauto)]
  rfl

/-- Without, it does not. -/
example : message (fun _ => []) "100%".toList [] = some "100".toList
    ∧ message (fun _ => []) "100%5".toList [] = none ∧ checkMessageArgs exOk .voidPtr "100%".toList [] = none := by
  decide +kernel

/-- All calls with the arguments the format asks for would be accepted. -/
def C115_complete_full : Prop :=
  ∀ (T : Type) (ok : Expect → T → Bool) (fmtTy : T) (ps : List Piece) (tys : List T), WF ps → Asks ok ps tys →
    checkMessageArgs ok fmtTy (text ps) tys = some []

/-- They are, if there is no `%&`. -/
theorem C115_complete_partial {T : Type} (ok : Expect → T → Bool) (fmtTy : T) (ps : List Piece) (tys : List T)
    (hw : WF ps) (ha : Asks ok ps tys) (hn : ∀ ds, .dir ds '&' ∉ ps) :
    checkMessageArgs ok fmtTy (text ps) tys = some [] := by
  refine (C115_accepts_exactly ok fmtTy (text ps) tys).2 ⟨ps, hw, rfl, ?_⟩
  clear hw
  induction ha generalizing fmtTy with
  | nil => exact .nil
  | lit _ ih => exact .lit (ih _ fun ds h => hn ds (by simp [h]))
  | @none ds k _ _ hk _ ih =>
    rcases hk with rfl | rfl
    · exact .percent (ih _ fun ds h => hn ds (by simp [h]))
    · exact absurd (by simp) (hn ds)
  | code hm ho _ ih => exact .code hm ho (ih _ fun ds h => hn ds (by simp [h]))

/-- `"%d file%& in %s: line%&"`: `%&` stands for the last integer, but the argument last looked at is compared with
`int`. -/
theorem C115_complete_full_is_false : ¬ C115_complete_full := by
  intro h
  have h1 := h Expect exOk .voidPtr [.dir [] 'd', .dir [] 's', .dir [] '&'] [.int, .cstring]
    (by
      intro p hp
      simp only [List.mem_cons, List.not_mem_nil, or_false] at hp
      rcases hp with rfl | rfl | rfl <;> exact ⟨by simp, by unfold Digit; decide⟩)
    (.code (e := .int) (q := .int) (by decide) rfl (.code (e := .cstring) (q := .str) (by decide) rfl
      (.none (Or.inr rfl) .nil)))
  revert h1
  decide +kernel

/-- It prints what it should. -/
example : message (fun _ => []) "%d%s%&".toList [.int 2, .str (some ['a'])] = some "2as".toList := by decide +kernel

end Splint
