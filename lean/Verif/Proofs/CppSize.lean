import Verif.Proofs.CppMacro
namespace Splint.CppMacro
open Spec

/-! ## The sizes of buffers -/

/-- the characters in `expansion` so far -/
def CS.size (s : CS) : Nat := segLen s.segs + s.cur.length

theorem room_append (a b : List Char) : room (a ++ b) = room a + room b := by
  simp [room]; omega

theorem room_cons (c : Char) (b : List Char) : room (c :: b) = room b + 1 + (if c = '@' then 1 else 0) := by
  by_cases h : c = '@' <;> simp [room, h] <;> omega

theorem length_le_room (l : List Char) : l.length ≤ room l := by simp [room]

theorem room_dropWhile (p : Char → Bool) (l : List Char) : room (l.dropWhile p) + (l.takeWhile p).length ≤ room l := by
  conv => rhs; rw [← List.takeWhile_append_dropWhile (p := p) (l := l)]
  rw [room_append]
  have := length_le_room (l.takeWhile p)
  omega

theorem size_emit (s : CS) (l : List Char) : (s.emit l).size = s.size + l.length := by
  simp [CS.size, CS.emit]; omega

theorem step_size (ps : Params) (fn trail : Bool) (s : CS) (c : Char) (r : List Char) :
    (step ps fn trail s c r).1.size + room (step ps fn trail s c r).2 ≤ s.size + room (c :: r) := by
  rw [room_cons]
  unfold step
  split
  · unfold onHash
    split
    · next r' =>
      have h1 := room_dropWhile isHor r'
      have h2 := (List.dropWhile_sublist isHor (l := s.cur)).length_le
      simp only [CS.size] at *
      rw [room_cons]
      omega
    · simp only
      have h1 := room_dropWhile isHor r
      split
      · split <;> (simp only [CS.size]; omega)
      · rw [size_emit]; simp; omega
  · split
    · have h1 := room_dropWhile isId r
      have h2 : (onWord ps s (c :: r.takeWhile isId) (r.dropWhile isId)).size ≤ s.size + (c :: r.takeWhile isId).length := by
        unfold onWord
        simp only
        split
        · simp [CS.size, segLen]; omega
        · simp [CS.size, CS.emit]; omega
      simp only [List.length_cons] at h2
      simp only
      omega
    · unfold onChar
      split
      · have := size_emit s [c]
        simp only [CS.size] at *
        simp at this ⊢
        omega
      · split
        · cases r with
          | nil => simp only [size_emit]; simp; omega
          | cons d r => simp only [size_emit, room_cons]; simp; omega
        · split
          · next h =>
            simp only [Bool.and_eq_true, decide_eq_true_iff] at h
            simp only [size_emit, h.1]; simp; omega
          · simp only [size_emit]; simp; omega

theorem loop_size (ps : Params) (fn trail : Bool) : ∀ (n : Nat) (l : List Char), l.length ≤ n → ∀ s : CS,
    (loop ps fn trail s l).size ≤ s.size + room l := by
  intro n
  induction n with
  | zero =>
    intro l hl s
    obtain rfl : l = [] := List.length_eq_zero_iff.1 (by omega)
    rw [loop_nil]; omega
  | succ n ih =>
    intro l hl s
    cases l with
    | nil => rw [loop_nil]; omega
    | cons c r =>
      rw [loop_cons]
      have h1 := ih _ (le_trans (step_length ps fn trail s c r) (by simpa using hl)) (step ps fn trail s c r).1
      have h2 := step_size ps fn trail s c r
      omega

theorem segLen_reverse (l : List (List Char × Pat)) : segLen l.reverse = segLen l := by
  simp [segLen, List.sum_reverse]

theorem collect_size (ps : Params) (fn : Bool) (buf : List Char) : (collect ps fn buf).size ≤ room (body buf) + 4 := by
  have e0 : collect ps fn buf =
      (let s := if startsPaste (body buf) then loop ps fn (blankAfter buf) { cur := [' ', '@'], error := true } ((body buf).drop 2)
        else loop ps fn (blankAfter buf) { cur := [' ', '@'] } (body buf)
       { segs := s.segs.reverse, last := s.cur.reverse ++ (if s.delim = none then ['@', ' '] else []), error := s.error }) := rfl
  have key : ∀ s : CS, s.size ≤ room (body buf) + 2 →
      Def.size { segs := s.segs.reverse, last := s.cur.reverse ++ (if s.delim = none then ['@', ' '] else []), error := s.error } ≤ room (body buf) + 4 := by
    intro s hs
    simp only [Def.size, segLen_reverse, CS.size] at *
    split <;> simp <;> omega
  rw [e0]
  refine key _ ?_
  split
  · have h1 := loop_size ps fn (blankAfter buf) _ ((body buf).drop 2) le_rfl { cur := [' ', '@'], error := true }
    have h2 : room ((body buf).drop 2) ≤ room (body buf) := by
      have := room_append ((body buf).take 2) ((body buf).drop 2)
      rw [List.take_append_drop] at this
      omega
    have h3 : CS.size { cur := [' ', '@'], error := true } = 2 := rfl
    omega
  · have h1 := loop_size ps fn (blankAfter buf) _ (body buf) le_rfl { cur := [' ', '@'] }
    have h3 : CS.size { cur := [' ', '@'] } = 2 := rfl
    omega

theorem pasteAfter_length (l : List Char) : (pasteAfter l).length ≤ l.length := by
  fun_induction pasteAfter l with
  | case1 => simp
  | case2 c l h ih => simp; omega
  | case3 c l h h2 ih => simp at ih ⊢; omega
  | case4 => simp

theorem pasted_length (p : Pat) (raw : List Char) : (pasted p raw).length ≤ raw.length := by
  have key : ∀ l : List Char, (if p.rawAfter = true then (pasteAfter l.reverse).reverse else l).length ≤ l.length := by
    intro l
    split
    · have := pasteAfter_length l.reverse
      simpa using this
    · exact le_rfl
  unfold pasted
  cases hb : p.rawBefore
  · simpa using key raw
  · simp only [if_true]
    have h1 : (pasteBefore raw).1.length + (pasteBefore raw).2.length ≤ raw.length := by
      unfold pasteBefore
      simp only
      have h0 := length_dropWhile_le isSp raw
      have h2 := List.takeWhile_append_dropWhile (p := isId) (l := raw.dropWhile isSp)
      have h3 := congrArg List.length h2
      rw [List.length_append] at h3
      split
      · next r e => rw [e] at h3; simp at h3; omega
      · omega
    have h2 := key (pasteBefore raw).2
    rw [List.length_append]
    omega

theorem mark_length (a b : Option Char) : (mark a b).length ≤ 2 := by
  unfold mark
  split
  · split <;> simp
  · simp

theorem useOf_length (args : Nat → Arg) (p : Pat) (before : List Char) (next : Option Char) :
    (useOf p (args p.arg) before next).length ≤ need args p := by
  unfold useOf need
  split
  · exact le_rfl
  · split
    · have := pasted_length p (args p.arg).raw
      omega
    · simp only [List.length_append]
      have h2 : (if (args p.arg).expanded = [] then [] else mark before.getLast? (args p.arg).expanded.head?).length ≤ 2 := by
        split
        · simp
        · exact mark_length _ _
      have h3 := mark_length (before ++ ((if (args p.arg).expanded = [] then [] else mark before.getLast? (args p.arg).expanded.head?) ++ (args p.arg).expanded)).getLast? next
      omega

theorem deleteRun_length (l : List Char) : (deleteRun l).length ≤ l.length := by
  unfold deleteRun
  have h1 := length_dropWhile_le isSp l.reverse
  have h2 := length_dropWhile_le (fun c => !isSp c) (l.reverse.dropWhile isSp)
  simp at h1 h2 ⊢
  omega

theorem substLoop_length (args : Nat → Arg) (rz : Bool) (nx : List (List Char × Pat) → Option Char) : ∀ (segs : List (List Char × Pat)) (lp : Option Pat) (out : List Char),
    (substLoop args rz nx segs lp out).1.length ≤ out.length + segLen segs + (segs.map fun q => need args q.2).sum := by
  intro segs
  induction segs with
  | nil => intro lp out; simp [substLoop, segLen]
  | cons q segs ih =>
    obtain ⟨t, p⟩ := q
    intro lp out
    rw [substLoop]
    generalize ht : (if (rz && (p.rest && p.rawBefore || (Option.map (fun q => q.rest && q.rawAfter) lp).getD false)) = true then deleteRun t else t) = t'
    have h1 : t'.length ≤ t.length := by
      rw [← ht]
      split
      · exact deleteRun_length t
      · exact le_rfl
    have h2 := useOf_length args p (out ++ t') (nx segs)
    have h3 := ih (some p) (out ++ t' ++ useOf p (args p.arg) (out ++ t') (nx segs))
    simp only [List.length_append, segLen, List.map_cons, List.sum_cons] at *
    omega

theorem subst_length (d : Def) (args : Nat → Arg) (rz : Bool) :
    (subst d args rz).length ≤ d.size + (d.segs.map fun q => need args q.2).sum := by
  unfold subst
  have h1 := substLoop_length args rz (firstChar d.last) d.segs none []
  simp only
  generalize (substLoop args rz (firstChar d.last) d.segs none []) = x at h1
  rw [List.length_append]
  have h2 : (if (rz && (Option.map (fun q => q.rest && q.rawAfter) x.2).getD false) = true then d.last.dropWhile (fun c => decide (c ≠ ')')) else d.last).length ≤ d.last.length := by
    split
    · exact length_dropWhile_le _ _
    · exact le_rfl
  simp only [Def.size, List.length_nil] at *
  omega

end Splint.CppMacro
