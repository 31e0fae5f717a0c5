import Verif.Spec.ConstraintDump
import Verif.Proofs.LibRef
namespace Splint.Lib
open Reader Spec Bounds

theorem line_eq (l f : List Char) (hl : '\n' ∉ l) : ∀ k, l.length < k →
    line (l ++ '\n' :: f) k = (l ++ ['\n'], f) := by
  induction l with
  | nil => intro k hk; simp at hk; simp [line]; omega
  | cons c l ih =>
    intro k hk
    simp only [List.mem_cons, not_or] at hl
    simp only [List.length_cons] at hk
    have := ih hl.2 (k - 1) (by omega)
    simp only [List.cons_append, line, this]
    rw [if_neg (by omega), if_neg (by exact fun h => hl.1 h.symm)]

theorem fgets_eq {l : List Char} (hl : '\n' ∉ l) (h : l.length < 16383) (f : List Char) :
    fgets (l ++ '\n' :: f) = some (l ++ ['\n'], f) := by
  rw [fgets, if_neg (by simp), line_eq l f hl _ (by simpa [maxLine] using h)]

theorem decimal_length (n : Nat) : ∀ k, n < 10 ^ (k + 1) → (decimal n).length ≤ k + 1 := by
  induction n using Nat.strong_induction_on with
  | _ n ih =>
    intro k hk
    by_cases h : n < 10
    · rw [decimal_lt h]; simp
    · rw [decimal_ge (by omega)]
      cases k with
      | zero => simp at hk; omega
      | succ k =>
        have := ih (n / 10) (by omega) k (by rw [pow_succ] at hk; omega)
        simp; omega

theorem intText_length {n : Int} (h : Num n) : (intText n).length ≤ 11 := by
  have h1 := h.1
  have h2 := h.2.1
  unfold intText
  split
  · have := decimal_length n.toNat 9 (by omega)
    omega
  · have := decimal_length (-n).toNat 9 (by omega)
    simp; omega

theorem decimal_no {n : Nat} {c : Char} (h : isDig c = false) : c ∉ decimal n := by
  intro hc
  rw [decimal_digits n c hc] at h
  cases h

theorem intText_no {n : Int} {c : Char} (h : isDig c = false) (h' : c ≠ '-') : c ∉ intText n := by
  unfold intText
  split
  · exact decimal_no h
  · simp [h', decimal_no h]

theorem getInt_line {n : Int} (h : Num n) : getInt (intText n ++ ['\n']) = some (n, []) := by
  rw [getInt_num h (by intro c cs h; cases h; decide)]
  rfl

theorem fgets_num {n : Int} (h : Num n) (f : List Char) :
    fgets (intText n ++ '\n' :: f) = some (intText n ++ ['\n'], f) :=
  fgets_eq (intText_no (by decide) (by decide)) (by have := intText_length h; omega) f

theorem num_small {n : Int} (h : 0 ≤ n) (h' : n ≤ 4) : Num n := ⟨by omega, by omega, .inl h⟩

/-- What a term is read as. -/
def LTerm.reread : LTerm → LTerm
  | .expr w => .named w
  | .result _ => .result ctUnknown
  | t => t

theorem thing_reread (t : LTerm) : thing t.reread = thing t := by cases t <;> rfl

theorem Spec.Name.good {w : List Char} (h : Name w) : GoodName w := ⟨h.1, h.2.2⟩

theorem getWord_line {w : List Char} (h : GoodName w) (s : List Char) :
    getWord (w ++ '\n' :: s) = (some w, '\n' :: s) :=
  getWord_good w _ h (by intro c cs h; cases h; simp)

theorem getWord_space {w : List Char} (h : GoodName w) (s : List Char) :
    getWord (w ++ ' ' :: s) = (some w, ' ' :: s) :=
  getWord_good w _ h (by intro c cs h; cases h; simp)

theorem intText_ne (n : Int) : intText n ≠ [] := by
  unfold intText
  split
  · exact decimal_ne_nil _
  · simp

theorem goodName_int (n : Int) : GoodName (intText n) := by
  refine ⟨intText_ne n, fun c hc => ⟨?_, ?_, ?_, ?_, ?_⟩⟩ <;> rintro rfl <;>
    exact intText_no (by decide) (by decide) hc

theorem getInt_int {n : Int} (h : Num n) : getInt (intText n) = some (n, []) := by
  have := getInt_num h (r := []) (by intro c cs h; cases h)
  simpa using this

theorem getInt_space (s : List Char) : getInt (' ' :: s) = getInt s := by
  simp [getInt]

theorem Ref.dump_no {eqv : Ref → Ref → Bool} {r : Ref} (h : Good eqv r) : '\n' ∉ r.dump := by
  have hi : ∀ n, '\n' ∉ intText n := fun n => intText_no (by decide) (by decide)
  have hv : ∀ v, '\n' ∉ valText v := by
    intro v
    cases v with
    | none => simp [valText]
    | some x => simp [valText, hi]
  have ht : ∀ ct, '\n' ∉ typeText ct := by
    intro ct; unfold typeText; split
    · decide
    · exact hi ct
  induction h with
  | @fetch v i r _ _ _ ih => cases i <;> simp [dump, hi, hv, ih]
  | field _ _ h _ ih => simp [dump, hv, ih, h]
  | ptr _ _ _ ih => simp [dump, hv, ih]
  | adr _ _ _ _ ih => simp [dump, hv, ih]
  | conj _ _ _ _ iha ihb => simp [dump, hv, iha, ihb]
  | _ => simp [dump, hi, hv, ht]

theorem term_text {eqv : Ref → Ref → Bool} {t : LTerm} (h : GoodTerm eqv t) :
    '\n' ∉ t.text ∧ t.text.length < 16383 := by
  cases h with
  | expr h => exact ⟨fun hc => (h.2.2 _ hc).2.2.1 rfl, h.2.1⟩
  | result => exact ⟨by simp only [LTerm.text]; decide, by simp only [LTerm.text]; decide⟩
  | @param ct n h1 h2 h3 h4 =>
    have := intText_length h3
    have := intText_length (Num.nat h1 h2)
    have hi : ∀ n, '\n' ∉ intText n := fun n => intText_no (by decide) (by decide)
    rw [LTerm.text, Ref.typeText_nat h1]
    refine ⟨?_, ?_⟩
    · simp [wParam, hi]
    · simp [wParam]; omega
  | ref h1 h2 => exact ⟨by simp [LTerm.text, wRef, Ref.dump_no h1], by simp [LTerm.text, wRef]; omega⟩
  | named h => exact ⟨fun hc => (h.2.2 _ hc).2.2.1 rfl, h.2.1⟩
  | lit h => exact ⟨intText_no (by decide) (by decide),
      by have := intText_length h; simp only [LTerm.text]; omega⟩

theorem follows_newline : Follows ['\n'] :=
  ⟨by intro c cs h; cases h; decide, by intro c cs h; simp [isBlank] at h⟩

theorem term_undump {eqv : Ref → Ref → Bool} {t : LTerm} (h : GoodTerm eqv t) (f : List Char) :
    LTerm.undump eqv (t.dump ++ f) = some (t.reread, f) := by
  obtain ⟨h1, h2⟩ := term_text h
  have hk : Num t.kind := num_small (by cases t <;> simp [LTerm.kind]) (by cases t <;> simp [LTerm.kind])
  have e1 : fgets (t.dump ++ f) = some (intText t.kind ++ ['\n'], t.text ++ '\n' :: f) := by
    simp only [LTerm.dump, numLine, List.append_assoc, List.singleton_append, List.cons_append,
      List.nil_append]
    exact fgets_num hk (t.text ++ '\n' :: f)
  simp only [LTerm.undump, e1, getInt_line hk, fgets_eq h1 h2 f, Option.bind_eq_bind,
    Option.bind_some]
  cases h with
  | expr h => simp [LTerm.kind, LTerm.text, getWord_line h.good, LTerm.reread]
  | @result ct =>
    have : readRef eqv (wResult ++ ['\n']) = some (.result ctUnknown) := by
      rw [readRef, getWord_line (by refine ⟨by decide, by decide⟩)]
      simp
    simp [LTerm.kind, LTerm.text, this, LTerm.reread]
  | @param ct n c1 c2 c3 c4 =>
    have : readRef eqv (wParam ++ ' ' :: (intText ct ++ ' ' :: (intText n ++ ['\n'])))
        = some (.param ct n) := by
      rw [readRef, getWord_space (by refine ⟨by decide, by decide⟩)]
      simp only [checkChar]
      rw [if_neg (by decide), if_pos trivial]
      simp [getWord_space (goodName_int ct), getInt_space, getInt_line c3,
        getInt_int (Num.nat c1 c2), c4]
    simp [LTerm.kind, LTerm.text, Ref.typeText_nat c1, this, LTerm.reread]
  | @ref r c1 c2 =>
    obtain ⟨t, e, -⟩ := Ref.undump_dump c1 follows_newline
    have : readRef eqv (wRef ++ ' ' :: (r.dump ++ ['\n'])) = some (.ref r) := by
      rw [readRef, getWord_space (by refine ⟨by decide, by decide⟩)]
      simp only [checkChar]
      rw [if_neg (by decide), if_neg (by decide), if_pos trivial]
      simp [e]
    simp [LTerm.kind, LTerm.text, this, LTerm.reread]
  | @named w c1 c2 =>
    have : readRef eqv (w ++ ['\n']) = some (.named w) := by
      rw [readRef, getWord_line c1.good]
      simp only [keywords, List.mem_cons, List.not_mem_nil, or_false, not_or] at c2
      simp [wResult, wParam, wRef, c2]
    simp [LTerm.kind, LTerm.text, this, LTerm.reread]
  | lit h => simp [LTerm.kind, LTerm.text, getInt_line h, LTerm.reread]

/-- What an expression is read as. -/
def LExpr.reread : LExpr → LExpr
  | .term t => .term t.reread
  | .un op e => .un op e.reread
  | .bin op a b => .bin op a.reread b.reread

theorem sense_reread (e : LExpr) : sense e.reread = sense e := by
  induction e <;> simp_all [LExpr.reread, sense, thing_reread]

def LExpr.depth : LExpr → Nat
  | .term _ => 1
  | .un _ e => e.depth + 1
  | .bin _ a b => max a.depth b.depth + 1

theorem LExpr.depth_le (e : LExpr) : e.depth ≤ e.dump.length := by
  induction e with
  | term t =>
    simp only [depth, dump, numLine, List.length_append, List.length_singleton]; omega
  | un op e ih =>
    simp only [depth, dump, numLine, List.length_append, List.length_singleton]; omega
  | bin op a b iha ihb =>
    simp only [depth, dump, numLine, List.length_append, List.length_singleton, List.length_cons]
    omega

theorem unOf_num (op : UnOp) : unOf (unNum op) = some op := by cases op <;> rfl
theorem binOf_num (op : BinOp) : binOf (binNum op) = some op := by cases op <;> rfl
theorem arOf_num (op : Ar) : arOf (arNum op) = some op := by cases op <;> rfl
theorem un_num (op : UnOp) : Num (unNum op) :=
  num_small (by cases op <;> simp [unNum]) (by cases op <;> simp [unNum])
theorem bin_num (op : BinOp) : Num (binNum op) :=
  num_small (by cases op <;> simp [binNum]) (by cases op <;> simp [binNum])
theorem ar_num (op : Ar) : Num (arNum op) :=
  num_small (by cases op <;> simp [arNum]) (by cases op <;> simp [arNum])
theorem bool_num (b : Bool) : Num (boolNum b) :=
  num_small (by cases b <;> simp [boolNum]) (by cases b <;> simp [boolNum])

theorem expr_read {eqv : Ref → Ref → Bool} {e : LExpr} (h : GoodExpr eqv e) :
    ∀ n, e.depth ≤ n → ∀ f, LExpr.readN eqv n (e.dump ++ f) = some (e.reread, f) := by
  induction h with
  | @term t ht =>
    intro n hn f
    obtain ⟨n, rfl⟩ : ∃ k, n = k + 1 := ⟨n - 1, by simp [LExpr.depth] at hn; omega⟩
    have h2 : Num 2 := num_small (by decide) (by decide)
    simp [LExpr.readN, LExpr.dump, numLine, fgets_num h2, getInt_line h2, term_undump ht,
      LExpr.reread]
  | @un op e he ih =>
    intro n hn f
    obtain ⟨n, rfl⟩ : ∃ k, n = k + 1 := ⟨n - 1, by simp [LExpr.depth] at hn; omega⟩
    have h1 : Num 1 := num_small (by decide) (by decide)
    have ih := ih n (by simp [LExpr.depth] at hn; omega)
    simp [LExpr.readN, LExpr.dump, numLine, fgets_num h1, getInt_line h1, fgets_num (un_num op),
      getInt_line (un_num op), unOf_num, ih, LExpr.reread]
  | @bin op a b ha hb iha ihb =>
    intro n hn f
    obtain ⟨n, rfl⟩ : ∃ k, n = k + 1 := ⟨n - 1, by simp [LExpr.depth] at hn; omega⟩
    have h0 : Num 0 := num_small (by decide) (by decide)
    have iha := iha n (by simp [LExpr.depth] at hn; omega)
    have ihb := ihb n (by simp [LExpr.depth] at hn; omega)
    have l1 : ∀ f, fgets ('e' :: '1' :: '\n' :: f) = some (['e', '1', '\n'], f) := fun f =>
      fgets_eq (l := ['e', '1']) (by decide) (by decide) f
    have l2 : ∀ f, fgets ('e' :: '2' :: '\n' :: f) = some (['e', '2', '\n'], f) := fun f =>
      fgets_eq (l := ['e', '2']) (by decide) (by decide) f
    simp [LExpr.readN, LExpr.dump, numLine, fgets_num h0, getInt_line h0, fgets_num (bin_num op),
      getInt_line (bin_num op), binOf_num, l1, l2, checkChar, iha, ihb, LExpr.reread]

theorem expr_undump {eqv : Ref → Ref → Bool} {e : LExpr} (h : GoodExpr eqv e) (f : List Char) :
    LExpr.undump eqv (e.dump ++ f) = some (e.reread, f) :=
  expr_read h _ (by have := e.depth_le; rw [List.length_append]; omega) f

/-- What a constraint is read as. -/
def LCon.reread (c : LCon) : LCon := ⟨c.pre, c.post, c.ar, c.l.reread, c.r.reread, []⟩

theorem content_reread {c : LCon} (h : c.alt = []) : content c.reread = content c := by
  simp [content, LCon.reread, sense_reread, h]

theorem boolNum_ne (b : Bool) : decide (boolNum b ≠ 0) = b := by cases b <;> rfl

theorem con_undump {eqv : Ref → Ref → Bool} {c : LCon} (h : GoodCon eqv c) (f : List Char) :
    LCon.undump eqv (c.dump ++ f) = some (c.reread, f) := by
  obtain ⟨-, hl, hr⟩ := h
  have ll : ∀ f, fgets ('l' :: '\n' :: f) = some (['l', '\n'], f) := fun f =>
    fgets_eq (l := ['l']) (by decide) (by decide) f
  have lr : ∀ f, fgets ('r' :: '\n' :: f) = some (['r', '\n'], f) := fun f =>
    fgets_eq (l := ['r']) (by decide) (by decide) f
  have hi : ∀ n, '\n' ∉ intText n := fun n => intText_no (by decide) (by decide)
  have l0 : ∀ f, fgets (intText (boolNum c.pre) ++ '@' :: (intText (boolNum c.post) ++
      '@' :: (intText (arNum c.ar) ++ '\n' :: f))) = some (intText (boolNum c.pre) ++ '@' ::
      (intText (boolNum c.post) ++ '@' :: (intText (arNum c.ar) ++ ['\n'])), f) := by
    intro f
    have := fgets_eq (l := intText (boolNum c.pre) ++ '@' :: (intText (boolNum c.post) ++
      '@' :: intText (arNum c.ar))) (by simp [hi])
      (by
        have h1 := intText_length (bool_num c.pre)
        have h2 := intText_length (bool_num c.post)
        have h3 := intText_length (ar_num c.ar)
        simp; omega) f
    simpa using this
  have g : ∀ {n : Int}, Num n → ∀ s, getInt (intText n ++ '@' :: s) = some (n, '@' :: s) := by
    intro n hn s
    rw [getInt_num hn (by intro c cs h; cases h; decide), List.dropWhile_cons_of_neg (by decide)]
  simp only [LCon.undump, LCon.dump, numLine, List.append_assoc, List.cons_append,
    List.singleton_append, List.nil_append, l0, g (bool_num _), getInt_line (ar_num _), arOf_num,
    ll, lr, checkChar, expr_undump hl, expr_undump hr, Option.bind_eq_bind, Option.bind_some,
    if_true, boolNum_ne, LCon.reread]

theorem cons_read {eqv : Ref → Ref → Bool} {res : LCon → List LCon → Bool} {e : List Char}
    (he : '\n' ∉ e) (he' : e.length < 16382) (f : List Char) (l : List LCon)
    (hl : ∀ c ∈ l, GoodCon eqv c) : ∀ n, l.length < n → ∀ acc,
    readConsN eqv res n acc (dumpCons l ++ (';' :: e ++ '\n' :: f))
      = some ((l.map LCon.reread).foldl (addCon res) acc, f) := by
  induction l with
  | nil =>
    intro n hn acc
    obtain ⟨n, rfl⟩ : ∃ k, n = k + 1 := ⟨n - 1, by simp at hn; omega⟩
    have : fgets (';' :: (e ++ '\n' :: f)) = some (';' :: (e ++ ['\n']), f) := by
      have := fgets_eq (l := ';' :: e) (by simp [he]) (by simp; omega) f
      simpa using this
    simp [readConsN, dumpCons, this]
  | cons c l ih =>
    intro n hn acc
    obtain ⟨n, rfl⟩ : ∃ k, n = k + 1 := ⟨n - 1, by simp at hn; omega⟩
    have ih := ih (fun q hq => hl q (by simp [hq])) n (by simp at hn; omega) (addCon res acc c.reread)
    have lC : ∀ f, fgets ('C' :: '\n' :: f) = some (['C', '\n'], f) := fun f =>
      fgets_eq (l := ['C']) (by decide) (by decide) f
    have gw : (getWord ['C', '\n']).1 = some ['C'] := by decide
    have hu := con_undump (hl c (by simp)) (dumpCons l ++ (';' :: e ++ '\n' :: f))
    simp only [List.cons_append, List.append_assoc] at hu ih
    simp [readConsN, dumpCons, lC, gw, hu, ih]

theorem dumpCons_length (l : List LCon) : l.length ≤ (dumpCons l).length := by
  induction l with
  | nil => simp
  | cons c l ih => simp only [dumpCons, List.length_cons, List.length_append]; omega

theorem cons_undump {eqv : Ref → Ref → Bool} {res : LCon → List LCon → Bool} {e : List Char}
    (he : '\n' ∉ e) (he' : e.length < 16382) (f : List Char) {l : List LCon}
    (hl : ∀ c ∈ l, GoodCon eqv c) :
    undumpCons eqv res (dumpCons l ++ (';' :: e ++ '\n' :: f))
      = some ((l.map LCon.reread).foldl (addCon res) [], f) :=
  cons_read he he' f l hl _ (by
    have := dumpCons_length l
    simp only [List.length_append]; omega) []

theorem reread_list {eqv : Ref → Ref → Bool} {res : LCon → List LCon → Bool} {l : List LCon}
    (hl : ∀ c ∈ l, GoodCon eqv c) : Reread res l ((l.map LCon.reread).foldl (addCon res) []) := by
  refine ⟨l.map LCon.reread, ?_, rfl⟩
  rw [List.map_map]
  exact List.map_congr_left fun c hc => content_reread (hl c hc).1

/-- A part of the constraints of a function. -/
theorem part_undump {eqv : Ref → Ref → Bool} {res : LCon → List LCon → Bool} {w : List Char}
    (hw : w = wPre ∨ w = wPost) {p : Option (List LCon)} (hp : ∀ l, p = some l → ∀ c ∈ l, GoodCon eqv c)
    (f : List Char) :
    ∃ p', readPart eqv res w (dumpPart w p ++ f) = some (p', f) ∧ RereadPart res p p' := by
  have gw : GoodName w ∧ GoodName (w ++ wEmpty) := by
    rcases hw with rfl | rfl <;> exact ⟨⟨by decide, by decide⟩, ⟨by decide, by decide⟩⟩
  have hn : '\n' ∉ w ∧ '\n' ∉ w ++ wEmpty := by rcases hw with rfl | rfl <;> decide
  have hlen : w.length < 16383 ∧ (w ++ wEmpty).length < 16383 := by
    rcases hw with rfl | rfl <;> decide
  have hne : w ++ wEmpty ≠ w := by rcases hw with rfl | rfl <;> decide
  cases p with
  | none =>
    refine ⟨none, ?_, trivial⟩
    have := fgets_eq hn.2 hlen.2 f
    have g := getWord_line gw.2 []
    simp only [List.append_assoc] at this g
    simp [readPart, dumpPart, this, g]
    intro h
    exact absurd h (by rcases hw with rfl | rfl <;> decide)
  | some l =>
    refine ⟨some ((l.map LCon.reread).foldl (addCon res) []), ?_, reread_list (hp l rfl)⟩
    have hu := cons_undump (res := res) (e := wEnd.tail) (by decide) (by decide) f (hp l rfl)
    have e : dumpCons l ++ (';' :: wEnd.tail ++ '\n' :: f) = dumpCons l ++ (wEnd ++ '\n' :: f) := rfl
    rw [e] at hu
    have := fgets_eq hn.1 hlen.1 (dumpCons l ++ (wEnd ++ '\n' :: f))
    simp [readPart, dumpPart, this, getWord_line gw.1, hu]

theorem fcns_read {eqv : Ref → Ref → Bool} {res : LCon → List LCon → Bool}
    {known : List Char → Bool} {e : List Char} (he : '\n' ∉ e) (he' : e.length < 16382)
    (f : List Char) (us : List FcnCons)
    (hn : ∀ u ∈ us, Name u.name ∧ u.name.head? ≠ some ';' ∧ known u.name = true)
    (hp : ∀ u ∈ us, ∀ l, u.pre = some l ∨ u.post = some l → ∀ c ∈ l, GoodCon eqv c) :
    ∀ n, us.length < n → ∃ us',
      readFcnsN eqv res known n (dumpFcns us ++ (';' :: e ++ '\n' :: f)) = some (us', f) ∧
      RereadFcns res (us.filter fun u => u.pre.isSome || u.post.isSome) us' := by
  induction us with
  | nil =>
    intro n hn
    obtain ⟨n, rfl⟩ : ∃ k, n = k + 1 := ⟨n - 1, by simp at hn; omega⟩
    have : fgets (';' :: (e ++ '\n' :: f)) = some (';' :: (e ++ ['\n']), f) := by
      have := fgets_eq (l := ';' :: e) (by simp [he]) (by simp; omega) f
      simpa using this
    exact ⟨[], by simp [readFcnsN, dumpFcns, this], .nil⟩
  | cons u us ih =>
    intro n hlen
    have ih := ih (fun v hv => hn v (by simp [hv])) (fun v hv => hp v (by simp [hv]))
    obtain ⟨c1, c2, c3⟩ := hn u (by simp)
    by_cases hu : u.pre.isNone && u.post.isNone
    · obtain ⟨us', h1, h2⟩ := ih n (by simp at hlen; omega)
      refine ⟨us', ?_, ?_⟩
      · simpa [dumpFcns, FcnCons.dump, hu] using h1
      · have : (u.pre.isSome || u.post.isSome) = false := by
          cases h : u.pre <;> cases h' : u.post <;> simp_all
        simpa [this] using h2
    · obtain ⟨n, rfl⟩ : ∃ k, n = k + 1 := ⟨n - 1, by simp at hlen; omega⟩
      obtain ⟨us', h1, h2⟩ := ih n (by simp at hlen; omega)
      obtain ⟨q', q1, q2⟩ := part_undump (res := res) (.inr rfl : wPost = wPre ∨ wPost = wPost)
        (p := u.post) (fun l hl => hp u (by simp) l (.inr hl)) (dumpFcns us ++ (';' :: e ++ '\n' :: f))
      obtain ⟨p', p1, p2⟩ := part_undump (res := res) (.inl rfl : wPre = wPre ∨ wPre = wPost)
        (p := u.pre) (fun l hl => hp u (by simp) l (.inl hl))
        (dumpPart wPost u.post ++ (dumpFcns us ++ (';' :: e ++ '\n' :: f)))
      refine ⟨⟨u.name, p', q'⟩ :: us', ?_, ?_⟩
      · have l0 := fgets_eq (l := u.name) (fun hc => (c1.2.2 _ hc).2.2.1 rfl) c1.2.1
          (dumpPart wPre u.pre ++ (dumpPart wPost u.post ++ (dumpFcns us ++
            (';' :: e ++ '\n' :: f))))
        have hh : (u.name ++ ['\n']).head? ≠ some ';' := by
          cases hw : u.name with
          | nil => exact absurd hw c1.1
          | cons a w => rw [hw] at c2; simpa using c2
        simp only [List.cons_append, List.append_assoc] at l0 p1 q1 h1
        have gw := getWord_line c1.good []
        have hd : u.dump = u.name ++ '\n' :: (dumpPart wPre u.pre ++ dumpPart wPost u.post) := by
          rw [FcnCons.dump, if_neg hu]
        simp only [dumpFcns, hd, List.append_assoc, List.cons_append, readFcnsN, l0]
        rw [if_neg hh, gw]
        simp [c3, p1, q1, h1]
      · have : (u.pre.isSome || u.post.isSome) = true := by
          cases h : u.pre <;> cases h' : u.post <;> simp_all
        rw [List.filter_cons, if_pos this]
        exact .cons ⟨rfl, p2, q2⟩ h2

theorem dumpFcns_length (us : List FcnCons) :
    (us.filter fun u => u.pre.isSome || u.post.isSome).length ≤ (dumpFcns us).length := by
  induction us with
  | nil => simp
  | cons u us ih =>
    simp only [dumpFcns, List.length_append, List.filter_cons]
    split
    · have : 1 ≤ u.dump.length := by
        unfold FcnCons.dump
        rw [if_neg (by cases h : u.pre <;> cases h' : u.post <;> simp_all)]
        simp; omega
      simp; omega
    · omega

theorem dumpFcns_filter (us : List FcnCons) :
    dumpFcns (us.filter fun u => u.pre.isSome || u.post.isSome) = dumpFcns us := by
  induction us with
  | nil => rfl
  | cons u us ih =>
    rw [List.filter_cons]
    split
    · simp [dumpFcns, ih]
    · rename_i h
      have : u.dump = [] := by
        unfold FcnCons.dump
        rw [if_pos (by cases h : u.pre <;> cases h' : u.post <;> simp_all)]
      simp [dumpFcns, ih, this]

theorem fcns_undump {eqv : Ref → Ref → Bool} {res : LCon → List LCon → Bool}
    {known : List Char → Bool} {e : List Char} (he : '\n' ∉ e) (he' : e.length < 16382)
    (f : List Char) (us : List FcnCons)
    (hn : ∀ u ∈ us, Name u.name ∧ u.name.head? ≠ some ';' ∧ known u.name = true)
    (hp : ∀ u ∈ us, ∀ l, u.pre = some l ∨ u.post = some l → ∀ c ∈ l, GoodCon eqv c) :
    ∃ us', undumpFcns eqv res known (dumpFcns us ++ (';' :: e ++ '\n' :: f)) = some (us', f) ∧
      RereadFcns res (us.filter fun u => u.pre.isSome || u.post.isSome) us' := by
  have hlen := dumpFcns_length us
  rw [← dumpFcns_filter us] at hlen ⊢
  obtain ⟨us', h1, h2⟩ := fcns_read (res := res) (known := known) he he' f
    (us.filter fun u => u.pre.isSome || u.post.isSome)
    (fun u hu => hn u ((List.mem_filter.1 hu).1)) (fun u hu => hp u ((List.mem_filter.1 hu).1))
    ((dumpFcns (us.filter fun u => u.pre.isSome || u.post.isSome) ++
      (';' :: e ++ '\n' :: f)).length + 1) (by simp only [List.length_append]; omega)
  refine ⟨us', h1, ?_⟩
  rwa [List.filter_filter, show (fun u : FcnCons => (u.pre.isSome || u.post.isSome) &&
    (u.pre.isSome || u.post.isSome)) = fun u => u.pre.isSome || u.post.isSome by
      funext u; simp] at h2

end Splint.Lib
