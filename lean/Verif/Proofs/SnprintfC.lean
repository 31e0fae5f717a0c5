import Verif.Proofs.Snprintf
/-!
# The replacement for snprintf and the output C prescribes
-/
namespace Splint.Snp
open Spec

/-! ## Reading a directive -/

def addFlags (fl : Fl) (fs : List Char) : Fl :=
  { fl with minus := fl.minus || decide ('-' ∈ fs), plus := fl.plus || decide ('+' ∈ fs),
            space := fl.space || decide (' ' ∈ fs), zero := fl.zero || decide ('0' ∈ fs) }

def NoFlag (g : List Char) : Prop := ∀ c, g.head? = some c → c ∉ ['-', '+', ' ', '#', '0']

theorem flagsLoop_stop (fl : Fl) (g : List Char) (h : NoFlag g) : flagsLoop fl g = (fl, g) := by
  rw [flagsLoop.eq_def]
  split
  all_goals first
    | rfl
    | (exfalso; exact absurd (h _ rfl) (by decide))

theorem flagsLoop_eq (fs : List Char) (g : List Char) (hg : NoFlag g) :
    ∀ fl, (∀ c ∈ fs, c ∈ ['-', '+', ' ', '0']) → flagsLoop fl (fs ++ g) = (addFlags fl fs, g) := by
  induction fs with
  | nil => intro fl _; rw [List.nil_append, flagsLoop_stop fl g hg]; simp [addFlags]
  | cons c fs ih =>
    intro fl h
    have hc := h c (by simp)
    have h' : ∀ c ∈ fs, c ∈ ['-', '+', ' ', '0'] := fun c hc => h c (by simp [hc])
    simp only [List.mem_cons, List.not_mem_nil, or_false] at hc
    rcases hc with rfl | rfl | rfl | rfl <;>
      (rw [List.cons_append, flagsLoop, ih _ h']; simp [addFlags])

def NoDigit (g : List Char) : Prop := ∀ c, g.head? = some c → c.isDigit = false

theorem foldl_ge (ds : List Char) : ∀ n : Nat, n ≤ ds.foldl (fun n c => 10 * n + (c.toNat - 48)) n := by
  induction ds with
  | nil => intro n; exact Nat.le_refl _
  | cons c ds ih =>
    intro n
    rw [List.foldl_cons]
    have := ih (10 * n + (c.toNat - 48))
    omega

theorem numLoop_eq (ds g : List Char) (hg : NoDigit g) : ∀ n, (∀ c ∈ ds, c.isDigit = true) →
    ds.foldl (fun n c => 10 * n + (c.toNat - 48)) n < 2^31 →
    numLoop n (ds ++ g) = some (ds.foldl (fun n c => 10 * n + (c.toNat - 48)) n, g) := by
  induction ds with
  | nil =>
    intro n _ _
    cases g with
    | nil => rfl
    | cons c g => simp [numLoop, hg c rfl]
  | cons c ds ih =>
    intro n h hv
    have hc := h c (by simp)
    rw [List.foldl_cons] at hv
    have := foldl_ge ds (10 * n + (c.toNat - 48))
    rw [List.cons_append, numLoop, if_pos hc, if_pos (by omega), ih _ (fun c hc => h c (by simp [hc])) hv]
    rfl

def cflagOf : Len → CFlag
  | .none_ => .none_ | .h => .short | .l => .long | .ll => .llong

theorem parseMod_eq (fl : Fl) (mi ma : Int) (l : Len) (c : Conv) (f : List Char) (args : List Arg) :
    parseMod fl mi ma (l.text ++ c.text :: f) args = ⟨fl, mi, ma, cflagOf l, c.text :: f, args⟩ := by
  cases l <;> cases c <;> rfl

theorem noDigit_tail (l : Len) (c : Conv) (f : List Char) : NoDigit (l.text ++ c.text :: f) := by
  intro x hx
  cases l <;> cases c <;> (simp [Len.text, Conv.text] at hx; subst hx; decide)

theorem notStar_tail (l : Len) (c : Conv) (f : List Char) :
    ∃ x g, l.text ++ c.text :: f = x :: g ∧ x ≠ '*' ∧ x ≠ '.' ∧ x ∉ ['-', '+', ' ', '#', '0'] := by
  cases l <;> cases c <;> exact ⟨_, _, rfl, by decide, by decide, by decide⟩

/-- The number behind a period as the program keeps it. -/
def maxOf : Prec → List Arg → Option (Int × List Arg)
  | .none_, l => some (-1, l)
  | .num [], l => some (-1, l)
  | .num ds, l => some (value ds, l)
  | .star, .sint z :: l => some (z, l)
  | .star, _ => none

def minOf : Width → List Arg → Option (Int × List Arg)
  | .none_, l => some (0, l)
  | .num ds, l => some (value ds, l)
  | .star, .sint z :: l => some (z, l)
  | .star, _ => none

theorem parseDot_eq (fl : Fl) (mi : Int) (p : Prec) (l : Len) (c : Conv) (f : List Char) (args : List Arg)
    (hp : ∀ ds, p = .num ds → (∀ c ∈ ds, c.isDigit = true) ∧ value ds < 2^31) :
    parseDot fl mi (p.text ++ l.text ++ c.text :: f) args =
      (maxOf p args).map fun r => ⟨fl, mi, r.1, cflagOf l, c.text :: f, r.2⟩ := by
  obtain ⟨x, g, hx, h1, h2, _⟩ := notStar_tail l c f
  cases p with
  | none_ =>
    simp only [Prec.text, List.nil_append, maxOf, Option.map_some]
    rw [← parseMod_eq, hx]
    unfold parseDot
    split
    · rename_i he; cases he; exact absurd rfl h2
    · rfl
  | num ds =>
    have := hp ds rfl
    simp only [Prec.text, List.cons_append, parseDot, parseMax]
    have hn := numLoop_eq ds (l.text ++ c.text :: f) (noDigit_tail l c f) 0 this.1 this.2
    rw [List.append_assoc, hn]
    simp only [Option.bind_some]
    rw [hx]
    split
    · rename_i he; cases he; exact absurd rfl h1
    · rw [← hx, parseMod_eq]
      cases ds with
      | nil => simp [maxOf]
      | cons a ds =>
        have : ¬ (l.text ++ c.text :: f).length = (a :: ds ++ (l.text ++ c.text :: f)).length := by
          simp
          omega
        rw [if_neg this]
        rfl
  | star =>
    simp only [Prec.text, List.cons_append, List.nil_append, parseDot, parseMax]
    have hn : numLoop 0 ('*' :: (l.text ++ c.text :: f)) = some (0, '*' :: (l.text ++ c.text :: f)) := rfl
    rw [hn]
    simp only [Option.bind_some]
    cases args with
    | nil => rfl
    | cons a args =>
      cases a <;> simp only [maxOf, Option.map_some, Option.map_none]
      rw [parseMod_eq]

theorem parseDir_eq (d : Directive) (hd : d.Ok) (f : List Char) (args : List Arg) :
    parseDir (d.text ++ f) args = (minOf d.width args).bind fun m => (maxOf d.prec m.2).map fun r =>
      ⟨addFlags {} d.flags, m.1, r.1, cflagOf d.len, d.conv.text :: f, r.2⟩ := by
  obtain ⟨hf, hw, hp, _⟩ := hd
  obtain ⟨x, g, hx, h1, h2, h3⟩ := notStar_tail d.len d.conv f
  have ht : d.text ++ f = d.flags ++ (d.width.text ++ (d.prec.text ++ d.len.text ++ d.conv.text :: f)) := by
    simp [Directive.text]
  have hdot := parseDot_eq (addFlags {} d.flags)
  -- behind the width there is no digit, no flag and no asterisk
  have htail : ∃ y g', d.prec.text ++ d.len.text ++ d.conv.text :: f = y :: g' ∧ y ≠ '*' ∧
      y ∉ ['-', '+', ' ', '#', '0'] ∧ y.isDigit = false := by
    cases hpr : d.prec with
    | none_ =>
      refine ⟨x, g, by rw [← hx]; rfl, h1, h3, ?_⟩
      have := noDigit_tail d.len d.conv f
      rw [hx] at this
      exact this x rfl
    | num ds => exact ⟨'.', _, rfl, by decide, by decide, by decide⟩
    | star => exact ⟨'.', _, rfl, by decide, by decide, by decide⟩
  obtain ⟨y, g', hy, hy1, hy2, hy3⟩ := htail
  rw [ht]
  unfold parseDir
  have hnd : NoDigit (d.prec.text ++ d.len.text ++ d.conv.text :: f) := by
    intro c hc; rw [hy] at hc; cases hc; exact hy3
  cases hwd : d.width with
  | none_ =>
    have hnf : NoFlag (Width.none_.text ++ (d.prec.text ++ d.len.text ++ d.conv.text :: f)) := by
      intro c hc; rw [Width.text, List.nil_append, hy] at hc; cases hc; exact hy2
    rw [flagsLoop_eq _ _ hnf _ hf]
    simp only []
    have := numLoop_eq [] (d.prec.text ++ d.len.text ++ d.conv.text :: f) hnd 0 (by simp) (by simp)
    simp only [List.nil_append, List.foldl_nil] at this
    simp only [Width.text, List.nil_append, this, Option.bind_some, minOf]
    rw [← hdot 0 d.prec d.len d.conv f args hp, hy]
    split
    · rename_i he; cases he; exact absurd rfl hy1
    · rfl
  | num ds =>
    obtain ⟨e1, e2, e3, e4⟩ := hw ds hwd
    have hnf : NoFlag ((Width.num ds).text ++ (d.prec.text ++ d.len.text ++ d.conv.text :: f)) := by
      intro c hc
      cases ds with
      | nil => exact absurd rfl e1
      | cons a ds =>
        simp only [Width.text, List.cons_append, List.head?_cons, Option.some.injEq] at hc
        subst hc
        have ha := e3 a (by simp)
        simp only [List.mem_cons, List.not_mem_nil, or_false, not_or]
        refine ⟨?_, ?_, ?_, ?_, ?_⟩
        · rintro rfl; exact absurd ha (by decide)
        · rintro rfl; exact absurd ha (by decide)
        · rintro rfl; exact absurd ha (by decide)
        · rintro rfl; exact absurd ha (by decide)
        · rintro rfl; simp at e2
    rw [flagsLoop_eq _ _ hnf _ hf]
    simp only []
    have := numLoop_eq ds (d.prec.text ++ d.len.text ++ d.conv.text :: f) hnd 0 e3 e4
    simp only [Width.text, this, Option.bind_some, minOf]
    rw [← hdot _ d.prec d.len d.conv f args hp, hy]
    split
    · rename_i he; cases he; exact absurd rfl hy1
    · rfl
  | star =>
    have hnf : NoFlag (Width.star.text ++ (d.prec.text ++ d.len.text ++ d.conv.text :: f)) := by
      intro c hc; cases hc; decide
    rw [flagsLoop_eq _ _ hnf _ hf]
    simp only []
    have hn : ∀ g, numLoop 0 ('*' :: g) = some (0, '*' :: g) := fun g => rfl
    simp only [Width.text, List.cons_append, List.nil_append, hn, Option.bind_some]
    cases args with
    | nil => rfl
    | cons a args =>
      cases a <;> simp only [minOf, Option.bind_some, Option.bind_none]
      rw [hdot _ _ _ _ _ _ hp]

/-! ## Digits -/

theorem digitOf_eq {d : Nat} (h : d < 16) : digitOf false d = Nat.digitChar d := by
  interval_cases d <;> rfl

theorem digitOf_upper {d : Nat} (h : d < 16) : upperHex [Nat.digitChar d] = [digitOf true d] := by
  interval_cases d <;> rfl

theorem convLoop_eq {base : Nat} (hb : 1 < base) (hb' : base ≤ 16) (k : Nat) : ∀ u,
    (Nat.toDigits base u).length ≤ k → (convLoop false base k u).reverse = Nat.toDigits base u := by
  induction k with
  | zero => intro u h; have := Nat.length_toDigits_pos (b := base) (n := u); omega
  | succ k ih =>
    intro u h
    have hm : u % base < 16 := Nat.lt_of_lt_of_le (Nat.mod_lt _ (by omega)) hb'
    rw [Nat.toDigits_eq_if hb] at h ⊢
    rw [convLoop, digitOf_eq hm]
    by_cases hu : u < base
    · rw [Nat.div_eq_of_lt hu, if_pos rfl, if_pos hu, Nat.mod_eq_of_lt hu]; rfl
    · rw [if_neg hu] at h ⊢
      have h0 : u / base ≠ 0 := by
        intro h0
        rw [Nat.div_eq_zero_iff] at h0
        omega
      rw [List.length_append, List.length_singleton] at h
      rw [if_neg h0, List.reverse_cons, ih _ (by omega)]

theorem convLoop_upper {base : Nat} (hb : 1 < base) (hb' : base ≤ 16) (k : Nat) : ∀ u,
    convLoop true base k u = upperHex (convLoop false base k u) := by
  induction k with
  | zero => intro u; rfl
  | succ k ih =>
    intro u
    have hm : u % base < 16 := Nat.lt_of_lt_of_le (Nat.mod_lt _ (by omega)) hb'
    have h1 := digitOf_upper hm
    rw [← digitOf_eq hm] at h1
    rw [convLoop, convLoop]
    by_cases h0 : u / base = 0
    · simp only [h0, if_true]; exact h1.symm
    · simp only [h0, if_false, ih]
      simp only [upperHex, List.map_cons, List.cons.injEq, and_true, List.map_nil] at h1 ⊢
      exact h1.symm

theorem upperHex_length (l : List Char) : (upperHex l).length = l.length := by simp [upperHex]

theorem convLoop_length {base : Nat} (hb : 1 < base) (hb' : base ≤ 16) {k u : Nat}
    (h : (Nat.toDigits base u).length ≤ k) (caps : Bool) :
    (convLoop caps base k u).length = (Nat.toDigits base u).length := by
  rw [← convLoop_eq hb hb' k u h, List.length_reverse]
  cases caps
  · rfl
  · rw [convLoop_upper hb hb', upperHex_length]

/-- What the conversion of a number comes to if there are 19 digits at most. -/
theorem fmtint_eq (v : Int) (base : Nat) (hb : 1 < base) (hb' : base ≤ 16) (mi ma : Int) (fl : Fl) (u : Nat)
    (sign digits : List Char) (hv : fl.uns = true ∨ v ≠ -2^63)
    (hu : (if fl.uns = false ∧ v < 0 then (-v).toNat else (v % 2^64).toNat) = u)
    (hs : (if fl.uns then [] else if v < 0 then ['-'] else if fl.plus then ['+'] else if fl.space then [' '] else [])
      = sign)
    (hd : (if fl.up then upperHex (Nat.toDigits base u) else Nat.toDigits base u) = digits)
    (hl : digits.length ≤ 19) :
    fmtint v base mi ma fl =
      some (
        let z := ma.toNat - digits.length
        let s := mi.toNat - (max ma.toNat digits.length) - sign.length
        if fl.zero then sign ++ zeros (max z s) ++ digits
        else if fl.minus then sign ++ zeros z ++ digits ++ spaces s
        else spaces s ++ sign ++ zeros z ++ digits) := by
  have hlen : (Nat.toDigits base u).length = digits.length := by
    rw [← hd]; split_ifs <;> simp [upperHex_length]
  have hpos := Nat.length_toDigits_pos (b := base) (n := u)
  have hrev : (convLoop fl.up base 20 u).reverse = digits := by
    rw [← hd]
    cases fl.up
    · simp only [Bool.false_eq_true, if_false]; exact convLoop_eq hb hb' 20 u (by omega)
    · simp only [if_true]
      rw [convLoop_upper hb hb', ← convLoop_eq hb hb' 20 u (by omega)]
      exact (List.map_reverse).symm
  have hcl : (convLoop fl.up base 20 u).length = digits.length := by rw [← hrev, List.length_reverse]
  unfold fmtint
  have hno : (!fl.uns && decide (v = -2^63)) = false := by
    rcases hv with h | h
    · simp [h]
    · rw [decide_eq_false h, Bool.and_false]
  have hu' : (if (!fl.uns && decide (v < 0)) = true then (-v).toNat else (v % 2^64).toNat) = u := by
    rw [← hu]; cases fl.uns <;> simp
  simp only [hno, Bool.false_eq_true, if_false, hu', hs, hcl]
  rw [if_neg (show ¬ digits.length = 20 by omega), hrev, hcl]
  have e0 : ((if ma < 0 then 0 else ma) - (digits.length : Int)).toNat = ma.toNat - digits.length := by
    split_ifs <;> omega
  have e1 : (mi - (if (if ma < 0 then 0 else ma) ≥ (digits.length : Int) then (if ma < 0 then 0 else ma) else
      (digits.length : Int)) - (sign.length : Int)).toNat =
      mi.toNat - (max ma.toNat digits.length) - sign.length := by
    split_ifs <;> omega
  rw [e0, e1]
  generalize ma.toNat - digits.length = z
  generalize mi.toNat - (max ma.toNat digits.length) - sign.length = s
  have e2 : (if z ≥ s then z else s) = max z s := by split_ifs <;> omega
  rw [e2]
  cases fl.zero <;> cases fl.minus <;> simp [spaces, zeros]

/-- The flag 0 does what C says. -/
def ZeroOk (flags : List Char) (w : Nat) (p : Option Nat) (sign digits : List Char) : Prop :=
  '0' ∈ flags → ('-' ∉ flags ∧ p = none) ∨ w ≤ sign.length + max (p.getD 0) digits.length

theorem number_eq (flags : List Char) (w : Nat) (p : Option Nat) (sign digits : List Char) (zv : Bool) (ma : Int)
    (hp : ma.toNat = p.getD 0) (hnz : ¬ (p = some 0 ∧ zv = true)) (hd : 0 < digits.length)
    (hz : ZeroOk flags w p sign digits) :
    (let z := ma.toNat - digits.length
     let s := (w : Int).toNat - (max ma.toNat digits.length) - sign.length
     if (addFlags {} flags).zero then sign ++ zeros (max z s) ++ digits
     else if (addFlags {} flags).minus then sign ++ zeros z ++ digits ++ spaces s
     else spaces s ++ sign ++ zeros z ++ digits) =
    number flags (decide ('-' ∈ flags)) w p sign digits zv := by
  have e1 : (w : Int).toNat = w := Int.toNat_natCast w
  have e2 : p.getD 1 - digits.length = p.getD 0 - digits.length := by
    cases p with
    | none => simp; omega
    | some q => rfl
  unfold number
  simp only [e1, hp, if_neg hnz, e2, addFlags, Bool.false_or, spaces, zeros, fill, decide_eq_true_eq]
  by_cases h0 : '0' ∈ flags
  · rcases hz h0 with ⟨h1, h2⟩ | h
    · subst h2
      simp only [h0, h1, decide_false, and_self, if_true, Option.getD_none, Nat.zero_sub, List.replicate_zero,
        List.nil_append]
      congr 3; omega
    · have es : w - max (p.getD 0) digits.length - sign.length = 0 := by omega
      simp only [h0, if_true, es, Nat.max_zero]
      by_cases hm : '-' ∈ flags
      · have : w - (p.getD 0 - digits.length + digits.length + sign.length) = 0 := by omega
        have : w - (sign.length + (p.getD 0 - digits.length + digits.length)) = 0 := by omega
        simp [hm, this]
      · by_cases hn : p = none
        · subst hn
          have : w - sign.length - digits.length = 0 := by simp at h; omega
          simp [hm, this]
        · have : w - (sign.length + (p.getD 0 - digits.length + digits.length)) = 0 := by omega
          simp [hm, hn, this]
  · have es : w - max (p.getD 0) digits.length - sign.length =
        w - (sign.length + (p.getD 0 - digits.length + digits.length)) := by omega
    by_cases hm : '-' ∈ flags <;> simp [h0, hm, es]

/-- A precision as the program keeps it. -/
def precInt : Option Nat → Int
  | none => -1
  | some q => q

/-- The characters a precision leaves. -/
def cut (p : Option Nat) (s : List Char) : List Char :=
  match p with
  | none => s
  | some q => s.take q

theorem fmtstr_eq (s : List Char) (flags : List Char) (w : Nat) (p : Option Nat) (ma : Int)
    (hma : ma = precInt p)
    (hs : ∀ q, p = some q → w ≤ q ∨ s.length ≤ q) :
    (let max : Int := if ma = -1 then s.length else ma
     let max := if (w : Int) > 0 ∧ max ≥ 0 ∧ (w : Int) > max then (w : Int) else max
     fmtstr s (addFlags {} flags) w max) =
    fill (decide ('-' ∈ flags)) w (cut p s) := by
  obtain ⟨q, hq, htake, hqs⟩ : ∃ q : Nat, (if ma = -1 then (s.length : Int) else ma) = q ∧
      cut p s = s.take q ∧ (w ≤ q ∨ s.length ≤ q) := by
    subst hma
    cases p with
    | none => exact ⟨s.length, by simp [precInt], by simp [cut], Or.inr (Nat.le_refl _)⟩
    | some q =>
      refine ⟨q, ?_, rfl, hs q rfl⟩
      exact if_neg (by simp only [precInt]; omega)
  rw [htake]
  simp only [hq]
  have hM : (if (w : Int) > 0 ∧ (q : Int) ≥ 0 ∧ (w : Int) > q then (w : Int) else q).toNat = max w q := by
    split_ifs with h <;> omega
  simp only [fmtstr, hM, addFlags, Bool.false_or, decide_eq_true_eq, spaces, fill]
  have hpad : ((w : Int) - s.length).toNat = w - s.length := by omega
  rw [hpad]
  have ht1 : s.take (max w q) = s.take q := by
    rcases hqs with h | h
    · rw [Nat.max_eq_right h]
    · rw [List.take_of_length_le h, List.take_of_length_le (by omega)]
  split_ifs with hm
  · rw [ht1]
    congr 2
    simp only [List.length_take]
    change min _ _ = _
    omega
  · simp only [List.length_replicate]
    have h1 : Nat.min (w - s.length) (max w q) = w - (s.take q).length := by
      change min _ _ = _
      simp only [List.length_take]; omega
    rw [h1]
    congr 1
    simp only [List.length_take]
    rcases Nat.lt_or_ge s.length w with hl | hl
    · rw [List.take_of_length_le (by omega), List.take_of_length_le (by omega)]
    · have : max w q - (w - min q s.length) = q ∨ (s.length ≤ q ∧ s.length ≤ max w q - (w - min q s.length)) := by
        omega
      rcases this with h | h
      · rw [h]
      · rw [List.take_of_length_le h.1, List.take_of_length_le h.2]

end Splint.Snp
