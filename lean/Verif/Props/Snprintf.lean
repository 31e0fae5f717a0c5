import Verif.Proofs.SnprintfC
/-!
# C113: the replacement for snprintf
-/
namespace Splint
open Snp Snp.Spec

/-- The full statement: for the formats of C (without `#`, for conversions of integers, characters and strings)
and arguments of the right types, the output is the one C prescribes. -/
def C113_full : Prop :=
  ∀ (fp : Fp) (ps : List Piece) (args : List Snp.Arg) (o : List Char),
    (∀ p ∈ ps, p.Ok) → (∀ a ∈ args, Snp.Spec.Arg.Ok a) → renderAll ps args = some o →
    output fp (ps.map Piece.text).flatten args = some o

/-- **The buffer**: whatever the format, nothing is written outside the buffer; the buffer holds as much of the
output as there is room for, and a NUL behind it; the rest of it is unchanged; the number returned is the
length of the whole output. -/
theorem C113_buffer (fp : Fp) (mem : List Char) (maxlen : Nat) (fmt : List Char) (args : List Snp.Arg)
    (h : maxlen ≤ mem.length) :
    dopr fp mem maxlen fmt args = (output fp fmt args).map fun o =>
      ⟨if maxlen = 0 then mem else
        o.take (maxlen - 1) ++ '\x00' :: mem.drop (min o.length (maxlen - 1) + 1), o.length⟩ :=
  dopr_eq fp mem maxlen fmt args h

example : dopr (fun _ _ _ _ => []) c!"........" 6 c!"a%5d!" [.sint (-42)] =
    some ⟨c!"a  -4" ++ ['\x00'] ++ c!"..", 7⟩ := by decide +kernel

/-- **The string that is made** by `vasprintf` is the whole output; the number returned is its length. -/
theorem C113_vasprintf (fp : Fp) (fresh : Nat → List Char) (hf : ∀ n, (fresh n).length = n) (fmt : List Char)
    (args : List Snp.Arg) (o : List Char) (h : output fp fmt args = some o) (ho : o ≠ []) :
    vasprintf fp fresh fmt args = some (some (o ++ ['\x00']), o.length) := by
  unfold vasprintf
  rw [C113_buffer fp [] 0 fmt args (Nat.zero_le _), h]
  have hl : o.length ≠ 0 := fun h => ho (List.length_eq_zero_iff.1 h)
  simp only [Option.map_some, Option.bind_some, if_true, hl, if_false]
  rw [C113_buffer fp _ _ fmt args (by rw [hf]), h]
  have hd : (fresh (o.length + 1)).drop (o.length + 1) = [] := List.drop_of_length_le (by rw [hf])
  simp [hd]

/-- **No string is made** if the output is empty: the pointer is left as it was. -/
theorem C113_no_string (fp : Fp) (fresh : Nat → List Char) (fmt : List Char) (args : List Snp.Arg)
    (h : output fp fmt args = some []) : vasprintf fp fresh fmt args = some (none, 0) := by
  unfold vasprintf
  rw [C113_buffer fp [] 0 fmt args (Nat.zero_le _), h]
  rfl

example : output (fun _ _ _ _ => []) c!"%s" [.str (some [])] = some [] := by decide +kernel

/-- The directives and arguments for which the output is right. -/
def Fine (d : Directive) (args : List Snp.Arg) : Prop :=
  ∀ w neg a1 p a2, widthOf d.width args = some ((w, neg), a1) → precOf d.prec a1 = some (p, a2) →
    neg = false ∧
    match d.conv with
    | .d | .i => ∀ z l, signedOf d.len a2 = some (z, l) →
        z ≠ -2^63 ∧ (d.len = .h → a2 = .sint z :: l) ∧ ¬ (p = some 0 ∧ z = 0) ∧
        ZeroOk d.flags w p (signOf d.flags z) (Nat.toDigits 10 z.natAbs)
    | .u => ∀ n l, unsignedOf d.len a2 = some (n, l) →
        n < 10^19 ∧ (d.len = .h → a2 = .uint n :: l) ∧ ¬ (p = some 0 ∧ n = 0) ∧
        ZeroOk d.flags w p [] (Nat.toDigits 10 n)
    | .o => ∀ n l, unsignedOf d.len a2 = some (n, l) →
        n < 8^19 ∧ (d.len = .h → a2 = .uint n :: l) ∧ ¬ (p = some 0 ∧ n = 0) ∧
        ZeroOk d.flags w p [] (Nat.toDigits 8 n)
    | .x | .X => ∀ n l, unsignedOf d.len a2 = some (n, l) →
        (d.len = .h → a2 = .uint n :: l) ∧ ¬ (p = some 0 ∧ n = 0) ∧
        ZeroOk d.flags w p [] (Nat.toDigits 16 n)
    | .c => w ≤ 1
    | .s => d.prec ≠ .num [] ∧ (∀ z l, d.prec = .star → a1 = .sint z :: l → -1 ≤ z) ∧
        ∀ s l q, a2 = .str (some s) :: l → p = some q → w ≤ q ∨ s.length ≤ q

theorem width_min {wd : Width} {args a1 : List Snp.Arg} {w : Nat} (h : widthOf wd args = some ((w, false), a1)) :
    minOf wd args = some ((w : Int), a1) := by
  cases wd with
  | none_ =>
    simp only [widthOf, Option.some.injEq, Prod.mk.injEq] at h
    obtain ⟨⟨rfl, _⟩, rfl⟩ := h
    rfl
  | num ds => simp [widthOf] at h; simp [minOf, h]
  | star =>
    cases args with
    | nil => simp [widthOf] at h
    | cons a args =>
      cases a <;> simp [widthOf] at h
      obtain ⟨⟨h1, h2⟩, h3⟩ := h
      simp only [minOf, Option.some.injEq, Prod.mk.injEq, h3, and_true]
      omega

theorem prec_max {pr : Prec} {a1 a2 : List Snp.Arg} {p : Option Nat} (h : precOf pr a1 = some (p, a2)) :
    ∃ ma, maxOf pr a1 = some (ma, a2) ∧ ma.toNat = p.getD 0 ∧
      (pr ≠ .num [] → (∀ z l, pr = .star → a1 = .sint z :: l → -1 ≤ z) →
        ma = precInt p) := by
  cases pr with
  | none_ =>
    simp only [precOf, Option.some.injEq, Prod.mk.injEq] at h
    obtain ⟨rfl, rfl⟩ := h
    exact ⟨-1, rfl, rfl, fun _ _ => rfl⟩
  | num ds =>
    simp only [precOf, Option.some.injEq, Prod.mk.injEq] at h
    obtain ⟨rfl, rfl⟩ := h
    cases ds with
    | nil => exact ⟨-1, rfl, rfl, fun h => absurd rfl h⟩
    | cons a ds => exact ⟨_, rfl, by simp, fun _ _ => rfl⟩
  | star =>
    cases a1 with
    | nil => simp [precOf] at h
    | cons a a1 =>
      cases a with
      | sint z =>
        simp only [precOf, Option.some.injEq, Prod.mk.injEq] at h
        obtain ⟨rfl, rfl⟩ := h
        refine ⟨z, rfl, ?_, ?_⟩
        · split_ifs with hz
          · simp only [Option.getD_none]; omega
          · rfl
        · intro _ hh
          have := hh z a1 rfl rfl
          by_cases hz : z < 0
          · rw [if_pos hz]; simp only [precInt]; omega
          · rw [if_neg hz]; simp only [precInt]; omega
      | _ => simp [precOf] at h

theorem take_signed {l : Len} {a2 : List Snp.Arg} {z : Int} {r : List Snp.Arg} (h : signedOf l a2 = some (z, r))
    (hh : l = .h → a2 = .sint z :: r) : takeSigned (cflagOf l) a2 = some (z, r) := by
  cases l with
  | h => rw [hh rfl]; rfl
  | _ => cases a2 with
    | nil => simp [signedOf] at h
    | cons a a2 => cases a <;> simp [signedOf] at h <;> simp [takeSigned, cflagOf, h]

theorem take_unsigned {l : Len} {a2 : List Snp.Arg} {n : Nat} {r : List Snp.Arg}
    (h : unsignedOf l a2 = some (n, r)) (hok : ∀ a ∈ a2, Snp.Spec.Arg.Ok a)
    (hh : l = .h → a2 = .uint n :: r) :
    ∃ v, takeUnsigned (cflagOf l) a2 = some (v, r) ∧ (v % 2^64).toNat = n ∧ n < 2^64 := by
  cases l with
  | h =>
    have h1 := hh rfl
    subst h1
    have := hok _ List.mem_cons_self
    simp only [Snp.Spec.Arg.Ok] at this
    exact ⟨n, rfl, by omega, by omega⟩
  | _ => cases a2 with
    | nil => simp [unsignedOf] at h
    | cons a a2 =>
      have := hok a List.mem_cons_self
      cases a <;> simp only [unsignedOf, Option.some.injEq, Prod.mk.injEq, reduceCtorEq] at h
      obtain ⟨rfl, rfl⟩ := h
      simp only [Snp.Spec.Arg.Ok] at this
      refine ⟨_, rfl, ?_, by omega⟩
      try simp only [toLong]
      try split_ifs
      all_goals omega

theorem digits_le {b n k : Nat} (hb : 1 < b) (hk : 0 < k) (h : n < b ^ k) : (Nat.toDigits b n).length ≤ k :=
  (Nat.length_toDigits_le_iff hb hk).2 h

theorem args_width {wd : Width} {args a1 : List Snp.Arg} {x : Nat × Bool} (h : widthOf wd args = some (x, a1)) :
    ∀ a ∈ a1, a ∈ args := by
  cases wd with
  | star =>
    cases args with
    | nil => simp [widthOf] at h
    | cons b args => cases b <;> simp [widthOf] at h; intro a ha; rw [h.2]; simp [ha]
  | _ => simp [widthOf] at h; rw [h.2]; simp

theorem args_prec {pr : Prec} {args a1 : List Snp.Arg} {x : Option Nat} (h : precOf pr args = some (x, a1)) :
    ∀ a ∈ a1, a ∈ args := by
  cases pr with
  | star =>
    cases args with
    | nil => simp [precOf] at h
    | cons b args => cases b <;> simp [precOf] at h; intro a ha; rw [h.2]; simp [ha]
  | _ => simp [precOf] at h; rw [h.2]; simp

theorem sign_eq (flags : List Char) (z : Int) :
    (if (addFlags {} flags).uns then [] else if z < 0 then ['-'] else if (addFlags {} flags).plus then ['+']
      else if (addFlags {} flags).space then [' '] else []) = signOf flags z := by
  simp [addFlags, signOf]

/-- A directive: what is read and what is printed. -/
theorem directive_eq (fp : Fp) (d : Directive) (args rest : List Snp.Arg) (o f : List Char) (hd : d.Ok)
    (hok : ∀ a ∈ args, Snp.Spec.Arg.Ok a) (hfine : Fine d args) (h : render d args = some (o, rest)) :
    ∃ dir, parseDir (d.text ++ f) args = some dir ∧ dir.fmt = d.conv.text :: f ∧
      convert fp dir d.conv.text f = some (o, f, rest) := by
  unfold render at h
  rw [Option.bind_eq_some_iff] at h
  obtain ⟨⟨⟨w, neg⟩, a1⟩, hw, h⟩ := h
  simp only at h
  rw [Option.bind_eq_some_iff] at h
  obtain ⟨⟨p, a2⟩, hp, h⟩ := h
  obtain ⟨rfl, hc⟩ := hfine w neg a1 p a2 hw hp
  obtain ⟨ma, hm1, hm2, hm3⟩ := prec_max hp
  have hok2 : ∀ a ∈ a2, Snp.Spec.Arg.Ok a := fun a ha => hok a (args_width hw a (args_prec hp a ha))
  refine ⟨⟨addFlags {} d.flags, w, ma, cflagOf d.len, d.conv.text :: f, a2⟩,
    by rw [parseDir_eq d hd, width_min hw, Option.bind_some, hm1, Option.map_some], rfl, ?_⟩
  simp only [Bool.or_false] at h
  have pos : ∀ b n, 0 < (Nat.toDigits b n).length := fun b n => Nat.length_toDigits_pos
  -- signed numbers
  have signed : ∀ z r, signedOf d.len a2 = some (z, r) →
      (z ≠ -2^63 ∧ (d.len = .h → a2 = .sint z :: r) ∧ ¬ (p = some 0 ∧ z = 0) ∧
        ZeroOk d.flags w p (signOf d.flags z) (Nat.toDigits 10 z.natAbs)) →
      (takeSigned (cflagOf d.len) a2).bind (fun a =>
        (fmtint a.1 10 w ma (addFlags {} d.flags)).map fun o => (o, f, a.2)) =
      some (number d.flags (decide ('-' ∈ d.flags)) w p (signOf d.flags z) (Nat.toDigits 10 z.natAbs) (decide (z = 0)),
        f, r) := by
    intro z r hz ⟨h1, h2, h3, h4⟩
    have hrange : -2^63 ≤ z ∧ z < 2^63 := by
      cases hl : d.len with
      | h =>
        have := hok2 (.sint z) (by rw [h2 hl]; simp)
        simp only [Snp.Spec.Arg.Ok] at this; omega
      | _ =>
        rw [hl] at hz
        cases a2 with
        | nil => simp [signedOf] at hz
        | cons a a2 =>
          have := hok2 a List.mem_cons_self
          cases a <;> simp [signedOf] at hz
          obtain ⟨rfl, rfl⟩ := hz
          simp only [Snp.Spec.Arg.Ok] at this; omega
    rw [take_signed hz h2]
    simp only [Option.bind_some]
    rw [fmtint_eq z 10 (by decide) (by decide) w ma (addFlags {} d.flags) z.natAbs (signOf d.flags z)
      (Nat.toDigits 10 z.natAbs) (Or.inr h1) (by
        simp only [addFlags, true_and]
        by_cases hz0 : z < 0
        · rw [if_pos hz0]; omega
        · rw [if_neg hz0, Int.emod_eq_of_lt (by omega) (by omega)]; omega) (sign_eq _ _)
      (by simp [addFlags]) (digits_le (by decide) (by decide) (by omega))]
    rw [number_eq d.flags w p (signOf d.flags z) (Nat.toDigits 10 z.natAbs) (decide (z = 0)) ma hm2
      (by simpa using h3) (pos _ _) h4]
    rfl
  -- unsigned numbers
  have unsigned : ∀ (base : Nat) (caps : Bool) (n : Nat) (r : List Snp.Arg), 1 < base → base ≤ 16 → n < base ^ 19 →
      unsignedOf d.len a2 = some (n, r) →
      ((d.len = .h → a2 = .uint n :: r) ∧ ¬ (p = some 0 ∧ n = 0) ∧
        ZeroOk d.flags w p [] (Nat.toDigits base n)) →
      (takeUnsigned (cflagOf d.len) a2).bind (fun a =>
        (fmtint a.1 base w ma { addFlags {} d.flags with uns := true, up := caps }).map fun o => (o, f, a.2)) =
      some (number d.flags (decide ('-' ∈ d.flags)) w p []
        (if caps then upperHex (Nat.toDigits base n) else Nat.toDigits base n) (decide (n = 0)), f, r) := by
    intro base caps n r hb hb' hn hz ⟨h2, h3, h4⟩
    obtain ⟨v, hv1, hv2, hv3⟩ := take_unsigned hz hok2 h2
    rw [hv1]
    simp only [Option.bind_some]
    have hlen : (if caps then upperHex (Nat.toDigits base n) else Nat.toDigits base n).length =
        (Nat.toDigits base n).length := by split_ifs <;> simp [upperHex_length]
    rw [fmtint_eq v base hb hb' w ma _ n [] _ (Or.inl rfl) (by simpa using hv2) rfl rfl
      (by simp only [hlen]; exact digits_le hb (by decide) hn)]
    have := number_eq d.flags w p [] (if caps then upperHex (Nat.toDigits base n) else Nat.toDigits base n)
      (decide (n = 0)) ma hm2 (by simpa using h3) (by rw [hlen]; exact pos _ _)
      (by unfold ZeroOk at h4 ⊢; rw [hlen]; exact h4)
    rw [← this]
    rfl
  cases hcv : d.conv with
  | d =>
    rw [hcv] at h hc
    simp only [Option.map_eq_some_iff] at h
    obtain ⟨⟨z, r⟩, hz, he⟩ := h
    cases he
    exact signed z r hz (hc z r hz)
  | i =>
    rw [hcv] at h hc
    simp only [Option.map_eq_some_iff] at h
    obtain ⟨⟨z, r⟩, hz, he⟩ := h
    cases he
    exact signed z r hz (hc z r hz)
  | u =>
    rw [hcv] at h hc
    simp only [Option.map_eq_some_iff] at h
    obtain ⟨⟨n, r⟩, hz, he⟩ := h
    cases he
    obtain ⟨h1, h2⟩ := hc n r hz
    exact unsigned 10 false n r (by decide) (by decide) h1 hz h2
  | o =>
    rw [hcv] at h hc
    simp only [Option.map_eq_some_iff] at h
    obtain ⟨⟨n, r⟩, hz, he⟩ := h
    cases he
    obtain ⟨h1, h2⟩ := hc n r hz
    exact unsigned 8 false n r (by decide) (by decide) h1 hz h2
  | x =>
    rw [hcv] at h hc
    simp only [Option.map_eq_some_iff] at h
    obtain ⟨⟨n, r⟩, hz, he⟩ := h
    cases he
    obtain ⟨v, _, _, hv⟩ := take_unsigned hz hok2 (hc n r hz).1
    exact unsigned 16 false n r (by decide) (by decide) (by omega) hz (hc n r hz)
  | X =>
    rw [hcv] at h hc
    simp only [Option.map_eq_some_iff] at h
    obtain ⟨⟨n, r⟩, hz, he⟩ := h
    cases he
    obtain ⟨v, _, _, hv⟩ := take_unsigned hz hok2 (hc n r hz).1
    exact unsigned 16 true n r (by decide) (by decide) (by omega) hz (hc n r hz)
  | c =>
    rw [hcv] at h hc
    cases a2 with
    | nil => simp at h
    | cons a a2 =>
      cases a <;> simp only [Option.some.injEq, Prod.mk.injEq, reduceCtorEq] at h
      obtain ⟨rfl, rfl⟩ := h
      have hw1 : w ≤ 1 := hc
      have : w - 1 = 0 := by omega
      simp [convert, Conv.text, fill, this, toChar]
  | s =>
    rw [hcv] at h hc
    obtain ⟨h1, h2, h3⟩ := hc
    cases a2 with
    | nil => simp at h
    | cons a a2 =>
      cases a with
      | str s =>
        cases s with
        | none => simp at h
        | some s =>
          simp only [Option.some.injEq, Prod.mk.injEq] at h
          obtain ⟨h, rfl⟩ := h
          have := fmtstr_eq s d.flags w p ma (hm3 h1 h2) (fun q hq => h3 s a2 q rfl hq)
          have hcut : fill (decide ('-' ∈ d.flags)) w (cut p s) = o := h
          rw [hcut] at this
          simp only [convert, Conv.text]
          rw [← this]
      | _ => simp at h

/-- All directives are, with the arguments left for them. -/
def FineAll : List Piece → List Snp.Arg → Prop
  | [], _ => True
  | .dir d :: ps, args => Fine d args ∧ ∀ o rest, render d args = some (o, rest) → FineAll ps rest
  | _ :: ps, args => FineAll ps args

theorem args_signed {l : Len} {a2 rest : List Snp.Arg} {z : Int} (hz : signedOf l a2 = some (z, rest)) :
    ∀ a ∈ rest, a ∈ a2 := by
  cases a2 with
  | nil => cases l <;> simp [signedOf] at hz
  | cons a a2 => cases l <;> cases a <;> simp [signedOf] at hz <;> (intro b hb; rw [hz.2]; simp [hb])

theorem args_unsigned {l : Len} {a2 rest : List Snp.Arg} {z : Nat} (hz : unsignedOf l a2 = some (z, rest)) :
    ∀ a ∈ rest, a ∈ a2 := by
  cases a2 with
  | nil => cases l <;> simp [unsignedOf] at hz
  | cons a a2 => cases l <;> cases a <;> simp [unsignedOf] at hz <;> (intro b hb; rw [hz.2]; simp [hb])

theorem args_render {d : Directive} {args rest : List Snp.Arg} {o : List Char} (h : render d args = some (o, rest)) :
    ∀ a ∈ rest, a ∈ args := by
  unfold render at h
  rw [Option.bind_eq_some_iff] at h
  obtain ⟨⟨⟨w, neg⟩, a1⟩, hw, h⟩ := h
  simp only at h
  rw [Option.bind_eq_some_iff] at h
  obtain ⟨⟨p, a2⟩, hp, h⟩ := h
  have key : ∀ a ∈ rest, a ∈ a2 := by
    cases hcv : d.conv
    all_goals rw [hcv] at h
    case c =>
      simp only at h
      split at h
      · cases h; intro b hb; simp [hb]
      · cases h
    case s =>
      simp only at h
      split at h
      · cases h; intro b hb; simp [hb]
      · cases h
    all_goals
      simp only [Option.map_eq_some_iff] at h
      obtain ⟨⟨z, r⟩, hz, he⟩ := h
      cases he
      first | exact args_signed hz | exact args_unsigned hz
  intro a ha
  exact args_width hw a (args_prec hp a (key a ha))

theorem emit_pieces (fp : Fp) (ps : List Piece) : ∀ (k : Nat) (args : List Snp.Arg) (o : List Char),
    (∀ p ∈ ps, p.Ok) → (∀ a ∈ args, Snp.Spec.Arg.Ok a) → FineAll ps args → renderAll ps args = some o →
    (ps.map Piece.text).flatten.length < k → emit fp k (ps.map Piece.text).flatten args = some o := by
  induction ps with
  | nil =>
    intro k args o _ _ _ h hk
    cases k with
    | zero => simp at hk
    | succ k => simp only [renderAll, Option.some.injEq] at h; subst h; rfl
  | cons p ps ih =>
    intro k args o hok ha hf h hk
    have hok' : ∀ p ∈ ps, p.Ok := fun p hp => hok p (by simp [hp])
    cases k with
    | zero => simp at hk
    | succ k =>
      simp only [List.map_cons, List.flatten_cons, List.length_append] at hk ⊢
      cases p with
      | lit c =>
        have hc : c ≠ '%' := hok (.lit c) (by simp)
        simp only [renderAll, Option.map_eq_some_iff] at h
        obtain ⟨o', h, rfl⟩ := h
        simp only [Piece.text, List.length_singleton] at hk
        simp only [Piece.text, List.cons_append, List.nil_append, emit, hc, if_false]
        rw [ih k args o' hok' ha hf h (by omega)]
        rfl
      | pct =>
        simp only [renderAll, Option.map_eq_some_iff] at h
        obtain ⟨o', h, rfl⟩ := h
        simp only [Piece.text, List.length_cons, List.length_nil] at hk
        simp only [Piece.text, List.cons_append, List.nil_append, emit, if_true]
        have : parseDir ('%' :: (ps.map Piece.text).flatten) args =
            some ⟨{}, 0, -1, .none_, '%' :: (ps.map Piece.text).flatten, args⟩ := rfl
        rw [this]
        simp only [Option.bind_some]
        have : ∀ f, convert fp ⟨{}, 0, -1, .none_, '%' :: (ps.map Piece.text).flatten, args⟩ '%' f =
            some (['%'], f, args) := fun f => rfl
        rw [this]
        simp only [Option.bind_some]
        rw [ih k args o' hok' ha hf h (by omega)]
        rfl
      | dir d =>
        simp only [renderAll, Option.bind_eq_some_iff, Option.map_eq_some_iff] at h
        obtain ⟨⟨o1, rest⟩, hr, o', h, rfl⟩ := h
        obtain ⟨hf1, hf2⟩ := hf
        obtain ⟨dir, h1, h2, h3⟩ := directive_eq fp d args rest o1 (ps.map Piece.text).flatten
          (hok (.dir d) (by simp)) ha hf1 hr
        simp only [Piece.text, List.length_cons] at hk
        simp only [Piece.text, List.cons_append, emit, if_true, h1, Option.bind_some, h2, h3]
        rw [ih k rest o' hok' (fun a hx => ha a (args_render hr a hx)) (hf2 o1 rest hr) h (by omega)]
        rfl

/-- **The output is the one C prescribes** but for: numbers of more than 19 digits and the least long, 0 with
precision 0, numbers that do not fit into a short with `h`, the flag 0 with the flag - or a precision, a
negative width, a width with `c`, a precision smaller than the width with `s`, a precision without digits or
less than -1 with `s`. -/
theorem C113_partial (fp : Fp) (ps : List Piece) (args : List Snp.Arg) (o : List Char)
    (hok : ∀ p ∈ ps, p.Ok) (ha : ∀ a ∈ args, Snp.Spec.Arg.Ok a) (hf : FineAll ps args)
    (h : renderAll ps args = some o) : output fp (ps.map Piece.text).flatten args = some o :=
  emit_pieces fp ps _ args o hok ha hf h (Nat.lt_succ_self _)

/-- So a format without flags, widths, precisions and lengths is always done right, but for the conversion
of numbers that do not fit into an int. -/
theorem C113_plain (fp : Fp) (ps : List Piece) (args : List Snp.Arg) (o : List Char)
    (hok : ∀ p ∈ ps, p.Ok) (ha : ∀ a ∈ args, Snp.Spec.Arg.Ok a)
    (hp : ∀ d, .dir d ∈ ps → d.flags = [] ∧ d.width = .none_ ∧ d.prec = .none_ ∧ d.len = .none_)
    (h : renderAll ps args = some o) : output fp (ps.map Piece.text).flatten args = some o := by
  refine C113_partial fp ps args o hok ha ?_ h
  clear h hok
  induction ps generalizing args with
  | nil => trivial
  | cons p ps ih =>
    have hp' : ∀ d, .dir d ∈ ps → d.flags = [] ∧ d.width = .none_ ∧ d.prec = .none_ ∧ d.len = .none_ :=
      fun d hd => hp d (by simp [hd])
    cases p with
    | lit c => exact ih args ha hp'
    | pct => exact ih args ha hp'
    | dir d =>
      refine ⟨?_, fun o rest hr => ih rest (fun a hx => ha a (args_render hr a hx)) hp'⟩
      obtain ⟨h1, h2, h3, h4⟩ := hp d (by simp)
      intro w neg a1 p a2 hw hpr
      rw [h2] at hw
      rw [h3] at hpr
      simp only [widthOf, precOf, Option.some.injEq, Prod.mk.injEq] at hw hpr
      obtain ⟨⟨rfl, rfl⟩, rfl⟩ := hw
      obtain ⟨rfl, rfl⟩ := hpr
      refine ⟨rfl, ?_⟩
      have hzero : ∀ w p s ds, ZeroOk d.flags w p s ds := by intro w p s ds hx; rw [h1] at hx; simp at hx
      have hu : ∀ n l, unsignedOf d.len args = some (n, l) → n < 2^32 := by
        intro n l hx
        rw [h4] at hx
        cases args with
        | nil => simp [unsignedOf] at hx
        | cons a args =>
          have := ha a (by simp)
          cases a <;> simp [unsignedOf] at hx
          obtain ⟨rfl, rfl⟩ := hx
          exact this
      have hs : ∀ n l, signedOf d.len args = some (n, l) → -2^31 ≤ n := by
        intro n l hx
        rw [h4] at hx
        cases args with
        | nil => simp [signedOf] at hx
        | cons a args =>
          have := ha a (by simp)
          cases a <;> simp [signedOf] at hx
          obtain ⟨rfl, rfl⟩ := hx
          exact this.1
      have hh : ∀ P : Prop, d.len = .h → P := by intro P hx; rw [h4] at hx; simp at hx
      have hn : ∀ P : Prop, ¬ ((none : Option Nat) = some 0 ∧ P) := by simp
      cases d.conv
      all_goals simp only []
      · intro z l hz; exact ⟨by have := hs z l hz; omega, hh _, hn _, hzero _ _ _ _⟩
      · intro z l hz; exact ⟨by have := hs z l hz; omega, hh _, hn _, hzero _ _ _ _⟩
      · intro n l hz; exact ⟨by have := hu n l hz; omega, hh _, hn _, hzero _ _ _ _⟩
      · intro n l hz; exact ⟨by have := hu n l hz; omega, hh _, hn _, hzero _ _ _ _⟩
      · intro n l hz; exact ⟨hh _, hn _, hzero _ _ _ _⟩
      · intro n l hz; exact ⟨hh _, hn _, hzero _ _ _ _⟩
      · omega
      · rw [h3]; simp

private def fp0 : Fp := fun _ _ _ _ => []
private def exPieces : List Piece :=
  [.dir ⟨['+'], .num ['6'], .none_, .l, .d⟩, .lit ',', .pct, .dir ⟨['0'], .star, .none_, .none_, .x⟩,
   .dir ⟨['-'], .num ['4'], .num ['9'], .none_, .s⟩]
private def exArgs : List Snp.Arg := [.slong 42, .sint 4, .uint 255, .str (some c!"ab")]
example : (exPieces.map Piece.text).flatten = c!"%+6ld,%%%0*x%-4.9s" ∧
    renderAll exPieces exArgs = some c!"   +42,%00ffab  " ∧
    output fp0 (exPieces.map Piece.text).flatten exArgs = some c!"   +42,%00ffab  " := by decide +kernel

/-- **The first digit is lost** of every number of 20 digits. -/
theorem C113_lost_digit (fp : Fp) (n : Nat) (h1 : 10^19 ≤ n) (h2 : n < 2^64) :
    output fp c!"%lu" [.ulong n] = some (Nat.toDigits 10 n).tail := by
  have hlen : (Nat.toDigits 10 n).length = 20 := by
    have a := digits_le (b := 10) (n := n) (k := 20) (by decide) (by decide) (by omega)
    have b : ¬ (Nat.toDigits 10 n).length ≤ 19 := by
      rw [Nat.length_toDigits_le_iff (by decide) (by decide)]; omega
    omega
  have hc := convLoop_eq (base := 10) (by decide) (by decide) 20 n (by omega)
  have hcl : (convLoop false 10 20 n).length = 20 := by rw [← List.length_reverse, hc, hlen]
  have hv : ((toLong n) % 2^64).toNat = n := by unfold toLong; split_ifs <;> omega
  have hf : fmtint (toLong n) 10 0 (-1) { ({} : Fl) with uns := true } = some (Nat.toDigits 10 n).tail := by
    unfold fmtint
    simp only [hv, Bool.not_true, Bool.false_and, Bool.false_eq_true, if_false, if_true, hcl, List.length_dropLast]
    have : (convLoop false 10 20 n).dropLast.reverse = (Nat.toDigits 10 n).tail := by
      rw [← hc, List.tail_reverse]
    rw [this]
    simp [zeros, spaces]
  have : parseDir c!"lu" [.ulong n] = some ⟨{}, 0, -1, .long, ['u'], [.ulong n]⟩ := rfl
  have hcv : convert fp ⟨{}, 0, -1, .long, ['u'], [.ulong n]⟩ 'u' [] = some ((Nat.toDigits 10 n).tail, [], []) := by
    have e : convert fp ⟨{}, 0, -1, .long, ['u'], [.ulong n]⟩ 'u' [] =
        (fmtint (toLong n) 10 0 (-1) { ({} : Fl) with uns := true }).map fun o => (o, [], []) := rfl
    rw [e, hf]; rfl
  have e : output fp c!"%lu" [.ulong n] = (parseDir c!"lu" [.ulong n]).bind fun d =>
      match d.fmt with
      | [] => some []
      | ch :: f => (convert fp d ch f).bind fun r => (emit fp 3 r.2.1 r.2.2).map (r.1 ++ ·) := rfl
  rw [e, this]
  simp only [Option.bind_some, hcv]
  simp [emit]

example : output fp0 c!"%lu" [.ulong 18446744073709551615] = some c!"8446744073709551615" := by decide +kernel

/-- **Further differences**: 0 with precision 0; the flag 0 with the flag -; a precision smaller than the width;
a width with `c`; a precision without digits; a negative width; `h`; octal numbers of more than 19 digits. -/
theorem C113_differences :
    output fp0 c!"%.0d" [.sint 0] = some c!"0" ∧
    output fp0 c!"%-05d" [.sint 42] = some c!"00042" ∧
    output fp0 c!"%6.2s" [.str (some c!"abcd")] = some c!"  abcd" ∧
    output fp0 c!"%3c" [.sint 65] = some c!"A" ∧
    output fp0 c!"%.s" [.str (some c!"abc")] = some c!"abc" ∧
    output fp0 c!"%*d" [.sint (-4), .sint 7] = some c!"7" ∧
    output fp0 c!"%hd" [.sint 65536] = some c!"65536" ∧
    output fp0 c!"%lo" [.ulong (2^63)] = some c!"0000000000000000000" := by decide +kernel

/-- What C prescribes for these. -/
theorem C113_prescribed :
    render ⟨[], .none_, .num ['0'], .none_, .d⟩ [.sint 0] = some ([], []) ∧
    render ⟨['-', '0'], .num ['5'], .none_, .none_, .d⟩ [.sint 42] = some (c!"42   ", []) ∧
    render ⟨[], .num ['6'], .num ['2'], .none_, .s⟩ [.str (some c!"abcd")] = some (c!"    ab", []) ∧
    render ⟨[], .num ['3'], .none_, .none_, .c⟩ [.sint 65] = some (c!"  A", []) ∧
    render ⟨[], .none_, .num [], .none_, .s⟩ [.str (some c!"abc")] = some ([], []) ∧
    render ⟨[], .star, .none_, .none_, .d⟩ [.sint (-4), .sint 7] = some (c!"7   ", []) ∧
    render ⟨[], .none_, .none_, .h, .d⟩ [.sint 65536] = some (c!"0", []) ∧
    render ⟨[], .none_, .none_, .l, .o⟩ [.ulong (2^63)] = some (c!"1000000000000000000000", []) := by decide +kernel

/-- **Undefined behaviour** for the least long, and for `%s` with a null pointer unless there is a precision. -/
theorem C113_undefined :
    output fp0 c!"%ld" [.slong (-2^63)] = none ∧ output fp0 c!"%s" [.str none] = none ∧
    output fp0 c!"%.9s" [.str none] = some c!"<NULL>" ∧ output fp0 c!"%w" [] = none := by decide +kernel

theorem C113_full_is_false : ¬ C113_full := by
  intro h
  have := h fp0 [.dir ⟨[], .none_, .none_, .l, .u⟩] [.ulong 18446744073709551615] c!"18446744073709551615"
    (by
      intro p hp
      simp only [List.mem_cons, List.not_mem_nil, or_false] at hp
      subst hp
      exact ⟨by simp, by simp, by simp, by simp⟩)
    (by
      intro a ha
      simp only [List.mem_cons, List.not_mem_nil, or_false] at ha
      subst ha
      simp only [Snp.Spec.Arg.Ok]
      omega)
    (by decide +kernel)
  revert this
  decide +kernel

end Splint
