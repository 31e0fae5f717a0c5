import Verif.Spec.SymSection
import Verif.Proofs.ConstraintDump
import Verif.Proofs.LibEntry
import Verif.Props.ReadBack
namespace Splint.SymSection
open Reader Lib LibEntry.Spec Spec

variable {E : Type}

theorem readLine_eq {l : List Char} (hl : '\n' ∉ l) (h : l.length + 1 < 16383) (f : List Char) :
    readLine (l ++ '\n' :: f) = .got (l ++ ['\n']) f := by
  unfold readLine
  rw [fgets_eq hl (by omega)]
  simp only
  rw [if_neg (by simp [maxLine]; omega)]

/-- Further names on a line. -/
def hashes : List (List Char) → List Char
  | [] => []
  | w :: ws => '#' :: (w ++ hashes ws)

theorem hashes_end (ws : List (List Char)) : NameEnd (hashes ws ++ ['\n']) := by
  intro c cs e
  cases ws with
  | nil => simp only [hashes, List.nil_append, List.cons.injEq] at e; rw [← e.1]; decide
  | cons w ws => simp only [hashes, List.cons_append, List.cons.injEq] at e; rw [← e.1]; decide

theorem hashes_length (ws : List (List Char)) : ws.length ≤ (hashes ws).length := by
  induction ws with
  | nil => simp
  | cons w ws ih => simp only [hashes, List.length_cons, List.length_append]; omega

theorem hashes_no {ws : List (List Char)} (h : ∀ w ∈ ws, LibEntry.Spec.Name w) : '\n' ∉ hashes ws := by
  induction ws with
  | nil => simp [hashes]
  | cons w ws ih =>
    have h1 : '\n' ∉ w := by
      intro hc
      have := h w (by simp) _ hc
      revert this; decide
    simp only [hashes, List.mem_cons, List.mem_append, not_or]
    exact ⟨by decide, h1, ih fun w hw => h w (by simp [hw])⟩

theorem getWord_text {w s : List Char} (hw : LibEntry.Spec.Name w) (hs : NameEnd s) :
    (getWord (w ++ s)).1.getD [] = w ∧ (getWord (w ++ s)).2 = s := by
  have h1 : s.takeWhile isWordChar = [] ∧ s.dropWhile isWordChar = s := by
    cases s with
    | nil => simp
    | cons c cs => simp [hs c cs rfl]
  unfold getWord
  rw [List.takeWhile_append_of_pos hw, List.dropWhile_append_of_pos hw, h1.1, h1.2, List.append_nil]
  refine ⟨?_, rfl⟩
  by_cases h : w = []
  · simp [h]
  · simp [h]

theorem names_back : ∀ (ws : List (List Char)), (∀ w ∈ ws, LibEntry.Spec.Name w) → ∀ k, ws.length < k →
    namesN k (hashes ws ++ ['\n']) = some ws := by
  intro ws
  induction ws with
  | nil =>
    intro _ k hk
    obtain ⟨k, rfl⟩ : ∃ k', k = k' + 1 := ⟨k - 1, by simp at hk; omega⟩
    simp [namesN, hashes]
  | cons w ws ih =>
    intro h k hk
    obtain ⟨k, rfl⟩ : ∃ k', k = k' + 1 := ⟨k - 1, by simp at hk; omega⟩
    obtain ⟨e1, e2⟩ := getWord_text (h w (by simp)) (hashes_end ws)
    have ih := ih (fun w hw => h w (by simp [hw])) k (by simp at hk; omega)
    simp only [hashes, namesN, List.cons_append, List.append_assoc, if_true, e1, e2, ih,
      Option.bind_eq_bind, Option.bind_some]

/-! ## Groups -/

/-- The entries that go on the line of `a`, and the others. -/
def grp (c : Codec E) (a : E) (k : Int) : Nat → List (Item E) → List E × List (Item E)
  | len, .ent e :: r =>
    if c.kind e = k ∧ c.equiv a e = true ∧ len ≤ maxGroup then
      (e :: (grp c a k (len + (c.name e).length + 1) r).1, (grp c a k (len + (c.name e).length + 1) r).2)
    else ([], .ent e :: r)
  | _, .marker :: r => ([], .marker :: r)
  | _, [] => ([], [])

theorem grp_eq (c : Codec E) (a : E) (k : Int) (r : List (Item E)) : ∀ len,
    r = (grp c a k len r).1.map .ent ++ (grp c a k len r).2 := by
  induction r with
  | nil => intro len; rfl
  | cons x r ih =>
    intro len
    cases x with
    | marker => rfl
    | ent e =>
      unfold grp
      split_ifs
      · simp only [List.map_cons, List.cons_append]
        rw [← ih]
      · rfl

theorem grp_mem (c : Codec E) (a : E) (k : Int) (r : List (Item E)) : ∀ len,
    ∀ e ∈ (grp c a k len r).1, c.kind e = k ∧ c.equiv a e = true := by
  induction r with
  | nil => intro len e he; simp [grp] at he
  | cons x r ih =>
    intro len
    cases x with
    | marker => intro e he; simp [grp] at he
    | ent e =>
      unfold grp
      split_ifs with h
      · intro x hx
        rcases List.mem_cons.1 hx with rfl | hx
        · exact ⟨h.1, h.2.1⟩
        · exact ih _ x hx
      · intro x hx; cases hx

theorem grp_length (c : Codec E) (a : E) (k : Int) (r : List (Item E)) : ∀ len,
    (∀ e ∈ (grp c a k len r).1, (c.name e).length ≤ 2092) →
    len + (hashes ((grp c a k len r).1.map c.name)).length ≤ max len (maxGroup + 2093) := by
  induction r with
  | nil => intro len _; simp [grp, hashes]
  | cons x r ih =>
    intro len
    cases x with
    | marker => intro _; simp [grp, hashes]
    | ent e =>
      unfold grp
      split_ifs with h
      · intro hn
        have h1 := hn e (by simp)
        have := ih (len + (c.name e).length + 1) (fun x hx => hn x (by simp [hx]))
        simp only [List.map_cons, hashes, List.length_cons, List.length_append]
        have h3 := h.2.2
        omega
      · intro _; simp [hashes]

theorem last_irrelevant (c : Codec E) (la : Option E) (r : List (Item E)) : ∀ (i : Nat),
    (∀ e, .ent e ∈ r → c.kind e ≠ kInvalid) →
    dumpFrom c i ⟨false, la, kInvalid, 0⟩ r = dumpFrom c i ⟨false, none, kInvalid, 0⟩ r := by
  induction r with
  | nil => intro i _; rfl
  | cons x r ih =>
    intro i h
    cases x with
    | marker =>
      simp only [dumpFrom]
      rw [ih _ fun e he => h e (by simp [he])]
    | ent e =>
      rw [dumpFrom, dumpFrom]
      simp [h e (by simp)]

theorem grp_dump (c : Codec E) (a : E) (k : Int) (r : List (Item E)) : ∀ (i len : Nat),
    (∀ e, .ent e ∈ r → c.kind e ≠ kInvalid) →
    dumpFrom c i ⟨true, some a, k, len⟩ r =
      hashes ((grp c a k len r).1.map c.name) ++
        '\n' :: dumpFrom c (i + (grp c a k len r).1.length) ⟨false, none, k, 0⟩ (grp c a k len r).2 := by
  induction r with
  | nil => intro i len _; simp [dumpFrom, grp, hashes, nl]
  | cons x r ih =>
    intro i len hr
    cases x with
    | marker =>
      simp only [dumpFrom, grp, hashes, nl]
      rw [last_irrelevant c (some a) r _ fun e he => hr e (by simp [he])]
      rfl
    | ent e =>
      unfold grp
      split_ifs with h
      · simp only [List.map_cons, hashes, List.length_cons]
        rw [dumpFrom]
        simp only [h.1, ne_eq, not_true_eq_false, if_false, newLine, h.2.1, Bool.not_true, Bool.false_or,
          List.nil_append, decide_eq_true_eq]
        rw [if_neg (by have := h.2.2; omega), ih _ _ (fun e he => hr e (by simp [he])), show i + 1 + (grp c a k (len + (c.name e).length + 1) r).1.length
          = i + ((grp c a k (len + (c.name e).length + 1) r).1.length + 1) by omega]
        simp
      · simp only [List.map_nil, hashes, List.nil_append, List.length_nil, Nat.add_zero]
        rw [dumpFrom, dumpFrom]
        by_cases hk : c.kind e = k
        · have hnl : newLine c ⟨true, some a, k, len⟩ e = true := by
            simp only [newLine, Bool.or_eq_true, Bool.not_eq_true', decide_eq_true_eq]
            by_contra hc
            push Not at hc
            exact h ⟨hk, by simpa using hc.1, by omega⟩
          simp only [hk, ne_eq, not_true_eq_false, if_false, List.nil_append, hnl, if_true, nl]
          simp [newLine]
        · simp [hk, nl]

/-! ## Reading -/

theorem readAs_shift {c : Codec E} {back : E → E} {t u : List (Item E)} {i : Nat} {x : Item E}
    (h : ReadAs c back u i x) : ReadAs c back (t ++ u) (t.length + i) x := by
  have g : ∀ j, (t ++ u)[t.length + j]? = u[j]? := by
    intro j; rw [List.getElem?_append_right (by omega)]; simp
  cases x with
  | marker => unfold ReadAs at *; rw [g, h]
  | ent x =>
    obtain ⟨e, h1, h2⟩ := h
    refine ⟨e, by rw [g, h1], ?_⟩
    rcases h2 with h2 | ⟨j, a, h3, h4, h5⟩
    · exact .inl h2
    · exact .inr ⟨t.length + j, a, by omega, by rw [g, h4], h5⟩

theorem num_nat {n : Nat} (h : n < 2 ^ 31) : Num (n : Int) := Num.nat (by omega) (by omega)

theorem intText_short {n : Int} (h : Num n) : (intText n).length ≤ 11 := intText_length h

/-- One line of entries. -/
theorem loadLine_eq {c : Codec E} {e e' : E} (h : Reads c e e') {n : Nat} (hn : n < 2 ^ 31)
    {ws : List (List Char)} (hw : ∀ w ∈ ws, LibEntry.Spec.Name w) :
    loadLine c (c.kind e) n (entText c n e ++ (hashes ws ++ ['\n'])) =
      some (.ent e' :: ws.map fun w => .ent (c.rename w e')) := by
  have h1 : indexOf (entText c n e ++ (hashes ws ++ ['\n'])) =
      some (some (n : Int), c.dump e ++ (hashes ws ++ ['\n'])) := by
    unfold indexOf entText
    simp only [List.cons_append, List.append_assoc, LibEntry.opt_hit]
    rw [getInt_num (num_nat hn) (by intro d cs e; cases e; decide)]
    obtain ⟨d, ds, ed⟩ : ∃ d ds, c.dump e = d :: ds := by
      cases hd : c.dump e with
      | nil => exact absurd hd h.text
      | cons d ds => exact ⟨d, ds, rfl⟩
    have hb := h.head d ds ed
    rw [ed, List.dropWhile_cons_of_pos (by decide), List.cons_append,
      List.dropWhile_cons_of_neg (by simp [hb])]
    rfl
  unfold loadLine
  simp only [h1, Option.bind_eq_bind, Option.bind_some]
  rw [if_neg (by have := h.kind.1; unfold kInvalid; omega)]
  simp only [h.back _ (hashes_end ws), Option.bind_some, or_true, if_true]
  rw [names_back ws hw _ (by
    have := hashes_length ws
    simp only [List.length_append, List.length_cons]; omega)]
  rfl

theorem entText_no {c : Codec E} {e e' : E} (h : Reads c e e') (n : Nat) : '\n' ∉ entText c n e := by
  have := LibEntry.int_noChar (c := '\n') (by decide) (by decide) (n : Int)
  simp [entText, this, h.noNewline]

theorem heading_line {k : Int} (hk : Num k) {w : List Char} (hw : '\n' ∉ w) (hl : w.length < 100)
    (f : List Char) :
    readLine (heading k w ++ f) = .got (heading k w) f ∧
      ∃ s r, heading k w = '*' :: s ∧ getInt s = some (k, r) := by
  have h1 : heading k w = ('*' :: (intText k ++ ' ' :: '(' :: (w ++ [')']))) ++ ['\n'] := by
    simp [heading]
  have h2 := LibEntry.int_noChar (c := '\n') (by decide) (by decide) k
  have h3 := intText_short hk
  constructor
  · have := readLine_eq (l := '*' :: (intText k ++ ' ' :: '(' :: (w ++ [')']))) (by simp [h2, hw])
      (by simp only [List.length_cons, List.length_append, List.length_nil]; omega) f
    rw [← h1] at this
    rw [← this]
    simp [heading]
  · exact ⟨_, _, rfl, getInt_num hk (by intro d cs e; cases e; decide)⟩

theorem capName_ok (k : Int) : '\n' ∉ capName k ∧ (capName k).length < 100 := by
  unfold capName
  split_ifs <;> decide

/-- A table followed by a comment is read up to the comment. -/
theorem load_text (c : Codec E) (back : E → E) {cl rest : List Char} (hc : '\n' ∉ cl) (hcl : cl.length < 16000) :
    ∀ (m : Nat) (t : List (Item E)), t.length ≤ m → (∀ e, .ent e ∈ t → Reads c e (back e)) →
    ∀ (i : Nat) (k : Int) (fuel : Nat), i + t.length < 2 ^ 31 → 2 * t.length < fuel →
    ∃ l, loadN c fuel k i (dumpFrom c i ⟨false, none, k, 0⟩ t ++ (';' :: cl) ++ '\n' :: rest) = some (l, rest) ∧
      l.length = t.length ∧ ∀ n x, l[n]? = some x → ReadAs c back t n x := by
  intro m
  induction m with
  | zero =>
    intro t ht _ i k fuel _ hf
    obtain rfl : t = [] := List.length_eq_zero_iff.1 (by omega)
    obtain ⟨fuel, rfl⟩ : ∃ k', fuel = k' + 1 := ⟨fuel - 1, by simp at hf; omega⟩
    refine ⟨[], ?_, rfl, by simp⟩
    have := readLine_eq (l := ';' :: cl) (by simp [hc]) (by simp; omega) rest
    simp only [List.cons_append] at this
    simp only [dumpFrom, nl, Bool.false_eq_true, if_false, List.nil_append, loadN, this, List.cons_append]
  | succ m ih =>
    intro t ht hr i k fuel hi hf
    cases t with
    | nil => exact ih [] (by simp) hr i k fuel hi hf
    | cons x r =>
      simp only [List.length_cons] at ht hi hf
      obtain ⟨fuel, rfl⟩ : ∃ k', fuel = k' + 1 := ⟨fuel - 1, by omega⟩
      cases x with
      | marker =>
        obtain ⟨l, e1, e2, e3⟩ := ih r (by omega) (fun e he => hr e (by simp [he])) (i + 1) kInvalid fuel
          (by omega) (by omega)
        obtain ⟨h1, s, q, h2, h3⟩ := heading_line (k := kMarker) (w := c!"GlobalMarker")
          (LibEntry.num_small (by decide) (by decide)) (by decide) (by decide)
          (dumpFrom c (i + 1) ⟨false, none, kInvalid, 0⟩ r ++ (';' :: cl) ++ '\n' :: rest)
        refine ⟨.marker :: l, ?_, by simp [e2], ?_⟩
        · simp only [dumpFrom, nl, Bool.false_eq_true, if_false, List.nil_append]
          simp only [List.append_assoc] at h1 e1 ⊢
          rw [loadN, h1]
          simp only [h2, h3, Option.bind_eq_bind, Option.bind_some, if_true, e1]
        · intro n x hx
          cases n with
          | zero => simp at hx; subst hx; rfl
          | succ n =>
            have := readAs_shift (t := [.marker]) (e3 n x (by simpa using hx))
            simpa [Nat.add_comm] using this
      | ent e =>
        have he := hr e (by simp)
        have body : ∀ fuel, 2 * r.length < fuel → ∃ l, loadN c (fuel + 1) (c.kind e) i
            (dumpFrom c i ⟨false, none, c.kind e, 0⟩ (.ent e :: r) ++ (';' :: cl) ++ '\n' :: rest) = some (l, rest) ∧
            l.length = r.length + 1 ∧ ∀ n x, l[n]? = some x → ReadAs c back (.ent e :: r) n x := by
          intro fuel hf
          have hkr : ∀ x, .ent x ∈ r → c.kind x ≠ kInvalid := by
            intro x hx
            have := (hr x (by simp [hx])).kind
            unfold kInvalid; omega
          have hd : dumpFrom c i ⟨false, none, c.kind e, 0⟩ (.ent e :: r) =
              entText c i e ++ dumpFrom c (i + 1) ⟨true, some e, c.kind e, (entText c i e).length⟩ r := by
            simp [dumpFrom, newLine, nl]
          rw [hd, grp_dump c e (c.kind e) r _ _ hkr]
          have hg := grp_eq c e (c.kind e) r (entText c i e).length
          have hm := grp_mem c e (c.kind e) r (entText c i e).length
          have hl := grp_length c e (c.kind e) r (entText c i e).length
          generalize grp c e (c.kind e) (entText c i e).length r = g at hg hm hl ⊢
          have hrg : ∀ x ∈ g.1, Reads c x (back x) := by
            intro x hx
            exact hr x (by rw [hg]; simp [hx])
          have hl := hl fun x hx => (hrg x hx).shortName
          have hlen : r.length = g.1.length + g.2.length := by
            conv_lhs => rw [hg]
            simp
          obtain ⟨l, e1, e2, e3⟩ := ih g.2 (by omega) (fun x hx => hr x (by rw [hg]; simp [hx]))
            (i + 1 + g.1.length) (c.kind e) fuel (by omega) (by omega)
          have hw : ∀ w ∈ g.1.map c.name, LibEntry.Spec.Name w := by
            intro w hw
            obtain ⟨x, hx, rfl⟩ := List.mem_map.1 hw
            exact (hrg x hx).word
          have ht := entText_no he i
          have hel : (entText c i e).length ≤ 16359 + 13 := by
            have h1 := intText_short (num_nat (n := i) (by omega))
            have h2 := he.short
            simp only [entText, List.length_cons, List.length_append]
            omega
          have hrl := readLine_eq (l := entText c i e ++ hashes (g.1.map c.name))
            (by simp only [List.mem_append, not_or]; exact ⟨ht, hashes_no hw⟩)
            (by simp only [List.length_append, maxGroup] at hl ⊢; omega)
            (dumpFrom c (i + 1 + g.1.length) ⟨false, none, c.kind e, 0⟩ g.2 ++ (';' :: cl) ++ '\n' :: rest)
          have hll := loadLine_eq he (n := i) (by omega) hw
          refine ⟨(.ent (back e) :: (g.1.map c.name).map fun w => .ent (c.rename w (back e))) ++ l, ?_, ?_, ?_⟩
          · simp only [List.append_assoc, List.cons_append] at hrl hll e1 ⊢
            rw [loadN, hrl]
            obtain ⟨q, hq⟩ : ∃ q, entText c i e ++ (hashes (g.1.map c.name) ++ ['\n']) = '^' :: q :=
              ⟨_, rfl⟩
            rw [hq] at hll ⊢
            have hn : i + (1 + g.1.length) = i + 1 + g.1.length := by omega
            change (loadLine c (c.kind e) i ('^' :: q)).bind (fun es => (loadN c fuel (c.kind e) (i + es.length)
              (dumpFrom c (i + 1 + g.1.length) ⟨false, none, c.kind e, 0⟩ g.2 ++ ';' :: (cl ++ '\n' :: rest))).bind
                fun x => some (es ++ x.1, x.2)) = _
            rw [hll]
            simp only [Option.bind_some, List.length_cons, List.length_map, Nat.add_comm g.1.length 1, hn, e1]
            simp
          · simp [e2, hlen]
          · intro n x hx
            by_cases hn : n < g.1.length + 1
            · rw [List.getElem?_append_left (by simpa using hn)] at hx
              cases n with
              | zero =>
                simp only [List.getElem?_cons_zero, Option.some.injEq] at hx
                subst hx
                exact ⟨e, rfl, .inl rfl⟩
              | succ n =>
                simp only [List.getElem?_cons_succ, List.map_map, List.getElem?_map] at hx
                obtain ⟨y, hy⟩ : ∃ y, g.1[n]? = some y := by
                  rw [← Option.isSome_iff_exists]; simp; omega
                rw [hy] at hx
                simp only [Option.map_some, Function.comp, Option.some.injEq] at hx
                subst hx
                have hmem : y ∈ g.1 := List.mem_of_getElem? hy
                refine ⟨y, ?_, .inr ⟨0, e, by omega, rfl, (hm y hmem).1.symm, (hm y hmem).2, rfl⟩⟩
                rw [List.getElem?_cons_succ, hg, List.getElem?_append_left (by simp; omega), List.getElem?_map, hy]
                rfl
            · rw [List.getElem?_append_right (by simp; omega)] at hx
              have := readAs_shift (t := .ent e :: g.1.map .ent) (e3 _ x hx)
              simp only [List.length_cons, List.length_map, List.cons_append, ← hg] at this
              rwa [show g.1.length + 1 + (n - (g.1.length + 1)) = n by omega] at this
        by_cases hk : c.kind e = k
        · subst hk
          exact body fuel (by omega)
        · obtain ⟨fuel, rfl⟩ : ∃ k', fuel = k' + 1 := ⟨fuel - 1, by omega⟩
          obtain ⟨l, e1, e2, e3⟩ := body fuel (by omega)
          refine ⟨l, ?_, e2, e3⟩
          have hd : dumpFrom c i ⟨false, none, k, 0⟩ (.ent e :: r) =
              heading (c.kind e) (capName (c.kind e)) ++ dumpFrom c i ⟨false, none, c.kind e, 0⟩ (.ent e :: r) := by
            simp [dumpFrom, hk, nl]
          obtain ⟨h1, s, q, h2, h3⟩ := heading_line (k := c.kind e) (w := capName (c.kind e))
            (LibEntry.num_small (by have := he.kind; omega) (by have := he.kind; omega))
            (capName_ok _).1 (capName_ok _).2
            (dumpFrom c i ⟨false, none, c.kind e, 0⟩ (.ent e :: r) ++ (';' :: cl) ++ '\n' :: rest)
          rw [hd]
          simp only [List.append_assoc] at h1 e1 ⊢
          rw [loadN, h1]
          have k1 : c.kind e ≠ kMarker := by have := he.kind; unfold kMarker; omega
          have k2 : -1 ≤ c.kind e ∧ c.kind e ≤ 10 := by have := he.kind; omega
          simp only [h2, h3, Option.bind_eq_bind, Option.bind_some, if_neg k1, if_pos k2, e1]

theorem dump_length (c : Codec E) (t : List (Item E)) : ∀ (i : Nat) (st : St E),
    t.length ≤ (dumpFrom c i st t).length := by
  induction t with
  | nil => intro i st; simp
  | cons x r ih =>
    intro i st
    cases x with
    | marker =>
      have := ih (i + 1) { st with lastKind := kInvalid, len := 0, needNl := false }
      simp only [dumpFrom, heading, List.length_cons, List.length_append]
      omega
    | ent e =>
      rw [dumpFrom]
      generalize hp : (if c.kind e ≠ st.lastKind then _ else _ : List Char × St E) = p
      by_cases hn : newLine c p.2 e
      · rw [if_pos hn]
        have aux : ∀ st : St E, (Item.ent e :: r).length ≤ (p.1 ++ (nl p.2.needNl ++
            (entText c i e ++ dumpFrom c (i + 1) st r))).length := by
          intro st
          have := ih (i + 1) st
          simp only [entText, List.length_cons, List.length_append]
          omega
        exact aux _
      · rw [if_neg hn]
        have aux : ∀ st : St E, (Item.ent e :: r).length ≤ (p.1 ++ '#' :: (c.name e ++
            dumpFrom c (i + 1) st r)).length := by
          intro st
          have := ih (i + 1) st
          simp only [List.length_cons, List.length_append]
          omega
        exact aux _

theorem dump_star (c : Codec E) {t : List (Item E)} (ht : t ≠ []) (hk : ∀ e, .ent e ∈ t → c.kind e ≠ kInvalid) :
    ∃ r, dump c t = '*' :: r := by
  cases t with
  | nil => exact absurd rfl ht
  | cons x t =>
    cases x with
    | marker => exact ⟨_, rfl⟩
    | ent e =>
      unfold dump
      rw [dumpFrom]
      simp only [ne_eq, hk e (by simp), not_false_eq_true, if_true, nl, Bool.false_eq_true, if_false,
        List.nil_append, heading, List.cons_append]
      exact ⟨_, rfl⟩

theorem line_head (a : Char) (f : List Char) {k : Nat} (h : 0 < k) :
    ∃ s, (line (a :: f) k).1 = a :: s := by
  unfold line
  rw [if_neg (by omega)]
  split_ifs with h
  · exact ⟨[], by simp⟩
  · exact ⟨_, rfl⟩

/-- Comments at the beginning are skipped. -/
theorem skip_text {r f : List Char} (hf : f = '*' :: r) (hfat : readLine f ≠ .fatal) :
    ∀ (ls : List (List Char)), (∀ l ∈ ls, '\n' ∉ l ∧ l.length < 16000) → ∀ k, ls.length < k →
    skipN k (comments ls ++ f) = some f := by
  intro ls
  induction ls with
  | nil =>
    intro _ k hk
    obtain ⟨k, rfl⟩ : ∃ k', k = k' + 1 := ⟨k - 1, by simp at hk; omega⟩
    obtain ⟨s, hs⟩ := line_head '*' r (k := maxLine - 1) (by decide)
    simp only [comments, List.nil_append, skipN]
    have : ∃ s f', readLine f = .got ('*' :: s) f' := by
      unfold readLine at hfat ⊢
      have h0 : f ≠ [] := by rw [hf]; simp
      simp only [fgets, if_neg h0] at hfat ⊢
      rw [← hf] at hs
      rw [hs] at hfat ⊢
      split_ifs at hfat ⊢
      · exact absurd rfl hfat
      · exact ⟨_, _, rfl⟩
    obtain ⟨s, f', e⟩ := this
    rw [e]
    simp
  | cons l ls ih =>
    intro h k hk
    obtain ⟨k, rfl⟩ : ∃ k', k = k' + 1 := ⟨k - 1, by simp at hk; omega⟩
    have hl := h l (by simp)
    have := readLine_eq (l := ';' :: l) (by simp [hl.1]) (by simp; omega) (comments ls ++ f)
    simp only [List.cons_append] at this
    simp only [comments, List.cons_append, List.append_assoc, skipN, this, List.head?_cons, if_true]
    exact ih (fun l hl => h l (by simp [hl])) k (by simp at hk; omega)

theorem comments_length (ls : List (List Char)) : ls.length ≤ (comments ls).length := by
  induction ls with
  | nil => simp
  | cons l ls ih => simp only [comments, List.length_cons, List.length_append]; omega

/-- The first line of a table is a heading. -/
theorem first_line (c : Codec E) {t : List (Item E)} (ht : t ≠ [])
    (hk : ∀ e, .ent e ∈ t → 0 ≤ c.kind e ∧ c.kind e ≤ 10) (rest : List Char) :
    readLine (dump c t ++ rest) ≠ .fatal := by
  cases t with
  | nil => exact absurd rfl ht
  | cons x t =>
    cases x with
    | marker =>
      unfold dump
      simp only [dumpFrom, nl, Bool.false_eq_true, if_false, List.nil_append, List.append_assoc]
      rw [(heading_line (k := kMarker) (w := c!"GlobalMarker")
          (LibEntry.num_small (by decide) (by decide)) (by decide) (by decide) _).1]
      simp
    | ent e =>
      have he := hk e (by simp)
      have hk : c.kind e ≠ kInvalid := by unfold kInvalid; omega
      unfold dump
      rw [dumpFrom]
      simp only [ne_eq, hk, not_false_eq_true, if_true, nl, Bool.false_eq_true, if_false,
        List.nil_append, List.append_assoc]
      rw [(heading_line (k := c.kind e) (w := capName (c.kind e))
          (LibEntry.num_small (by omega) (by omega)) (capName_ok _).1 (capName_ok _).2 _).1]
      simp

/-- The whole section. -/
theorem load_section (c : Codec E) (back : E → E) {t : List (Item E)} (ht : t ≠ [])
    (hr : ∀ e, .ent e ∈ t → Reads c e (back e)) (hn : t.length < 2 ^ 31) {ls : List (List Char)}
    (hls : ∀ l ∈ ls, '\n' ∉ l ∧ l.length < 16000) {cl rest : List Char} (hc : '\n' ∉ cl)
    (hcl : cl.length < 16000) :
    ∃ l, load c (comments ls ++ (dump c t ++ ';' :: (cl ++ '\n' :: rest))) = some (l, rest) ∧
      l.length = t.length ∧ ∀ n x, l[n]? = some x → ReadAs c back t n x := by
  have hk : ∀ e, .ent e ∈ t → c.kind e ≠ kInvalid := by
    intro e he
    have := (hr e he).kind
    unfold kInvalid; omega
  obtain ⟨q, hq⟩ := dump_star c ht hk
  obtain ⟨l, e1, e2⟩ := load_text c back hc hcl t.length t (le_refl _) hr 0 kInvalid
    (2 * (dump c t ++ ';' :: (cl ++ '\n' :: rest)).length + 2) (by omega) (by
      have := dump_length c t 0 ⟨false, none, kInvalid, 0⟩
      unfold dump
      simp only [List.length_append]
      omega) (rest := rest)
  refine ⟨l, ?_, e2⟩
  unfold load
  rw [skip_text (r := q ++ ';' :: (cl ++ '\n' :: rest)) (by rw [hq]; rfl)
    (first_line c ht (fun e he => (hr e he).kind) _) ls hls _ (by
      have := comments_length ls
      simp only [List.length_append]; omega)]
  simp only [Option.bind_eq_bind, Option.bind_some]
  rw [← e1]
  simp only [dump, List.append_assoc, List.cons_append]

theorem skip_none {c : Codec E} {t : List (Item E)} (ht : t ≠ [])
    (hk : ∀ e, .ent e ∈ t → 0 ≤ c.kind e ∧ c.kind e ≤ 10) (rest : List Char) :
    load c (dump c t ++ rest) = loadN c (2 * (dump c t ++ rest).length + 2) kInvalid 0 (dump c t ++ rest) := by
  obtain ⟨q, hq⟩ := dump_star c ht (fun e he => by have := hk e he; unfold kInvalid; omega)
  have := skip_text (r := q ++ rest) (f := dump c t ++ rest) (by rw [hq]; rfl) (first_line c ht hk rest) []
    (by simp) ((dump c t ++ rest).length + 1) (by simp)
  simp only [comments, List.nil_append] at this
  unfold load
  rw [this]
  rfl

/-- The heading of the first entry. -/
theorem first_dump (c : Codec E) {a : E} (hk : 0 ≤ c.kind a ∧ c.kind a ≤ 10) (r : List (Item E)) :
    dump c (.ent a :: r) = heading (c.kind a) (capName (c.kind a)) ++
      (entText c 0 a ++ dumpFrom c 1 ⟨true, some a, c.kind a, (entText c 0 a).length⟩ r) := by
  have h0 : c.kind a ≠ kInvalid := by unfold kInvalid; omega
  simp [dump, dumpFrom, h0, newLine, nl]

theorem load_first (c : Codec E) {a : E} (hk : 0 ≤ c.kind a ∧ c.kind a ≤ 10) (fuel : Nat) (f : List Char) :
    loadN c (fuel + 1) kInvalid 0 (heading (c.kind a) (capName (c.kind a)) ++ f) = loadN c fuel (c.kind a) 0 f := by
  obtain ⟨h1, s, q, h2, h3⟩ := heading_line (k := c.kind a) (w := capName (c.kind a))
    (LibEntry.num_small (by omega) (by omega)) (capName_ok _).1 (capName_ok _).2 f
  have k1 : c.kind a ≠ kMarker := by unfold kMarker; omega
  have k2 : -1 ≤ c.kind a ∧ c.kind a ≤ 10 := by omega
  rw [loadN, h1]
  simp only [h2, h3, Option.bind_eq_bind, Option.bind_some, if_neg k1, if_pos k2]

/-- An entry behind an equivalent one is read back as that one, under its own name. -/
theorem pair_text (c : Codec E) {a a' e e' : E} (ha : Reads c a a') (he : Reads c e e') (hk : c.kind e = c.kind a)
    (hq : c.equiv a e = true) (hlen : (c.dump a).length ≤ 14000) {cl rest : List Char} (hc : '\n' ∉ cl)
    (hcl : cl.length < 16000) :
    load c (dump c [.ent a, .ent e] ++ ';' :: (cl ++ '\n' :: rest)) =
      some ([.ent a', .ent (c.rename (c.name e) a')], rest) := by
  have htl : (entText c 0 a).length ≤ 14000 + 13 := by
    have h1 := intText_short (num_nat (n := 0) (by omega))
    simp only [entText, List.length_cons, List.length_append]
    omega
  have hgl : (entText c 0 a).length ≤ maxGroup := by unfold maxGroup; omega
  rw [skip_none (by simp) (by
    intro x hx
    simp only [List.mem_cons, Item.ent.injEq, List.not_mem_nil, or_false] at hx
    rcases hx with rfl | rfl
    · exact ha.kind
    · exact he.kind)]
  have hd : dump c [.ent a, .ent e] ++ ';' :: (cl ++ '\n' :: rest) = heading (c.kind a) (capName (c.kind a)) ++
      (entText c 0 a ++ hashes [c.name e] ++ '\n' :: (';' :: cl ++ '\n' :: rest)) := by
    rw [first_dump c ha.kind, grp_dump c a (c.kind a) [.ent e] _ _ (by
      intro x hx
      simp only [List.mem_cons, Item.ent.injEq, List.not_mem_nil, or_false] at hx
      subst hx
      have := he.kind
      unfold kInvalid; omega)]
    have : grp c a (c.kind a) (entText c 0 a).length [.ent e] = ([e], []) := by
      simp only [grp, hk, hq, true_and, hgl, if_true]
    simp [this, dumpFrom, nl]
  rw [hd]
  have hw : ∀ w ∈ [c.name e], LibEntry.Spec.Name w := by
    intro w hw
    simp only [List.mem_cons, List.not_mem_nil, or_false] at hw
    subst hw
    exact he.word
  have hrl := readLine_eq (l := entText c 0 a ++ hashes [c.name e])
    (by simp only [List.mem_append, not_or]; exact ⟨entText_no ha 0, hashes_no hw⟩)
    (by
      have := he.shortName
      simp only [hashes, List.length_append, List.length_cons, List.length_nil]; omega)
    (';' :: cl ++ '\n' :: rest)
  have hcm := readLine_eq (l := ';' :: cl) (by simp [hc]) (by simp; omega) rest
  have hll := loadLine_eq ha (n := 0) (by omega) hw
  have hL : 2 ≤ (heading (c.kind a) (capName (c.kind a)) ++
      (entText c 0 a ++ hashes [c.name e] ++ '\n' :: (';' :: cl ++ '\n' :: rest))).length := by
    simp only [heading, List.length_append, List.length_cons]; omega
  obtain ⟨m, hm⟩ : ∃ m, 2 * (heading (c.kind a) (capName (c.kind a)) ++
      (entText c 0 a ++ hashes [c.name e] ++ '\n' :: (';' :: cl ++ '\n' :: rest))).length + 2 = m + 3 :=
    ⟨2 * (heading (c.kind a) (capName (c.kind a)) ++
      (entText c 0 a ++ hashes [c.name e] ++ '\n' :: (';' :: cl ++ '\n' :: rest))).length - 1, by omega⟩
  rw [hm, show m + 3 = (m + 2) + 1 from rfl, load_first c ha.kind, loadN, hrl]
  obtain ⟨q, hq⟩ : ∃ q, entText c 0 a ++ hashes [c.name e] ++ ['\n'] = '^' :: q := ⟨_, rfl⟩
  rw [List.append_assoc] at hq
  rw [hq] at hll
  rw [List.append_assoc, hq]
  change (loadLine c (c.kind a) 0 ('^' :: q)).bind (fun es => (loadN c (m + 1) (c.kind a) (0 + es.length)
    (';' :: cl ++ '\n' :: rest)).bind fun x => some (es ++ x.1, x.2)) = _
  rw [hll]
  simp only [Option.bind_some]
  rw [loadN, hcm]
  rfl

theorem line_long : ∀ (k : Nat) (l f : List Char), '\n' ∉ l → k ≤ l.length + 1 →
    ((line (l ++ '\n' :: f) k).1).length = k := by
  intro k
  induction k with
  | zero =>
    intro l f _ _
    cases l <;> simp [line]
  | succ k ih =>
    intro l f hl hk
    cases l with
    | nil =>
      obtain rfl : k = 0 := by simp at hk; omega
      simp [line]
    | cons d l =>
      simp only [List.mem_cons, not_or] at hl
      simp only [List.cons_append, line, Nat.add_one_ne_zero, if_false, Nat.add_sub_cancel]
      rw [if_neg (fun h => hl.1 h.symm)]
      simp only [List.length_cons, Nat.add_right_cancel_iff]
      exact ih l f hl.2 (by simpa using hk)

theorem readLine_long {l : List Char} (hl : '\n' ∉ l) (h : 16382 ≤ l.length) (f : List Char) :
    readLine (l ++ '\n' :: f) = .fatal := by
  have := line_long 16383 l f hl (by omega)
  unfold readLine fgets
  rw [if_neg (by simp)]
  simp only
  rw [if_pos (by exact this)]

/-- An entry whose text does not fit on a line. -/
theorem long_text (c : Codec E) {a : E} (hk : 0 ≤ c.kind a ∧ c.kind a ≤ 10) (hn : '\n' ∉ c.dump a)
    (hl : 16382 ≤ (c.dump a).length) (rest : List Char) : load c (dump c [.ent a] ++ rest) = none := by
  rw [skip_none (by simp) (by simpa using hk), first_dump c hk]
  simp only [dumpFrom, nl, if_true, List.append_assoc]
  rw [load_first c hk, loadN]
  have h1 := readLine_long (l := entText c 0 a) (by
    have := LibEntry.int_noChar (c := '\n') (by decide) (by decide) ((0 : Nat) : Int)
    simp only [entText, List.mem_cons, List.mem_append, not_or]
    exact ⟨by decide, this, by decide, hn⟩)
    (by simp only [entText, List.length_cons, List.length_append]; omega) rest
  simp only [List.cons_append, List.nil_append]
  rw [h1]

/-! ## Entries -/
namespace Sym
open LibEntry
variable {F : Floats}

theorem name_entry {e : Entry} (h : e ≠ .elips) {env : Env} (hv : Valid env e) :
    LibEntry.Spec.Name (name (F := F) (.entry e)) := by
  cases e with
  | elips => exact absurd rfl h
  | var => exact hv.2.2.2.2.2.2.2
  | datatype => exact hv.2.2.2.2.2.2
  | fcn => exact hv.2.2
  | iter => exact hv.2.2
  | endIter => exact hv.2.2
  | tag => exact hv.2.2

theorem kind_entry {e : Entry} (h : e ≠ .elips) : ∃ kd, kindOf (kind (F := F) (.entry e)) = some kd ∧
    KindOf e kd ∧ 0 ≤ kind (F := F) (.entry e) ∧ kind (F := F) (.entry e) ≤ 10 ∧
    ¬ (kind (F := F) (.entry e) = 1 ∨ kind (F := F) (.entry e) = 2) := by
  cases e with
  | elips => exact absurd rfl h
  | tag t ct rt w => cases t <;> exact ⟨_, rfl, rfl, by simp [kind], by simp [kind], by simp [kind]⟩
  | _ => exact ⟨_, rfl, rfl, by simp [kind], by simp [kind], by simp [kind]⟩

theorem typeText_head {ct : Int} (h : Index ct) (r : List Char) :
    ∃ d ds, typeText ct ++ r = d :: ds ∧ isBlank d = false := by
  obtain ⟨d, ds, e, h1⟩ := LibEntry.intText_cons ct
  refine ⟨d, ds ++ r, by rw [LibEntry.type_text h, e]; rfl, ?_⟩
  rcases h1 with h1 | rfl
  · revert h1
    simp only [isDig, isBlank]
    by_cases a : d = '\n'
    · subst a; decide
    · by_cases b : d = ' '
      · subst b; decide
      · by_cases e : d = '\t'
        · subst e; decide
        · simp [a, b, e]
  · decide

theorem head_entry {e : Entry} {env : Env} (hv : Valid env e) :
    ∃ d ds, e.dump false = d :: ds ∧ isBlank d = false := by
  cases e with
  | elips => exact ⟨_, _, rfl, by decide⟩
  | endIter ct => exact typeText_head (by rw [hv.1]; exact ⟨by decide, by decide⟩) _
  | _ => exact typeText_head hv.1 _

/-- Every valid entry that fits on a line is read back. -/
theorem reads {env : Env} (hF : ∀ x r, F.read (F.text x ++ '@' :: r) = (x, '@' :: r))
    (hs : env.sets ≤ 2 ^ 31) (T : Int → Int → Bool) (rest : Sym F → Sym F → Bool) {x : Sym F}
    (h : ValidSym env x) (hfit : Spec.Fits x) : Reads (codec env T rest) x (asRead x) := by
  obtain ⟨f1, f2, f3⟩ := hfit
  cases x with
  | entry e =>
    obtain ⟨h1, h2, h3⟩ := h
    obtain ⟨kd, k1, k2, k3, k4, k5⟩ := kind_entry (F := F) h2
    obtain ⟨d, ds, e1, e2⟩ := head_entry h1
    refine ⟨⟨k3, k4⟩, name_entry h2 h1, h3, f1, ?_, ?_, ?_, f2, f3⟩
    · intro d' ds' e'
      change e.dump false = _ at e'
      rw [e1] at e'
      cases e'
      exact e2
    · change e.dump false ≠ []
      rw [e1]; simp
    · intro s hs
      change undump env (kind (.entry e)) (e.dump false ++ s) = some (.entry _, s)
      have he := entry_text h1 k2 false hs
      unfold undump
      rw [if_neg k5, k1]
      simp only [Option.bind_eq_bind, Option.bind_some]
      by_cases hb : Blank e
      · rw [he.1 hb]
        cases e with
        | var => simp [asTempIf, asTemp, Blank] at *; simp [hb]
        | _ => exact hb.elim
      · rw [he.2 hb]
        cases e with
        | var =>
          simp only [asTempIf, Blank] at *
          simp [hb]
        | _ => rfl
  | const b ct r =>
    obtain ⟨h1, h2, h3⟩ := h
    obtain ⟨d, ds, e1, e2⟩ := typeText_head h1 r.dump
    have hk : kind (.const b ct r) = 1 ∨ kind (.const b ct r) = 2 := by cases b <;> simp [kind]
    refine ⟨?_, ?_, h2.2.2.2.2.1, f1, ?_, ?_, ?_, f2, f3⟩
    · change 0 ≤ kind (.const b ct r) ∧ kind (.const b ct r) ≤ 10
      omega
    · intro c hc
      have := h2.2.2.2.2.2 c hc
      simp [isWordChar, this]
    · intro d' ds' e'
      change typeText ct ++ r.dump = _ at e'
      rw [e1] at e'
      cases e'
      exact e2
    · change typeText ct ++ r.dump ≠ []
      rw [e1]; simp
    · intro s hs
      change undump env (kind (.const b ct r)) (typeText ct ++ r.dump ++ s) = some (.const false ct r, s)
      unfold undump
      rw [if_pos hk, List.append_assoc, LibEntry.type_text h1]
      have hd : ∃ c cs, r.dump ++ s = c :: cs ∧ LibEntry.solid c = true := by
        unfold ConstRec.dump
        split
        · split_ifs
          · exact ⟨_, _, rfl, by decide⟩
          · exact ⟨_, _, rfl, by decide⟩
        · exact ⟨_, _, rfl, by decide⟩
      obtain ⟨c, cs, hcs, hcc⟩ := hd
      have hg : getInt (intText ct ++ (r.dump ++ s)) = some (ct, r.dump ++ s) := by
        rw [hcs]
        exact LibEntry.getInt_solid h1.num hcc
      simp only [hg, Option.bind_eq_bind, Option.bind_some]
      have := (C15_const_partial hF env.sets.toNat (by omega) r h2 s (by
        intro c cs e
        have := hs c cs e
        simp only [isWordChar] at this
        simp at this
        tauto)).2 h3
      rw [this]
      rfl

end Sym
end Splint.SymSection
