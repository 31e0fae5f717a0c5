import Verif.Props.TypeMatch
/-!
# C67: the rules outside of `C67_match_partial`

What is left out there by `proper` and `strict`: pointers to `void`, functions with unknown parameters,
structures without a name, booleans and enumerations as numbers. C66: the names by which an abstract type
matches a pointer to a structure.
-/
namespace Splint.TypeMatch
open Prim (P)
open Spec

variable {E : Env}

/-- Two types of the table: what is compared is their nodes. -/
theorem match_nodes {i j n : Nat} {a b : Node} (hi : E.node i = some a) (hj : E.node j = some b) (hij : i ≠ j) :
    ctMatch E n (.ix i) (.ix j) = run E n (.gen false false) a b := by
  simp [ctMatch, viaBase, get, hi, hj, hij]

/-- Nodes that are no names, and no conjunctions. -/
theorem run_plain {n : Nat} {d deep : Bool} {a b : Node} (ha : a.tid = none) (hb : b.tid = none) (h1 : a ≠ .undefined)
    (h2 : b ≠ .undefined) : run E (n + 1) (.gen d deep) a b = genReal E (run E n) n d deep a b := by
  have h3 : realNode E n a = some a := by cases a <;> first | rfl | cases ha
  have h4 : realNode E n b = some b := by cases b <;> first | rfl | cases hb
  simp [run, h1, h2, h3, h4]

/-! ## Examples of types -/

/-- `void *`; functions `int ()`, `int (int)`, `int (int, int)` and a pointer to the second; structures without
tags, without names; an enumeration; names for the booleans; an abstract type `struct r *[]*` -/
def rulesNodes : List Node :=
  [.unknown, .prim .void, .bool, .prim .uchar, .prim .char, .prim .int, .ptr .void, .fcn (.ix 5) [],
    .fcn (.ix 5) [.ix 5], .fcn (.ix 5) [.ix 5, .ix 5], .ptr (.ix 8), .ptr (.ix 5), .su false .empty 0,
    .su false (.fake 0) 1, .su false (.fake 1) 2, .su false (.fake 2) 3, .su true (.named 0) 1, .enum (.named 1),
    .ua .user 0, .ua .user 1, .ua .abst 2, .ua .user 3, .ptr (.ix 21), .farr (.ix 22), .ptr (.ix 23),
    .su false (.named 3) 1]

def rules (f : Flags) : Env :=
  { node := fun n => rulesNodes[n]?
    entry := fun t => [{ isBool := true, self := .ix 18, utype := .ix 5 }, { isBool := true, self := .ix 19, utype := .ix 4 },
      { abst := true, self := .ix 20, utype := .ix 24 }, { tag := true, self := .ix 21, utype := .ix 25 }][t]?
    access := fun _ => false, accessBool := false
    fields := fun n => [[], [(0, .ix 5)], [(0, .ix 5)], [(0, .ix 4)]].getD n []
    fl := f }

theorem rules_standard (f : Flags) : Standard (rules f) := ⟨rfl, rfl, rfl, rfl⟩

/-! ## Functions -/

/-- A function without any declared parameters matches every function that returns the same. -/
theorem C67_unknown_params {i j n : Nat} {r : Ct} {ps : List Ct} (hij : i ≠ j)
    (hi : E.node i = some (.fcn r [])) (hj : E.node j = some (.fcn r ps)) :
    ctMatch E (n + 1) (.ix i) (.ix j) = some true ∧ ctMatch E (n + 1) (.ix j) (.ix i) = some true := by
  rw [match_nodes hi hj hij, match_nodes hj hi (Ne.symm hij), run_plain rfl rfl (by simp) (by simp),
    run_plain rfl rfl (by simp) (by simp)]
  simp [genReal, fcnCase, genCt, matchParams, andM]

example : ctMatch (rules {}) 1 (.ix 7) (.ix 9) = some true :=
  (C67_unknown_params (E := rules {}) (r := .ix 5) (ps := [.ix 5, .ix 5]) (by decide) rfl rfl).1

/-- Functions of different numbers of parameters do not. -/
theorem C67_number_params {i j n : Nat} {r r' : Ct} {p q : Ct} {ps qs : List Ct} (hij : i ≠ j)
    (hi : E.node i = some (.fcn r (p :: ps))) (hj : E.node j = some (.fcn r' (q :: qs))) (hl : ps.length ≠ qs.length) :
    ctMatch E (n + 1) (.ix i) (.ix j) ≠ some true := by
  rw [match_nodes hi hj hij, run_plain rfl rfl (by simp) (by simp)]
  simp only [genReal, fcnCase, andM]
  cases genCt E (run E n) false true r r' with
  | none => simp
  | some x => cases x <;> simp [matchParams, hl]

example : ctMatch (rules {}) 1 (.ix 8) (.ix 9) ≠ some true :=
  C67_number_params (E := rules {}) (r := .ix 5) (r' := .ix 5) (p := .ix 5) (ps := []) (q := .ix 5) (qs := [.ix 5])
    (by decide) rfl rfl (by decide)

/-! ## Pointers to `void` -/

/-- `void *` and a pointer to a function match, in either order, if and only if `castfcnptr` is off: with the
flag, that they are mixed is reported. -/
theorem C67_void_function (hE : Standard E) {i j k n : Nat} {r : Ct} {ps : List Ct} (hij : i ≠ j)
    (hi : E.node i = some (.ptr .void)) (hj : E.node j = some (.ptr (.ix k))) (hk : E.node k = some (.fcn r ps)) :
    ctMatch E (n + 2) (.ix i) (.ix j) = some (!E.fl.castFcnPtr)
      ∧ ctMatch E (n + 2) (.ix j) (.ix i) = some (!E.fl.castFcnPtr) := by
  have hk0 : k ≠ 0 := by rintro rfl; rw [hE.unknown] at hk; cases hk
  have hk1 : k ≠ 1 := by rintro rfl; rw [hE.void] at hk; cases hk
  have hk2 : k ≠ 2 := by rintro rfl; rw [hE.bool] at hk; cases hk
  have f1 : (realCt E (n + 1) (.ix k)).bind (isFunction E) = some true := by
    simp [realCt, uaOf, isManifestBool, get, hk, Node.tid, Ct.unknown, Ct.bool, hk0, hk2, isFunction]
  have f2 : (realCt E (n + 1) .void).bind (isFunction E) = some false := by
    simp [realCt, uaOf, isManifestBool, get, hE.void, Node.tid, Ct.unknown, Ct.bool, Ct.void, isFunction]
  rw [match_nodes hi hj hij, match_nodes hj hi (Ne.symm hij), run_plain rfl rfl (by simp) (by simp),
    run_plain rfl rfl (by simp) (by simp)]
  simp [genReal, ptrCase, f1, f2, orM]

example : ctMatch (rules {}) 2 (.ix 6) (.ix 10) = some true ∧ ctMatch (rules { castFcnPtr := true }) 2 (.ix 6) (.ix 10) = some false :=
  ⟨(C67_void_function (rules_standard _) (k := 8) (r := .ix 5) (ps := [.ix 5]) (by decide) rfl rfl rfl).1,
    (C67_void_function (rules_standard _) (k := 8) (r := .ix 5) (ps := [.ix 5]) (by decide) rfl rfl rfl).1⟩

/-- `void *` matches a pointer to a number or structure. -/
theorem C67_void_data (hE : Standard E) {i j k n : Nat} {b : Node} (hij : i ≠ j)
    (hi : E.node i = some (.ptr .void)) (hj : E.node j = some (.ptr (.ix k))) (hk : E.node k = some b)
    (hb : (∃ p, b = .prim p) ∨ (∃ g, b = .enum g) ∨ ∃ u g f, b = .su u g f) :
    ctMatch E (n + 3) (.ix i) (.ix j) = some true ∧ ctMatch E (n + 3) (.ix j) (.ix i) = some true := by
  have key : (realCt E (n + 2) (.ix k)).bind (isFunction E) = some false
      ∧ isRealAbstract E (n + 2) (.ix k) = some false := by
    have hk0 : k ≠ 0 := by
      rintro rfl; rw [hE.unknown] at hk
      rcases hb with ⟨p, rfl⟩ | ⟨g, rfl⟩ | ⟨u, g, f, rfl⟩ <;> cases hk
    have hk2 : k ≠ 2 := by
      rintro rfl; rw [hE.bool] at hk
      rcases hb with ⟨p, rfl⟩ | ⟨g, rfl⟩ | ⟨u, g, f, rfl⟩ <;> cases hk
    rcases hb with ⟨p, rfl⟩ | ⟨g, rfl⟩ | ⟨u, g, f, rfl⟩ <;>
      simp [realCt, uaOf, isManifestBool, get, hk, Node.tid, Ct.unknown, Ct.bool, hk0, hk2, isFunction,
        isRealAbstract, isAbstract, orM]
  have kv : (realCt E (n + 2) .void).bind (isFunction E) = some false
      ∧ isRealAbstract E (n + 2) .void = some false := by
    simp [realCt, uaOf, isManifestBool, get, hE.void, Node.tid, Ct.unknown, Ct.bool, Ct.void, isFunction,
        isRealAbstract, isAbstract, orM]
  rw [match_nodes hi hj hij, match_nodes hj hi (Ne.symm hij), run_plain rfl rfl (by simp) (by simp),
    run_plain rfl rfl (by simp) (by simp)]
  simp [genReal, ptrCase, voidCase, key, kv, orM]

example : ctMatch (rules {}) 3 (.ix 6) (.ix 11) = some true :=
  (C67_void_data (rules_standard _) (k := 5) (b := .prim .int) (by decide) rfl rfl rfl (.inl ⟨_, rfl⟩)).1

/-! ## Structures without a name -/

/-- Structures without any tag match nothing but themselves. -/
theorem C67_no_tag {i j n : Nat} {u u' : Bool} {f f' : Nat} {g : Tag} (hij : i ≠ j)
    (hi : E.node i = some (.su u .empty f)) (hj : E.node j = some (.su u' g f')) :
    ctMatch E (n + 1) (.ix i) (.ix j) = some false := by
  rw [match_nodes hi hj hij, run_plain rfl rfl (by simp) (by simp)]
  by_cases hu : u = u' <;> cases g <;> simp [genReal, suCase, hu]

example : ctMatch (rules {}) 1 (.ix 12) (.ix 13) = some false :=
  C67_no_tag (E := rules {}) (u := false) (u' := false) (f := 0) (f' := 1) (g := .fake 0) (by decide) rfl rfl

/-- fields of the same names, and of types that are the same or known -/
def sameFields (l l' : List (Nat × Ct)) : Prop :=
  l.length = l'.length ∧ ∀ (i : Nat) (x y : Nat × Ct), l[i]? = some x → l'[i]? = some y →
    x.1 = y.1 ∧ (x.2 = y.2 ∨ (x.2 ≠ .unknown ∧ y.2 ≠ .unknown))

theorem allFields_same (rec : Rec) : ∀ l l' : List (Nat × Ct), l.length = l'.length →
    allFields E rec l l' = some true → sameFields l l'
  | [], [], _, _ => ⟨rfl, by simp⟩
  | [], y :: ys, h, _ => by simp at h
  | x :: xs, [], h, _ => by simp at h
  | x :: xs, y :: ys, h, ha => by
    simp only [allFields] at ha
    by_cases hn : x.1 = y.1
    swap
    · simp [hn] at ha
    rw [if_pos hn] at ha
    cases hc : almostCt E rec x.2 y.2 with
    | none => simp [hc, andM] at ha
    | some v =>
      cases v
      · simp [hc, andM] at ha
      · simp only [hc, andM, Option.bind_some, if_true] at ha
        obtain ⟨h1, h2⟩ := allFields_same rec xs ys (by simpa using h) ha
        refine ⟨h, fun i a b h3 h4 => ?_⟩
        rcases i with _ | i
        · simp only [List.getElem?_cons_zero, Option.some.injEq] at h3 h4
          subst h3 h4
          refine ⟨hn, ?_⟩
          simp only [almostCt] at hc
          split_ifs at hc with h5 h6
          · exact .inl h5
          · simp at hc
          · right; simpa [not_or] using h6
        · exact h2 i a b (by simpa using h3) (by simpa using h4)

/-- Structures without a name match only if they have the same fields, or no fields are known. -/
theorem C67_nameless {i j n a b f g : Nat} {u u' : Bool} (hij : i ≠ j)
    (hi : E.node i = some (.su u (.fake a) f)) (hj : E.node j = some (.su u' (.fake b) g)) (hab : a ≠ b)
    (hf : E.fields f ≠ []) (hg : E.fields g ≠ [])
    (h : ctMatch E (n + 1) (.ix i) (.ix j) = some true) :
    u = u' ∧ (f = g ∨ sameFields (E.fields f) (E.fields g)) := by
  rw [match_nodes hi hj hij, run_plain rfl rfl (by simp) (by simp)] at h
  by_cases hu : u = u'
  · refine ⟨hu, ?_⟩
    simp only [genReal, hu, if_true, suCase, hab, if_false, matchFields, hf, hg, or_self] at h
    by_cases hfg : f = g
    · exact .inl hfg
    · right
      rw [if_neg hfg] at h
      by_cases hl : (E.fields f).length = (E.fields g).length
      · rw [if_neg (by simpa using hl)] at h
        exact allFields_same _ _ _ hl h
      · simp [hl] at h
  · simp [genReal, hu] at h

example : sameFields ((rules {}).fields 1) ((rules {}).fields 2) :=
  (C67_nameless (E := rules {}) (i := 13) (j := 14) (n := 0) (a := 0) (b := 1) (f := 1) (g := 2) (u := false) (u' := false)
    (by decide) rfl rfl (by decide) (by decide) (by decide) (by decide +kernel)).2.resolve_left (by decide)

/-- ... and they do, if the fields have the same names and types. -/
theorem C67_nameless_same {i j n a b f g : Nat} {u : Bool} (hij : i ≠ j)
    (hi : E.node i = some (.su u (.fake a) f)) (hj : E.node j = some (.su u (.fake b) g))
    (h : E.fields f = E.fields g) : ctMatch E (n + 1) (.ix i) (.ix j) = some true := by
  have all : ∀ l : List (Nat × Ct), allFields E (run E n) l l = some true := by
    intro l
    induction l with
    | nil => rfl
    | cons x xs ih => simp [allFields, almostCt, andM, ih]
  rw [match_nodes hi hj hij, run_plain rfl rfl (by simp) (by simp)]
  simp [genReal, suCase, matchFields, h, all]

example : ctMatch (rules {}) 1 (.ix 13) (.ix 14) = some true ∧ ctMatch (rules {}) 3 (.ix 13) (.ix 15) = some false := by
  refine ⟨C67_nameless_same (E := rules {}) (u := false) (a := 0) (b := 1) (f := 1) (g := 2) (by decide) rfl rfl rfl, ?_⟩
  decide +kernel

/-- A structure and a union are never the same. -/
theorem C67_struct_union {i j n f g : Nat} {u u' : Bool} {s t : Tag} (hij : i ≠ j) (hu : u ≠ u')
    (hi : E.node i = some (.su u s f)) (hj : E.node j = some (.su u' t g)) :
    ctMatch E (n + 1) (.ix i) (.ix j) = some false := by
  rw [match_nodes hi hj hij, run_plain rfl rfl (by simp) (by simp)]
  simp [genReal, hu]

example : ctMatch (rules {}) 1 (.ix 13) (.ix 16) = some false :=
  C67_struct_union (E := rules {}) (u := false) (u' := true) (s := .fake 0) (t := .named 0) (f := 1) (g := 1)
    (by decide) (by decide) rfl rfl

/-! ## Numbers -/

/-- whole numbers: with `charint`, characters too -/
def whole (f : Flags) (p : P) : Prop :=
  p ∈ [P.int, .uint, .sint, .usint, .lint, .ulint, .llint, .ullint, .anyIntegral, .unsignedIntegral, .signedIntegral]
    ∨ (p ∈ [P.char, .uchar] ∧ f.prim.charInt = true)

theorem whole_isInt (f : Flags) (p : P) : Prim.isInt f.prim p = true ↔ whole f p := by
  cases p <;> simp [Prim.isInt, whole, P.isAnyInt, P.isAnyChar]

/-- Booleans match whole numbers if and only if `boolint` is on, in either order. -/
theorem C67_bool_int {i j n : Nat} {p : P} (hi : E.node i = some .bool) (hj : E.node j = some (.prim p)) :
    (ctMatch E (n + 1) (.ix i) (.ix j) = some true ↔ E.fl.boolInt = true ∧ whole E.fl p)
    ∧ (ctMatch E (n + 1) (.ix j) (.ix i) = some true ↔ E.fl.boolInt = true ∧ whole E.fl p) := by
  have hij : i ≠ j := by rintro rfl; simp [hi] at hj
  rw [match_nodes hi hj hij, match_nodes hj hi (Ne.symm hij), run_plain rfl rfl (by simp) (by simp),
    run_plain rfl rfl (by simp) (by simp)]
  simp only [genReal, ← whole_isInt]
  cases Prim.isInt E.fl.prim p <;> simp

example : ctMatch (rules { boolInt := true, prim := { charInt := true } }) 1 (.ix 2) (.ix 4) = some true :=
  (C67_bool_int (p := .char) rfl rfl).1.2 ⟨rfl, .inr ⟨by simp, rfl⟩⟩

/-- Enumerations match whole numbers if and only if `enumint` is on, in either order. -/
theorem C67_enum_int {i j n : Nat} {p : P} {g : Tag} (hi : E.node i = some (.enum g)) (hj : E.node j = some (.prim p)) :
    (ctMatch E (n + 1) (.ix i) (.ix j) = some true ↔ E.fl.enumInt = true ∧ whole E.fl p)
    ∧ (ctMatch E (n + 1) (.ix j) (.ix i) = some true ↔ E.fl.enumInt = true ∧ whole E.fl p) := by
  have hij : i ≠ j := by rintro rfl; simp [hi] at hj
  rw [match_nodes hi hj hij, match_nodes hj hi (Ne.symm hij), run_plain rfl rfl (by simp) (by simp),
    run_plain rfl rfl (by simp) (by simp)]
  simp only [genReal, ← whole_isInt]
  cases Prim.isInt E.fl.prim p <;> simp

example : ctMatch (rules { enumInt := true }) 1 (.ix 5) (.ix 17) = some true :=
  (C67_enum_int (g := .named 1) (p := .int) rfl rfl).2.2 ⟨rfl, .inl (by simp)⟩

/-- Booleans and enumerations are never the same, and neither is a pointer. -/
theorem C67_bool_enum {i j k n : Nat} {g : Tag} {x : Ct} (hi : E.node i = some .bool) (hj : E.node j = some (.enum g))
    (hk : E.node k = some (.ptr x)) :
    ctMatch E (n + 1) (.ix i) (.ix j) = some false ∧ ctMatch E (n + 1) (.ix j) (.ix i) = some false
    ∧ ctMatch E (n + 1) (.ix i) (.ix k) = some false ∧ ctMatch E (n + 1) (.ix k) (.ix i) = some false
    ∧ ctMatch E (n + 1) (.ix j) (.ix k) = some false ∧ ctMatch E (n + 1) (.ix k) (.ix j) = some false := by
  have hij : i ≠ j := by rintro rfl; simp [hi] at hj
  have hik : i ≠ k := by rintro rfl; simp [hi] at hk
  have hjk : j ≠ k := by rintro rfl; simp [hj] at hk
  rw [match_nodes hi hj hij, match_nodes hj hi (Ne.symm hij), match_nodes hi hk hik, match_nodes hk hi (Ne.symm hik),
    match_nodes hj hk hjk, match_nodes hk hj (Ne.symm hjk)]
  simp [run, realNode, genReal]

example : ctMatch (rules { boolInt := true, enumInt := true }) 1 (.ix 2) (.ix 17) = some false :=
  (C67_bool_enum (k := 6) (x := .void) (g := .named 1) rfl rfl rfl).1

/-- Two names for booleans, which `boolInt` has no part in, match. -/
theorem C67_bool_names {i j n t u : Nat} {k l : UA} {e e' : Entry} (hij : i ≠ j)
    (hi : E.node i = some (.ua k t)) (hj : E.node j = some (.ua l u)) (he : E.entry t = some e) (he' : E.entry u = some e')
    (hb : e.isBool = true) (hb' : e'.isBool = true) : ctMatch E (n + 1) (.ix i) (.ix j) = some true := by
  rw [match_nodes hi hj hij]
  simp [run, realNode, isBoolType, he, he', hb, hb', genReal]

example : ctMatch (rules {}) 1 (.ix 18) (.ix 19) = some true :=
  C67_bool_names (E := rules {}) (k := .user) (l := .user) (t := 0) (u := 1)
    (e := { isBool := true, self := .ix 18, utype := .ix 5 }) (e' := { isBool := true, self := .ix 19, utype := .ix 4 })
    (by decide) rfl rfl rfl rfl rfl rfl

/-! ## C66: structures declared before -/

/-- The type at the end of pointers and arrays. -/
inductive Ends (E : Env) : Nat → Nat → Nat → Prop where
  | ptr {i j k d} (h : E.node i = some (.ptr (.ix j))) (hj : Ends E d j k) : Ends E (d + 1) i k
  | arr {i j k d} (h : E.node i = some (.arr (.ix j))) (hj : Ends E d j k) : Ends E (d + 1) i k
  | farr {i j k d} (h : E.node i = some (.farr (.ix j))) (hj : Ends E d j k) : Ends E (d + 1) i k
  | here {i g t} (h : E.node i = some (.ua g t)) : Ends E 0 i i

theorem ends_base {d i k : Nat} (h : Ends E d i k) : ∀ n, d < n → getBaseType E n (.ix i) = some (.ix k) := by
  induction h with
  | ptr h _ ih | arr h _ ih | farr h _ ih =>
    rintro (_ | n) hn
    · omega
    · simpa [getBaseType, get, h] using ih n (by omega)
  | here h =>
    rintro (_ | n) hn
    · omega
    · simp [getBaseType, get, h]

/-- With `forwarddecl`, an abstract type that is a pointer matches a pointer to a structure of tag `r` if at
the end of its pointers and arrays, of any number, is that structure. -/
theorem C66_forward_ends (hE : Standard E) {i j p q b t r d n : Nat} {k k' k'' : UA} {e e' : Entry} {x : Ct}
    (hf : E.fl.forwardDecl = true)
    (hi : E.node i = some (.ua k t)) (he : E.entry t = some e) (hh : Spec.hidden E t e)
    (hu : e.utype = .ix p) (hp : E.node p = some (.ptr x)) (hd : Ends E d p b) (hb : E.node b = some (.ua k' r))
    (hj : E.node j = some (.ptr (.ix q))) (hq : E.node q = some (.ua k'' r)) (he' : E.entry r = some e')
    (ht : e'.tag = true) (hn : d < n) :
    ctMatch E (n + 1) (.ix i) (.ix j) = some true ∧ ctMatch E (n + 1) (.ix j) (.ix i) = some true := by
  have hij : i ≠ j := by rintro rfl; simp [hi] at hj
  obtain ⟨hb1, ht1, ha1, ⟨c, kc, hs, hc⟩, hacc⟩ := hh
  obtain ⟨m, rfl⟩ : ∃ m, n = m + 1 := ⟨n - 1, by omega⟩
  have hr : realNode E (m + 1) (.ua k t) = some (.ua kc t) := by
    simp [realNode, isBoolType, he, hb1, getRealType, ht1, ha1, hs, get, hc, Node.tid, hacc]
  have hr' : realNode E (m + 1) (.ptr (.ix q)) = some (.ptr (.ix q)) := rfl
  have hq0 : q ≠ 0 := by rintro rfl; simp [hE.unknown] at hq
  have hb0 : b ≠ 0 := by rintro rfl; simp [hE.unknown] at hb
  have hm : matchForward E (m + 1) t r = some true := by
    simp [matchForward, he', ht, he, hu, isPointer, get, hp, ends_base hd _ hn, uaOf, Ct.unknown, hb0, hb, Node.tid]
  rw [match_nodes hi hj hij, match_nodes hj hi (Ne.symm hij)]
  simp [run, hr, hr', genReal, forwardCase, hf, uaOf, Ct.unknown, hq0, get, hq, Node.tid, hm]

example : ctMatch (rules { forwardDecl := true }) 5 (.ix 20) (.ix 22) = some true :=
  (C66_forward_ends (E := rules { forwardDecl := true }) (rules_standard _) (t := 2) (r := 3) (p := 24) (q := 21) (b := 21)
    (d := 3) (k := .abst) (k' := .user) (k'' := .user) (x := .ix 23)
    (e := { abst := true, self := .ix 20, utype := .ix 24 }) (e' := { tag := true, self := .ix 21, utype := .ix 25 })
    rfl rfl rfl ⟨rfl, rfl, rfl, ⟨20, .abst, rfl, rfl⟩, rfl⟩ rfl rfl
    (.ptr (j := 23) rfl (.farr (j := 22) rfl (.ptr (j := 21) rfl (.here (g := .user) (t := 3) rfl)))) rfl rfl rfl rfl rfl (by decide)).1

end Splint.TypeMatch
