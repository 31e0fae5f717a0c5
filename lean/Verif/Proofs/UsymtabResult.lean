import Verif.Proofs.UsymtabRun
/-! What the table says after a statement without `switch`, exactly. -/
namespace Splint.Symtab
open Spec

variable {S : Type}

theorem both_mapVis {join : S → S → S} (hi : ∀ a, join a a = a) (g h : Nat → S → S) (seen : List Nat)
    (E : Env S) : both join (mapVis g seen E) (mapVis h seen E)
      = mapVis (fun n s => join (g n s) (h n s)) seen E := by
  induction E generalizing seen with
  | nil => rfl
  | cons fr r ih =>
    have := ih (fr.map (·.1) ++ seen)
    simp only [both] at this
    simp only [both, mapVis, List.zipWith_cons_cons, this]
    congr 1
    rw [List.zipWith_map, List.zipWith_self]
    apply List.map_congr_left
    intro p _
    by_cases hp : p.1 ∈ seen <;> simp [hp, hi]

theorem both_self {join : S → S → S} (hi : ∀ a, join a a = a) (h : Nat → S → S) (E : Env S) :
    both join E (mapVis h [] E) = mapVis (fun n s => join s (h n s)) [] E := by
  have := both_mapVis hi (fun _ s => s) h [] E
  rwa [mapVis_none] at this

/-- How states are merged: merging a state with itself changes nothing, and the order does not matter. -/
structure Lattice (o : Ops S) : Prop where
  idem : ∀ a, o.join a a = a
  comm : ∀ a b, o.join a b = o.join b a
  andFix : ∀ a, o.andFix a a = a

theorem merged_empty {o : Ops S} (ho : Lattice o) (eT : Bool) {tt ft : Table S} (hf : ft.entries = [])
    (n : Nat) (s : S) :
    merged o eT false tt ft n s = if eT then s else o.join s (over tt n s) := by
  unfold over merged
  rw [find_nil hf]
  cases tt.find n <;> cases eT <;> simp [Ops.mergeTrue, ho.idem]

theorem merged_eq {o : Ops S} (ho : Lattice o) {eT eF : Bool} (he : eT = true → eF = true) (tt ft : Table S) (n : Nat) (s : S) :
    merged o eT eF tt ft n s = if eF then over tt n s
      else o.join (over tt n s) (over ft n s) := by
  unfold over merged
  cases tt.find n <;> cases ft.find n <;> cases eT <;> cases eF <;>
    first
    | exact absurd (he rfl) (by decide)
    | (simp [Ops.mergeFalse, Ops.mergeTrue, ho.idem]; done)
    | (simp [Ops.mergeFalse, Ops.mergeTrue]; exact ho.comm _ _)

theorem run_result {o : Ops S} (ho : Lattice o) (p : Stmt S) (d : Bool) (st : Stack S) (hw : WF st)
    (hl : Lev st) (hd : Here d st) (hp : Placed d p) (hn : Plain p) {st' : Stack S}
    (hr : run o p st = some st') : (view st').cur = result o p (view st).cur := by
  have branch : ∀ (e : Bool) (b : Stmt S), Placed false b →
      (∀ st st', WF st → Lev st → run o b st = some st' → (view st').cur = result o b (view st).cur) →
      (run o b (push .tbranch st)).bind (popTrueBranch o e) = some st' →
      (view st').cur = if e then (view st).cur
        else both o.join (view st).cur (result o b (view st).cur) := by
    intro e b hp ih hr
    obtain ⟨t, r, rfl⟩ := lev_cons hl
    obtain ⟨p1, p2, p3⟩ := push_stops hw hl .tbranch (by tauto)
    obtain ⟨st1, ha⟩ := run_good o b false _ p1 p2 (fun h => by cases h) hp
    have i := ih _ _ p1 p2 ha.run
    obtain ⟨tt, rfl, t1, t2, t3, t4, t5⟩ := branch_run (by tauto) hw hl ha
    obtain ⟨st2, ft, h1, h2, h3, h4, h5⟩ := popTrue_spec o e t1 t2 (good_lev ha p2)
    rw [ha.run, Option.bind_some, h1] at hr
    cases hr
    rw [p3, t4, show beneath .tbranch (t :: r) = (view (t :: r)).cur from rfl] at i
    rw [h5, ← i]
    cases e with
    | true =>
      rw [if_pos rfl]
      refine Eq.trans ?_ mapVis_none
      congr 1
      funext n s
      rw [merged_empty ho _ h4]
      simp
    | false =>
      rw [if_neg (by simp), both_self ho.idem]
      congr 1
      funext n s
      rw [merged_empty ho _ h4]
      simp
  match p, hp, hn, hr with
  | .skip, _, _, hr => cases hr; rfl
  | .brk, _, _, hr => cases hr; rfl
  | .ret, _, _, hr => cases hr; rfl
  | .act x f, _, _, hr => cases hr; exact (update_spec x f st hw).2.1
  | .decl x s, hp, _, hr =>
    obtain ⟨t, r, rfl, ht⟩ := hd hp
    cases hr
    exact (declare_spec x s ht hw).2.2
  | .seq a b, hp, hn, hr =>
    obtain ⟨st1, ha⟩ := run_good o a d st hw hl hd hp.1
    rw [run, ha.run, Option.bind_some] at hr
    rw [run_result ho b d st1 ha.wf (good_lev ha hl) (here_keeps hd ha.keeps) hp.2 hn.2 hr,
      run_result ho a d st hw hl hd hp.1 hn.1 ha.run]
    rfl
  | .block b, hp, hn, hr =>
    obtain ⟨t, r, rfl⟩ := lev_cons hl
    obtain ⟨p1, p2, p3⟩ := push_normal hw hl
    have hh : Here true (push .normal (t :: r)) := fun _ => ⟨_, _, rfl, rfl⟩
    obtain ⟨st1, hb⟩ := run_good o b true (push .normal (t :: r)) p1 p2 hh hp
    have i := run_result ho b true _ p1 p2 hh hp hn hb.run
    obtain ⟨n, r', rfl, k1, k2, k3, k4⟩ := keeps_plain
      (t := (push .normal (t :: r)).head (by simp [push])) (r := t :: r) hb.keeps
      (by simp [push, Kind.stops])
    have hn : n.kind = .normal := k1
    cases r' with
    | nil => cases k2
    | cons u r' =>
      rw [run, hb.run, Option.bind_some, exitScope_normal hn] at hr
      cases hr
      rw [p3, view_normal _ hn] at i
      exact congrArg List.tail i
  | .ifThen e b, hp, hn, hr =>
    exact branch e b hp (fun st st' hw hl h => run_result ho b false st hw hl (fun h => by cases h) hp hn h)
      hr
  | .loop e b, hp, hn, hr =>
    exact branch e b hp (fun st st' hw hl h => run_result ho b false st hw hl (fun h => by cases h) hp hn h)
      hr
  | .ifElse eT eF a b, hp, hn, hr =>
    obtain ⟨t, r, rfl⟩ := lev_cons hl
    obtain ⟨p1, p2, p3⟩ := push_stops hw hl .tbranch (by tauto)
    obtain ⟨st1, ha⟩ := run_good o a false _ p1 p2 (fun h => by cases h) hp.1
    have i1 := run_result ho a false _ p1 p2 (fun h => by cases h) hp.1 hn.2.1 ha.run
    obtain ⟨tt, rfl, t1, t2, t3, t4, t5⟩ := branch_run (by tauto) hw hl ha
    have hl1 := good_lev ha p2
    obtain ⟨q1, q2, q3⟩ := push_stops t2 hl1 .fbranch (by tauto)
    obtain ⟨st2, hb⟩ := run_good o b false _ q1 q2 (fun h => by cases h) hp.2
    have i2 := run_result ho b false _ q1 q2 (fun h => by cases h) hp.2 hn.2.2 hb.run
    obtain ⟨ft, rfl, f1, f2, f3, f4, f5⟩ := branch_run (by tauto) t2 hl1 hb
    have hbn : beneath .fbranch (tt :: t :: r) = (view (t :: r)).cur := by
      rw [beneath, view_stops _ (by rw [t1]; rfl)]
    obtain ⟨st', e1, e2, e3, e4⟩ := popBranches_spec o eT eF f1 t1 f2
    have halt : altBranch (tt :: t :: r) = some (push .fbranch (tt :: t :: r)) := by
      rw [altBranch, if_pos t1]
    rw [run, ha.run, Option.bind_some, halt, Option.bind_some, hb.run, Option.bind_some, e1] at hr
    cases hr
    rw [p3, t4, show beneath .tbranch (t :: r) = (view (t :: r)).cur from rfl] at i1
    rw [q3, f4, hbn] at i2
    rw [e3, result, ← i1, ← i2]
    have : merged o eT eF tt ft = _ := funext fun n => funext fun s => merged_eq ho hn.1 tt ft n s
    rw [this]
    cases eF with
    | true => simp
    | false =>
      cases eT with
      | true => exact absurd (hn.1 rfl) (by decide)
      | false => simp [both_mapVis ho.idem]
  | .andAlso b, hp, hn, hr =>
    obtain ⟨t, r, rfl⟩ := lev_cons hl
    obtain ⟨p1, p2, p3⟩ := push_stops hw hl .tbranch (by tauto)
    obtain ⟨st1, ha⟩ := run_good o b false _ p1 p2 (fun h => by cases h) hp
    have i := run_result ho b false _ p1 p2 (fun h => by cases h) hp hn ha.run
    obtain ⟨tt, rfl, t1, t2, t3, t4, t5⟩ := branch_run (by tauto) hw hl ha
    obtain ⟨e1, e2, e3⟩ := updates_spec
      (fun e old => o.andFix e.state (o.join old e.state)) tt.entries (wf_names t2) (t :: r) hw
    rw [run, ha.run, Option.bind_some, popAndBranch, if_pos t1] at hr
    cases hr
    rw [p3, t4, show beneath .tbranch (t :: r) = (view (t :: r)).cur from rfl] at i
    rw [e2, result, ← i, both_self (fun a => by simp [ho.idem, ho.andFix])]
    congr 1
    funext n s
    unfold apply over Table.find
    cases tt.entries.find? (·.name == n) <;> simp [ho.idem, ho.andFix]
  | .orElse b, hp, hn, hr =>
    obtain ⟨t, r, rfl⟩ := lev_cons hl
    obtain ⟨p1, p2, p3⟩ := push_stops hw hl .tbranch (by tauto)
    obtain ⟨st1, ha⟩ := run_good o b false _ p1 p2 (fun h => by cases h) hp
    have i := run_result ho b false _ p1 p2 (fun h => by cases h) hp hn ha.run
    obtain ⟨tt, rfl, t1, t2, t3, t4, t5⟩ := branch_run (by tauto) hw hl ha
    obtain ⟨e1, e2, e3⟩ := updates_spec
      (fun e old => o.join old e.state) tt.entries (wf_names t2) (t :: r) hw
    rw [run, ha.run, Option.bind_some, popOrBranch, if_pos t1] at hr
    cases hr
    rw [p3, t4, show beneath .tbranch (t :: r) = (view (t :: r)).cur from rfl] at i
    rw [e2, result, ← i, both_self ho.idem]
    congr 1
    funext n s
    unfold apply over Table.find
    cases tt.entries.find? (·.name == n) <;> simp [ho.idem]
  termination_by sizeOf p

end Splint.Symtab
