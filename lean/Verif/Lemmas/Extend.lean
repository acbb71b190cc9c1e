import Verif.Lemmas.IdealRun
import Verif.Lemmas.StreamMain

/-!
# Lemmas for C108: a run that was cut short, and how it could have gone on
-/

set_option autoImplicit false

namespace Detox
open Spec

/-! ### More fuel -/

/-- Whatever `p` does, `q` may do, if `p` does not run out of fuel. -/
def Prog.Below {α : Type} (p q : Prog α) : Prop := ∀ tr out, Trace p tr out → out ≠ .stuck → Trace q tr out

theorem Prog.Below.refl {α : Type} (p : Prog α) : p.Below p := fun _ _ h _ => h

theorem below_stuck {α : Type} (q : Prog α) : (Prog.stuck : Prog α).Below q := by
  intro tr out h hne
  cases h with
  | stop => exact .stop _
  | stuck => exact absurd rfl hne

theorem Prog.Below.bind {α β : Type} {p q : Prog α} {f g : α → Prog β} (h : p.Below q) (hf : ∀ a, (f a).Below (g a)) : (p.bind f).Below (q.bind g) := by
  intro tr out ht hne
  rcases trace_bind_any ht with ⟨a, t1, t2, rfl, h1, h2⟩ | ⟨o, ho, h1⟩
  · exact trace_append (h _ _ h1 nofun) (hf a _ _ h2 hne)
  · exact trace_bind_end (h _ _ h1 (by rintro rfl; cases ho; exact hne rfl)) ho

theorem below_lstat {α : Type} {x : Bytes} {k k' : Option Stat → Prog α} (h : ∀ r, (k r).Below (k' r)) : (Prog.lstat x k).Below (.lstat x k') := by
  intro tr out ht hne
  cases ht with
  | stop => exact .stop _
  | lstat _ _ r tr _ h1 => exact .lstat _ _ _ _ _ (h r _ _ h1 hne)

theorem below_opendir {α : Type} {x : Bytes} {k k' : OpenRes → Prog α} (h : ∀ r, (k r).Below (k' r)) : (Prog.opendir x k).Below (.opendir x k') := by
  intro tr out ht hne
  cases ht with
  | stop => exact .stop _
  | opendir _ _ r tr _ h1 => exact .opendir _ _ _ _ _ (h r _ _ h1 hne)

theorem below_readdir {α : Type} {x : Nat} {k k' : Option Bytes → Prog α} (h : ∀ r, (k r).Below (k' r)) : (Prog.readdir x k).Below (.readdir x k') := by
  intro tr out ht hne
  cases ht with
  | stop => exact .stop _
  | readdir _ _ r tr _ h1 => exact .readdir _ _ _ _ _ (h r _ _ h1 hne)

theorem below_out {α : Type} {s : Bytes} {k k' : Prog α} (h : k.Below k') : (Prog.out s k).Below (.out s k') := by
  intro tr out ht hne
  cases ht with
  | stop => exact .stop _
  | out _ _ tr _ h1 => exact .out _ _ _ _ (h _ _ h1 hne)

theorem dirLoop_below {P : Platform} {o : Options} {r r' : Option Filelist → Bytes → Prog (Option Filelist)} (hr : ∀ i p, (r i p).Below (r' i p)) (h : Nat) (p : Bytes) :
    ∀ (n m : Nat), n ≤ m → ∀ st ign, (dirLoop P o r h p n st ign).Below (dirLoop P o r' h p m st ign)
  | 0, _, _, _, _ => below_stuck _
  | n + 1, 0, hle, _, _ => by omega
  | n + 1, m + 1, hle, st, ign => by
    have ih := dirLoop_below (P := P) (o := o) hr h p n m (by omega)
    unfold dirLoop
    refine below_readdir fun e => ?_
    cases e with
    | none => exact .refl _
    | some name =>
      refine Prog.Below.bind (.refl _) fun x => ?_
      dsimp only
      split
      · exact ih _ _
      · refine below_lstat fun q => ?_
        split
        · refine Prog.Below.bind (.refl _) fun work => ?_
          split
          · exact Prog.Below.bind (hr _ _) fun _ => ih _ _
          · exact ih _ _
        · split
          · exact Prog.Below.bind (.refl _) fun _ => ih _ _
          · exact ih _ _

theorem parseDir_below {P : Platform} {o : Options} : ∀ (n m : Nat), n ≤ m → ∀ ign p, (parseDir P o n ign p).Below (parseDir P o m ign p)
  | 0, _, _, _, _ => below_stuck _
  | n + 1, 0, hle, _, _ => by omega
  | n + 1, m + 1, hle, ign, p => by
    have ih := parseDir_below (P := P) (o := o) n m (by omega)
    unfold parseDir
    refine below_lstat fun r => ?_
    cases r with
    | none => exact .refl _
    | some st =>
      dsimp only
      split
      · exact .refl _
      · refine below_opendir fun d => ?_
        cases d with
        | ok h => exact dirLoop_below ih h p n m (by omega) st ign
        | fail => exact .refl _
        | emfile => exact .refl _

theorem processArg_below {P : Platform} {o : Options} {n m : Nat} (hle : n ≤ m) (ign : Option Filelist) (f : Bytes) :
    (processArg P o n ign f).Below (processArg P o m ign f) := by
  unfold processArg
  dsimp only
  split
  · refine below_out (below_lstat fun r => ?_)
    cases r with
    | none => exact .refl _
    | some st =>
      dsimp only
      split
      · exact Prog.Below.bind (.refl _) fun work => parseDir_below n m hle ign work
      · exact .refl _
  · refine below_lstat fun r => ?_
    cases r with
    | none => exact .refl _
    | some st =>
      dsimp only
      split
      · exact Prog.Below.bind (.refl _) fun work => parseDir_below n m hle ign work
      · exact .refl _

theorem fileLoop_below {P : Platform} {o : Options} {n m : Nat} (hle : n ≤ m) : ∀ (k : Nat) (l : Filelist) (ign : Option Filelist),
    (fileLoop P o n k l ign).Below (fileLoop P o m k l ign)
  | 0, _, _ => .refl _
  | k + 1, l, ign => by
    unfold fileLoop
    refine Prog.Below.bind (.refl _) fun x => ?_
    split
    · exact .refl _
    · exact Prog.Below.bind (processArg_below hle _ _) fun _ => fileLoop_below hle k _ _

theorem detoxWork_below {P : Platform} {o : Options} {n m : Nat} (hle : n ≤ m) : (detoxWork P o n).Below (detoxWork P o m) := by
  unfold detoxWork
  split
  · exact .refl _
  · split
    · exact .refl _
    · exact Prog.Below.bind (fileLoop_below hle _ _ _) fun _ => .refl _

theorem detoxMain_below {P : Platform} {I : Invocation} {n m : Nat} (hle : n ≤ m) : (detoxMain P I n).Below (detoxMain P I m) := by
  unfold detoxMain
  refine Prog.Below.bind (.refl _) fun o => ?_
  unfold detoxConfigured
  refine Prog.Below.bind (.refl _) fun c => ?_
  split
  · exact .refl _
  · split
    · exact .refl _
    · exact Prog.Below.bind (.refl _) fun _ => detoxWork_below hle

/-! ### What is left to do -/

theorem trace_rest {α : Type} {p : Prog α} {t1 : List Event} (h : Trace p t1 .running) : ∃ q : Prog α, ∀ t2 out, Trace q t2 out → Trace p (t1 ++ t2) out := by
  generalize ho : Outcome.running = out at h
  induction h with
  | stop p => exact ⟨p, fun _ _ h => h⟩
  | ret | exit | ub | stuck => cases ho
  | lstat p k r tr o _ ih => obtain ⟨q, hq⟩ := ih ho; exact ⟨q, fun t2 out h => .lstat _ _ _ _ _ (hq t2 out h)⟩
  | rename a b k r tr o _ ih => obtain ⟨q, hq⟩ := ih ho; exact ⟨q, fun t2 out h => .rename _ _ _ _ _ _ (hq t2 out h)⟩
  | opendir p k r tr o _ ih => obtain ⟨q, hq⟩ := ih ho; exact ⟨q, fun t2 out h => .opendir _ _ _ _ _ (hq t2 out h)⟩
  | readdir p k r tr o _ ih => obtain ⟨q, hq⟩ := ih ho; exact ⟨q, fun t2 out h => .readdir _ _ _ _ _ (hq t2 out h)⟩
  | closedir p k tr o _ ih => obtain ⟨q, hq⟩ := ih ho; exact ⟨q, fun t2 out h => .closedir _ _ _ _ (hq t2 out h)⟩
  | slurp p k r tr o _ ih => obtain ⟨q, hq⟩ := ih ho; exact ⟨q, fun t2 out h => .slurp _ _ _ _ _ (hq t2 out h)⟩
  | out s k tr o _ ih => obtain ⟨q, hq⟩ := ih ho; exact ⟨q, fun t2 out h => .out _ _ _ _ (hq t2 out h)⟩
  | err s k tr o _ ih => obtain ⟨q, hq⟩ := ih ho; exact ⟨q, fun t2 out h => .err _ _ _ _ (hq t2 out h)⟩

theorem trace_cut {α : Type} {p : Prog α} {t1 t2 : List Event} {out : Outcome α} (h : Trace p (t1 ++ t2) out) : Trace p t1 .running := by
  generalize ht : t1 ++ t2 = t at h
  induction h generalizing t1 with
  | stop p | ret | exit | ub | stuck =>
    obtain ⟨rfl, _⟩ := List.append_eq_nil_iff.1 ht
    exact .stop _
  | lstat | rename | opendir | readdir | closedir | slurp | out | err =>
    rename_i ih
    cases t1 with
    | nil => exact .stop _
    | cons e t1 =>
      cases ht
      first
      | exact .lstat _ _ _ _ _ (ih rfl)
      | exact .rename _ _ _ _ _ _ (ih rfl)
      | exact .opendir _ _ _ _ _ (ih rfl)
      | exact .readdir _ _ _ _ _ (ih rfl)
      | exact .closedir _ _ _ _ (ih rfl)
      | exact .slurp _ _ _ _ _ (ih rfl)
      | exact .out _ _ _ _ (ih rfl)
      | exact .err _ _ _ _ (ih rfl)

/-! ### A system that lets nothing more be done -/

/-- What a system says that lets nothing more be done: no rename succeeds, no directory can be opened; those that are open give the names they owe. -/
structure Balks (files : Bytes → Option Bytes) (W : World) (e : Event) : Prop where
  faithful : Faithful files e
  rename : ∀ a b, e ≠ .rename a b true
  opendir : ∀ p r, e = .opendir p r → r = .fail
  readdir : ∀ h n, e = .readdir h (some n) → ∃ s, W.streams h = some s ∧ n ∈ s.owed

inductive Balking (files : Bytes → Option Bytes) : World → List Event → World → Prop
  | nil (W : World) : Balking files W [] W
  | cons (W W1 W2 : World) (e : Event) (tr : List Event) : World.Step W e W1 → Balks files W e → Balking files W1 tr W2 → Balking files W (e :: tr) W2

/-- What is known of the directories that are open. -/
structure OpenWorld (W : World) : Prop where
  names : ∀ e ∈ W.fs.entries, EntryName e.name
  owed : ∀ k s, W.streams k = some s → ∀ n ∈ s.owed, n ∈ W.fs.namesIn s.dir

theorem still_execution {α : Type} (files : Bytes → Option Bytes) (p : Prog α) : ∀ W, OpenWorld W → ∃ tr out W', Trace p tr out ∧ Balking files W tr W' ∧
    (out = .running → ∃ d, W'.streams d = none ∧ Trace p (tr ++ [.readdir d none]) .running) := by
  induction p with
  | ret a => exact fun W _ => ⟨[], _, W, .ret a, .nil W, nofun⟩
  | exit n => exact fun W _ => ⟨[], _, W, .exit n, .nil W, nofun⟩
  | ub u => exact fun W _ => ⟨[], _, W, .ub u, .nil W, nofun⟩
  | stuck => exact fun W _ => ⟨[], _, W, .stuck, .nil W, nofun⟩
  | lstat p k ih =>
    intro W hW
    obtain ⟨tr, out, W', h1, h2, h3⟩ := ih (W.fs.lstat p) W hW
    refine ⟨_, out, W', .lstat p k _ tr out h1, .cons _ W _ _ _ (.lstat _ _ _ rfl) ⟨nofun, nofun, nofun, nofun⟩ h2, fun ho => ?_⟩
    obtain ⟨d, h4, h5⟩ := h3 ho
    exact ⟨d, h4, .lstat p k _ _ _ h5⟩
  | rename a b k ih =>
    intro W hW
    obtain ⟨tr, out, W', h1, h2, h3⟩ := ih false W hW
    refine ⟨_, out, W', .rename a b k _ tr out h1, .cons _ W _ _ _ (.renameFailed _ _ _) ⟨nofun, nofun, nofun, nofun⟩ h2, fun ho => ?_⟩
    obtain ⟨d, h4, h5⟩ := h3 ho
    exact ⟨d, h4, .rename a b k _ _ _ h5⟩
  | opendir p k ih =>
    intro W hW
    obtain ⟨tr, out, W', h1, h2, h3⟩ := ih .fail { W with refused := (W.fs.follow p).toList.map (fun d => (d, p)) ++ W.refused } ⟨hW.names, hW.owed⟩
    refine ⟨_, out, W', .opendir p k _ tr out h1, .cons _ _ _ _ _ (.refused _ _ _ nofun) ⟨nofun, nofun, fun _ _ h => by cases h; rfl, nofun⟩ h2, fun ho => ?_⟩
    obtain ⟨d, h4, h5⟩ := h3 ho
    exact ⟨d, h4, .opendir p k _ _ _ h5⟩
  | readdir d k ih =>
    intro W hW
    cases hs : W.streams d with
    | none => exact ⟨[], .running, W, .stop _, .nil W, fun _ => ⟨d, hs, .readdir d k none [] .running (.stop _)⟩⟩
    | some s =>
      cases ho : s.owed with
      | nil =>
        obtain ⟨tr, out, W', h1, h2, h3⟩ := ih none W hW
        refine ⟨_, out, W', .readdir d k _ tr out h1, .cons _ W _ _ _ (.finished _ _ _ hs ho) ⟨nofun, nofun, nofun, nofun⟩ h2, fun ho => ?_⟩
        obtain ⟨d', h4, h5⟩ := h3 ho
        exact ⟨d', h4, .readdir d k _ _ _ h5⟩
      | cons n rest =>
        have hn : n ∈ s.owed := by rw [ho]; simp
        obtain ⟨e, he, _, hen⟩ := namesIn_mem (hW.owed d s hs n hn)
        have hW1 : OpenWorld { W with streams := fun k => if k = d then some ⟨s.dir, s.owed.filter (· ≠ n)⟩ else W.streams k } := by
          refine ⟨hW.names, fun k s' hs' m hm => ?_⟩
          dsimp only at hs'
          split at hs'
          · cases hs'; exact hW.owed d s hs m (List.mem_filter.1 hm).1
          · exact hW.owed k s' hs' m hm
        obtain ⟨tr, out, W', h1, h2, h3⟩ := ih (some n) _ hW1
        refine ⟨_, out, W', .readdir d k _ tr out h1, .cons _ _ _ _ _ (.entry _ _ _ _ hs (hen ▸ hW.names e he))
          ⟨nofun, nofun, nofun, fun _ _ h => by cases h; exact ⟨s, hs, hn⟩⟩ h2, fun ho => ?_⟩
        obtain ⟨d', h4, h5⟩ := h3 ho
        exact ⟨d', h4, .readdir d k _ _ _ h5⟩
  | closedir d k ih =>
    intro W hW
    have hW1 : OpenWorld { W with streams := fun k => if k = d then none else W.streams k } := by
      refine ⟨hW.names, fun k s hs => ?_⟩
      dsimp only at hs
      split at hs
      · cases hs
      · exact hW.owed k s hs
    obtain ⟨tr, out, W', h1, h2, h3⟩ := ih _ hW1
    refine ⟨_, out, W', .closedir d k tr out h1, .cons _ _ _ _ _ (.closed _ _) ⟨nofun, nofun, nofun, nofun⟩ h2, fun ho => ?_⟩
    obtain ⟨d', h4, h5⟩ := h3 ho
    exact ⟨d', h4, .closedir d k _ _ h5⟩
  | slurp p k ih =>
    intro W hW
    obtain ⟨r, hr⟩ : ∃ r, Faithful files (.slurp p r) := by
      cases p with
      | none => exact ⟨none, nofun⟩
      | some p => exact ⟨files p, fun _ _ h => by cases h; rfl⟩
    obtain ⟨tr, out, W', h1, h2, h3⟩ := ih r W hW
    refine ⟨_, out, W', .slurp p k _ tr out h1, .cons _ W _ _ _ (.slurp _ _ _) ⟨hr, nofun, nofun, nofun⟩ h2, fun ho => ?_⟩
    obtain ⟨d, h4, h5⟩ := h3 ho
    exact ⟨d, h4, .slurp p k _ _ _ h5⟩
  | out s k ih =>
    intro W hW
    obtain ⟨tr, out, W', h1, h2, h3⟩ := ih W hW
    refine ⟨_, out, W', .out s k tr out h1, .cons _ W _ _ _ (.out _ _) ⟨nofun, nofun, nofun, nofun⟩ h2, fun ho => ?_⟩
    obtain ⟨d, h4, h5⟩ := h3 ho
    exact ⟨d, h4, .out s k _ _ h5⟩
  | err s k ih =>
    intro W hW
    obtain ⟨tr, out, W', h1, h2, h3⟩ := ih W hW
    refine ⟨_, out, W', .err s k tr out h1, .cons _ W _ _ _ (.err _ _) ⟨nofun, nofun, nofun, nofun⟩ h2, fun ho => ?_⟩
    obtain ⟨d, h4, h5⟩ := h3 ho
    exact ⟨d, h4, .err s k _ _ h5⟩

section
variable {files : Bytes → Option Bytes}

theorem Balking.steps {W W' : World} {tr : List Event} (h : Balking files W tr W') : World.Steps W tr W' := by
  induction h with
  | nil W => exact .nil W
  | cons W W1 W2 e tr h1 _ _ ih => exact .cons _ _ _ _ _ h1 ih

theorem Balking.same {W W' : World} {tr : List Event} (h : Balking files W tr W') : W'.fs = W.fs := by
  induction h with
  | nil W => rfl
  | cons W W1 W2 e tr h1 h2 _ ih =>
    rw [ih]
    cases h1 with
    | renamed => exact absurd rfl (h2.rename _ _)
    | lstat | renameFailed | refused | finished | slurp | out | err | opened | entry | closed => rfl

theorem Balking.all {W W' : World} {tr : List Event} (h : Balking files W tr W') : ∀ e ∈ tr, Faithful files e ∧ ∀ p r, e = .opendir p r → r = .fail := by
  induction h with
  | nil W => exact nofun
  | cons W W1 W2 e tr _ h1 _ ih =>
    intro x hx
    rcases List.mem_cons.1 hx with rfl | hx
    · exact ⟨h1.faithful, h1.opendir⟩
    · exact ih x hx

/-- The names given are those that are owed. -/
theorem Balking.given {W W' : World} {tr : List Event} (h : Balking files W tr W') : ∀ {S : Bytes → Prop}, (∀ k s, W.streams k = some s → ∀ n ∈ s.owed, S n) →
    ∀ k n, Event.readdir k (some n) ∈ tr → S n := by
  induction h with
  | nil W => intro S _ k n h; cases h
  | cons W W1 W2 e tr h1 h2 _ ih =>
    intro S hS k n hm
    rcases List.mem_cons.1 hm with rfl | hm
    · obtain ⟨s, h3, h4⟩ := h2.readdir k n rfl
      exact hS k s h3 n h4
    · refine ih ?_ k n hm
      cases h1 with
      | renamed => exact absurd rfl (h2.rename _ _)
      | lstat | renameFailed | refused | finished | slurp | out | err => exact hS
      | opened p h => cases h2.opendir _ _ rfl
      | entry h s m h3 h4 =>
        intro k s' hs n hn
        dsimp only at hs
        split at hs
        · cases hs; exact hS h s h3 n (List.mem_filter.1 hn).1
        · exact hS k s' hs n hn
      | closed h =>
        intro k s hs n hn
        dsimp only at hs
        split at hs
        · cases hs
        · exact hS k s hs n hn

theorem Balking.gives {W W' : World} {tr : List Event} (h : Balking files W tr W') : ∀ (k L : Nat), (∀ s, W.streams k = some s → s.owed.length ≤ L) → ∀ t2 t3,
    tr = t2 ++ t3 → (t2.filter (givesName k)).length ≤ L := by
  induction h with
  | nil W => intro k L _ t2 t3 h; obtain ⟨rfl, _⟩ := List.append_eq_nil_iff.1 h.symm; simp
  | cons W W1 W2 e tr h1 h2 _ ih =>
    intro k L hL t2 t3 heq
    cases t2 with
    | nil => simp
    | cons x t2 =>
      cases heq
      have other : givesName k e = false → (∀ s, W1.streams k = some s → s.owed.length ≤ L) → ((e :: t2).filter (givesName k)).length ≤ L := by
        intro hg hs'
        have := ih k L hs' t2 t3 rfl
        simp only [List.filter_cons, hg, Bool.false_eq_true, if_false]
        exact this
      cases h1 with
      | lstat | renameFailed | refused | finished | slurp | out | err => exact other rfl hL
      | renamed => exact absurd rfl (h2.rename _ _)
      | opened p h => cases h2.opendir _ _ rfl
      | entry h s1 m h3 =>
        by_cases hkh : k = h
        · subst hkh
          obtain ⟨s', h4, h5⟩ := h2.readdir k m rfl
          rw [h3] at h4
          cases h4
          have hlt := filter_ne_length h5
          have := hL s1 h3
          have := ih k (s1.owed.filter (· ≠ m)).length (by intro s hs; simp at hs; rw [← hs]; simp) t2 t3 rfl
          simp only [List.filter_cons, givesName, decide_true, if_true, List.length_cons]
          omega
        · refine other ?_ (by simp only [if_neg hkh]; exact hL)
          simp only [givesName, decide_eq_false_iff_not]
          exact fun h => hkh h.symm
      | closed h =>
        refine other rfl fun s hs => ?_
        dsimp only at hs
        split at hs
        · cases hs
        · exact hL s hs

end

/-! ### What is known when it is cut short -/

theorem steps_owed {W W' : World} {tr : List Event} (h : World.Steps W tr W') : ∀ {L : Nat}, W.fs.entries.length ≤ L →
    (∀ k s, W.streams k = some s → s.owed.length ≤ L ∧ ∀ n ∈ s.owed, n ∈ W.fs.namesIn s.dir) →
    ∀ k s, W'.streams k = some s → s.owed.length ≤ L ∧ ∀ n ∈ s.owed, n ∈ W'.fs.namesIn s.dir := by
  induction h with
  | nil W => exact fun _ h => h
  | cons W W1 W2 e tr h1 _ ih =>
    intro L hL hW
    refine ih (Nat.le_trans (step_length h1) hL) ?_
    cases h1 with
    | lstat | renameFailed | refused | finished | slurp | out | err => exact hW
    | renamed old new fs hren =>
      intro k s hs
      obtain ⟨s0, h0, rfl⟩ := Option.map_eq_some_iff.1 hs
      refine ⟨Nat.le_trans (List.length_filter_le _ _) (hW k s0 h0).1, fun n hn => ?_⟩
      simpa [Stream.after] using (List.mem_filter.1 hn).2
    | opened p h d hf hk hn =>
      intro k s hs
      dsimp only at hs
      split at hs
      · cases hs
        refine ⟨Nat.le_trans ?_ hL, fun n hn => hn⟩
        unfold FS.namesIn
        rw [List.length_map]
        exact List.length_filter_le _ _
      · exact hW k s hs
    | entry h s m h3 h4 =>
      intro k s' hs
      dsimp only at hs
      split at hs
      · cases hs
        obtain ⟨a, b⟩ := hW h s h3
        exact ⟨Nat.le_trans (List.length_filter_le _ _) a, fun n hn => b n (List.mem_filter.1 hn).1⟩
      · exact hW k s' hs
    | closed h =>
      intro k s hs
      dsimp only at hs
      split at hs
      · cases hs
      · exact hW k s hs

/-- All names are good, if there are only good ones to begin with, and good ones are replaced by good ones. -/
theorem steps_goodNames {G : Bytes → Prop} (hplain : ∀ n, G n → n ≠ [] ∧ (0x2F : Byte) ∉ n) {W W' : World} {tr : List Event} (h : World.Steps W tr W') :
    (∀ d a b, W.fs.norm d a = W.fs.norm d b → a = b) → (∀ e ∈ W.fs.entries, G e.name) →
    (∀ old new, Event.rename old new true ∈ tr → ∃ dir name v, SplitsAs old dir name ∧ name ≠ [] ∧ new = dir ++ v ∧ (G name → G v)) →
    ∀ e ∈ W'.fs.entries, G e.name := by
  induction h with
  | nil W => exact fun _ h _ => h
  | cons W W1 W2 e tr h1 _ ih =>
    intro hex hG hr
    have hr' : ∀ old new, Event.rename old new true ∈ tr → ∃ dir name v, SplitsAs old dir name ∧ name ≠ [] ∧ new = dir ++ v ∧ (G name → G v) :=
      fun old new h => hr old new (by simp [h])
    cases h1 with
    | lstat | renameFailed | refused | finished | slurp | out | err | opened | entry | closed => exact ih hex hG hr'
    | renamed old new fs hren =>
      obtain ⟨dir, name, v, ⟨rfl, hsl, hdir⟩, hne, rfl, hGv⟩ := hr old new (by simp)
      obtain ⟨d1, n1, d2, n2, e1, hl1, hl2, hf1, hc⟩ := FS_rename_cases hren
      obtain rfl := fs_locate_last hdir hne hsl hl1
      obtain ⟨he1, hd1, hn1⟩ := FS_find_some hf1
      obtain rfl := hex _ _ _ hn1
      have hv := hGv (hG e1 he1)
      obtain rfl := fs_locate_last hdir (hplain _ hv).1 (hplain _ hv).2 hl2
      have hmove : ∀ x, x ∈ W.fs.entries → G (moveEntry e1 d2 n2 x).name := by
        intro x hx
        unfold moveEntry
        split
        · exact hv
        · exact hG x hx
      have key : (∀ d a b, fs.norm d a = fs.norm d b → a = b) ∧ ∀ e ∈ fs.entries, G e.name := by
        rcases hc with ⟨_, _, rfl⟩ | ⟨e2, _, _, ⟨_, rfl⟩ | ⟨_, _, rfl⟩ | ⟨_, rfl⟩⟩
        · exact ⟨hex, fun e he => by obtain ⟨x, hx, rfl⟩ := List.mem_map.1 he; exact hmove x hx⟩
        · exact ⟨hex, fun e he => by obtain ⟨x, hx, rfl⟩ := List.mem_map.1 he; exact hmove x hx⟩
        · exact ⟨hex, hG⟩
        · exact ⟨hex, fun e he => by obtain ⟨x, hx, rfl⟩ := List.mem_map.1 he; exact hmove x (List.mem_filter.1 hx).1⟩
      exact ih key.1 key.2 hr'

/-- A reading that was cut short and goes on. -/
theorem frugal_extend {files : Bytes → Option Bytes} {W W' : World} {tr ext : List Event} {L : Nat} (hL : ∀ k s, W.streams k = some s → s.owed.length ≤ L)
    (h : Balking files W ext W') : Frugal (tr.length + L + 1) (tr ++ ext) := by
  intro t1 p k t2 n t3 heq _
  have hcount : ∀ t : List Event, (t.filter (givesName k)).length ≤ t.length := fun t => List.length_filter_le _ _
  rcases List.append_eq_append_iff.1 heq with ⟨a, ha, hb⟩ | ⟨c, ha, hb⟩
  · -- the directory is opened later
    exfalso
    have hm : Event.opendir p (.ok k) ∈ ext := by rw [hb]; simp
    cases (h.all _ hm).2 _ _ rfl
  · cases c with
    | nil =>
      exfalso
      have hm : Event.opendir p (.ok k) ∈ ext := by rw [List.nil_append] at hb; rw [← hb]; simp
      cases (h.all _ hm).2 _ _ rfl
    | cons x c =>
      rw [List.cons_append, List.cons_eq_cons] at hb
      obtain ⟨rfl, hb⟩ := hb
      have htl : tr.length = t1.length + (c.length + 1) := by rw [ha]; simp
      rcases List.append_eq_append_iff.1 hb with ⟨a, rfl, hc⟩ | ⟨d, rfl, hc⟩
      · rw [htl, List.length_append] 
        have := hcount t2
        omega
      · have h1 := hcount c
        have h2 := h.gives k L (fun s hs => hL k s hs) d _ hc
        rw [List.filter_append, List.length_append]
        omega

/-! ### Too many open files -/

/-- If there are no more file descriptors, there is a complaint, and nothing else happens. -/
def GivesUp {α : Type} (p : Prog α) : Prop :=
  ∀ t1 q t2 out, Trace p (t1 ++ .opendir q .emfile :: t2) out → (∀ e ∈ t2, ∃ s, e = .err s) ∧ ∀ a, out ≠ .ret a

theorem givesUp_bind {α β : Type} {p : Prog α} {f : α → Prog β} (h : GivesUp p) (hf : ∀ a, GivesUp (f a)) : GivesUp (p.bind f) := by
  intro t1 q t2 out ht
  rcases trace_bind_any ht with ⟨a, x, y, heq, h1, h2⟩ | ⟨o, ho, h1⟩
  · rcases List.append_eq_append_iff.1 heq with ⟨c, rfl, hc⟩ | ⟨c, rfl, hc⟩
    · cases c with
      | nil =>
        rw [List.nil_append] at hc
        subst hc
        exact hf a [] q t2 out h2
      | cons e c =>
        rw [List.cons_append, List.cons_eq_cons] at hc
        obtain ⟨rfl, rfl⟩ := hc
        exact absurd rfl ((h t1 q c _ h1).2 a)
    · rw [hc] at h2
      exact hf a c q t2 out h2
  · obtain ⟨g1, _⟩ := h t1 q t2 o h1
    exact ⟨g1, fun a h => by subst h; cases ho⟩

theorem givesUp_pure {α : Type} {p : Prog α} (h : ∀ tr out, Trace p tr out → ∀ q, Event.opendir q .emfile ∉ tr) : GivesUp p :=
  fun t1 q t2 out ht => absurd (by simp) (h _ _ ht q)

theorem givesUp_ofRes {α : Type} (r : Res α) : GivesUp (Prog.ofRes r) :=
  givesUp_pure fun tr out h q hm => by rw [trace_ofRes h] at hm; cases hm

theorem givesUp_ret {α : Type} (a : α) : GivesUp (Prog.ret a) :=
  givesUp_pure fun tr out h q hm => by cases h <;> cases hm

theorem givesUp_stuck {α : Type} : GivesUp (Prog.stuck : Prog α) :=
  givesUp_pure fun tr out h q hm => by cases h <;> cases hm

theorem givesUp_exit {α : Type} {n : Nat} : GivesUp (Prog.exit n : Prog α) :=
  givesUp_pure fun tr out h q hm => by cases h <;> cases hm

theorem givesUp_lstat {α : Type} {x : Bytes} {k : Option Stat → Prog α} (h : ∀ r, GivesUp (k r)) : GivesUp (.lstat x k) := by
  intro t1 q t2 out ht
  cases t1 with
  | nil => cases ht
  | cons e t1 => cases ht with | lstat _ _ r _ _ h1 => exact h r t1 q t2 out h1

theorem givesUp_rename {α : Type} {x y : Bytes} {k : Bool → Prog α} (h : ∀ r, GivesUp (k r)) : GivesUp (.rename x y k) := by
  intro t1 q t2 out ht
  cases t1 with
  | nil => cases ht
  | cons e t1 => cases ht with | rename _ _ _ r _ _ h1 => exact h r t1 q t2 out h1

theorem givesUp_readdir {α : Type} {x : Nat} {k : Option Bytes → Prog α} (h : ∀ r, GivesUp (k r)) : GivesUp (.readdir x k) := by
  intro t1 q t2 out ht
  cases t1 with
  | nil => cases ht
  | cons e t1 => cases ht with | readdir _ _ r _ _ h1 => exact h r t1 q t2 out h1

theorem givesUp_closedir {α : Type} {x : Nat} {k : Prog α} (h : GivesUp k) : GivesUp (.closedir x k) := by
  intro t1 q t2 out ht
  cases t1 with
  | nil => cases ht
  | cons e t1 => cases ht with | closedir _ _ _ _ h1 => exact h t1 q t2 out h1

theorem givesUp_out {α : Type} {s : Bytes} {k : Prog α} (h : GivesUp k) : GivesUp (.out s k) := by
  intro t1 q t2 out ht
  cases t1 with
  | nil => cases ht
  | cons e t1 => cases ht with | out _ _ _ _ h1 => exact h t1 q t2 out h1

theorem givesUp_err {α : Type} {s : Bytes} {k : Prog α} (h : GivesUp k) : GivesUp (.err s k) := by
  intro t1 q t2 out ht
  cases t1 with
  | nil => cases ht
  | cons e t1 => cases ht with | err _ _ _ _ h1 => exact h t1 q t2 out h1

theorem parseFile_givesUp {P : Platform} {o : Options} (f : Bytes) : GivesUp (parseFile P o f) := by
  unfold parseFile
  refine givesUp_bind (givesUp_ofRes _) fun hold => ?_
  split
  · exact givesUp_ret _
  · split
    · exact givesUp_ret _
    · unfold checkAndRename
      refine givesUp_lstat fun r => ?_
      split
      · exact givesUp_ret _
      · refine givesUp_lstat fun rn => ?_
        split
        · exact givesUp_err (givesUp_ret _)
        · unfold announceAndRename
          have next : ∀ a b, GivesUp (if o.dryRun then Prog.ret a else doRename a b) := by
            intro a b
            split
            · exact givesUp_ret _
            · unfold doRename
              refine givesUp_rename fun ok => ?_
              split
              · exact givesUp_ret _
              · exact givesUp_err (givesUp_ret _)
          dsimp only
          split
          · exact givesUp_out (next _ _)
          · exact next _ _

theorem dirLoop_givesUp {P : Platform} {o : Options} {r : Option Filelist → Bytes → Prog (Option Filelist)} (hr : ∀ i p, GivesUp (r i p)) (h : Nat) (p : Bytes) :
    ∀ (n : Nat) st ign, GivesUp (dirLoop P o r h p n st ign)
  | 0, _, _ => givesUp_stuck
  | n + 1, st, ign => by
    have ih := dirLoop_givesUp (P := P) (o := o) hr h p n
    have hfile : ∀ f, GivesUp (parseFile P o f) := fun f => parseFile_givesUp f
    unfold dirLoop
    refine givesUp_readdir fun e => ?_
    cases e with
    | none => exact givesUp_closedir (givesUp_ret _)
    | some name =>
      refine givesUp_bind (givesUp_ofRes _) fun x => ?_
      dsimp only
      split
      · exact ih _ _
      · refine givesUp_lstat fun q => ?_
        split
        · refine givesUp_bind (hfile _) fun work => ?_
          split
          · exact givesUp_bind (hr _ _) fun _ => ih _ _
          · exact ih _ _
        · split
          · exact givesUp_bind (hfile _) fun _ => ih _ _
          · exact ih _ _

theorem parseDir_givesUp {P : Platform} {o : Options} : ∀ (n : Nat) ign p, GivesUp (parseDir P o n ign p)
  | 0, _, _ => givesUp_stuck
  | n + 1, ign, p => by
    unfold parseDir
    refine givesUp_lstat fun r => ?_
    split
    · exact givesUp_ret _
    · split
      · exact givesUp_ret _
      · intro t1 q t2 out ht
        cases t1 with
        | nil =>
          cases ht with
          | opendir _ _ _ _ _ h1 =>
            cases h1 with
            | stop => exact ⟨nofun, nofun⟩
            | err _ _ _ _ h2 => cases h2 <;> exact ⟨by simp, nofun⟩
        | cons e t1 =>
          cases ht with
          | opendir _ _ r _ _ h1 =>
            cases r with
            | ok h => exact dirLoop_givesUp (parseDir_givesUp n) h p n _ ign t1 q t2 out h1
            | fail => exact givesUp_err (givesUp_ret _) t1 q t2 out h1
            | emfile => exact givesUp_err givesUp_exit t1 q t2 out h1

theorem processArg_givesUp {P : Platform} {o : Options} (n : Nat) (ign : Option Filelist) (f : Bytes) : GivesUp (processArg P o n ign f) := by
  unfold processArg
  dsimp only
  split
  · refine givesUp_out (givesUp_lstat fun r => ?_)
    split
    · exact givesUp_err (givesUp_ret _)
    · split
      · exact givesUp_bind (parseFile_givesUp f) fun work => parseDir_givesUp n ign work
      · split
        · exact givesUp_bind (parseFile_givesUp f) fun _ => givesUp_ret _
        · split
          · exact givesUp_bind (parseFile_givesUp f) fun _ => givesUp_ret _
          · exact givesUp_ret _
  · refine givesUp_lstat fun r => ?_
    split
    · exact givesUp_err (givesUp_ret _)
    · split
      · exact givesUp_bind (parseFile_givesUp f) fun work => parseDir_givesUp n ign work
      · split
        · exact givesUp_bind (parseFile_givesUp f) fun _ => givesUp_ret _
        · split
          · exact givesUp_bind (parseFile_givesUp f) fun _ => givesUp_ret _
          · exact givesUp_ret _

theorem fileLoop_givesUp {P : Platform} {o : Options} (n : Nat) : ∀ (k : Nat) (l : Filelist) (ign : Option Filelist), GivesUp (fileLoop P o n k l ign)
  | 0, _, _ => givesUp_stuck
  | k + 1, l, ign => by
    unfold fileLoop
    refine givesUp_bind (givesUp_ofRes _) fun x => ?_
    split
    · exact givesUp_ret _
    · exact givesUp_bind (processArg_givesUp n _ _) fun _ => fileLoop_givesUp n k _ _

end Detox
