import Verif.Props.TogetherAny
import Verif.Lemmas.Places

/-!
# C123: several processes have been stopped; one run finishes the work of all
-/

set_option autoImplicit false

namespace Detox
open Spec

/-- detox, as far as it has come, doing a part of the work that `detox` with the settings `ss` and the arguments `args` does when names become what `R` says: its
arguments are among them, it works recursively or on special files only if those settings say so, and its configuration gives the same names. -/
structure Process.Helps (p : Process) (R : Bytes → Bytes → Prop) (ss : List Setting) (args : List Bytes) : Prop where
  benign : p.P.Benign
  anyName : p.plain = false
  asked : Renames p.I p.settings p.args
  wet : Setting.dryRun ∉ p.settings
  written : Written p.I p.settings p.files p.plain p.sequence
  ignored : ∃ ig, IgnoredAre p.I.config (lastConfig p.settings) p.files ig
  names : ∀ m v, NulFree m → (FiltersSay p.P p.I.ctype p.I.datadir p.files p.sequence.filters m v ↔ R m v)
  part : ∀ f ∈ p.args, f ∈ args
  recurse : Setting.recurse ∈ p.settings → Setting.recurse ∈ ss
  special : Setting.special ∈ p.settings → Setting.special ∈ ss
  execution : ∃ out, Trace (detoxMain p.P p.I p.fuel) p.calls out
  faithful : ∀ e ∈ p.calls, Faithful p.files e
  given : ∀ d n, Event.readdir d (some n) ∈ p.calls → NulFree n

/-- One round after the other; in each of them several processes are at work at the same time, each over its own trees, and come to their ends or do not. -/
inductive Rounds (R : Bytes → Bytes → Prop) (ss : List Setting) (args : List Bytes) : FS → FS → Prop
  | none (fs : FS) : Rounds R ss args fs fs
  | more (fs : FS) (ps : List Process) (ws : List World) (w : World) (fs' : FS) :
      (∀ p ∈ ps, p.Helps R ss args) → ps.Pairwise (fun a b => TreesApart fs a.renamer b.renamer) →
      Together (ps.map fun p => (World.start fs, p.calls)) ws → w ∈ ws → Rounds R ss args w.fs fs' → Rounds R ss args fs fs'

section
variable {P : Platform} {I : Invocation} {ss : List Setting} {args : List Bytes} {files : Bytes → Option Bytes} {plain : Bool} {q : Sequence}
variable {ig : List Bytes} {fs fs1 : FS} {depth : Ino → Nat} {slack level : Nat}

/-- Who does a part of the work is in the same case. -/
theorem Process.Helps.under {p : Process} (h : p.Helps (FiltersSay P I.ctype I.datadir files q.filters) ss args)
    (hu : ConfiguredCase P I ss args files plain q ig fs depth slack level) : ∃ i out, p.Under i fs depth slack level out := by
  obtain ⟨i, hi⟩ := h.ignored
  obtain ⟨out, ho⟩ := h.execution
  have fit : ∀ v, NulFree v → NameFits p.plain v := fun v hv => ⟨hv, fun hp => absurd (h.anyName.symm.trans hp) nofun⟩
  refine ⟨i, out, h.benign, h.anyName, ⟨h.asked, h.wet, h.written, hi, ⟨?_, ?_⟩, ?_, hu.tree, fun f hf => hu.steady f (h.part f hf), hu.allowed, hu.exact,
    fun f hf => hu.here f (h.part f hf), fun f hf => fit f (hu.args f (h.part f hf)).1, ?_⟩, ho, h.faithful, fun d n hm => fit n (h.given d n hm)⟩
  · intro m v hm hv
    have hv := (h.names m v hm).1 hv
    exact (h.names v v (hu.fits m v hm hv).1).2 (hu.settles.again m v hm hv)
  · exact fun m v hm hs hv => hu.settles.slash m v hm hs ((h.names m v hm).1 hv)
  · exact fun m v hm hv => fit v (hu.fits m v hm ((h.names m v hm).1 hv)).1
  · intro e he v hv
    have hn : NulFree e.name := (hu.names e he _ (.inl rfl)).1.nul
    have := (hu.names e he v (hv.imp id (h.names e.name v hn).1)).1
    exact ⟨this, fit v this.nul⟩

/-- What several processes did to the tree, complete or not, is a part of the work. -/
theorem helpers_midway (hu : ConfiguredCase P I ss args files plain q ig fs depth slack level) (o : Options)
    (hrec : o.recurse = true ↔ Setting.recurse ∈ ss) (hsp : o.special = true ↔ Setting.special ∈ ss) {ps : List Process}
    (hp : ∀ p ∈ ps, p.Helps (FiltersSay P I.ctype I.datadir files q.filters) ss args) (hap : ps.Pairwise fun a b => TreesApart fs a.renamer b.renamer)
    {ws : List World} (hw : Together (ps.map fun p => (World.start fs, p.calls)) ws) {w : World} (hmem : w ∈ ws) :
    ∃ g, Midway (FiltersSay P I.ctype I.datadir files q.filters) o args fs depth slack level g w.fs := by
  have hun : ∃ (i : Process → List Bytes) (out : Process → Outcome Unit), ∀ p ∈ ps, p.Under (i p) fs depth slack level (out p) := by
    classical
    refine ⟨fun p => if h : p ∈ ps then Classical.choose ((hp p h).under hu) else [],
      fun p => if h : p ∈ ps then Classical.choose (Classical.choose_spec ((hp p h).under hu)) else .running, fun p h => ?_⟩
    simp only [dif_pos h]
    exact Classical.choose_spec (Classical.choose_spec ((hp p h).under hu))
  obtain ⟨i, out, hun⟩ := hun
  have hst := several_under hu.tree hun hap
  let op : Process → Options := fun p => { recurse := decide (Setting.recurse ∈ p.settings), special := decide (Setting.special ∈ p.settings) }
  obtain ⟨g0, k1, k2, k3⟩ := C121_at_any_moment hu.tree hun hap hw op (fun _ _ => decide_eq_true_iff) (fun _ _ => decide_eq_true_iff)
  obtain ⟨g, h1, _, h3⟩ := hst.tenants.together hw
  have hg : g0 = g := (k1 w hmem).symm.trans (h1 w hmem)
  subst hg
  obtain ⟨new, n1, n2⟩ := entries_of_places (unique_entries_nodup hu.tree.unique) k2 k3
  have hne : ∃ p, p ∈ ps := by
    cases ps with
    | nil =>
      exfalso
      rw [List.map_nil] at hw
      generalize hx : ([] : List (World × List Event)) = c at hw
      cases hw with
      | done _ _ => subst hx; cases hmem
      | next l r _ _ _ _ _ h _ => exact absurd hx.symm (List.append_ne_nil_of_right_ne_nil _ (List.cons_ne_nil _ _))
    | cons p ps => exact ⟨p, List.mem_cons_self⟩
  obtain ⟨p, hpp⟩ := hne
  obtain ⟨V, hV, hag⟩ := h3 p hpp
  obtain ⟨gV, hmV⟩ := configured_midway (hun p hpp).benign (hun p hpp).case (op p) decide_eq_true_iff decide_eq_true_iff ((hun p hpp).attempt hV)
  rw [h1 w hmem]
  refine ⟨fun e => { e with name := new e }, ⟨?_, fun e he => ?_⟩, hag.tree, fun x hx n => (hag.low x hx n).trans (hmV.finds x hx n)⟩
  · obtain ⟨es, hes⟩ := hag.same
    obtain ⟨es', hes'⟩ := hmV.now.sameBut
    rw [← n1]
    rw [hes'] at hes
    rw [hes]
  · rcases n2 e he with h | ⟨p', hp', h4, h5⟩
    · refine .inl ?_
      rw [h]
    · have hn : NulFree e.name := (hu.names e he _ (.inl rfl)).1.nul
      exact .inr ⟨rfl, rfl, hn, ((hp p' hp').names e.name _ hn).1 h5,
        treats_congr (fun h => hrec.2 ((hp p' hp').recurse (decide_eq_true_iff.1 h))) (fun h => hsp.2 ((hp p' hp').special (decide_eq_true_iff.1 h)))
          (hp p' hp').part (fun _ _ h => h) he h4⟩

theorem rounds_midway (o : Options) (hrec : o.recurse = true ↔ Setting.recurse ∈ ss) (hsp : o.special = true ↔ Setting.special ∈ ss)
    {R : Bytes → Bytes → Prop} (hR : R = FiltersSay P I.ctype I.datadir files q.filters) (h : Rounds R ss args fs fs1) :
    ConfiguredCase P I ss args files plain q ig fs depth slack level → fs.ArgsClean R args → ∃ g, Midway R o args fs depth slack level g fs1 := by
  subst hR
  induction h with
  | none fs => exact fun hu hc => ⟨_, .refl (hu.resumable hc)⟩
  | more fs ps ws w fs' h1 h2 h3 h4 _ ih =>
    intro hu hc
    obtain ⟨g, hg⟩ := helpers_midway hu o hrec hsp h1 h2 h3 h4
    obtain ⟨hu1, hc1⟩ := hu.after hc hg
    obtain ⟨g1, hg1⟩ := ih hu1 hc1
    exact ⟨_, hg.trans (hu.resumable hc) hg1⟩

/-- **C123.** Any number of rounds, in each of them any number of processes that do parts of the work at the same time and are stopped anywhere: at any moment each
entry has the name it had or the name it should have, and only entries that are to be treated have other names. -/
theorem C123_at_any_moment (hu : ConfiguredCase P I ss args files plain q ig fs depth slack level)
    (hc : fs.ArgsClean (FiltersSay P I.ctype I.datadir files q.filters) args) (o : Options) (hrec : o.recurse = true ↔ Setting.recurse ∈ ss)
    (hsp : o.special = true ↔ Setting.special ∈ ss) (h : Rounds (FiltersSay P I.ctype I.datadir files q.filters) ss args fs fs1) :
    fs.PartlyCleaned (FiltersSay P I.ctype I.datadir files q.filters) o args fs1 := by
  obtain ⟨g, hg⟩ := rounds_midway o hrec hsp rfl h hu hc
  exact hg.partly

/-- **C123.** After that one run over everything, if it comes to its end without complaints, leaves the tree as if there had been no other. -/
theorem C123_one_run_finishes (hP : P.Benign) (hu : ConfiguredCase P I ss args files plain q ig fs depth slack level)
    (hc : fs.ArgsClean (FiltersSay P I.ctype I.datadir files q.filters) args)
    (hv : fs.StaysInView (FiltersSay P I.ctype I.datadir files q.filters) fun n => Hidden n ∨ n ∈ ig) (o : Options)
    (hrec : o.recurse = true ↔ Setting.recurse ∈ ss) (hsp : o.special = true ↔ Setting.special ∈ ss)
    (h : Rounds (FiltersSay P I.ctype I.datadir files q.filters) ss args fs fs1) {tr : List Event} {w : World}
    (hlast : ConfiguredAttempt P I files plain fs1 tr (.ret ()) w) (hs : Silent tr) :
    fs.Cleaned (FiltersSay P I.ctype I.datadir files q.filters) o args ig w.fs := by
  obtain ⟨g, hm⟩ := rounds_midway o hrec hsp rfl h hu hc
  obtain ⟨hu1, _⟩ := hu.after hc hm
  obtain ⟨fuel, hrun⟩ := hu1.run hlast
  have hlit := literal_exact (fs := fs1) hu1.exact (FiltersSay P I.ctype I.datadir files q.filters)
  exact hm.cleaned (hu.resumable hc) hv (hrun.cleaned hP hs ⟨fun _ _ _ _ _ => hlit _, fun _ _ _ => hlit _⟩ o hrec hsp)

/-- **C123.** If there was room for the new names at first, that run has no complaints if the system does what it can, and there is such a run. -/
theorem C123_work_can_be_finished (hP : P.Benign) (hu : ConfiguredCase P I ss args files plain q ig fs depth slack level)
    (hc : fs.ArgsClean (FiltersSay P I.ctype I.datadir files q.filters) args)
    (o : Options) (hrec : o.recurse = true ↔ Setting.recurse ∈ ss) (hsp : o.special = true ↔ Setting.special ∈ ss)
    (hroom : fs.Room (FiltersSay P I.ctype I.datadir files q.filters) o args)
    (h : Rounds (FiltersSay P I.ctype I.datadir files q.filters) ss args fs fs1) :
    (∀ tr w, ConfiguredAttempt P I files plain fs1 tr (.ret ()) w → (World.start fs1).ObligesIn tr → Silent tr) ∧
      ∃ tr w, ConfiguredAttempt P I files plain fs1 tr (.ret ()) w ∧ (World.start fs1).ObligesIn tr := by
  obtain ⟨g, hm⟩ := rounds_midway o hrec hsp rfl h hu hc
  obtain ⟨hu1, hc1⟩ := hu.after hc hm
  exact C120_work_can_be_finished hP hu1 hc1 o hrec hsp (hm.room (hu.resumable hc) hroom) (.none _)

/-- **C123.** If no name is one to be ignored, too: that run ends in the state in which one run alone would have ended. -/
theorem C123_as_if_alone (hP : P.Benign) (hu : ConfiguredCase P I ss args files plain q ig fs depth slack level)
    (hc : fs.ArgsClean (FiltersSay P I.ctype I.datadir files q.filters) args)
    (hv : fs.StaysInView (FiltersSay P I.ctype I.datadir files q.filters) fun n => Hidden n ∨ n ∈ ig) (hno : ∀ e ∈ fs.entries, e.name ∉ ig)
    (h : Rounds (FiltersSay P I.ctype I.datadir files q.filters) ss args fs fs1) {tr tr' : List Event} {w w' : World}
    (hlast : ConfiguredAttempt P I files plain fs1 tr (.ret ()) w) (hs : Silent tr) (hone : ConfiguredAttempt P I files plain fs tr' (.ret ()) w') (hs' : Silent tr') :
    w.fs = w'.fs := by
  let o : Options := { recurse := decide (Setting.recurse ∈ ss), special := decide (Setting.special ∈ ss) }
  have hrec : o.recurse = true ↔ Setting.recurse ∈ ss := decide_eq_true_iff
  have hsp : o.special = true ↔ Setting.special ∈ ss := decide_eq_true_iff
  exact C98_only_one_result hu.onePass.one hno (C123_one_run_finishes hP hu hc hv o hrec hsp h hlast hs)
    (C120_run_again hP hu hc hv o hrec hsp (.none fs) hone hs')

end

/-! ### A concrete case: `detox -r d` and `detox -r f` at the same time, both killed; then `detox -r d f` -/

def depotFS : FS := { groveFS with
  entries := [⟨⟨1, 1⟩, lit "d", ⟨1, 2⟩⟩, ⟨⟨1, 1⟩, lit "f", ⟨1, 3⟩⟩, ⟨⟨1, 2⟩, lit "a $", ⟨1, 4⟩⟩, ⟨⟨1, 3⟩, lit "b $", ⟨1, 5⟩⟩, ⟨⟨1, 1⟩, lit "i j", ⟨1, 6⟩⟩] }

def depotNames : List (Bytes × Bytes) :=
  [(lit "d", lit "d"), (lit "f", lit "f"), (lit "a $", lit "a_money_"), (lit "b $", lit "b_money_"), (lit "i j", lit "i_j")]

def depotCall : Invocation := manualCall (lit "en_US.UTF-8") [lit "-r", lit "d", lit "f"]

/-- All calls of `detox -r` over a directory with a clean name and one file. -/
def depotCalls (top file file' : Bytes) (d i : Nat) : List Event :=
  manualTrace.take 6 ++ [
  .lstat top (some ⟨1, d, 2, .dir⟩), .lstat top (some ⟨1, d, 2, .dir⟩), .opendir top (.ok 0), .readdir 0 (some file),
  .lstat (top ++ [0x2F] ++ file) (some ⟨1, i, 1, .reg⟩), .lstat (top ++ [0x2F] ++ file) (some ⟨1, i, 1, .reg⟩), .lstat (top ++ [0x2F] ++ file') none,
  .rename (top ++ [0x2F] ++ file) (top ++ [0x2F] ++ file') true, .readdir 0 none, .closedir 0]

/-- The first `n` of them. -/
def depotProcess (n : Nat) (top file file' : Bytes) (d i : Nat) : Process where
  P := .linux
  I := manualCall (lit "en_US.UTF-8") [lit "-r", top]
  fuel := 10
  settings := [.recurse]
  args := [top]
  files := manualFiles
  plain := false
  sequence := manualSequence
  calls := (depotCalls top file file' d i).take n

/-- Killed after the rename of its file. -/
def depotFirst : Process := depotProcess 14 (lit "d") (lit "a $") (lit "a_money_") 2 4
/-- Killed before. -/
def depotSecond : Process := depotProcess 10 (lit "f") (lit "b $") (lit "b_money_") 3 5

theorem depotFirst_run : Trace (detoxMain .linux depotFirst.I 10) (depotCalls (lit "d") (lit "a $") (lit "a_money_") 2 4) (.ret ()) :=
  Prog.result_sound _ _ _ (by decide +kernel)
theorem depotSecond_run : Trace (detoxMain .linux depotSecond.I 10) (depotCalls (lit "f") (lit "b $") (lit "b_money_") 3 5) (.ret ()) :=
  Prog.result_sound _ _ _ (by decide +kernel)

theorem depot_says : ∀ x ∈ depotNames, ∀ v, MoneySays x.1 v ↔ v = x.2 := by
  have h : ∀ x ∈ depotNames, cleanWipeup false (x.1.flatMap (manualSays (lit "en_US.UTF-8"))) = .ok x.2 ∧ NulFree (x.1.flatMap (manualSays (lit "en_US.UTF-8"))) := by
    unfold NulFree; decide +kernel
  intro x hx v
  obtain ⟨h1, h2⟩ := h x hx
  exact manual_says_iff _ rfl h1 h2 v

theorem depotFS_new : ∀ e ∈ depotFS.entries, ∀ v, MoneySays e.name v → (e.name, v) ∈ depotNames := by
  have h : ∀ e ∈ depotFS.entries, ∃ x ∈ depotNames, x.1 = e.name := by decide +kernel
  intro e he v hv
  obtain ⟨x, hx, h1⟩ := h e he
  rw [← h1] at hv
  rw [← h1, (depot_says x hx v).1 hv]
  exact hx

theorem depotFS_case : ConfiguredCase .linux depotCall [.recurse] [lit "d", lit "f"] manualFiles false manualSequence [] depotFS groveDepth 1 0 where
  asked := manual_renames _ _ (.cluster [0x72] [.recurse] _ _ [] (by simp) (.cons _ _ _ _ .recurse .nil)
      (.operand _ _ _ _ rfl (.inl (by decide +kernel)) (.operand _ _ _ _ rfl (.inl (by decide +kernel)) .none)))
    (by intro s hs; rw [List.mem_singleton.1 hs]; simp [Setting.Leaves]) (by simp) (by simp) (by simp)
  wet := by simp
  written := manual_written _ _ rfl rfl
  ignored := manual_ignored _ _ rfl
  settles := (manual_settles _ _).1
  fits := fun m v hm hv => ⟨(manual_settles _ _).2 m v hm hv, nofun⟩
  tree := ⟨by unfold FS.Unique; decide +kernel, by decide +kernel, by decide +kernel, groveFS_tree.bound⟩
  steady := by
    intro f hf
    have hf : f = lit "d" ∨ f = lit "f" := by simpa using hf
    rcases hf with rfl | rfl <;>
    exact .name [] _ ⟨1, 1⟩ rfl (.inl rfl) (by decide +kernel) (by decide +kernel) (by decide +kernel) (by decide +kernel)
      ⟨by decide +kernel, by decide +kernel, by decide +kernel, Nat.zero_le _⟩
  allowed := fun _ => rfl
  exact := fun _ _ _ h => h
  here := by decide +kernel
  args := fun f hf => ⟨(by unfold NulFree; decide +kernel : ∀ f ∈ [lit "d", lit "f"], NulFree f) f hf, nofun⟩
  names := by
    have h0 : ∀ e ∈ depotFS.entries, EntryName e.name := by decide +kernel
    have h1 : ∀ x ∈ depotNames, EntryName x.2 := by decide +kernel
    rintro e he v (rfl | hv)
    · exact ⟨h0 e he, (h0 e he).nul, nofun⟩
    · have := h1 _ (depotFS_new e he v hv)
      exact ⟨this, this.nul, nofun⟩

theorem depotFS_clean : depotFS.ArgsClean MoneySays [lit "d", lit "f"] := by
  have hat : ∀ f x, f = lit "d" ∧ x = ⟨⟨1, 1⟩, lit "d", ⟨1, 2⟩⟩ ∨ f = lit "f" ∧ x = ⟨⟨1, 1⟩, lit "f", ⟨1, 3⟩⟩ →
      depotFS.locate f = some (x.dir, x.name) ∧ depotFS.find x.dir x.name = some x ∧ (x.name, x.name) ∈ depotNames := by
    rintro f x (⟨rfl, rfl⟩ | ⟨rfl, rfl⟩) <;> decide +kernel
  rintro f hf e ⟨dir, name, _, _, hloc, hfi⟩
  have hf : f = lit "d" ∨ f = lit "f" := by simpa using hf
  have one : ∀ x, depotFS.locate f = some (x.dir, x.name) ∧ depotFS.find x.dir x.name = some x ∧ (x.name, x.name) ∈ depotNames → MoneySays e.name e.name := by
    rintro x ⟨h1, h2, h3⟩
    obtain ⟨h4, h5⟩ := Prod.mk.inj (Option.some.inj (hloc.symm.trans h1))
    rw [h4, h5] at hfi
    have he : e = x := Option.some.inj (hfi.symm.trans h2)
    rw [he]
    exact (depot_says _ h3 _).2 rfl
  rcases hf with hf | hf
  · exact one _ (hat f _ (.inl ⟨hf, rfl⟩))
  · exact one _ (hat f _ (.inr ⟨hf, rfl⟩))

theorem depotFS_room : depotFS.Room MoneySays { recurse := true } [lit "d", lit "f"] := by
  have h0 : ∀ e ∈ depotFS.entries, EntryName e.name := by decide +kernel
  have h1 : ∀ x ∈ depotNames, EntryName x.2 ∧ x.2 ≠ [0x2E] ∧ x.2 ≠ [0x2E, 0x2E] := by decide +kernel
  have h2 : ∀ e ∈ depotFS.entries, ∀ x ∈ depotNames, x.1 = e.name → x.2 ≠ e.name → ∀ e' ∈ depotFS.entries, x.2 ≠ e'.name := by decide +kernel
  have h3 : ∀ e ∈ depotFS.entries, ∀ e' ∈ depotFS.entries, ∀ x ∈ depotNames, ∀ x' ∈ depotNames, x.1 = e.name → x'.1 = e'.name → x.2 = x'.2 → e' = e := by
    decide +kernel
  exact ⟨h0, fun e he _ v hv => h1 _ (depotFS_new e he v hv),
    fun e he _ v hv hne e' he' _ hn => absurd hn (h2 e he _ (depotFS_new e he v hv) rfl hne e' he'),
    fun e he _ e' he' _ _ v v' hv hv' hn => h3 e he e' he' _ (depotFS_new e he v hv) _ (depotFS_new e' he' v' hv') rfl rfl hn⟩

theorem depotFS_view : depotFS.StaysInView MoneySays fun n => Hidden n ∨ n ∈ ([] : List Bytes) := by
  have h : ∀ x ∈ depotNames, ¬ Hidden x.2 := by decide +kernel
  rintro e he _ v hv (hs | hs)
  · exact absurd hs (h _ (depotFS_new e he v hv))
  · cases hs

theorem depotProcess_helps {n : Nat} {top file file' : Bytes} {d i : Nat} (ht : top = lit "d" ∨ top = lit "f") (hf : NulFree file)
    (h : Trace (detoxMain .linux (manualCall (lit "en_US.UTF-8") [lit "-r", top]) 10) (depotCalls top file file' d i) (.ret ())) :
    (depotProcess n top file file' d i).Helps MoneySays [.recurse] [lit "d", lit "f"] where
  benign := (by decide : Platform.linux.Benign)
  anyName := rfl
  asked := manual_renames _ _ (recurse_line _ (.inl (by rcases ht with rfl | rfl <;> decide +kernel)))
    (by intro s hs; rw [List.mem_singleton.1 hs]; simp [Setting.Leaves]) (by simp [depotProcess]) (by simp [depotProcess]) (by simp [depotProcess])
  wet := by simp [depotProcess]
  written := manual_written _ _ rfl rfl
  ignored := ⟨_, manual_ignored _ _ rfl⟩
  names := fun _ _ _ => Iff.rfl
  part := fun f hf => by
    rw [List.mem_singleton.1 hf]
    rcases ht with rfl | rfl <;> simp
  recurse := fun h => h
  special := fun h => h
  execution := by
    have h' := h
    rw [← List.take_append_drop n (depotCalls top file file' d i)] at h'
    exact ⟨_, trace_cut h'⟩
  faithful := fun e he => manual_faithful (by intro p r hm; simp at hm) e (List.mem_of_mem_take he)
  given := by
    intro k m hm
    have hm := List.mem_of_mem_take hm
    have : m = file := by
      have hm : k = 0 ∧ m = file := by simpa [depotCalls, manualTrace] using hm
      exact hm.2
    rw [this]
    exact hf

theorem depot_inside {top : Bytes} {x : Nat} (hl : depotFS.lookup top = some ⟨1, x⟩) (hx : x ≠ 1) : ∀ d, depotFS.Inside [top] d → d = ⟨1, x⟩ := by
  intro d h
  induction h with
  | arg f d hf hl' _ =>
    rw [List.mem_singleton.1 hf, hl] at hl'
    exact (Option.some.inj hl').symm
  | sub e he _ hk ih =>
    exfalso
    have h1 : e.dir ≠ ⟨1, 1⟩ := by rw [ih]; intro h; exact hx (by injection h)
    exact h1 ((by decide +kernel : ∀ e ∈ depotFS.entries, depotFS.kind e.ino = .dir → e.dir = ⟨1, 1⟩) e he hk)

theorem depot_apart : TreesApart depotFS depotFirst.renamer depotSecond.renamer := by
  have in1 := depot_inside (top := lit "d") (x := 2) (by decide +kernel) (by decide)
  have in2 := depot_inside (top := lit "f") (x := 3) (by decide +kernel) (by decide)
  have c1 : ∀ f ∈ [lit "d"], ∀ p, Concerns depotFirst.renamer.R f p → p = lit "d" := by
    intro f hf p h
    rw [List.mem_singleton.1 hf] at h
    exact or_self_iff.1 (concerns_name (by decide +kernel) (fun v hv => (depot_says (lit "d", lit "d") (by decide +kernel) v).1 hv) h)
  have c2 : ∀ f ∈ [lit "f"], ∀ p, Concerns depotSecond.renamer.R f p → p = lit "f" := by
    intro f hf p h
    rw [List.mem_singleton.1 hf] at h
    exact or_self_iff.1 (concerns_name (by decide +kernel) (fun v hv => (depot_says (lit "f", lit "f") (by decide +kernel) v).1 hv) h)
  refine ⟨?_, ?_, ?_, ?_⟩
  · intro f hf g hg p q x hp hq hx hy
    rw [c1 f hf p hp] at hx
    rw [c2 g hg q hq, ← hx] at hy
    revert hy
    decide +kernel
  · intro d h1 h2
    have := (in1 d h1).symm.trans (in2 d h2)
    revert this
    decide
  · intro f hf p x hp hx hi
    have := in2 _ hi
    have h1 : x.1 = ⟨1, 1⟩ := by
      rw [c1 f hf p hp] at hx
      cases hx
      decide +kernel
    rw [h1] at this
    revert this
    decide
  · intro f hf p x hp hx hi
    have := in1 _ hi
    have h1 : x.1 = ⟨1, 1⟩ := by
      rw [c2 f hf p hp] at hx
      cases hx
      decide +kernel
    rw [h1] at this
    revert this
    decide

/-- The second begins; the first has more to do. -/
def depotTurns : List Bool := (List.replicate 10 [false, true]).flatten ++ List.replicate 4 true

/- When both are killed the file of the first has its new name, that of the second has not. Then one run over both directories. -/
example : ∃ fs1 tr w, Rounds MoneySays [.recurse] [lit "d", lit "f"] depotFS fs1 ∧
    fs1.entries.map Entry.name = [lit "d", lit "f", lit "a_money_", lit "b $", lit "i j"] ∧
    ConfiguredAttempt .linux depotCall manualFiles false fs1 tr (.ret ()) w ∧ Silent tr ∧
    depotFS.Cleaned MoneySays { recurse := true } [lit "d", lit "f"] [] w.fs := by
  have h : (turns depotTurns (World.start depotFS) depotFirst.calls (World.start depotFS) depotSecond.calls).map
      (fun r => r.1.fs.entries.map Entry.name) = some [lit "d", lit "f", lit "a_money_", lit "b $", lit "i j"] := by decide +kernel
  cases hx : turns depotTurns (World.start depotFS) depotFirst.calls (World.start depotFS) depotSecond.calls with
  | none => rw [hx] at h; cases h
  | some r =>
    rw [hx] at h
    have hall : Rounds MoneySays [.recurse] [lit "d", lit "f"] depotFS r.1.fs := by
      refine .more _ [depotFirst, depotSecond] _ r.1 _ ?_ (List.pairwise_pair.2 depot_apart) (turns_together _ _ _ _ _ _ hx) (by simp) (.none _)
      intro p hp
      rcases List.mem_cons.1 hp with rfl | hp
      · exact depotProcess_helps (.inl rfl) (by decide +kernel) depotFirst_run
      · rw [List.mem_singleton.1 hp]
        exact depotProcess_helps (.inr rfl) (by decide +kernel) depotSecond_run
    obtain ⟨k1, tr, w, k2, k3⟩ := C123_work_can_be_finished (by decide) depotFS_case depotFS_clean { recurse := true } (by simp) (by simp) depotFS_room hall
    have hs := k1 tr w k2 k3
    exact ⟨_, tr, w, hall, Option.some.inj h, k2, hs,
      C123_one_run_finishes (by decide) depotFS_case depotFS_clean depotFS_view { recurse := true } (by simp) (by simp) hall k2 hs⟩

end Detox
