import Verif.Lemmas.ConcurrentFiles

/-!
# C106: several detox processes at the same time
-/

set_option autoImplicit false

namespace Detox
open Spec

/-- A call of detox, what is installed, and the calls it makes. -/
structure Process where
  P : Platform
  I : Invocation
  fuel : Nat
  settings : List Setting
  args : List Bytes
  files : Bytes → Option Bytes
  plain : Bool
  sequence : Sequence
  calls : List Event

/-- detox is asked to rename files, config files and tables are fit for it, and the calls are those of the whole of an execution. -/
structure Process.Complete (p : Process) : Prop where
  benign : p.P.Benign
  asked : Renames p.I p.settings p.args
  written : Written p.I p.settings p.files p.plain p.sequence
  names : ∀ f ∈ p.args, NameFits p.plain f
  execution : Trace (detoxMain p.P p.I p.fuel) p.calls (.ret ())
  faithful : ∀ e ∈ p.calls, Faithful p.files e

/-- The files, and the names they should have according to the filters of the sequence. -/
def Process.renamer (p : Process) : Renamer := ⟨FiltersSay p.P p.I.ctype p.I.datadir p.files p.sequence.filters, p.args⟩

def Process.worker (p : Process) : Worker := ⟨p.renamer, p.calls⟩

theorem Process.Complete.works {p : Process} (h : p.Complete) {wet : Prop} (hw : wet → Setting.dryRun ∉ p.settings) : p.worker.Works wet := by
  rcases main_begins h.asked h.written h.execution h.faithful with ⟨h1, _⟩ | ⟨reads, t, o, l, ign, h1, hh, _, hb, hl, ⟨ignored, hi⟩, ht⟩
  · cases h1
  obtain ⟨out', hrun, hout⟩ := main_run hl hi ht
  obtain ⟨a, rfl⟩ : ∃ a, out' = .ret a := by
    rcases hout with h | h
    · exact h
    · cases h
  obtain ⟨seen, hscan⟩ := C72_runs_are_scans hrun
  refine ⟨reads, t, o, ignored, seen, Makes p.P o, h1, hh, hscan, fun w => ?_, hb.same h.benign h.written h.names,
    fun a b c h1 h2 => Option.some.inj (Res.ok.inj (h1.symm.trans h2))⟩
  cases hd : o.dryRun with
  | false => rfl
  | true => exact absurd (hb.asked.2.1.1 hd) (hw w)

/-- Several processes, each over files; no file of one has, or should have, the same place as a file of another. -/
structure Several (fs : FS) (ps : List Process) : Prop where
  complete : ∀ p ∈ ps, p.Complete
  unique : fs.Unique
  files : ∀ p ∈ ps, p.renamer.Files fs
  apart : ps.Pairwise fun a b => FarApart fs a.renamer b.renamer

theorem farApart_symm {fs : FS} {a b : Renamer} (h : FarApart fs a b) : FarApart fs b a :=
  fun g hg f hf q p x hq hp h1 h2 => h f hf g hg p q x hp hq h2 h1

theorem Several.perm {fs : FS} {ps ps' : List Process} (h : Several fs ps) (hp : ps'.Perm ps) : Several fs ps' :=
  ⟨fun p hm => h.complete p (hp.mem_iff.1 hm), h.unique, fun p hm => h.files p (hp.mem_iff.1 hm),
    (hp.pairwise_iff fun h => farApart_symm h).2 h.apart⟩

theorem Several.works {fs : FS} {ps : List Process} (h : Several fs ps) {wet : Prop} (hw : wet → ∀ p ∈ ps, Setting.dryRun ∉ p.settings) :
    (∀ w ∈ ps.map Process.worker, w.Works wet) ∧ (∀ w ∈ ps.map Process.worker, w.who.Files fs) ∧
      (ps.map Process.worker).Pairwise fun a b => FarApart fs a.who b.who := by
  refine ⟨fun w hm => ?_, fun w hm => ?_, by rw [List.pairwise_map]; exact h.apart⟩
  · obtain ⟨p, hp, rfl⟩ := List.mem_map.1 hm
    exact (h.complete p hp).works fun x => hw x p hp
  · obtain ⟨p, hp, rfl⟩ := List.mem_map.1 hm
    exact h.files p hp

/-- **C106.** However the calls of several detox processes interleave: each gets the answers it would get, and all of them together do what they would do,
if they ran one after the other, in whatever order. -/
theorem C106_as_one_after_the_other {fs : FS} {ps : List Process} (h : Several fs ps) {m : List Event} (hm : Interleaved (ps.map (·.calls)) m) {ps' : List Process}
    (hp : ps'.Perm ps) {fs' : FS} : (FS.Steps fs m fs' → FS.Steps fs (ps'.flatMap (·.calls)) fs') ∧
      (FS.FairSteps fs m fs' → FS.FairSteps fs (ps'.flatMap (·.calls)) fs') := by
  obtain ⟨h1, h2, h3⟩ := (h.perm hp).works (wet := False) fun h => h.elim
  have hm' : Interleaved ((ps'.map Process.worker).map (·.calls)) m := by
    rw [List.map_map]
    exact interleaved_perm hm (hp.map _)
  have e : (ps'.map Process.worker).flatMap (·.calls) = ps'.flatMap (·.calls) := by rw [List.flatMap_map]; rfl
  constructor
  · intro hs
    have := workers_serial h1 h.unique h2 h3 hm' (stepsBy_any.2 hs)
    rw [e] at this
    exact stepsBy_any.1 this
  · intro hs
    have := workers_serial h1 h.unique h2 h3 hm' (stepsBy_fair.2 hs)
    rw [e] at this
    exact stepsBy_fair.1 this

/-- **C106.** At any time in between, everything has as many names as it had before. -/
theorem C106_nothing_is_lost {fs : FS} {ps : List Process} (h : Several fs ps) {m1 m2 : List Event} (hm : Interleaved (ps.map (·.calls)) (m1 ++ m2)) {fs1 : FS}
    (hs : FS.Steps fs m1 fs1) (j : Ino) : fs1.names j = fs.names j := by
  obtain ⟨h1, h2, h3⟩ := h.works (wet := False) fun h => h.elim
  exact workers_names (m2 := m2) h1 h.unique h2 h3 (by rw [List.map_map]; exact hm) (stepsBy_any.2 hs) j

/-- **C106.** If the system does every rename it can do: in the end every entry of every directory is as it was, but for the name of those that are the
last component of an argument of one of the processes, and can have the name they should have. -/
theorem C106_every_file_gets_its_name {fs : FS} {ps : List Process} (h : Several fs ps) (hdry : ∀ p ∈ ps, Setting.dryRun ∉ p.settings)
    (hsl : ∀ p ∈ ps, ∀ f ∈ p.args, NewNameHasNoSlash p.renamer.R f) (hap : ∀ p ∈ ps, Apart p.renamer.R fs p.args) {m : List Event}
    (hm : Interleaved (ps.map (·.calls)) m) {fs' : FS} (hs : FS.FairSteps fs m fs') :
    ∃ g : Entry → Entry, fs' = { fs with entries := fs.entries.map g } ∧ ∀ e ∈ fs.entries, BecomesAmong fs (ps.map Process.renamer) e (g e) := by
  obtain ⟨h1, h2, h3⟩ := h.works (wet := True) fun _ => hdry
  have hser := (C106_as_one_after_the_other h hm (List.Perm.refl ps)).2 hs
  have e : (ps.map Process.worker).flatMap (·.calls) = ps.flatMap (·.calls) := by rw [List.flatMap_map]; rfl
  rw [← e] at hser
  obtain ⟨g, hg1, hg2⟩ := workers_become h1 h.unique h2
    (fun w hm => by obtain ⟨p, hp, rfl⟩ := List.mem_map.1 hm; exact hsl p hp)
    (fun w hm => by obtain ⟨p, hp, rfl⟩ := List.mem_map.1 hm; exact hap p hp) h3 hser
  refine ⟨g, hg1, fun e he => ?_⟩
  have := hg2 e he
  rw [List.map_map] at this
  exact this

/-! ### Two processes -/

theorem interleaved_first {t1 t2 m : List Event} : ∀ (p : List Event), Interleaved [t1, t2] m → Interleaved [p ++ t1, t2] (p ++ m)
  | [], h => h
  | e :: p, h => .next [] [t2] e (p ++ t1) _ (interleaved_first p h)

theorem interleaved_second {t1 t2 m : List Event} : ∀ (p : List Event), Interleaved [t1, t2] m → Interleaved [t1, p ++ t2] (p ++ m)
  | [], h => h
  | e :: p, h => .next [t1] [] e (p ++ t2) _ (interleaved_second p h)

/-- The calls of `detox f`, if the new name is free. -/
def soloCalls (f w : Bytes) (num : Nat) : List Event :=
  nothingInstalled ++ [.lstat f (some (regStat num)), .lstat f (some (regStat num)), .lstat w none, .rename f w true]

/-- The first has looked, then the second does its work, then the first renames. -/
def between (a b : List Event) : List Event := a.take 5 ++ (b ++ a.drop 5)

theorem between_interleaved (a b : List Event) : Interleaved [a, b] (between a b) := by
  have h1 : Interleaved [a.drop 5, []] (a.drop 5) := by simpa using interleaved_first (t1 := []) (t2 := []) (a.drop 5) (.done _ (by simp))
  have h2 := interleaved_second b h1
  have h3 := interleaved_first (a.take 5) h2
  rw [List.take_append_drop, List.append_nil] at h3
  exact h3

theorem steps_fair {tr : List Event} (hno : ∀ old new, Event.rename old new false ∉ tr) {fs fs' : FS} (h : FS.Steps fs tr fs') : FS.FairSteps fs tr fs' := by
  induction h with
  | nil fs => exact .nil fs
  | cons _ _ _ e tr h1 _ ih =>
    refine .cons _ _ _ _ _ ⟨h1, fun old new he => ?_⟩ (ih fun old new hm => hno old new (by simp [hm]))
    exact absurd (by simp [he]) (hno old new)

theorem FS_exec_complete {tr : List Event} {fs fs' : FS} (h : FS.Steps fs tr fs') : fs.exec tr = some fs' := by
  induction h with
  | nil fs => rfl
  | cons _ _ _ e tr h1 _ ih =>
    cases h1 with
    | lstat p r h => rw [FS.exec, if_pos h]; exact ih
    | renamed old new _ h => rw [FS.exec, h]; exact ih
    | _ => exact ih

def bothFS : FS := smallFS false [⟨⟨1, 1⟩, lit "a b", ⟨1, 2⟩⟩, ⟨⟨1, 1⟩, lit "a  b", ⟨1, 3⟩⟩]

/-- **C106.** But if the places are the same, a file can be lost. `detox 'a b'` and `detox 'a  b'`: both look for `a_b` before one of them renames. Both are
content (no message, status 0), and what was in `a  b` is gone. They cannot both find the name free one after the other. -/
theorem C106_a_file_is_lost :
    Trace (detoxMain .linux (plainCall (lit "a b")) 0) (soloCalls (lit "a b") (lit "a_b") 2) (.ret ()) ∧
    Trace (detoxMain .linux (plainCall (lit "a  b")) 0) (soloCalls (lit "a  b") (lit "a_b") 3) (.ret ()) ∧
    (∃ m fs', Interleaved [soloCalls (lit "a b") (lit "a_b") 2, soloCalls (lit "a  b") (lit "a_b") 3] m ∧ bothFS.Unique ∧ FS.FairSteps bothFS m fs' ∧
      bothFS.names ⟨1, 3⟩ = 1 ∧ fs'.names ⟨1, 3⟩ = 0) ∧
    (∀ fs', ¬ FS.Steps bothFS (soloCalls (lit "a b") (lit "a_b") 2 ++ soloCalls (lit "a  b") (lit "a_b") 3) fs') ∧
    ∀ fs', ¬ FS.Steps bothFS (soloCalls (lit "a  b") (lit "a_b") 3 ++ soloCalls (lit "a b") (lit "a_b") 2) fs' := by
  refine ⟨Prog.result_sound _ _ _ (by decide +kernel), Prog.result_sound _ _ _ (by decide +kernel),
    ⟨_, smallFS false [⟨⟨1, 1⟩, lit "a_b", ⟨1, 2⟩⟩], between_interleaved _ _, ?_, steps_fair ?_ (FS_exec_sound _ rfl), ?_, ?_⟩, fun fs' h => ?_, fun fs' h => ?_⟩
  · simp [FS.Unique, bothFS, smallFS]
    decide
  · intro old new hm
    simp [between, soloCalls, nothingInstalled] at hm
  · decide +kernel
  · decide +kernel
  · have h1 := FS_exec_complete h
    have h2 : (bothFS.exec (soloCalls (lit "a b") (lit "a_b") 2 ++ soloCalls (lit "a  b") (lit "a_b") 3)).isNone := by decide +kernel
    rw [h1] at h2
    cases h2
  · have h1 := FS_exec_complete h
    have h2 : (bothFS.exec (soloCalls (lit "a  b") (lit "a_b") 3 ++ soloCalls (lit "a b") (lit "a_b") 2)).isNone := by decide +kernel
    rw [h1] at h2
    cases h2

/-! ### A case in which all is well -/

def solo (f w : Bytes) (num : Nat) : Process where
  P := .linux
  I := plainCall f
  fuel := 0
  settings := []
  args := [f]
  files := fun _ => none
  plain := false
  sequence := generateSequence (lit "default") safeWipeup
  calls := soloCalls f w num

def twoFS : FS := smallFS false [⟨⟨1, 1⟩, lit "a b", ⟨1, 2⟩⟩, ⟨⟨1, 1⟩, lit "c d", ⟨1, 3⟩⟩]

theorem solo_says {s out w : Bytes} (h : FiltersSay .linux (plainCall []).ctype (plainCall []).datadir (fun _ => none) safeWipeup s out)
    (e : (s.flatMap fun c => (⟨lastOf (writtenRows builtin_safe_rows), none⟩ : TableText).says (safeCode .linux c) [c]) = w) (h0 : (0 : Byte) ∉ w)
    (hw : wipe true w = w) : out = w := by
  have h1 := FilterSays.safe (P := .linux) (locale := (plainCall []).ctype) (datadir := (plainCall []).datadir) (files := fun _ => none) (f := generateFilter .safe) (s := s) _ rfl
    (.builtin _ _ rfl .safe)
  rw [e] at h1
  have h2 : IsWipeup true w (wipe true w) := wipe_spec h0
  rw [hw] at h2
  exact filtersSay_unique h (.cons _ _ _ _ _ h1 (.cons _ _ _ _ _ (.wipeup _ rfl h2) (.nil _)))

theorem solo_complete {f w : Bytes} {num : Nat} (h1 : CommandLine false [f] [] [f]) (h2 : (0 : Byte) ∉ f)
    (h3 : Trace (detoxMain .linux (plainCall f) 0) (soloCalls f w num) (.ret ())) : (solo f w num).Complete := by
  refine ⟨⟨rfl, rfl⟩, ⟨h1, nofun, nofun, ?_, by simp [solo]⟩,
    C97_builtin_written rfl (show configsInEffect (plainCall f).config none (fun _ => none) = [] from ?_) (.inl ⟨[], _, rfl, rfl, nofun⟩) (.inr ?_), ?_, h3, ?_⟩
  · rintro (h | h)
    · have h : CalledInline (lit "detox") := h
      rw [← posixBasename_inline] at h
      exact absurd h (by decide +kernel)
    · cases h
  · show configsInEffect (plainCall []).config none (fun _ => none) = []
    decide +kernel
  · show ∀ g ∈ (generateSequence (lit "default") safeWipeup).filters, g.cleaner ≠ .utf8
    decide +kernel
  · intro g hg
    rw [List.mem_singleton.1 hg]
    exact ⟨h2, nofun⟩
  · intro e he p r hpr
    subst hpr
    simp [solo, soloCalls, nothingInstalled] at he
    exact he.elim (fun h => h.2) fun h => h.2

/- `detox 'a b'` and `detox 'c d'`. -/
example : Several twoFS [solo (lit "a b") (lit "a_b") 2, solo (lit "c d") (lit "c_d") 3] ∧
    ∃ m fs', Interleaved ([solo (lit "a b") (lit "a_b") 2, solo (lit "c d") (lit "c_d") 3].map (·.calls)) m ∧ FS.FairSteps twoFS m fs' ∧
      fs'.entries = [⟨⟨1, 1⟩, lit "a_b", ⟨1, 2⟩⟩, ⟨⟨1, 1⟩, lit "c_d", ⟨1, 3⟩⟩] := by
  have conc : ∀ {f w p : Bytes} {num : Nat}, ((0x2F : Byte) ∉ f) →
      (f.flatMap fun c => (⟨lastOf (writtenRows builtin_safe_rows), none⟩ : TableText).says (safeCode .linux c) [c]) = w → (0 : Byte) ∉ w → wipe true w = w →
      Concerns (solo f w num).renamer.R f p → p = f ∨ p = w := by
    intro f w p num h1 h2 h3 h4 h
    rcases h with h | ⟨dir, name, v, hs, hv, rfl⟩
    · exact .inl h
    · obtain ⟨e1, e2⟩ := splitsAs_unique (⟨rfl, h1, .inl rfl⟩ : SplitsAs f [] f)
      obtain ⟨e3, e4⟩ := splitsAs_unique hs
      have hn : name = f := by rw [e4, ← e2]
      have hd : dir = [] := by rw [e3, ← e1]
      subst hn hd
      have hv : FiltersSay .linux (plainCall []).ctype (plainCall []).datadir (fun _ => none) safeWipeup name v := hv
      have := solo_says hv h2 h3 h4
      exact .inr this
  refine ⟨⟨fun p hp => ?_, ?_, ?_, ?_⟩, _, smallFS false [⟨⟨1, 1⟩, lit "a_b", ⟨1, 2⟩⟩, ⟨⟨1, 1⟩, lit "c_d", ⟨1, 3⟩⟩], between_interleaved _ _,
    steps_fair ?_ (FS_exec_sound _ rfl), rfl⟩
  · simp only [List.mem_cons, List.not_mem_nil, or_false] at hp
    rcases hp with rfl | rfl
    · exact solo_complete (.operand _ _ _ _ rfl (.inl (by decide +kernel)) .none) (by decide) (Prog.result_sound _ _ _ (by decide +kernel))
    · exact solo_complete (.operand _ _ _ _ rfl (.inl (by decide +kernel)) .none) (by decide) (Prog.result_sound _ _ _ (by decide +kernel))
  · simp [FS.Unique, twoFS, smallFS]
    decide
  · have key : ∀ f i, (f = lit "a b" ∨ f = lit "c d") → twoFS.lookup f = some i → twoFS.kind i = .reg := by
      rintro f i (rfl | rfl) hi
      · rw [← Option.some.inj (show some (⟨1, 2⟩ : Ino) = some i from (show twoFS.lookup (lit "a b") = some ⟨1, 2⟩ by decide +kernel) ▸ hi)]
        rfl
      · rw [← Option.some.inj (show some (⟨1, 3⟩ : Ino) = some i from (show twoFS.lookup (lit "c d") = some ⟨1, 3⟩ by decide +kernel) ▸ hi)]
        rfl
    intro p hp f hf i hi
    refine key f i ?_ hi
    simp only [List.mem_cons, List.not_mem_nil, or_false] at hp
    rcases hp with rfl | rfl
    · exact .inl (List.mem_singleton.1 hf)
    · exact .inr (List.mem_singleton.1 hf)
  · rw [List.pairwise_pair]
    intro f hf g hg p q x hp hq
    rw [show f = lit "a b" from List.mem_singleton.1 hf] at hp
    rw [show g = lit "c d" from List.mem_singleton.1 hg] at hq
    have hp := conc (by decide) (by decide +kernel) (by decide +kernel) (by decide +kernel) hp
    have hq := conc (by decide) (by decide +kernel) (by decide +kernel) (by decide +kernel) hq
    have s1 : twoFS.slot (lit "a b") = some (⟨1, 1⟩, lit "a b") := by decide +kernel
    have s2 : twoFS.slot (lit "a_b") = some (⟨1, 1⟩, lit "a_b") := by decide +kernel
    have s3 : twoFS.slot (lit "c d") = some (⟨1, 1⟩, lit "c d") := by decide +kernel
    have s4 : twoFS.slot (lit "c_d") = some (⟨1, 1⟩, lit "c_d") := by decide +kernel
    rcases hp with rfl | rfl <;> rcases hq with rfl | rfl <;> simp only [s1, s2, s3, s4, Option.some.injEq] <;> rintro rfl <;> decide
  · intro old new hm
    simp [between, solo, soloCalls, nothingInstalled] at hm

end Detox
