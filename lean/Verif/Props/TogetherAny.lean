import Verif.Props.Together
import Verif.Props.Stopped

/-!
# C121: several detox processes at the same time, each with a configuration of its own
-/

set_option autoImplicit false

namespace Detox
open Spec

/-- detox in the case of C120, with a configuration of its own, as far as it has come (`out`). -/
structure Process.Under (p : Process) (ig : List Bytes) (fs : FS) (depth : Ino → Nat) (slack level : Nat) (out : Outcome Unit) : Prop where
  benign : p.P.Benign
  anyName : p.plain = false
  case : ConfiguredCase p.P p.I p.settings p.args p.files p.plain p.sequence ig fs depth slack level
  execution : Trace (detoxMain p.P p.I p.fuel) p.calls out
  faithful : ∀ e ∈ p.calls, Faithful p.files e
  given : ∀ d n, Event.readdir d (some n) ∈ p.calls → NameFits p.plain n

section
variable {fs : FS} {depth : Ino → Nat} {slack level : Nat} {ps : List Process} {ig : Process → List Bytes} {out : Process → Outcome Unit}

theorem Process.Under.going {p : Process} {i : List Bytes} {u : Outcome Unit} (h : p.Under i fs depth slack level u) : p.Going :=
  ⟨h.benign, h.case.asked, h.case.written, h.anyName, fun f hf => (h.case.args f hf).1, fun n w h0 h1 h2 => h.case.settles.slash n w h0 h1 h2, ⟨u, h.execution⟩,
    h.faithful⟩

theorem Process.Under.attempt {p : Process} {i : List Bytes} {u : Outcome Unit} (h : p.Under i fs depth slack level u) {V : World}
    (hV : World.Steps (World.start fs) p.calls V) : ConfiguredAttempt p.P p.I p.files p.plain fs p.calls u V :=
  ⟨⟨p.fuel, h.execution⟩, h.faithful, hV, h.given⟩

theorem several_under (ht : fs.Tree depth slack) (hp : ∀ p ∈ ps, p.Under (ig p) fs depth slack level (out p))
    (hap : ps.Pairwise fun a b => TreesApart fs a.renamer b.renamer) : SeveralTrees fs depth slack level ps :=
  ⟨fun p h => (hp p h).going, ht, fun p h => (hp p h).case.steady, hap⟩

/-- **C121.** Several detox processes at the same time, each over its own trees and each with its own configuration, some at their end, some not, some killed: at
any moment every entry has the name it had, or the name that the configuration of the process it belongs to gives it; nothing else is changed. -/
theorem C121_at_any_moment (ht : fs.Tree depth slack) (hp : ∀ p ∈ ps, p.Under (ig p) fs depth slack level (out p))
    (hap : ps.Pairwise fun a b => TreesApart fs a.renamer b.renamer) {ws : List World} (hw : Together (ps.map fun p => (World.start fs, p.calls)) ws)
    (o : Process → Options) (hr : ∀ p ∈ ps, (o p).recurse = true ↔ Setting.recurse ∈ p.settings)
    (hsp : ∀ p ∈ ps, (o p).special = true ↔ Setting.special ∈ p.settings) :
    ∃ g, (∀ w ∈ ws, w.fs = g) ∧ g.entries.length = fs.entries.length ∧ ∀ (k : Nat) (e : Entry), fs.entries[k]? = some e →
      ∃ n, g.entries[k]? = some { e with name := n } ∧ (n = e.name ∨ ∃ p ∈ ps, fs.Treats (o p) p.args Hidden e ∧
        FiltersSay p.P p.I.ctype p.I.datadir p.files p.sequence.filters e.name n) := by
  obtain ⟨g, h1, h2, h3, h4, h5⟩ := C116_each_as_if_alone (several_under ht hp hap) hw
  refine ⟨g, h1, h2, fun k e hk => ?_⟩
  by_cases hx : ∃ p ∈ ps, p.renamer.Has fs e
  · obtain ⟨p, hpp, hh⟩ := hx
    obtain ⟨V, hV, hag⟩ := h4 p hpp
    obtain ⟨new, k1, k2⟩ := C120_at_any_moment (hp p hpp).benign (hp p hpp).case (o p) (hr p hpp) (hsp p hpp) ((hp p hpp).attempt hV)
    refine ⟨new e, ?_, (k2 e (List.mem_of_getElem? hk)).imp id fun h => ⟨p, hpp, h.2, h.1⟩⟩
    rw [hag k e hk hh, k1, List.getElem?_map, hk]
    rfl
  · exact ⟨e.name, h5 k e hk fun p hpp hh => hx ⟨p, hpp, hh⟩, .inl rfl⟩

/-- **C121.** When all of them have come to their end without complaints, every entry that one of them is to treat has the name that the configuration of that one
gives it, whatever the others are configured to do, and entries nobody is to treat have the names they had. -/
theorem C121_all_trees_cleaned (ht : fs.Tree depth slack) (hp : ∀ p ∈ ps, p.Under (ig p) fs depth slack level (.ret ())) (hs : ∀ p ∈ ps, Silent p.calls)
    (hap : ps.Pairwise fun a b => TreesApart fs a.renamer b.renamer) {ws : List World} (hw : Together (ps.map fun p => (World.start fs, p.calls)) ws)
    (o : Process → Options) (hr : ∀ p ∈ ps, (o p).recurse = true ↔ Setting.recurse ∈ p.settings)
    (hsp : ∀ p ∈ ps, (o p).special = true ↔ Setting.special ∈ p.settings) :
    ∃ g, (∀ w ∈ ws, w.fs = g) ∧ ∃ new : Entry → Bytes, g.entries = fs.entries.map (fun e => { e with name := new e }) ∧ ∀ e ∈ fs.entries,
      (∀ p ∈ ps, fs.Treats (o p) p.args (fun n => Hidden n ∨ n ∈ ig p) e →
        FiltersSay p.P p.I.ctype p.I.datadir p.files p.sequence.filters e.name (new e)) ∧
      ((∀ p ∈ ps, ¬ fs.Treats (o p) p.args Hidden e) → new e = e.name) := by
  obtain ⟨g, h1, new, h2, h3⟩ := C116_all_trees_cleaned (several_under ht hp hap) hw
    (fun p => FiltersSay p.P p.I.ctype p.I.datadir p.files p.sequence.filters) o ig (by
      intro p hpp V hV
      obtain ⟨fuel, hrun⟩ := (hp p hpp).case.run ((hp p hpp).attempt hV)
      have hlit := literal_exact (fs := fs) (hp p hpp).case.exact (FiltersSay p.P p.I.ctype p.I.datadir p.files p.sequence.filters)
      exact hrun.cleaned (hp p hpp).benign (hs p hpp) ⟨fun _ _ _ _ _ => hlit _, fun _ _ _ => hlit _⟩ (o p) (hr p hpp) (hsp p hpp))
  exact ⟨g, h1, new, h2, fun e he => ⟨(h3 e he).1, (h3 e he).2.1⟩⟩

end

/-! ### A concrete case: the configuration of the manual, in two locales -/

def vaultFS : FS := { groveFS with
  entries := [⟨⟨1, 1⟩, lit "a b", ⟨1, 2⟩⟩, ⟨⟨1, 1⟩, lit "c d", ⟨1, 3⟩⟩, ⟨⟨1, 2⟩, lit "e $", ⟨1, 4⟩⟩, ⟨⟨1, 3⟩, lit "g $", ⟨1, 5⟩⟩, ⟨⟨1, 1⟩, lit "i j", ⟨1, 6⟩⟩] }

/-- `detox -r` over a directory with one file, configured as in the manual. -/
def vaultProcess (locale top top' file file' : Bytes) (d i : Nat) : Process where
  P := .linux
  I := manualCall locale [lit "-r", top]
  fuel := 10
  settings := [.recurse]
  args := [top]
  files := manualFiles
  plain := false
  sequence := manualSequence
  calls := manualTrace.take 6 ++ (groveRun top top' file file' d i).calls.drop nothingInstalled.length

def vaultFirst : Process := vaultProcess (lit "en_US.UTF-8") (lit "a b") (lit "a_b") (lit "e $") (lit "e_money_") 2 4
def vaultSecond : Process := vaultProcess (lit "C") (lit "c d") (lit "c_d") (lit "g $") (lit "g_dollar_") 3 5

theorem vaultFirst_run : Trace (detoxMain .linux vaultFirst.I 10) vaultFirst.calls (.ret ()) := Prog.result_sound _ _ _ (by decide +kernel)
theorem vaultSecond_run : Trace (detoxMain .linux vaultSecond.I 10) vaultSecond.calls (.ret ()) := Prog.result_sound _ _ _ (by decide +kernel)

theorem manual_says_iff (locale : Bytes) {s mid x : Bytes} (h0 : s.flatMap (manualSays locale) = mid) (h1 : cleanWipeup false mid = .ok x) (h2 : NulFree mid) (v : Bytes) :
    FiltersSay .linux locale none manualFiles manualFilters s v ↔ v = x := by
  subst h0
  obtain ⟨out, h3, h5, h4⟩ := C04_wipeup_is_the_documented_reduction false _ h2
  have hout : out = x := Res.ok.inj (h3.symm.trans h1)
  subst hout
  refine ⟨fun hv => h4 v (manual_means .linux _ hv), ?_⟩
  rintro rfl
  exact filtersSay_append (fs := manualFilters.take 2) (manual_first .linux _ _) (filtersSay_one.2 (.wipeup _ rfl h5))

/-- The new names in a locale. -/
def vaultNames (locale : Bytes) : List (Bytes × Bytes) :=
  [(lit "a b", lit "a_b"), (lit "c d", lit "c_d"), (lit "i j", lit "i_j")] ++
    if locale = lit "en_US.UTF-8" then [(lit "e $", lit "e_money_"), (lit "g $", lit "g_money_")] else [(lit "e $", lit "e_dollar_"), (lit "g $", lit "g_dollar_")]

theorem vault_says {locale : Bytes} (hl : locale = lit "en_US.UTF-8" ∨ locale = lit "C") : ∀ x ∈ vaultNames locale, ∀ v,
    FiltersSay .linux locale none manualFiles manualFilters x.1 v ↔ v = x.2 := by
  have h : ∀ l ∈ [lit "en_US.UTF-8", lit "C"], ∀ x ∈ vaultNames l, cleanWipeup false (x.1.flatMap (manualSays l)) = .ok x.2 ∧ NulFree (x.1.flatMap (manualSays l)) := by
    unfold NulFree; decide +kernel
  intro x hx v
  obtain ⟨h1, h2⟩ := h locale (by simpa using hl) x hx
  exact manual_says_iff locale rfl h1 h2 v

theorem vaultFS_tree : vaultFS.Tree groveDepth 1 where
  unique := by unfold FS.Unique; decide +kernel
  level := by decide +kernel
  once := by decide +kernel
  bound := groveFS_tree.bound

theorem vaultFS_steady {f : Bytes} (h : f = lit "a b" ∨ f = lit "c d") : vaultFS.Steady groveDepth 1 0 f := by
  rcases h with rfl | rfl <;>
  exact .name [] _ ⟨1, 1⟩ rfl (.inl rfl) (by decide +kernel) (by decide +kernel) (by decide +kernel) (by decide +kernel)
    ⟨by decide +kernel, by decide +kernel, by decide +kernel, Nat.zero_le _⟩

theorem vaultProcess_under {locale top top' file file' : Bytes} {d i : Nat} (hl : locale = lit "en_US.UTF-8" ∨ locale = lit "C") (ht : top = lit "a b" ∨ top = lit "c d")
    (hf : NulFree file) (h : Trace (detoxMain .linux (manualCall locale [lit "-r", top]) 10) (vaultProcess locale top top' file file' d i).calls (.ret ())) :
    (vaultProcess locale top top' file file' d i).Under [] vaultFS groveDepth 1 0 (.ret ()) where
  benign := (by decide : Platform.linux.Benign)
  anyName := rfl
  case :=
    { asked := manual_renames _ _ (recurse_line _ (.inl (by rcases ht with rfl | rfl <;> decide +kernel)))
        (by intro s hs; rw [List.mem_singleton.1 hs]; simp [Setting.Leaves]) (by simp [vaultProcess]) (by simp [vaultProcess]) (by simp [vaultProcess])
      wet := by simp [vaultProcess]
      written := manual_written _ _ rfl rfl
      ignored := manual_ignored _ _ rfl
      settles := (manual_settles _ _).1
      fits := fun m v hm hv => ⟨(manual_settles _ _).2 m v hm hv, nofun⟩
      tree := vaultFS_tree
      steady := fun f hf => vaultFS_steady (by rw [List.mem_singleton.1 hf]; exact ht)
      allowed := fun _ => rfl
      exact := fun _ _ _ h => h
      here := by rcases ht with rfl | rfl <;> exact fun f hf => by rw [List.mem_singleton.1 hf]; decide +kernel
      args := fun f hf => ⟨by rw [List.mem_singleton.1 hf]; rcases ht with rfl | rfl <;> decide +kernel, nofun⟩
      names := by
        have h0 : ∀ e ∈ vaultFS.entries, EntryName e.name := by decide +kernel
        have h1 : ∀ l ∈ [lit "en_US.UTF-8", lit "C"], ∀ x ∈ vaultNames l, EntryName x.2 := by decide +kernel
        have h2 : ∀ l ∈ [lit "en_US.UTF-8", lit "C"], ∀ e ∈ vaultFS.entries, ∃ x ∈ vaultNames l, x.1 = e.name := by decide +kernel
        have hm : locale ∈ [lit "en_US.UTF-8", lit "C"] := by simpa using hl
        rintro e he v (rfl | hv)
        · exact ⟨h0 e he, (h0 e he).nul, nofun⟩
        · obtain ⟨x, hx, hxe⟩ := h2 locale hm e he
          have hv : FiltersSay .linux locale none manualFiles manualFilters e.name v := hv
          rw [← hxe] at hv
          rw [(vault_says hl x hx v).1 hv]
          exact ⟨h1 locale hm x hx, (h1 locale hm x hx).nul, nofun⟩ }
  execution := h
  faithful := manual_faithful (by intro p r hm; simp [groveRun, nothingInstalled] at hm)
  given := by
    intro k n hm
    have : n = file := by
      have hm : k = 0 ∧ n = file := by simpa [vaultProcess, groveRun, nothingInstalled, manualTrace] using hm
      exact hm.2
    rw [this]
    exact ⟨hf, nofun⟩

theorem vault_inside {top : Bytes} {x : Nat} (hl : vaultFS.lookup top = some ⟨1, x⟩) (hx : x ≠ 1) : ∀ d, vaultFS.Inside [top] d → d = ⟨1, x⟩ := by
  intro d h
  induction h with
  | arg f d hf hl' _ =>
    rw [List.mem_singleton.1 hf, hl] at hl'
    exact (Option.some.inj hl').symm
  | sub e he _ hk ih =>
    exfalso
    have h1 : e.dir ≠ ⟨1, 1⟩ := by rw [ih]; intro h; exact hx (by injection h)
    exact h1 ((by decide +kernel : ∀ e ∈ vaultFS.entries, vaultFS.kind e.ino = .dir → e.dir = ⟨1, 1⟩) e he hk)

theorem concerns_name {R : Bytes → Bytes → Prop} {top top' : Bytes} (hs : (0x2F : Byte) ∉ top) (hr : ∀ v, R top v → v = top') {p : Bytes}
    (h : Concerns R top p) : p = top ∨ p = top' := by
  rcases h with h | ⟨dir, n, w, h1, h2, rfl⟩
  · exact .inl h
  · right
    have e1 := splitsAs_unique h1
    have e2 := splitsAs_unique (p := top) (d := []) (n := top) ⟨rfl, hs, .inl rfl⟩
    have ed : dir = [] := e1.1.trans e2.1.symm
    have en : n = top := e1.2.trans e2.2.symm
    subst ed en
    exact hr w h2

theorem vault_apart : TreesApart vaultFS vaultFirst.renamer vaultSecond.renamer := by
  have in1 := vault_inside (top := lit "a b") (x := 2) (by decide +kernel) (by decide)
  have in2 := vault_inside (top := lit "c d") (x := 3) (by decide +kernel) (by decide)
  have c1 : ∀ f ∈ [lit "a b"], ∀ p, Concerns vaultFirst.renamer.R f p → p = lit "a b" ∨ p = lit "a_b" := by
    intro f hf p h
    rw [List.mem_singleton.1 hf] at h
    exact concerns_name (by decide +kernel) (fun v hv => (vault_says (.inl rfl) (lit "a b", lit "a_b") (by decide +kernel) v).1 hv) h
  have c2 : ∀ f ∈ [lit "c d"], ∀ p, Concerns vaultSecond.renamer.R f p → p = lit "c d" ∨ p = lit "c_d" := by
    intro f hf p h
    rw [List.mem_singleton.1 hf] at h
    exact concerns_name (by decide +kernel) (fun v hv => (vault_says (.inr rfl) (lit "c d", lit "c_d") (by decide +kernel) v).1 hv) h
  refine ⟨?_, ?_, ?_, ?_⟩
  · intro f hf g hg p q x hp hq hx hy
    rcases c1 f hf p hp with rfl | rfl <;> rcases c2 g hg q hq with rfl | rfl <;> rw [← hx] at hy <;> revert hy <;> decide +kernel
  · intro d h1 h2
    have := (in1 d h1).symm.trans (in2 d h2)
    revert this
    decide
  · intro f hf p x hp hx hi
    have := in2 _ hi
    have h1 : x.1 = ⟨1, 1⟩ := by
      rcases c1 f hf p hp with rfl | rfl <;> cases hx <;> decide +kernel
    rw [h1] at this
    revert this
    decide
  · intro f hf p x hp hx hi
    have := in1 _ hi
    have h1 : x.1 = ⟨1, 1⟩ := by
      rcases c2 f hf p hp with rfl | rfl <;> cases hx <;> decide +kernel
    rw [h1] at this
    revert this
    decide

/-- They take turns, the second begins. -/
def vaultTurns : List Bool := (List.replicate vaultFirst.calls.length [false, true]).flatten

/- The two processes meet what C121 asks for and can work at the same time; `$` becomes what the table says for the locale of each. -/
example : (∀ p ∈ [vaultFirst, vaultSecond], p.Under [] vaultFS groveDepth 1 0 (.ret ()) ∧ Silent p.calls) ∧ vaultFS.Tree groveDepth 1 ∧
    [vaultFirst, vaultSecond].Pairwise (fun a b => TreesApart vaultFS a.renamer b.renamer) ∧
    ∃ ws, Together ([vaultFirst, vaultSecond].map fun p => (World.start vaultFS, p.calls)) ws ∧
      ∀ w ∈ ws, w.fs.entries.map Entry.name = [lit "a_b", lit "c_d", lit "e_money_", lit "g_dollar_", lit "i j"] := by
  refine ⟨?_, vaultFS_tree, List.pairwise_pair.2 vault_apart, ?_⟩
  · have silent : ∀ (locale top top' file file' : Bytes) (d i : Nat), Silent (vaultProcess locale top top' file file' d i).calls := by
      intro locale top top' file file' d i s hm
      simp [vaultProcess, groveRun, nothingInstalled, manualTrace] at hm
    intro p hp
    rcases List.mem_cons.1 hp with rfl | hp
    · exact ⟨vaultProcess_under (.inl rfl) (.inl rfl) (by decide +kernel) vaultFirst_run, silent _ _ _ _ _ _ _⟩
    · rw [List.mem_singleton.1 hp]
      exact ⟨vaultProcess_under (.inr rfl) (.inr rfl) (by decide +kernel) vaultSecond_run, silent _ _ _ _ _ _ _⟩
  · have h : (turns vaultTurns (World.start vaultFS) vaultFirst.calls (World.start vaultFS) vaultSecond.calls).map
        (fun r => (r.1.fs.entries.map Entry.name, r.2.fs.entries.map Entry.name)) =
        some ([lit "a_b", lit "c_d", lit "e_money_", lit "g_dollar_", lit "i j"], [lit "a_b", lit "c_d", lit "e_money_", lit "g_dollar_", lit "i j"]) := by decide +kernel
    cases hx : turns vaultTurns (World.start vaultFS) vaultFirst.calls (World.start vaultFS) vaultSecond.calls with
    | none => rw [hx] at h; cases h
    | some r =>
      rw [hx] at h
      obtain ⟨h1, h2⟩ := Prod.mk.inj (Option.some.inj h)
      refine ⟨_, turns_together _ _ _ _ _ _ hx, fun w hw => ?_⟩
      rcases List.mem_cons.1 hw with rfl | hw
      · exact h1
      · rw [List.mem_singleton.1 hw]; exact h2

end Detox
