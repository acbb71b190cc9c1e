import Verif.Props.Tree

/-!
# C99: no cause for complaint
-/

set_option autoImplicit false

namespace Detox
open Spec

/-- **C99.** If the system does what it can, if there is room for the new names, and if no entry to be renamed is named twice, a run over files has no
complaints; so the tree is as it should be. -/
theorem C99_no_complaints {P : Platform} {o : Options} {args ws : List Bytes} {fs : FS} {depth : Ino → Nat} {slack level : Nat} {tr : List Event}
    {w : World} {a : Option Filelist} (hc : CompleteRun P o args fs depth slack level tr w) (h : Run P o args ws tr (.ret a))
    (hob : (World.start fs).ObligesIn tr) (hroom : fs.Room (Makes P o) o args) (honce : fs.NamedOnce (Makes P o) o args)
    (hid : ∀ m v, NulFree m → Makes P o m v → Makes P o v v) (hex : ∀ f ∈ args, fs.lookup f ≠ none) (hlit : fs.LiteralRun (Makes P o) args tr) :
    Silent tr ∧ fs.Cleaned (Makes P o) o args ws w.fs := by
  have hs : Silent tr := by
    obtain ⟨seen, hscan⟩ := C72_runs_are_scans h
    have hR : OnePass (Makes P o) := ⟨fun a b c h1 h2 => Option.some.inj (Res.ok.inj (h1.symm.trans h2)), hid⟩
    exact args_quiet (args := args) (g := fun e => e) hR ⟨hc.wet, hc.slash, fun _ h => sequence_nil h, hc.allowed⟩ hlit.entries hc.tree hroom honce
      hscan (fun _ h => h) (W := World.start fs) rfl hc.tree hc.steady (fun _ _ _ => rfl) hc.nul hex (fun f hf => hlit.args f hf)
      hc.steps hob [] rfl ⟨by rw [List.map_id']; rfl, fun e _ => .inl rfl⟩
  exact ⟨hs, C98_tree_after_a_run hc h hs hid hex hlit⟩

/-- **C99.** The whole program with nothing configured and one of the sequences `default`, `utf_8`, `lower` and `lower-only`. -/
theorem C99_no_complaints_from_main {P : Platform} (hP : P.Benign) {I : Invocation} {fuel : Nat} {ss : List Setting} {ws : List Bytes}
    (hc : CommandLine I.posixlyCorrect I.args ss ws) {tr : List Event} (h : Trace (detoxMain P I fuel) tr (.ret ()))
    (hu : Unconfigured I ss tr)
    (hn : requested I ss = none ∨ ∃ n ∈ [lit "default", lit "utf_8", lit "lower", lit "lower-only"], requested I ss = some n)
    (hd : Setting.dryRun ∉ ss) (hi : Setting.inline ∉ ss) (hb : ¬ CalledInline I.program)
    {fs : FS} {depth : Ino → Nat} {slack level : Nat} {w : World} (hnul : ∀ f ∈ ws, NulFree f) (ht : fs.Tree depth slack)
    (hst : ∀ f ∈ ws, fs.Steady depth slack level f) (hw : World.Steps (World.start fs) tr w)
    (ha : ∀ p r, Event.lstat p r ∈ tr → fs.denied p = false) (hex : ∀ f ∈ ws, fs.lookup f ≠ none) (E : TableEnv)
    (hlit : fs.LiteralRun (fun m v => runBuiltin P E (requested I ss) m = .ok (some v)) ws tr)
    (o : Options) (hr : o.recurse = true ↔ Setting.recurse ∈ ss) (hsp : o.special = true ↔ Setting.special ∈ ss)
    (hob : (World.start fs).ObligesIn tr) (hroom : fs.Room (fun m v => runBuiltin P E (requested I ss) m = .ok (some v)) o ws)
    (honce : fs.NamedOnce (fun m v => runBuiltin P E (requested I ss) m = .ok (some v)) o ws) :
    Silent tr ∧ fs.Cleaned (fun m v => runBuiltin P E (requested I ss) m = .ok (some v)) o ws [lit "{arch}"] w.fs := by
  have hs : Silent tr := by
    obtain ⟨reads, t, o', a, rfl, hfr, hC, hrun, hm1, hidem, e1, e2, hst'⟩ := main_one_pass hP hc h hu hn hd hi hb hnul ht hst hw ha E
    have er : o'.recurse = true ↔ o.recurse = true := e1.trans hr.symm
    have es : o'.special = true ↔ o.special = true := e2.trans hsp.symm
    have htr : ∀ e ∈ fs.entries, fs.Treats o' ws Hidden e → fs.Treats o ws Hidden e :=
      fun e he h => treats_congr er.1 es.1 (fun _ h => h) (fun _ _ h => h) he h
    have hroom' : fs.Room (Makes P o') o' ws := by
      rw [hm1]
      exact ⟨hroom.names, fun e he hT => hroom.proper e he (htr e he hT), fun e he hT => hroom.free e he (htr e he hT),
        fun e he hT e' he' hT' => hroom.apart e he (htr e he hT) e' he' (htr e' he' hT')⟩
    have honce' : fs.NamedOnce (Makes P o') o' ws := by
      rw [hm1]
      exact ⟨honce.twice, fun f hf e he hS => honce.scanned f hf e he (scans_congr er.1 (fun _ h => h) (fun _ _ h => h) hS)⟩
    obtain ⟨hq, _⟩ := C99_no_complaints hC hrun (obliges_right hob hst') hroom' honce' (by rw [hm1]; exact hidem) hex
      (by rw [hm1]; exact ⟨hlit.args, fun k n hm => hlit.entries k n (List.mem_append_right _ hm)⟩)
    intro s hm
    rcases List.mem_append.1 hm with hm | hm
    · obtain ⟨f, hf⟩ := hfr _ hm
      cases hf
    · exact hq s hm
  exact ⟨hs, C98_tree_after_main hP hc h hu hn hd hi hb hs hnul ht hst hw ha hex E hlit o hr hsp⟩

/-! ### A concrete case -/

/-- What `default` makes of the names. -/
abbrev TreeMakes (m v : Bytes) : Prop := runBuiltin .linux ⟨fun _ => none, none⟩ none m = .ok (some v)

def treeNames : List (Bytes × Bytes) :=
  [(lit "my dir", lit "my_dir"), (lit "a b", lit "a_b"), (lit "sub x", lit "sub_x"), (lit "c d", lit "c_d"), (lit ".hid den", lit ".hid_den")]

theorem treeFS_new : ∀ e ∈ treeFS.entries, ∀ v, TreeMakes e.name v → (e.name, v) ∈ treeNames := by
  have h : ∀ e ∈ treeFS.entries, ∃ x ∈ treeNames, x.1 = e.name ∧ runBuiltin .linux ⟨fun _ => none, none⟩ none e.name = .ok (some x.2) := by decide +kernel
  intro e he v hv
  obtain ⟨x, hx, h1, h2⟩ := h e he
  have : x.2 = v := Option.some.inj (Res.ok.inj (h2.symm.trans hv))
  rw [← h1, ← this]
  exact hx

theorem treeFS_room : treeFS.Room TreeMakes { recurse := true } [lit "my dir"] := by
  have h0 : ∀ e ∈ treeFS.entries, EntryName e.name := by decide +kernel
  have h1 : ∀ x ∈ treeNames, EntryName x.2 ∧ x.2 ≠ [0x2E] ∧ x.2 ≠ [0x2E, 0x2E] := by decide +kernel
  have h2 : ∀ e ∈ treeFS.entries, ∀ x ∈ treeNames, x.1 = e.name → ∀ e' ∈ treeFS.entries, x.2 ≠ e'.name := by decide +kernel
  have h3 : ∀ e ∈ treeFS.entries, ∀ e' ∈ treeFS.entries, ∀ x ∈ treeNames, ∀ x' ∈ treeNames, x.1 = e.name → x'.1 = e'.name → x.2 = x'.2 → e' = e := by
    decide +kernel
  exact ⟨h0, fun e he _ v hv => h1 _ (treeFS_new e he v hv), fun e he _ v hv _ e' he' _ hn => absurd hn (h2 e he _ (treeFS_new e he v hv) rfl e' he'),
    fun e he _ e' he' _ _ v v' hv hv' hn => h3 e he e' he' _ (treeFS_new e he v hv) _ (treeFS_new e' he' v' hv') rfl rfl hn⟩

theorem treeFS_once : treeFS.NamedOnce TreeMakes { recurse := true } [lit "my dir"] := by
  have hroot : ∀ d, treeFS.Scans { recurse := true } [lit "my dir"] Hidden d → d ≠ ⟨1, 1⟩ := by
    intro d hd
    cases hd with
    | arg f d hf hlk hk =>
      rw [List.mem_singleton.1 hf] at hlk
      have h : treeFS.lookup (lit "my dir") = some ⟨1, 2⟩ := by decide +kernel
      have : d = ⟨1, 2⟩ := Option.some.inj (hlk.symm.trans h)
      rw [this]; decide
    | sub e he _ _ _ _ => exact (by decide +kernel : ∀ e ∈ treeFS.entries, e.ino ≠ ⟨1, 1⟩) e he
  refine ⟨List.pairwise_singleton _ _, ?_⟩
  rintro f hf e ⟨dir, name, _, _, hloc, _⟩ hs
  rw [List.mem_singleton.1 hf] at hloc
  have h : treeFS.locate (lit "my dir") = some (⟨1, 1⟩, lit "my dir") := by decide +kernel
  exact absurd (congrArg Prod.fst (Option.some.inj (hloc.symm.trans h))) (hroot _ hs)

theorem treeTrace_obliges : (World.start treeFS).ObligesIn treeTrace := by
  intro t1 e t2 w1 h _
  have hm : e ∈ treeTrace := by rw [h]; simp
  constructor
  · rintro old new rfl
    simp [treeTrace, nothingInstalled] at hm
  · rintro p r rfl hr
    have hm : p = lit "my_dir" ∧ r = .ok 0 ∨ p = lit "my_dir/sub_x" ∧ r = .ok 1 := by simpa [treeTrace, nothingInstalled] using hm
    rcases hm with h | h
    · exact absurd h.2 (hr 0)
    · exact absurd h.2 (hr 1)

example : ∃ w, World.Steps (World.start treeFS) treeTrace w ∧ Silent treeTrace ∧
    treeFS.Cleaned TreeMakes { recurse := true } [lit "my dir"] [lit "{arch}"] w.fs := by
  obtain ⟨w, h1, h2⟩ := World_exec_out (w := World.start treeFS) (tr := treeTrace) (f := fun w => w.fs.entries.map Entry.name)
    (x := [lit "my_dir", lit "a_b", lit "sub_x", lit "c_d", lit ".hid den"]) (by decide +kernel)
  refine ⟨w, h1, ?_⟩
  have hlit := literal_exact (fs := treeFS) (fun _ _ _ h => h) TreeMakes
  refine C99_no_complaints_from_main (I := treeCall) (ss := [.recurse]) (by decide)
    (.cluster [0x72] [.recurse] _ _ [] (by simp) (.cons _ _ _ _ .recurse .nil) (.operand _ _ _ _ rfl (.inl (by decide +kernel)) .none))
    treeTrace_run ⟨rfl, ?_⟩ (.inl rfl) (by simp) (by simp) (fun h => by rw [← posixBasename_inline] at h; exact absurd h (by decide +kernel))
    (by decide +kernel) treeFS_tree treeFS_steady h1 (fun _ _ _ => rfl)
    (by decide +kernel) _ ⟨fun _ _ _ _ _ => hlit _, fun _ _ _ => hlit _⟩ _ (by simp) (by simp) treeTrace_obliges treeFS_room treeFS_once
  intro p _ text hm
  simp [treeTrace, nothingInstalled] at hm

end Detox
