import Verif.Spec.DryTree
import Verif.Lemmas.Tree

/-!
# Dry runs over trees
-/

set_option autoImplicit false

namespace Detox
open Spec

section
variable {R : Bytes → Bytes → Prop} {o : Options} {E : List Event} {depth : Ino → Nat} {slack level : Nat} {fs : FS} {args ws : List Bytes}

/-- The settings: `tr` is the whole history. -/
structure DrySetting (R : Bytes → Bytes → Prop) (o : Options) (tr : List Event) (fs : FS) : Prop where
  dry : o.dryRun = true
  single : ∀ a b c, R a b → R a c → b = c
  empty : ∀ w, R [] w → w = []
  allowed : ∀ p r, Event.lstat p r ∈ tr → fs.denied p = false
  literal : ∀ h n, Event.readdir h (some n) ∈ tr → fs.Literal R n

theorem isAt_leads (ht : fs.Tree depth slack) {dir n : Bytes} {x : Ino} {e : Entry} (hd : dir = [] ∨ ∃ d, dir = d ++ [0x2F]) (hn : PlainName n)
    (hl : fs.Leads depth slack level dir x) (hlk : fs.denied (dir ++ n) = false) (hf : fs.find x n = some e) : fs.IsAt (dir ++ n) e := by
  obtain ⟨_, hed, _⟩ := FS_find_some hf
  exact ⟨dir, n, ⟨rfl, hn.slash, hd⟩, hn.nonempty, by rw [locate_of_leads ht hd hn hl hlk, hed], by rw [hed]; exact hf⟩

/-- What `parse_file` says of a name in a known directory. -/
theorem fileRun_dry (S : DrySetting R o E fs) {W W' : World} (hW : W.fs = fs) (ht : fs.Tree depth slack) {dir n p : Bytes} {x : Ino} {mid : List Event}
    (hd : dir = [] ∨ ∃ d, dir = d ++ [0x2F]) (hn : PlainName n) (hl : fs.Leads depth slack level dir x) (hf : FileRunBy R o (dir ++ n) mid p)
    (hs : World.Steps W mid W') (hE : ∀ e ∈ mid, e ∈ E) (hlk : fs.denied (dir ++ n) = false) (hlit : fs.Literal R n)
    (htr : ∀ e, fs.find x n = some e → fs.Treats o args Hidden e) :
    W' = W ∧ p = dir ++ n ∧ (∀ s, Event.out s ∈ mid → fs.Due R o args s) ∧ (∀ s, Event.err s ∈ mid → fs.Complaint R o args E s) ∧
    (fs.find x n = none → ∀ s, Event.out s ∉ mid ∧ Event.err s ∉ mid) ∧
    ∀ e, fs.find x n = some e → (∃ s, Event.err s ∈ E) ∨ ∀ v, R e.name v → v ≠ e.name → fs.Announced E e v := by
  have hlook := lookup_leads ht hd hn hl hlk
  have split : ∀ {dir' name' : Bytes}, SplitsAs (dir ++ n) dir' name' → dir' = dir ∧ name' = n := by
    intro dir' name' h
    have h2 : SplitsAs (dir ++ n) dir n := ⟨rfl, hn.slash, hd⟩
    exact ⟨(splitsAs_unique h).1.trans (splitsAs_unique h2).1.symm, (splitsAs_unique h).2.trans (splitsAs_unique h2).2.symm⟩
  have named : ∀ {e}, fs.find x n = some e → e ∈ fs.entries ∧ e.dir = x ∧ n = e.name := by
    intro e he
    obtain ⟨a, b, c⟩ := FS_find_some he
    exact ⟨a, b, hlit e a e.name (.inl rfl) (by rw [b]; exact c.symm)⟩
  have here : ∀ {so : Stat}, fs.lstat (dir ++ n) = some so → ∃ e, fs.find x n = some e ∧ fs.lookup (dir ++ n) = some e.ino := by
    intro so h
    obtain ⟨i, hi, _, _⟩ := FS_lstat_some h
    rw [hlook] at hi
    obtain ⟨e, he, hei⟩ := Option.map_eq_some_iff.1 hi
    exact ⟨e, he, by rw [hlook, he]; rfl⟩
  cases hf with
  | clean dir' name' h1 h2 =>
    obtain ⟨rfl, rfl⟩ := split h1
    refine ⟨world_nil hs, rfl, fun _ h => (by cases h), fun _ h => (by cases h), fun _ _ => ⟨by simp, by simp⟩, fun e he => .inr fun v hv hne => ?_⟩
    rcases h2 with h2 | h2 | h2
    · exact absurd h2 hn.dot
    · exact absurd h2 hn.dots
    · rw [(named he).2.2] at h2
      exact absurd (S.single _ _ _ hv h2) hne
  | gone dir' name' w h1 h2 h3 h4 h5 =>
    obtain ⟨rfl, rfl⟩ := split h1
    obtain ⟨a, b⟩ := world_lstat hs
    refine ⟨world_nil b, rfl, fun _ h => by simp at h, fun _ h => by simp at h, fun _ _ => ⟨by simp, by simp⟩, fun e he => ?_⟩
    rw [hW] at a
    have := lookup_none a
    rw [hlook, he] at this
    cases this
  | refused dir' name' w so sn h1 h2 h3 h4 h5 h6 =>
    obtain ⟨rfl, rfl⟩ := split h1
    obtain ⟨a, b⟩ := world_lstat hs
    obtain ⟨a2, b⟩ := world_lstat b
    rw [hW] at a a2
    obtain ⟨e, he, hi⟩ := here a
    obtain ⟨hm, hed, hne⟩ := named he
    refine ⟨world_nil (world_err b), rfl, fun _ h => by simp at h, fun s h => ?_, fun h => (by rw [he] at h; cases h), fun e he => .inl ⟨_, hE _ (by simp; rfl)⟩⟩
    have hs : s = lit "Cannot rename " ++ (dir' ++ name') ++ lit " to " ++ (dir' ++ w) ++ lit ": file already exists\n" := by simpa using h
    subst hs
    refine .taken e _ dir' w hm (htr e he) ⟨by rw [hne], by rw [← hne]; exact hn.slash, hd⟩ (isAt_leads ht hd hn hl hlk he) (by rw [← hne]; exact h4) (by rw [← hne]; exact h5) ?_
    by_cases hp : w ≠ [] ∧ (0x2F : Byte) ∉ w ∧ w ≠ [0x2E] ∧ w ≠ [0x2E, 0x2E]
    · have hlw : fs.denied (dir' ++ w) = false := S.allowed _ (some sn) (hE _ (by simp))
      have hlook2 := lookup_leads ht hd ⟨hp.1, hp.2.1, hp.2.2.1, hp.2.2.2⟩ hl hlw
      obtain ⟨i, hi2, g1, g2⟩ := FS_lstat_some a2
      rw [hlook2] at hi2
      obtain ⟨e2, he2, hei2⟩ := Option.map_eq_some_iff.1 hi2
      obtain ⟨hm2, hed2, hn2⟩ := FS_find_some he2
      refine .inr ⟨e2, hm2, hed2.trans hed.symm, by rw [hed]; exact hn2.symm, ?_⟩
      rintro ⟨rfl, hk, hnm⟩
      apply h6
      obtain ⟨i', hi', g1', g2'⟩ := FS_lstat_some a
      rw [hi] at hi'
      cases hi'
      subst hei2
      refine ⟨g1.trans g1'.symm, g2.trans g2'.symm, ?_⟩
      unfold FS.lstat at a
      rw [hi] at a
      simp only [Option.map_some, hk, if_false, Option.some.injEq] at a
      rw [← a]
      exact hnm
    · exact .inl hp
  | dry dir' name' w so rn h1 h2 h3 h4 h5 h6 h7 =>
    obtain ⟨rfl, rfl⟩ := split h1
    obtain ⟨a, b⟩ := world_lstat hs
    obtain ⟨a2, b⟩ := world_lstat b
    rw [hW] at a a2
    obtain ⟨e, he, hi⟩ := here a
    obtain ⟨hm, hed, hne⟩ := named he
    have hsp : SplitsAs (dir' ++ name') dir' e.name := ⟨by rw [hne], by rw [← hne]; exact hn.slash, hd⟩
    have hat := isAt_leads ht hd hn hl hlk he
    refine ⟨world_nil (world_out b), rfl, fun s h => ?_, fun _ h => by simp at h, fun h => (by rw [he] at h; cases h), fun e' he' => .inr fun v hv hv' => ?_⟩
    · refine ⟨e, hm, htr e he, _, dir', w, hsp, hat, by rw [← hne]; exact h4, by rw [← hne]; exact h5, ?_⟩
      simpa [arrow] using h
    · rw [he] at he'
      cases he'
      rw [← hne] at hv
      have := S.single _ _ _ hv h4
      subst this
      exact ⟨_, dir', hsp, hat, hE _ (by simp [arrow])⟩
  | renamed _ _ _ _ _ _ _ _ _ _ _ h => rw [S.dry] at h; cases h
  | failed _ _ _ _ _ _ _ _ _ _ _ h => rw [S.dry] at h; cases h

/-- The entry has been dealt with. -/
def Told (fs : FS) (R : Bytes → Bytes → Prop) (o : Options) (ws : List Bytes) (E : List Event) (W : World) (e : Entry) : Prop :=
  (∃ s, Event.err s ∈ E) ∨ (Hidden e.name ∨ e.name ∈ ws ∨ (fs.kind e.ino ≠ .dir ∧ fs.kind e.ino ≠ .reg ∧ o.special = false)) ∨
  ((∀ v, R e.name v → v ≠ e.name → fs.Announced E e v) ∧ (o.recurse = true → fs.kind e.ino = .dir → ∃ p, (e.ino, p) ∈ W.opened))

theorem Told.mono {W W' : World} {e : Entry} (h : Told fs R o ws E W e) (ho : ∀ a ∈ W.opened, a ∈ W'.opened) : Told fs R o ws E W' e := by
  rcases h with h | h | ⟨h1, h2⟩
  · exact .inl h
  · exact .inr (.inl h)
  · exact .inr (.inr ⟨h1, fun a b => (h2 a b).imp fun p hp => ho _ hp⟩)

/-- What a part of a dry run leaves as it is, and what it says. -/
structure DryKeeps (fs : FS) (R : Bytes → Bytes → Prop) (o : Options) (args ws : List Bytes) (E : List Event) (X : Nat → Prop) (tr : List Event) (W W' : World) :
    Prop where
  same : W'.fs = W.fs
  streams : ∀ k, ¬ X k → W'.streams k = W.streams k
  opened : ∀ a ∈ W.opened, a ∈ W'.opened
  fresh : ∀ a ∈ W'.opened, a ∈ W.opened ∨ ∀ e ∈ fs.entries, e.dir = a.1 → Told fs R o ws E W' e
  lines : ∀ s, Event.out s ∈ tr → fs.Due R o args s
  errors : ∀ s, Event.err s ∈ tr → fs.Complaint R o args E s

theorem DryKeeps.refl {X : Nat → Prop} {tr : List Event} {W : World} (h1 : ∀ s, Event.out s ∉ tr) (h2 : ∀ s, Event.err s ∉ tr) :
    DryKeeps fs R o args ws E X tr W W :=
  ⟨rfl, fun _ _ => rfl, fun _ h => h, fun _ h => .inl h, fun s h => absurd h (h1 s), fun s h => absurd h (h2 s)⟩

theorem DryKeeps.trans {X : Nat → Prop} {t1 t2 : List Event} {W W' W'' : World} (h1 : DryKeeps fs R o args ws E X t1 W W')
    (h2 : DryKeeps fs R o args ws E X t2 W' W'') : DryKeeps fs R o args ws E X (t1 ++ t2) W W'' := by
  refine ⟨h2.same.trans h1.same, fun k hk => (h2.streams k hk).trans (h1.streams k hk), fun a ha => h2.opened a (h1.opened a ha), fun a ha => ?_,
    fun s hs => ?_, fun s hs => ?_⟩
  · rcases h2.fresh a ha with h | h
    · rcases h1.fresh a h with h' | h'
      · exact .inl h'
      · exact .inr fun e he hd => (h' e he hd).mono h2.opened
    · exact .inr h
  · rcases List.mem_append.1 hs with h | h
    · exact h1.lines s h
    · exact h2.lines s h
  · rcases List.mem_append.1 hs with h | h
    · exact h1.errors s h
    · exact h2.errors s h

theorem DryKeeps.weaken {X X' : Nat → Prop} {tr : List Event} {W W' : World} (h : DryKeeps fs R o args ws E X' tr W W') (hx : ∀ k, X' k → X k) :
    DryKeeps fs R o args ws E X tr W W' :=
  ⟨h.same, fun k hk => h.streams k fun hx' => hk (hx k hx'), h.opened, h.fresh, h.lines, h.errors⟩

theorem DryKeeps.more {X : Nat → Prop} {t1 t2 : List Event} {W W' : World} (h : DryKeeps fs R o args ws E X t1 W W')
    (h1 : ∀ s, Event.out s ∈ t2 → Event.out s ∈ t1) (h2 : ∀ s, Event.err s ∈ t2 → Event.err s ∈ t1) : DryKeeps fs R o args ws E X t2 W W' :=
  ⟨h.same, h.streams, h.opened, h.fresh, fun s hs => h.lines s (h1 s hs), fun s hs => h.errors s (h2 s hs)⟩

/-- What a task achieves in a dry run. -/
def DryGoal (fs : FS) (R : Bytes → Bytes → Prop) (o : Options) (args ws : List Bytes) (E : List Event) (depth : Ino → Nat) (slack : Nat) (tr : List Event) :
    Task → World → World → Prop
  | .dir p, W, W' => p ≠ [] → (fs.lookup p = none → W' = W ∧ ∀ s, Event.out s ∉ tr ∧ Event.err s ∉ tr) ∧
      ∀ d, fs.Leads depth slack (depth d) p d → fs.lookup p = some d → fs.Scans o args Hidden d →
        DryKeeps fs R o args ws E (fun _ => False) tr W W' ∧ ((∃ s, Event.err s ∈ E) ∨ ∃ p, (d, p) ∈ W'.opened)
  | .entries h p _, W, W' => ∀ d owed, W.streams h = some ⟨d, owed⟩ → p ≠ [] → fs.Leads depth slack (depth d) p d → fs.Scans o args Hidden d →
      DryKeeps fs R o args ws E (· = h) tr W W' ∧ W'.streams h = none ∧ ∀ e ∈ fs.entries, e.dir = d → Told fs R o ws E W' e ∨ e.name ∉ owed

theorem DryKeeps.given {W : World} {h : Nat} {d : Ino} {owed : List Bytes} {n : Bytes} :
    DryKeeps fs R o args ws E (· = h) [.readdir h (some n)] W (W.given h d owed n) :=
  ⟨rfl, fun k hk => by simp [World.given, hk], fun _ h => h, fun _ h => .inl h, fun s h => by simp at h, fun s h => by simp at h⟩

/-- One name dealt with, then the others. -/
theorem dry_done {W W4 W' : World} {h : Nat} {d : Ino} {owed : List Bytes} {n : Bytes} {t1 t2 : List Event}
    (hK : DryKeeps fs R o args ws E (fun _ => False) t1 (W.given h d owed n) W4)
    (hn : ∀ e ∈ fs.entries, e.dir = d → e.name = n → Told fs R o ws E W4 e)
    (hr : ∀ owed4, W4.streams h = some ⟨d, owed4⟩ → DryKeeps fs R o args ws E (· = h) t2 W4 W' ∧ W'.streams h = none ∧
      ∀ e ∈ fs.entries, e.dir = d → Told fs R o ws E W' e ∨ e.name ∉ owed4) :
    DryKeeps fs R o args ws E (· = h) (.readdir h (some n) :: (t1 ++ t2)) W W' ∧ W'.streams h = none ∧
      ∀ e ∈ fs.entries, e.dir = d → Told fs R o ws E W' e ∨ e.name ∉ owed := by
  have h4 : W4.streams h = some ⟨d, owed.filter (· ≠ n)⟩ := by rw [hK.streams h (fun x => x)]; simp [World.given]
  obtain ⟨k2, g1, g2⟩ := hr _ h4
  refine ⟨(DryKeeps.given.trans (hK.weaken fun _ h => h.elim)).trans k2 |>.more (by simp) (by simp), g1, fun e he hd => ?_⟩
  rcases g2 e he hd with h' | h'
  · exact .inl h'
  · by_cases hen : e.name = n
    · exact .inl ((hn e he hd hen).mono k2.opened)
    · exact .inr fun ho => h' (List.mem_filter.2 ⟨ho, by simpa using hen⟩)

theorem scan_dry (S : DrySetting R o E fs) (ht : fs.Tree depth slack) {t : Task} {seen seen' : List Bytes} {tr : List Event}
    (h : ScanBy R o ws t seen tr seen') : (∀ e ∈ tr, e ∈ E) → ∀ W W' : World, W.fs = fs → World.Steps W tr W' →
    DryGoal fs R o args ws E depth slack tr t W W' := by
  induction h with
  | gone p seen =>
    intro hE W W' hW hs hp
    obtain ⟨a, b⟩ := world_lstat hs
    rw [hW] at a
    exact ⟨fun _ => ⟨world_nil b, fun s => ⟨by simp, by simp⟩⟩, fun d _ hlk => by rw [lookup_none a] at hlk; cases hlk⟩
  | replaced p st seen hk =>
    intro hE W W' hW hs hp
    obtain ⟨a, b⟩ := world_lstat hs
    rw [hW] at a
    exact ⟨fun _ => ⟨world_nil b, fun s => ⟨by simp, by simp⟩⟩, fun d hl hlk => absurd ((lstat_kind hlk a).1.trans hl.kind) hk⟩
  | closed p st seen hk =>
    intro hE W W' hW hs hp
    obtain ⟨a, b⟩ := world_lstat hs
    rw [hW] at a
    refine ⟨fun hx => (by rw [lstat_none hx] at a; cases a), fun d hl hlk hsc => ?_⟩
    have hd : fs.denied p = false := S.allowed p (some st) (hE _ (by simp))
    have hfo := follow_leads ht hp hd hl
    cases b with
    | cons _ _ _ _ _ s1 t1 =>
      cases s1 with
      | refused _ _ _ =>
        have := world_nil (world_err t1)
        subst this
        refine ⟨⟨rfl, fun _ _ => rfl, fun _ h => h, fun _ h => .inl h, fun s h => by simp at h, fun s h => ?_⟩, .inl ⟨_, hE (.err (lit "unable to parse: ")) (by simp)⟩⟩
        have : s = lit "unable to parse: " := by simpa using h
        subst this
        exact .unread p d (hE _ (by simp)) hfo hl.kind
  | opened p st h seen seen' tr hk _ ih =>
    intro hE W W' hW hs hp
    obtain ⟨a, b⟩ := world_lstat hs
    rw [hW] at a
    refine ⟨fun hx => (by rw [lstat_none hx] at a; cases a), fun d hl hlk hsc => ?_⟩
    have hd : fs.denied p = false := S.allowed p (some st) (hE _ (by simp))
    have hfo := follow_leads ht hp hd hl
    cases b with
    | cons _ _ _ _ _ s1 t1 =>
      cases s1 with
      | refused _ _ hno => exact absurd rfl (hno h)
      | opened _ _ d' h1 h2 h3 =>
        rw [hW, hfo] at h1
        cases h1
        clear hs
        obtain ⟨k1, hend, k2⟩ := ih (fun e he => hE e (by simp [he])) (W.inside h d p) _ hW t1 d (W.fs.namesIn d) (by simp [World.inside]) hp hl hsc
        refine ⟨⟨k1.same, fun k _ => ?_, fun x hx => k1.opened x (by simp [World.inside, hx]), ?_, fun s hs => k1.lines s (by simpa using hs),
          fun s hs => k1.errors s (by simpa using hs)⟩, .inr ⟨p, k1.opened _ (by simp [World.inside])⟩⟩
        · by_cases hkh : k = h
          · rw [hkh, hend, h3]
          · rw [k1.streams k hkh]; simp [World.inside, hkh]
        · intro x hx
          rcases k1.fresh x hx with hh | hh
          · rcases List.mem_cons.1 hh with rfl | hh
            · refine .inr fun e he hde => ?_
              rcases k2 e he hde with hse | hno
              · exact hse
              · refine absurd ?_ hno
                unfold FS.namesIn
                rw [List.mem_map]
                exact ⟨e, by rw [List.mem_filter, hW]; exact ⟨he, by simpa using hde⟩, rfl⟩
            · exact .inl hh
          · exact .inr hh
  | finish h p st seen =>
    intro hE W W' hW hs d owed hst hp hl hsc
    cases hs with
    | cons _ _ _ _ _ s1 t1 =>
      cases s1 with
      | finished _ s h1 h2 =>
        rw [hst] at h1
        cases h1
        dsimp only at h2
        subst h2
        cases t1 with
        | cons _ _ _ _ _ s2 t2 =>
          cases s2
          have := world_nil t2
          subst this
          exact ⟨⟨rfl, fun k hk => by simp [hk], fun _ h => h, fun _ h => .inl h, fun s h => by simp at h, fun s h => by simp at h⟩, by simp,
            fun e he _ => .inr (by simp)⟩
  | pass h p st name seen seen' tr hpass _ ih =>
    intro hE W W' hW hs d owed hst hp hl hsc
    obtain ⟨hen, hs⟩ := world_readdir hst hs
    refine dry_done (t1 := []) (W4 := W.given h d owed name) (.refl (by simp) (by simp)) ?_ (fun owed4 h4 =>
      ih (fun e he => hE e (by simp [he])) (W.given h d owed name) _ hW hs d owed4 h4 hp hl hsc)
    intro e _ _ hne
    refine .inr (.inl ?_)
    rw [hne]
    rcases hpass with hpass | hpass
    · exact .inl hpass
    · exact .inr (.inl (List.mem_of_mem_drop hpass))
  | leave h p st name r seen seen' tr hpass hkd hkr hsp _ ih =>
    intro hE W W' hW hs d owed hst hp hl hsc
    obtain ⟨hen, hs⟩ := world_readdir hst hs
    obtain ⟨a, hs⟩ := world_lstat hs
    rw [show (W.given h d owed name).fs = fs from hW] at a
    refine dry_done (t1 := [.lstat _ r]) (W4 := W.given h d owed name) (.refl (by simp) (by simp)) ?_ (fun owed4 h4 =>
      ih (fun e he => hE e (by simp [he])) (W.given h d owed name) _ hW hs d owed4 h4 hp hl hsc)
    intro e he hd hne
    have hplain : PlainName name := ⟨hen.nonempty, hen.slash, fun h0 => hpass (.inl ⟨_, h0⟩), fun h0 => hpass (.inl ⟨_, h0⟩)⟩
    have hfe : fs.find d name = some e := by rw [← hd, ← hne]; exact find_exact ht.unique he
    rw [entryPath_short hen.short] at a hE
    have hlk := lookup_leads ht (.inr ⟨p, rfl⟩) hplain (leads_slash hp hl) (S.allowed _ r (hE _ (by simp)))
    rw [hfe] at hlk
    cases r with
    | none => rw [lookup_none a] at hlk; cases hlk
    | some st' =>
      obtain ⟨b, _, _⟩ := lstat_kind hlk a
      exact .inr (.inl (.inr (.inr ⟨by rw [← b]; exact hkd, by rw [← b]; exact hkr, hsp⟩)))
  | file h p st name r seen seen' mid tr q hpass hkind hf _ ih =>
    intro hE W W' hW hs d owed hst hp hl hsc
    obtain ⟨hen, hs⟩ := world_readdir hst hs
    obtain ⟨a, hs⟩ := world_lstat hs
    rw [show (W.given h d owed name).fs = fs from hW] at a
    obtain ⟨W4, hs1, hs2⟩ := World.Steps.append_inv hs
    have hplain : PlainName name := ⟨hen.nonempty, hen.slash, fun h0 => hpass (.inl ⟨_, h0⟩), fun h0 => hpass (.inl ⟨_, h0⟩)⟩
    have hlit := S.literal h name (hE _ (by simp))
    have hE' := hE
    rw [entryPath_short hen.short] at a hE' hf
    have hallow : fs.denied ((p ++ [0x2F]) ++ name) = false := S.allowed _ r (hE' _ (by simp))
    have hls := leads_slash hp hl
    have hlk := lookup_leads ht (.inr ⟨p, rfl⟩) hplain hls hallow
    have kinds : ∀ e, fs.find d name = some e → (r.getD st).kind = fs.kind e.ino ∧ e.name = name ∧ e.dir = d := by
      intro e hfe
      obtain ⟨h1, h2, h3⟩ := FS_find_some hfe
      refine ⟨?_, (hlit e h1 e.name (.inl rfl) (by rw [h2]; exact h3.symm)).symm, h2⟩
      rw [hfe] at hlk
      cases r with
      | none => rw [lookup_none a] at hlk; cases hlk
      | some st' => exact (lstat_kind hlk a).1
    obtain ⟨f1, f2, f3, f4, _, f6⟩ := fileRun_dry (args := args) (W := W.given h d owed name) S hW ht (.inr ⟨p, rfl⟩) hplain hls hf hs1
      (fun e he => hE e (by simp [he])) hallow hlit (by
        intro e hfe
        obtain ⟨h1, h2, h3⟩ := kinds e hfe
        refine ⟨?_, .inr ⟨by rw [h3]; exact hsc, fun hh => hpass (.inl (by rw [← h2]; exact hh))⟩⟩
        rw [← h1]
        rcases hkind with h | h | h
        · exact .inl h.1
        · exact .inr (.inl h)
        · exact .inr (.inr h.2))
    subst f1
    have hK : DryKeeps fs R o args ws E (fun _ => False) (.lstat (entryPath p name) r :: mid) (W.given h d owed name) (W.given h d owed name) :=
      ⟨rfl, fun _ _ => rfl, fun _ h => h, fun _ h => .inl h, fun s h => f3 s (by simpa using h), fun s h => f4 s (by simpa using h)⟩
    refine dry_done hK ?_ (fun owed4 h4 => ih (fun e he => hE e (by simp [he])) (W.given h d owed name) _ hW hs2 d owed4 h4 hp hl hsc)
    intro e he hd hne
    have hfe : fs.find d name = some e := by rw [← hd, ← hne]; exact find_exact ht.unique he
    rcases f6 e hfe with h | h
    · exact .inl h
    · refine .inr (.inr ⟨h, fun hrec hk => ?_⟩)
      rw [← (kinds e hfe).1] at hk
      rw [hk, hrec] at hkind
      rcases hkind with ⟨_, h1⟩ | h1 | ⟨h1, _⟩
      · cases h1
      · cases h1
      · exact absurd rfl h1
  | recurse h p st name r seen seen1 seen' mid sub tr q hpass hkind hrec hf _ _ ih1 ih2 =>
    intro hE W W' hW hs d owed hst hp hl hsc
    obtain ⟨hen, hs⟩ := world_readdir hst hs
    obtain ⟨a, hs⟩ := world_lstat hs
    rw [show (W.given h d owed name).fs = fs from hW] at a
    obtain ⟨W3, hs1, hs2⟩ := World.Steps.append_inv hs
    obtain ⟨W4, hs2, hs3⟩ := World.Steps.append_inv hs2
    have hplain : PlainName name := ⟨hen.nonempty, hen.slash, fun h0 => hpass (.inl ⟨_, h0⟩), fun h0 => hpass (.inl ⟨_, h0⟩)⟩
    have hlit := S.literal h name (hE _ (by simp))
    have hE' := hE
    rw [entryPath_short hen.short] at a hE' hf
    have hallow : fs.denied ((p ++ [0x2F]) ++ name) = false := S.allowed _ r (hE' _ (by simp))
    have hls := leads_slash hp hl
    have hlk := lookup_leads ht (.inr ⟨p, rfl⟩) hplain hls hallow
    have kinds : ∀ e, fs.find d name = some e → fs.kind e.ino = .dir ∧ e.name = name ∧ e.dir = d := by
      intro e hfe
      obtain ⟨h1, h2, h3⟩ := FS_find_some hfe
      refine ⟨?_, (hlit e h1 e.name (.inl rfl) (by rw [h2]; exact h3.symm)).symm, h2⟩
      rw [hfe] at hlk
      cases r with
      | none => rw [lookup_none a] at hlk; cases hlk
      | some st' => rw [← (lstat_kind hlk a).1]; exact hkind
    obtain ⟨f1, f2, f3, f4, f5, f6⟩ := fileRun_dry (args := args) (W := W.given h d owed name) S hW ht (.inr ⟨p, rfl⟩) hplain hls hf hs1
      (fun e he => hE e (by simp [he])) hallow hlit (by
        intro e hfe
        obtain ⟨h1, h2, h3⟩ := kinds e hfe
        exact ⟨.inl h1, .inr ⟨by rw [h3]; exact hsc, fun hh => hpass (.inl (by rw [← h2]; exact hh))⟩⟩)
    subst f1
    subst f2
    obtain ⟨g1, g2⟩ := ih1 (fun e he => hE e (by simp [he])) (W.given h d owed name) W4 hW hs2 (by simp)
    rw [show (Event.readdir h (some name) :: Event.lstat (entryPath p name) r :: (mid ++ (sub ++ tr))) =
      .readdir h (some name) :: ((.lstat (entryPath p name) r :: (mid ++ sub)) ++ tr) from by simp]
    have hmid : DryKeeps fs R o args ws E (fun _ => False) mid (W.given h d owed name) (W.given h d owed name) :=
      ⟨rfl, fun _ _ => rfl, fun _ h => h, fun _ h => .inl h, f3, f4⟩
    cases hfe : fs.find d name with
    | none =>
      rw [hfe] at hlk
      obtain ⟨rfl, g3⟩ := g1 hlk
      refine dry_done (DryKeeps.more hmid ?_ ?_) ?_ (fun owed4 h4 => ih2 (fun e he => hE e (by simp [he])) (W.given h d owed name) _ hW hs3 d owed4 h4 hp hl hsc)
      · intro s hm
        simp only [List.mem_cons, reduceCtorEq, List.mem_append, false_or] at hm
        exact hm.resolve_right (g3 s).1
      · intro s hm
        simp only [List.mem_cons, reduceCtorEq, List.mem_append, false_or] at hm
        exact hm.resolve_right (g3 s).2
      · intro e he hd hne
        rw [← hd, ← hne, find_exact ht.unique he] at hfe
        cases hfe
    | some e =>
      obtain ⟨hkd, hen', hed⟩ := kinds e hfe
      rw [hfe] at hlk
      have hsub : fs.Scans o args Hidden e.ino := .sub e (FS_find_some hfe).1 (by rw [hed]; exact hsc) hrec hkd fun hh => hpass (.inl (by rw [← hen']; exact hh))
      obtain ⟨g3, g4⟩ := g2 e.ino (leads_entry ht (.inr ⟨p, rfl⟩) hplain hls hfe hkd) hlk hsub
      have hK := (hmid.trans g3).more (t2 := .lstat (entryPath p name) r :: (mid ++ sub)) (by simp) (by simp)
      refine dry_done hK ?_ (fun owed4 h4 => ih2 (fun e he => hE e (by simp [he])) W4 _ (hK.same.trans hW) hs3 d owed4 h4 hp hl hsc)
      intro e' he' hd' hne'
      have : e' = e := by
        rw [← hd', ← hne', find_exact ht.unique he'] at hfe; exact Option.some.inj hfe
      subst this
      rcases f6 e' hfe with h | h
      · exact .inl h
      · rcases g4 with g4 | g4
        · exact .inl g4
        · exact .inr (.inr ⟨h, fun _ _ => g4⟩)

/-- What an argument leads to. -/
def ToldOf (fs : FS) (R : Bytes → Bytes → Prop) (o : Options) (E : List Event) (W : World) (f : Bytes) : Prop :=
  (∃ s, Event.err s ∈ E) ∨
  ((∀ e, fs.IsAt f e → (fs.kind e.ino = .dir ∨ fs.kind e.ino = .reg ∨ o.special = true) → ∀ v, R e.name v → v ≠ e.name → fs.Announced E e v) ∧
    ∀ d, fs.lookup f = some d → fs.kind d = .dir → ∃ p, (d, p) ∈ W.opened)

theorem ToldOf.mono {W W' : World} {f : Bytes} (h : ToldOf fs R o E W f) (ho : ∀ a ∈ W.opened, a ∈ W'.opened) : ToldOf fs R o E W' f :=
  h.imp id fun ⟨h1, h2⟩ => ⟨h1, fun d a b => (h2 d a b).imp fun _ hp => ho _ hp⟩

theorem arg_dry (S : DrySetting R o E fs) (ht : fs.Tree depth slack) {f : Bytes} {seen seen' : List Bytes} {tr : List Event}
    (h : ArgScanBy R o ws f seen tr seen') (hE : ∀ e ∈ tr, e ∈ E) {W W' : World} (hW : W.fs = fs) (hst : fs.Steady depth slack level f)
    (hf : f ∈ args) (hlf : ∀ dir name, SplitsAs f dir name → fs.Literal R name) (hs : World.Steps W tr W') :
    DryKeeps fs R o args ws E (fun _ => False) tr W W' ∧ ToldOf fs R o E W' f := by
  cases h with
  | missing _ =>
    obtain ⟨a, b⟩ := world_lstat hs
    have := world_nil (world_err b)
    subst this
    rw [hW] at a
    refine ⟨⟨rfl, fun _ _ => rfl, fun _ h => h, fun _ h => .inl h, fun s h => by simp at h, fun s h => ?_⟩, .inl ⟨_, hE (.err (f ++ lit ": ")) (by simp)⟩⟩
    have : s = f ++ lit ": " := by simpa using h
    subst this
    exact .missing f hf (lookup_none a)
  | leave st _ h1 h2 h3 =>
    obtain ⟨a, b⟩ := world_lstat hs
    have := world_nil b
    subst this
    rw [hW] at a
    obtain ⟨i, hi, _, _⟩ := FS_lstat_some a
    have hk := (lstat_kind hi a).1
    refine ⟨.refl (by simp) (by simp), .inr ⟨fun e he hke => ?_, fun d hd hkd => ?_⟩⟩
    · have : i = e.ino := by
        cases hst with
        | self dir name d g1 g2 g3 g4 g5 => exact absurd he (isAt_dots g1 g2 g3)
        | name dir name x g1 g2 g3 g4 g5 g6 g7 =>
          subst g1
          have hallow := S.allowed (dir ++ name) (some st) (hE _ (by simp))
          have hplain : PlainName name := ⟨g4, g3, g5, g6⟩
          rw [lookup_leads ht g2 hplain g7 hallow] at hi
          obtain ⟨dir', name', h4, h5, h6, h7⟩ := he
          rw [locate_of_leads ht g2 hplain g7 hallow] at h6
          cases h6
          rw [h7] at hi
          exact (Option.some.inj hi).symm
      rw [← this, ← hk] at hke
      rcases hke with hke | hke | hke
      · exact absurd hke h1
      · exact absurd hke h2
      · rw [h3] at hke; cases hke
    · rw [hi] at hd
      cases hd
      exact absurd (hk.trans hkd) h1
  | file st _ mid p hk hfr =>
    obtain ⟨a, b⟩ := world_lstat hs
    rw [hW] at a
    obtain ⟨i, hi, _, _⟩ := FS_lstat_some a
    have hkind := (lstat_kind hi a).1
    have hno : ∀ d, fs.lookup f = some d → fs.kind d = .dir → ∃ p, (d, p) ∈ W'.opened := by
      intro d hd hkd
      rw [hi] at hd
      cases hd
      rw [← hkind] at hkd
      rw [hkd] at hk
      rcases hk with hk | hk
      · cases hk
      · exact absurd rfl hk.1
    cases hst with
    | self dir name d g1 g2 g3 g4 g5 =>
      obtain ⟨rfl, rfl⟩ := fileRun_self S.empty hfr g1 g2 g3
      have := world_nil b
      subst this
      exact ⟨.refl (by simp) (by simp), .inr ⟨fun e he => absurd he (isAt_dots g1 g2 g3), hno⟩⟩
    | name dir name x g1 g2 g3 g4 g5 g6 g7 =>
      subst g1
      have hallow := S.allowed (dir ++ name) (some st) (hE _ (by simp))
      have hplain : PlainName name := ⟨g4, g3, g5, g6⟩
      have hlk := lookup_leads ht g2 hplain g7 hallow
      rw [hi] at hlk
      obtain ⟨e, hfe, hei⟩ := Option.map_eq_some_iff.1 hlk.symm
      have hat := isAt_leads ht g2 hplain g7 hallow hfe
      obtain ⟨f1, f2, f3, f4, _, f6⟩ := fileRun_dry (args := args) S hW ht g2 hplain g7 hfr b (fun e he => hE e (by simp [he])) hallow
        (hlf dir name ⟨rfl, g3, g2⟩) (by
          intro e' he'
          rw [hfe] at he'
          cases he'
          refine ⟨?_, .inl ⟨_, hf, hat⟩⟩
          rw [hei, ← hkind]
          rcases hk with hk | hk
          · exact .inr (.inl hk)
          · exact .inr (.inr hk.2))
      subst f1
      refine ⟨⟨rfl, fun _ _ => rfl, fun _ h => h, fun _ h => .inl h, fun s h => f3 s (by simpa using h), fun s h => f4 s (by simpa using h)⟩, ?_⟩
      rcases f6 e hfe with h | h
      · exact .inl h
      · refine .inr ⟨fun e' he' _ => ?_, hno⟩
        obtain ⟨dir', name', h4, h5, h6, h7⟩ := he'
        rw [locate_of_leads ht g2 hplain g7 hallow] at h6
        cases h6
        rw [h7] at hfe
        cases hfe
        exact h
  | dir st _ _ mid sub p hk hfr hsub =>
    obtain ⟨a, b⟩ := world_lstat hs
    rw [hW] at a
    obtain ⟨W3, b, c⟩ := World.Steps.append_inv b
    obtain ⟨i, hi, _, _⟩ := FS_lstat_some a
    have hkind := (lstat_kind hi a).1
    have hki : fs.kind i = .dir := hkind.symm.trans hk
    have hsc : fs.Scans o args Hidden i := .arg f i hf hi hki
    have hin : ∀ {V : World}, (∃ p, (i, p) ∈ V.opened) → ∀ d, fs.lookup f = some d → fs.kind d = .dir → ∃ p, (d, p) ∈ V.opened := by
      intro V hV d hd _
      rw [hi] at hd
      cases hd
      exact hV
    cases hst with
    | self dir name d g1 g2 g3 g4 g5 =>
      obtain ⟨rfl, rfl⟩ := fileRun_self S.empty hfr g1 g2 g3
      have := world_nil b
      subst this
      have hid := lookup_self g5 hi hki
      subst hid
      obtain ⟨_, q⟩ := scan_dry (args := args) S ht hsub (fun e he => hE e (by simp [he])) _ _ hW c g4
      obtain ⟨q1, q2⟩ := q i (leads_level g5) hi hsc
      refine ⟨q1.more (by simp) (by simp), q2.imp id fun q2 => ⟨fun e he => absurd he (isAt_dots g1 g2 g3), hin q2⟩⟩
    | name dir name x g1 g2 g3 g4 g5 g6 g7 =>
      subst g1
      have hallow := S.allowed (dir ++ name) (some st) (hE _ (by simp))
      have hplain : PlainName name := ⟨g4, g3, g5, g6⟩
      have hlk := lookup_leads ht g2 hplain g7 hallow
      rw [hi] at hlk
      obtain ⟨e, hfe, hei⟩ := Option.map_eq_some_iff.1 hlk.symm
      have hat := isAt_leads ht g2 hplain g7 hallow hfe
      obtain ⟨f1, f2, f3, f4, _, f6⟩ := fileRun_dry (args := args) S hW ht g2 hplain g7 hfr b (fun e he => hE e (by simp [he])) hallow
        (hlf dir name ⟨rfl, g3, g2⟩) (by
          intro e' he'
          rw [hfe] at he'
          cases he'
          exact ⟨.inl (by rw [hei]; exact hki), .inl ⟨_, hf, hat⟩⟩)
      subst f1
      subst f2
      obtain ⟨_, q⟩ := scan_dry (args := args) S ht hsub (fun e he => hE e (by simp [he])) _ _ hW c (by simp [g4])
      obtain ⟨q1, q2⟩ := q e.ino (leads_entry ht g2 hplain g7 hfe (by rw [hei]; exact hki)) (by rw [hei]; exact hi) (by rw [hei]; exact hsc)
      have hmid : DryKeeps fs R o args ws E (fun _ => False) mid W3 W3 := ⟨rfl, fun _ _ => rfl, fun _ h => h, fun _ h => .inl h, f3, f4⟩
      refine ⟨(hmid.trans q1).more (by simp) (by simp), ?_⟩
      rcases f6 e hfe with h | h
      · exact .inl h
      rcases q2 with q2 | q2
      · exact .inl q2
      · refine .inr ⟨fun e' he' _ => ?_, hin (by rw [← hei]; exact q2)⟩
        obtain ⟨dir', name', h4, h5, h6, h7⟩ := he'
        rw [locate_of_leads ht g2 hplain g7 hallow] at h6
        cases h6
        rw [h7] at hfe
        cases hfe
        exact h

theorem args_dry (S : DrySetting R o E fs) (ht : fs.Tree depth slack) {l : List Bytes} {seen seen' : List Bytes} {tr : List Event}
    (h : ArgsScanBy R o ws l seen tr seen') : (∀ e ∈ tr, e ∈ E) → ∀ {W W' : World}, W.fs = fs → (∀ f ∈ l, fs.Steady depth slack level f) →
    (∀ f ∈ l, f ∈ args) → (∀ f ∈ l, ∀ dir name, SplitsAs f dir name → fs.Literal R name) → World.Steps W tr W' →
    W'.fs = fs ∧ (∀ a ∈ W.opened, a ∈ W'.opened) ∧ (∀ a ∈ W'.opened, a ∈ W.opened ∨ ∀ e ∈ fs.entries, e.dir = a.1 → Told fs R o ws E W' e) ∧
      (∀ s, Event.out s ∈ tr → (o.verbose ≠ 0 ∧ ∃ f ∈ l, s = lit "Scanning: " ++ f ++ lit "\n") ∨ fs.Due R o args s) ∧
      (∀ s, Event.err s ∈ tr → fs.Complaint R o args E s) ∧ ∀ f ∈ l, ToldOf fs R o E W' f := by
  induction h with
  | nil seen =>
    intro _ W W' hW _ _ _ hs
    have := world_nil hs
    subst this
    exact ⟨hW, fun _ h => h, fun _ h => .inl h, fun _ h => (by cases h), fun _ h => (by cases h), fun _ h => (by cases h)⟩
  | cons f l seen seen1 seen' t tr hf _ ih =>
    intro hE W W' hW hst ha hlf hs
    rw [List.append_assoc] at hs
    obtain ⟨W0, hs0, hs'⟩ := World.Steps.append_inv hs
    clear hs
    have : W0 = W := by
      split at hs0
      · exact world_nil hs0
      · exact world_nil (world_out hs0)
    subst this
    obtain ⟨W1, hs1, hs2⟩ := World.Steps.append_inv hs'
    obtain ⟨k1, a1⟩ := arg_dry S ht hf (fun e he => hE e (by simp [he])) hW (hst f (by simp)) (ha f (by simp)) (hlf f (by simp)) hs1
    obtain ⟨b1, b2, b3, b4, b5, b6⟩ := ih (fun e he => hE e (by simp [he])) (k1.same.trans hW) (fun g hg => hst g (by simp [hg]))
      (fun g hg => ha g (by simp [hg])) (fun g hg => hlf g (by simp [hg])) hs2
    refine ⟨b1, fun a h => b2 a (k1.opened a h), fun a h => ?_, fun s h => ?_, fun s h => ?_, fun g hg => ?_⟩
    · rcases b3 a h with h' | h'
      · rcases k1.fresh a h' with h'' | h''
        · exact .inl h''
        · exact .inr fun e he hd => (h'' e he hd).mono b2
      · exact .inr h'
    · rcases List.mem_append.1 h with h' | h'
      · rcases List.mem_append.1 h' with h'' | h''
        · by_cases hv : o.verbose = 0
          · rw [if_pos hv] at h''; cases h''
          · rw [if_neg hv] at h''
            exact .inl ⟨hv, f, by simp, by simpa using h''⟩
        · exact .inr (k1.lines s h'')
      · rcases b4 s h' with ⟨c1, g, c2, c3⟩ | c
        · exact .inl ⟨c1, g, by simp [c2], c3⟩
        · exact .inr c
    · rcases List.mem_append.1 h with h' | h'
      · rcases List.mem_append.1 h' with h'' | h''
        · by_cases hv : o.verbose = 0
          · rw [if_pos hv] at h''; cases h''
          · rw [if_neg hv] at h''; simp at h''
        · exact k1.errors s h''
      · exact b5 s h'
    · rcases List.mem_cons.1 hg with rfl | hg
      · exact a1.mono b2
      · exact b6 g hg

end

end Detox
