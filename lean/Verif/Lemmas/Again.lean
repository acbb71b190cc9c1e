import Verif.Lemmas.Complete
import Verif.Spec.Again

/-!
# Scans that have nothing to do
-/

set_option autoImplicit false

namespace Detox

open Spec

/-- Nothing is said and nothing is done. -/
def Idle (tr : List Event) : Prop := outputs tr = [] ∧ attempts tr = []

theorem Idle.nil : Idle [] := ⟨rfl, rfl⟩

theorem Idle.append {a b : List Event} (h1 : Idle a) (h2 : Idle b) : Idle (a ++ b) := by
  constructor
  · show List.filterMap _ (a ++ b) = []
    rw [List.filterMap_append]
    exact List.append_eq_nil_iff.mpr ⟨h1.1, h2.1⟩
  · show List.filterMap _ (a ++ b) = []
    rw [List.filterMap_append]
    exact List.append_eq_nil_iff.mpr ⟨h1.2, h2.2⟩

theorem Idle.lstat {p : Bytes} {r : Option Stat} {a : List Event} (h : Idle a) : Idle (.lstat p r :: a) := h
theorem Idle.opendir {p : Bytes} {r : OpenRes} {a : List Event} (h : Idle a) : Idle (.opendir p r :: a) := h
theorem Idle.readdir {k : Nat} {r : Option Bytes} {a : List Event} (h : Idle a) : Idle (.readdir k r :: a) := h
theorem Idle.closedir {k : Nat} {a : List Event} (h : Idle a) : Idle (.closedir k :: a) := h
theorem Idle.err {s : Bytes} {a : List Event} (h : Idle a) : Idle (.err s :: a) := h

/-- A set of directories with nothing to do in them. -/
def Finished (R : Bytes → Bytes → Prop) (o : Options) (fs : FS) (D : Ino → Prop) : Prop :=
  ∀ e ∈ fs.entries, D e.dir → Hidden e.name ∨ (fs.kind e.ino ≠ .dir ∧ fs.kind e.ino ≠ .reg ∧ o.special = false) ∨
    (R e.name e.name ∧ (fs.kind e.ino = .dir → D e.ino))

section
variable {R : Bytes → Bytes → Prop} {o : Options} {ws : List Bytes} {depth : Ino → Nat} {slack level : Nat} {fs : FS} {D : Ino → Prop}

/-- What such a scan changes: nothing but the streams in `X`. -/
structure Still (X : Nat → Prop) (tr : List Event) (W W' : World) : Prop where
  same : W'.fs = W.fs
  streams : ∀ k s, ¬ X k → W.streams k = some s → W'.streams k = some s
  idle : Idle tr

def StillGoal (depth : Ino → Nat) (slack : Nat) (D : Ino → Prop) (tr : List Event) : Task → World → World → Prop
  | .dir p, W, W' => p ≠ [] → (W.fs.lookup p = none ∨ ∃ d, D d ∧ W.fs.Leads depth slack (depth d) p d ∧ W.fs.lookup p = some d) →
      Still (fun _ => False) tr W W'
  | .entries h p _, W, W' => ∀ d owed, W.streams h = some ⟨d, owed⟩ → p ≠ [] → W.fs.Leads depth slack (depth d) p d → D d →
      Still (· = h) tr W W'

theorem fileRun_fixed (hR : ∀ a b c, R a b → R a c → b = c) {f dir name p : Bytes} {mid : List Event} (hs : SplitsAs f dir name)
    (hn : name = lit "." ∨ name = lit ".." ∨ R name name) (hf : FileRunBy R o f mid p) : mid = [] ∧ p = f := by
  have no : ∀ {dir' name' w : Bytes}, SplitsAs f dir' name' → name' ≠ lit "." → name' ≠ lit ".." → R name' w → w ≠ name' → False := by
    intro dir' name' w a b c d e
    have : name' = name := by rw [(splitsAs_unique a).2, (splitsAs_unique hs).2]
    subst this
    rcases hn with hn | hn | hn
    · exact b hn
    · exact c hn
    · exact e (hR _ _ _ d hn)
  cases hf with
  | clean => exact ⟨rfl, rfl⟩
  | gone _ _ _ h1 h2 h3 h4 h5 => exact (no h1 h2 h3 h4 h5).elim
  | refused _ _ _ _ _ h1 h2 h3 h4 h5 => exact (no h1 h2 h3 h4 h5).elim
  | dry _ _ _ _ _ h1 h2 h3 h4 h5 => exact (no h1 h2 h3 h4 h5).elim
  | renamed _ _ _ _ _ h1 h2 h3 h4 h5 => exact (no h1 h2 h3 h4 h5).elim
  | failed _ _ _ _ _ h1 h2 h3 h4 h5 => exact (no h1 h2 h3 h4 h5).elim

theorem fileRun_absent {f p : Bytes} {mid : List Event} {W W' : World} (hl : W.fs.lookup f = none) (hf : FileRunBy R o f mid p)
    (hs : World.Steps W mid W') : W' = W ∧ p = f ∧ Idle mid := by
  have no : ∀ {so : Stat} {rest : List Event}, World.Steps W (.lstat f (some so) :: rest) W' → False := by
    intro so rest h
    obtain ⟨a, _⟩ := world_lstat h
    rw [lstat_none hl] at a
    cases a
  cases hf with
  | clean => exact ⟨world_nil hs, rfl, .nil⟩
  | gone => exact ⟨world_nil (world_lstat hs).2, rfl, .lstat .nil⟩
  | refused => exact (no hs).elim
  | dry => exact (no hs).elim
  | renamed => exact (no hs).elim
  | failed => exact (no hs).elim

theorem still_scan (hR : ∀ a b c, R a b → R a c → b = c) (hD : Finished R o fs D) (ht : fs.Tree depth slack) {t : Task} {seen seen' : List Bytes}
    {tr : List Event} (h : ScanBy R o ws t seen tr seen') : Honest fs tr → (∀ p r, Event.lstat p r ∈ tr → fs.denied p = false) →
    ∀ W W' : World, W.fs = fs → World.Steps W tr W' → StillGoal depth slack D tr t W W' := by
  -- one name
  have entry : ∀ {h : Nat} {p name : Bytes} {st : Stat} {r : Option Stat} {d : Ino} {owed : List Bytes} {W : World} {seen : List Bytes},
      W.fs = fs → EntryName name → p ≠ [] → W.fs.Leads depth slack (depth d) p d → D d → ¬ PassedOver ws seen name →
      (∀ e ∈ fs.entries, fs.norm e.dir name = fs.norm e.dir e.name → name = e.name) →
      fs.denied (entryPath p name) = false → (W.given h d owed name).fs.lstat (entryPath p name) = r →
      ¬ ((r.getD st).kind ≠ .dir ∧ (r.getD st).kind ≠ .reg ∧ o.special = false) →
      PlainName name ∧ W.fs.lookup (entryPath p name) = (W.fs.find d name).map Entry.ino ∧
      (W.fs.find d name = none ∨ ∃ e, W.fs.find d name = some e ∧ r = some ⟨e.ino.dev, e.ino.num, (r.getD st).nlink, W.fs.kind e.ino⟩ ∧ e.name = name ∧
        R name name ∧ (W.fs.kind e.ino = .dir → D e.ino)) := by
    intro h p name st r d owed W seen hW hen hp hl hd hpass hon hallow ha hk
    subst hW
    have hplain : PlainName name := ⟨hen.nonempty, hen.slash, fun h0 => hpass (.inl ⟨_, h0⟩), fun h0 => hpass (.inl ⟨_, h0⟩)⟩
    rw [entryPath_short hen.short] at hallow ha ⊢
    have hlk := lookup_leads ht (.inr ⟨p, rfl⟩) hplain (leads_slash hp hl) hallow
    refine ⟨hplain, hlk, ?_⟩
    cases hfe : W.fs.find d name with
    | none => exact .inl rfl
    | some e =>
      obtain ⟨he, hed, hnorm⟩ := FS_find_some hfe
      have hname := hon e he (by rw [hed, hnorm])
      rw [hfe] at hlk
      change W.fs.lstat _ = r at ha
      cases r with
      | none => rw [lookup_none ha] at hlk; cases hlk
      | some st' =>
        obtain ⟨b1, b2, b3⟩ := lstat_kind hlk ha
        refine .inr ⟨e, rfl, ?_, hname.symm, ?_⟩
        · cases st'
          simp only at b1 b2 b3
          simp [b1, b2, b3]
        · rcases hD e he (by rw [hed]; exact hd) with hh | ⟨h1, h2, h3⟩ | ⟨h1, h2⟩
          · exact absurd (.inl (by rw [hname]; exact hh)) hpass
          · refine absurd ⟨?_, ?_, h3⟩ hk
            · rw [Option.getD_some, b1]; exact h1
            · rw [Option.getD_some, b1]; exact h2
          · rw [hname]; exact ⟨h1, h2⟩
  have given : ∀ {h : Nat} {d : Ino} {owed : List Bytes} {n : Bytes} {tr : List Event} {W W' : World},
      Still (· = h) tr (W.given h d owed n) W' → Still (· = h) tr W W' := by
    intro h d owed n tr W W' s
    exact ⟨s.same, fun k s' hk hs => s.streams k s' hk (by simp [World.given, hk, hs]), s.idle⟩
  induction h with
  | gone p seen =>
    intro _ _ W W' _ hs _ _
    have := world_nil (world_lstat hs).2
    subst this
    exact ⟨rfl, fun _ _ _ h => h, .lstat .nil⟩
  | replaced p st seen hk =>
    intro _ _ W W' _ hs _ _
    have := world_nil (world_lstat hs).2
    subst this
    exact ⟨rfl, fun _ _ _ h => h, .lstat .nil⟩
  | closed p st seen hk =>
    intro _ _ W W' _ hs _ _
    obtain ⟨a, b⟩ := world_lstat hs
    cases b with
    | cons _ _ _ _ _ s1 t1 =>
      cases s1 with
      | refused _ _ _ =>
        have := world_nil (world_err t1)
        subst this
        exact ⟨rfl, fun _ _ _ h => h, .lstat (.opendir (.err .nil))⟩
  | opened p st h seen seen' tr hk _ ih =>
    intro hon hall W W' hW hs hp hd
    obtain ⟨a, b⟩ := world_lstat hs
    rcases hd with hd | ⟨d, hdd, hl, hlk⟩
    · rw [lstat_none hd] at a; cases a
    · have hfo := follow_leads (hW ▸ ht) hp (by rw [hW]; exact hall p (some st) (by simp)) hl
      cases b with
      | cons _ _ _ _ _ s1 t1 =>
        cases s1 with
        | refused _ _ hno => exact absurd rfl (hno h)
        | opened _ _ d' h1 h2 h3 =>
          rw [hfo] at h1
          cases h1
          have s := ih (fun k n hm => hon k n (by simp [hm])) (fun q r hm => hall q r (by simp [hm])) (W.inside h d p) _ hW t1 d (W.fs.namesIn d)
            (by simp [World.inside]) hp hl hdd
          refine ⟨s.same, fun k s' _ hs' => ?_, .lstat (.opendir s.idle)⟩
          have hkh : k ≠ h := by rintro rfl; rw [h3] at hs'; cases hs'
          exact s.streams k s' hkh (by simpa [World.inside, hkh] using hs')
  | finish h p st seen =>
    intro _ _ W W' hW hs d owed hst hp hl hdd
    cases hs with
    | cons _ _ _ _ _ s1 t1 =>
      cases s1 with
      | finished _ s h1 h2 =>
        cases t1 with
        | cons _ _ _ _ _ s2 t2 =>
          cases s2
          have := world_nil t2
          subst this
          refine ⟨rfl, fun k s hk hs => ?_, .readdir (.closedir .nil)⟩
          simpa [hk] using hs
  | pass h p st name seen seen' tr hpass _ ih =>
    intro hon hall W W' hW hs d owed hst hp hl hdd
    obtain ⟨hen, hs⟩ := world_readdir hst hs
    have s := given (ih (fun k n hm => hon k n (by simp [hm])) (fun q r hm => hall q r (by simp [hm])) (W.given h d owed name) _ hW hs d _
      (by simp [World.given]; rfl) hp hl hdd)
    exact ⟨s.same, s.streams, .readdir s.idle⟩
  | leave h p st name r seen seen' tr hpass hkd hkr hsp _ ih =>
    intro hon hall W W' hW hs d owed hst hp hl hdd
    obtain ⟨hen, hs⟩ := world_readdir hst hs
    obtain ⟨a, hs⟩ := world_lstat hs
    have s := given (ih (fun k n hm => hon k n (by simp [hm])) (fun q r hm => hall q r (by simp [hm])) (W.given h d owed name) _ hW hs d _
      (by simp [World.given]; rfl) hp hl hdd)
    exact ⟨s.same, s.streams, .readdir (.lstat s.idle)⟩
  | file h p st name r seen seen' mid tr q hpass hkind hf _ ih =>
    intro hon hall W W' hW hs d owed hst hp hl hdd
    obtain ⟨hen, hs⟩ := world_readdir hst hs
    obtain ⟨a, hs⟩ := world_lstat hs
    obtain ⟨W4, hs1, hs2⟩ := World.Steps.append_inv hs
    obtain ⟨e1, e2, e3⟩ := entry (h := h) (st := st) (owed := owed) hW hen hp hl hdd hpass (hon h name (by simp)) (hall _ r (by simp)) a
      (by rintro ⟨k1, k2, k3⟩
          rcases hkind with ⟨h1, _⟩ | h1 | ⟨_, h1⟩
          · exact k1 h1
          · exact k2 h1
          · rw [k3] at h1; cases h1)
    have key : W4 = W.given h d owed name ∧ Idle mid := by
      rcases e3 with e3 | ⟨e, _, _, _, hf1, _⟩
      · rw [e3] at e2
        obtain ⟨b1, _, b2⟩ := fileRun_absent (W := W.given h d owed name) e2 hf hs1
        exact ⟨b1, b2⟩
      · obtain ⟨rfl, _⟩ := fileRun_fixed hR (dir := p ++ [0x2F]) (name := name)
          ⟨entryPath_short hen.short, hen.slash, .inr ⟨p, rfl⟩⟩ (.inr (.inr hf1)) hf
        exact ⟨world_nil hs1, .nil⟩
    obtain ⟨rfl, hidle⟩ := key
    have s := given (ih (fun k n hm => hon k n (by simp [hm])) (fun q r hm => hall q r (by simp [hm])) (W.given h d owed name) _ hW hs2 d _
      (by simp [World.given]; rfl) hp hl hdd)
    exact ⟨s.same, s.streams, .readdir (.lstat (hidle.append s.idle))⟩
  | recurse h p st name r seen seen1 seen' mid sub tr q hpass hkind hrec hf _ _ ih1 ih2 =>
    intro hon hall W W' hW hs d owed hst hp hl hdd
    obtain ⟨hen, hs⟩ := world_readdir hst hs
    obtain ⟨a, hs⟩ := world_lstat hs
    obtain ⟨W3, hs1, hs2⟩ := World.Steps.append_inv hs
    obtain ⟨W4, hs2, hs3⟩ := World.Steps.append_inv hs2
    obtain ⟨e1, e2, e3⟩ := entry (h := h) (st := st) (owed := owed) hW hen hp hl hdd hpass (hon h name (by simp)) (hall _ r (by simp)) a
      (by rintro ⟨k1, _, _⟩; exact k1 hkind)
    have hpath := entryPath_short (p := p) hen.short
    have key : W3 = W.given h d owed name ∧ q = entryPath p name ∧ Idle mid ∧
        (W.fs.lookup (entryPath p name) = none ∨ ∃ i, D i ∧ W.fs.Leads depth slack (depth i) (entryPath p name) i ∧
          W.fs.lookup (entryPath p name) = some i) := by
      rcases e3 with e3 | ⟨e, hfe, hr, _, hf1, hf2⟩
      · rw [e3] at e2
        obtain ⟨b1, b2, b3⟩ := fileRun_absent (W := W.given h d owed name) e2 hf hs1
        exact ⟨b1, b2, b3, .inl e2⟩
      · obtain ⟨rfl, rfl⟩ := fileRun_fixed hR (dir := p ++ [0x2F]) (name := name) ⟨hpath, hen.slash, .inr ⟨p, rfl⟩⟩ (.inr (.inr hf1)) hf
        have hkd : W.fs.kind e.ino = .dir := by rw [hr] at hkind; exact hkind
        refine ⟨world_nil hs1, rfl, .nil, .inr ⟨e.ino, hf2 hkd, ?_, by rw [e2, hfe]; rfl⟩⟩
        rw [hpath]
        exact leads_entry (hW ▸ ht) (.inr ⟨p, rfl⟩) e1 (leads_slash hp hl) hfe hkd
    obtain ⟨rfl, rfl, hidle, hgo⟩ := key
    have s1 := ih1 (fun k n hm => hon k n (by simp [hm])) (fun q r hm => hall q r (by simp [hm])) (W.given h d owed name) _ hW hs2
      (by rw [hpath]; simp) hgo
    have s2 := ih2 (fun k n hm => hon k n (by simp [hm])) (fun q r hm => hall q r (by simp [hm])) W4 _ (s1.same.trans hW) hs3 d
      (owed.filter (· ≠ name)) (s1.streams h _ (fun x => x) (by simp [World.given])) hp
      (by rw [s1.same]; exact hl) hdd
    have s3 : Still (· = h) tr (W.given h d owed name) W' :=
      ⟨s2.same.trans s1.same, fun k s hk hs => s2.streams k s hk (s1.streams k s (fun x => x) hs), s2.idle⟩
    have s := given s3
    exact ⟨s.same, s.streams, .readdir (.lstat (hidle.append (s1.idle.append s.idle)))⟩

theorem still_args (hR : ∀ a b c, R a b → R a c → b = c) (hD : Finished R o fs D) (ht : fs.Tree depth slack) {args : List Bytes}
    {seen seen' : List Bytes} {tr : List Event} (h : ArgsScanBy R o ws args seen tr seen') : Honest fs tr →
    (∀ p r, Event.lstat p r ∈ tr → fs.denied p = false) → (∀ f ∈ args, fs.Steady depth slack level f) → (∀ f ∈ args, FineArg R fs D f) →
    ∀ W W' : World, W.fs = fs → World.Steps W tr W' → W'.fs = fs ∧ attempts tr = [] ∧ outputs tr = scanningLines o args := by
  induction h with
  | nil seen =>
    intro _ _ _ _ W W' hW hs
    have := world_nil hs
    subst this
    refine ⟨hW, rfl, ?_⟩
    unfold scanningLines
    split <;> rfl
  | cons f rest seen seen1 seen' t tr hf _ ih =>
    intro hon hall hst hfine W W' hW hs
    rw [List.append_assoc] at hs
    obtain ⟨W0, hs0, hs'⟩ := World.Steps.append_inv hs
    clear hs
    have : W0 = W := by
      split at hs0
      · exact world_nil hs0
      · exact world_nil (world_out hs0)
    subst this
    obtain ⟨W1, hs1, hs2⟩ := World.Steps.append_inv hs'
    have one : W1.fs = fs ∧ Idle t := by
      have hfin := hfine f (by simp)
      have fixed : ∀ {mid : List Event} {p : Bytes}, FileRunBy R o f mid p → mid = [] ∧ p = f := by
        intro mid p hr
        exact fileRun_fixed hR (splitsAs_parts f) (hfin.name _ _ (splitsAs_parts f)) hr
      cases hf with
      | missing => have := world_nil (world_err (world_lstat hs1).2); subst this; exact ⟨hW, .lstat (.err .nil)⟩
      | leave => have := world_nil (world_lstat hs1).2; subst this; exact ⟨hW, .lstat .nil⟩
      | file st _ mid p hk hr =>
        obtain ⟨rfl, rfl⟩ := fixed hr
        have := world_nil (world_lstat hs1).2; subst this; exact ⟨hW, .lstat .nil⟩
      | dir st _ _ mid sub p hk hr hsub =>
        obtain ⟨rfl, rfl⟩ := fixed hr
        obtain ⟨a, b⟩ := world_lstat hs1
        obtain ⟨i, hi, _, _⟩ := FS_lstat_some a
        have hki := (lstat_kind hi a).1.symm.trans hk
        have hDi : D i := hfin.dir i (by rw [← hW]; exact hi) (by rw [← hW]; exact hki)
        have hallow : W0.fs.denied p = false := by rw [hW]; exact hall _ (some st) (by simp)
        have hlead : p ≠ [] ∧ W0.fs.Leads depth slack (depth i) p i := by
          cases hst p (by simp) with
          | self dir name d g1 g2 g3 g4 g5 =>
            rw [← hW] at g5
            have hid := lookup_self g5 hi hki
            subst hid
            exact ⟨g4, leads_level g5⟩
          | name dir name x g1 g2 g3 g4 g5 g6 g7 =>
            subst g1
            rw [← hW] at g7
            have hplain : PlainName name := ⟨g4, g3, g5, g6⟩
            have hlk := lookup_leads (hW ▸ ht) g2 hplain g7 hallow
            rw [hi] at hlk
            obtain ⟨e, hfe, hei⟩ := Option.map_eq_some_iff.1 hlk.symm
            refine ⟨by simp [g4], ?_⟩
            have := leads_entry (hW ▸ ht) g2 hplain g7 hfe (by rw [hei]; exact hki)
            rw [hei] at this
            exact this
        have s := still_scan hR hD ht hsub (fun k n hm => hon k n (by simp [hm])) (fun q r hm => hall q r (by simp [hm])) W0 W1 hW b hlead.1
          (.inr ⟨i, hDi, hlead.2, hi⟩)
        exact ⟨s.same.trans hW, .lstat s.idle⟩
    obtain ⟨h1, h2⟩ := one
    obtain ⟨k1, k2, k3⟩ := ih (fun k n hm => hon k n (by simp [hm])) (fun q r hm => hall q r (by simp [hm])) (fun g hg => hst g (by simp [hg]))
      (fun g hg => hfine g (by simp [hg])) W1 W' h1 hs2
    refine ⟨k1, ?_, ?_⟩
    · show List.filterMap _ _ = []
      rw [List.filterMap_append, List.filterMap_append]
      rw [show List.filterMap _ t = [] from h2.2, show List.filterMap _ tr = [] from k2]
      split <;> rfl
    · show List.filterMap _ _ = _
      rw [List.filterMap_append, List.filterMap_append]
      rw [show List.filterMap _ t = [] from h2.1, show List.filterMap _ tr = _ from k3]
      unfold scanningLines
      split <;> rfl

end

end Detox
