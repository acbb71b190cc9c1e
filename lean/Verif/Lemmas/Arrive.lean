import Verif.Lemmas.Result
import Verif.Spec.Fits
import Verif.Lemmas.Denote
import Verif.Lemmas.Leaks
import Verif.Props.EndToEnd
import Verif.Props.Exit

/-!
# Programs that come to an end, and return
-/

set_option autoImplicit false

namespace Detox
open Spec

/-- As long as all calls are answered as `A` says, the program returns, and what it returns satisfies `Q`. -/
def Prog.Arrives {α : Type} (A : Event → Prop) (Q : α → Prop) : Prog α → Prop
  | .ret a => Q a
  | .exit _ => False
  | .ub _ => False
  | .stuck => False
  | .lstat p k => ∀ r, A (.lstat p r) → Arrives A Q (k r)
  | .rename o n k => ∀ r, A (.rename o n r) → Arrives A Q (k r)
  | .opendir p k => ∀ r, A (.opendir p r) → Arrives A Q (k r)
  | .readdir h k => ∀ r, A (.readdir h r) → Arrives A Q (k r)
  | .closedir h k => A (.closedir h) → Arrives A Q k
  | .slurp p k => ∀ r, A (.slurp p r) → Arrives A Q (k r)
  | .out s k => A (.out s) → Arrives A Q k
  | .err s k => A (.err s) → Arrives A Q k

theorem Prog.Arrives.bind {α β : Type} {A : Event → Prop} {Q : α → Prop} {R : β → Prop} {p : Prog α} {f : α → Prog β}
    (h : p.Arrives A Q) (hf : ∀ a, Q a → (f a).Arrives A R) : (p.bind f).Arrives A R := by
  induction p with
  | ret a => exact hf a h
  | exit n => exact h.elim
  | ub u => exact h.elim
  | stuck => exact h.elim
  | lstat p k ih => exact fun r hr => ih r (h r hr)
  | rename o n k ih => exact fun r hr => ih r (h r hr)
  | opendir p k ih => exact fun r hr => ih r (h r hr)
  | readdir d k ih => exact fun r hr => ih r (h r hr)
  | closedir d k ih => exact fun hr => ih (h hr)
  | slurp p k ih => exact fun r hr => ih r (h r hr)
  | out s k ih => exact fun hr => ih (h hr)
  | err s k ih => exact fun hr => ih (h hr)

theorem Prog.Arrives.sound {α : Type} {A : Event → Prop} {Q : α → Prop} {p : Prog α} {tr : List Event} {out : Outcome α}
    (ht : Trace p tr out) (h : p.Arrives A Q) (ha : ∀ e ∈ tr, A e) : out = .running ∨ ∃ a, out = .ret a ∧ Q a := by
  induction ht with
  | stop p => exact .inl rfl
  | ret a => exact .inr ⟨a, rfl, h⟩
  | exit n => exact h.elim
  | ub u => exact h.elim
  | stuck => exact h.elim
  | lstat p k r tr o ht ih => exact ih (h r (ha _ (by simp))) fun e he => ha e (by simp [he])
  | rename a b k r tr o ht ih => exact ih (h r (ha _ (by simp))) fun e he => ha e (by simp [he])
  | opendir p k r tr o ht ih => exact ih (h r (ha _ (by simp))) fun e he => ha e (by simp [he])
  | readdir d k r tr o ht ih => exact ih (h r (ha _ (by simp))) fun e he => ha e (by simp [he])
  | closedir d k tr o ht ih => exact ih (h (ha _ (by simp))) fun e he => ha e (by simp [he])
  | slurp p k r tr o ht ih => exact ih (h r (ha _ (by simp))) fun e he => ha e (by simp [he])
  | out s k tr o ht ih => exact ih (h (ha _ (by simp))) fun e he => ha e (by simp [he])
  | err s k tr o ht ih => exact ih (h (ha _ (by simp))) fun e he => ha e (by simp [he])

/-! ### The configuration -/

/-- The files are read as they are. -/
def Faithful (files : Bytes → Option Bytes) (e : Event) : Prop := ∀ p r, e = .slurp (some p) r → r = files p

theorem parseConfigFile_arrives {files : Bytes → Option Bytes} {file : Bytes} (hm : ∀ text, files file = some text → ∃ rs, Means text rs)
    {before : Option ConfigFile × Nat} (hl : Sound before.1) :
    (parseConfigFile file before).Arrives (Faithful files) fun c => Sound c.1 ∧ (files file = none → c.1 = before.1) ∧
      ∀ text, files file = some text → c.1 ≠ none := by
  intro r hr
  have hr := hr _ _ rfl
  cases r with
  | none => exact ⟨hl, fun _ => rfl, fun text h => by rw [← hr] at h; cases h⟩
  | some text =>
    obtain ⟨rs, hrs⟩ := hm text hr.symm
    obtain ⟨ds, ws, hl⟩ := hl
    obtain ⟨c, h1, h2⟩ := C63_sentences_are_accepted hrs file hl
    simp only [h1]
    exact ⟨⟨_, _, h2⟩, fun h => (by rw [← hr] at h; cases h), fun _ _ => by simp⟩

theorem inDir_long {d rest : Bytes} (h : ¬ (d ++ rest).length < maxPathLen) : inDir (some d) rest = [] := by
  unfold inDir short
  have : maxPathLen = 256 := rfl
  rw [this] at h
  simp only [h, if_false]

theorem inDir_short {d rest : Bytes} (h : (d ++ rest).length < maxPathLen) : inDir (some d) rest = [d ++ rest] := by
  unfold inDir short
  have : maxPathLen = 256 := rfl
  rw [this] at h
  simp only [h, if_true]

theorem present_append (files : Bytes → Option Bytes) (a b : List Bytes) : present files (a ++ b) = present files a ++ present files b := by
  unfold present
  rw [List.filterMap_append]

theorem present_none {files : Bytes → Option Bytes} {p : Bytes} (h : files p = none) : present files [p] = [] := by
  unfold present
  simp [h]

theorem present_some {files : Bytes → Option Bytes} {p text : Bytes} (h : files p = some text) : present files [p] = [(p, text)] := by
  unfold present
  simp [h]

theorem Prog.Arrives.mono {α : Type} {A : Event → Prop} {Q Q' : α → Prop} {p : Prog α} (h : p.Arrives A Q) (hQ : ∀ a, Q a → Q' a) :
    p.Arrives A Q' := by
  have := h.bind (f := Prog.ret) (R := Q') hQ
  rwa [Prog.bind_ret] at this

/-- What one config file does. -/
structure OneConfig (files : Bytes → Option Bytes) (ps : List Bytes) (before c : Option ConfigFile) : Prop where
  sound : Sound c
  absent : present files ps = [] → c = before
  there : present files ps ≠ [] → c ≠ none

theorem read_arrives {files : Bytes → Option Bytes} {file : Bytes} (hm : ∀ x ∈ present files [file], ∃ rs, Means x.2 rs)
    {before : Option ConfigFile × Nat} (hl : Sound before.1) :
    (parseConfigFile file before).Arrives (Faithful files) fun c => OneConfig files [file] before.1 c.1 := by
  refine (parseConfigFile_arrives (fun text h => hm (file, text) (by rw [present_some h]; simp)) hl).mono fun c hc => ⟨hc.1, fun h => hc.2.1 ?_, fun h => ?_⟩
  · cases hf : files file with
    | none => rfl
    | some text => rw [present_some hf] at h; cases h
  · cases hf : files file with
    | none => exact absurd (present_none hf) h
    | some text => exact hc.2.2 text hf

theorem tryConfig_arrives {files : Bytes → Option Bytes} {d rest : Bytes} (hm : ∀ x ∈ present files (inDir (some d) rest), ∃ rs, Means x.2 rs)
    {before : Option ConfigFile × Nat} (hl : Sound before.1) :
    (tryConfig (d ++ rest) before).Arrives (Faithful files) fun c => OneConfig files (inDir (some d) rest) before.1 c.1 := by
  unfold tryConfig
  split
  · next h =>
    rw [inDir_short h] at hm ⊢
    exact read_arrives hm hl
  · next h =>
    rw [inDir_long h]
    exact ⟨hl, fun _ => rfl, fun h => absurd rfl h⟩

theorem config_arrives {E : ConfigEnv} {given : Option Bytes} {files : Bytes → Option Bytes}
    (hg : ∀ f, given = some f → files f ≠ none) (hm : ∀ x ∈ configsInEffect E given files, ∃ rs, Means x.2 rs) :
    (configFileLoad E given).Arrives (Faithful files) fun _ => True := by
  have h0 : Sound none := ⟨[], [], rfl, rfl⟩
  unfold configFileLoad
  cases given with
  | some f =>
    refine (read_arrives (before := (none, 1)) hm h0).bind fun r hr => ?_
    obtain ⟨r, line⟩ := r
    cases r with
    | some c => trivial
    | none =>
      refine absurd rfl (hr.there fun h => ?_)
      cases hf : files f with
      | none => exact hg f rfl hf
      | some text => rw [present_some hf] at h; cases h
  | none =>
    have hs : ∀ x ∈ (present files (systemFiles E)).take 1, ∃ rs, Means x.2 rs := fun x hx => hm x (List.mem_append_left _ hx)
    have hu : ∀ x ∈ present files (userFiles E), ∃ rs, Means x.2 rs := fun x hx => hm x (List.mem_append_right _ hx)
    unfold systemFiles at hs
    unfold userFiles at hu
    simp only [present_append] at hs hu
    have one : ∀ p : Bytes, (present files [p]).length ≤ 1 := by
      intro p
      cases hf : files p with
      | none => rw [present_none hf]; simp
      | some text => rw [present_some hf]; simp
    have two : ∀ (d : Option Bytes) (r : Bytes), (present files (inDir d r)).length ≤ 1 := by
      intro d r
      cases d with
      | none => exact Nat.zero_le _
      | some d =>
        by_cases h : (d ++ r).length < maxPathLen
        · rw [inDir_short h]; exact one _
        · rw [inDir_long h]; exact Nat.zero_le _
    refine Prog.Arrives.bind (Q := fun c => OneConfig files (inDir E.sysconfdir (lit "/detoxrc")) none c.1) ?_ fun c1 h1 => ?_
    · have hs1 : ∀ x ∈ present files (inDir E.sysconfdir (lit "/detoxrc")), ∃ rs, Means x.2 rs := by
        intro x hx
        refine hs x ?_
        rw [List.append_assoc, List.take_append]
        refine List.mem_append_left _ ?_
        rwa [List.take_of_length_le (two _ _)]
      cases he : E.sysconfdir with
      | none => exact ⟨h0, fun _ => rfl, fun h => absurd rfl h⟩
      | some d =>
        rw [he] at hs1
        exact tryConfig_arrives (before := (none, 1)) hs1 h0
    refine Prog.Arrives.bind (Q := fun c => Sound c.1 ∧ (c.1 = none → present files (inDir E.sysconfdir (lit "/detoxrc")) = [] ∧
      present files [lit "/etc/detoxrc"] = [])) ?_ fun c2 h2 => ?_
    · obtain ⟨c1, line⟩ := c1
      cases c1 with
      | some c => exact ⟨h1.sound, nofun⟩
      | none =>
        have he : present files (inDir E.sysconfdir (lit "/detoxrc")) = [] := Classical.byContradiction fun hn => h1.there hn rfl
        refine (read_arrives ?_ h0).mono fun c hc => ⟨hc.sound, fun h => ⟨he, Classical.byContradiction fun hn => hc.there hn h⟩⟩
        intro x hx
        refine hs x ?_
        rw [he, List.nil_append, List.take_append]
        refine List.mem_append_left _ ?_
        rwa [List.take_of_length_le (one _)]
    refine Prog.Arrives.bind (Q := fun c => Sound c.1) ?_ fun c3 h3 => ?_
    · obtain ⟨c2, line⟩ := c2
      cases c2 with
      | some c => exact h2.1
      | none =>
        obtain ⟨e1, e2⟩ := h2.2 rfl
        refine (read_arrives ?_ h0).mono fun c hc => hc.sound
        intro x hx
        refine hs x ?_
        rw [e1, e2, List.nil_append, List.nil_append]
        rwa [List.take_of_length_le (one _)]
    refine Prog.Arrives.bind (Q := fun c => Sound c.1) ?_ fun c4 h4 => ?_
    · have hu1 : ∀ x ∈ present files (inDir E.home (lit "/.detoxrc")), ∃ rs, Means x.2 rs := fun x hx => hu x (List.mem_append_left _ hx)
      cases he : E.home with
      | none => exact h3
      | some d =>
        rw [he] at hu1
        exact (tryConfig_arrives hu1 h3).mono fun c hc => hc.sound
    refine Prog.Arrives.bind (Q := fun c => Sound c.1) ?_ fun c5 h5 => ?_
    · have hu1 : ∀ x ∈ present files (inDir E.xdg (lit "/detox/detoxrc")), ∃ rs, Means x.2 rs := fun x hx => hu x (List.mem_append_right _ hx)
      cases he : E.xdg with
      | none => exact h4
      | some d =>
        rw [he] at hu1
        exact (tryConfig_arrives hu1 h4).mono fun c hc => hc.sound
    obtain ⟨c5, line⟩ := c5
    cases c5 with
    | some c => trivial
    | none =>
      obtain ⟨c, hc, _⟩ := C45_builtin_config_is_the_shipped_file []
      simp only
      rw [hc]
      trivial

/-! ### Tables -/

theorem review_arrives {ctype : Bytes} {datadir : Option Bytes} {files : Bytes → Option Bytes} {q : Sequence}
    (ht : ∀ f ∈ q.filters, ∀ n, UsualTable f.cleaner n → ∃ m, TableSays ctype datadir files f m) {tr : List Event} {out : Outcome Sequence}
    (h : Trace (reviewSequence ctype datadir q) tr out) (hf : ∀ e ∈ tr, Faithful files e) : out = .running ∨ ∃ q', out = .ret q' := by
  have load : ∀ f ∈ q.filters, ∀ {tr : List Event} {out : Outcome (Option Table)}, Trace (loadTable ctype datadir f) tr out →
      (∀ e ∈ tr, Faithful files e) → out = .running ∨ ∃ t, out = .ret t := by
    intro f hfm tr out h hf
    refine Classical.byContradiction fun hn => ?_
    obtain ⟨h1, h2⟩ := not_or.1 hn
    obtain ⟨_, ⟨n, hu⟩, m, hcase⟩ := C67_only_named_tables_can_be_missing h (fun t ht => h2 ⟨t, ht⟩) h1
    obtain ⟨m, hm⟩ := ht f hfm n hu
    rcases hcase with ⟨_, b, hb, hno⟩ | ⟨hb, path, r, hp, rfl, hno⟩
    · cases hm with
      | builtin b' m hb' hs =>
        rw [hb] at hb'
        cases hb'
        cases hs with
        | iso8859_1 => exact hno _ .iso8859_1
        | unicode => exact hno _ .unicode
        | safe => exact hno _ .safe
        | cp1252 => exact hno _ .cp1252
      | filename _ _ _ hb' => rw [hb] at hb'; cases hb'
      | found _ _ _ _ _ _ _ hb' => rw [hb] at hb'; cases hb'
      | fallback _ _ _ hb' => rw [hb] at hb'; cases hb'
    · have hr : r = files path := hf (.slurp (some path) r) (by simp) path r rfl
      cases hm with
      | builtin b' m hb' hs => rw [hb] at hb'; cases hb'
      | filename path' text m _ hp' ht' hs =>
        rw [hp] at hp'
        cases hp'
        rw [ht'] at hr
        subst hr
        obtain ⟨t, htt⟩ := file_loads hs
        rw [hno text rfl] at htt
        cases htt
      | found _ _ _ _ _ _ _ _ hf' => rw [hp] at hf'; cases hf'
      | fallback _ _ _ _ hf' => rw [hp] at hf'; cases hf'
  unfold reviewSequence at h
  have loads : ∀ fs : List Filter, (∀ f ∈ fs, f ∈ q.filters) → ∀ {tr : List Event} {out : Outcome (List Filter)},
      Trace (loadTables ctype datadir fs) tr out → (∀ e ∈ tr, Faithful files e) → out = .running ∨ ∃ t, out = .ret t := by
    intro fs
    induction fs with
    | nil =>
      intro _ tr out h _
      cases h with
      | stop => exact .inl rfl
      | ret => exact .inr ⟨_, rfl⟩
    | cons f fs ih =>
      intro hsub tr out h hf
      unfold loadTables at h
      rcases trace_bind_any h with ⟨t, t1, t2, rfl, h1, h2⟩ | ⟨o', h1, h2⟩
      · rcases trace_bind_any h2 with ⟨t, t1, t2, rfl, h1, h2⟩ | ⟨o', h1, h2⟩
        · cases h2 with
          | stop => exact .inl rfl
          | ret => exact .inr ⟨_, rfl⟩
        · rcases ih (fun g hg => hsub g (by simp [hg])) h2 (fun e he => hf e (by simp [he])) with rfl | ⟨t, rfl⟩
          · cases h1; exact .inl rfl
          · cases h1
      · rcases load f (hsub f (by simp)) h2 hf with rfl | ⟨t, rfl⟩
        · cases h1; exact .inl rfl
        · cases h1
  rcases trace_bind_any h with ⟨t, t1, t2, rfl, h1, h2⟩ | ⟨o', h1, h2⟩
  · cases h2 with
    | stop => exact .inl rfl
    | ret => exact .inr ⟨_, rfl⟩
  · rcases loads _ (fun _ h => h) h2 hf with rfl | ⟨t, rfl⟩
    · cases h1; exact .inl rfl
    · cases h1

/-! ### The work -/

/-- The program calls `exit` only if a directory could not be opened for lack of file descriptors. -/
def Prog.Endures {α : Type} (p : Prog α) : Prop := ∀ h, p.exits (fun h _ => ∃ d, Event.opendir d .emfile ∈ h) h

theorem Prog.Endures.ret {α : Type} (a : α) : (Prog.ret a).Endures := fun _ => trivial
theorem Prog.Endures.bind {α β : Type} {p : Prog α} {f : α → Prog β} (hp : p.Endures) (hf : ∀ a, (f a).Endures) :
    (p.bind f).Endures := fun h => Prog.exits_bind p (fun a h => hf a h) h (hp h)
theorem Prog.Endures.ofRes {α : Type} {x : Res α} (hx : x.NoExit) : (Prog.ofRes x).Endures := fun h => Prog.exits_ofRes hx h
theorem Prog.Endures.out {α : Type} {s : Bytes} {k : Prog α} (hk : k.Endures) : (Prog.out s k).Endures := fun _ => hk _
theorem Prog.Endures.err {α : Type} {s : Bytes} {k : Prog α} (hk : k.Endures) : (Prog.err s k).Endures := fun _ => hk _
theorem Prog.Endures.lstat {α : Type} {p : Bytes} {k : Option Stat → Prog α} (hk : ∀ r, (k r).Endures) :
    (Prog.lstat p k).Endures := fun _ r => hk r _
theorem Prog.Endures.rename {α : Type} {a b : Bytes} {k : Bool → Prog α} (hk : ∀ r, (k r).Endures) :
    (Prog.rename a b k).Endures := fun _ r => hk r _
theorem Prog.Endures.readdir {α : Type} {d : Nat} {k : Option Bytes → Prog α} (hk : ∀ r, (k r).Endures) :
    (Prog.readdir d k).Endures := fun _ r => hk r _
theorem Prog.Endures.closedir {α : Type} {d : Nat} {k : Prog α} (hk : k.Endures) : (Prog.closedir d k).Endures := fun _ => hk _
theorem Prog.Endures.stuck {α : Type} : (Prog.stuck : Prog α).Endures := fun _ => trivial

theorem Prog.Endures.trace {α : Type} {p : Prog α} (hp : p.Endures) {tr : List Event} {n : Nat} (ht : Trace p tr (.exit n)) :
    ∃ d, Event.opendir d .emfile ∈ tr := by
  obtain ⟨d, h⟩ := Prog.exits_sound ht [] n (hp []) rfl
  exact ⟨d, by simpa using h⟩

theorem parseFile_endures {P : Platform} {o : Options} {q : Sequence} (ho : o.sequenceToUse = some q) (hq : HasTables q)
    (f : Bytes) : (parseFile P o f).Endures := by
  unfold parseFile
  refine .bind (.ofRes ?_) fun hold => ?_
  · rw [ho]; exact sequenceRunFilters_noExit P hq _
  · cases hold with
    | none => exact .ret _
    | some w =>
      show Prog.Endures (if _ then _ else _)
      split
      · exact .ret _
      · refine .lstat fun r => ?_
        cases r with
        | none => exact .ret _
        | some so =>
          refine .lstat fun rn => ?_
          show Prog.Endures (if _ then _ else _)
          split
          · exact .err (.ret _)
          · have hren : ∀ a b, (doRename a b).Endures := by
              intro a b
              refine .rename fun ok => ?_
              cases ok with
              | true => exact .ret _
              | false => exact .err (.ret _)
            unfold announceAndRename
            dsimp only
            repeat' split
            all_goals first
              | exact .out (.ret _)
              | exact .out (hren _ _)
              | exact .ret _
              | exact hren _ _

theorem dirLoop_endures {P : Platform} {o : Options} {q : Sequence} (ho : o.sequenceToUse = some q) (hq : HasTables q)
    {recDir : Option Filelist → Bytes → Prog (Option Filelist)} (hr : ∀ i f, (recDir i f).Endures) (h : Nat) (filename : Bytes) :
    ∀ (n : Nat) (st : Stat) (ign : Option Filelist), (dirLoop P o recDir h filename n st ign).Endures
  | 0, _, _ => .stuck
  | n + 1, st, ign => by
    have ih := dirLoop_endures (P := P) ho hq hr h filename n
    unfold dirLoop
    refine .readdir fun e => ?_
    cases e with
    | none => exact .closedir (.ret _)
    | some name =>
      refine .bind (.ofRes (ignoreFile_noExit _ _)) fun p => ?_
      show Prog.Endures (if _ then _ else _)
      split
      · exact ih _ _
      · refine .lstat fun r => ?_
        dsimp only
        repeat' split
        all_goals first
          | exact ih _ _
          | exact .bind (parseFile_endures ho hq _) fun _ => ih _ _
          | skip
        exact .bind (parseFile_endures ho hq _) fun work => .bind (hr _ _) fun _ => ih _ _

theorem parseDir_endures {P : Platform} {o : Options} {q : Sequence} (ho : o.sequenceToUse = some q) (hq : HasTables q) :
    ∀ (n : Nat) (ign : Option Filelist) (f : Bytes), (parseDir P o n ign f).Endures
  | 0, _, _ => .stuck
  | n + 1, ign, f => by
    unfold parseDir
    refine .lstat fun r => ?_
    cases r with
    | none => exact .ret _
    | some st =>
      show Prog.Endures (if _ then _ else _)
      split
      · exact .ret _
      · intro h d
        cases d with
        | ok x => exact dirLoop_endures ho hq (parseDir_endures ho hq n) _ _ _ _ _ _
        | fail => exact Prog.Endures.err (.ret _) _
        | emfile => exact ⟨f, by simp⟩

theorem fileLoop_endures {P : Platform} {o : Options} {q : Sequence} (ho : o.sequenceToUse = some q) (hq : HasTables q) (fuel : Nat) :
    ∀ (n : Nat) (l : Filelist) (ign : Option Filelist), (fileLoop P o fuel n l ign).Endures
  | 0, _, _ => .stuck
  | n + 1, l, ign => by
    unfold fileLoop
    refine .bind (.ofRes (filelistGet_noExit l)) fun p => ?_
    obtain ⟨l', w⟩ := p
    cases w with
    | none => exact .ret _
    | some file =>
      refine .bind ?_ fun ign' => fileLoop_endures ho hq fuel n _ _
      have body : (Prog.lstat file fun r => match r with
          | none => .err (file ++ lit ": ") (.ret ign)
          | some st =>
            if st.kind = .dir then (parseFile P o file).bind fun work => parseDir P o fuel ign work
            else if st.kind = .reg then (parseFile P o file).bind fun _ => .ret ign
            else if o.special then (parseFile P o file).bind fun _ => .ret ign
            else .ret ign).Endures := by
        refine .lstat fun r => ?_
        cases r with
        | none => exact .err (.ret _)
        | some st =>
          dsimp only
          repeat' split
          all_goals first
            | exact .ret _
            | exact .bind (parseFile_endures ho hq _) fun _ => .ret _
            | exact .bind (parseFile_endures ho hq _) fun _ => parseDir_endures ho hq _ _ _
      unfold processArg
      dsimp only
      split
      · exact .out body
      · exact body

/-! ### Without directories -/

/-- No directory can be opened. -/
def Shut (e : Event) : Prop := ∀ p r, e = .opendir p r → r = .fail

theorem processArg_shut {P : Platform} {o : Options} {N : Bytes → Prop} (hc : Cleans P o N) (hs : o.sequenceToUse ≠ none) (fuel : Nat)
    (ign : Option Filelist) (f : Bytes) (hv : IgnV ign) (hf : N f) : (processArg P o (fuel + 1) ign f).Defined False Shut IgnV := by
  have pf : (parseFile P o f).Defined False Shut NulFree :=
    parseFile_defined hc hs (hc.nulFree _ hf) (hc.part _ _ hf (basePart_infix f))
  have pd : ∀ work, (parseDir P o (fuel + 1) ign work).Defined False Shut IgnV := by
    intro work r _
    cases r with
    | none => exact hv
    | some st =>
      dsimp only
      split
      · exact hv
      · intro d hd
        cases hd _ _ rfl
        exact fun _ => hv
  have body : (Prog.lstat f fun r =>
      match r with
      | none => .err (f ++ lit ": ") (.ret ign)
      | some st =>
        if st.kind = .dir then
          (parseFile P o f).bind fun work => parseDir P o (fuel + 1) ign work
        else if st.kind = .reg then (parseFile P o f).bind fun _ => .ret ign
        else if o.special then (parseFile P o f).bind fun _ => .ret ign
        else .ret ign).Defined False Shut IgnV := by
    intro r _
    cases r with
    | none => exact fun _ => hv
    | some st =>
      dsimp only
      split
      · exact pf.bind fun work hw => pd work
      · split
        · exact pf.bind fun _ _ => hv
        · split
          · exact pf.bind fun _ _ => hv
          · exact hv
  unfold processArg
  dsimp only
  split
  · exact fun _ => body
  · exact body

theorem fileLoop_shut {P : Platform} {o : Options} {N : Bytes → Prop} (hc : Cleans P o N) (hs : o.sequenceToUse ≠ none) (fuel : Nat)
    {args : List Bytes} (hargs : ∀ w ∈ args, N w) : ∀ (n : Nat) (l : Filelist) (k : Nat) (ign : Option Filelist), l.Holds args k → IgnV ign →
    args.length - k < n → (fileLoop P o (fuel + 1) n l ign).Defined False Shut fun _ => True := by
  intro n
  induction n with
  | zero => intro l k ign _ _ h; omega
  | succ n ih =>
    intro l k ign hl hv hn
    have hg := filelistGet_holds hl
    unfold fileLoop
    split at hg
    · obtain ⟨l', h1, h2⟩ := hg
      rw [h1]
      exact (processArg_shut hc hs fuel ign _ hv (hargs _ (List.getElem_mem _))).bind fun ign' h => ih _ _ _ h2 h (by omega)
    · obtain ⟨l', h1, h2⟩ := hg
      rw [h1]
      trivial

/-! ### Every program comes to an end -/

/-- Whatever the program, there is an execution to its end, with the answers of this file system and these files, in which no directory can be
opened. -/
theorem fair_execution {α : Type} (files : Bytes → Option Bytes) (p : Prog α) : ∀ fs : FS, ∃ tr out fs', Trace p tr out ∧ out ≠ .running ∧
    FS.FairSteps fs tr fs' ∧ (∀ e ∈ tr, Faithful files e) ∧ ∀ e ∈ tr, Shut e := by
  induction p with
  | ret a => exact fun fs => ⟨[], _, fs, .ret a, nofun, .nil _, nofun, nofun⟩
  | exit n => exact fun fs => ⟨[], _, fs, .exit n, nofun, .nil _, nofun, nofun⟩
  | ub u => exact fun fs => ⟨[], _, fs, .ub u, nofun, .nil _, nofun, nofun⟩
  | stuck => exact fun fs => ⟨[], _, fs, .stuck, nofun, .nil _, nofun, nofun⟩
  | lstat p k ih =>
    intro fs
    obtain ⟨tr, out, fs', h1, h2, h3, h4, h5⟩ := ih (fs.lstat p) fs
    refine ⟨_, out, fs', .lstat p k _ tr out h1, h2, .cons _ fs _ _ _ ⟨.lstat _ _ rfl, nofun⟩ h3, ?_, ?_⟩ <;>
      (intro e he; rcases List.mem_cons.1 he with rfl | he)
    · nofun
    · exact h4 e he
    · nofun
    · exact h5 e he
  | rename a b k ih =>
    intro fs
    cases hr : fs.rename a b with
    | none =>
      obtain ⟨tr, out, fs', h1, h2, h3, h4, h5⟩ := ih false fs
      refine ⟨_, out, fs', .rename a b k _ tr out h1, h2, .cons _ fs _ _ _ ⟨.renameFailed _ _, fun x y h => by cases h; exact hr⟩ h3, ?_, ?_⟩ <;>
        (intro e he; rcases List.mem_cons.1 he with rfl | he)
      · nofun
      · exact h4 e he
      · nofun
      · exact h5 e he
    | some fs1 =>
      obtain ⟨tr, out, fs', h1, h2, h3, h4, h5⟩ := ih true fs1
      refine ⟨_, out, fs', .rename a b k _ tr out h1, h2, .cons _ fs1 _ _ _ ⟨.renamed _ _ _ hr, nofun⟩ h3, ?_, ?_⟩ <;>
        (intro e he; rcases List.mem_cons.1 he with rfl | he)
      · nofun
      · exact h4 e he
      · nofun
      · exact h5 e he
  | opendir p k ih =>
    intro fs
    obtain ⟨tr, out, fs', h1, h2, h3, h4, h5⟩ := ih .fail fs
    refine ⟨_, out, fs', .opendir p k _ tr out h1, h2, .cons _ fs _ _ _ ⟨.opendir _ _, nofun⟩ h3, ?_, ?_⟩ <;>
      (intro e he; rcases List.mem_cons.1 he with rfl | he)
    · nofun
    · exact h4 e he
    · intro _ _ h; cases h; rfl
    · exact h5 e he
  | readdir d k ih =>
    intro fs
    obtain ⟨tr, out, fs', h1, h2, h3, h4, h5⟩ := ih none fs
    refine ⟨_, out, fs', .readdir d k _ tr out h1, h2, .cons _ fs _ _ _ ⟨.readdir _ _, nofun⟩ h3, ?_, ?_⟩ <;>
      (intro e he; rcases List.mem_cons.1 he with rfl | he)
    · nofun
    · exact h4 e he
    · nofun
    · exact h5 e he
  | closedir d k ih =>
    intro fs
    obtain ⟨tr, out, fs', h1, h2, h3, h4, h5⟩ := ih fs
    refine ⟨_, out, fs', .closedir d k tr out h1, h2, .cons _ fs _ _ _ ⟨.closedir _, nofun⟩ h3, ?_, ?_⟩ <;>
      (intro e he; rcases List.mem_cons.1 he with rfl | he)
    · nofun
    · exact h4 e he
    · nofun
    · exact h5 e he
  | slurp p k ih =>
    intro fs
    cases p with
    | none =>
      obtain ⟨tr, out, fs', h1, h2, h3, h4, h5⟩ := ih none fs
      refine ⟨_, out, fs', .slurp none k _ tr out h1, h2, .cons _ fs _ _ _ ⟨.slurp _ _, nofun⟩ h3, ?_, ?_⟩ <;>
        (intro e he; rcases List.mem_cons.1 he with rfl | he)
      · nofun
      · exact h4 e he
      · nofun
      · exact h5 e he
    | some p =>
      obtain ⟨tr, out, fs', h1, h2, h3, h4, h5⟩ := ih (files p) fs
      refine ⟨_, out, fs', .slurp (some p) k _ tr out h1, h2, .cons _ fs _ _ _ ⟨.slurp _ _, nofun⟩ h3, ?_, ?_⟩ <;>
        (intro e he; rcases List.mem_cons.1 he with rfl | he)
      · intro _ _ h; cases h; rfl
      · exact h4 e he
      · nofun
      · exact h5 e he
  | out s k ih =>
    intro fs
    obtain ⟨tr, out, fs', h1, h2, h3, h4, h5⟩ := ih fs
    refine ⟨_, out, fs', .out s k tr out h1, h2, .cons _ fs _ _ _ ⟨.out _, nofun⟩ h3, ?_, ?_⟩ <;>
      (intro e he; rcases List.mem_cons.1 he with rfl | he)
    · nofun
    · exact h4 e he
    · nofun
    · exact h5 e he
  | err s k ih =>
    intro fs
    obtain ⟨tr, out, fs', h1, h2, h3, h4, h5⟩ := ih fs
    refine ⟨_, out, fs', .err s k tr out h1, h2, .cons _ fs _ _ _ ⟨.err _, nofun⟩ h3, ?_, ?_⟩ <;>
      (intro e he; rcases List.mem_cons.1 he with rfl | he)
    · nofun
    · exact h4 e he
    · nofun
    · exact h5 e he

/-! ### Tables that fit -/

theorem tableFor_reachable {ctype : Bytes} {datadir : Option Bytes} {f : Filter} {reads : List (Bytes × Option Bytes)} {t : Table}
    (h : TableFor ctype datadir f reads (some t)) : Reachable t := by
  have bi : ∀ {b : Bytes} {t : Table}, BuiltinNamed b t → Reachable t := by
    intro b t h
    cases h with
    | iso8859_1 => exact builtin_roomy.2.1.reachable
    | unicode => exact builtin_roomy.2.2.1.reachable
    | safe => exact builtin_roomy.1.reachable
    | cp1252 => exact builtin_roomy.2.2.2.reachable
  generalize ht : some t = t' at h
  cases h with
  | untabled => cases ht
  | builtin _ _ _ _ _ hb => cases ht; exact bi hb
  | filename _ _ _ _ _ _ _ hp => cases ht; exact (parseTable_loaded hp).reach
  | found _ _ _ _ _ _ _ _ _ _ _ _ _ hp => cases ht; exact (parseTable_loaded hp).reach
  | fallback _ _ _ _ _ _ _ _ hb => cases ht; exact bi hb

theorem roomy_holds {t : Table} {m : TableText} (h : t.Holds m) (hr : Reachable t) {n : Nat} (hn : 1 ≤ n) (hm : m.Roomy n) :
    t.Roomy ∧ n ≤ t.maxDataLength := by
  obtain ⟨⟨k, d, h1, h2⟩, h3⟩ := hm
  have key : ∀ k d, m.row k = some d → d.length ≤ t.maxDataLength := fun k d hk =>
    C23_max_data_length_is_an_upper_bound t hr k d (by rw [h.rows]; exact hk)
  have := key k d h1
  refine ⟨⟨hr, by omega, fun x hx => ?_⟩, by omega⟩
  rw [h.dflt] at hx
  obtain ⟨k, d, h4, h5⟩ := h3 x hx
  have := key k d h4
  omega

/-- What is asked of names: they are C strings; and, if they are to be `plain`, without an encoded NUL. -/
def NameFits (plain : Bool) (s : Bytes) : Prop := NulFree s ∧ (plain = true → ¬ HasEncodedNul s)

theorem nameFits_part {plain : Bool} {s t : Bytes} (h : NameFits plain s) (ht : t <:+: s) : NameFits plain t :=
  ⟨fun h0 => h.1 (ht.subset h0), fun hp => hasEncodedNul_part (h.2 hp) ht⟩

theorem filter_fits {ctype : Bytes} {datadir : Option Bytes} {files : Bytes → Option Bytes} {f : Filter} {r : List (Bytes × Option Bytes)}
    {t : Option Table} (h : TableFor ctype datadir f r t) (hr : ReadsFrom files r) {plain : Bool} (hf : FilterFits ctype datadir files plain f) :
    (plain = false → Filter.Ready { f with table := t.or f.table }) ∧ ∀ {P : Platform}, P.Benign → ∀ s, NameFits plain s →
      ∃ out, filterRun P { f with table := t.or f.table } (some s) = .ok (some out) ∧ NulFree out := by
  have hready : f.cleaner ≠ .utf8 ∨ plain = false → Filter.Ready { f with table := t.or f.table } := by
    intro hp
    unfold Filter.Ready
    cases hc : f.cleaner with
    | safe =>
      obtain ⟨m, hm, hroom⟩ := hf _ (by rw [hc]; exact .safe)
      obtain ⟨t', rfl, hh⟩ := tableFor_holds h hr hm (by rw [hc]; exact .safe)
      rw [if_neg (by rw [hc]; simp)] at hroom
      exact ⟨t', rfl, (roomy_holds hh (tableFor_reachable h) (Nat.le_refl _) hroom).1⟩
    | iso8859_1 =>
      obtain ⟨m, hm, hroom⟩ := hf _ (by rw [hc]; exact .iso8859_1)
      obtain ⟨t', rfl, hh⟩ := tableFor_holds h hr hm (by rw [hc]; exact .iso8859_1)
      rw [if_neg (by rw [hc]; simp)] at hroom
      exact ⟨t', rfl, (roomy_holds hh (tableFor_reachable h) (Nat.le_refl _) hroom).1⟩
    | utf8 =>
      obtain ⟨m, hm, hroom⟩ := hf _ (by rw [hc]; exact .utf8)
      obtain ⟨t', rfl, hh⟩ := tableFor_holds h hr hm (by rw [hc]; exact .utf8)
      rw [if_pos ⟨hc, hp.resolve_left (fun h => h hc)⟩] at hroom
      obtain ⟨a, b⟩ := roomy_holds hh (tableFor_reachable h) (by omega) hroom
      exact ⟨t', rfl, a, b⟩
    | uncgi => trivial
    | wipeup => trivial
    | lower => trivial
    | maxLength => trivial
  refine ⟨fun hp => hready (.inr hp), fun {P} hP s hs => ?_⟩
  by_cases hu : f.cleaner ≠ .utf8 ∨ plain = false
  · exact filterRun_ready hP (hready hu) hs.1
  · obtain ⟨hu, hp⟩ := not_or.1 hu
    have hc : f.cleaner = .utf8 := Classical.not_not.1 hu
    obtain ⟨m, hm, hroom⟩ := hf _ (by rw [hc]; exact .utf8)
    obtain ⟨t', rfl, hh⟩ := tableFor_holds h hr hm (by rw [hc]; exact .utf8)
    rw [if_neg (fun h => hp h.2)] at hroom
    obtain ⟨out, ho⟩ := (C17_tables_in_bounds_partial P t' (roomy_holds hh (tableFor_reachable h) (Nat.le_refl _) hroom).1 s hs.1).2.2
      (.inl (hs.2 (by simpa using hp)))
    have h1 : filterRun P { f with table := (some t').or f.table } (some s) = .ok (some out) := by
      unfold filterRun
      simp only [hc, Option.some_or]
      rw [ho]
      rfl
    exact ⟨out, h1, filterRun_nulFree h1 hs.1⟩

theorem filters_fit {ctype : Bytes} {datadir : Option Bytes} {files : Bytes → Option Bytes} {fs gs : List Filter}
    {reads : List (Bytes × Option Bytes)} (hl : TablesFor ctype datadir fs reads gs) (hr : ReadsFrom files reads) {plain : Bool}
    (hf : FiltersFit ctype datadir files plain fs) {P : Platform} (hP : P.Benign) {s : Bytes} (hs : NameFits plain s) :
    ∃ out, runFilters P gs (some s) = .ok (some out) ∧ NulFree out := by
  cases hl with
  | nil => exact ⟨s, rfl, hs.1⟩
  | cons f r rs t fs gs h1 h2 =>
    obtain ⟨mid, h3, h4⟩ := (filter_fits h1 (fun x hx => hr x (by simp [hx])) hf.1).2 hP s hs
    have hready : ∀ g ∈ gs, g.Ready := by
      have hr2 : ReadsFrom files rs := fun x hx => hr x (by simp [hx])
      have hf2 := hf.2
      clear h1 h3 h4 hr hf
      induction h2 with
      | nil => exact nofun
      | cons f r rs t fs gs h1 h2 ih =>
        intro g hg
        rcases List.mem_cons.1 hg with rfl | hg
        · exact (filter_fits h1 (fun x hx => hr2 x (by simp [hx])) (hf2 f (by simp))).1 rfl
        · exact ih (fun x hx => hr2 x (by simp [hx])) (fun g hg => hf2 g (by simp [hg])) g hg
    rw [runFilters_cons h3]
    exact C18_cleaning_returns_a_name P hP { name := [], filters := gs } hready mid h4

/-! ### The configuration that is loaded -/

theorem sequences_arrive {E : ConfigEnv} {given : Option Bytes} {files : Bytes → Option Bytes} {qs : List Sequence}
    (hq : SequencesAre E given files qs) {tr : List Event} {out : Outcome ConfigFile} (h : Trace (configFileLoad E given) tr out)
    (hf : ∀ e ∈ tr, Faithful files e) : out = .running ∨ ∃ c, out = .ret c ∧ c.sequences = qs ∧ IgnV c.filesToIgnore := by
  have arr : (configFileLoad E given).Arrives (Faithful files) fun _ => True := by
    cases hq with
    | written conf hne hconf hm =>
      refine config_arrives (fun f hg hn => ?_) fun x hx => ?_
      · subst hg
        unfold configsInEffect at hconf
        simp only at hconf
        rw [present_none hn] at hconf
        exact hne (List.map_eq_nil_iff.1 hconf)
      · rw [← hconf] at hx
        obtain ⟨y, hy, rfl⟩ := List.mem_map.1 hx
        exact ⟨_, hm y hy⟩
    | builtin hg hno =>
      subst hg
      refine config_arrives nofun fun x hx => ?_
      rw [hno] at hx
      cases hx
  rcases arr.sound h hf with rfl | ⟨c, rfl, _⟩
  · exact .inl rfl
  have hr : ReadsFrom files (filesRead tr) := fun x hx => hf _ (filesRead_mem hx) _ _ rfl
  refine .inr ⟨c, rfl, ?_⟩
  cases hq with
  | written conf hne hconf hm =>
    obtain ⟨h1, l, h2, h3⟩ := config_loaded h hr hne hconf hm
    refine ⟨h1, fun l' hl' => ?_⟩
    rw [h2] at hl'
    cases hl'
    exact ⟨_, _, h3⟩
  | builtin hg hno =>
    subst hg
    obtain ⟨sys, user, ex1, ex2, h5, h6, h7, h8⟩ := C44_without_option_f h
    rw [h5] at hr
    have : configsInEffect E none files = ex1 ++ ex2 := by
      unfold configsInEffect
      simp only
      rw [firstOf_present h6 (fun x hx => hr x (by simp [hx])), allOf_present h7 (fun x hx => hr x (by simp [hx]))]
    rcases h8 with ⟨h8, _⟩ | ⟨_, h8⟩
    · rw [← this] at h8
      exact absurd hno h8
    · refine ⟨spoof_eq h8, fun l hl => ?_⟩
      unfold spoofConfigFile at h8
      obtain ⟨l', h9, h10⟩ := filelistPut_holds filelistInit_holds (lit "{arch}")
      rw [h9] at h8
      cases h8
      cases hl
      exact ⟨_, _, h10⟩

end Detox
