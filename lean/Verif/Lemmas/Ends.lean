import Verif.Spec.Ends
import Verif.Lemmas.Tree

/-!
# Every scan comes to an end
-/

set_option autoImplicit false

namespace Detox
open Spec

theorem Frugal.infix {K : Nat} {a t b : List Event} (h : Frugal K (a ++ (t ++ b))) : Frugal K t := by
  intro t1 p k t2 n t3 e hc
  exact h (a ++ t1) p k t2 n (t3 ++ b) (by rw [e]; simp) hc

/-! ### Open directories -/

theorem stream_step {W W1 : World} {e : Event} {k : Nat} {s : Stream} (h : World.Step W e W1) (hk : W.streams k = some s) (he : e ≠ .closedir k) :
    ∃ s', W1.streams k = some s' ∧ s'.dir = s.dir := by
  cases h with
  | lstat | renameFailed | refused | finished | slurp | out | err => exact ⟨s, hk, rfl⟩
  | renamed _ _ fs => exact ⟨s.after fs, by simp [hk], rfl⟩
  | opened _ h d _ _ h3 =>
    have : k ≠ h := by rintro rfl; rw [h3] at hk; cases hk
    exact ⟨s, by simp [this, hk], rfl⟩
  | entry h s1 n h1 =>
    by_cases hkh : k = h
    · subst hkh
      rw [h1] at hk
      cases hk
      exact ⟨⟨s.dir, s.owed.filter (· ≠ n)⟩, by simp, rfl⟩
    · exact ⟨s, by simp [hkh, hk], rfl⟩
  | closed h =>
    have : k ≠ h := by rintro rfl; exact he rfl
    exact ⟨s, by simp [this, hk], rfl⟩

theorem stream_stays {W W' : World} {tr : List Event} {k : Nat} (h : World.Steps W tr W') : ∀ {s : Stream}, W.streams k = some s → Event.closedir k ∉ tr →
    ∃ s', W'.streams k = some s' ∧ s'.dir = s.dir := by
  induction h with
  | nil => intro s hs _; exact ⟨s, hs, rfl⟩
  | cons _ _ _ e tr h1 _ ih =>
    intro s hs hc
    obtain ⟨s1, h2, h3⟩ := stream_step h1 hs (by rintro rfl; exact hc (by simp))
    obtain ⟨s2, h4, h5⟩ := ih h2 (fun hm => hc (by simp [hm]))
    exact ⟨s2, h4, h5.trans h3⟩

section
variable {R : Bytes → Bytes → Prop} {o : Options} {ws : List Bytes} {E : List Event} {depth : Ino → Nat} {slack level : Nat}

theorem fileRun_closes {f p : Bytes} {mid : List Event} (h : FileRunBy R o f mid p) (k : Nat) : Event.closedir k ∉ mid := by
  intro hm
  cases h <;> (try (revert hm; split)) <;> simp_all

/-- A scan closes only what it has opened. -/
theorem scan_closes {t : Task} {seen seen' : List Bytes} {tr : List Event} (h : ScanBy R o ws t seen tr seen') :
    ∀ {W W' : World} {k : Nat} {s : Stream}, World.Steps W tr W' → W.streams k = some s → (∀ h p st, t = .entries h p st → k ≠ h) → Event.closedir k ∉ tr := by
  induction h with
  | gone | replaced | closed => intro W W' k s _ _ _; simp
  | opened p st h seen seen' tr hk _ ih =>
    intro W W' k s hs hk _
    obtain ⟨a, b⟩ := world_lstat hs
    cases b with
    | cons _ _ _ _ _ s1 t1 =>
      cases s1 with
      | refused _ _ hno => exact absurd rfl (hno h)
      | opened _ _ d h1 h2 h3 =>
        have hne : k ≠ h := by rintro rfl; rw [h3] at hk; cases hk
        have := ih (k := k) (s := s) t1 (by simp [hne, hk]) (by rintro _ _ _ ⟨⟩; exact hne)
        simpa using this
  | finish h p st seen =>
    intro W W' k s _ _ hne
    have := hne h p st rfl
    simp [this]
  | pass h p st name seen seen' tr hpass _ ih =>
    intro W W' k s hs hk hne
    cases hs with
    | cons _ _ _ _ _ s1 t1 =>
      obtain ⟨s', h1, _⟩ := stream_step s1 hk (by simp)
      have := ih t1 h1 (by rintro _ _ _ ⟨⟩; exact hne _ _ _ rfl)
      simpa using this
  | leave h p st name r seen seen' tr hpass hkd hkr hsp _ ih =>
    intro W W' k s hs hk hne
    cases hs with
    | cons _ _ _ _ _ s1 t1 =>
      obtain ⟨s', h1, _⟩ := stream_step s1 hk (by simp)
      obtain ⟨_, t2⟩ := world_lstat t1
      have := ih t2 h1 (by rintro _ _ _ ⟨⟩; exact hne _ _ _ rfl)
      simpa using this
  | file h p st name r seen seen' mid tr q hpass hkind hf _ ih =>
    intro W W' k s hs hk hne
    cases hs with
    | cons _ _ _ _ _ s1 t1 =>
      obtain ⟨s', h1, _⟩ := stream_step s1 hk (by simp)
      obtain ⟨_, t2⟩ := world_lstat t1
      obtain ⟨W3, t2, t3⟩ := World.Steps.append_inv t2
      have hmid := fileRun_closes hf k
      obtain ⟨s3, h3, _⟩ := stream_stays t2 h1 hmid
      have := ih t3 h3 (by rintro _ _ _ ⟨⟩; exact hne _ _ _ rfl)
      simp [this, hmid]
  | recurse h p st name r seen seen1 seen' mid sub tr q hpass hkind hrec hf _ _ ih1 ih2 =>
    intro W W' k s hs hk hne
    cases hs with
    | cons _ _ _ _ _ s1 t1 =>
      obtain ⟨s', h1, _⟩ := stream_step s1 hk (by simp)
      obtain ⟨_, t2⟩ := world_lstat t1
      obtain ⟨W3, t2, t3⟩ := World.Steps.append_inv t2
      obtain ⟨W4, t3, t4⟩ := World.Steps.append_inv t3
      have hmid := fileRun_closes hf k
      obtain ⟨s3, h3, _⟩ := stream_stays t2 h1 hmid
      have hsub := ih1 t3 h3 (by rintro _ _ _ ⟨⟩)
      obtain ⟨s4, h4, _⟩ := stream_stays t3 h3 hsub
      have := ih2 t4 h4 (by rintro _ _ _ ⟨⟩; exact hne _ _ _ rfl)
      simp [this, hmid, hsub]

/-! ### What stays -/

/-- Nothing changed but names in directories of depth `level` or more. -/
structure Stays (depth : Ino → Nat) (slack level : Nat) (W W' : World) : Prop where
  same : SameBut W.fs W'.fs
  tree : W'.fs.Tree depth slack
  finds : ∀ x, depth x < level → ∀ n, W'.fs.find x n = W.fs.find x n

theorem Stays.trans {W W1 W2 : World} (h1 : Stays depth slack level W W1) (h2 : Stays depth slack level W1 W2) : Stays depth slack level W W2 :=
  ⟨h1.same.trans h2.same, h2.tree, fun x hx n => (h2.finds x hx n).trans (h1.finds x hx n)⟩

theorem KeepsIf.stays {B : World → Entry → Prop} {Ext : World → World → Prop} {D : Prop} {W W' : World} {X : Nat → Prop}
    (h : KeepsIf B Ext D R o ws E depth slack level X W W') : Stays depth slack level W W' :=
  ⟨h.same, h.tree, h.finds⟩

/-- The path of a directory of depth `level` or more, or of nothing. -/
def BelowPath (depth : Ino → Nat) (slack level : Nat) (fs : FS) (q : Bytes) : Prop :=
  q ≠ [] ∧ (fs.lookup q = none ∨ ∃ d, fs.Leads depth slack (depth d) q d ∧ fs.lookup q = some d ∧ level ≤ depth d)

/-- `parse_file` on an entry. -/
theorem file_stays {denied : Bytes → Bool} (S : ScanSetting R o E denied) {W W' : World} (hden : W.fs.denied = denied)
    (ht : W.fs.Tree depth slack) {dir n p : Bytes} {x : Ino} {mid : List Event} (hd : dir = [] ∨ ∃ d, dir = d ++ [0x2F]) (hn : PlainName n)
    (h0 : (0 : Byte) ∉ n) (hl : W.fs.Leads depth slack level dir x) (hf : FileRunBy R o (dir ++ n) mid p) (hs : World.Steps W mid W')
    (hE : ∀ e ∈ mid, e ∈ E) (hlk : W.fs.denied (dir ++ n) = false) : Stays depth slack level W W' ∧
    ((∀ i, W.fs.lookup (dir ++ n) = some i → W.fs.kind i = .dir) → BelowPath depth slack (depth x + 1) W'.fs p) := by
  have hlook := lookup_leads ht hd hn hl hlk
  obtain ⟨f1, f2⟩ := fileRun_world S hden ht hd hn h0 hl hf hs hE hlk
  have hdeep := hl.deep
  have hne0 : dir ++ n ≠ [] := by simp [hn.nonempty]
  cases hfe : W.fs.find x n with
  | none =>
    obtain ⟨rfl, rfl⟩ := f1 hfe
    rw [hfe] at hlook
    exact ⟨⟨.refl _, ht, fun _ _ _ => rfl⟩, fun _ => ⟨hne0, .inl hlook⟩⟩
  | some e =>
    obtain ⟨he, hed, _⟩ := FS_find_some hfe
    rw [hfe] at hlook
    rcases f2 e hfe with ⟨rfl, rfl, hcl⟩ | ⟨w, hw, hcl, hne, rfl, hfree, hdw, rfl⟩
    · refine ⟨⟨.refl _, ht, fun _ _ _ => rfl⟩, fun hk => ⟨hne0, .inr ⟨e.ino, leads_entry ht hd hn hl hfe (hk _ hlook), hlook, ?_⟩⟩⟩
      rw [ht.level e he (hk _ hlook), hed]
      exact Nat.le_refl _
    · rw [← hed] at hfree
      have ht3 := moved_tree ht he hfree
      have hhere := moved_here ht he hfree
      rw [hed] at hhere
      have hfin : ∀ y, depth y < level → ∀ m, (W.moved e w).fs.find y m = W.fs.find y m :=
        fun y hy m => moved_find (fun hx' => by rw [hx', hed] at hy; omega) m
      have hl3 : (W.moved e w).fs.Leads depth slack level dir x := leads_same ⟨_, rfl⟩ hl hfin
      have hlk3 := lookup_leads (fs := (W.moved e w).fs) ht3 hd hw hl3 hdw
      rw [show (W.moved e w).fs.find x w = _ from hhere] at hlk3
      refine ⟨⟨⟨_, rfl⟩, ht3, hfin⟩, fun hk => ⟨by simp [hw.nonempty], .inr ⟨e.ino, ?_, hlk3, ?_⟩⟩⟩
      · exact leads_entry (e := ⟨x, w, e.ino⟩) (fs := (W.moved e w).fs) ht3 hd hw hl3 hhere (hk _ hlook)
      · rw [ht.level e he (hk _ hlook), hed]
        exact Nat.le_refl _

/-- A directory below, scanned. -/
theorem sub_stays {denied : Bytes → Bool} (S : ScanSetting R o E denied) {q : Bytes} {seen seen' : List Bytes} {tr : List Event}
    (h : ScanBy R o ws (.dir q) seen tr seen') (hE : ∀ e ∈ tr, e ∈ E) {W W' : World} (hden : W.fs.denied = denied) (ht : W.fs.Tree depth slack)
    (hs : World.Steps W tr W') (hb : BelowPath depth slack level W.fs q) : Stays depth slack level W W' := by
  obtain ⟨hq, hb⟩ := hb
  obtain ⟨g1, g2⟩ := scan_goal S h hE W W' hden ht hs hq
  rcases hb with hb | ⟨d, h1, h2, h3⟩
  · rw [g1 hb]; exact ⟨.refl _, ht, fun _ _ _ => rfl⟩
  · exact ((g2 d h1 h2).1.weaken h3 fun _ h => h).stays

end

/-! ### The number of calls -/

theorem trace_ofRes {α : Type} {r : Res α} {tr : List Event} {out : Outcome α} (h : Trace (Prog.ofRes r) tr out) : tr = [] := by
  cases r <;> cases h <;> rfl

theorem checkAndRename_calls {o : Options} {old new : Bytes} {tr : List Event} {out : Outcome Bytes} (h : Trace (checkAndRename o old new) tr out) :
    tr.length ≤ 5 := by
  have ren : ∀ {tr}, Trace (doRename old new) tr out → tr.length ≤ 2 := by
    intro tr h
    unfold doRename at h
    cases h with
    | stop => simp
    | rename _ _ _ r tr _ h =>
      dsimp only at h
      split at h
      · cases h <;> simp
      · cases h with
        | stop => simp
        | err _ _ _ _ h => cases h <;> simp
  have next : ∀ {tr}, Trace (if o.dryRun = true then .ret old else doRename old new) tr out → tr.length ≤ 2 := by
    intro tr h
    split at h
    · cases h <;> simp
    · exact ren h
  unfold checkAndRename at h
  cases h with
  | stop => simp
  | lstat _ _ r tr _ h =>
  cases r with
  | none => cases h <;> simp
  | some so =>
    cases h with
    | stop => simp
    | lstat _ _ rn tr _ h =>
    change Trace (if _ then _ else _) tr _ at h
    split at h
    · cases h with
      | stop => simp
      | err _ _ _ _ h => cases h <;> simp
    · unfold announceAndRename at h
      dsimp only at h
      split at h
      · cases h with
        | stop => simp
        | out _ _ _ _ h =>
          have := next h
          simp only [List.length_cons]
          omega
      · have := next h
        simp only [List.length_cons]
        omega

theorem parseFile_calls {P : Platform} {o : Options} {f : Bytes} {tr : List Event} {out : Outcome Bytes} (h : Trace (parseFile P o f) tr out) :
    tr.length ≤ 5 := by
  unfold parseFile at h
  dsimp only at h
  rcases trace_bind_any h with ⟨a, t1, t2, rfl, h1, h2⟩ | ⟨o', _, h1⟩
  · rw [trace_ofRes h1, List.nil_append]
    split at h2
    · cases h2 <;> simp
    · split at h2
      · cases h2 <;> simp
      · exact checkAndRename_calls h2
  · rw [trace_ofRes h1]; simp

section
variable {P : Platform} {o : Options} {ws : List Bytes} {E : List Event} {depth : Ino → Nat} {slack level K : Nat} {denied : Bytes → Bool}

/-- The entries of a directory, if the calls for a directory below are at most `B`. -/
theorem dirLoop_calls (S : ScanSetting (Makes P o) o E denied) {B level : Nat} {recDir : Option Filelist → Bytes → Prog (Option Filelist)}
    (hscan : ∀ ign p tr ign' seen, Trace (recDir ign p) tr (.ret ign') → IgnOk ws ign seen →
      ∃ seen', Scan P o ws (.dir p) seen tr seen' ∧ IgnOk ws ign' seen')
    (hcalls : ∀ ign q tr out seen W W', Trace (recDir ign q) tr out → IgnOk ws ign seen → (∀ e ∈ tr, e ∈ E) → W.fs.denied = denied →
      W.fs.Tree depth slack → World.Steps W tr W' → BelowPath depth slack (level + 1) W.fs q → Frugal K tr → tr.length ≤ B)
    (h : Nat) (p p0 : Bytes) (d : Ino) (hp : p ≠ []) (hdl : depth d = level) :
    ∀ (n : Nat) (st : Stat) (ign : Option Filelist) (tr pre : List Event) (out : Outcome (Option Filelist)) (seen : List Bytes) (W W' : World)
      (owed : List Bytes), Trace (dirLoop P o recDir h p n st ign) tr out → IgnOk ws ign seen → (∀ e ∈ tr, e ∈ E) → W.fs.denied = denied →
      W.fs.Tree depth slack → World.Steps W tr W' → W.streams h = some ⟨d, owed⟩ → W.fs.Leads depth slack (depth d) p d →
      Frugal K (.opendir p0 (.ok h) :: (pre ++ tr)) → Event.closedir h ∉ pre →
      tr.length ≤ 2 + (K - (pre.filter (givesName h)).length) * (7 + B)
  | 0, _, _, _, _, _, _, _, _, _, ht, _, _, _, _, _, _, _, _, _ => by cases ht <;> (simp only [List.length_nil]; omega)
  | n + 1, st, ign, tr, pre, out, seen, W, W', owed, ht, hi, hE, hden, htree, hs, hst, hl, hfr, hpre => by
    unfold dirLoop at ht
    cases ht with
    | stop => simp
    | readdir _ _ e tr _ ht =>
    cases e with
    | none =>
      cases ht with
      | stop => simp only [List.length_cons, List.length_nil]; omega
      | closedir _ _ _ _ ht => cases ht <;> (simp only [List.length_cons, List.length_nil]; omega)
    | some name =>
      have hlt : (pre.filter (givesName h)).length < K := hfr [] p0 h pre name tr rfl hpre
      obtain ⟨hen, hs⟩ := world_readdir hst hs
      -- the next round
      have more : ∀ (mid t : List Event) (st1 : Stat) (ign1 : Option Filelist) (seen1 : List Bytes) (W1 : World), tr = mid ++ t →
          mid.length ≤ 6 + B → Trace (dirLoop P o recDir h p n st1 ign1) t out → IgnOk ws ign1 seen1 → Event.closedir h ∉ mid →
          Stays depth slack level W W1 → World.Steps (W.given h d owed name) mid W1 → World.Steps W1 t W' →
          (Event.readdir h (some name) :: tr).length ≤ 2 + (K - (pre.filter (givesName h)).length) * (7 + B) := by
        rintro mid t st1 ign1 seen1 W1 rfl hlen ht1 hi1 hmid hstay hs1 hs2
        obtain ⟨⟨d1, owed1⟩, hst1, hd1⟩ := stream_stays (k := h) hs1 (s := ⟨d, owed.filter (· ≠ name)⟩) (by simp [World.given]) hmid
        dsimp only at hd1
        subst hd1
        have := dirLoop_calls S hscan hcalls h p p0 d1 hp hdl n st1 ign1 t (pre ++ .readdir h (some name) :: mid) out seen1 W1 W' owed1 ht1 hi1
          (fun e he => hE e (by simp [he])) (by rw [hstay.same.denied]; exact hden) hstay.tree hs2 hst1
          (leads_same hstay.same hl (by rw [hdl]; exact hstay.finds)) (by simpa using hfr) (by simp [hpre, hmid])
        have hcount : (pre.filter (givesName h)).length + 1 ≤ ((pre ++ .readdir h (some name) :: mid).filter (givesName h)).length := by
          rw [List.filter_append, List.length_append]
          simp [givesName]
        have hmul : (K - ((pre ++ .readdir h (some name) :: mid).filter (givesName h)).length) * (7 + B) ≤
            (K - (pre.filter (givesName h)).length - 1) * (7 + B) := Nat.mul_le_mul_right _ (by omega)
        have hone : (K - (pre.filter (givesName h)).length) * (7 + B) = (K - (pre.filter (givesName h)).length - 1) * (7 + B) + (7 + B) := by
          rw [← Nat.succ_mul]
          congr 1
          omega
        simp only [List.length_cons, List.length_append]
        omega
      have part : tr.length ≤ 6 + B → (Event.readdir h (some name) :: tr).length ≤ 2 + (K - (pre.filter (givesName h)).length) * (7 + B) := by
        intro hle
        have : 1 * (7 + B) ≤ (K - (pre.filter (givesName h)).length) * (7 + B) := Nat.mul_le_mul_right _ (by omega)
        simp only [List.length_cons]
        omega
      obtain ⟨ign1, b, h1, h2, h3⟩ := ignoreFile_seeing hi name
      simp only [h1] at ht
      change Trace (if b = true then _ else _) tr _ at ht
      have hstay0 : Stays depth slack level W (W.given h d owed name) := ⟨.refl _, htree, fun _ _ _ => rfl⟩
      by_cases hb : b = true
      · rw [if_pos hb] at ht
        exact more [] tr st ign1 _ _ rfl (by simp) ht h3 (by simp) hstay0 (.nil _) hs
      · rw [if_neg hb] at ht
        have hno : ¬ PassedOver ws seen name := fun hp => hb (h2.2 hp)
        cases ht with
        | stop => exact part (by simp)
        | lstat _ _ r tr _ ht =>
        obtain ⟨hr, hs⟩ := world_lstat hs
        have hplain : PlainName name := ⟨hen.nonempty, hen.slash, fun h0 => hno (.inl ⟨_, h0⟩), fun h0 => hno (.inl ⟨_, h0⟩)⟩
        have hpath : (p ++ [0x2F] ++ name).take (p.length + 1023) = (p ++ [0x2F]) ++ name := entryPath_short hen.short
        rw [hpath] at ht hr hE hfr part more
        have hallow : W.fs.denied ((p ++ [0x2F]) ++ name) = false := by rw [hden]; exact S.allowed _ r (hE _ (by simp))
        have hls := leads_slash hp hl
        have hfile : ∀ {q mid W1}, FileRunBy (Makes P o) o ((p ++ [0x2F]) ++ name) mid q → World.Steps (W.given h d owed name) mid W1 → (∀ e ∈ mid, e ∈ E) →
            Stays depth slack level W W1 ∧
            ((∀ i, W.fs.lookup ((p ++ [0x2F]) ++ name) = some i → W.fs.kind i = .dir) → BelowPath depth slack (level + 1) W1.fs q) := by
          intro q mid W1 hf hs1 hE1
          obtain ⟨a, b⟩ := file_stays (W := W.given h d owed name) S hden htree (.inr ⟨p, rfl⟩) hplain hen.nul hls hf hs1 hE1 hallow
          rw [hdl] at a b
          exact ⟨hstay0.trans a, b⟩
        -- a file
        have plain : ∀ {W1 : World} {t1 t2 : List Event} {q : Bytes}, tr = t1 ++ t2 → Trace (parseFile P o ((p ++ [0x2F]) ++ name)) t1 (.ret q) →
            Trace (dirLoop P o recDir h p n (r.getD st) ign1) t2 out →
            (Event.readdir h (some name) :: .lstat ((p ++ [0x2F]) ++ name) r :: tr).length ≤ 2 + (K - (pre.filter (givesName h)).length) * (7 + B) := by
          rintro _ t1 t2 q rfl h4 h5
          have hf := C56_parse_file_exactly P o _ _ _ h4
          obtain ⟨W1, hs1, hs2⟩ := World.Steps.append_inv hs
          have hlen := parseFile_calls h4
          exact more (.lstat ((p ++ [0x2F]) ++ name) r :: t1) t2 _ ign1 _ W1 rfl (by simp only [List.length_cons]; omega) h5 h3 (by simp [fileRun_closes hf h])
            (hfile hf hs1 fun e he => hE e (by simp [he])).1 (.cons _ _ _ _ _ (.lstat _ _ _ hr) hs1) hs2
        dsimp only at ht
        change Trace (if _ then _ else _) tr _ at ht
        by_cases hd : (r.getD st).kind = .dir
        · rw [if_pos hd] at ht
          rcases trace_bind_any ht with ⟨q, t1, t2, htr, h4, h5⟩ | ⟨o', _, h4⟩
          rotate_left
          · have := parseFile_calls h4
            exact part (by simp only [List.length_cons]; omega)
          by_cases hrec : o.recurse = true
          · rw [if_pos hrec] at h5
            subst htr
            have hf := C56_parse_file_exactly P o _ _ _ h4
            obtain ⟨W1, hs1, hs2⟩ := World.Steps.append_inv hs
            obtain ⟨hst1, hbel⟩ := hfile hf hs1 fun e he => hE e (by simp [he])
            have hbel' := hbel (by
              intro i hi
              cases r with
              | none => rw [show (W.given h d owed name).fs = W.fs from rfl] at hr; rw [lookup_none hr] at hi; cases hi
              | some st' =>
                obtain ⟨b, _, _⟩ := lstat_kind hi hr
                rw [← b]; exact hd)
            have hlen := parseFile_calls h4
            rcases trace_bind_any h5 with ⟨ign2, t3, t4, rfl, h6, h7⟩ | ⟨o', _, h6⟩
            · obtain ⟨W2, hs2, hs3⟩ := World.Steps.append_inv hs2
              have hsub := hcalls _ _ _ _ _ _ _ h6 h3 (fun e he => hE e (by simp [he])) (by rw [hst1.same.denied]; exact hden) hst1.tree hs2 hbel'
                (Frugal.infix (a := .opendir p0 (.ok h) :: (pre ++ .readdir h (some name) :: .lstat ((p ++ [0x2F]) ++ name) r :: t1)) (b := t4)
                  (by simpa using hfr))
              obtain ⟨seen1, h8, h9⟩ := hscan _ _ _ _ _ h6 h3
              have hst2 := sub_stays S h8 (fun e he => hE e (by simp [he])) (by rw [hst1.same.denied]; exact hden) hst1.tree hs2 hbel'
              have hmid := fileRun_closes hf h
              obtain ⟨s1, hss, _⟩ := stream_stays (k := h) hs1 (s := ⟨d, owed.filter (· ≠ name)⟩) (by simp [World.given]) hmid
              have hnc := scan_closes h8 hs2 hss (by rintro _ _ _ ⟨⟩)
              refine more (.lstat ((p ++ [0x2F]) ++ name) r :: (t1 ++ t3)) t4 _ ign2 _ W2 (by simp) (by simp only [List.length_cons, List.length_append]; omega)
                h7 h9 (by simp [hmid, hnc]) (hst1.trans ⟨hst2.same, hst2.tree, fun x hx n => hst2.finds x (by omega) n⟩)
                (.cons _ _ _ _ _ (.lstat _ _ _ hr) (steps_append hs1 hs2)) hs3
            · have hsub := hcalls _ _ _ _ _ _ _ h6 h3 (fun e he => hE e (by simp [he])) (by rw [hst1.same.denied]; exact hden) hst1.tree hs2 hbel'
                (Frugal.infix (a := .opendir p0 (.ok h) :: (pre ++ .readdir h (some name) :: .lstat ((p ++ [0x2F]) ++ name) r :: t1)) (b := [])
                  (by simpa using hfr))
              exact part (by simp only [List.length_cons, List.length_append]; omega)
          · rw [if_neg hrec] at h5
            exact plain (W1 := W) htr h4 h5
        · rw [if_neg hd] at ht
          by_cases hw : (decide ((r.getD st).kind = .reg) || o.special) = true
          · rw [if_pos hw] at ht
            rcases trace_bind_any ht with ⟨q, t1, t2, htr, h4, h5⟩ | ⟨o', _, h4⟩
            · exact plain (W1 := W) htr h4 h5
            · have := parseFile_calls h4
              exact part (by simp only [List.length_cons]; omega)
          · rw [if_neg hw] at ht
            exact more [.lstat ((p ++ [0x2F]) ++ name) r] tr _ ign1 _ _ rfl (by simp; omega) ht h3 (by simp) hstay0
              (.cons _ _ _ _ _ (.lstat _ _ _ hr) (.nil _)) hs

/-- A directory. -/
theorem parseDir_calls (S : ScanSetting (Makes P o) o E denied) :
    ∀ (n D : Nat) (level : Nat) (ign : Option Filelist) (q : Bytes) (tr : List Event) (out : Outcome (Option Filelist)) (seen : List Bytes) (W W' : World),
      walkLimit ≤ level + D → Trace (parseDir P o n ign q) tr out → IgnOk ws ign seen → (∀ e ∈ tr, e ∈ E) → W.fs.denied = denied →
      W.fs.Tree depth slack → World.Steps W tr W' → BelowPath depth slack level W.fs q → Frugal K tr → tr.length ≤ scanCalls K D
  | 0, _, _, _, _, _, _, _, _, _, _, ht, _, _, _, _, _, _, _ => by cases ht <;> simp
  | n + 1, D, level, ign, q, tr, out, seen, W, W', hD, ht, hi, hE, hden, htree, hs, hb, hfr => by
    have three : 3 ≤ scanCalls K D := by
      cases D with
      | zero => exact Nat.le_refl _
      | succ D => simp only [scanCalls]; omega
    unfold parseDir at ht
    cases ht with
    | stop => simp
    | lstat _ _ r tr _ ht =>
    obtain ⟨hr, hs'⟩ := world_lstat hs
    clear hs
    cases r with
    | none =>
      cases ht <;> (simp only [List.length_cons, List.length_nil]; omega)
    | some st =>
      change Trace (if _ then _ else _) tr _ at ht
      by_cases hd : st.kind ≠ .dir
      · rw [if_pos hd] at ht
        cases ht <;> (simp only [List.length_cons, List.length_nil]; omega)
      · rw [if_neg hd] at ht
        cases ht with
        | stop => simp only [List.length_cons, List.length_nil]; omega
        | opendir _ _ r tr _ ht =>
        cases r with
        | fail =>
          cases ht with
          | stop => simp only [List.length_cons, List.length_nil]; omega
          | err _ _ _ _ ht => cases ht <;> (simp only [List.length_cons, List.length_nil]; omega)
        | emfile =>
          cases ht with
          | stop => simp only [List.length_cons, List.length_nil]; omega
          | err _ _ _ _ ht => cases ht <;> (simp only [List.length_cons, List.length_nil]; omega)
        | ok h =>
          obtain ⟨hq, hb⟩ := hb
          obtain ⟨d, hl, hlk, hdeep⟩ : ∃ d, W.fs.Leads depth slack (depth d) q d ∧ W.fs.lookup q = some d ∧ level ≤ depth d := by
            rcases hb with hb | hb
            · rw [lstat_none hb] at hr; cases hr
            · exact hb
          have hfo := follow_leads htree hq (by rw [hden]; exact S.allowed q (some st) (hE _ (by simp))) hl
          cases hs' with
          | cons _ _ _ _ _ s1 hs =>
            cases s1 with
            | refused _ _ hno => exact absurd rfl (hno h)
            | opened _ _ d' h1 h2 h3 =>
              rw [hfo] at h1
              cases h1
              have hbound := htree.bound d
              obtain ⟨D, rfl⟩ : ∃ D', D = D' + 1 := ⟨D - 1, by omega⟩
              have := dirLoop_calls (B := scanCalls K D) (K := K) (level := depth d) S (parseDir_scan' n)
                (fun ign q tr out seen W W' a b c e f g k l => parseDir_calls S n D (depth d + 1) ign q tr out seen W W' (by omega) a b c e f g k l)
                h q q d hq rfl n st ign tr [] out seen (W.inside h d q) W' (W.fs.namesIn d) ht hi (fun e he => hE e (by simp [he])) hden htree hs
                (by simp [World.inside]) hl
                (by simpa using Frugal.infix (a := [.lstat q (some st)]) (b := []) (t := .opendir q (.ok h) :: tr) (by simpa using hfr)) (by simp)
              simp only [List.filter_nil, List.length_nil, Nat.sub_zero] at this
              simp only [List.length_cons, scanCalls]
              omega

/-- One argument. -/
theorem processArg_calls (S : ScanSetting (Makes P o) o E denied) {fuel : Nat} {ign : Option Filelist} {f : Bytes} {tr : List Event}
    {out : Outcome (Option Filelist)} {seen : List Bytes} {W W' : World} (ht : Trace (processArg P o fuel ign f) tr out) (hi : IgnOk ws ign seen)
    (hE : ∀ e ∈ tr, e ∈ E) (hden : W.fs.denied = denied) (htree : W.fs.Tree depth slack) (hst : W.fs.Steady depth slack level f) (h0 : (0 : Byte) ∉ f)
    (hs : World.Steps W tr W') (hfr : Frugal K tr) : tr.length ≤ 7 + scanCalls K walkLimit := by
  have plain : ∀ {tr : List Event}, Trace ((parseFile P o f).bind fun _ => .ret ign) tr out → tr.length ≤ 5 := by
    intro tr h
    rcases trace_bind_any h with ⟨a, t1, t2, rfl, h1, h2⟩ | ⟨o', _, h1⟩
    · have := parseFile_calls h1
      cases h2 <;> simpa using this
    · exact parseFile_calls h1
  have body : ∀ t, Trace (Prog.lstat f fun r => match r with
          | none => .err (f ++ lit ": ") (.ret ign)
          | some st =>
            if st.kind = .dir then (parseFile P o f).bind fun work => parseDir P o fuel ign work
            else if st.kind = .reg then (parseFile P o f).bind fun _ => .ret ign
            else if o.special then (parseFile P o f).bind fun _ => .ret ign
            else .ret ign) t out → (∀ e ∈ t, e ∈ E) → World.Steps W t W' → Frugal K t → t.length ≤ 6 + scanCalls K walkLimit := by
    intro t ht hE hs hfr
    cases ht with
    | stop => simp
    | lstat _ _ r tr _ ht =>
    cases r with
    | none =>
      cases ht with
      | stop => simp only [List.length_cons, List.length_nil]; omega
      | err _ _ _ _ ht => cases ht <;> (simp only [List.length_cons, List.length_nil]; omega)
    | some st =>
      obtain ⟨hr, hs⟩ := world_lstat hs
      change Trace (if _ then _ else _) tr _ at ht
      by_cases hd : st.kind = .dir
      · rw [if_pos hd] at ht
        rcases trace_bind_any ht with ⟨q, t1, t2, rfl, h4, h5⟩ | ⟨o', _, h4⟩
        · have hlen := parseFile_calls h4
          have hf := C56_parse_file_exactly P o _ _ _ h4
          obtain ⟨W1, hs1, hs2⟩ := World.Steps.append_inv hs
          obtain ⟨i, hlk, _, _⟩ := FS_lstat_some hr
          have hki : W.fs.kind i = .dir := (lstat_kind hlk hr).1.symm.trans hd
          have key : Stays depth slack level W W1 ∧ BelowPath depth slack 0 W1.fs q := by
            cases hst with
            | self dir name d g1 g2 g3 g4 g5 =>
              obtain ⟨rfl, rfl⟩ := fileRun_self S.empty hf g1 g2 g3
              have := world_nil hs1
              subst this
              have hid := lookup_self g5 hlk hki
              subst hid
              exact ⟨⟨.refl _, htree, fun _ _ _ => rfl⟩, g4, .inr ⟨i, leads_level g5, hlk, Nat.zero_le _⟩⟩
            | name dir name x g1 g2 g3 g4 g5 g6 g7 =>
              subst g1
              have hallow : W.fs.denied (dir ++ name) = false := by rw [hden]; exact S.allowed _ (some st) (hE _ (by simp))
              obtain ⟨a, b⟩ := file_stays S hden htree g2 ⟨g4, g3, g5, g6⟩ (fun h => h0 (List.mem_append_right _ h)) g7 hf hs1
                (fun e he => hE e (by simp [he])) hallow
              obtain ⟨b1, b2⟩ := b (fun j hj => by rw [hlk] at hj; cases hj; exact hki)
              refine ⟨a, b1, ?_⟩
              rcases b2 with b2 | ⟨d, c1, c2, _⟩
              · exact .inl b2
              · exact .inr ⟨d, c1, c2, Nat.zero_le _⟩
          have := parseDir_calls S fuel walkLimit 0 ign q t2 out seen W1 W' (by omega) h5 hi (fun e he => hE e (by simp [he]))
            (by rw [key.1.same.denied]; exact hden) key.1.tree hs2 key.2
            (Frugal.infix (a := .lstat f (some st) :: t1) (b := []) (by simpa using hfr))
          simp only [List.length_cons, List.length_append]
          omega
        · have := parseFile_calls h4
          simp only [List.length_cons]
          omega
      · rw [if_neg hd] at ht
        have five : ∀ {tr : List Event}, tr.length ≤ 5 → (Event.lstat f (some st) :: tr).length ≤ 6 + scanCalls K walkLimit := by
          intro tr h
          simp only [List.length_cons]
          omega
        by_cases hr : st.kind = .reg
        · rw [if_pos hr] at ht
          exact five (plain ht)
        · rw [if_neg hr] at ht
          by_cases hs : o.special = true
          · rw [if_pos hs] at ht
            exact five (plain ht)
          · rw [if_neg hs] at ht
            exact five (by cases ht <;> simp)
  unfold processArg at ht
  dsimp only at ht
  by_cases hv : o.verbose = 0
  · rw [if_neg (by simp [hv])] at ht
    have := body _ ht hE hs hfr
    omega
  · rw [if_pos (by simpa using hv)] at ht
    cases ht with
    | stop => simp
    | out _ _ tr _ ht =>
      have := body _ ht (fun e he => hE e (by simp [he])) (world_out hs) (Frugal.infix (a := [.out (lit "Scanning: " ++ f ++ [0x0A])]) (b := []) (by simpa using hfr))
      simp only [List.length_cons]
      omega

/-- All arguments. -/
theorem fileLoop_calls (S : ScanSetting (Makes P o) o E denied) {fuel : Nat} {args : List Bytes} :
    ∀ (n k : Nat) (l : Filelist) (ign : Option Filelist) (tr : List Event) (out : Outcome (Option Filelist)) (seen : List Bytes) (W W' : World),
      l.Holds args k → Trace (fileLoop P o fuel n l ign) tr out → IgnOk ws ign seen → (∀ e ∈ tr, e ∈ E) → W.fs.denied = denied → W.fs.Tree depth slack →
      (∀ f ∈ args, W.fs.Steady depth slack level f) → (∀ f ∈ args, (0 : Byte) ∉ f) → World.Steps W tr W' → Frugal K tr →
      tr.length ≤ (args.length - k) * (7 + scanCalls K walkLimit)
  | 0, _, _, _, _, _, _, _, _, _, ht, _, _, _, _, _, _, _, _ => by cases ht <;> simp
  | n + 1, k, l, ign, tr, out, seen, W, W', hl, ht, hi, hE, hden, htree, hst, h0, hs, hfr => by
    have hg := filelistGet_holds hl
    unfold fileLoop at ht
    split at hg
    · next hk =>
      obtain ⟨l', h1, h2⟩ := hg
      rw [h1] at ht
      change Trace ((processArg P o fuel ign args[k]).bind fun ign' => fileLoop P o fuel n l' ign') tr _ at ht
      have hm : args[k] ∈ args := List.getElem_mem hk
      have hone : (args.length - k) * (7 + scanCalls K walkLimit) = (args.length - (k + 1)) * (7 + scanCalls K walkLimit) + (7 + scanCalls K walkLimit) := by
        rw [← Nat.succ_mul]
        congr 1
        omega
      rcases trace_bind_any ht with ⟨ign1, t1, t2, rfl, h3, h4⟩ | ⟨o', _, h3⟩
      · obtain ⟨W1, hs1, hs2⟩ := World.Steps.append_inv hs
        have hE1 : ∀ e ∈ t1, e ∈ E := fun e he => hE e (by simp [he])
        have hlen := processArg_calls S h3 hi hE1 hden htree (hst _ hm) (h0 _ hm) hs1 (Frugal.infix (a := []) (b := t2) hfr)
        obtain ⟨t, seen1, ht1, h5, h6⟩ := processArg_scan' h3 hi
        have hs1' : World.Steps W t W1 := by
          rw [ht1] at hs1
          split at hs1
          · exact hs1
          · exact world_out hs1
        obtain ⟨hK, _, _⟩ := arg_goal S h5 (fun e he => hE1 e (by rw [ht1]; simp [he])) hden htree (hst _ hm) (h0 _ hm) hs1'
        have := fileLoop_calls S n (k + 1) l' ign1 t2 out seen1 W1 W' h2 h4 h6 (fun e he => hE e (by simp [he])) (by rw [hK.same.denied]; exact hden) hK.tree
          (fun f hf => steady_same hK.same (hst f hf) hK.finds) h0 hs2 (Frugal.infix (a := t1) (b := []) (by simpa using hfr))
        rw [List.length_append, hone]
        omega
      · have := processArg_calls S h3 hi hE hden htree (hst _ hm) (h0 _ hm) hs hfr
        omega
    · next hk =>
      obtain ⟨l', h1, h2⟩ := hg
      rw [h1] at ht
      cases ht <;> simp

end

end Detox
