import Verif.Lemmas.DryRun

/-!
# C93: does `-n` tell the truth?
-/

set_option autoImplicit false

namespace Detox

open Spec

theorem outputs_append (a b : List Event) : outputs (a ++ b) = outputs a ++ outputs b := List.filterMap_append
theorem attempts_append (a b : List Event) : attempts (a ++ b) = attempts a ++ attempts b := List.filterMap_append

/-- A dry run and a real one of the same thing. -/
structure DryAgree (verbose : Nat) (td tr : List Event) : Prop where
  quiet : verbose = 0 → outputs td = (attempts tr).map arrow
  loud : verbose ≠ 0 → outputs td = outputs tr
  errors : ∀ s, Event.err s ∈ td → Event.err s ∈ tr

theorem DryAgree.nil {v : Nat} : DryAgree v [] [] := ⟨fun _ => rfl, fun _ => rfl, fun _ h => h⟩

theorem DryAgree.append {v : Nat} {a b c d : List Event} (h1 : DryAgree v a b) (h2 : DryAgree v c d) : DryAgree v (a ++ c) (b ++ d) := by
  refine ⟨fun h => ?_, fun h => ?_, fun s hs => ?_⟩
  · rw [outputs_append, attempts_append, List.map_append, h1.quiet h, h2.quiet h]
  · rw [outputs_append, outputs_append, h1.loud h, h2.loud h]
  · rcases List.mem_append.mp hs with hs | hs
    · exact List.mem_append_left _ (h1.errors s hs)
    · exact List.mem_append_right _ (h2.errors s hs)

theorem DryAgree.lstat {v : Nat} {a b : List Event} {p : Bytes} {r : Option Stat} (h : DryAgree v a b) : DryAgree v (.lstat p r :: a) (.lstat p r :: b) :=
  DryAgree.append (a := [_]) (b := [_]) ⟨fun _ => rfl, fun _ => rfl, fun _ h => h⟩ h

/-- What `lstat` answers while a file is dealt with is how things are before. -/
theorem fileRun_lstats {R : Bytes → Bytes → Prop} {o : Options} {f p : Bytes} {tr : List Event} (h : FileRunBy R o f tr p) {fs fs' : FS}
    (hs : FS.Steps fs tr fs') : ∀ q r, Event.lstat q r ∈ tr → fs.lstat q = r := by
  have two : ∀ {a b : Bytes} {ra rb : Option Stat} {rest : List Event}, FS.Steps fs (.lstat a ra :: .lstat b rb :: rest) fs' →
      (∀ q r, Event.lstat q r ∉ rest) → ∀ q r, Event.lstat q r ∈ Event.lstat a ra :: .lstat b rb :: rest → fs.lstat q = r := by
    intro a b ra rb rest hs hno q r hm
    cases hs with
    | cons _ _ _ _ _ s1 hs =>
    cases s1 with
    | lstat _ _ h1 =>
    cases hs with
    | cons _ _ _ _ _ s2 hs =>
    cases s2 with
    | lstat _ _ h2 =>
    simp only [List.mem_cons, Event.lstat.injEq] at hm
    rcases hm with ⟨rfl, rfl⟩ | ⟨rfl, rfl⟩ | hm
    · exact h1
    · exact h2
    · exact absurd hm (hno q r)
  cases h with
  | clean => intro q r hm; cases hm
  | gone =>
    intro q r hm
    cases hs with
    | cons _ _ _ _ _ s1 hs =>
    cases s1 with
    | lstat _ _ h1 =>
    simp only [List.mem_cons, Event.lstat.injEq, List.not_mem_nil, or_false] at hm
    obtain ⟨rfl, rfl⟩ := hm
    exact h1
  | refused => exact two hs (by simp)
  | dry => exact two hs (by simp)
  | renamed =>
    simp only [List.cons_append, List.nil_append] at hs ⊢
    exact two hs (by intro q r hm; split at hm <;> simp at hm)
  | failed =>
    simp only [List.cons_append, List.nil_append] at hs ⊢
    exact two hs (by intro q r hm; split at hm <;> simp at hm)

/-- What dealing with a file does: nothing, or one rename. -/
theorem fileRun_effect {R : Bytes → Bytes → Prop} {o : Options} {f p : Bytes} {tr : List Event} (h : FileRunBy R o f tr p) {fs fs' : FS}
    (hs : FS.Steps fs tr fs') : fs' = fs ∨
      ∃ new so, Concerns R f new ∧ o.dryRun = false ∧ fs.lstat f = some so ∧
        (∀ sn, fs.lstat new = some sn → sn.dev = so.dev ∧ sn.ino = so.ino ∧ so.nlink ≤ 1) ∧ fs.rename f new = some fs' := by
  have hl := fileRun_lstats h hs
  have quiet : ∀ (t : List Event) (a b : FS), FS.Steps a t b → (∀ x y, Event.rename x y true ∉ t) → b = a := by
    intro t a b hs hno
    induction hs with
    | nil => rfl
    | cons fs fs1 fs2 e t h1 _ ih =>
      rw [ih fun x y hm => hno x y (List.mem_cons_of_mem _ hm)]
      cases h1 with
      | renamed old new _ _ => exact absurd List.mem_cons_self (hno old new)
      | _ => rfl
  cases h with
  | clean => exact .inl (quiet _ _ _ hs (by simp))
  | gone => exact .inl (quiet _ _ _ hs (by simp))
  | refused => exact .inl (quiet _ _ _ hs (by simp))
  | dry => exact .inl (quiet _ _ _ hs (by simp))
  | failed =>
    refine .inl (quiet _ _ _ hs ?_)
    intro x y hm
    split at hm <;> simp at hm
  | renamed dir name w so rn h1 h2 h3 h4 h5 h6 h7 =>
    refine .inr ⟨dir ++ w, so, .inr ⟨dir, name, w, h1, h4, rfl⟩, h7, hl _ _ (by simp), fun sn hsn => h6 sn ?_, ?_⟩
    · rw [← hl (dir ++ w) rn (by simp), hsn]
    · obtain ⟨fs1, ha, hb⟩ := FS.Steps.append_inv hs
      have hc := quiet _ _ _ ha (by intro x y hm; split at hm <;> simp at hm)
      subst hc
      cases FS.Steps.single_inv hb with
      | renamed _ _ _ hr => exact hr

/-- The same file, dry and real, with the same answers. -/
theorem fileRun_agree {R : Bytes → Bytes → Prop} (hR : ∀ a b c, R a b → R a c → b = c) {od orr : Options} (hd : od.dryRun = true)
    (hr : orr.dryRun = false) (hv : od.verbose = orr.verbose) {f pd pr : Bytes} {td tr : List Event} (D : FileRunBy R od f td pd)
    (T : FileRunBy R orr f tr pr) (hl : ∀ q a b, Event.lstat q a ∈ td → Event.lstat q b ∈ tr → a = b) : DryAgree od.verbose td tr := by
  have same : ∀ {dir name w dir' name' w' : Bytes}, SplitsAs f dir name → SplitsAs f dir' name' → R name w → R name' w' →
      dir' = dir ∧ name' = name ∧ w' = w := by
    intro dir name w dir' name' w' a b c d
    have ha := splitsAs_unique a
    have hb := splitsAs_unique b
    have e1 : dir' = dir := by rw [ha.1, hb.1]
    have e2 : name' = name := by rw [ha.2, hb.2]
    subst e1 e2
    exact ⟨rfl, rfl, hR _ _ _ d c⟩
  have sname : ∀ {dir name dir' name' : Bytes}, SplitsAs f dir name → SplitsAs f dir' name' → name' = name := by
    intro dir name dir' name' a b
    rw [(splitsAs_unique a).2, (splitsAs_unique b).2]
  have noclean : ∀ {dir name dir' name' w : Bytes}, SplitsAs f dir name → (name = lit "." ∨ name = lit ".." ∨ R name name) → SplitsAs f dir' name' →
      name' ≠ lit "." → name' ≠ lit ".." → R name' w → w ≠ name' → False := by
    intro dir name dir' name' w a b c d e g h
    have := sname a c
    subst this
    rcases b with b | b | b
    · exact d b
    · exact e b
    · exact h (hR _ _ _ g b)
  cases D with
  | renamed _ _ _ _ _ _ _ _ _ _ _ h => rw [hd] at h; cases h
  | failed _ _ _ _ _ _ _ _ _ _ _ h => rw [hd] at h; cases h
  | clean dir name a b =>
    cases T with
    | clean => exact .nil
    | gone _ _ _ h1 h2 h3 h4 h5 => exact (noclean a b h1 h2 h3 h4 h5).elim
    | refused _ _ _ _ _ h1 h2 h3 h4 h5 => exact (noclean a b h1 h2 h3 h4 h5).elim
    | dry _ _ _ _ _ h1 h2 h3 h4 h5 => exact (noclean a b h1 h2 h3 h4 h5).elim
    | renamed _ _ _ _ _ h1 h2 h3 h4 h5 => exact (noclean a b h1 h2 h3 h4 h5).elim
    | failed _ _ _ _ _ h1 h2 h3 h4 h5 => exact (noclean a b h1 h2 h3 h4 h5).elim
  | gone dir name w a1 a2 a3 a4 a5 =>
    cases T with
    | clean _ _ h1 h2 => exact (noclean h1 h2 a1 a2 a3 a4 a5).elim
    | gone => exact .lstat .nil
    | refused => exact absurd (hl _ _ _ List.mem_cons_self List.mem_cons_self) (by simp)
    | dry => exact absurd (hl _ _ _ List.mem_cons_self List.mem_cons_self) (by simp)
    | renamed => exact absurd (hl _ _ _ List.mem_cons_self List.mem_cons_self) (by simp)
    | failed => exact absurd (hl _ _ _ List.mem_cons_self List.mem_cons_self) (by simp)
  | refused dir name w so sn a1 a2 a3 a4 a5 a6 =>
    cases T with
    | clean _ _ h1 h2 => exact (noclean h1 h2 a1 a2 a3 a4 a5).elim
    | gone => exact absurd (hl _ _ _ List.mem_cons_self List.mem_cons_self) (by simp)
    | refused dir' name' w' so' sn' h1 h2 h3 h4 h5 h6 =>
      obtain ⟨rfl, rfl, rfl⟩ := same a1 h1 a4 h4
      exact ⟨fun _ => rfl, fun _ => rfl, fun s hs => by simpa using hs⟩
    | dry _ _ _ _ _ _ _ _ _ _ _ h => rw [hr] at h; cases h
    | renamed dir' name' w' so' rn h1 h2 h3 h4 h5 h6 h7 =>
      obtain ⟨rfl, rfl, rfl⟩ := same a1 h1 a4 h4
      have e1 := hl f (some so) (some so') (by simp) (by simp)
      have e2 := hl (dir' ++ w') (some sn) rn (by simp) (by simp)
      cases e1
      exact absurd (h6 sn e2.symm) a6
    | failed dir' name' w' so' rn h1 h2 h3 h4 h5 h6 h7 =>
      obtain ⟨rfl, rfl, rfl⟩ := same a1 h1 a4 h4
      have e1 := hl f (some so) (some so') (by simp) (by simp)
      have e2 := hl (dir' ++ w') (some sn) rn (by simp) (by simp)
      cases e1
      exact absurd (h6 sn e2.symm) a6
  | dry dir name w so rn a1 a2 a3 a4 a5 a6 a7 =>
    cases T with
    | clean _ _ h1 h2 => exact (noclean h1 h2 a1 a2 a3 a4 a5).elim
    | gone => exact absurd (hl _ _ _ List.mem_cons_self List.mem_cons_self) (by simp)
    | dry _ _ _ _ _ _ _ _ _ _ _ h => rw [hr] at h; cases h
    | refused dir' name' w' so' sn' h1 h2 h3 h4 h5 h6 =>
      obtain ⟨rfl, rfl, rfl⟩ := same a1 h1 a4 h4
      have e1 := hl f (some so) (some so') (by simp) (by simp)
      have e2 := hl (dir' ++ w') rn (some sn') (by simp) (by simp)
      cases e1
      exact absurd (a6 sn' e2) h6
    | renamed dir' name' w' so' rn' h1 h2 h3 h4 h5 h6 h7 =>
      obtain ⟨rfl, rfl, rfl⟩ := same a1 h1 a4 h4
      rw [hv]
      by_cases h : orr.verbose = 0
      · rw [if_pos h]
        exact ⟨fun _ => rfl, fun h' => absurd h h', fun s hs => by simp at hs⟩
      · rw [if_neg h]
        exact ⟨fun h' => absurd h' h, fun _ => rfl, fun s hs => by simp at hs⟩
    | failed dir' name' w' so' rn' h1 h2 h3 h4 h5 h6 h7 =>
      obtain ⟨rfl, rfl, rfl⟩ := same a1 h1 a4 h4
      rw [hv]
      by_cases h : orr.verbose = 0
      · rw [if_pos h]
        exact ⟨fun _ => rfl, fun h' => absurd h h', fun s hs => by simp at hs⟩
      · rw [if_neg h]
        exact ⟨fun h' => absurd h' h, fun _ => rfl, fun s hs => by simp at hs⟩

/-- As far as the files to come are concerned, nothing has happened. -/
structure Untouched (R : Bytes → Bytes → Prop) (a b : FS) (rest : List Bytes) : Prop where
  same : ∃ es, b = { a with entries := es }
  unique : b.Unique
  locate : ∀ p, b.locate p = a.locate p
  lstat : ∀ f ∈ rest, ∀ p, Concerns R f p → b.lstat p = a.lstat p

theorem args_agree {R : Bytes → Bytes → Prop} (hR : ∀ a b c, R a b → R a c → b = c) {od orr : Options} (hd : od.dryRun = true)
    (hr : orr.dryRun = false) (hv : od.verbose = orr.verbose) {ws : List Bytes} {fs : FS} :
    ∀ (args : List Bytes) {sd sr sd' sr' : List Bytes} {td tr : List Event} {b fd fr : FS}, ArgsScanBy R od ws args sd td sd' →
      ArgsScanBy R orr ws args sr tr sr' → FS.Steps fs td fd → FS.Steps b tr fr →
      (∀ f ∈ args, ∀ i, fs.lookup f = some i → fs.kind i = .reg) → Apart R fs args → Untouched R fs b args → DryAgree od.verbose td tr := by
  intro args
  induction args with
  | nil =>
    intro sd sr sd' sr' td tr b fd fr D T _ _ _ _ _
    cases D
    cases T
    exact .nil
  | cons f rest ih =>
    intro sd sr sd' sr' td tr b fd fr D T SD SR hreg hap hun
    cases D with
    | cons _ _ _ s1 _ t1 t2 d1 d2 =>
    cases T with
    | cons _ _ _ q1 _ u1 u2 r1 r2 =>
    have hsay : DryAgree od.verbose (if od.verbose = 0 then [] else [Event.out (lit "Scanning: " ++ f ++ lit "\n")])
        (if orr.verbose = 0 then [] else [Event.out (lit "Scanning: " ++ f ++ lit "\n")]) := by
      rw [hv]
      by_cases h : orr.verbose = 0
      · rw [if_pos h]; exact .nil
      · rw [if_neg h]; exact ⟨fun h' => absurd h' h, fun _ => rfl, fun s hs => hs⟩
    have silent : ∀ {n : Nat} {x y : FS}, FS.Steps x (if n = 0 then [] else [Event.out (lit "Scanning: " ++ f ++ lit "\n")]) y → y = x := by
      intro n x y h
      refine FS.Steps.quiet ?_ h
      intro e he
      split at he
      · cases he
      · rw [List.mem_singleton.mp he]; exact ⟨_, rfl⟩
    obtain ⟨x1, SD, SD2⟩ := FS.Steps.append_inv SD
    obtain ⟨x0, hx, SD1⟩ := FS.Steps.append_inv SD
    cases silent hx
    obtain ⟨y1, SR, SR2⟩ := FS.Steps.append_inv SR
    obtain ⟨y0, hy, SR1⟩ := FS.Steps.append_inv SR
    cases silent hy
    clear hx hy SD SR
    have hself : fs.lstat f = b.lstat f := (hun.lstat f (by simp) f (.inl rfl)).symm
    have reg : ∀ {st : Stat}, fs.lstat f = some st → st.kind = .reg := by
      intro st h
      unfold FS.lstat at h
      cases hl : fs.lookup f with
      | none => rw [hl] at h; cases h
      | some i =>
        rw [hl] at h
        cases h
        exact hreg f (by simp) i hl
    have first : ∀ {x : FS} {p : Bytes} {r : Option Stat} {t : List Event} {y : FS}, FS.Steps x (.lstat p r :: t) y → x.lstat p = r ∧ FS.Steps x t y := by
      intro x p r t y h
      cases h with
      | cons _ _ _ _ _ h1 h2 =>
        cases h1 with
        | lstat _ _ h => exact ⟨h, h2⟩
    have hap' := List.pairwise_cons.mp hap
    -- the argument itself
    have one : DryAgree od.verbose t1 u1 ∧ x1 = fs ∧ Untouched R fs y1 rest := by
      have hrest : Untouched R fs b rest := ⟨hun.same, hun.unique, hun.locate, fun g hg => hun.lstat g (by simp [hg])⟩
      cases d1 with
      | leave st _ h1 h2 h3 => exact absurd (reg (first SD1).1) h2
      | dir st _ _ mid sub p h1 h2 h3 => rw [reg (first SD1).1] at h1; cases h1
      | missing =>
        have e := (first SD1).1
        cases r1 with
        | leave st _ h1 h2 h3 => exact absurd (reg (hself.trans (first SR1).1)) h2
        | dir st _ _ mid sub p h1 h2 h3 => rw [reg (hself.trans (first SR1).1)] at h1; cases h1
        | missing =>
          refine ⟨⟨fun _ => rfl, fun _ => rfl, fun _ h => h⟩, ?_, ?_⟩
          · cases (first SD1).2 with
            | cons _ _ _ _ _ h1 h2 => cases h1; cases h2; rfl
          · cases (first SR1).2 with
            | cons _ _ _ _ _ h1 h2 => cases h1; cases h2; exact hrest
        | file st _ mid p h1 h2 =>
          have e2 := (first SR1).1
          rw [← hself, e] at e2
          cases e2
      | file st _ mid p h1 h2 =>
        obtain ⟨e, SDm⟩ := first SD1
        cases r1 with
        | leave st _ h1 h2 h3 => exact absurd (reg (hself.trans (first SR1).1)) h2
        | dir st _ _ mid sub p h1 h2 h3 => rw [reg (hself.trans (first SR1).1)] at h1; cases h1
        | missing =>
          have e2 := (first SR1).1
          rw [← hself, e] at e2
          cases e2
        | file st' _ mid' p' h1' h2' =>
          obtain ⟨e', SRm⟩ := first SR1
          have est : st' = st := by rw [← hself, e] at e'; exact (Option.some.inj e').symm
          subst est
          have hxf : x1 = fs := by
            rcases fileRun_effect h2 SDm with h | ⟨_, _, _, h, _⟩
            · exact h
            · rw [hd] at h; cases h
          refine ⟨DryAgree.lstat (fileRun_agree hR hd hr hv h2 h2' ?_), hxf, ?_⟩
          · intro q ra rb ha hb
            have k1 := fileRun_lstats h2 SDm q ra ha
            have k2 := fileRun_lstats h2' SRm q rb hb
            have hq : Concerns R f q := by
              cases h2 with
              | clean => cases ha
              | gone => simp at ha; exact .inl ha.1
              | refused dir name w _ _ a1 _ _ a4 =>
                simp at ha
                rcases ha with ha | ha
                · exact .inl ha.1
                · exact .inr ⟨dir, name, w, a1, a4, ha.1⟩
              | dry dir name w _ _ a1 _ _ a4 =>
                simp at ha
                rcases ha with ha | ha
                · exact .inl ha.1
                · exact .inr ⟨dir, name, w, a1, a4, ha.1⟩
              | renamed _ _ _ _ _ _ _ _ _ _ _ h => rw [hd] at h; cases h
              | failed _ _ _ _ _ _ _ _ _ _ _ h => rw [hd] at h; cases h
            rw [← k1, ← k2, hun.lstat f (by simp) q hq]
          · rcases fileRun_effect h2' SRm with h | ⟨new, so, hc, _, k1, k2, k3⟩
            · rw [h]; exact hrest
            · have hkind : b.kind = fs.kind := by obtain ⟨⟨es, rfl⟩, _⟩ := hun; rfl
              have hnorm : b.norm = fs.norm := by obtain ⟨⟨es, rfl⟩, _⟩ := hun; rfl
              have hlook : ∃ i, b.lookup f = some i ∧ b.kind i = .reg := by
                obtain ⟨i, hi, _⟩ := FS_lstat_some e'
                refine ⟨i, hi, ?_⟩
                have := reg e
                unfold FS.lstat at e'
                rw [hi] at e'
                cases e'
                exact this
              obtain ⟨i, hi, hik⟩ := hlook
              have hsl : endsInSlash f = false := by
                cases hs : endsInSlash f with
                | false => rfl
                | true =>
                  exfalso
                  unfold FS.lookup at hi
                  split at hi
                  · cases hi
                  · split at hi
                    · cases hi
                    · split at hi
                      · rename_i hk; cases hi; rw [hik] at hk; cases hk
                      · cases hi
              obtain ⟨dd1, n1, dd2, n2, e1, l1, l2, l3, l4⟩ := FS_guarded_rename hsl k1 rfl k2 k3
              have hie : e1.ino = i := by
                rw [FS_lookup_locate l1 hsl, l3] at hi
                exact Option.some.inj hi
              have hkk : b.kind e1.ino ≠ .dir ∧ b.kind e1.ino ≠ .link := by rw [hie, hik]; simp
              have goal : ∀ fs', fs' = { b with entries := b.entries.map (moveEntry e1 dd2 n2) } →
                  (b.find dd2 n2 = none ∨ b.find dd2 n2 = some e1) → Untouched R fs fs' rest := by
                rintro fs' rfl hfree
                obtain ⟨M, U⟩ := fileMoved_move hun.unique l3 hfree hkk
                obtain ⟨es, hes⟩ := hun.same
                refine ⟨⟨_, by rw [hes]⟩, U, fun p => by rw [M.locate p, hun.locate p], fun g hg p hp => ?_⟩
                rw [← hun.lstat g (by simp [hg]) p hp]
                refine M.lstat fun d n hdn hbad => ?_
                have slots : ∀ {q : Bytes} {dq : Ino} {nq : Bytes}, b.locate q = some (dq, nq) → Concerns R f q → d = dq → b.norm d n = b.norm d nq → False := by
                  intro q dq nq hq hcq h1 h2
                  subst h1
                  refine hap'.1 g hg q p (d, fs.norm d n) hcq hp ?_ ?_
                  · unfold FS.slot
                    rw [← hun.locate q, hq, Option.map_some, ← hnorm, h2]
                  · unfold FS.slot
                    rw [← hun.locate p, hdn, Option.map_some]
                rcases hbad with ⟨h1, h2⟩ | ⟨h1, h2⟩
                · exact slots l1 (.inl rfl) h1 h2
                · exact slots l2 hc h1 h2
              rcases l4 with ⟨h1, _, h2⟩ | ⟨h1, h2⟩ | ⟨_, _, _, _, h2⟩
              · exact goal _ h2 (.inl h1)
              · exact goal _ h2 (.inr h1)
              · rw [h2]; exact hrest
    obtain ⟨A, rfl, B⟩ := one
    exact (hsay.append A).append (ih d2 r2 SD2 SR2 (fun g hg => hreg g (by simp [hg])) hap'.2 B)

/-- **C93.** A run with `-n` and a real run with the same files on the same file system, nobody interfering. The files are not directories, and no two of
them have, or should have, the same name in the same place. Then the dry run prints, line by line, exactly the renames that the real run attempts; with
`-v`, the two print exactly the same. Whatever the dry run complains about, the real run complains about, too. -/
theorem C93_dry_run_tells_the_truth {P : Platform} {o : Options} {args ws : List Bytes} {td tr : List Event} {ad ar : Option Filelist}
    (hd : Run P { o with dryRun := true } args ws td (.ret ad)) (hr : Run P { o with dryRun := false } args ws tr (.ret ar)) {fs fd fr : FS}
    (sd : FS.Steps fs td fd) (sr : FS.Steps fs tr fr) (hu : fs.Unique) (hreg : ∀ f ∈ args, ∀ i, fs.lookup f = some i → fs.kind i = .reg)
    (hap : Apart (Makes P o) fs args) :
    (o.verbose = 0 → outputs td = (attempts tr).map arrow) ∧ (o.verbose ≠ 0 → outputs td = outputs tr) ∧
      ∀ s, Event.err s ∈ td → Event.err s ∈ tr := by
  obtain ⟨_, D⟩ := C72_runs_are_scans hd
  obtain ⟨_, T⟩ := C72_runs_are_scans hr
  have h := args_agree (R := Makes P o) (fun a b c h1 h2 => Option.some.inj (Res.ok.inj (h1.symm.trans h2))) (od := { o with dryRun := true })
    (orr := { o with dryRun := false }) rfl rfl rfl args D T sd sr hreg hap ⟨⟨_, rfl⟩, hu, fun _ => rfl, fun _ _ _ _ => rfl⟩
  exact ⟨h.quiet, h.loud, h.errors⟩

/-! ### Two files that want the same name -/

theorem run_of_result {P : Platform} {o : Options} {args : List Bytes} {tr : List Event}
    (h : ((fileLoop P o 10 10 (putAll args) none).result tr).isSome = true) : ∃ a, Run P o args [] tr (.ret a) := by
  cases hr : (fileLoop P o 10 10 (putAll args) none).result tr with
  | none => rw [hr] at h; cases h
  | some a => exact ⟨a, ⟨10, 10, putAll args, none, putAll_holds _, rfl, Prog.result_sound _ _ _ hr⟩⟩

def twinFS : FS := smallFS false [⟨⟨1, 1⟩, lit "a b", ⟨1, 2⟩⟩, ⟨⟨1, 1⟩, lit "a:b", ⟨1, 3⟩⟩]

/-- `detox -n 'a b' 'a:b'`. -/
def twinDry : List Event :=
  [.lstat (lit "a b") (some (regStat 2)), .lstat (lit "a b") (some (regStat 2)), .lstat (lit "a_b") none, .out (lit "a b -> a_b\n"),
   .lstat (lit "a:b") (some (regStat 3)), .lstat (lit "a:b") (some (regStat 3)), .lstat (lit "a_b") none, .out (lit "a:b -> a_b\n")]

/-- `detox 'a b' 'a:b'`. -/
def twinReal : List Event :=
  [.lstat (lit "a b") (some (regStat 2)), .lstat (lit "a b") (some (regStat 2)), .lstat (lit "a_b") none, .rename (lit "a b") (lit "a_b") true,
   .lstat (lit "a:b") (some (regStat 3)), .lstat (lit "a:b") (some (regStat 3)), .lstat (lit "a_b") (some (regStat 2)),
   .err (lit "Cannot rename a:b to a_b: file already exists\n")]

/-- **C93.** Without that, `-n` promises too much: with two files that should get the same name it announces two renames, and the real run does one of
them and refuses the other. -/
theorem C93_dry_run_can_promise_too_much : ∃ (P : Platform) (o : Options) (args : List Bytes) (td tr : List Event) (ad ar : Option Filelist) (fs fd fr : FS),
    Run P { o with dryRun := true } args [] td (.ret ad) ∧ Run P { o with dryRun := false } args [] tr (.ret ar) ∧ FS.Steps fs td fd ∧
      FS.Steps fs tr fr ∧ fs.Unique ∧ (∀ f ∈ args, ∀ i, fs.lookup f = some i → fs.kind i = .reg) ∧ o.verbose = 0 ∧ (outputs td).length = 2 ∧
      (attempts tr).length = 1 ∧ ∃ s, Event.err s ∈ tr ∧ Event.err s ∉ td := by
  obtain ⟨ad, had⟩ := run_of_result (P := exPlatform) (o := { defaultOptions with dryRun := true }) (args := [lit "a b", lit "a:b"]) (tr := twinDry)
    (by decide +kernel)
  obtain ⟨ar, har⟩ := run_of_result (P := exPlatform) (o := { defaultOptions with dryRun := false }) (args := [lit "a b", lit "a:b"]) (tr := twinReal)
    (by decide +kernel)
  obtain ⟨fd, hfd, _⟩ := FS_exec_entries (fs := twinFS) (tr := twinDry) (es := twinFS.entries) (by decide +kernel)
  obtain ⟨fr, hfr, _⟩ := FS_exec_entries (fs := twinFS) (tr := twinReal)
    (es := [⟨⟨1, 1⟩, lit "a_b", ⟨1, 2⟩⟩, ⟨⟨1, 1⟩, lit "a:b", ⟨1, 3⟩⟩]) (by decide +kernel)
  refine ⟨exPlatform, defaultOptions, _, _, _, ad, ar, twinFS, fd, fr, had, har, hfd, hfr, ?_, ?_, rfl, by decide +kernel, by decide +kernel,
    lit "Cannot rename a:b to a_b: file already exists\n", by decide +kernel, by decide +kernel⟩
  · simp [FS.Unique, twinFS, smallFS]; decide
  · intro f hf i hi
    simp only [List.mem_cons, List.not_mem_nil, or_false] at hf
    rcases hf with rfl | rfl
    · rw [← Option.some.inj (show some (⟨1, 2⟩ : Ino) = some i from (show twinFS.lookup (lit "a b") = some ⟨1, 2⟩ by decide +kernel) ▸ hi)]
      rfl
    · rw [← Option.some.inj (show some (⟨1, 3⟩ : Ino) = some i from (show twinFS.lookup (lit "a:b") = some ⟨1, 3⟩ by decide +kernel) ▸ hi)]
      rfl

/- Non-vacuous: one file, both ways. -/
def oneFS : FS := smallFS false [⟨⟨1, 1⟩, lit "a b", ⟨1, 2⟩⟩]

example : ∃ (ad ar : Option Filelist) (fd fr : FS), Run exPlatform { defaultOptions with dryRun := true } [lit "a b"] [] (twinDry.take 4) (.ret ad) ∧
    Run exPlatform { defaultOptions with dryRun := false } [lit "a b"] [] (twinReal.take 4) (.ret ar) ∧ FS.Steps oneFS (twinDry.take 4) fd ∧
    FS.Steps oneFS (twinReal.take 4) fr ∧ oneFS.Unique ∧ (∀ f ∈ [lit "a b"], ∀ i, oneFS.lookup f = some i → oneFS.kind i = .reg) ∧
    Apart (Makes exPlatform defaultOptions) oneFS [lit "a b"] := by
  obtain ⟨ad, had⟩ := run_of_result (P := exPlatform) (o := { defaultOptions with dryRun := true }) (args := [lit "a b"]) (tr := twinDry.take 4)
    (by decide +kernel)
  obtain ⟨ar, har⟩ := run_of_result (P := exPlatform) (o := { defaultOptions with dryRun := false }) (args := [lit "a b"]) (tr := twinReal.take 4)
    (by decide +kernel)
  obtain ⟨fd, hfd, _⟩ := FS_exec_entries (fs := oneFS) (tr := twinDry.take 4) (es := oneFS.entries) (by decide +kernel)
  obtain ⟨fr, hfr, _⟩ := FS_exec_entries (fs := oneFS) (tr := twinReal.take 4) (es := [⟨⟨1, 1⟩, lit "a_b", ⟨1, 2⟩⟩]) (by decide +kernel)
  refine ⟨ad, ar, fd, fr, had, har, hfd, hfr, ?_, ?_, List.pairwise_singleton _ _⟩
  · simp [FS.Unique, oneFS, smallFS]
  · intro f hf i hi
    rw [List.mem_singleton.mp hf] at hi
    rw [← Option.some.inj (show some (⟨1, 2⟩ : Ino) = some i from (show oneFS.lookup (lit "a b") = some ⟨1, 2⟩ by decide +kernel) ▸ hi)]
    rfl

/- Two files that are apart. -/
example : Apart (Makes exPlatform defaultOptions) (smallFS false [⟨⟨1, 1⟩, lit "a b", ⟨1, 2⟩⟩, ⟨⟨1, 1⟩, lit "c d", ⟨1, 3⟩⟩]) [lit "a b", lit "c d"] := by
  have key : ∀ {f n w q : Bytes}, SplitsAs f [] n → Makes exPlatform defaultOptions n w → Concerns (Makes exPlatform defaultOptions) f q → q = f ∨ q = w := by
    rintro f n w q hs hm (h | ⟨dir, name, w', h1, h2, h3⟩)
    · exact .inl h
    · have ha := splitsAs_unique hs
      have hb := splitsAs_unique h1
      have e1 : dir = [] := hb.1.trans ha.1.symm
      have e2 : name = n := hb.2.trans ha.2.symm
      subst e1 e2
      rw [h3, List.nil_append]
      exact .inr (Option.some.inj (Res.ok.inj (h2.symm.trans hm)))
  have s1 : SplitsAs (lit "a b") [] (lit "a b") := ⟨rfl, by decide +kernel, .inl rfl⟩
  have s2 : SplitsAs (lit "c d") [] (lit "c d") := ⟨rfl, by decide +kernel, .inl rfl⟩
  have m1 : Makes exPlatform defaultOptions (lit "a b") (lit "a_b") := by decide +kernel
  have m2 : Makes exPlatform defaultOptions (lit "c d") (lit "c_d") := by decide +kernel
  refine List.pairwise_cons.mpr ⟨?_, List.pairwise_singleton _ _⟩
  intro g hg p q x hp hq h1
  rw [List.mem_singleton.mp hg] at hq
  rw [← h1]
  rcases key s1 m1 hp with rfl | rfl <;> rcases key s2 m2 hq with rfl | rfl <;> decide +kernel

end Detox
