import Verif.Lemmas.Resume
import Verif.Spec.Taken

/-!
# Lemmas for C112: entries that keep their old names
-/

set_option autoImplicit false

namespace Detox
open Spec

theorem helps_tail {W W1 : World} {e : Event} {tr : List Event} (h : W.HelpsIn (e :: tr)) (hs : World.Step W e W1) : W1.HelpsIn tr :=
  fun t1 x t2 W2 h1 h2 => h (e :: t1) x t2 W2 (by rw [h1]; rfl) (.cons _ _ _ _ _ hs h2)

theorem helps_left {W : World} {t1 t2 : List Event} (h : W.HelpsIn (t1 ++ t2)) : W.HelpsIn t1 :=
  fun a x b W2 h1 h2 => h a x (b ++ t2) W2 (by rw [h1]; simp) h2

theorem helps_right {W W1 : World} {t1 t2 : List Event} (h : W.HelpsIn (t1 ++ t2)) (hs : World.Steps W t1 W1) : W1.HelpsIn t2 :=
  fun a x b W2 h1 h2 => h (t1 ++ a) x b W2 (by rw [h1]; simp) (steps_append hs h2)

theorem rename_norm {fs fs' : FS} {old new : Bytes} (h : fs.rename old new = some fs') : fs'.norm = fs.norm := by
  unfold FS.rename at h
  split at h
  · split at h
    · cases h
    · split at h
      · cases h
      split at h
      · cases h
      split at h
      · cases h
      split at h
      · cases h; rfl
      · split at h
        · cases h
        split at h
        · cases h; rfl
        split at h
        · cases h; rfl
        · cases h; rfl
  · cases h

theorem steps_norm {W W' : World} {tr : List Event} (h : World.Steps W tr W') : W'.fs.norm = W.fs.norm := by
  induction h with
  | nil => rfl
  | cons W W1 W2 ev t hs _ ih =>
    rw [ih]
    cases hs with
    | renamed old new fs hr => exact rename_norm hr
    | _ => rfl

section
variable {R : Bytes → Bytes → Prop} {o : Options} {E : List Event} {depth : Ino → Nat} {slack : Nat} {args ws : List Bytes} {fs0 : FS}

/-- The entry cannot have its new name, and will not be able to. -/
def Stuck (R : Bytes → Bytes → Prop) (fs : FS) (e : Entry) : Prop :=
  ∃ v, R e.name v ∧ R v v ∧ v ≠ e.name ∧ (¬ FreshName v ∨ ∃ y ∈ fs.entries, y.dir = e.dir ∧ y.name = v)

theorem Stuck.barred {fs : FS} {e : Entry} (h : Stuck R fs e) : fs.Barred R e := by
  obtain ⟨v, h1, _, h2, h3⟩ := h
  exact ⟨v, h1, h2, h3⟩

/-- `parse_file` leaves an entry alone only if it has to. -/
theorem fileRun_stuck {level : Nat} {denied : Bytes → Bool} (hR : OnePass R) (S : ScanSetting R o E denied)
    {W W' : World} (hden : W.fs.denied = denied) (ht : W.fs.Tree depth slack) (hcase : W.fs.CaseMatters) {dir n p : Bytes} {x : Ino} {mid : List Event}
    (hd : dir = [] ∨ ∃ d, dir = d ++ [0x2F]) (hn : PlainName n) (h0 : (0 : Byte) ∉ n) (hl : W.fs.Leads depth slack level dir x)
    (hf : FileRunBy R o (dir ++ n) mid p) (hs : World.Steps W mid W') (hE : ∀ e ∈ mid, e ∈ E) (hlk : W.fs.denied (dir ++ n) = false)
    (hob : W.HelpsIn mid) {e : Entry} (hfe : W.fs.find x n = some e) (hne : e.name = n) (hW : W' = W) : R n n ∨ Stuck R W.fs e := by
  obtain ⟨he, hed, _⟩ := FS_find_some hfe
  have split : ∀ {dir' name' : Bytes}, SplitsAs (dir ++ n) dir' name' → dir' = dir ∧ name' = n := by
    intro dir' name' h
    have h2 : SplitsAs (dir ++ n) dir n := ⟨rfl, hn.slash, hd⟩
    exact ⟨(splitsAs_unique h).1.trans (splitsAs_unique h2).1.symm, (splitsAs_unique h).2.trans (splitsAs_unique h2).2.symm⟩
  -- a name that can be given, or not
  have plain : ∀ {w : Bytes}, R n w → FreshName w → PlainName w := fun hw h => ⟨h.1.nonempty, h.1.slash, h.2.1, h.2.2⟩
  have stuck : ∀ {w : Bytes}, R n w → w ≠ n → (FreshName w → ∃ y ∈ W.fs.entries, y.dir = e.dir ∧ y.name = w) → Stuck R W.fs e := by
    intro w hw hwn h
    refine ⟨w, by rw [hne]; exact hw, hR.pass n w h0 hw, by rw [hne]; exact hwn, ?_⟩
    by_cases hfr : FreshName w
    · exact .inr (h hfr)
    · exact .inl hfr
  have taken : ∀ {w : Bytes} {y : Entry}, W.fs.find x w = some y → ∃ y ∈ W.fs.entries, y.dir = e.dir ∧ y.name = w := by
    intro w y hy
    obtain ⟨h1, h2, h3⟩ := FS_find_some hy
    exact ⟨y, h1, h2.trans hed.symm, hcase _ _ _ h3⟩
  have hlook := lookup_leads ht hd hn hl hlk
  cases hf with
  | clean dir' name' h1 h2 =>
    obtain ⟨rfl, rfl⟩ := split h1
    rcases h2 with h2 | h2 | h2
    · exact absurd h2 hn.dot
    · exact absurd h2 hn.dots
    · exact .inl h2
  | gone dir' name' w h1 h2 h3 h4 h5 =>
    obtain ⟨rfl, rfl⟩ := split h1
    obtain ⟨a, b⟩ := world_lstat hs
    have := lookup_none a
    rw [hlook, hfe] at this
    cases this
  | dry _ _ _ _ _ _ _ _ _ _ _ h => rw [S.wet] at h; cases h
  | refused dir' name' w so sn h1 h2 h3 h4 h5 h6 =>
    obtain ⟨rfl, rfl⟩ := split h1
    obtain ⟨a, b⟩ := world_lstat hs
    obtain ⟨a2, b⟩ := world_lstat b
    refine .inr (stuck h4 h5 fun hfr => ?_)
    have hw := plain h4 hfr
    have hdw : W.fs.denied (dir' ++ w) = false := by rw [hden]; exact S.allowed _ (some sn) (hE _ (by simp))
    obtain ⟨j, hj, _, _⟩ := FS_lstat_some a2
    rw [lookup_leads ht hd hw hl hdw] at hj
    obtain ⟨y, hy, _⟩ := Option.map_eq_some_iff.1 hj
    exact taken hy
  | failed dir' name' w so rn h1 h2 h3 h4 h5 h6 h7 =>
    obtain ⟨rfl, rfl⟩ := split h1
    refine .inr (stuck h4 h5 fun hfr => ?_)
    have hw := plain h4 hfr
    have hdw : W.fs.denied (dir' ++ w) = false := by rw [hden]; exact S.allowed _ rn (hE _ (by simp))
    have hs' := hs
    rw [List.append_assoc] at hs
    simp only [List.cons_append, List.nil_append] at hs
    obtain ⟨a, b⟩ := world_lstat hs
    obtain ⟨a2, b⟩ := world_lstat b
    cases hfw : W.fs.find x w with
    | some y => exact taken hfw
    | none =>
      exfalso
      have hsl : endsInSlash (dir' ++ name') = false := endsInSlash_dir_name hn.nonempty hn.slash
      have hsl2 : endsInSlash (dir' ++ w) = false := endsInSlash_dir_name hw.nonempty hw.slash
      have hren : W.fs.rename (dir' ++ name') (dir' ++ w) = some { W.fs with entries := W.fs.entries.map (moveEntry e x w) } := by
        unfold FS.rename
        rw [locate_of_leads ht hd hn hl hlk, locate_of_leads ht hd hw hl hdw]
        dsimp only
        rw [hfe]
        dsimp only
        rw [if_neg (by simp [hsl]), if_neg (by simp [hsl2]), if_neg (by simp), hfw]
      suffices hst : World.Steps W _ W by
        obtain ⟨d2, n2, q1, q2⟩ := (hob _ _ _ W rfl hst).rename _ _ rfl _ hren
        have q3 : SplitsAs (dir' ++ w) dir' w := ⟨rfl, hw.slash, hd⟩
        rw [(splitsAs_unique q1).2.trans (splitsAs_unique q3).2.symm] at q2
        exact q2 hfr.1
      refine .cons _ _ _ _ _ (.lstat _ _ _ a) (.cons _ _ _ _ _ (.lstat _ _ _ a2) ?_)
      split
      · exact .nil _
      · exact .cons _ _ _ _ _ (.out _ _) (.nil _)
  | renamed dir' name' w so rn h1 h2 h3 h4 h5 h6 h7 =>
    obtain ⟨rfl, rfl⟩ := split h1
    exfalso
    obtain ⟨_, f2⟩ := fileRun_exact S hden ht hd hn h0 hl (.renamed dir' name' w so rn h1 h2 h3 h4 h5 h6 h7) hs hE hlk
    rcases f2 e hfe with ⟨_, q, _⟩ | ⟨w', _, _, hwn, _, _, _, hm⟩
    · exact h5 (List.append_cancel_left q)
    · have hin : e ∈ (movedFS W.fs e w').entries := by
        have : W.fs = movedFS W.fs e w' := congrArg World.fs (hW.symm.trans hm)
        rw [← this]; exact he
      rcases (mem_moved he).1 hin with h6 | h6
      · exact hwn (by rw [← hne, h6])
      · exact h6.2 rfl

/-- Where the reason is that the entry is stuck. -/
theorem stuck_judge {denied : Bytes → Bool} (hR : OnePass R) (S : ScanSetting R o E denied) {norm : Ino → Bytes → Bytes}
    (hcase : ∀ d n m, norm d n = norm d m → n = m) :
    Judge (fun W e => Stuck R W.fs e) (fun W W' => ∀ y ∈ W.fs.entries, R y.name y.name → y ∈ W'.fs.entries) (fun W tr => W.HelpsIn tr ∧ W.fs.norm = norm) False R o E
      depth slack denied where
  refl := fun W W' h y hy _ => by rw [h]; exact hy
  trans := fun _ _ _ h1 h2 y hy hr => h2 y (h1 y hy hr) hr
  lasts := by
    rintro W W' e hext _ ⟨v, h1, h2, h3, h4⟩
    refine ⟨v, h1, h2, h3, h4.imp id ?_⟩
    rintro ⟨y, hy, hd, rfl⟩
    exact ⟨y, hext y hy h2, hd, rfl⟩
  tail := fun W W1 ev t h hs => ⟨helps_tail h.1 hs, by
    have : W1.fs.norm = W.fs.norm := by
      cases hs with
      | renamed old new fs hr => exact rename_norm hr
      | _ => rfl
    rw [this]; exact h.2⟩
  left := fun W t1 t2 h => ⟨helps_left h.1, h.2⟩
  right := fun W W1 t1 t2 h hs => ⟨helps_right h.1 hs, by rw [steps_norm hs]; exact h.2⟩
  shut := fun W p r t d h hno hfo hk _ => (h.1 [] _ t W rfl (.nil W)).opendir p r rfl hno d hfo hk
  file := by
    intro W W' level dir n p x mid hden ht hd hn h0 hl hf hs hE hlk hok
    have hcm : W.fs.CaseMatters := by
      intro d a b h
      rw [hok.2] at h
      exact hcase d a b h
    have cleaned : ∀ {w : Bytes}, R n w → CleanedBy R w := fun h => ⟨n, hn.nonempty, hn.slash, h0, h⟩
    obtain ⟨f1, f2⟩ := fileRun_exact S hden ht hd hn h0 hl hf hs hE hlk
    refine ⟨f1, fun e he => ?_⟩
    rcases f2 e he with ⟨h1, h2, h3⟩ | ⟨w, h1, h2, h3, h4, h5, h6, h7⟩
    · refine .inl ⟨h1, h2, ?_⟩
      rcases h3 with h3 | h3
      · exact .inl (cleaned h3)
      · by_cases hnn : R n n
        · exact .inl (cleaned hnn)
        · exact .inr ⟨h3, fun hne _ _ _ => (fileRun_stuck hR S hden ht hcm hd hn h0 hl hf hs hE hlk hok.1 he hne h1).resolve_left hnn⟩
    · refine .inr ⟨w, h1, cleaned h2, h3, h4, h5, h6, h7, fun y hy hr => ?_⟩
      obtain ⟨he', hed, hnorm⟩ := FS_find_some he
      refine (mem_moved he').2 (.inr ⟨hy, ?_⟩)
      rintro rfl
      rw [hcm _ _ _ hnorm] at hr
      exact h3 (hR.one _ _ _ h2 hr)

theorem stuck_later {g g' : Entry → Entry} {fs fs' : FS} {e : Entry} (h : Now R o args fs0 g fs) (h' : Now R o args fs0 g' fs') (hl : Later R fs0 g g')
    (hst : Stuck R fs e) : Stuck R fs' e := by
  obtain ⟨v, h1, h2, h3, h4⟩ := hst
  refine ⟨v, h1, h2, h3, h4.imp id ?_⟩
  rintro ⟨y, hy, hd, rfl⟩
  obtain ⟨e', he', rfl⟩ := h.mem hy
  refine ⟨g e', ?_, hd, rfl⟩
  rw [← hl e' he' ?_, h'.same]
  · exact List.mem_map_of_mem he'
  · rcases h.each e' he' with hg | hg
    · rw [hg] at h2 ⊢; exact h2
    · exact hg.2.2.2.1

/-- An argument whose entry has the name it had is found. -/
theorem arg_found {level : Nat} {f : Bytes} {W : World} (ht0 : fs0.Tree depth slack) (ht : W.fs.Tree depth slack) (hst : fs0.Steady depth slack level f)
    (hfinds : ∀ x, depth x < level → ∀ n, W.fs.find x n = fs0.find x n) (hex : fs0.lookup f ≠ none) {g : Entry → Entry} (hnow : Now R o args fs0 g W.fs)
    (hallow : W.fs.denied f = false) (hstill : ∀ e ∈ fs0.entries, fs0.IsAt f e → g e = e) : W.fs.lookup f ≠ none := by
  have hsame := hnow.sameBut
  cases hst with
  | self dir name d g1 g2 g3 g4 g5 =>
    rw [lookup_same_self hsame ht0 g1 g2 g3 g4 g5 hfinds]
    exact hex
  | name dir name x g1 g2 g3 g4 g5 g6 g7 =>
    subst g1
    have hplain : PlainName name := ⟨g4, g3, g5, g6⟩
    have hallow0 : fs0.denied (dir ++ name) = false := by rw [← hnow.denied]; exact hallow
    have g7' := leads_same hsame g7 hfinds
    rw [lookup_leads ht0 g2 hplain g7 hallow0] at hex
    rw [lookup_leads ht g2 hplain g7' hallow]
    cases hfe0 : fs0.find x name with
    | none => rw [hfe0] at hex; exact absurd rfl hex
    | some e0 =>
      obtain ⟨he0, hed0, hnorm0⟩ := FS_find_some hfe0
      have hloc := locate_of_leads ht0 g2 hplain g7 hallow0
      have hge := hstill e0 he0 ⟨dir, name, ⟨rfl, g3, g2⟩, g4, by rw [hloc, hed0], by rw [hed0]; exact hfe0⟩
      have hin : e0 ∈ W.fs.entries := by
        rw [hnow.same]
        exact List.mem_map.2 ⟨e0, he0, hge⟩
      cases hfe : W.fs.find x name with
      | none => exact absurd ⟨hed0, by rw [hnow.norm]; exact hnorm0⟩ (FS_find_none hfe e0 hin)
      | some e1 => simp

/-- All arguments. -/
theorem args_stuck {denied : Bytes → Bool} {level : Nat} (hR : OnePass R) (S : ScanSetting R o E denied)
    (hcase : fs0.CaseMatters) (ht0 : fs0.Tree depth slack) (honce : fs0.NamedOnce R o args)
    {fl : List Bytes} {seen seen' : List Bytes} {tr : List Event} (h : ArgsScanBy R o ws fl seen tr seen') : (∀ e ∈ tr, e ∈ E) → ∀ {W W' : World},
    W.fs.denied = denied → W.fs.Tree depth slack → (∀ f ∈ fl, fs0.Steady depth slack level f) → (∀ x, depth x < level → ∀ n, W.fs.find x n = fs0.find x n) →
    (∀ f ∈ fl, (0 : Byte) ∉ f) → (∀ f ∈ fl, fs0.lookup f ≠ none) →
    World.Steps W tr W' → W.HelpsIn tr → ∀ done, args = done ++ fl → ∀ {g : Entry → Entry}, Now R o done fs0 g W.fs →
    ∃ g', Now R o args fs0 g' W'.fs ∧ Later R fs0 g g' ∧ ∀ f ∈ fl,
      (∀ e, fs0.IsAt f e → (fs0.kind e.ino = .dir ∨ fs0.kind e.ino = .reg ∨ o.special = true) → R e.name (g' e).name ∨ Stuck R W'.fs e) ∧
      ∀ d, fs0.lookup f = some d → fs0.kind d = .dir → Entered W' d := by
  have hlit : ∀ n, fs0.Literal R n := fun n e _ m _ hm => hcase _ _ _ hm
  induction h with
  | nil seen =>
    intro _ W W' _ _ _ _ _ _ hs _ done hdone g hnow
    rw [world_nil hs]
    rw [List.append_nil] at hdone
    subst hdone
    exact ⟨g, hnow, .refl g, fun _ h => (by cases h)⟩
  | cons f fl seen seen1 seen' t tr hf hfl ih =>
    intro hE W W' hden ht hst hfinds h0 hex hs hob done hdone g hnow
    rw [List.append_assoc] at hs hob
    obtain ⟨W0, hs0, hs'⟩ := World.Steps.append_inv hs
    clear hs
    have hob1 := helps_right hob hs0
    clear hob
    have : W0 = W := by
      split at hs0
      · exact world_nil hs0
      · exact world_nil (world_out hs0)
    subst this
    obtain ⟨W1, hs1, hs2⟩ := World.Steps.append_inv hs'
    have hE1 : ∀ e ∈ t, e ∈ E := fun e he => hE e (by simp [he])
    have hE2 : ∀ e ∈ tr, e ∈ E := fun e he => hE e (by simp [he])
    have hstW : ∀ f' ∈ f :: fl, W0.fs.Steady depth slack level f' := fun f' hf' => steady_same hnow.sameBut (hst f' hf') hfinds
    obtain ⟨k1, _, _⟩ := arg_goal S hf hE1 hden ht (hstW f (by simp)) (h0 f (by simp)) hs1
    have hsub : ∀ f' ∈ done ++ [f], f' ∈ args := by
      intro f' hf'
      rw [hdone]
      simp only [List.mem_append, List.mem_cons, List.not_mem_nil, or_false] at hf' ⊢
      rcases hf' with h | h
      · exact .inl h
      · exact .inr (.inl h)
    have hnow' : Now R o (done ++ [f]) fs0 g W0.fs := hnow.mono fun f' h => by simp [h]
    have hstill : ∀ e ∈ fs0.entries, fs0.IsAt f e → g e = e := by
      intro e he hat
      rcases hnow.each e he with h | ⟨p1, p2, _, p4, _, p5⟩
      · exact h
      have hclean : R e.name e.name := by
        rcases p5 with ⟨f', hf', hat'⟩ | ⟨p5, _⟩
        · have := honce.twice
          rw [hdone, List.pairwise_append] at this
          exact this.2.2 f' hf' f (by simp) e hat' hat
        · exact honce.scanned f (hsub f (by simp)) e hat (scans_congr id (fun f' h => hsub f' (by simp [h])) (fun _ _ h => h) p5)
      have hname := hR.one _ _ _ p4 hclean
      cases hg : g e with
      | mk a b c =>
        rw [hg] at p1 p2 hname
        simp only at p1 p2 hname
        rw [p1, p2, hname]
    have hallow : W0.fs.denied f = false := by
      rw [hden]
      cases hf with
      | missing _ => exact S.allowed _ none (hE1 _ (by simp))
      | leave st => exact S.allowed _ (some st) (hE1 _ (by simp))
      | file st => exact S.allowed _ (some st) (hE1 _ (by simp))
      | dir st => exact S.allowed _ (some st) (hE1 _ (by simp))
    have hcm : W0.fs.CaseMatters := by
      intro d a b h
      rw [hnow.norm] at h
      exact hcase d a b h
    obtain ⟨g1, n1, l1, a1⟩ := arg_now_if (args := done ++ [f]) (Q := Stuck R) hR S (fun _ n _ => hlit n) hf hE1 hden ht0 ht (hst f (by simp)) hfinds (h0 f (by simp))
      (by simp) (hex f (by simp)) (fun _ n _ => hlit n) hs1 hnow' (arg_found ht0 ht (hst f (by simp)) hfinds (hex f (by simp)) hnow hallow hstill)
      (fun _ _ _ _ _ h1 h2 h3 _ _ h4 => stuck_later h1 h2 h3 h4) (by
        rintro dir n p x e mid rest r rfl hd hn hl hfe hne hfr rfl hsm hlk
        exact fileRun_stuck hR S hden ht hcm hd hn (fun h => h0 (dir ++ n) (by simp) (List.mem_append_right _ h)) hl hfr hsm (fun ev hev => hE1 ev (by simp [hev])) hlk
          (helps_left (helps_tail (helps_left hob1) (.lstat _ _ _ (world_lstat hs1).1))) hfe hne rfl)
    have hden1 : W1.fs.denied = denied := by rw [k1.same.denied]; exact hden
    have hfinds1 : ∀ x, depth x < level → ∀ n, W1.fs.find x n = fs0.find x n := fun x hx n => (k1.finds x hx n).trans (hfinds x hx n)
    obtain ⟨g2, n2, l2, a2⟩ := ih hE2 hden1 k1.tree (fun f' h => hst f' (by simp [h])) hfinds1
      (fun f' h => h0 f' (by simp [h])) (fun f' h => hex f' (by simp [h])) hs2 (helps_right hob1 hs1) (done ++ [f]) (by rw [hdone]; simp) n1
    obtain ⟨k2, _, _⟩ := args_goal S hfl hE2 hden1 k1.tree (fun f' h => steady_same k1.same (hstW f' (by simp [h])) k1.finds)
      (fun f' h => h0 f' (by simp [h])) hs2
    refine ⟨g2, n2, l1.trans l2, fun f' hf' => ?_⟩
    rcases List.mem_cons.1 hf' with rfl | hf'
    · refine ⟨fun e he hk => ?_, fun d hd hk => (a1.2 d hd hk).mono k2.opened k2.refused⟩
      rcases a1.1 e he hk with h1 | h1
      · obtain ⟨_, _, _, _, _, he'⟩ := he
        rw [l2 e (FS_find_some he').1 h1]
        exact .inl h1
      · exact .inr (stuck_later (n1.mono hsub) n2 l2 h1)
    · exact a2 f' hf'

end

end Detox
