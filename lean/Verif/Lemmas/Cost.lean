import Verif.Spec.Cost
import Verif.Lemmas.Ends
import Verif.Props.Scan

/-!
# Lemmas on what a run costs (for C111)
-/

set_option autoImplicit false

namespace Detox
open Spec

/-- What a call of each kind costs. -/
structure Weights where
  lstat : Nat
  rename : Nat
  opendir : Nat
  readdir : Nat
  closedir : Nat
  slurp : Nat
  out : Nat
  err : Nat

def Weights.of (W : Weights) : Event → Nat
  | .lstat .. => W.lstat
  | .rename .. => W.rename
  | .opendir .. => W.opendir
  | .readdir .. => W.readdir
  | .closedir .. => W.closedir
  | .slurp .. => W.slurp
  | .out .. => W.out
  | .err .. => W.err

def Weights.sum (W : Weights) : List Event → Nat
  | [] => 0
  | e :: tr => W.of e + W.sum tr

/-- One file. -/
def Weights.file (W : Weights) : Nat := 2 * W.lstat + W.out + W.rename + W.err
/-- A directory without its entries. -/
def Weights.dir (W : Weights) : Nat := W.lstat + W.opendir + max (W.readdir + W.closedir) W.err
/-- An entry. -/
def Weights.entry (W : Weights) (recurse : Bool) : Nat := W.readdir + W.lstat + W.file + (if recurse then W.dir else 0)
/-- An argument. -/
def Weights.arg (W : Weights) : Nat := W.out + W.lstat + W.file + W.dir

theorem Weights.sum_append (W : Weights) : ∀ a b, W.sum (a ++ b) = W.sum a + W.sum b
  | [], b => by simp [Weights.sum]
  | e :: a, b => by simp only [List.cons_append, Weights.sum, W.sum_append a b]; omega

theorem entriesRead_append : ∀ a b, entriesRead (a ++ b) = entriesRead a + entriesRead b
  | [], b => by simp [entriesRead]
  | e :: a, b => by
    have := entriesRead_append a b
    cases e with
    | readdir d r =>
      cases r with
      | none => exact this
      | some n => simp only [List.cons_append, entriesRead, this]; omega
    | _ => exact this

/-- No execution costs more than `n`, and `k` for each entry read. -/
def Costs {α : Type} (W : Weights) (k : Nat) (p : Prog α) (n : Nat) : Prop :=
  ∀ tr out, Trace p tr out → W.sum tr ≤ n + k * entriesRead tr

section
variable {α β : Type} {W : Weights} {k : Nat}

theorem Costs.mono {p : Prog α} {n m : Nat} (h : Costs W k p n) (hm : n ≤ m) : Costs W k p m := fun tr out ht => by
  have := h tr out ht
  omega

theorem costs_bind {p : Prog α} {f : α → Prog β} {n m : Nat} (h : Costs W k p n) (hf : ∀ a, Costs W k (f a) m) : Costs W k (p.bind f) (n + m) := by
  intro tr out ht
  rcases trace_bind_any ht with ⟨a, x, y, rfl, h1, h2⟩ | ⟨o', _, h1⟩
  · have g1 := h _ _ h1
    have g2 := hf a _ _ h2
    rw [W.sum_append, entriesRead_append, Nat.mul_add]
    omega
  · have := h _ _ h1
    omega

theorem costs_ofRes (r : Res α) : Costs W k (Prog.ofRes r) 0 := fun tr out h => by rw [trace_ofRes h]; simp [Weights.sum]
theorem costs_ret (a : α) : Costs W k (Prog.ret a) 0 := fun tr out h => by cases h <;> simp [Weights.sum]
theorem costs_stuck {n : Nat} : Costs W k (Prog.stuck : Prog α) n := fun tr out h => by cases h <;> simp [Weights.sum]
theorem costs_exit {x : Nat} : Costs W k (Prog.exit x : Prog α) 0 := fun tr out h => by cases h <;> simp [Weights.sum]

theorem costs_lstat {x : Bytes} {f : Option Stat → Prog α} {n : Nat} (h : ∀ r, Costs W k (f r) n) : Costs W k (.lstat x f) (W.lstat + n) := by
  intro tr out ht
  cases ht with
  | stop => simp [Weights.sum]
  | lstat _ _ r t _ h1 => have := h r _ _ h1; simp only [Weights.sum, Weights.of, entriesRead]; omega

theorem costs_rename {x y : Bytes} {f : Bool → Prog α} {n : Nat} (h : ∀ r, Costs W k (f r) n) : Costs W k (.rename x y f) (W.rename + n) := by
  intro tr out ht
  cases ht with
  | stop => simp [Weights.sum]
  | rename _ _ _ r t _ h1 => have := h r _ _ h1; simp only [Weights.sum, Weights.of, entriesRead]; omega

theorem costs_opendir {x : Bytes} {f : OpenRes → Prog α} {n : Nat} (h : ∀ r, Costs W k (f r) n) : Costs W k (.opendir x f) (W.opendir + n) := by
  intro tr out ht
  cases ht with
  | stop => simp [Weights.sum]
  | opendir _ _ r t _ h1 => have := h r _ _ h1; simp only [Weights.sum, Weights.of, entriesRead]; omega

theorem costs_closedir {x : Nat} {p : Prog α} {n : Nat} (h : Costs W k p n) : Costs W k (.closedir x p) (W.closedir + n) := by
  intro tr out ht
  cases ht with
  | stop => simp [Weights.sum]
  | closedir _ _ t _ h1 => have := h _ _ h1; simp only [Weights.sum, Weights.of, entriesRead]; omega

theorem costs_out {s : Bytes} {p : Prog α} {n : Nat} (h : Costs W k p n) : Costs W k (.out s p) (W.out + n) := by
  intro tr out ht
  cases ht with
  | stop => simp [Weights.sum]
  | out _ _ t _ h1 => have := h _ _ h1; simp only [Weights.sum, Weights.of, entriesRead]; omega

theorem costs_err {s : Bytes} {p : Prog α} {n : Nat} (h : Costs W k p n) : Costs W k (.err s p) (W.err + n) := by
  intro tr out ht
  cases ht with
  | stop => simp [Weights.sum]
  | err _ _ t _ h1 => have := h _ _ h1; simp only [Weights.sum, Weights.of, entriesRead]; omega

end

theorem parseFile_costs {W : Weights} {k : Nat} {P : Platform} {o : Options} (f : Bytes) : Costs W k (parseFile P o f) W.file := by
  unfold parseFile
  refine (costs_bind (n := 0) (m := W.file) (costs_ofRes _) fun hold => ?_).mono (by omega)
  split
  · exact (costs_ret _).mono (by omega)
  · split
    · exact (costs_ret _).mono (by omega)
    · unfold checkAndRename
      refine (costs_lstat (n := W.lstat + W.out + W.rename + W.err) fun r => ?_).mono (by unfold Weights.file; omega)
      split
      · exact (costs_ret _).mono (by omega)
      · refine (costs_lstat (n := W.out + W.rename + W.err) fun rn => ?_).mono (by omega)
        split
        · exact (costs_err (costs_ret _)).mono (by omega)
        · unfold announceAndRename
          have next : ∀ a b, Costs W k (if o.dryRun then Prog.ret a else doRename a b) (W.rename + W.err) := by
            intro a b
            split
            · exact (costs_ret _).mono (by omega)
            · unfold doRename
              refine costs_rename fun ok => ?_
              split
              · exact (costs_ret _).mono (by omega)
              · exact (costs_err (costs_ret _)).mono (by omega)
          dsimp only
          split
          · exact (costs_out (next _ _)).mono (by omega)
          · exact (next _ _).mono (by omega)

theorem dirLoop_costs {W : Weights} {P : Platform} {o : Options} {r : Option Filelist → Bytes → Prog (Option Filelist)}
    (hr : ∀ i p, Costs W (W.entry o.recurse) (r i p) W.dir) (h : Nat) (p : Bytes) :
    ∀ (n : Nat) st ign, Costs W (W.entry o.recurse) (dirLoop P o r h p n st ign) (W.readdir + W.closedir)
  | 0, _, _ => costs_stuck
  | n + 1, st, ign => by
    have ih := dirLoop_costs (P := P) hr h p n
    have hfile : ∀ f, Costs W (W.entry o.recurse) (parseFile P o f) W.file := fun f => parseFile_costs f
    unfold dirLoop
    intro tr out ht
    cases ht with
    | stop => simp [Weights.sum]
    | readdir _ _ e t _ h1 =>
      cases e with
      | none =>
        have := costs_closedir (W := W) (k := W.entry o.recurse) (costs_ret _) _ _ h1
        simp only [Weights.sum, Weights.of, entriesRead]
        omega
      | some name =>
        have key : W.sum t ≤ (W.lstat + W.file + (if o.recurse then W.dir else 0)) + (W.readdir + W.closedir) + W.entry o.recurse * entriesRead t := by
          refine (?_ : Costs W (W.entry o.recurse) _ _) _ _ h1
          refine (costs_bind (n := 0) (m := W.lstat + W.file + (if o.recurse then W.dir else 0) + (W.readdir + W.closedir)) (costs_ofRes _) fun x => ?_).mono (by omega)
          dsimp only
          split
          · exact (ih _ _).mono (by omega)
          · refine (costs_lstat (n := W.file + (if o.recurse then W.dir else 0) + (W.readdir + W.closedir)) fun q => ?_).mono (by omega)
            split
            · refine (costs_bind (n := W.file) (m := (if o.recurse then W.dir else 0) + (W.readdir + W.closedir)) (hfile _) fun work => ?_).mono (by omega)
              split
              · exact costs_bind (hr _ _) fun _ => ih _ _
              · exact (ih _ _).mono (by omega)
            · split
              · exact (costs_bind (hfile _) fun _ => ih _ _).mono (by omega)
              · exact (ih _ _).mono (by omega)
        simp only [Weights.sum, Weights.of, entriesRead, Nat.mul_add, Nat.mul_one]
        have : W.entry o.recurse = W.readdir + W.lstat + W.file + (if o.recurse then W.dir else 0) := rfl
        omega

theorem parseDir_costs {W : Weights} {P : Platform} {o : Options} : ∀ (n : Nat) ign p, Costs W (W.entry o.recurse) (parseDir P o n ign p) W.dir
  | 0, _, _ => costs_stuck
  | n + 1, ign, p => by
    unfold parseDir
    refine (costs_lstat (n := W.opendir + max (W.readdir + W.closedir) W.err) fun r => ?_).mono (by unfold Weights.dir; omega)
    split
    · exact (costs_ret _).mono (by omega)
    · split
      · exact (costs_ret _).mono (by omega)
      · refine costs_opendir fun r => ?_
        cases r with
        | ok h => exact (dirLoop_costs (parseDir_costs n) h p n _ ign).mono (by omega)
        | fail => exact (costs_err (costs_ret _)).mono (by omega)
        | emfile => exact (costs_err costs_exit).mono (by omega)

theorem processArg_costs {W : Weights} {P : Platform} {o : Options} (n : Nat) (ign : Option Filelist) (f : Bytes) :
    Costs W (W.entry o.recurse) (processArg P o n ign f) W.arg := by
  have hfile : Costs W (W.entry o.recurse) (parseFile P o f) W.file := parseFile_costs f
  have body : Costs W (W.entry o.recurse) (Prog.lstat f fun r =>
      match r with
      | none => .err (f ++ lit ": ") (.ret ign)
      | some st =>
        if st.kind = .dir then
          (parseFile P o f).bind fun work => parseDir P o n ign work
        else if st.kind = .reg then (parseFile P o f).bind fun _ => .ret ign
        else if o.special then (parseFile P o f).bind fun _ => .ret ign
        else .ret ign) (W.lstat + (W.file + W.dir)) := by
    refine costs_lstat fun r => ?_
    split
    · exact (costs_err (costs_ret _)).mono (by unfold Weights.file; omega)
    · split
      · exact costs_bind hfile fun work => parseDir_costs n ign work
      · split
        · exact (costs_bind hfile fun _ => costs_ret _).mono (by omega)
        · split
          · exact (costs_bind hfile fun _ => costs_ret _).mono (by omega)
          · exact (costs_ret _).mono (by omega)
  unfold processArg
  dsimp only
  split
  · exact (costs_out body).mono (by unfold Weights.arg; omega)
  · exact body.mono (by unfold Weights.arg; omega)

theorem fileLoop_costs {W : Weights} {P : Platform} {o : Options} {args : List Bytes} (fuel : Nat) : ∀ (n k : Nat) (l : Filelist) (ign : Option Filelist),
    l.Holds args k → Costs W (W.entry o.recurse) (fileLoop P o fuel n l ign) (W.arg * (args.length - k))
  | 0, _, _, _, _ => costs_stuck
  | n + 1, k, l, ign, hl => by
    have hg := filelistGet_holds hl
    unfold fileLoop
    split at hg
    · next hk =>
      obtain ⟨l', h1, h2⟩ := hg
      rw [h1]
      refine Costs.mono (n := W.arg + W.arg * (args.length - (k + 1))) (?_ : Costs W (W.entry o.recurse) ((processArg P o fuel ign _).bind fun ign' => fileLoop P o fuel n l' ign') _) ?_
      · exact costs_bind (processArg_costs fuel ign _) fun ign' => fileLoop_costs fuel n (k + 1) l' ign' h2
      have : args.length - k = (args.length - (k + 1)) + 1 := by omega
      rw [this, Nat.mul_add]
      omega
    · obtain ⟨l', h1, h2⟩ := hg
      rw [h1]
      exact (costs_ret _).mono (by omega)

theorem Run.costs {P : Platform} {o : Options} {args ws : List Bytes} {tr : List Event} {out : Outcome (Option Filelist)} (h : Run P o args ws tr out)
    (W : Weights) : W.sum tr ≤ W.arg * args.length + W.entry o.recurse * entriesRead tr := by
  obtain ⟨fuel, n, files, ign, hf, _, ht⟩ := h
  exact fileLoop_costs fuel n 0 files ign hf _ _ ht

/-! ### Counting calls of one kind -/

theorem sum_countP (W : Weights) (q : Event → Bool) (h : ∀ e, (q e).toNat ≤ W.of e) : ∀ tr : List Event, tr.countP q ≤ W.sum tr
  | [] => Nat.zero_le _
  | e :: tr => by
    have := sum_countP W q h tr
    have := h e
    rw [List.countP_cons]
    simp only [Weights.sum]
    cases hq : q e <;> simp [hq] at * <;> omega

/-! ### Open directories -/

theorem dirPart_below {q f : Bytes} (h : q ++ [0x2F] <+: f) : q ++ [0x2F] <+: dirPart f := by
  obtain ⟨r, rfl⟩ := h
  have key : ∀ (l : List Byte), (0x2F : Byte) :: q.reverse <:+ (l ++ 0x2F :: q.reverse).dropWhile (· ≠ 0x2F) := by
    intro l
    induction l with
    | nil => simp
    | cons c l ih =>
      rw [List.cons_append, List.dropWhile_cons]
      split
      · exact ih
      · exact (List.suffix_append l _).trans (List.suffix_cons c _)
  unfold dirPart
  have h1 := List.reverse_prefix.2 (key r.reverse)
  simpa using h1

theorem slash_count {S : List (Nat × Bytes)} (h : NestedDirs S) : ∀ d p T, S = (d, p) :: T → S.length ≤ 1 + p.count 0x2F := by
  induction h with
  | nil => nofun
  | one d => intro _ _ _ _; simp
  | cons h h' p p' S hp _ ih =>
    intro d q T heq
    cases heq
    have := ih h' p' S rfl
    obtain ⟨r, rfl⟩ := hp
    simp only [List.length_cons, List.count_append, List.count_singleton_self] at this ⊢
    omega

/-- All directories that are open are nested; without `-r` there is one at most. -/
def WellOpen (o : Options) (h : List Event) (e : Event) : Prop :=
  NestedDirs (openDirs (e :: h)) ∧ (o.recurse = false → (openDirs (e :: h)).length ≤ 1)

/-- The same, after the event. -/
def OpenAre (o : Options) (S : List (Nat × Bytes)) : Prop := NestedDirs S ∧ (o.recurse = false → S.length ≤ 1)

theorem wellOpen_plain {o : Options} {h : List Event} {e : Event} (hp : Plain e) (hs : OpenAre o (openDirs h)) : WellOpen o h e := by
  unfold WellOpen
  rw [plain_openDirs hp]
  exact hs

/-- What `parse_file` answers. -/
def StaysBelow (f a : Bytes) : Prop := a = f ∨ ∃ w, a = dirPart f ++ w

theorem parseFile_open {P : Platform} {o : Options} {f : Bytes} {h : List Event} (hs : OpenAre o (openDirs h)) :
    (parseFile P o f).wp (WellOpen o) (fun a h' => openDirs h' = openDirs h ∧ StaysBelow f a) h := by
  unfold parseFile
  dsimp only
  refine Prog.wp_ofRes _ _ _ fun hold _ => ?_
  split
  · exact ⟨rfl, .inl rfl⟩
  · rename_i w _
    split
    · exact ⟨rfl, .inl rfl⟩
    · have next : ∀ h' : List Event, openDirs h' = openDirs h → (if o.dryRun then Prog.ret f else doRename f (dirPart f ++ w)).wp (WellOpen o)
          (fun a h' => openDirs h' = openDirs h ∧ StaysBelow f a) h' := by
        intro h' hh
        split
        · exact ⟨hh, .inl rfl⟩
        · intro ok
          refine ⟨wellOpen_plain (plain_rename _ _ _) (hh ▸ hs), ?_⟩
          dsimp only
          split
          · exact ⟨hh, .inr ⟨w, rfl⟩⟩
          · exact ⟨wellOpen_plain (plain_err _) (by rw [plain_openDirs (plain_rename _ _ _), hh]; exact hs), hh, .inl rfl⟩
      intro r
      refine ⟨wellOpen_plain (plain_lstat _ _) hs, ?_⟩
      dsimp only
      split
      · exact ⟨rfl, .inl rfl⟩
      · intro rn
        refine ⟨wellOpen_plain (plain_lstat _ _) hs, ?_⟩
        dsimp only
        split
        · exact ⟨wellOpen_plain (plain_err _) hs, rfl, .inl rfl⟩
        · unfold announceAndRename
          dsimp only
          split
          · exact ⟨wellOpen_plain (plain_out _) hs, next _ rfl⟩
          · exact next _ rfl

theorem dirLoop_open {P : Platform} {o : Options} {recDir : Option Filelist → Bytes → Prog (Option Filelist)}
    (hrec : ∀ ign q h hd f S, o.recurse = true → openDirs h = (hd, f) :: S → OpenAre o (openDirs h) → f ++ [0x2F] <+: q →
      (recDir ign q).wp (WellOpen o) (fun _ h' => openDirs h' = openDirs h) h)
    (hd : Nat) (f : Bytes) (S : List (Nat × Bytes)) (hS : OpenAre o S) :
    ∀ (m : Nat) (st : Stat) (ign : Option Filelist) (h : List Event), openDirs h = (hd, f) :: S → OpenAre o (openDirs h) →
      (dirLoop P o recDir hd f m st ign).wp (WellOpen o) (fun _ h' => openDirs h' = S) h := by
  intro m
  induction m with
  | zero => intros; trivial
  | succ m ih =>
    intro st ign h ho hs e
    refine ⟨hs, ?_⟩
    cases e with
    | none =>
      have h0 : openDirs (.closedir hd :: .readdir hd none :: h) = S := by
        show List.eraseP _ (openDirs h) = S
        rw [ho]; simp
      refine ⟨?_, h0⟩
      unfold WellOpen
      rw [h0]
      exact hS
    | some name =>
      refine Prog.wp_ofRes _ _ _ fun p _ => ?_
      dsimp only
      have hop : openDirs (.readdir hd (some name) :: h) = (hd, f) :: S := ho
      split
      · exact ih _ _ _ hop (by rw [hop, ← ho]; exact hs)
      · intro r
        refine ⟨wellOpen_plain (plain_lstat _ _) hs, ?_⟩
        dsimp only
        have hpre : f ++ [0x2F] <+: (f ++ [0x2F] ++ name).take (f.length + 1023) := by
          rw [List.prefix_take_iff]
          exact ⟨List.prefix_append _ _, by simp⟩
        generalize (f ++ [0x2F] ++ name).take (f.length + 1023) = nf at hpre
        have hl : openDirs (.lstat nf r :: .readdir hd (some name) :: h) = (hd, f) :: S := ho
        have hl' : OpenAre o (openDirs (.lstat nf r :: .readdir hd (some name) :: h)) := by rw [hl, ← ho]; exact hs
        have hpf := parseFile_open (P := P) (f := nf) hl'
        split
        · refine Prog.wp_bind _ _ _ (Prog.wp_mono ?_ _ _ hpf)
          rintro work h' ⟨q1, q2⟩
          rw [hl] at q1
          have q1' : OpenAre o (openDirs h') := by rw [q1, ← ho]; exact hs
          split
          · next hr =>
            have hq : f ++ [0x2F] <+: work := by
              rcases q2 with rfl | ⟨w, rfl⟩
              · exact hpre
              · exact (dirPart_below hpre).trans (List.prefix_append _ _)
            refine Prog.wp_bind _ _ _ (Prog.wp_mono ?_ _ _ (hrec _ _ h' hd f S hr q1 q1' hq))
            intro ign' h'' q3
            exact ih _ _ _ (q3.trans q1) (by rw [q3]; exact q1')
          · exact ih _ _ _ q1 q1'
        · split
          · refine Prog.wp_bind _ _ _ (Prog.wp_mono ?_ _ _ hpf)
            rintro work h' ⟨q1, q2⟩
            rw [hl] at q1
            exact ih _ _ _ q1 (by rw [q1, ← ho]; exact hs)
          · exact ih _ _ _ hl hl'

theorem parseDir_open {P : Platform} {o : Options} : ∀ (n : Nat) (ign : Option Filelist) (q : Bytes) (h : List Event), OpenAre o (openDirs h) →
      (openDirs h = [] ∨ (o.recurse = true ∧ ∃ hd f S, openDirs h = (hd, f) :: S ∧ f ++ [0x2F] <+: q)) →
      (parseDir P o n ign q).wp (WellOpen o) (fun _ h' => openDirs h' = openDirs h) h := by
  intro n
  induction n with
  | zero => intros; trivial
  | succ n ih =>
    intro ign q h hs hb r
    refine ⟨wellOpen_plain (plain_lstat _ _) hs, ?_⟩
    cases r with
    | none => exact rfl
    | some st =>
      dsimp only
      split
      · exact rfl
      · intro d
        cases d with
        | ok hd =>
          have hnew : OpenAre o ((hd, q) :: openDirs h) := by
            rcases hb with hb | ⟨hr, hd', f, S, hb, hp⟩
            · rw [hb]; exact ⟨.one _, fun _ => by simp⟩
            · refine ⟨?_, fun h => by rw [hr] at h; cases h⟩
              rw [hb] at hs ⊢
              exact .cons _ _ _ _ _ hp hs.1
          refine ⟨hnew, ?_⟩
          refine dirLoop_open (P := P) ?_ hd q (openDirs h) hs n st ign _ rfl hnew
          intro ign' q' h' hd' f S hr h1 h2 h3
          exact ih ign' q' h' h2 (.inr ⟨hr, hd', f, S, h1, h3⟩)
        | fail => exact ⟨hs, hs, rfl⟩
        | emfile => exact ⟨hs, hs, trivial⟩

theorem processArg_open {P : Platform} {o : Options} (fuel : Nat) (ign : Option Filelist) (f : Bytes) (h : List Event) (h0 : openDirs h = []) :
    (processArg P o fuel ign f).wp (WellOpen o) (fun _ h' => openDirs h' = []) h := by
  have hnil : OpenAre o [] := ⟨.nil, fun _ => by simp⟩
  have body : ∀ h, openDirs h = [] → (Prog.lstat f fun r =>
      match r with
      | none => .err (f ++ lit ": ") (.ret ign)
      | some st =>
        if st.kind = .dir then
          (parseFile P o f).bind fun work => parseDir P o fuel ign work
        else if st.kind = .reg then (parseFile P o f).bind fun _ => .ret ign
        else if o.special then (parseFile P o f).bind fun _ => .ret ign
        else .ret ign).wp (WellOpen o) (fun _ h' => openDirs h' = []) h := by
    intro h h0 r
    have hs : OpenAre o (openDirs h) := by rw [h0]; exact hnil
    refine ⟨wellOpen_plain (plain_lstat _ _) hs, ?_⟩
    cases r with
    | none => exact ⟨wellOpen_plain (plain_err _) hs, h0⟩
    | some st =>
      have hpf := parseFile_open (P := P) (f := f) (h := .lstat f (some st) :: h) hs
      have fin : ((parseFile P o f).bind fun _ => Prog.ret ign).wp (WellOpen o) (fun _ h' => openDirs h' = []) (.lstat f (some st) :: h) := by
        refine Prog.wp_bind _ _ _ (Prog.wp_mono ?_ _ _ hpf)
        rintro work h' ⟨q1, _⟩
        exact q1.trans h0
      dsimp only
      split
      · refine Prog.wp_bind _ _ _ (Prog.wp_mono ?_ _ _ hpf)
        rintro work h' ⟨q1, _⟩
        replace q1 : openDirs h' = [] := q1.trans h0
        refine Prog.wp_mono ?_ _ _ (parseDir_open fuel ign work h' (by rw [q1]; exact hnil) (.inl q1))
        intro _ h'' q2
        exact q2.trans q1
      · split
        · exact fin
        · split
          · exact fin
          · exact h0
  unfold processArg
  dsimp only
  split
  · exact ⟨wellOpen_plain (plain_out _) (by rw [h0]; exact hnil), body _ h0⟩
  · exact body _ h0

theorem fileLoop_open {P : Platform} {o : Options} (fuel : Nat) : ∀ (n : Nat) (l : Filelist) (ign : Option Filelist) (h : List Event), openDirs h = [] →
    (fileLoop P o fuel n l ign).wp (WellOpen o) (fun _ h' => openDirs h' = []) h := by
  intro n
  induction n with
  | zero => intros; trivial
  | succ n ih =>
    intro l ign h h0
    refine Prog.wp_ofRes _ _ _ fun p _ => ?_
    split
    · exact h0
    · refine Prog.wp_bind _ _ _ (Prog.wp_mono ?_ _ _ (processArg_open fuel ign _ h h0))
      intro ign' h' q
      exact ih _ _ _ q

theorem harmless_openDirs : ∀ (t reads : List Event), (∀ e ∈ reads, Harmless e) → openDirs (t ++ reads) = openDirs t
  | [], reads, h => by
    induction reads with
    | nil => rfl
    | cons e reads ih =>
      have ih := ih fun x hx => h x (List.mem_cons_of_mem _ hx)
      cases h e (.head _) <;> exact ih
  | e :: t, reads, h => by
    have ih := harmless_openDirs t reads h
    cases e with
    | opendir p r => cases r <;> simp [openDirs, ih]
    | _ => simp [openDirs, ih]

theorem openAre_of_wp {α : Type} {o : Options} {p : Prog α} {Q : α → List Event → Prop} {tr : List Event} {out : Outcome α} (h : Trace p tr out)
    (hw : p.wp (WellOpen o) Q []) : OpenAre o (openDirs tr.reverse) := by
  rcases List.eq_nil_or_concat tr with rfl | ⟨pre, e, rfl⟩
  · exact ⟨.nil, fun _ => by simp [openDirs]⟩
  · have := (Prog.wp_sound hw h).1 pre e [] (by simp)
    simpa [WellOpen, OpenAre] using this

end Detox
