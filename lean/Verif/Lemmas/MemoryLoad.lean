import Verif.Lemmas.MemorySpoof

/-!
# Loading the configuration with pointers
-/

set_option autoImplicit false

namespace Detox

section

variable {A S : Nat → Bool} {N : Prop}

/-- What is above `lo` stays. -/
theorem KeepsText.above {h h' : Heap} {lo : Nat} (e : ∀ x, lo ≤ x → h'.get x = h.get x) {a : Addr} {s : Bytes} (l : TextIn h lo a s) : TextIn h' lo a s :=
  ⟨l.1, by rw [Heap.textAt_congr (e a l.1)]; exact l.2⟩

theorem OptIn.above {h h' : Heap} {lo : Nat} (e : ∀ x, lo ≤ x → h'.get x = h.get x) {p : Option Addr} {d : Option Bytes} (l : OptIn h lo p d) :
    OptIn h' lo p d := by
  refine ⟨?_, l.2⟩
  cases p with
  | none => exact l.1
  | some x =>
    have := l.1
    simp only [Heap.optAt, Heap.textAt_congr (e x (l.2 x (by simp)))] at this ⊢
    exact this

theorem FilterIn.above {h h' : Heap} {lo : Nat} (e : ∀ x, lo ≤ x → h'.get x = h.get x) {a : Addr} {next : Option Addr} {f : Filter}
    (l : FilterIn h lo a next f) : FilterIn h' lo a next f := by
  obtain ⟨h1, h2, fn, bi, h3, h4, h5⟩ := l
  exact ⟨h1, h2, fn, bi, by rw [e a h1, h3], h4.above e, h5.above e⟩

theorem SeqIn.above {h h' : Heap} {lo n : Nat} (e : ∀ x, lo ≤ x → h'.get x = h.get x) {a : Addr} {next : Option Addr} {q : Sequence}
    (l : SeqIn h lo n a next q) : SeqIn h' lo n a next q := by
  obtain ⟨h1, nm, src, fas, h3, h4, h5, h6, h7, h8⟩ := l
  exact ⟨h1, nm, src, fas, by rw [e a h1, h3], KeepsText.above e h4, h5.above e, h6, h7.mono fun _ _ _ _ l => l.above e, h8⟩

theorem OptConfigIn.above {h h' : Heap} {lo : Nat} (e : ∀ x, lo ≤ x → h'.get x = h.get x) (hl : h'.length = h.length) {p : Option Addr}
    {c : Option ConfigFile} (l : OptConfigIn h lo p c) : OptConfigIn h' lo p c := by
  cases p with
  | none => cases c with
    | none => trivial
    | some c => cases l
  | some a => cases c with
    | none => cases l
    | some c =>
      obtain ⟨h1, qs, la, fa, ps, ws, l, h2, h3, h4, h5, h6, h7, h8⟩ := l
      refine ⟨h1, qs, la, fa, ps, ws, l, by rw [e a h1, h2], h3, ?_, h5, h6.congr fun x hx => e x (h8 x hx), h7, h8⟩
      rw [hl]
      exact h4.mono fun _ _ _ _ l => l.above e

/-- In the middle of `config_file_load`: the buffer is at `h0.length`. -/
def Loading (h0 : Heap) (r : Option Addr × Nat) (h : Heap) (r' : Option ConfigFile × Nat) : Prop :=
  OptConfigIn h (h0.length + 1) r.1 r'.1 ∧ r.2 = r'.2 ∧ (∃ s, h.get h0.length = some (.text maxPathLen s)) ∧ h0.length + 1 ≤ h.length ∧
    Below h0.length h0 h

theorem Loading.after {h0 h h' : Heap} {b : Heap} (hb : (∃ s, h.get h0.length = some (.text maxPathLen s)) ∧ h0.length + 1 ≤ h.length ∧ Below h0.length h0 h)
    {r : Option Addr × Nat} {r' : Option ConfigFile × Nat} (hk : b = h) (c : ConfigAfter b (h0.length + 1) r h' r') : Loading h0 r h' r' := by
  subst hk
  obtain ⟨⟨s, g⟩, l, bl⟩ := hb
  obtain ⟨c1, c2, c3⟩ := c
  refine ⟨c1, c2, ⟨s, by rw [c3.2 _ (Nat.lt_succ_self _), g]⟩, Nat.le_trans l c3.1, bl.trans ⟨c3.1, fun x hx => c3.2 x (Nat.lt_succ_of_lt hx)⟩⟩

theorem tryConfig_follows (hS : ∀ n, S n = true) {h0 h : Heap} {r : Option Addr × Nat} {r' : Option ConfigFile × Nat} (i : Loading h0 r h r')
    (path : Bytes) : Follows A N (Loading h0) (mTryConfig A S h0.length path r h) (tryConfig path r') := by
  obtain ⟨c, e, ⟨s, g⟩, l, b⟩ := i
  unfold mTryConfig tryConfig
  refine Follows.step (Mem.putText_eq g (t := path.take (maxPathLen - 1)) ?_) ?_
  · have : (path.take (maxPathLen - 1)).length ≤ maxPathLen - 1 := by simp; omega
    have : 0 < maxPathLen := by decide
    omega
  · have g' : Heap.get (h.set h0.length (some (.text maxPathLen (path.take (maxPathLen - 1))))) h0.length = _ := Heap.get_set_eq (Heap.get_lt g) _
    have c' : OptConfigIn (h.set h0.length (some (.text maxPathLen (path.take (maxPathLen - 1))))) (h0.length + 1) r.1 r'.1 :=
      c.above (fun x hx => Heap.get_set_ne (by omega) _) (by simp)
    have l' : h0.length + 1 ≤ (h.set h0.length (some (.text maxPathLen (path.take (maxPathLen - 1))))).length := by simpa using l
    have b' : Below h0.length h0 (h.set h0.length (some (.text maxPathLen (path.take (maxPathLen - 1))))) :=
      b.trans ((Alters.set _ _).below (by omega) fun x hx => by cases (List.mem_singleton.1 hx); exact Nat.le_refl _)
    generalize h.set h0.length (some (Block.text maxPathLen (path.take (maxPathLen - 1)))) = h1 at *
    obtain ⟨p, n⟩ := r
    obtain ⟨p', n'⟩ := r'
    cases e
    by_cases hp : path.length < maxPathLen
    · rw [if_pos hp, if_pos hp]
      have et : path.take (maxPathLen - 1) = path := List.take_of_length_le (by omega)
      rw [et] at g'
      exact (parseConfigFile_follows (file := .heap h0.length) hS l' (Heap.textAt_of g') n c').mono fun _ _ _ hc => Loading.after ⟨⟨_, g'⟩, l', b'⟩ rfl hc
    · rw [if_neg hp, if_neg hp]
      exact .ret _ _ _ ⟨c', rfl, ⟨_, g'⟩, l', b'⟩

theorem optConfig_follows (hS : ∀ n, S n = true) {h0 h : Heap} {r : Option Addr × Nat} {r' : Option ConfigFile × Nat} (i : Loading h0 r h r')
    (dir : Option Bytes) (name : Bytes) : Follows A N (Loading h0) (mOptConfig A S h0.length dir name r h) (match dir with
      | some d => tryConfig (d ++ name) r'
      | none => .ret r') := by
  cases dir with
  | none => exact .ret _ _ _ i
  | some d => exact tryConfig_follows hS i _

theorem elseConfig_follows (hS : ∀ n, S n = true) {h0 h : Heap} {r : Option Addr × Nat} {r' : Option ConfigFile × Nat} (i : Loading h0 r h r')
    (file : Bytes) : Follows A N (Loading h0) (mElseConfig A S file r h) (match r'.1 with
      | some c => Prog.ret (some c, r'.2)
      | none => parseConfigFile file (none, r'.2)) := by
  obtain ⟨c, e, rest⟩ := i
  obtain ⟨p, n⟩ := r
  obtain ⟨p', n'⟩ := r'
  cases e
  unfold mElseConfig
  cases p with
  | none => cases p' with
    | none => exact (parseConfigFile_follows (file := .fixed file) hS rest.2.1 rfl n c).mono fun _ _ _ hc => Loading.after rest rfl hc
    | some c' => cases c
  | some a => cases p' with
    | none => cases c
    | some c' => exact .ret _ _ _ ⟨c, rfl, rest⟩

/-- The results of `config_file_load`. -/
def LoadedIn (h0 : Heap) (c : Addr) (h : Heap) (cfg : ConfigFile) : Prop := ∃ lo, h0.length ≤ lo ∧ ConfigIn h lo c cfg ∧ Below h0.length h0 h

theorem configFileLoad_follows (hS : ∀ n, S n = true) (E : ConfigEnv) {h : Heap} {p : Option Addr} {f : Option Bytes} (hp : h.optAt p = some f) :
    Follows A N (LoadedIn h) (mConfigFileLoad A S E p h) (configFileLoad E f) := by
  cases p with
  | some a =>
    obtain ⟨n, s, g, rfl⟩ := Heap.optAt_some hp (a := a) (by simp)
    unfold mConfigFileLoad configFileLoad
    simp only
    refine Follows.step (Mem.text_eq g) ?_
    refine Follows.does (strdup_alters h s) ?_
    rintro copy h1 ⟨rfl, rfl⟩
    have a1 := Alters.malloc h (.text (s.length + 1) s)
    have g1 := Heap.get_new h (.text (s.length + 1) s)
    have l1 : h.length + 1 ≤ (h ++ [some (Block.text (s.length + 1) s)]).length := by simp
    generalize h ++ [some (Block.text (s.length + 1) s)] = h1 at *
    refine Follows.bind (parseConfigFile_follows (file := .heap h.length) (p := none) (c := none) hS l1 (Heap.textAt_of g1) 1 trivial) ?_
    rintro ⟨r, k⟩ h2 ⟨r', k'⟩ ⟨c1, c2, c3⟩
    simp only at c1 c2 ⊢
    cases r with
    | none => cases r' with
      | none =>
        refine Follows.step (Mem.text_eq (a := h.length) (h := h2) (n := s.length + 1) (s := s) ?_) ?_
        · rw [c3.2 _ (Nat.lt_succ_self _), g1]
        · exact Follows.err' (.exit 1)
      | some c => cases c1
    | some c => cases r' with
      | none => cases c1
      | some c' =>
        exact .ret _ _ _ ⟨h.length + 1, Nat.le_succ _, c1, (a1.below (Nat.le_refl _) (by simp)).trans ⟨c3.1, fun x hx => c3.2 x (Nat.lt_succ_of_lt hx)⟩⟩
  | none =>
    cases f with
    | some f => cases hp
    | none =>
      unfold mConfigFileLoad configFileLoad
      simp only
      refine Follows.malloc ?_
      have i0 : Loading h (none, 1) (h ++ [some (Block.text maxPathLen [])]) (none, 1) :=
        ⟨trivial, rfl, ⟨[], Heap.get_new h _⟩, by simp, (Alters.malloc h _).below (Nat.le_refl _) (by simp)⟩
      generalize h ++ [some (Block.text maxPathLen [])] = h1 at *
      refine Follows.bind (optConfig_follows hS i0 _ _) fun c1 h2 c1' i1 => ?_
      refine Follows.bind (elseConfig_follows hS i1 _) fun c2 h3 c2' i2 => ?_
      refine Follows.bind (elseConfig_follows hS i2 _) fun c3 h4 c3' i3 => ?_
      refine Follows.bind (optConfig_follows hS i3 _ _) fun c4 h5 c4' i4 => ?_
      refine Follows.bind (optConfig_follows hS i4 _ _) fun c5 h6 c5' i5 => ?_
      obtain ⟨j1, j2, ⟨s, g⟩, j4, j5⟩ := i5
      have spoof : Follows A N (fun c h' cfg => ConfigIn h' (h.length + 1) c cfg ∧ Below (h.length + 1) h6 h') (mElseSpoof A c5.1 h6) (match c5'.1 with
          | some c => .ret c
          | none => Prog.ofRes spoofConfigFile) := by
        obtain ⟨p, k⟩ := c5
        obtain ⟨p', k'⟩ := c5'
        cases p with
        | none => cases p' with
          | none => exact spoofConfigFile_follows j4
          | some c => cases j1
        | some c => cases p' with
          | none => cases j1
          | some c' => exact .ret _ _ _ ⟨j1, Below.refl _ _⟩
      refine Follows.bindRet spoof ?_
      rintro c h7 cfg ⟨k1, k2⟩
      have g7 : h7.get h.length = some (.text maxPathLen s) := by rw [k2.2 _ (Nat.lt_succ_self _), g]
      refine Follows.step (Mem.free_eq g7) ?_
      have k3 : OptConfigIn (h7.set h.length none) (h.length + 1) (some c) (some cfg) :=
        OptConfigIn.above (h := h7) (fun x hx => Heap.get_set_ne (by omega) _) (by simp) k1
      refine .ret _ _ _ ⟨h.length + 1, Nat.le_succ _, k3, (j5.trans ⟨k2.1, fun x hx => k2.2 x (Nat.lt_succ_of_lt hx)⟩).trans ?_⟩
      have : h.length ≤ h7.length := by have := Heap.get_lt g7; omega
      exact (Alters.set _ _).below this fun x hx => by cases (List.mem_singleton.1 hx); exact Nat.le_refl _

end

end Detox
