import Verif.Lemmas.Memory

/-!
# A program with pointers does what a program on values does
-/

set_option autoImplicit false

namespace Detox

/-- The program with pointers makes the calls of the program on values, and ends as it does, with `Post` for both results and the heap. If some
allocation fails, it may stop at any time with a message and status 1; and with NULL, if `N`. -/
inductive Follows (A : Nat → Bool) (N : Prop) {α β : Type} (Post : α → Heap → β → Prop) : Prog (Except Fault (α × Heap)) → Prog β → Prop
  | ret (a : α) (h : Heap) (b : β) : Post a h b → Follows A N Post (.ret (.ok (a, h))) (.ret b)
  | exit (n : Nat) : Follows A N Post (.exit n) (.exit n)
  | ub (u : UB) : Follows A N Post (.ub u) (.ub u)
  | stuck : Follows A N Post .stuck .stuck
  | lstat (p : Bytes) (k : Option Stat → Prog (Except Fault (α × Heap))) (k' : Option Stat → Prog β) :
      (∀ r, Follows A N Post (k r) (k' r)) → Follows A N Post (.lstat p k) (.lstat p k')
  | rename (o n : Bytes) (k : Bool → Prog (Except Fault (α × Heap))) (k' : Bool → Prog β) :
      (∀ r, Follows A N Post (k r) (k' r)) → Follows A N Post (.rename o n k) (.rename o n k')
  | opendir (p : Bytes) (k : OpenRes → Prog (Except Fault (α × Heap))) (k' : OpenRes → Prog β) :
      (∀ r, Follows A N Post (k r) (k' r)) → Follows A N Post (.opendir p k) (.opendir p k')
  | readdir (d : Nat) (k : Option Bytes → Prog (Except Fault (α × Heap))) (k' : Option Bytes → Prog β) :
      (∀ r, Follows A N Post (k r) (k' r)) → Follows A N Post (.readdir d k) (.readdir d k')
  | closedir (d : Nat) (k : Prog (Except Fault (α × Heap))) (k' : Prog β) : Follows A N Post k k' → Follows A N Post (.closedir d k) (.closedir d k')
  | slurp (p : Option Bytes) (k : Option Bytes → Prog (Except Fault (α × Heap))) (k' : Option Bytes → Prog β) :
      (∀ r, Follows A N Post (k r) (k' r)) → Follows A N Post (.slurp p k) (.slurp p k')
  | out (s : Bytes) (k : Prog (Except Fault (α × Heap))) (k' : Prog β) : Follows A N Post k k' → Follows A N Post (.out s k) (.out s k')
  | err (s : Bytes) (k : Prog (Except Fault (α × Heap))) (k' : Prog β) : Follows A N Post k k' → Follows A N Post (.err s k) (.err s k')
  | memory (q : Prog β) : SomeFails A → Follows A N Post (.err outOfMemory (.exit 1)) q
  | null (q : Prog β) : SomeFails A → N → Follows A N Post (.ret (.error .null)) q

section

variable {A : Nat → Bool} {N : Prop} {α α' β β' : Type}

theorem Follows.bind {m : Mem α} {f : α → Mem α'} {h : Heap} {q : Prog β} {g : β → Prog β'} {P : α → Heap → β → Prop}
    {Q : α' → Heap → β' → Prop} (hm : Follows A N P (m h) q) (hf : ∀ a h' b, P a h' b → Follows A N Q (f a h') (g b)) :
    Follows A N Q ((m >>= f) h) (q.bind g) := by
  change Follows A N Q (Mem.bind m f h) _
  unfold Mem.bind
  generalize m h = p at hm
  induction hm with
  | ret a h b hp => exact hf a h b hp
  | exit n => exact .exit n
  | ub u => exact .ub u
  | stuck => exact .stuck
  | lstat p k k' _ ih => exact .lstat _ _ _ ih
  | rename o n k k' _ ih => exact .rename _ _ _ _ ih
  | opendir p k k' _ ih => exact .opendir _ _ _ ih
  | readdir p k k' _ ih => exact .readdir _ _ _ ih
  | closedir p k k' _ ih => exact .closedir _ _ _ ih
  | slurp p k k' _ ih => exact .slurp _ _ _ ih
  | out s k k' _ ih => exact .out _ _ _ ih
  | err s k k' _ ih => exact .err _ _ _ ih
  | memory q hF => exact .memory _ hF
  | null q hF hN => exact .null _ hF hN

theorem Follows.mono {p : Prog (Except Fault (α × Heap))} {q : Prog β} {P Q : α → Heap → β → Prop} (hm : Follows A N P p q)
    (hpq : ∀ a h b, P a h b → Q a h b) : Follows A N Q p q := by
  induction hm with
  | ret a h b hp => exact .ret _ _ _ (hpq a h b hp)
  | exit n => exact .exit n
  | ub u => exact .ub u
  | stuck => exact .stuck
  | lstat p k k' _ ih => exact .lstat _ _ _ ih
  | rename o n k k' _ ih => exact .rename _ _ _ _ ih
  | opendir p k k' _ ih => exact .opendir _ _ _ ih
  | readdir p k k' _ ih => exact .readdir _ _ _ ih
  | closedir p k k' _ ih => exact .closedir _ _ _ ih
  | slurp p k k' _ ih => exact .slurp _ _ _ ih
  | out s k k' _ ih => exact .out _ _ _ ih
  | err s k k' _ ih => exact .err _ _ _ ih
  | memory q hF => exact .memory _ hF
  | null q hF hN => exact .null _ hF hN

/-- As `bind`, with the last step of the program on values left out. -/
theorem Follows.bindRet {m : Mem α} {f : α → Mem α'} {h : Heap} {q : Prog β} {P : α → Heap → β → Prop}
    {Q : α' → Heap → β → Prop} (hm : Follows A N P (m h) q) (hf : ∀ a h' b, P a h' b → Follows A N Q (f a h') (.ret b)) :
    Follows A N Q ((m >>= f) h) q := by
  have e : q.bind Prog.ret = q := by
    clear hm
    induction q with
    | ret a => rfl
    | exit n => rfl
    | ub u => rfl
    | stuck => rfl
    | lstat p k ih => simp only [Prog.bind, ih]
    | rename o n k ih => simp only [Prog.bind, ih]
    | opendir p k ih => simp only [Prog.bind, ih]
    | readdir p k ih => simp only [Prog.bind, ih]
    | closedir p k ih => simp only [Prog.bind, ih]
    | slurp p k ih => simp only [Prog.bind, ih]
    | out p k ih => simp only [Prog.bind, ih]
    | err p k ih => simp only [Prog.bind, ih]
  rw [← e]
  exact hm.bind hf

theorem Follows.step {m : Mem α} {f : α → Mem α'} {h h' : Heap} {a : α} {q : Prog β} {Q : α' → Heap → β → Prop}
    (e : m h = .ret (.ok (a, h'))) (hf : Follows A N Q (f a h') q) : Follows A N Q ((m >>= f) h) q := by
  rw [Mem.bind_ok e]
  exact hf

theorem Follows.does {m : Mem α} {f : α → Mem α'} {h : Heap} {q : Prog β} {P : α → Heap → Prop} {Q : α' → Heap → β → Prop}
    (hm : Does A m h P) (hf : ∀ a h', P a h' → Follows A N Q (f a h') q) : Follows A N Q ((m >>= f) h) q := by
  rcases hm with ⟨a, h', e, hp⟩ | ⟨hF, e⟩
  · rw [Mem.bind_ok e]
    exact hf a h' hp
  · change Follows A N Q (Mem.bind m f h) _
    unfold Mem.bind
    rw [e]
    exact .memory _ hF

theorem Follows.ofDoes {m : Mem α} {h : Heap} {b : β} {P : α → Heap → Prop} {Q : α → Heap → β → Prop}
    (hm : Does A m h P) (hpq : ∀ a h', P a h' → Q a h' b) : Follows A N Q (m h) (.ret b) := by
  rcases hm with ⟨a, h', e, hp⟩ | ⟨hF, e⟩
  · rw [e]
    exact .ret _ _ _ (hpq a h' hp)
  · rw [e]
    exact .memory _ hF

/-- An allocation. -/
theorem Follows.malloc {b : Block} {f : Addr → Mem α'} {h : Heap} {q : Prog β} {Q : α' → Heap → β → Prop}
    (hf : Follows A N Q (f h.length (h ++ [some b])) q) : Follows A N Q ((wrappedMalloc A b >>= f) h) q :=
  Follows.does (P := fun a h' => a = h.length ∧ h' = h ++ [some b]) (Does.malloc ⟨rfl, rfl⟩) (by rintro a h' ⟨rfl, rfl⟩; exact hf)

theorem Follows.ofRes {x : Res α} {f : α → Mem α'} {h : Heap} {g : α → Prog β} {Q : α' → Heap → β → Prop}
    (hf : ∀ a, x = .ok a → Follows A N Q (f a h) (g a)) : Follows A N Q ((Mem.ofRes x >>= f) h) ((Prog.ofRes x).bind g) := by
  cases x with
  | ok a => exact hf a rfl
  | exit n => exact .exit n
  | ub u => exact .ub u
  | stuck => exact .stuck

/-- The same, when the program on values is a plain computation. -/
theorem Follows.ofRes' {x : Res α} {f : α → Mem α'} {h : Heap} {g : α → Res β} {Q : α' → Heap → β → Prop}
    (hf : ∀ a, x = .ok a → Follows A N Q (f a h) (Prog.ofRes (g a))) : Follows A N Q ((Mem.ofRes x >>= f) h) (Prog.ofRes (x >>= g)) := by
  cases x with
  | ok a => exact hf a rfl
  | exit n => exact .exit n
  | ub u => exact .ub u
  | stuck => exact .stuck

/-- The same, when nothing more is to be done on values. -/
theorem Follows.ofResRet {x : Res α} {f : α → Mem α'} {h : Heap} {Q : α' → Heap → α → Prop}
    (hf : ∀ a, x = .ok a → Follows A N Q (f a h) (.ret a)) : Follows A N Q ((Mem.ofRes x >>= f) h) (Prog.ofRes x) := by
  cases x with
  | ok a => exact hf a rfl
  | exit n => exact .exit n
  | ub u => exact .ub u
  | stuck => exact .stuck

theorem ofRes_bind (x : Res α) (g : α → Res β) : Prog.ofRes (x >>= g) = (Prog.ofRes x).bind fun a => Prog.ofRes (g a) := by
  cases x <;> rfl

theorem Follows.lstat' {p : Bytes} {f : Option Stat → Mem α'} {h : Heap} {k : Option Stat → Prog β} {Q : α' → Heap → β → Prop}
    (hf : ∀ r, Follows A N Q (f r h) (k r)) : Follows A N Q ((Mem.lstat p >>= f) h) (.lstat p k) := .lstat _ _ _ hf

theorem Follows.rename' {o n : Bytes} {f : Bool → Mem α'} {h : Heap} {k : Bool → Prog β} {Q : α' → Heap → β → Prop}
    (hf : ∀ r, Follows A N Q (f r h) (k r)) : Follows A N Q ((Mem.rename o n >>= f) h) (.rename o n k) := .rename _ _ _ _ hf

theorem Follows.opendir' {p : Bytes} {f : OpenRes → Mem α'} {h : Heap} {k : OpenRes → Prog β} {Q : α' → Heap → β → Prop}
    (hf : ∀ r, Follows A N Q (f r h) (k r)) : Follows A N Q ((Mem.opendir p >>= f) h) (.opendir p k) := .opendir _ _ _ hf

theorem Follows.readdir' {p : Nat} {f : Option Bytes → Mem α'} {h : Heap} {k : Option Bytes → Prog β} {Q : α' → Heap → β → Prop}
    (hf : ∀ r, Follows A N Q (f r h) (k r)) : Follows A N Q ((Mem.readdir p >>= f) h) (.readdir p k) := .readdir _ _ _ hf

theorem Follows.slurp' {p : Option Bytes} {f : Option Bytes → Mem α'} {h : Heap} {k : Option Bytes → Prog β} {Q : α' → Heap → β → Prop}
    (hf : ∀ r, Follows A N Q (f r h) (k r)) : Follows A N Q ((Mem.slurp p >>= f) h) (.slurp p k) := .slurp _ _ _ hf

theorem Follows.out' {s : Bytes} {f : Unit → Mem α'} {h : Heap} {k : Prog β} {Q : α' → Heap → β → Prop}
    (hf : Follows A N Q (f () h) k) : Follows A N Q ((Mem.out s >>= f) h) (.out s k) := .out _ _ _ hf

theorem Follows.err' {s : Bytes} {f : Unit → Mem α'} {h : Heap} {k : Prog β} {Q : α' → Heap → β → Prop}
    (hf : Follows A N Q (f () h) k) : Follows A N Q ((Mem.err s >>= f) h) (.err s k) := .err _ _ _ hf

end

/-! ### Executions -/

/-- What the outcome of the program with pointers means for the program on values. -/
def Outcome.Matches {α β : Type} (Post : α → Heap → β → Prop) : Outcome (Except Fault (α × Heap)) → Outcome β → Prop
  | .running, .running => True
  | .ret (.ok (a, h)), .ret b => Post a h b
  | .exit n, .exit m => n = m
  | .ub u, .ub v => u = v
  | .stuck, .stuck => True
  | _, _ => False

/-- Every execution of the program with pointers is one of the program on values; or the start of one, and then the memory is exhausted. -/
theorem Follows.trace {A : Nat → Bool} {N : Prop} {α β : Type} {Post : α → Heap → β → Prop} {p : Prog (Except Fault (α × Heap))} {q : Prog β}
    (hf : Follows A N Post p q) {tr : List Event} {o : Outcome (Except Fault (α × Heap))} (ht : Trace p tr o) :
    (∃ o', Trace q tr o' ∧ o.Matches Post o') ∨
      (SomeFails A ∧ ∃ pre, Trace q pre .running ∧
        ((tr = pre ∧ o = .running) ∨ (tr = pre ++ [.err outOfMemory] ∧ (o = .running ∨ o = .exit 1)) ∨ (N ∧ tr = pre ∧ o = .ret (.error .null)))) := by
  induction hf generalizing tr o with
  | ret a h b hp =>
    cases ht with
    | stop => exact .inl ⟨.running, .stop _, trivial⟩
    | ret => exact .inl ⟨.ret b, .ret _, hp⟩
  | exit n =>
    cases ht with
    | stop => exact .inl ⟨.running, .stop _, trivial⟩
    | exit => exact .inl ⟨.exit n, .exit _, rfl⟩
  | ub u =>
    cases ht with
    | stop => exact .inl ⟨.running, .stop _, trivial⟩
    | ub => exact .inl ⟨.ub u, .ub _, rfl⟩
  | stuck =>
    cases ht with
    | stop => exact .inl ⟨.running, .stop _, trivial⟩
    | stuck => exact .inl ⟨.stuck, .stuck, trivial⟩
  | lstat p k k' _ ih =>
    cases ht with
    | stop => exact .inl ⟨.running, .stop _, trivial⟩
    | lstat _ _ r tr _ ht =>
      rcases ih r ht with ⟨o', h1, h2⟩ | ⟨hF, pre, h1, h2⟩
      · exact .inl ⟨o', .lstat _ _ _ _ _ h1, h2⟩
      · refine .inr ⟨hF, _ :: pre, .lstat _ _ _ _ _ h1, ?_⟩
        rcases h2 with ⟨rfl, rfl⟩ | ⟨rfl, h3⟩ | ⟨hN, rfl, h3⟩
        · exact .inl ⟨rfl, rfl⟩
        · exact .inr (.inl ⟨rfl, h3⟩)
        · exact .inr (.inr ⟨hN, rfl, h3⟩)
  | rename a b k k' _ ih =>
    cases ht with
    | stop => exact .inl ⟨.running, .stop _, trivial⟩
    | rename _ _ _ r tr _ ht =>
      rcases ih r ht with ⟨o', h1, h2⟩ | ⟨hF, pre, h1, h2⟩
      · exact .inl ⟨o', .rename _ _ _ _ _ _ h1, h2⟩
      · refine .inr ⟨hF, _ :: pre, .rename _ _ _ _ _ _ h1, ?_⟩
        rcases h2 with ⟨rfl, rfl⟩ | ⟨rfl, h3⟩ | ⟨hN, rfl, h3⟩
        · exact .inl ⟨rfl, rfl⟩
        · exact .inr (.inl ⟨rfl, h3⟩)
        · exact .inr (.inr ⟨hN, rfl, h3⟩)
  | opendir p k k' _ ih =>
    cases ht with
    | stop => exact .inl ⟨.running, .stop _, trivial⟩
    | opendir _ _ r tr _ ht =>
      rcases ih r ht with ⟨o', h1, h2⟩ | ⟨hF, pre, h1, h2⟩
      · exact .inl ⟨o', .opendir _ _ _ _ _ h1, h2⟩
      · refine .inr ⟨hF, _ :: pre, .opendir _ _ _ _ _ h1, ?_⟩
        rcases h2 with ⟨rfl, rfl⟩ | ⟨rfl, h3⟩ | ⟨hN, rfl, h3⟩
        · exact .inl ⟨rfl, rfl⟩
        · exact .inr (.inl ⟨rfl, h3⟩)
        · exact .inr (.inr ⟨hN, rfl, h3⟩)
  | readdir p k k' _ ih =>
    cases ht with
    | stop => exact .inl ⟨.running, .stop _, trivial⟩
    | readdir _ _ r tr _ ht =>
      rcases ih r ht with ⟨o', h1, h2⟩ | ⟨hF, pre, h1, h2⟩
      · exact .inl ⟨o', .readdir _ _ _ _ _ h1, h2⟩
      · refine .inr ⟨hF, _ :: pre, .readdir _ _ _ _ _ h1, ?_⟩
        rcases h2 with ⟨rfl, rfl⟩ | ⟨rfl, h3⟩ | ⟨hN, rfl, h3⟩
        · exact .inl ⟨rfl, rfl⟩
        · exact .inr (.inl ⟨rfl, h3⟩)
        · exact .inr (.inr ⟨hN, rfl, h3⟩)
  | closedir p k k' _ ih =>
    cases ht with
    | stop => exact .inl ⟨.running, .stop _, trivial⟩
    | closedir _ _ tr _ ht =>
      rcases ih ht with ⟨o', h1, h2⟩ | ⟨hF, pre, h1, h2⟩
      · exact .inl ⟨o', .closedir _ _ _ _ h1, h2⟩
      · refine .inr ⟨hF, _ :: pre, .closedir _ _ _ _ h1, ?_⟩
        rcases h2 with ⟨rfl, rfl⟩ | ⟨rfl, h3⟩ | ⟨hN, rfl, h3⟩
        · exact .inl ⟨rfl, rfl⟩
        · exact .inr (.inl ⟨rfl, h3⟩)
        · exact .inr (.inr ⟨hN, rfl, h3⟩)
  | slurp p k k' _ ih =>
    cases ht with
    | stop => exact .inl ⟨.running, .stop _, trivial⟩
    | slurp _ _ r tr _ ht =>
      rcases ih r ht with ⟨o', h1, h2⟩ | ⟨hF, pre, h1, h2⟩
      · exact .inl ⟨o', .slurp _ _ _ _ _ h1, h2⟩
      · refine .inr ⟨hF, _ :: pre, .slurp _ _ _ _ _ h1, ?_⟩
        rcases h2 with ⟨rfl, rfl⟩ | ⟨rfl, h3⟩ | ⟨hN, rfl, h3⟩
        · exact .inl ⟨rfl, rfl⟩
        · exact .inr (.inl ⟨rfl, h3⟩)
        · exact .inr (.inr ⟨hN, rfl, h3⟩)
  | out p k k' _ ih =>
    cases ht with
    | stop => exact .inl ⟨.running, .stop _, trivial⟩
    | out _ _ tr _ ht =>
      rcases ih ht with ⟨o', h1, h2⟩ | ⟨hF, pre, h1, h2⟩
      · exact .inl ⟨o', .out _ _ _ _ h1, h2⟩
      · refine .inr ⟨hF, _ :: pre, .out _ _ _ _ h1, ?_⟩
        rcases h2 with ⟨rfl, rfl⟩ | ⟨rfl, h3⟩ | ⟨hN, rfl, h3⟩
        · exact .inl ⟨rfl, rfl⟩
        · exact .inr (.inl ⟨rfl, h3⟩)
        · exact .inr (.inr ⟨hN, rfl, h3⟩)
  | err p k k' _ ih =>
    cases ht with
    | stop => exact .inl ⟨.running, .stop _, trivial⟩
    | err _ _ tr _ ht =>
      rcases ih ht with ⟨o', h1, h2⟩ | ⟨hF, pre, h1, h2⟩
      · exact .inl ⟨o', .err _ _ _ _ h1, h2⟩
      · refine .inr ⟨hF, _ :: pre, .err _ _ _ _ h1, ?_⟩
        rcases h2 with ⟨rfl, rfl⟩ | ⟨rfl, h3⟩ | ⟨hN, rfl, h3⟩
        · exact .inl ⟨rfl, rfl⟩
        · exact .inr (.inl ⟨rfl, h3⟩)
        · exact .inr (.inr ⟨hN, rfl, h3⟩)
  | memory q hF =>
    refine .inr ⟨hF, [], .stop _, ?_⟩
    cases ht with
    | stop => exact .inl ⟨rfl, rfl⟩
    | err _ _ tr _ ht =>
      cases ht with
      | stop => exact .inr (.inl ⟨rfl, .inl rfl⟩)
      | exit => exact .inr (.inl ⟨rfl, .inr rfl⟩)
  | null q hF hN =>
    refine .inr ⟨hF, [], .stop _, ?_⟩
    cases ht with
    | stop => exact .inl ⟨rfl, rfl⟩
    | ret => exact .inr (.inr ⟨hN, rfl, rfl⟩)

/-- If no allocation fails, every execution of the program on values is one of the program with pointers. -/
theorem Follows.back {A : Nat → Bool} {N : Prop} {α β : Type} {Post : α → Heap → β → Prop} {p : Prog (Except Fault (α × Heap))} {q : Prog β}
    (hf : Follows A N Post p q) (hA : ∀ n, A n = true) {tr : List Event} {o : Outcome β} (ht : Trace q tr o) :
    ∃ o', Trace p tr o' ∧ o'.Matches Post o := by
  induction hf generalizing tr o with
  | ret a h b hp =>
    cases ht with
    | stop => exact ⟨.running, .stop _, trivial⟩
    | ret => exact ⟨_, .ret _, hp⟩
  | exit n =>
    cases ht with
    | stop => exact ⟨.running, .stop _, trivial⟩
    | exit => exact ⟨.exit n, .exit _, rfl⟩
  | ub u =>
    cases ht with
    | stop => exact ⟨.running, .stop _, trivial⟩
    | ub => exact ⟨.ub u, .ub _, rfl⟩
  | stuck =>
    cases ht with
    | stop => exact ⟨.running, .stop _, trivial⟩
    | stuck => exact ⟨.stuck, .stuck, trivial⟩
  | lstat p k k' _ ih =>
    cases ht with
    | stop => exact ⟨.running, .stop _, trivial⟩
    | lstat _ _ r tr _ ht => obtain ⟨o', h1, h2⟩ := ih r ht; exact ⟨o', .lstat _ _ _ _ _ h1, h2⟩
  | rename a b k k' _ ih =>
    cases ht with
    | stop => exact ⟨.running, .stop _, trivial⟩
    | rename _ _ _ r tr _ ht => obtain ⟨o', h1, h2⟩ := ih r ht; exact ⟨o', .rename _ _ _ _ _ _ h1, h2⟩
  | opendir p k k' _ ih =>
    cases ht with
    | stop => exact ⟨.running, .stop _, trivial⟩
    | opendir _ _ r tr _ ht => obtain ⟨o', h1, h2⟩ := ih r ht; exact ⟨o', .opendir _ _ _ _ _ h1, h2⟩
  | readdir p k k' _ ih =>
    cases ht with
    | stop => exact ⟨.running, .stop _, trivial⟩
    | readdir _ _ r tr _ ht => obtain ⟨o', h1, h2⟩ := ih r ht; exact ⟨o', .readdir _ _ _ _ _ h1, h2⟩
  | closedir p k k' _ ih =>
    cases ht with
    | stop => exact ⟨.running, .stop _, trivial⟩
    | closedir _ _ tr _ ht => obtain ⟨o', h1, h2⟩ := ih ht; exact ⟨o', .closedir _ _ _ _ h1, h2⟩
  | slurp p k k' _ ih =>
    cases ht with
    | stop => exact ⟨.running, .stop _, trivial⟩
    | slurp _ _ r tr _ ht => obtain ⟨o', h1, h2⟩ := ih r ht; exact ⟨o', .slurp _ _ _ _ _ h1, h2⟩
  | out p k k' _ ih =>
    cases ht with
    | stop => exact ⟨.running, .stop _, trivial⟩
    | out _ _ tr _ ht => obtain ⟨o', h1, h2⟩ := ih ht; exact ⟨o', .out _ _ _ _ h1, h2⟩
  | err p k k' _ ih =>
    cases ht with
    | stop => exact ⟨.running, .stop _, trivial⟩
    | err _ _ tr _ ht => obtain ⟨o', h1, h2⟩ := ih ht; exact ⟨o', .err _ _ _ _ h1, h2⟩
  | memory q hF => obtain ⟨n, hn⟩ := hF; rw [hA n] at hn; cases hn
  | null q hF hN => obtain ⟨n, hn⟩ := hF; rw [hA n] at hn; cases hn

end Detox
