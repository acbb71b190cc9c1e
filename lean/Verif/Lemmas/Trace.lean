import Verif.Model.Sys

/-!
# Reasoning about traces

`Prog.wp Ok Q p h`: after the (reversed) history `h`, every event `p` performs is allowed by `Ok` given the
history before it, and `p` only returns a value `a` with a history satisfying `Q a`.
-/

set_option autoImplicit false

namespace Detox

def Prog.wp {α : Type} (Ok : List Event → Event → Prop) (Q : α → List Event → Prop) :
    Prog α → List Event → Prop
  | .ret a, h => Q a h
  | .exit _, _ => True
  | .ub _, _ => True
  | .stuck, _ => True
  | .lstat p k, h => ∀ r, Ok h (.lstat p r) ∧ wp Ok Q (k r) (.lstat p r :: h)
  | .rename o n k, h => ∀ r, Ok h (.rename o n r) ∧ wp Ok Q (k r) (.rename o n r :: h)
  | .opendir p k, h => ∀ r, Ok h (.opendir p r) ∧ wp Ok Q (k r) (.opendir p r :: h)
  | .readdir d k, h => ∀ r, Ok h (.readdir d r) ∧ wp Ok Q (k r) (.readdir d r :: h)
  | .closedir d k, h => Ok h (.closedir d) ∧ wp Ok Q k (.closedir d :: h)
  | .slurp p k, h => ∀ r, Ok h (.slurp p r) ∧ wp Ok Q (k r) (.slurp p r :: h)
  | .out s k, h => Ok h (.out s) ∧ wp Ok Q k (.out s :: h)
  | .err s k, h => Ok h (.err s) ∧ wp Ok Q k (.err s :: h)

theorem Prog.wp_mono {α : Type} {Ok : List Event → Event → Prop} {Q Q' : α → List Event → Prop}
    (hQ : ∀ a h, Q a h → Q' a h) (p : Prog α) (h : List Event) (hp : p.wp Ok Q h) : p.wp Ok Q' h := by
  induction p generalizing h with
  | ret a => exact hQ a h hp
  | exit n => trivial
  | ub u => trivial
  | stuck => trivial
  | lstat p k ih => exact fun r => ⟨(hp r).1, ih r _ (hp r).2⟩
  | rename o n k ih => exact fun r => ⟨(hp r).1, ih r _ (hp r).2⟩
  | opendir p k ih => exact fun r => ⟨(hp r).1, ih r _ (hp r).2⟩
  | readdir d k ih => exact fun r => ⟨(hp r).1, ih r _ (hp r).2⟩
  | closedir d k ih => exact ⟨hp.1, ih _ hp.2⟩
  | slurp p k ih => exact fun r => ⟨(hp r).1, ih r _ (hp r).2⟩
  | out s k ih => exact ⟨hp.1, ih _ hp.2⟩
  | err s k ih => exact ⟨hp.1, ih _ hp.2⟩

theorem Prog.wp_bind {α β : Type} {Ok : List Event → Event → Prop} {Q : β → List Event → Prop}
    (p : Prog α) (f : α → Prog β) (h : List Event)
    (hp : p.wp Ok (fun a h' => (f a).wp Ok Q h') h) : (p.bind f).wp Ok Q h := by
  induction p generalizing h with
  | ret a => exact hp
  | exit n => trivial
  | ub u => trivial
  | stuck => trivial
  | lstat p k ih => exact fun r => ⟨(hp r).1, ih r _ (hp r).2⟩
  | rename o n k ih => exact fun r => ⟨(hp r).1, ih r _ (hp r).2⟩
  | opendir p k ih => exact fun r => ⟨(hp r).1, ih r _ (hp r).2⟩
  | readdir d k ih => exact fun r => ⟨(hp r).1, ih r _ (hp r).2⟩
  | closedir d k ih => exact ⟨hp.1, ih _ hp.2⟩
  | slurp p k ih => exact fun r => ⟨(hp r).1, ih r _ (hp r).2⟩
  | out s k ih => exact ⟨hp.1, ih _ hp.2⟩
  | err s k ih => exact ⟨hp.1, ih _ hp.2⟩

theorem Prog.wp_ofRes {α β : Type} {Ok : List Event → Event → Prop} {Q : β → List Event → Prop}
    (x : Res α) (f : α → Prog β) (h : List Event)
    (hp : ∀ a, x = .ok a → (f a).wp Ok Q h) : ((Prog.ofRes x).bind f).wp Ok Q h := by
  cases x with
  | ok a => exact hp a rfl
  | exit n => trivial
  | ub u => trivial
  | stuck => trivial

theorem Prog.wp_sound {α : Type} {Ok : List Event → Event → Prop} {Q : α → List Event → Prop}
    {p : Prog α} {h : List Event} (hp : p.wp Ok Q h) {tr : List Event} {o : Outcome α} (ht : Trace p tr o) :
    (∀ pre e post, tr = pre ++ e :: post → Ok (pre.reverse ++ h) e) ∧
    (∀ a, o = .ret a → Q a (tr.reverse ++ h)) := by
  have step : ∀ {e0 : Event} {tr0 : List Event} {h : List Event}, Ok h e0 →
      ((∀ pre e post, tr0 = pre ++ e :: post → Ok (pre.reverse ++ (e0 :: h)) e) ∧
        (∀ a, o = .ret a → Q a (tr0.reverse ++ (e0 :: h)))) →
      ((∀ pre e post, e0 :: tr0 = pre ++ e :: post → Ok (pre.reverse ++ h) e) ∧
        (∀ a, o = .ret a → Q a ((e0 :: tr0).reverse ++ h))) := by
    intro e0 tr0 h h0 ⟨h1, h2⟩
    refine ⟨?_, fun a ha => by simpa using h2 a ha⟩
    intro pre e post heq
    cases pre with
    | nil => simp only [List.nil_append, List.cons.injEq] at heq; rw [← heq.1]; exact h0
    | cons x xs =>
      simp only [List.cons_append, List.cons.injEq] at heq
      have := h1 xs e post heq.2
      rw [← heq.1]; simpa using this
  induction ht generalizing h with
  | stop p => exact ⟨fun pre e post h => by simp at h, fun a h => by cases h⟩
  | ret a => exact ⟨fun pre e post h => by simp at h, fun b hb => by cases hb; exact hp⟩
  | exit n => exact ⟨fun pre e post h => by simp at h, fun a h => by cases h⟩
  | ub u => exact ⟨fun pre e post h => by simp at h, fun a h => by cases h⟩
  | stuck => exact ⟨fun pre e post h => by simp at h, fun a h => by cases h⟩
  | lstat p k r tr o ht ih => exact step (hp r).1 (ih (hp r).2 step)
  | rename o n k r tr o ht ih => exact step (hp r).1 (ih (hp r).2 step)
  | opendir p k r tr o ht ih => exact step (hp r).1 (ih (hp r).2 step)
  | readdir d k r tr o ht ih => exact step (hp r).1 (ih (hp r).2 step)
  | closedir d k tr o ht ih => exact step hp.1 (ih hp.2 step)
  | slurp p k r tr o ht ih => exact step (hp r).1 (ih (hp r).2 step)
  | out s k tr o ht ih => exact step hp.1 (ih hp.2 step)
  | err s k tr o ht ih => exact step hp.1 (ih hp.2 step)

/-- Does the program make exactly these calls first, given these answers? (For concrete cases.) -/
def Prog.accepts {α : Type} : Prog α → List Event → Bool
  | _, [] => true
  | .lstat p k, .lstat p' r :: tr => p = p' && accepts (k r) tr
  | .rename o n k, .rename o' n' r :: tr => o = o' && n = n' && accepts (k r) tr
  | .opendir p k, .opendir p' r :: tr => p = p' && accepts (k r) tr
  | .readdir h k, .readdir h' r :: tr => h = h' && accepts (k r) tr
  | .closedir h k, .closedir h' :: tr => h = h' && accepts k tr
  | .slurp p k, .slurp p' r :: tr => p = p' && accepts (k r) tr
  | .out s k, .out s' :: tr => s = s' && accepts k tr
  | .err s k, .err s' :: tr => s = s' && accepts k tr
  | _, _ :: _ => false

theorem Prog.accepts_sound {α : Type} : ∀ (tr : List Event) (p : Prog α), p.accepts tr = true → Trace p tr .running
  | [], p, _ => .stop p
  | e :: tr, p, h => by
    cases p <;> cases e <;> simp only [Prog.accepts, Bool.and_eq_true, decide_eq_true_eq] at h <;>
      first
      | (exfalso; exact Bool.noConfusion h)
      | skip
    case lstat.lstat p k p' r => obtain ⟨rfl, h⟩ := h; exact .lstat _ _ _ _ _ (accepts_sound tr _ h)
    case rename.rename o n k o' n' r => obtain ⟨⟨rfl, rfl⟩, h⟩ := h; exact .rename _ _ _ _ _ _ (accepts_sound tr _ h)
    case opendir.opendir p k p' r => obtain ⟨rfl, h⟩ := h; exact .opendir _ _ _ _ _ (accepts_sound tr _ h)
    case readdir.readdir p k p' r => obtain ⟨rfl, h⟩ := h; exact .readdir _ _ _ _ _ (accepts_sound tr _ h)
    case closedir.closedir p k p' => obtain ⟨rfl, h⟩ := h; exact .closedir _ _ _ _ (accepts_sound tr _ h)
    case slurp.slurp p k p' r => obtain ⟨rfl, h⟩ := h; exact .slurp _ _ _ _ _ (accepts_sound tr _ h)
    case out.out p k p' => obtain ⟨rfl, h⟩ := h; exact .out _ _ _ _ (accepts_sound tr _ h)
    case err.err p k p' => obtain ⟨rfl, h⟩ := h; exact .err _ _ _ _ (accepts_sound tr _ h)

theorem trace_bind_ret {α β : Type} {p : Prog α} {f : α → Prog β} {tr : List Event} {b : β}
    (h : Trace (p.bind f) tr (.ret b)) :
    ∃ a tr1 tr2, tr = tr1 ++ tr2 ∧ Trace p tr1 (.ret a) ∧ Trace (f a) tr2 (.ret b) := by
  induction p generalizing tr with
  | ret a => exact ⟨a, [], tr, rfl, .ret a, h⟩
  | exit n => cases h
  | ub u => cases h
  | stuck => cases h
  | lstat p k ih =>
    cases h with
    | lstat _ _ r tr _ h =>
      obtain ⟨a, t1, t2, rfl, h1, h2⟩ := ih r h
      exact ⟨a, _ :: t1, t2, rfl, .lstat _ _ _ _ _ h1, h2⟩
  | rename o n k ih =>
    cases h with
    | rename _ _ _ r tr _ h =>
      obtain ⟨a, t1, t2, rfl, h1, h2⟩ := ih r h
      exact ⟨a, _ :: t1, t2, rfl, .rename _ _ _ _ _ _ h1, h2⟩
  | opendir p k ih =>
    cases h with
    | opendir _ _ r tr _ h =>
      obtain ⟨a, t1, t2, rfl, h1, h2⟩ := ih r h
      exact ⟨a, _ :: t1, t2, rfl, .opendir _ _ _ _ _ h1, h2⟩
  | readdir d k ih =>
    cases h with
    | readdir _ _ r tr _ h =>
      obtain ⟨a, t1, t2, rfl, h1, h2⟩ := ih r h
      exact ⟨a, _ :: t1, t2, rfl, .readdir _ _ _ _ _ h1, h2⟩
  | closedir d k ih =>
    cases h with
    | closedir _ _ tr _ h =>
      obtain ⟨a, t1, t2, rfl, h1, h2⟩ := ih h
      exact ⟨a, _ :: t1, t2, rfl, .closedir _ _ _ _ h1, h2⟩
  | slurp p k ih =>
    cases h with
    | slurp _ _ r tr _ h =>
      obtain ⟨a, t1, t2, rfl, h1, h2⟩ := ih r h
      exact ⟨a, _ :: t1, t2, rfl, .slurp _ _ _ _ _ h1, h2⟩
  | out s k ih =>
    cases h with
    | out _ _ tr _ h =>
      obtain ⟨a, t1, t2, rfl, h1, h2⟩ := ih h
      exact ⟨a, _ :: t1, t2, rfl, .out _ _ _ _ h1, h2⟩
  | err s k ih =>
    cases h with
    | err _ _ tr _ h =>
      obtain ⟨a, t1, t2, rfl, h1, h2⟩ := ih h
      exact ⟨a, _ :: t1, t2, rfl, .err _ _ _ _ h1, h2⟩

theorem trace_bind_stuck {α β : Type} {p : Prog α} {f : α → Prog β} {tr : List Event}
    (h : Trace (p.bind f) tr .stuck) : Trace p tr .stuck ∨
      ∃ a tr1 tr2, tr = tr1 ++ tr2 ∧ Trace p tr1 (.ret a) ∧ Trace (f a) tr2 .stuck := by
  induction p generalizing tr with
  | ret a => exact Or.inr ⟨a, [], tr, rfl, .ret a, h⟩
  | exit n => cases h
  | ub u => cases h
  | stuck => cases h; exact Or.inl .stuck
  | lstat p k ih =>
    cases h with
    | lstat _ _ r tr _ h =>
      rcases ih r h with h1 | ⟨a, t1, t2, rfl, h1, h2⟩
      · exact Or.inl (.lstat _ _ _ _ _ h1)
      · exact Or.inr ⟨a, _ :: t1, t2, rfl, .lstat _ _ _ _ _ h1, h2⟩
  | rename o n k ih =>
    cases h with
    | rename _ _ _ r tr _ h =>
      rcases ih r h with h1 | ⟨a, t1, t2, rfl, h1, h2⟩
      · exact Or.inl (.rename _ _ _ _ _ _ h1)
      · exact Or.inr ⟨a, _ :: t1, t2, rfl, .rename _ _ _ _ _ _ h1, h2⟩
  | opendir p k ih =>
    cases h with
    | opendir _ _ r tr _ h =>
      rcases ih r h with h1 | ⟨a, t1, t2, rfl, h1, h2⟩
      · exact Or.inl (.opendir _ _ _ _ _ h1)
      · exact Or.inr ⟨a, _ :: t1, t2, rfl, .opendir _ _ _ _ _ h1, h2⟩
  | readdir d k ih =>
    cases h with
    | readdir _ _ r tr _ h =>
      rcases ih r h with h1 | ⟨a, t1, t2, rfl, h1, h2⟩
      · exact Or.inl (.readdir _ _ _ _ _ h1)
      · exact Or.inr ⟨a, _ :: t1, t2, rfl, .readdir _ _ _ _ _ h1, h2⟩
  | slurp p k ih =>
    cases h with
    | slurp _ _ r tr _ h =>
      rcases ih r h with h1 | ⟨a, t1, t2, rfl, h1, h2⟩
      · exact Or.inl (.slurp _ _ _ _ _ h1)
      · exact Or.inr ⟨a, _ :: t1, t2, rfl, .slurp _ _ _ _ _ h1, h2⟩
  | closedir d k ih =>
    cases h with
    | closedir _ _ tr _ h =>
      rcases ih h with h1 | ⟨a, t1, t2, rfl, h1, h2⟩
      · exact Or.inl (.closedir _ _ _ _ h1)
      · exact Or.inr ⟨a, _ :: t1, t2, rfl, .closedir _ _ _ _ h1, h2⟩
  | out s k ih =>
    cases h with
    | out _ _ tr _ h =>
      rcases ih h with h1 | ⟨a, t1, t2, rfl, h1, h2⟩
      · exact Or.inl (.out _ _ _ _ h1)
      · exact Or.inr ⟨a, _ :: t1, t2, rfl, .out _ _ _ _ h1, h2⟩
  | err s k ih =>
    cases h with
    | err _ _ tr _ h =>
      rcases ih h with h1 | ⟨a, t1, t2, rfl, h1, h2⟩
      · exact Or.inl (.err _ _ _ _ h1)
      · exact Or.inr ⟨a, _ :: t1, t2, rfl, .err _ _ _ _ h1, h2⟩

/-- How a failed computation ends the program. -/
inductive FailsAs {α β : Type} : Res α → Outcome β → Prop
  | exit (n : Nat) : FailsAs (.exit n) (.exit n)
  | ub (u : UB) : FailsAs (.ub u) (.ub u)
  | stuck : FailsAs .stuck .stuck

theorem trace_ofRes_any {α β : Type} {x : Res α} {k : α → Prog β} {tr : List Event} {oc : Outcome β}
    (h : Trace ((Prog.ofRes x).bind k) tr oc) : (∃ a, x = .ok a ∧ Trace (k a) tr oc) ∨ (tr = [] ∧ oc = .running) ∨
      (tr = [] ∧ FailsAs x oc) := by
  cases x with
  | ok a => exact .inl ⟨a, rfl, h⟩
  | exit n => cases h with
    | stop => exact .inr (.inl ⟨rfl, rfl⟩)
    | exit => exact .inr (.inr ⟨rfl, .exit n⟩)
  | ub u => cases h with
    | stop => exact .inr (.inl ⟨rfl, rfl⟩)
    | ub => exact .inr (.inr ⟨rfl, .ub u⟩)
  | stuck => cases h with
    | stop => exact .inr (.inl ⟨rfl, rfl⟩)
    | stuck => exact .inr (.inr ⟨rfl, .stuck⟩)

/-- What the program returns after exactly these calls, given these answers. (For concrete cases.) -/
def Prog.result {α : Type} : Prog α → List Event → Option α
  | .ret a, [] => some a
  | .lstat p k, .lstat p' r :: tr => if p = p' then result (k r) tr else none
  | .rename o n k, .rename o' n' r :: tr => if o = o' ∧ n = n' then result (k r) tr else none
  | .opendir p k, .opendir p' r :: tr => if p = p' then result (k r) tr else none
  | .readdir h k, .readdir h' r :: tr => if h = h' then result (k r) tr else none
  | .closedir h k, .closedir h' :: tr => if h = h' then result k tr else none
  | .slurp p k, .slurp p' r :: tr => if p = p' then result (k r) tr else none
  | .out s k, .out s' :: tr => if s = s' then result k tr else none
  | .err s k, .err s' :: tr => if s = s' then result k tr else none
  | _, _ => none

theorem Prog.result_sound {α : Type} : ∀ (tr : List Event) (p : Prog α) (a : α), p.result tr = some a → Trace p tr (.ret a)
  | [], p, a, h => by
    cases p <;> simp only [Prog.result] at h <;> first | (exfalso; exact Option.noConfusion rfl (heq_of_eq h)) | skip
    cases h; exact .ret _
  | e :: tr, p, a, h => by
    cases p <;> cases e <;> simp only [Prog.result] at h <;> first | (cases h; done) | skip
    all_goals split at h <;> first | (cases h; done) | skip
    case lstat.lstat.isTrue p k p' r he => subst he; exact .lstat _ _ _ _ _ (result_sound tr _ _ h)
    case rename.rename.isTrue o n k o' n' r he => obtain ⟨rfl, rfl⟩ := he; exact .rename _ _ _ _ _ _ (result_sound tr _ _ h)
    case opendir.opendir.isTrue p k p' r he => subst he; exact .opendir _ _ _ _ _ (result_sound tr _ _ h)
    case readdir.readdir.isTrue p k p' r he => subst he; exact .readdir _ _ _ _ _ (result_sound tr _ _ h)
    case closedir.closedir.isTrue p k p' he => subst he; exact .closedir _ _ _ _ (result_sound tr _ _ h)
    case slurp.slurp.isTrue p k p' r he => subst he; exact .slurp _ _ _ _ _ (result_sound tr _ _ h)
    case out.out.isTrue p k p' he => subst he; exact .out _ _ _ _ (result_sound tr _ _ h)
    case err.err.isTrue p k p' he => subst he; exact .err _ _ _ _ (result_sound tr _ _ h)

end Detox
