import Verif.Spec.Together
import Verif.Lemmas.Complete

/-!
# Processes that rename nothing
-/

set_option autoImplicit false

namespace Detox

open Spec

/-- What a process has still to be given is there. -/
def Owing (w : World) : Prop := ∀ k s, w.streams k = some s → ∀ n ∈ s.owed, n ∈ w.fs.namesIn s.dir

theorem after_settled {fs : FS} {s : Stream} (h : ∀ n ∈ s.owed, n ∈ fs.namesIn s.dir) : Stream.after fs s = s := by
  cases s with
  | mk d o =>
    unfold Stream.after
    congr 1
    exact List.filter_eq_self.2 fun n hn => decide_eq_true (h n hn)

theorem sees_settled {w : World} (h : Owing w) : w.sees w.fs = w := by
  cases w with
  | mk fs streams opened refused =>
    unfold World.sees
    congr 1
    funext k
    dsimp only
    cases hk : streams k with
    | none => rfl
    | some s => rw [Option.map_some, after_settled (h k s hk)]

theorem settled_sees (fs : FS) (w : World) : Owing (w.sees fs) := by
  intro k s hk n hn
  simp only [World.sees, Option.map_eq_some_iff] at hk
  obtain ⟨s', _, rfl⟩ := hk
  exact of_decide_eq_true (List.mem_filter.1 hn).2

theorem settled_step {w w' : World} {e : Event} (h : Owing w) (hs : World.Step w e w') : Owing w' := by
  cases hs with
  | lstat => exact h
  | renamed old new fs _ => exact settled_sees fs w
  | renameFailed => exact h
  | opened p hd d _ _ _ =>
    intro k s hk n hn
    dsimp only at hk
    split at hk
    · cases hk; exact hn
    · exact h k s hk n hn
  | refused => exact h
  | entry hd s0 n0 h1 _ =>
    intro k s hk n hn
    dsimp only at hk
    split at hk
    · cases hk
      exact h _ _ h1 n (List.mem_filter.1 hn).1
    · exact h k s hk n hn
  | finished => exact h
  | closed hd =>
    intro k s hk n hn
    dsimp only at hk
    split at hk
    · cases hk
    · exact h k s hk n hn
  | slurp => exact h
  | out => exact h
  | err => exact h

theorem step_keeps_names {w w' : World} {e : Event} (hs : World.Step w e w') (he : ∀ old new, e ≠ .rename old new true) : w'.fs = w.fs := by
  cases hs <;> first | rfl | exact absurd rfl (he _ _)

theorem split_cases {α : Type} : ∀ {l0 : List α} {a : α} {r0 l : List α} {b : α} {r : List α}, l0 ++ a :: r0 = l ++ b :: r →
    (l0 = l ∧ a = b ∧ r0 = r) ∨ (∃ m, l = l0 ++ a :: m ∧ r0 = m ++ b :: r) ∨ ∃ m, l0 = l ++ b :: m ∧ r = m ++ a :: r0
  | [], a, r0, [], b, r, h => by
    obtain ⟨h1, h2⟩ := List.cons.inj h
    exact .inl ⟨rfl, h1, h2⟩
  | [], a, r0, x :: l, b, r, h => by
    obtain ⟨h1, h2⟩ := List.cons.inj h
    exact .inr (.inl ⟨l, by rw [h1]; rfl, h2⟩)
  | y :: l0, a, r0, [], b, r, h => by
    obtain ⟨h1, h2⟩ := List.cons.inj h
    exact .inr (.inr ⟨l0, by rw [h1]; rfl, h2.symm⟩)
  | y :: l0, a, r0, x :: l, b, r, h => by
    obtain ⟨rfl, h2⟩ := List.cons.inj h
    rcases split_cases h2 with ⟨h3, h4, h5⟩ | ⟨m, h3, h4⟩ | ⟨m, h3, h4⟩
    · exact .inl ⟨by rw [h3], h4, h5⟩
    · exact .inr (.inl ⟨m, by rw [h3]; rfl, h4⟩)
    · exact .inr (.inr ⟨m, by rw [h3]; rfl, h4⟩)

/-- A process that renames nothing can be left out. -/
theorem together_without {c : List (World × List Event)} {ws : List World} (h : Together c ws) : ∀ (l r : List (World × List Event)) (w : World) (t : List Event) (g : FS),
    c = l ++ (w, t) :: r → (∀ x ∈ c, x.1.fs = g ∧ Owing x.1) → (∀ old new, .rename old new true ∉ t) →
    ∃ wl v wr, ws = wl ++ v :: wr ∧ wl.length = l.length ∧ Together (l ++ r) (wl ++ wr) := by
  induction h with
  | done c hc =>
    rintro l r w t g rfl _ _
    refine ⟨l.map Prod.fst, w, r.map Prod.fst, by rw [List.map_append]; rfl, List.length_map _, ?_⟩
    rw [← List.map_append]
    exact .done _ fun x hx => hc x (by
      rcases List.mem_append.1 hx with hx | hx
      · exact List.mem_append_left _ hx
      · exact List.mem_append_right _ (List.mem_cons_of_mem _ hx))
  | next l0 r0 w0 w0' e t0 ws hs ht ih =>
    intro l r w t g heq hset hno
    have h0 := hset (w0, e :: t0) (List.mem_append_right _ List.mem_cons_self)
    have hset' : ∀ x ∈ l0.map (fun x => (x.1.sees w0'.fs, x.2)) ++ (w0', t0) :: r0.map (fun x => (x.1.sees w0'.fs, x.2)), x.1.fs = w0'.fs ∧ Owing x.1 := by
      intro x hx
      rcases List.mem_append.1 hx with hx | hx
      · obtain ⟨y, _, rfl⟩ := List.mem_map.1 hx
        exact ⟨rfl, settled_sees _ _⟩
      · rcases List.mem_cons.1 hx with rfl | hx
        · exact ⟨rfl, settled_step h0.2 hs⟩
        · obtain ⟨y, _, rfl⟩ := List.mem_map.1 hx
          exact ⟨rfl, settled_sees _ _⟩
    rcases split_cases heq with ⟨rfl, h2, rfl⟩ | ⟨m, rfl, rfl⟩ | ⟨m, rfl, rfl⟩
    · obtain ⟨rfl, rfl⟩ := Prod.mk.inj h2
      have hfs : w0'.fs = w0.fs := step_keeps_names hs fun old new he => hno old new (by rw [he]; exact List.mem_cons_self)
      have same : ∀ {k : List (World × List Event)}, (∀ x ∈ k, x.1.fs = g ∧ Owing x.1) → k.map (fun x => (x.1.sees w0'.fs, x.2)) = k := by
        intro k hk
        conv => rhs; rw [← List.map_id k]
        refine List.map_congr_left fun x hx => ?_
        obtain ⟨q1, q2⟩ := hk x hx
        have : w0'.fs = x.1.fs := by rw [hfs, h0.1, q1]
        rw [this, sees_settled q2]
        rfl
      have hl := same (k := l0) fun x hx => hset x (List.mem_append_left _ hx)
      have hr := same (k := r0) fun x hx => hset x (List.mem_append_right _ (List.mem_cons_of_mem _ hx))
      rw [hl, hr] at ih hset'
      exact ih l0 r0 w0' t0 w0'.fs rfl hset' fun old new hm => hno old new (List.mem_cons_of_mem _ hm)
    · obtain ⟨wl, v, wr, e1, e2, e3⟩ := ih (l0.map (fun x => (x.1.sees w0'.fs, x.2)) ++ (w0', t0) :: m.map (fun x => (x.1.sees w0'.fs, x.2)))
        (r.map fun x => (x.1.sees w0'.fs, x.2)) (w.sees w0'.fs) t w0'.fs (by simp) hset' hno
      refine ⟨wl, v, wr, e1, by rw [e2]; simp, ?_⟩
      rw [List.append_assoc, List.cons_append]
      refine .next l0 (m ++ r) w0 w0' e t0 _ hs ?_
      rw [List.map_append]
      rw [List.append_assoc, List.cons_append] at e3
      exact e3
    · obtain ⟨wl, v, wr, e1, e2, e3⟩ := ih (l.map fun x => (x.1.sees w0'.fs, x.2))
        (m.map (fun x => (x.1.sees w0'.fs, x.2)) ++ (w0', t0) :: r0.map (fun x => (x.1.sees w0'.fs, x.2))) (w.sees w0'.fs) t w0'.fs (by simp) hset' hno
      refine ⟨wl, v, wr, e1, by rw [e2]; simp, ?_⟩
      rw [← List.append_assoc]
      refine .next (l ++ m) r0 w0 w0' e t0 _ hs ?_
      rw [List.map_append, List.append_assoc]
      exact e3

end Detox
