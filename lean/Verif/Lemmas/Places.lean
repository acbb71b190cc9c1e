import Verif.Spec.FileSystem

/-!
# Entries and their places in the list
-/

set_option autoImplicit false

namespace Detox
open Spec

/-- What is known place by place is known entry by entry, if no entry is there twice. -/
theorem entries_of_places {C : Entry → Bytes → Prop} : ∀ {l l' : List Entry}, l.Nodup → l'.length = l.length →
    (∀ (k : Nat) (e : Entry), l[k]? = some e → ∃ n, l'[k]? = some { e with name := n } ∧ C e n) →
    ∃ new : Entry → Bytes, l' = l.map (fun e => { e with name := new e }) ∧ ∀ e ∈ l, C e (new e) := by
  intro l
  induction l with
  | nil =>
    intro l' _ hlen _
    refine ⟨fun e => e.name, ?_, nofun⟩
    rw [List.eq_nil_of_length_eq_zero hlen]
    rfl
  | cons e l ih =>
    intro l' hnd hlen h
    cases l' with
    | nil => cases hlen
    | cons e' l' =>
      obtain ⟨hnot, hnd⟩ := List.nodup_cons.1 hnd
      obtain ⟨n, h1, h2⟩ := h 0 e rfl
      obtain ⟨new, h3, h4⟩ := ih (l' := l') hnd (Nat.succ.inj hlen) fun k x hk => h (k + 1) x hk
      have h1 : e' = { e with name := n } := Option.some.inj h1
      classical
      refine ⟨fun x => if x = e then n else new x, ?_, ?_⟩
      · rw [List.map_cons, h1, h3]
        simp only [if_true, List.cons.injEq, true_and]
        refine List.map_congr_left fun x hx => ?_
        have hxe : x ≠ e := fun h => hnot (h ▸ hx)
        rw [if_neg hxe]
      · intro x hx
        by_cases hxe : x = e
        · subst hxe; simp only [if_true]; exact h2
        · simp only [if_neg hxe]
          exact h4 x ((List.mem_cons.1 hx).resolve_left hxe)

theorem unique_entries_nodup {fs : FS} (h : fs.Unique) : fs.entries.Nodup :=
  List.Pairwise.imp (fun {a b} hab he => hab ⟨by rw [he], by rw [he]⟩) h

end Detox
