import Verif.Lemmas.Settle
import Verif.Lemmas.Units

/-!
# Names that are cut, and names read as UTF-8
-/

set_option autoImplicit false

namespace Detox
open Spec

/-! ### max_length -/

theorem noAdjacent_left {rt : Bool} {a b : Bytes} (h : NoAdjacent rt (a ++ b)) : NoAdjacent rt a := by
  induction a with
  | nil => trivial
  | cons x a ih =>
    cases a with
    | nil => trivial
    | cons y a => exact ⟨h.1, ih h.2⟩

theorem noAdjacent_tail {rt : Bool} {x : Byte} {b : Bytes} (h : NoAdjacent rt (x :: b)) : NoAdjacent rt b := by
  cases b with
  | nil => trivial
  | cons y b => exact h.2

theorem noAdjacent_right {rt : Bool} {a b : Bytes} (h : NoAdjacent rt (a ++ b)) : NoAdjacent rt b := by
  induction a with
  | nil => exact h
  | cons x a ih => exact ih (noAdjacent_tail h)

theorem noAdjacent_join {rt : Bool} {a b : Bytes} {c : Byte} (hc : reducible rt c = false) (ha : NoAdjacent rt a) (hb : NoAdjacent rt (c :: b)) :
    NoAdjacent rt (a ++ c :: b) := by
  induction a with
  | nil => exact hb
  | cons x a ih =>
    refine noAdjacent_cons (fun y hy hh => ?_) (ih (noAdjacent_tail ha))
    cases a with
    | nil =>
      have hy : c = y := Option.some.inj hy
      rw [← hy, hc] at hh
      cases hh.2
    | cons z a =>
      have hy : z = y := Option.some.inj hy
      rw [← hy] at hh
      exact ha.1 hh

theorem extension_dot {s : Bytes} {e : Nat} (h : ExtensionAt s e) : ∃ r, s.drop e = 0x2E :: r := by
  obtain ⟨d, h1, _, h2⟩ := h
  have he : s[e]? = some 0x2E := by
    rcases h2 with ⟨rfl, _⟩ | ⟨_, _, _, h, _⟩
    · exact h1.1
    · exact h
  obtain ⟨hl, hx⟩ := List.getElem?_eq_some_iff.1 he
  exact ⟨s.drop (e + 1), by rw [← hx]; exact List.drop_eq_getElem_cons hl⟩

theorem shortens_mem {limit : Nat} {s v : Bytes} (h : Shortens limit s v) : ∀ x ∈ v, x ∈ s := by
  cases h with
  | fits => exact fun _ h => h
  | plain => exact fun _ h => List.mem_of_mem_take h
  | hopeless => exact fun _ h => h
  | cut e body _ _ _ hb _ =>
    intro x hx
    rcases List.mem_append.1 hx with hx | hx
    · exact List.mem_of_mem_take (hb.subset hx)
    · exact List.mem_of_mem_drop hx

/-- A name that was cut is not cut again. -/
theorem shortens_again {limit : Nat} {s v : Bytes} (h : Shortens limit s v) : Shortens limit v v := by
  cases h with
  | fits h => exact .fits h
  | plain h _ => exact .fits (by rw [List.length_take]; omega)
  | hopeless e h1 h2 h3 => exact .hopeless e h1 h2 h3
  | cut e body _ _ _ _ hl => exact .fits (by omega)

/-- A name that `wipeup`, without `remove_trailing`, has nothing to do with is still so when it was cut. -/
theorem shortens_wiped {limit : Nat} {s v : Bytes} (h : Shortens limit s v) (hh : ∀ c, s.head? = some c → leading c = false) (hs : NoAdjacent false s) :
    (∀ c, v.head? = some c → leading c = false) ∧ NoAdjacent false v := by
  cases h with
  | fits => exact ⟨hh, hs⟩
  | plain =>
    refine ⟨fun c hc => hh c ?_, noAdjacent_left (b := s.drop limit) (by rw [List.take_append_drop]; exact hs)⟩
    cases s with
    | nil => simp at hc
    | cons a s =>
      cases limit with
      | zero => simp at hc
      | succ n => simpa using hc
  | hopeless => exact ⟨hh, hs⟩
  | cut e body _ he _ hb _ =>
    obtain ⟨r, hr⟩ := extension_dot he
    obtain ⟨t, ht⟩ := hb
    have hsplit : body ++ (t ++ s.drop e) = s := by rw [← List.append_assoc, ht, List.take_append_drop]
    have h1 : NoAdjacent false body := noAdjacent_left (b := t ++ s.drop e) (by rw [hsplit]; exact hs)
    have h2 : NoAdjacent false (s.drop e) := noAdjacent_right (a := s.take e) (by rw [List.take_append_drop]; exact hs)
    rw [hr] at h2 ⊢
    refine ⟨fun c hc => ?_, noAdjacent_join (by decide) h1 h2⟩
    cases body with
    | nil =>
      simp only [List.nil_append, List.head?_cons, Option.some.injEq] at hc
      rw [← hc]; decide
    | cons a b =>
      refine hh c ?_
      rw [← hsplit]
      simpa using hc

/-! ### utf_8 -/

theorem units_ascii_mem {p : Bytes → Nat → Prop} {s : Bytes} (h : Units p s) {c : Byte} (hc : c.toNat < 0x80) (hm : c ∈ s) : p [c] c.toNat := by
  induction h with
  | nil => cases hm
  | cons u v rest hu hp _ ih =>
    rcases List.mem_append.1 hm with hm | hm
    · rcases hu.ascii_or_high with ⟨x, rfl, _, rfl⟩ | ⟨_, hx⟩
      · cases List.mem_singleton.1 hm
        exact hp
      · have := hx c hm
        omega
    · exact ih hm

theorem units_within {p : Bytes → Nat → Prop} {s v : Bytes} (h : Units (fun u x => p u x ∨ ∃ c, u = [c] ∧ c ∉ s) v) (hv : ∀ c ∈ v, c ∈ s) : Units p v := by
  induction h with
  | nil => exact .nil
  | cons u x rest hu hp _ ih =>
    refine .cons u x rest hu (hp.resolve_right ?_) (ih fun c hc => hv c (List.mem_append_right _ hc))
    rintro ⟨c, rfl, hc⟩
    exact hc (hv c (by simp))

theorem wipe_units_within {p : Bytes → Nat → Prop} {s : Bytes} (rt : Bool) (h : Units p s) (h0 : NulFree s) : Units p (wipe rt s) := by
  refine units_within (s := s) (wipe_units rt (h.mono fun _ _ h => .inl h) ?_) (wipe_mem h0)
  intro c hc
  by_cases hm : c ∈ s
  · refine .inl (units_ascii_mem h ?_ hm)
    have : ∀ c ∈ ([0x2E, 0x2D, 0x5F] : Bytes), c.toNat < 0x80 := by decide
    exact this c hc
  · exact .inr ⟨c, rfl, hm⟩

theorem reads_one {m : TableText} {u : Bytes} {v : Nat} (h : IsUnit u v) : UnicodeReads m u (unicodeSays m v u) := by
  have := UnicodeReads.char (m := m) u v [] [] h .nil
  rwa [List.append_nil, List.append_nil] at this

end Detox
