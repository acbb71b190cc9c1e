import Verif.Lemmas.MemoryMain
import Verif.Spec.Memory

/-!
# Counting blocks
-/

set_option autoImplicit false

namespace Detox

open Spec

theorem length_le_of_subset : ∀ {l m : List Nat}, l.Nodup → (∀ x, x ∈ l → x ∈ m) → l.length ≤ m.length
  | [], _, _, _ => Nat.zero_le _
  | a :: l, m, hn, hs => by
    have hm := hs a (by simp)
    have hn' := List.nodup_cons.1 hn
    have := length_le_of_subset (l := l) (m := m.erase a) hn'.2 fun x hx =>
      (List.mem_erase_of_ne (fun (e : x = a) => hn'.1 (e ▸ hx))).2 (hs x (List.mem_cons_of_mem _ hx))
    rw [List.length_erase_of_mem hm] at this
    have := List.length_pos_of_mem hm
    simp only [List.length_cons]
    omega

theorem mem_liveBlocks {h : Heap} {x : Addr} : x ∈ liveBlocks h ↔ ∃ b, h.get x = some b := by
  unfold liveBlocks
  rw [List.mem_filter, List.mem_range, Option.isSome_iff_exists]
  exact ⟨fun e => e.2, fun ⟨b, e⟩ => ⟨Heap.get_lt e, b, e⟩⟩

theorem liveBlocks_nodup (h : Heap) : (liveBlocks h).Nodup := List.nodup_range.filter _

theorem liveBlocks_length {h : Heap} {l : List Addr} (hn : l.Nodup) (hl : ∀ x, x ∈ l ↔ ∃ b, h.get x = some b) : (liveBlocks h).length = l.length :=
  Nat.le_antisymm (length_le_of_subset (liveBlocks_nodup h) fun x hx => (hl x).2 (mem_liveBlocks.1 hx))
    (length_le_of_subset hn fun x hx => mem_liveBlocks.2 ((hl x).1 hx))

/-- A list keeps its pointers in blocks that were there. -/
theorem OptListAt.pointers {h : Heap} {p : Option Addr} {bs : List Addr} {l : Option Filelist} (e : OptListAt h p bs l) {x : Addr} {b : Block}
    (hx : x ∈ p.toList) (hb : h.get x = some b) : ∀ y, y ∈ pointersOf b → y ∈ bs := by
  cases p with
  | none => cases hx
  | some a =>
    cases (List.mem_singleton.1 hx : x = a)
    cases l with
    | none => cases e
    | some l =>
      obtain ⟨fa, qs, ws, n, rfl, ⟨⟨k, h1, _⟩, _, _, _⟩, _⟩ := e
      rw [h1] at hb
      cases hb
      intro y hy
      cases (List.mem_singleton.1 hy : y = fa)
      exact List.mem_cons_self

theorem Leaves.behind {h h' : Heap} {f p : Option Addr} {bf bs : List Addr} {lf lp lf' lp' : Option Filelist} {k : Nat}
    (hc : AllPointersOld h) (hf : OptListAt h f bf lf) (hp : OptListAt h p bs lp)
    (lv : Leaves h (f.toList ++ p.toList) h' (f.toList ++ p.toList) k) (hf' : OptListAt h' f bf lf') (hp' : OptListAt h' p bs lp') :
    LeavesBehind h h' (f.toList ++ p.toList) k := by
  obtain ⟨lost, s, L, hk⟩ := lv
  have hold : ∀ x, x ∈ f.toList ++ p.toList → ∃ b, h.get x = some b := fun x hx => by
    rcases List.mem_append.1 hx with hx | hx
    · obtain ⟨b, e, _⟩ := hf.live x hx; exact ⟨b, e⟩
    · obtain ⟨b, e, _⟩ := hp.live x hx; exact ⟨b, e⟩
  have hnew : ∀ x, x ∈ f.toList ++ p.toList → ∃ b, h'.get x = some b := fun x hx => by
    rcases List.mem_append.1 hx with hx | hx
    · obtain ⟨b, e, _⟩ := hf'.live x hx; exact ⟨b, e⟩
    · obtain ⟨b, e, _⟩ := hp'.live x hx; exact ⟨b, e⟩
  have hlost : ∀ x, x ∈ lost → h.length ≤ x := fun x hx => by
    rcases s.source x (List.mem_append_left _ hx) with h1 | h1
    · exact absurd h1 (L.apart x hx)
    · exact h1
  have hsame : ∀ x, x ∉ lost → x ∉ f.toList ++ p.toList → h'.get x = h.get x := fun x h1 h2 => by
    by_cases hx : x < h.length
    · exact s.others x hx h2
    · rw [s.nothing x (Nat.le_of_not_lt hx) (fun hc => (List.mem_append.1 hc).elim h1 h2), Heap.get_none_of_le (Nat.le_of_not_lt hx)]
  refine ⟨⟨lost, L.nodup, hk, fun x hx => ⟨Heap.get_none_of_le (hlost x hx), L.live x hx⟩, hsame, fun x b hb y hy => ?_⟩,
    fun x hx => Option.isSome_iff_exists.2 (hnew x hx), ?_⟩
  · intro hyl
    have hge := hlost y hyl
    by_cases h1 : x ∈ lost
    · obtain ⟨n, t, ht⟩ := L.live x h1
      rw [ht] at hb
      cases hb
      cases hy
    · by_cases h2 : x ∈ f.toList ++ p.toList
      · rcases List.mem_append.1 h2 with h3 | h3
        · obtain ⟨c, hc, _⟩ := hf.still y (hf'.pointers h3 hb y hy)
          have := Heap.get_lt hc
          omega
        · obtain ⟨c, hc, _⟩ := hp.still y (hp'.pointers h3 hb y hy)
          have := Heap.get_lt hc
          omega
      · rw [hsame x h1 h2] at hb
        have := hc x b hb y hy
        omega
  · rw [← hk, ← List.length_append]
    refine liveBlocks_length (List.nodup_append.2 ⟨liveBlocks_nodup h, L.nodup, fun x hx y hy e => ?_⟩) fun x => ?_
    · obtain ⟨b, hb⟩ := mem_liveBlocks.1 hx
      have := Heap.get_lt hb
      have := hlost y hy
      omega
    · rw [List.mem_append, mem_liveBlocks]
      constructor
      · rintro (⟨b, hb⟩ | hx)
        · by_cases h2 : x ∈ f.toList ++ p.toList
          · exact hnew x h2
          · refine ⟨b, ?_⟩
            rw [hsame x (fun h1 => by have := hlost x h1; have := Heap.get_lt hb; omega) h2]
            exact hb
        · obtain ⟨n, t, ht⟩ := L.live x hx
          exact ⟨_, ht⟩
      · rintro ⟨b, hb⟩
        by_cases h1 : x ∈ lost
        · exact .inr h1
        · refine .inl ?_
          by_cases h2 : x ∈ f.toList ++ p.toList
          · exact hold x h2
          · exact ⟨b, by rw [← hsame x h1 h2]; exact hb⟩

end Detox
