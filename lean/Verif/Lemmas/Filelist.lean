import Verif.Model.Filelist

/-!
# What a file list holds
-/

set_option autoImplicit false

namespace Detox

/-- The list holds the names `ws`, and the next name to be delivered is number `n`. -/
def Filelist.Holds (l : Filelist) (ws : List Bytes) (n : Nat) : Prop :=
  l.count = ws.length ∧ l.files.take l.count = ws.map some ∧ l.ptr = n ∧ n ≤ ws.length ∧ l.count ≤ l.max

theorem filelistInit_holds : filelistInit.Holds [] 0 := by
  refine ⟨rfl, rfl, rfl, Nat.le_refl _, ?_⟩
  decide

theorem filelistPut_holds {l : Filelist} {ws : List Bytes} {n : Nat} (h : l.Holds ws n) (w : Bytes) :
    ∃ l', filelistPut l w = .ok l' ∧ l'.Holds (ws ++ [w]) 0 := by
  obtain ⟨hc, hf, hp, hn, hm⟩ := h
  have grow : ∃ g, filelistGrow l = g ∧ g.count = ws.length ∧ g.files.take g.count = ws.map some ∧ g.count < g.max := by
    refine ⟨_, rfl, ?_⟩
    unfold filelistGrow
    split
    · next hfull =>
      refine ⟨hc, ?_, ?_⟩
      · show List.take l.count (List.take l.count l.files ++ _) = _
        rw [List.take_append_of_le_length]
        · rw [List.take_take, Nat.min_self, hf]
        · rw [List.length_take]; unfold Filelist.max at hm hfull; omega
      · show l.count < List.length (List.take l.count l.files ++ List.replicate filelistChunk none)
        have : filelistChunk = 16 := rfl
        unfold Filelist.max at hm hfull
        rw [List.length_append, List.length_take, List.length_replicate]; omega
    · exact ⟨hc, hf, by omega⟩
  obtain ⟨g, hg, gc, gf, gm⟩ := grow
  refine ⟨filelistReset { g with files := g.files.set g.count (some w), count := g.count + 1 }, ?_, ?_⟩
  · unfold filelistPut
    rw [hg]
    simp only [gm, if_true]
  · refine ⟨?_, ?_, rfl, Nat.zero_le _, ?_⟩
    · show g.count + 1 = _
      rw [gc]; simp
    · show List.take (g.count + 1) (g.files.set g.count (some w)) = _
      unfold Filelist.max at gm
      rw [List.take_add_one, List.take_set_of_le (Nat.le_refl _), gf]
      rw [List.getElem?_set_self gm]
      simp
    · show g.count + 1 ≤ (g.files.set g.count (some w)).length
      unfold Filelist.max at gm
      rw [List.length_set]; omega

theorem filelistGet_holds {l : Filelist} {ws : List Bytes} {n : Nat} (h : l.Holds ws n) :
    if hn : n < ws.length then ∃ l', filelistGet l = .ok (l', some ws[n]) ∧ l'.Holds ws (n + 1)
    else ∃ l', filelistGet l = .ok (l', none) ∧ l'.Holds ws 0 := by
  obtain ⟨hc, hf, hp, hle, hm⟩ := h
  split
  · next hn =>
    refine ⟨{ l with ptr := l.ptr + 1 }, ?_, hc, hf, by simp [hp], hn, hm⟩
    unfold filelistGet
    have h0 : l.count ≠ 0 := by omega
    have h1 : l.ptr ≠ l.count := by omega
    have hg : l.files[l.ptr]? = some (some ws[n]) := by
      have : (l.files.take l.count)[l.ptr]? = (ws.map some)[n]? := by rw [hf, hp]
      rw [List.getElem?_take] at this
      rw [if_pos (by omega)] at this
      rw [this]; simp [hn]
    simp only [h0, h1, if_false, hg]
  · next hn =>
    have hnw : n = ws.length := by omega
    unfold filelistGet
    by_cases h0 : l.count = 0
    · refine ⟨l, by simp only [h0, if_true], hc, hf, ?_, Nat.zero_le _, hm⟩
      omega
    · refine ⟨{ l with ptr := 0 }, ?_, hc, hf, rfl, Nat.zero_le _, hm⟩
      have h1 : l.ptr = l.count := by omega
      simp only [h0, if_false, h1, if_true]

end Detox
