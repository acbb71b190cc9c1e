import Verif.Lemmas.Filelist
import Verif.Spec.Cursor

/-!
# C48 — file lists
-/

set_option autoImplicit false

namespace Detox
open Spec

/-- One operation on the C list. -/
def flStep (l : Filelist) : FlOp → Res (Filelist × FlAns)
  | .put w => do let l' ← filelistPut l w; pure (l', .done)
  | .get => do let p ← filelistGet l; pure (p.1, .name p.2)
  | .reset => .ok (filelistReset l, .done)
  | .count => .ok (l, .number (filelistCount (some l)))

def flRun (l : Filelist) : List FlOp → Res (Filelist × List FlAns)
  | [] => .ok (l, [])
  | op :: ops => do
    let p ← flStep l op
    let q ← flRun p.1 ops
    pure (q.1, p.2 :: q.2)

theorem flStep_holds {l : Filelist} {c : Cursor} (h : l.Holds c.names c.seen) (op : FlOp) :
    ∃ l', flStep l op = .ok (l', (c.step op).2) ∧ l'.Holds (c.step op).1.names (c.step op).1.seen := by
  cases op with
  | put w =>
    obtain ⟨l', h1, h2⟩ := filelistPut_holds h w
    exact ⟨l', by simp [flStep, h1, Cursor.step], h2⟩
  | get =>
    have hg := filelistGet_holds h
    split at hg
    · next hn =>
      obtain ⟨l', h1, h2⟩ := hg
      refine ⟨l', ?_, ?_⟩
      · simp [flStep, h1, Cursor.step, hn]
      · simp only [Cursor.step, List.getElem?_eq_getElem hn]; exact h2
    · next hn =>
      obtain ⟨l', h1, h2⟩ := hg
      have : c.names[c.seen]? = none := List.getElem?_eq_none (by omega)
      refine ⟨l', ?_, ?_⟩
      · simp only [flStep, h1, Cursor.step, this]; rfl
      · simp only [Cursor.step, this]; exact h2
  | reset =>
    obtain ⟨hc, hf, hp, hn, hm⟩ := h
    exact ⟨_, rfl, hc, hf, rfl, Nat.zero_le _, hm⟩
  | count =>
    refine ⟨l, ?_, h⟩
    simp only [flStep, filelistCount, Cursor.step, h.1]

/-- **C48.** For every sequence of operations on a fresh list: no access outside the block, and every answer is
that of a list with a cursor. -/
theorem C48_filelist_is_a_list_with_a_cursor (ops : List FlOp) :
    ∃ l, flRun filelistInit ops = .ok (l, (Cursor.run ⟨[], 0⟩ ops).2) := by
  have gen : ∀ (ops : List FlOp) (l : Filelist) (c : Cursor), l.Holds c.names c.seen →
      ∃ l', flRun l ops = .ok (l', (c.run ops).2) := by
    intro ops
    induction ops with
    | nil => intro l c _; exact ⟨l, rfl⟩
    | cons op ops ih =>
      intro l c h
      obtain ⟨l1, h1, h2⟩ := flStep_holds h op
      obtain ⟨l2, h3⟩ := ih l1 _ h2
      refine ⟨l2, ?_⟩
      simp [flRun, h1, h3, Cursor.run]
  exact gen ops _ ⟨[], 0⟩ filelistInit_holds

theorem cursor_puts (ws : List Bytes) : ∀ (c : Cursor), (c.run (ws.map .put)).1.names = c.names ++ ws ∧
    (ws ≠ [] → (c.run (ws.map .put)).1.seen = 0) ∧ (c.run (ws.map .put)).2 = List.replicate ws.length .done := by
  induction ws with
  | nil => intro c; simp [Cursor.run]
  | cons w ws ih =>
    intro c
    obtain ⟨h1, h2, h3⟩ := ih ⟨c.names ++ [w], 0⟩
    refine ⟨by simpa [Cursor.run, Cursor.step] using h1, ?_, by simpa [Cursor.run, Cursor.step, List.replicate_succ] using h3⟩
    intro _
    cases ws with
    | nil => rfl
    | cons x xs => simpa [Cursor.run, Cursor.step] using h2 (by simp)

theorem cursor_run_append (a b : List FlOp) : ∀ c : Cursor,
    (c.run (a ++ b)).1 = ((c.run a).1.run b).1 ∧ (c.run (a ++ b)).2 = (c.run a).2 ++ ((c.run a).1.run b).2 := by
  induction a with
  | nil => intro c; exact ⟨rfl, rfl⟩
  | cons op a ih =>
    intro c
    obtain ⟨h1, h2⟩ := ih (c.step op).1
    exact ⟨by simpa [Cursor.run] using h1, by simp [Cursor.run, h2]⟩

theorem cursor_gets (ws : List Bytes) : ∀ (k n : Nat), n + k = ws.length →
    (Cursor.run ⟨ws, n⟩ (List.replicate (k + 1) .get)).1 = ⟨ws, 0⟩ ∧
    (Cursor.run ⟨ws, n⟩ (List.replicate (k + 1) .get)).2 = (ws.drop n).map (FlAns.name ∘ some) ++ [.name none] := by
  intro k
  induction k with
  | zero =>
    intro n hn
    have : ws[n]? = none := List.getElem?_eq_none (by omega)
    have hd : ws.drop n = [] := List.drop_eq_nil_of_le (by omega)
    simp [Cursor.run, Cursor.step, this, hd]
  | succ k ih =>
    intro n hn
    have hlt : n < ws.length := by omega
    obtain ⟨h1, h2⟩ := ih (n + 1) (by omega)
    rw [List.replicate_succ]
    have hs : Cursor.step ⟨ws, n⟩ .get = (⟨ws, n + 1⟩, .name (some ws[n])) := by
      simp [Cursor.step, hlt]
    refine ⟨?_, ?_⟩
    · simp only [Cursor.run, hs]; exact h1
    · simp only [Cursor.run, hs, h2]
      rw [List.drop_eq_getElem_cons hlt]; rfl

/-- **C48.** After adding any number of names to a fresh list, iterating delivers exactly them, in order, then
`NULL`, and iterating again delivers them again. -/
theorem C48_iterating_delivers_everything (ws : List Bytes) :
    ∃ l, flRun filelistInit (ws.map .put ++ (List.replicate (ws.length + 1) .get ++ List.replicate (ws.length + 1) .get)) =
      .ok (l, List.replicate ws.length .done ++ (ws.map (FlAns.name ∘ some) ++ [.name none] ++
        (ws.map (FlAns.name ∘ some) ++ [.name none]))) := by
  obtain ⟨l, h⟩ := C48_filelist_is_a_list_with_a_cursor
    (ws.map .put ++ (List.replicate (ws.length + 1) .get ++ List.replicate (ws.length + 1) .get))
  refine ⟨l, h.trans ?_⟩
  congr 2
  obtain ⟨p1, p2, p3⟩ := cursor_puts ws ⟨[], 0⟩
  have hc : (Cursor.run ⟨[], 0⟩ (ws.map .put)).1 = ⟨ws, 0⟩ := by
    cases ws with
    | nil => rfl
    | cons w ws =>
      have := p2 (by simp)
      cases hx : (Cursor.run ⟨[], 0⟩ ((w :: ws).map .put)).1 with
      | mk a b => rw [hx] at p1 this; simp at p1 this; rw [p1, this]
  rw [(cursor_run_append _ _ _).2, p3, hc, (cursor_run_append _ _ _).2]
  obtain ⟨g1, g2⟩ := cursor_gets ws ws.length 0 (by omega)
  rw [g1, g2]
  simp

/-- A case: more names than one chunk holds. -/
example : ((flRun filelistInit ((List.range 20).map (fun n => FlOp.put [n.toUInt8]) ++ [.get, .get, .count])).bind
    fun p => .ok (p.2.drop 20)) = .ok [.name (some [0]), .name (some [1]), .number 20] := by decide +kernel

end Detox
