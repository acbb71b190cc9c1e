import Verif.Lemmas.ReadTable
import Verif.Props.ParseTable
import Verif.Spec.Legacy

/-!
# The legacy tables, read
-/

set_option autoImplicit false

namespace Detox
open Spec

theorem effectiveDefault_append (a b : List Section) (d : Option Bytes) :
    effectiveDefault (a ++ b) d = effectiveDefault b (effectiveDefault a d) := by
  induction a generalizing d with
  | nil => rfl
  | cons s a ih => cases s <;> exact ih _

theorem effective_notes {α : Type} (locale : Bytes) (ls : List α) (d : Option Bytes) :
    effectiveRows locale (ls.map fun _ => Section.note) = [] ∧ effectiveDefault (ls.map fun _ => Section.note) d = d := by
  induction ls with
  | nil => exact ⟨rfl, rfl⟩
  | cons l ls ih => exact ih

/-- A block with its lines. -/
theorem block_file {s e : Nat × Nat} {ps : List (List (Nat × Nat))} {post : List (Nat × Nat)} {secs : List Section}
    (hs : KeywordLine kwStart (lineOf s)) (hps : (ps.all fun p => (readBody p).isSome) = true) (he : KeywordLine kwEnd (lineOf e))
    (hpost : FileLines (post.map lineOf) secs) :
    FileLines ((s :: (ps.flatten ++ e :: post)).map lineOf) (.block ((ps.map partRows).flatten.map rowOf) :: secs) := by
  have := FileLines.cons _ _ _ _ (.block _ _ _ _ hs (parts_entries hps) he) hpost
  simpa using this

theorem langBlock_file {s e : Nat × Nat} {lang : Bytes} {ps : List (List (Nat × Nat))} {post : List (Nat × Nat)} {secs : List Section}
    (hs : KeywordWordLine kwStart (lineOf s) lang) (hps : (ps.all fun p => (readBody p).isSome) = true) (he : KeywordLine kwEnd (lineOf e))
    (hpost : FileLines (post.map lineOf) secs) :
    FileLines ((s :: (ps.flatten ++ e :: post)).map lineOf) (.langBlock lang ((ps.map partRows).flatten.map rowOf) :: secs) := by
  have := FileLines.cons _ _ _ _ (.langBlock _ _ _ _ _ hs (parts_entries hps) he) hpost
  simpa using this

theorem legacy_start {l : Nat × Nat} (h : lineOf l = lit "start") : KeywordLine kwStart (lineOf l) := by
  rw [h]; exact .mk [] (lit "start") [] (by decide +kernel) (by decide +kernel) (by decide +kernel)

theorem legacy_end {l : Nat × Nat} (h : lineOf l = lit "end") : KeywordLine kwEnd (lineOf l) := by
  rw [h]; exact .mk [] (lit "end") [] (by decide +kernel) (by decide +kernel) (by decide +kernel)

theorem legacy_german {l : Nat × Nat} (h : lineOf l = lit "start\t\tde") : KeywordWordLine kwStart (lineOf l) (lit "de") := by
  rw [h]
  exact .mk [] (lit "start") (lit "\t\t") (lit "de") (lit "de") (by decide +kernel) (by decide +kernel) (by decide +kernel) (by decide +kernel)
    (.bare 0x64 (lit "e") [] (by decide +kernel) (by decide +kernel) (by decide +kernel) (Or.inl rfl)) (by decide +kernel)

theorem legacy_default {l : Nat × Nat} (h : lineOf l = lit "default\t\t_") : KeywordWordLine kwDefault (lineOf l) (lit "_") := by
  rw [h]
  exact .mk [] (lit "default") (lit "\t\t") (lit "_") (lit "_") (by decide +kernel) (by decide +kernel) (by decide +kernel) (by decide +kernel)
    (.bare 0x5F [] [] (by decide +kernel) (by decide +kernel) (by decide +kernel) (Or.inl rfl)) (by decide +kernel)

/-- Notes, a default, notes. -/
theorem head_file {a b : List (Nat × Nat)} {l : Nat × Nat} {post : List (Nat × Nat)} {secs : List Section}
    (ha : (a.all fun l => noteN (packedLine l)) = true) (hl : lineOf l = lit "default\t\t_") (hb : (b.all fun l => noteN (packedLine l)) = true)
    (hpost : FileLines (post.map lineOf) secs) :
    FileLines ((a ++ l :: b ++ post).map lineOf) ((a.map fun _ => .note) ++ .dflt (lit "_") :: (b.map fun _ => .note) ++ secs) := by
  have h1 := FileLines.cons [lineOf l] _ _ _ (.dflt _ _ (legacy_default hl)) (FileLines.append (notes_file hb) hpost)
  have h2 := FileLines.append (notes_file ha) h1
  simpa using h2

/-! ## Numbers of rows -/

theorem readBody_length : ∀ {ls : List (Nat × Nat)} {rows : List (Nat × List Nat)}, readBody ls = some rows → rows.length ≤ ls.length
  | [], rows, h => by cases h; exact Nat.le_refl _
  | l :: ls, rows, h => by
    rw [readBody] at h
    cases he : readEntry (packedLine l) with
    | none => rw [he] at h; cases h
    | some e =>
      rw [he] at h
      cases e with
      | none => have := readBody_length h; simp only [List.length_cons]; omega
      | some r =>
        cases hb : readBody ls with
        | none => simp only [hb] at h; cases h
        | some rs =>
          simp only [hb] at h
          cases h
          have := readBody_length hb
          simp only [List.length_cons]; omega

theorem partRows_length (p : List (Nat × Nat)) : (partRows p).length ≤ p.length := by
  unfold partRows
  cases h : readBody p with
  | none => simp
  | some rows => exact readBody_length h

theorem parts_length (ps : List (List (Nat × Nat))) : (ps.map partRows).flatten.length ≤ (ps.map List.length).sum := by
  induction ps with
  | nil => exact Nat.le_refl _
  | cons p ps ih =>
    rw [List.map_cons, List.flatten_cons, List.length_append, List.map_cons, List.sum_cons]
    have := partRows_length p
    omega

theorem packedFile_parts (ps : List (List (Nat × Nat))) :
    (packedFile ps.flatten).length = (ps.map fun p => (p.map fun l => l.1 + 1).sum).sum := by
  rw [packedFile_length]
  induction ps with
  | nil => rfl
  | cons p ps ih => rw [List.flatten_cons, List.map_append, List.sum_append, ih, List.map_cons, List.sum_cons]

/-! ## What is in the rows -/

def printableN (r : Nat × List Nat) : Bool := r.2.all fun c => Nat.ble 32 c && Nat.ble c 126

/-- A part of a body that can be read, with printable rows and good lines. -/
def partOK (p : List (Nat × Nat)) : Bool := (readBody p).isSome && (partRows p).all printableN

theorem printable_row {r : Nat × List Nat} (h : printableN r = true) : Printable (rowOf r).2 := by
  intro c hc
  obtain ⟨x, hx, rfl⟩ := List.mem_map.1 hc
  unfold printableN at h
  rw [List.all_eq_true] at h
  have := h x hx
  simp only [Bool.and_eq_true, Nat.ble_eq] at this
  rw [toNat_small (by omega)]
  exact this

theorem partsOK {ps : List (List (Nat × Nat))} (h : (ps.all partOK) = true) :
    (ps.all fun p => (readBody p).isSome) = true ∧ ∀ r ∈ (ps.map partRows).flatten.map rowOf, Printable r.2 := by
  rw [List.all_eq_true] at h
  constructor
  · rw [List.all_eq_true]
    intro p hp
    have := h p hp
    unfold partOK at this
    rw [Bool.and_eq_true] at this
    exact this.1
  · intro r hr
    obtain ⟨x, hx, rfl⟩ := List.mem_map.1 hr
    obtain ⟨rs, hrs, hx⟩ := List.mem_flatten.1 hx
    obtain ⟨p, hp, rfl⟩ := List.mem_map.1 hrs
    have := h p hp
    unfold partOK at this
    rw [Bool.and_eq_true, List.all_eq_true] at this
    exact printable_row (this.2 x hx)

theorem linesOK {ps : List (List (Nat × Nat))} (h : (ps.all fun p => p.all plainN) = true) : ∀ l ∈ ps.flatten, plainN l = true := by
  rw [List.all_eq_true] at h
  intro l hl
  obtain ⟨p, hp, hl⟩ := List.mem_flatten.1 hl
  exact List.all_eq_true.1 (h p hp) l hl

/-- The rows begin with those for the characters from `k` on up to `~`, each standing for itself. -/
def selfRows : Nat → List (Nat × List Nat) → Bool
  | k, [] => Nat.beq k 127
  | k, r :: rs => Nat.beq k 127 || (Nat.beq r.1 k && (match r.2 with | [c] => Nat.beq c k | _ => false) && selfRows (k + 1) rs)

theorem selfRows_mem : ∀ {rs : List (Nat × List Nat)} {k : Nat}, selfRows k rs = true → ∀ j, k ≤ j → j < 127 → (j, [j]) ∈ rs
  | [], k, h, j, h1, h2 => by rw [selfRows, beqN_iff] at h; omega
  | r :: rs, k, h, j, h1, h2 => by
    obtain ⟨k', d⟩ := r
    rw [selfRows, Bool.or_eq_true, Bool.and_eq_true, Bool.and_eq_true, beqN_iff, beqN_iff] at h
    rcases h with h | ⟨⟨h3, h4⟩, h5⟩
    · omega
    · by_cases e : j = k
      · subst e
        simp only at h3 h4
        subst h3
        split at h4
        · rw [beqN_iff] at h4
          subst h4
          simp
        · cases h4
      · exact List.mem_cons_of_mem _ (selfRows_mem h5 j (by omega) h2)

theorem lastOf_left {a b : List (Nat × Bytes)} {k : Nat} (h : ∀ r ∈ b, r.1 ≠ k) : lastOf (a ++ b) k = lastOf a k := by
  rw [lastOf_append, lastOf_eq_none h]

/-! ## A file with one block, and one with a second block for German -/

/-- The rows of a body. -/
def bodyRows (ps : List (List (Nat × Nat))) : List (Nat × Bytes) := (ps.map partRows).flatten.map rowOf

theorem bodyRows_length (ps : List (List (Nat × Nat))) : (bodyRows ps).length ≤ (ps.map List.length).sum := by
  unfold bodyRows
  rw [List.length_map]
  exact parts_length ps

theorem bodyRows_row {ps : List (List (Nat × Nat))} (h : upwardsParts 0 ps = true) {k : Nat} {d : List Nat} {p : List (Nat × Nat)} (hp : p ∈ ps)
    (hd : (k, d) ∈ partRows p) : lastOf (bodyRows ps) k = some (asBytes d) := by
  obtain ⟨k', hu⟩ := upwardsParts_all h
  exact lastOf_upwards hu (k, d) (List.mem_flatten.2 ⟨_, List.mem_map.2 ⟨p, hp, rfl⟩, hd⟩)

theorem bodyRows_self {ps : List (List (Nat × Nat))} (h : upwardsParts 0 ps = true) (hs : selfRows 32 (ps.map partRows).flatten = true) {c : Byte}
    (h1 : 0x20 ≤ c.toNat) (h2 : c.toNat ≤ 0x7E) : lastOf (bodyRows ps) c.toNat = some [c] := by
  obtain ⟨k', hu⟩ := upwardsParts_all h
  have := lastOf_upwards hu _ (selfRows_mem hs c.toNat h1 (by omega))
  simpa [asBytes, bodyRows] using this

/-- The notes and the default in front of the first block. -/
inductive HeadSays : List (Nat × Nat) → Option Bytes → Prop
  | plain (a : List (Nat × Nat)) : (a.all fun l => noteN (packedLine l)) = true → HeadSays a none
  | dflt (a b : List (Nat × Nat)) (l : Nat × Nat) : (a.all fun l => noteN (packedLine l)) = true → lineOf l = lit "default\t\t_" →
      (b.all fun l => noteN (packedLine l)) = true → HeadSays (a ++ l :: b) (some (lit "_"))

theorem HeadSays.file {h post : List (Nat × Nat)} {d : Option Bytes} (hh : HeadSays h d) {secs : List Section}
    (hpost : FileLines (post.map lineOf) secs) (locale : Bytes) :
    ∃ all, FileLines ((h ++ post).map lineOf) all ∧ effectiveRows locale all = effectiveRows locale secs ∧
      effectiveDefault all none = effectiveDefault secs d := by
  cases hh with
  | plain _ ha =>
    refine ⟨(h.map fun _ => Section.note) ++ secs, ?_, ?_, ?_⟩
    · rw [List.map_append]; exact FileLines.append (notes_file ha) hpost
    · rw [effectiveRows_append, (effective_notes locale h none).1]; rfl
    · rw [effectiveDefault_append, (effective_notes locale h none).2]
  | dflt a b l ha hl hb =>
    refine ⟨_, head_file ha hl hb hpost, ?_, ?_⟩
    · rw [effectiveRows_append, effectiveRows_append, (effective_notes locale a none).1]
      show [] ++ effectiveRows locale (b.map fun _ => Section.note) ++ _ = _
      rw [(effective_notes locale b none).1]; rfl
    · rw [effectiveDefault_append, effectiveDefault_append, (effective_notes locale a none).2]
      show effectiveDefault secs (effectiveDefault (b.map fun _ => Section.note) (some (lit "_"))) = _
      rw [(effective_notes locale b _).2]

theorem says_one {h : List (Nat × Nat)} {d : Option Bytes} {s e : Nat × Nat} {ps : List (List (Nat × Nat))} (hh : HeadSays h d)
    (hs : lineOf s = lit "start") (hps : (ps.all partOK) = true) (he : lineOf e = lit "end")
    (hp : ((h :: [s] :: (ps ++ [[e]])).all fun p => p.all plainN) = true)
    (hn : (ps.map List.length).sum * 6 ≤ ((h :: [s] :: (ps ++ [[e]])).map fun p => (p.map fun l => l.1 + 1).sum).sum) (locale : Bytes) :
    SaysTable locale (packedFile (h :: [s] :: (ps ++ [[e]])).flatten) ⟨lastOf (bodyRows ps), d⟩ := by
  obtain ⟨all, h1, h2, h3⟩ := hh.file (block_file (legacy_start hs) (partsOK hps).1 (legacy_end he) (post := []) .nil) locale
  have er : effectiveRows locale all = bodyRows ps := by
    rw [h2]
    show bodyRows ps ++ [] = _
    rw [List.append_nil]
  refine ⟨_, all, packed_lines (linesOK hp), ?_, ?_, ?_⟩
  · have : (h :: [s] :: (ps ++ [[e]])).flatten = h ++ s :: (ps.flatten ++ [e]) := by simp
    rw [this]
    exact h1
  · rw [er, packedFile_parts]
    have := bodyRows_length ps
    omega
  · rw [er, h3]
    rfl

theorem says_german {h n : List (Nat × Nat)} {d : Option Bytes} {s e s' e' : Nat × Nat} {ps ps' : List (List (Nat × Nat))} (hh : HeadSays h d)
    (hs : lineOf s = lit "start") (hps : (ps.all partOK) = true) (he : lineOf e = lit "end") (hn' : (n.all fun l => noteN (packedLine l)) = true)
    (hs' : lineOf s' = lit "start\t\tde") (hps' : (ps'.all partOK) = true) (he' : lineOf e' = lit "end")
    (hp : ((h :: [s] :: (ps ++ [e] :: n :: [s'] :: (ps' ++ [[e']]))).all fun p => p.all plainN) = true)
    (hn : ((ps.map List.length).sum + (ps'.map List.length).sum) * 6 ≤
      ((h :: [s] :: (ps ++ [e] :: n :: [s'] :: (ps' ++ [[e']]))).map fun p => (p.map fun l => l.1 + 1).sum).sum) (locale : Bytes) :
    SaysTable locale (packedFile (h :: [s] :: (ps ++ [e] :: n :: [s'] :: (ps' ++ [[e']]))).flatten)
      ⟨lastOf (bodyRows ps ++ if LangMatches (lit "de") locale then bodyRows ps' else []), d⟩ := by
  have hg := langBlock_file (legacy_german hs') (partsOK hps').1 (legacy_end he') (post := []) .nil
  have hng := FileLines.append (notes_file hn') hg
  rw [← List.map_append] at hng
  obtain ⟨all, h1, h2, h3⟩ := hh.file (block_file (legacy_start hs) (partsOK hps).1 (legacy_end he) hng) locale
  have er : effectiveRows locale all = bodyRows ps ++ if LangMatches (lit "de") locale then bodyRows ps' else [] := by
    rw [h2]
    show bodyRows ps ++ effectiveRows locale ((n.map fun _ => Section.note) ++ [Section.langBlock (lit "de") (bodyRows ps')]) = _
    rw [effectiveRows_append, (effective_notes locale n none).1]
    show _ ++ ([] ++ ((if LangMatches (lit "de") locale then bodyRows ps' else []) ++ [])) = _
    rw [List.append_nil, List.nil_append]
  refine ⟨_, all, packed_lines (linesOK hp), ?_, ?_, ?_⟩
  · have : (h :: [s] :: (ps ++ [e] :: n :: [s'] :: (ps' ++ [[e']]))).flatten = h ++ s :: (ps.flatten ++ e :: (n ++ s' :: (ps'.flatten ++ [e']))) := by simp
    rw [this]
    exact h1
  · rw [er, packedFile_parts, List.length_append]
    have := bodyRows_length ps
    have := bodyRows_length ps'
    split
    · omega
    · rw [List.length_nil]; omega
  · rw [er, h3]
    show _ = (⟨_, effectiveDefault ((n.map fun _ => Section.note) ++ [Section.langBlock (lit "de") (bodyRows ps')]) d⟩ : TableText)
    rw [effectiveDefault_append, (effective_notes locale n d).2]
    rfl

end Detox
