import Verif.Lemmas.Tree
import Verif.Spec.Together

/-!
# The part of the file system one process works on
-/

set_option autoImplicit false

namespace Detox
open Spec

/-! ### The names that are looked up when a path is followed -/

/-- Compare `FS.uses`: with the names. -/
def asks (fs : FS) : Nat → Ino → List Bytes → List (Ino × Bytes)
  | _, _, [] => []
  | 0, _, _ :: _ => []
  | fuel + 1, d, n :: rest =>
    (if n = [0x2E] ∨ n = [0x2E, 0x2E] then [] else [(d, n)]) ++
    match fs.step d n with
    | none => []
    | some i =>
      if fs.kind i = .link then asks fs fuel (fs.start d (fs.target i)) (comps (fs.target i) ++ rest)
      else asks fs fuel i rest

theorem uses_asks (fs : FS) : ∀ (fuel : Nat) (s : Ino) (cs : List Bytes), fs.uses fuel s cs = (asks fs fuel s cs).map Prod.fst
  | fuel, s, [] => by cases fuel <;> simp [FS.uses, asks]
  | 0, s, c :: cs => by simp [FS.uses, asks]
  | fuel + 1, s, c :: cs => by
    rw [FS.uses, asks, List.map_append]
    congr 1
    · split <;> rfl
    · cases fs.step s c with
      | none => rfl
      | some j =>
        simp only
        split
        · exact uses_asks fs fuel _ _
        · exact uses_asks fs fuel _ _

/-- A path leads where it did if the names it looks up are the same. -/
theorem walk_asks {fs fs' : FS} (hs : SameBut fs fs') : ∀ (fuel : Nat) (s : Ino) (cs : List Bytes),
    (∀ a ∈ asks fs fuel s cs, fs'.find a.1 a.2 = fs.find a.1 a.2) →
    fs'.walk fuel s cs = fs.walk fuel s cs ∧ asks fs' fuel s cs = asks fs fuel s cs
  | fuel, s, [], _ => by cases fuel <;> simp [FS.walk, asks]
  | 0, s, c :: cs, _ => by simp [FS.walk, asks]
  | fuel + 1, s, c :: cs, h => by
    rw [asks] at h
    have hst : fs'.step s c = fs.step s c := fsStep_same hs fun hc => h (s, c) (by simp [hc])
    rw [FS.walk, FS.walk, asks, asks, hst]
    cases hx : fs.step s c with
    | none => simp
    | some j =>
      simp only [hx] at h ⊢
      have hk : fs'.kind = fs.kind := by obtain ⟨es, rfl⟩ := hs; rfl
      have ht : fs'.target = fs.target := by obtain ⟨es, rfl⟩ := hs; rfl
      have hstart : fs'.start = fs.start := by obtain ⟨es, rfl⟩ := hs; rfl
      rw [hk, ht, hstart]
      by_cases hj : fs.kind j = .link
      · simp only [hj, if_true] at h ⊢
        obtain ⟨a, b⟩ := walk_asks hs fuel _ _ (fun x hx => h x (List.mem_append_right _ hx))
        exact ⟨a, by rw [b]⟩
      · simp only [hj, if_false] at h ⊢
        obtain ⟨a, b⟩ := walk_asks hs fuel _ _ (fun x hx => h x (List.mem_append_right _ hx))
        exact ⟨a, by rw [b]⟩

theorem asks_snoc (fs : FS) (n : Bytes) (i : Ino) (hk : fs.kind i ≠ .link) : ∀ (fuel : Nat) (s : Ino) (cs : List Bytes) (d : Ino),
    fs.walk fuel s cs = some d → fs.step d n = some i →
    ∀ x ∈ asks fs (fuel + 1) s (cs ++ [n]), x ∈ asks fs fuel s cs ∨ x = (d, n)
  | fuel, s, [], d, h, hs => by
    have : d = s := by cases fuel <;> simp [FS.walk] at h <;> exact h.symm
    subst this
    intro x hx
    rw [List.nil_append, asks, hs] at hx
    simp only [hk, if_false] at hx
    have hnil : asks fs fuel i [] = [] := by cases fuel <;> rfl
    rw [hnil, List.append_nil] at hx
    split at hx
    · cases hx
    · exact .inr (List.mem_singleton.1 hx)
  | 0, s, c :: cs, d, h, hs => by simp [FS.walk] at h
  | fuel + 1, s, c :: cs, d, h, hs => by
    intro x hx
    rw [FS.walk] at h
    rw [List.cons_append, asks] at hx
    rw [asks]
    cases hst : fs.step s c with
    | none => simp [hst] at h
    | some j =>
      simp only [hst] at h hx ⊢
      by_cases hj : fs.kind j = .link
      · simp only [hj, if_true] at h hx ⊢
        rw [← List.append_assoc] at hx
        rcases List.mem_append.1 hx with hx | hx
        · exact .inl (List.mem_append_left _ hx)
        · rcases asks_snoc fs n i hk fuel _ _ d h hs x hx with h1 | h1
          · exact .inl (List.mem_append_right _ h1)
          · exact .inr h1
      · simp only [hj, if_false] at h hx ⊢
        rcases List.mem_append.1 hx with hx | hx
        · exact .inl (List.mem_append_left _ hx)
        · rcases asks_snoc fs n i hk fuel _ _ d h hs x hx with h1 | h1
          · exact .inl (List.mem_append_right _ h1)
          · exact .inr h1

/-! ### What belongs to a process -/

/-- Where everything starts. -/
structure Ground where
  fs : FS
  depth : Ino → Nat
  slack : Nat
  level : Nat

variable {B : Ground} {T : Renamer}

/-- An argument has this name, in this directory. -/
def NameSlot (B : Ground) (T : Renamer) (x : Ino) (n : Bytes) : Prop :=
  ∃ f ∈ T.args, ∃ dir name, f = dir ++ name ∧ (dir = [] ∨ ∃ d, dir = d ++ [0x2F]) ∧ PlainName name ∧ B.fs.Leads B.depth B.slack B.level dir x ∧
    B.fs.denied f = false ∧ B.fs.norm x n = B.fs.norm x name

/-- An argument has, or should have, this name, in this directory. -/
def Slot (B : Ground) (T : Renamer) (x : Ino) (n : Bytes) : Prop :=
  ∃ f ∈ T.args, ∃ dir name m, f = dir ++ name ∧ (dir = [] ∨ ∃ d, dir = d ++ [0x2F]) ∧ PlainName name ∧ B.fs.Leads B.depth B.slack B.level dir x ∧
    PlainName m ∧ (m = name ∨ T.R name m) ∧ B.fs.denied (dir ++ m) = false ∧ B.fs.norm x n = B.fs.norm x m

def Mine (B : Ground) (T : Renamer) (x : Ino) (n : Bytes) : Prop := B.fs.Inside T.args x ∨ Slot B T x n

def Own (B : Ground) (T : Renamer) (x : Ino) (n : Bytes) : Prop := B.fs.Inside T.args x ∨ NameSlot B T x n

theorem NameSlot.slot {x : Ino} {n : Bytes} (h : NameSlot B T x n) : Slot B T x n := by
  obtain ⟨f, h1, dir, name, h2, h3, h4, h5, h6, h7⟩ := h
  exact ⟨f, h1, dir, name, name, h2, h3, h4, h5, h4, .inl rfl, by rw [← h2]; exact h6, h7⟩

theorem Own.mine {x : Ino} {n : Bytes} (h : Own B T x n) : Mine B T x n := h.imp id NameSlot.slot

theorem Slot.deep {x : Ino} {n : Bytes} (h : Slot B T x n) : B.level ≤ B.depth x := by
  obtain ⟨f, _, dir, name, m, _, _, _, h, _⟩ := h
  exact h.deep

/-- What a process may rely on where it starts. -/
structure Fits (B : Ground) (T : Renamer) : Prop where
  tree : B.fs.Tree B.depth B.slack
  steady : ∀ f ∈ T.args, B.fs.Steady B.depth B.slack B.level f
  nul : ∀ f ∈ T.args, (0 : Byte) ∉ f

theorem inside_deep (hB : Fits B T) {d : Ino} (h : B.fs.Inside T.args d) : B.level ≤ B.depth d := by
  induction h with
  | arg f d hf hl hk =>
    cases hB.steady f hf with
    | name dir name x h1 h2 h3 h4 h5 h6 h7 =>
      have hden : B.fs.denied f = false := by
        cases hx : B.fs.denied f with
        | false => rfl
        | true =>
          unfold FS.lookup at hl
          rw [if_pos (.inr hx)] at hl
          cases hl
      have hn : PlainName name := ⟨h4, h3, h5, h6⟩
      rw [h1] at hl hden
      rw [lookup_leads hB.tree h2 hn h7 hden] at hl
      obtain ⟨e, he, rfl⟩ := Option.map_eq_some_iff.1 hl
      obtain ⟨he, hed, _⟩ := FS_find_some he
      have := hB.tree.level e he hk
      have := h7.deep
      rw [hed] at *
      omega
    | self dir name d' h1 h2 h3 h4 h5 =>
      rw [lookup_self h5 hl hk]
      exact h5.deep
  | sub e he _ hk ih =>
    have := hB.tree.level e he hk
    omega

theorem Mine.deep (hB : Fits B T) {x : Ino} {n : Bytes} (h : Mine B T x n) : B.level ≤ B.depth x := h.elim (inside_deep hB) Slot.deep

/-! ### One rename -/

theorem sameBut_moved {fs fs' : FS} (h : SameBut fs fs') (e : Entry) (w : Bytes) : SameBut fs (movedFS fs' e w) := h.trans ⟨_, rfl⟩

theorem filter_moved {fs : FS} {e : Entry} {w : Bytes} (d : Ino) :
    (movedFS fs e w).entries.filter (fun y => y.dir = d) = (fs.entries.filter fun y => y.dir = d).map (moveEntry e e.dir w) := by
  unfold movedFS
  simp only [List.filter_map]
  congr 1
  refine List.filter_congr fun y _ => ?_
  simp only [Function.comp_apply, moveEntry]
  split
  · rename_i h; rw [h]
  · rfl

theorem find_filter (fs : FS) (d : Ino) (n : Bytes) :
    fs.find d n = (fs.entries.filter fun y => y.dir = d).find? fun y => fs.norm d y.name = fs.norm d n := by
  unfold FS.find
  rw [List.find?_filter]
  congr 1
  funext y
  simp

theorem namesIn_filter {fs fs' : FS} {d : Ino} (h : fs'.entries.filter (fun y => y.dir = d) = fs.entries.filter fun y => y.dir = d) :
    fs'.namesIn d = fs.namesIn d := by
  unfold FS.namesIn
  rw [h]

/-- What is found in the directory after the entry got another name. -/
theorem moved_find_here {fs : FS} (hu : fs.Unique) {e : Entry} {w : Bytes} (he : e ∈ fs.entries) (hu' : (movedFS fs e w).Unique) (n : Bytes) :
    (movedFS fs e w).find e.dir n =
      if fs.norm e.dir n = fs.norm e.dir w then some ⟨e.dir, w, e.ino⟩
      else if fs.norm e.dir n = fs.norm e.dir e.name then none
      else fs.find e.dir n := by
  have hm : (⟨e.dir, w, e.ino⟩ : Entry) ∈ (movedFS fs e w).entries := (mem_moved he).2 (.inl rfl)
  by_cases h1 : fs.norm e.dir n = fs.norm e.dir w
  · rw [if_pos h1]
    cases hf : (movedFS fs e w).find e.dir n with
    | none => exact absurd ⟨rfl, h1.symm⟩ (FS_find_none hf _ hm)
    | some y =>
      obtain ⟨q1, q2, q3⟩ := FS_find_some hf
      rw [hu'.eq q1 hm q2 (by rw [q2, q3]; exact h1)]
  · rw [if_neg h1]
    by_cases h2 : fs.norm e.dir n = fs.norm e.dir e.name
    · rw [if_pos h2]
      cases hf : (movedFS fs e w).find e.dir n with
      | none => rfl
      | some y =>
        obtain ⟨q1, q2, q3⟩ := FS_find_some hf
        rcases (mem_moved he).1 q1 with rfl | ⟨a, b⟩
        · exact absurd q3.symm h1
        · have q3 : fs.norm e.dir y.name = fs.norm e.dir n := q3
          exact absurd (hu.eq a he q2 (by rw [q2, q3, h2])) b
    · rw [if_neg h2]
      cases hf : fs.find e.dir n with
      | none =>
        cases hf' : (movedFS fs e w).find e.dir n with
        | none => rfl
        | some y =>
          obtain ⟨q1, q2, q3⟩ := FS_find_some hf'
          rcases (mem_moved he).1 q1 with rfl | ⟨a, b⟩
          · exact absurd q3.symm h1
          · exact absurd ⟨q2, q3⟩ (FS_find_none hf y a)
      | some z =>
        obtain ⟨q1, q2, q3⟩ := FS_find_some hf
        have hz : z ≠ e := by rintro rfl; exact h2 q3.symm
        have hm' : z ∈ (movedFS fs e w).entries := (mem_moved he).2 (.inr ⟨q1, hz⟩)
        cases hf' : (movedFS fs e w).find e.dir n with
        | none => exact absurd ⟨q2, q3⟩ (FS_find_none hf' z hm')
        | some y =>
          obtain ⟨r1, r2, r3⟩ := FS_find_some hf'
          rw [hu'.eq r1 hm' (r2.trans q2.symm) (by rw [r2, r3, q2]; exact q3.symm)]

theorem moved_names (fs : FS) (e : Entry) (w : Bytes) (i : Ino) : (movedFS fs e w).names i = fs.names i := by
  rw [FS_names_eq, FS_names_eq]
  unfold movedFS
  rw [map_moveEntry_ino]

theorem moved_place {fs : FS} {e y : Entry} {w : Bytes} {k : Nat} (h : fs.entries[k]? = some y) :
    (movedFS fs e w).entries[k]? = some (moveEntry e e.dir w y) := by
  unfold movedFS
  rw [List.getElem?_map, h]
  rfl

theorem moveEntry_same {e y : Entry} {w : Bytes} : (moveEntry e e.dir w y).dir = y.dir ∧ (moveEntry e e.dir w y).ino = y.ino := by
  unfold moveEntry
  split
  · rename_i h; rw [h]; exact ⟨rfl, rfl⟩
  · exact ⟨rfl, rfl⟩

/-! ### What a process has done, and what all have done -/

/-- The names as they would be without the others. -/
structure View (B : Ground) (T : Renamer) (v : FS) : Prop where
  same : SameBut B.fs v
  tree : v.Tree B.depth B.slack
  low : ∀ x, B.depth x < B.level → ∀ n, v.find x n = B.fs.find x n
  origin : ∀ e ∈ v.entries, ∃ e0 ∈ B.fs.entries, e0.dir = e.dir ∧ e0.ino = e.ino
  moved : ∀ e ∈ v.entries, e ∈ B.fs.entries ∨ (B.fs.kind e.ino = .dir → B.fs.Inside T.args e.ino)

theorem View.kind {v : FS} (h : View B T v) : v.kind = B.fs.kind := h.same.kind
theorem View.denied {v : FS} (h : View B T v) : v.denied = B.fs.denied := h.same.denied
theorem View.norm {v : FS} (h : View B T v) : v.norm = B.fs.norm := by obtain ⟨es, h⟩ := h.same; rw [h]

theorem View.closed {v : FS} (h : View B T v) {e : Entry} (he : e ∈ v.entries) (hd : B.fs.Inside T.args e.dir) (hk : B.fs.kind e.ino = .dir) :
    B.fs.Inside T.args e.ino := by
  obtain ⟨e0, h1, h2, h3⟩ := h.origin e he
  rw [← h2] at hd
  rw [← h3] at hk ⊢
  exact .sub e0 h1 hd hk

/-- The entry was his from the beginning. -/
def Owns (B : Ground) (T : Renamer) (e : Entry) : Prop := Own B T e.dir e.name

/-- `v` is the view of a process, `g` is how it really is: that is the same as far as the process is concerned. -/
structure AgreeOn (B : Ground) (T : Renamer) (v g : FS) : Prop where
  same : SameBut v g
  tree : g.Tree B.depth B.slack
  low : ∀ x, B.depth x < B.level → ∀ n, g.find x n = v.find x n
  inside : ∀ d, B.fs.Inside T.args d → g.entries.filter (fun y => y.dir = d) = v.entries.filter fun y => y.dir = d
  slots : ∀ x n, Slot B T x n → g.find x n = v.find x n
  names : ∀ i, g.names i = v.names i
  places : ∀ (k : Nat) (e0 : Entry), B.fs.entries[k]? = some e0 → ∃ eg ev, g.entries[k]? = some eg ∧ v.entries[k]? = some ev ∧ eg.dir = e0.dir ∧ eg.ino = e0.ino ∧
    (Owns B T e0 → eg = ev ∧ Mine B T ev.dir ev.name) ∧ (¬ Owns B T e0 → ev = e0)

theorem AgreeOn.norm {v g : FS} (h : AgreeOn B T v g) : g.norm = v.norm := by obtain ⟨es, h⟩ := h.same; rw [h]

theorem AgreeOn.mine {v g : FS} (h : AgreeOn B T v g) {x : Ino} {n : Bytes} (hm : Mine B T x n) : g.find x n = v.find x n := by
  rcases hm with hm | hm
  · rw [find_filter, find_filter, h.inside x hm, h.norm]
  · exact h.slots x n hm

/-- Names that are the same for the process and for all. -/
def Clear (B : Ground) (T : Renamer) (a : Ino × Bytes) : Prop := B.depth a.1 < B.level ∨ Mine B T a.1 a.2

theorem AgreeOn.clear {v g : FS} (h : AgreeOn B T v g) {a : Ino × Bytes} (ha : Clear B T a) : g.find a.1 a.2 = v.find a.1 a.2 :=
  ha.elim (fun ha => h.low _ ha _) h.mine

/-- What a process does to the names. -/
inductive Touch (B : Ground) (T : Renamer) (g : FS) : FS → Prop
  | not : Touch B T g g
  | moved (e : Entry) (w : Bytes) : e ∈ g.entries → (g.find e.dir w = none ∨ g.find e.dir w = some e) → Owns B T e → Mine B T e.dir w →
      Touch B T g (movedFS g e w)

theorem Touch.tree {g g' : FS} (h : Touch B T g g') (ht : g.Tree B.depth B.slack) : g'.Tree B.depth B.slack := by
  cases h with
  | not => exact ht
  | moved e w h1 h2 _ _ => exact moved_tree ht h1 h2

/-- The same rename, for the process and for all. -/
theorem AgreeOn.move {v g : FS} (hB : Fits B T) (h : AgreeOn B T v g) (hv : v.Tree B.depth B.slack) {e : Entry} {w : Bytes} (he : e ∈ v.entries)
    (hg : e ∈ g.entries) (hf : v.find e.dir w = none ∨ v.find e.dir w = some e) (ho : Owns B T e) (hw : Mine B T e.dir w) :
    AgreeOn B T (movedFS v e w) (movedFS g e w) ∧ Touch B T g (movedFS g e w) := by
  have hfg : g.find e.dir w = none ∨ g.find e.dir w = some e := by rw [h.mine hw]; exact hf
  have tv := moved_tree hv he hf
  have tg := moved_tree h.tree hg hfg
  have deep : B.level ≤ B.depth e.dir := hw.deep hB
  refine ⟨⟨?_, tg, fun x hx n => ?_, fun d hd => ?_, fun x n hs => ?_, fun i => ?_, fun k e0 hk => ?_⟩, .moved e w hg hfg ho hw⟩
  · obtain ⟨es, h⟩ := h.same
    rw [h]
    exact ⟨_, rfl⟩
  · have : x ≠ e.dir := by rintro rfl; omega
    rw [moved_find this, moved_find this]
    exact h.low x hx n
  · rw [filter_moved, filter_moved, h.inside d hd]
  · by_cases hx : x = e.dir
    · subst hx
      rw [moved_find_here h.tree.unique hg tg.unique, moved_find_here hv.unique he tv.unique, h.norm, h.slots _ n hs]
    · rw [moved_find hx, moved_find hx]
      exact h.slots x n hs
  · rw [moved_names, moved_names]
    exact h.names i
  · obtain ⟨eg, ev, h1, h2, h3, h4, h5, h6⟩ := h.places k e0 hk
    refine ⟨_, _, moved_place h1, moved_place h2, moveEntry_same.1.trans h3, moveEntry_same.2.trans h4, fun hq => ?_, fun hq => ?_⟩
    · obtain ⟨h7, h8⟩ := h5 hq
      refine ⟨by rw [h7], ?_⟩
      unfold moveEntry
      split
      · exact hw
      · exact h8
    · rw [h6 hq]
      unfold moveEntry
      split
      · rename_i h; subst h; exact absurd ho hq
      · rfl

theorem Mine.norm {x : Ino} {n m : Bytes} (h : Mine B T x n) (hn : B.fs.norm x m = B.fs.norm x n) : Mine B T x m := by
  rcases h with h | ⟨f, h1, dir, name, k, h2, h3, h4, h5, h6, h7, h8, h9⟩
  · exact .inl h
  · exact .inr ⟨f, h1, dir, name, k, h2, h3, h4, h5, h6, h7, h8, hn.trans h9⟩

/-- What one process does is nothing to another. -/
theorem AgreeOn.other {v g g' : FS} {U : Renamer} (hU : Fits B U) (h : AgreeOn B T v g) (hn : v.norm = B.fs.norm) (ht : Touch B U g g')
    (ha : ∀ x n, Mine B U x n → ¬ Mine B T x n) : AgreeOn B T v g' ∧ ∀ d, B.fs.Inside T.args d → g'.namesIn d = g.namesIn d := by
  cases ht with
  | not => exact ⟨h, fun _ _ => rfl⟩
  | moved e w he hf ho hw =>
    have tg := moved_tree h.tree he hf
    have deep : B.level ≤ B.depth e.dir := hw.deep hU
    have hno := ha _ _ hw
    have inside : ∀ d, B.fs.Inside T.args d → (movedFS g e w).entries.filter (fun y => y.dir = d) = g.entries.filter fun y => y.dir = d := by
      intro d hd
      rw [filter_moved]
      conv => rhs; rw [← List.map_id' (g.entries.filter fun y => y.dir = d)]
      refine List.map_congr_left fun y hy => ?_
      unfold moveEntry
      split
      · rename_i h
        subst h
        have : y.dir = d := by simpa using (List.mem_filter.1 hy).2
        rw [← this] at hd
        exact absurd (.inl hd) hno
      · rfl
    refine ⟨⟨?_, tg, fun x hx n => ?_, fun d hd => ?_, fun x n hs => ?_, fun i => ?_, fun k e0 hk => ?_⟩, fun d hd => namesIn_filter (inside d hd)⟩
    · obtain ⟨es, h⟩ := h.same
      rw [h]
      exact ⟨_, rfl⟩
    · have : x ≠ e.dir := by rintro rfl; omega
      rw [moved_find this]
      exact h.low x hx n
    · rw [inside d hd]
      exact h.inside d hd
    · by_cases hx : x = e.dir
      · subst hx
        have gn : g.norm = B.fs.norm := h.norm.trans hn
        rw [moved_find_here h.tree.unique he tg.unique, if_neg, if_neg, h.slots _ n hs]
        · intro hq
          rw [gn] at hq
          exact ha _ _ ho.mine (Mine.norm (.inr hs) hq.symm)
        · intro hq
          rw [gn] at hq
          exact hno (Mine.norm (.inr hs) hq.symm)
      · rw [moved_find hx]
        exact h.slots x n hs
    · rw [moved_names]
      exact h.names i
    · obtain ⟨eg, ev, h1, h2, h3, h4, h5, h6⟩ := h.places k e0 hk
      refine ⟨_, _, moved_place h1, h2, moveEntry_same.1.trans h3, moveEntry_same.2.trans h4, fun hq => ?_, h6⟩
      obtain ⟨h7, h8⟩ := h5 hq
      refine ⟨?_, h8⟩
      rw [← h7]
      unfold moveEntry
      split
      · rename_i h
        subst h
        rw [← h7] at h8
        exact absurd h8 (ha _ _ ho.mine)
      · rfl

/-- A rename of the process itself. -/
theorem View.move {v : FS} (hB : Fits B T) (h : View B T v) {e : Entry} {w : Bytes} (he : e ∈ v.entries)
    (hf : v.find e.dir w = none ∨ v.find e.dir w = some e) (hw : Mine B T e.dir w) (hk : B.fs.kind e.ino = .dir → B.fs.Inside T.args e.ino) :
    View B T (movedFS v e w) := by
  have deep : B.level ≤ B.depth e.dir := hw.deep hB
  refine ⟨sameBut_moved h.same e w, moved_tree h.tree he hf, fun x hx n => ?_, fun y hy => ?_, fun y hy => ?_⟩
  · have : x ≠ e.dir := by rintro rfl; omega
    rw [moved_find this]
    exact h.low x hx n
  · rcases (mem_moved he).1 hy with rfl | ⟨h1, _⟩
    · exact h.origin e he
    · exact h.origin y h1
  · rcases (mem_moved he).1 hy with rfl | ⟨h1, _⟩
    · exact .inr hk
    · exact h.moved y h1

/-! ### Paths -/

/-- The path leads to the directory, and the names looked up on the way are those of the process, or far above. -/
structure Way (B : Ground) (T : Renamer) (v : FS) (p : Bytes) (d : Ino) : Prop where
  leads : v.Leads B.depth B.slack (B.depth d) p d
  clear : ∀ a ∈ asks v (B.depth d + B.slack) (v.start v.cwd p) (comps p), Clear B T a

theorem leads_asks {fs fs' : FS} (hs : SameBut fs fs') {p : Bytes} {d : Ino} {level : Nat} (h : fs.Leads B.depth B.slack level p d)
    (hf : ∀ a ∈ asks fs (B.depth d + B.slack) (fs.start fs.cwd p) (comps p), fs'.find a.1 a.2 = fs.find a.1 a.2) :
    fs'.Leads B.depth B.slack level p d ∧ asks fs' (B.depth d + B.slack) (fs'.start fs'.cwd p) (comps p) = asks fs (B.depth d + B.slack) (fs.start fs.cwd p) (comps p) := by
  have hstart : fs'.start fs'.cwd p = fs.start fs.cwd p := by obtain ⟨es, rfl⟩ := hs; rfl
  have hk : fs'.kind = fs.kind := by obtain ⟨es, rfl⟩ := hs; rfl
  obtain ⟨a, b⟩ := walk_asks hs _ _ _ hf
  refine ⟨⟨by rw [hstart, a]; exact h.walk, ?_, by rw [hk]; exact h.kind, h.deep⟩, by rw [hstart, b]⟩
  have := h.uses
  rw [uses_asks] at this
  rw [hstart, uses_asks, b]
  exact this

theorem Way.agree {v g : FS} {p : Bytes} {d : Ino} (h : Way B T v p d) (ha : AgreeOn B T v g) : g.Leads B.depth B.slack (B.depth d) p d :=
  (leads_asks ha.same h.leads fun a hm => ha.clear (h.clear a hm)).1

theorem Way.kept {v v' : FS} {p : Bytes} {d : Ino} (h : Way B T v p d) (hs : SameBut v v') (hf : ∀ x, B.depth x < B.depth d → ∀ n, v'.find x n = v.find x n) :
    Way B T v' p d := by
  have hu := h.leads.uses
  rw [uses_asks] at hu
  obtain ⟨h1, h2⟩ := leads_asks hs h.leads fun a hm => hf _ (hu _ (List.mem_map_of_mem hm)) _
  exact ⟨h1, by rw [h2]; exact h.clear⟩

theorem Way.slash {v : FS} {p : Bytes} {d : Ino} (hp : p ≠ []) (h : Way B T v p d) : Way B T v (p ++ [0x2F]) d := by
  refine ⟨leads_slash hp h.leads, ?_⟩
  rw [comps_snoc_slash, start_snoc_slash v _ hp]
  exact h.clear

theorem Way.entry {v : FS} {dir n : Bytes} {d : Ino} {e : Entry} (ht : v.Tree B.depth B.slack) (h : Way B T v dir d) (hd : dir = [] ∨ ∃ d, dir = d ++ [0x2F])
    (hn : PlainName n) (hm : Mine B T d n) (hf : v.find d n = some e) (hk : v.kind e.ino = .dir) : Way B T v (dir ++ n) e.ino := by
  refine ⟨leads_entry ht hd hn h.leads hf hk, ?_⟩
  obtain ⟨h1, h2, h3⟩ := FS_find_some hf
  have hlev := ht.level e h1 hk
  rw [h2] at hlev
  have hst : v.step d n = some e.ino := by rw [FS_step_find h.leads.kind hn.dot hn.dots, hf]; rfl
  have hnl : v.kind e.ino ≠ .link := by rw [hk]; intro hx; cases hx
  have ha := asks_snoc v n e.ino hnl _ _ _ _ h.leads.walk hst
  have harith : B.depth e.ino + B.slack = B.depth d + B.slack + 1 := by omega
  rw [start_dir_append v _ hn.slash, comps_dir_name hd hn.nonempty hn.slash, harith]
  intro a hx
  rcases ha a hx with hx | rfl
  · exact h.clear a hx
  · exact .inr hm

theorem View.way {v : FS} (h : View B T v) {p : Bytes} {d : Ino} (hl : B.fs.Leads B.depth B.slack B.level p d) : Way B T v p d := by
  have hu := hl.uses
  rw [uses_asks] at hu
  obtain ⟨h1, h2⟩ := leads_asks h.same hl fun a hm => h.low _ (hu _ (List.mem_map_of_mem hm)) _
  exact ⟨leads_level h1, fun a hm => .inl (hu _ (List.mem_map_of_mem (by rw [← h2]; exact hm)))⟩

/-! ### What paths lead to -/

theorem lookup_denied {fs : FS} {p : Bytes} (h : fs.denied p = true) : fs.lookup p = none := by
  unfold FS.lookup
  rw [if_pos (.inr h)]

theorem lstat_of_lookup {v g : FS} (ha : AgreeOn B T v g) {p : Bytes} (h : g.lookup p = v.lookup p) : g.lstat p = v.lstat p := by
  unfold FS.lstat
  rw [h, ha.same.kind]
  have hl : g.dirLinks = v.dirLinks := by obtain ⟨es, h⟩ := ha.same; rw [h]
  rw [hl]
  congr 1
  funext i
  rw [ha.names]

theorem lookup_slash_leads {fs : FS} {d : Bytes} {x : Ino} {level : Nat} (ht : fs.Tree B.depth B.slack) (hden : fs.denied (d ++ [0x2F]) = false)
    (h : fs.Leads B.depth B.slack level (d ++ [0x2F]) x) : fs.lookup (d ++ [0x2F]) = some x := by
  unfold FS.lookup
  rw [if_neg (by simp [hden]), if_pos (by simp [endsInSlash]), walk_more fs _ _ _ _ _ h.walk (Nat.le_of_lt (ht.bound x))]
  simp only
  rw [if_pos h.kind]

theorem lookup_dots_leads {fs : FS} {dir n : Bytes} {x : Ino} {level : Nat} (ht : fs.Tree B.depth B.slack) (hd : dir = [] ∨ ∃ d, dir = d ++ [0x2F]) (hne : n ≠ [])
    (hs : (0x2F : Byte) ∉ n) (hden : fs.denied (dir ++ n) = false) (h : fs.Leads B.depth B.slack level dir x) : fs.lookup (dir ++ n) = fs.step x n := by
  unfold FS.lookup
  rw [if_neg (by simp [hne, hden]), endsInSlash_dir_name hne hs, dirOf_leads ht hd hne hs h, comps_dir_name hd hne hs]
  simp

/-- A name in a known directory. -/
theorem lookup_agree {v g : FS} (hv : v.Tree B.depth B.slack) (ha : AgreeOn B T v g) {dir n : Bytes} {x : Ino} (hd : dir = [] ∨ ∃ d, dir = d ++ [0x2F])
    (h : Way B T v dir x) (hs : (0x2F : Byte) ∉ n) (hm : PlainName n → v.denied (dir ++ n) = false → Mine B T x n) : g.lookup (dir ++ n) = v.lookup (dir ++ n) := by
  have hden : g.denied = v.denied := ha.same.denied
  have hl := h.agree ha
  cases hdn : v.denied (dir ++ n) with
  | true => rw [lookup_denied hdn, lookup_denied (by rw [hden]; exact hdn)]
  | false =>
    by_cases hp : PlainName n
    · rw [lookup_leads hv hd hp h.leads hdn, lookup_leads ha.tree hd hp hl (by rw [hden]; exact hdn), ha.mine (hm hp hdn)]
    · by_cases hne : n = []
      · subst hne
        rw [List.append_nil] at *
        rcases hd with rfl | ⟨d, rfl⟩
        · simp [FS.lookup]
        · rw [lookup_slash_leads hv hdn h.leads, lookup_slash_leads ha.tree (by rw [hden]; exact hdn) hl]
      · have hdots : n = [0x2E] ∨ n = [0x2E, 0x2E] := by
          by_cases h1 : n = [0x2E]
          · exact .inl h1
          · by_cases h2 : n = [0x2E, 0x2E]
            · exact .inr h2
            · exact absurd ⟨hne, hs, h1, h2⟩ hp
        rw [lookup_dots_leads hv hd hne hs hdn h.leads, lookup_dots_leads ha.tree hd hne hs (by rw [hden]; exact hdn) hl]
        exact fsStep_same ha.same fun h => absurd hdots h

end Detox
