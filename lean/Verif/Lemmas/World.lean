import Verif.Spec.World
import Verif.Lemmas.FileSystem
import Verif.Props.Closed

/-!
# Lemmas on paths that keep leading to their directory
-/

set_option autoImplicit false

namespace Detox
open Spec

theorem comps_snoc_slash : ∀ (p : Bytes), comps (p ++ [0x2F]) = comps p
  | [] => by simp [comps]
  | c :: p => by
    have ih := comps_snoc_slash p
    by_cases hc : c = 0x2F
    · subst hc
      rw [List.cons_append, comps_slash, comps_slash, ih]
    · cases p with
      | nil => simp [comps, hc]
      | cons d p =>
        rw [List.cons_append, List.cons_append, comps, comps]
        simp only [List.cons_append] at ih
        simp only [hc, if_false, ih]

theorem start_snoc_slash (fs : FS) (c : Ino) {p : Bytes} (h : p ≠ []) : fs.start c (p ++ [0x2F]) = fs.start c p := by
  cases p with
  | nil => exact absurd rfl h
  | cons a p => rfl

theorem walk_more (fs : FS) : ∀ (fuel more : Nat) (s : Ino) (cs : List Bytes) (i : Ino), fs.walk fuel s cs = some i → fuel ≤ more →
    fs.walk more s cs = some i
  | fuel, more, s, [], i, h, _ => by
    cases fuel <;> cases more <;> simpa [FS.walk] using h
  | 0, _, s, c :: cs, i, h, _ => by simp [FS.walk] at h
  | fuel + 1, 0, s, c :: cs, i, h, hl => by omega
  | fuel + 1, more + 1, s, c :: cs, i, h, hl => by
    rw [FS.walk] at h ⊢
    cases hst : fs.step s c with
    | none => simp [hst] at h
    | some j =>
      simp only [hst] at h ⊢
      by_cases hk : fs.kind j = .link
      · simp only [hk, if_true] at h ⊢
        exact walk_more fs fuel more _ _ i h (by omega)
      · simp only [hk, if_false] at h ⊢
        exact walk_more fs fuel more _ _ i h (by omega)

theorem walk_unique {fs : FS} {f1 f2 : Nat} {s : Ino} {cs : List Bytes} {i j : Ino} (h1 : fs.walk f1 s cs = some i)
    (h2 : fs.walk f2 s cs = some j) : i = j := by
  have a := walk_more fs f1 (max f1 f2) s cs i h1 (by omega)
  have b := walk_more fs f2 (max f1 f2) s cs j h2 (by omega)
  rw [a] at b
  exact Option.some.inj b

/-- One more component. -/
theorem walk_snoc (fs : FS) (n : Bytes) (i : Ino) (hk : fs.kind i ≠ .link) : ∀ (fuel : Nat) (s : Ino) (cs : List Bytes) (d : Ino),
    fs.walk fuel s cs = some d → fs.step d n = some i → fs.walk (fuel + 1) s (cs ++ [n]) = some i
  | fuel, s, [], d, h, hs => by
    have : d = s := by cases fuel <;> simp [FS.walk] at h <;> exact h.symm
    subst this
    rw [List.nil_append, FS.walk, hs]
    simp only [hk, if_false]
    cases fuel <;> simp [FS.walk]
  | 0, s, c :: cs, d, h, hs => by simp [FS.walk] at h
  | fuel + 1, s, c :: cs, d, h, hs => by
    rw [FS.walk] at h
    rw [List.cons_append, FS.walk]
    cases hst : fs.step s c with
    | none => simp [hst] at h
    | some j =>
      simp only [hst] at h ⊢
      by_cases hj : fs.kind j = .link
      · simp only [hj, if_true] at h ⊢
        rw [← List.append_assoc]
        exact walk_snoc fs n i hk fuel _ _ d h hs
      · simp only [hj, if_false] at h ⊢
        exact walk_snoc fs n i hk fuel _ _ d h hs

theorem uses_snoc (fs : FS) (n : Bytes) (i : Ino) (hk : fs.kind i ≠ .link) : ∀ (fuel : Nat) (s : Ino) (cs : List Bytes) (d : Ino),
    fs.walk fuel s cs = some d → fs.step d n = some i →
    ∀ x ∈ fs.uses (fuel + 1) s (cs ++ [n]), x ∈ fs.uses fuel s cs ∨ x = d
  | fuel, s, [], d, h, hs => by
    have : d = s := by cases fuel <;> simp [FS.walk] at h <;> exact h.symm
    subst this
    intro x hx
    rw [List.nil_append, FS.uses, hs] at hx
    simp only [hk, if_false] at hx
    have hnil : fs.uses fuel i [] = [] := by cases fuel <;> rfl
    rw [hnil, List.append_nil] at hx
    split at hx
    · cases hx
    · exact .inr (List.mem_singleton.1 hx)
  | 0, s, c :: cs, d, h, hs => by simp [FS.walk] at h
  | fuel + 1, s, c :: cs, d, h, hs => by
    intro x hx
    rw [FS.walk] at h
    rw [List.cons_append, FS.uses] at hx
    rw [FS.uses]
    cases hst : fs.step s c with
    | none => simp [hst] at h
    | some j =>
      simp only [hst] at h hx ⊢
      by_cases hj : fs.kind j = .link
      · simp only [hj, if_true] at h hx ⊢
        rw [← List.append_assoc] at hx
        rcases List.mem_append.1 hx with hx | hx
        · exact .inl (List.mem_append_left _ hx)
        · rcases uses_snoc fs n i hk fuel _ _ d h hs x hx with h1 | h1
          · exact .inl (List.mem_append_right _ h1)
          · exact .inr h1
      · simp only [hj, if_false] at h hx ⊢
        rcases List.mem_append.1 hx with hx | hx
        · exact .inl (List.mem_append_left _ hx)
        · rcases uses_snoc fs n i hk fuel _ _ d h hs x hx with h1 | h1
          · exact .inl (List.mem_append_right _ h1)
          · exact .inr h1

/-- Everything but the names is the same. -/
def SameBut (fs fs' : FS) : Prop := ∃ es, fs' = { fs with entries := es }

theorem SameBut.refl (fs : FS) : SameBut fs fs := ⟨fs.entries, rfl⟩

theorem SameBut.trans {a b c : FS} (h1 : SameBut a b) (h2 : SameBut b c) : SameBut a c := by
  obtain ⟨x, rfl⟩ := h1
  obtain ⟨y, rfl⟩ := h2
  exact ⟨y, rfl⟩

theorem fsStep_same {fs fs' : FS} (hs : SameBut fs fs') {d : Ino} {n : Bytes}
    (hf : ¬ (n = [0x2E] ∨ n = [0x2E, 0x2E]) → fs'.find d n = fs.find d n) : fs'.step d n = fs.step d n := by
  obtain ⟨es, rfl⟩ := hs
  unfold FS.step
  by_cases h1 : n = [0x2E]
  · simp only [h1, if_true]
  · by_cases h2 : n = [0x2E, 0x2E]
    · simp only [h2, if_true]
    · rw [hf (by simp [h1, h2])]

/-- A path leads where it did if the directories it looks into are the same. -/
theorem walk_same {fs fs' : FS} (hs : SameBut fs fs') : ∀ (fuel : Nat) (s : Ino) (cs : List Bytes),
    (∀ x ∈ fs.uses fuel s cs, ∀ n, fs'.find x n = fs.find x n) →
    fs'.walk fuel s cs = fs.walk fuel s cs ∧ fs'.uses fuel s cs = fs.uses fuel s cs
  | fuel, s, [], _ => by cases fuel <;> simp [FS.walk, FS.uses]
  | 0, s, c :: cs, _ => by simp [FS.walk, FS.uses]
  | fuel + 1, s, c :: cs, h => by
    rw [FS.uses] at h
    have hst : fs'.step s c = fs.step s c := fsStep_same hs fun hc => h s (by simp [hc]) c
    rw [FS.walk, FS.walk, FS.uses, FS.uses, hst]
    cases hx : fs.step s c with
    | none => simp
    | some j =>
      simp only [hx] at h ⊢
      have hk : fs'.kind = fs.kind := by obtain ⟨es, rfl⟩ := hs; rfl
      have ht : fs'.target = fs.target := by obtain ⟨es, rfl⟩ := hs; rfl
      have hstart : fs'.start = fs.start := by obtain ⟨es, rfl⟩ := hs; rfl
      rw [hk, ht, hstart]
      by_cases hj : fs.kind j = .link
      · simp only [hj, if_true] at h ⊢
        obtain ⟨a, b⟩ := walk_same hs fuel _ _ (fun x hx => h x (List.mem_append_right _ hx))
        exact ⟨a, by rw [b]⟩
      · simp only [hj, if_false] at h ⊢
        obtain ⟨a, b⟩ := walk_same hs fuel _ _ (fun x hx => h x (List.mem_append_right _ hx))
        exact ⟨a, by rw [b]⟩

section
variable {depth : Ino → Nat} {slack level : Nat}

theorem leads_same {fs fs' : FS} (hs : SameBut fs fs') {p : Bytes} {d : Ino} (h : fs.Leads depth slack level p d)
    (hf : ∀ x, depth x < level → ∀ n, fs'.find x n = fs.find x n) : fs'.Leads depth slack level p d := by
  have hstart : fs'.start fs'.cwd p = fs.start fs.cwd p := by obtain ⟨es, rfl⟩ := hs; rfl
  have hk : fs'.kind = fs.kind := by obtain ⟨es, rfl⟩ := hs; rfl
  obtain ⟨a, b⟩ := walk_same hs _ _ _ (fun x hx n => hf x (h.uses x hx) n)
  exact ⟨by rw [hstart, a]; exact h.walk, by rw [hstart, b]; exact h.uses, by rw [hk]; exact h.kind, h.deep⟩

theorem steady_same {fs fs' : FS} (hs : SameBut fs fs') {f : Bytes} (h : fs.Steady depth slack level f)
    (hf : ∀ x, depth x < level → ∀ n, fs'.find x n = fs.find x n) : fs'.Steady depth slack level f := by
  cases h with
  | name dir name x h1 h2 h3 h4 h5 h6 h7 => exact .name dir name x h1 h2 h3 h4 h5 h6 (leads_same hs h7 hf)
  | self dir name d h1 h2 h3 h4 h5 => exact .self dir name d h1 h2 h3 h4 (leads_same hs h5 hf)

theorem leads_slash {fs : FS} {p : Bytes} {d : Ino} (hp : p ≠ []) (h : fs.Leads depth slack level p d) :
    fs.Leads depth slack level (p ++ [0x2F]) d := by
  obtain ⟨a, b, c, e⟩ := h
  exact ⟨by rw [comps_snoc_slash, start_snoc_slash fs _ hp]; exact a, by rw [comps_snoc_slash, start_snoc_slash fs _ hp]; exact b, c, e⟩

theorem start_dir_append (fs : FS) (c : Ino) {dir n : Bytes} (hn : (0x2F : Byte) ∉ n) : fs.start c (dir ++ n) = fs.start c dir := by
  cases dir with
  | nil =>
    unfold FS.start
    cases n with
    | nil => rfl
    | cons a n =>
      have : a ≠ 0x2F := fun h => hn (by simp [h])
      simp [this]
  | cons a dir => rfl

/-- What is needed of the name of an entry. -/
structure PlainName (n : Bytes) : Prop where
  nonempty : n ≠ []
  slash : (0x2F : Byte) ∉ n
  dot : n ≠ [0x2E]
  dots : n ≠ [0x2E, 0x2E]

theorem dirOf_leads {fs : FS} {dir n : Bytes} {d : Ino} (ht : fs.Tree depth slack) (hd : dir = [] ∨ ∃ d, dir = d ++ [0x2F])
    (hn : n ≠ []) (hs : (0x2F : Byte) ∉ n) (h : fs.Leads depth slack level dir d) : fs.dirOf (dir ++ n) = some d := by
  rw [dirOf_dir_name fs hd hn hs, start_dir_append fs _ hs]
  exact walk_more fs _ _ _ _ _ h.walk (Nat.le_of_lt (ht.bound d))

theorem lookup_leads {fs : FS} {dir n : Bytes} {d : Ino} (ht : fs.Tree depth slack) (hd : dir = [] ∨ ∃ d, dir = d ++ [0x2F])
    (hn : PlainName n) (h : fs.Leads depth slack level dir d) (hden : fs.denied (dir ++ n) = false) :
    fs.lookup (dir ++ n) = (fs.find d n).map Entry.ino := by
  have hne : dir ++ n ≠ [] := by simp [hn.nonempty]
  unfold FS.lookup
  rw [if_neg (by simp [hn.nonempty, hden]), endsInSlash_dir_name hn.nonempty hn.slash, dirOf_leads ht hd hn.nonempty hn.slash h,
    comps_dir_name hd hn.nonempty hn.slash]
  simp [FS_step_find h.kind hn.dot hn.dots]

theorem locate_leads {fs : FS} {dir n : Bytes} {d d' : Ino} {n' : Bytes} (ht : fs.Tree depth slack) (hd : dir = [] ∨ ∃ d, dir = d ++ [0x2F])
    (hne : n ≠ []) (hs : (0x2F : Byte) ∉ n) (h : fs.Leads depth slack level dir d) (hl : fs.locate (dir ++ n) = some (d', n')) :
    d' = d ∧ n' = n ∧ PlainName n := by
  obtain ⟨_, _, h3, h4, _, h6, h7⟩ := FS_locate_inv hl
  rw [dirOf_leads ht hd hne hs h] at h3
  rw [comps_dir_name hd hne hs] at h4
  simp at h4
  subst h4
  exact ⟨(Option.some.inj h3).symm, rfl, hne, hs, h6, h7⟩

/-- The path of a subdirectory. -/
theorem leads_entry {fs : FS} {dir n : Bytes} {d : Ino} {e : Entry} (ht : fs.Tree depth slack) (hd : dir = [] ∨ ∃ d, dir = d ++ [0x2F])
    (hn : PlainName n) (h : fs.Leads depth slack level dir d) (hf : fs.find d n = some e) (hk : fs.kind e.ino = .dir) :
    fs.Leads depth slack (depth e.ino) (dir ++ n) e.ino := by
  obtain ⟨h1, h2, h3⟩ := FS_find_some hf
  have hlev := ht.level e h1 hk
  rw [h2] at hlev
  have hst : fs.step d n = some e.ino := by rw [FS_step_find h.kind hn.dot hn.dots, hf]; rfl
  have hnl : fs.kind e.ino ≠ .link := by rw [hk]; intro hx; cases hx
  have hw := walk_snoc fs n e.ino hnl _ _ _ _ h.walk hst
  have hu := uses_snoc fs n e.ino hnl _ _ _ _ h.walk hst
  have harith : depth e.ino + slack = depth d + slack + 1 := by omega
  refine ⟨?_, ?_, hk, Nat.le_refl _⟩
  · rw [start_dir_append fs _ hn.slash, comps_dir_name hd hn.nonempty hn.slash, harith]
    exact hw
  · rw [start_dir_append fs _ hn.slash, comps_dir_name hd hn.nonempty hn.slash, harith]
    intro x hx
    rcases hu x hx with hx | hx
    · have := h.uses x hx
      have := h.deep
      omega
    · rw [hx]; omega

theorem leads_level {fs : FS} {p : Bytes} {d : Ino} (h : fs.Leads depth slack level p d) : fs.Leads depth slack (depth d) p d :=
  ⟨h.walk, fun x hx => Nat.lt_of_lt_of_le (h.uses x hx) h.deep, h.kind, Nat.le_refl _⟩

theorem follow_leads {fs : FS} {p : Bytes} {d : Ino} (ht : fs.Tree depth slack) (hp : p ≠ []) (hden : fs.denied p = false)
    (h : fs.Leads depth slack level p d) : fs.follow p = some d := by
  unfold FS.follow
  rw [if_neg (by simp [hp, hden])]
  exact walk_more fs _ _ _ _ _ h.walk (Nat.le_of_lt (ht.bound d))

end

end Detox
