import Verif.Props.Configured
import Verif.Lemmas.SettleMore

/-!
# C119: configurations that need one pass only, with `max_length` and with `utf_8`
-/

set_option autoImplicit false

namespace Detox
open Spec

section
variable {P : Platform} {locale : Bytes} {datadir : Option Bytes} {files : Bytes → Option Bytes}

/-- **C119.** Filters that work character by character, a `wipeup` without `remove_trailing` after them or none, and a `max_length` at the end: one pass is enough
if the filters before leave alone every character they ever put into a name. -/
theorem C119_max_length_at_the_end {fs : List Filter} (hf : ∀ f ∈ fs, f.cleaner = .safe ∨ f.cleaner = .iso8859_1 ∨ f.cleaner = .lower)
    {gs : List Filter} (hg : gs = [] ∨ ∃ g : Filter, g.cleaner = .wipeup ∧ g.removeTrailing = false ∧ gs = [g])
    {l : Filter} (hl : l.cleaner = .maxLength)
    (hone : ∀ c v, c ≠ 0 → FiltersSay P locale datadir files fs [c] v → ∀ x ∈ v, x ≠ 0 ∧ FiltersSay P locale datadir files fs [x] [x])
    (hslash : ∀ c v, c ≠ 0 → c ≠ 0x2F → FiltersSay P locale datadir files fs [c] v → (0x2F : Byte) ∉ v) :
    Settles (FiltersSay P locale datadir files (fs ++ (gs ++ [l]))) ∧
      ∀ m v, NulFree m → FiltersSay P locale datadir files (fs ++ (gs ++ [l])) m v → NulFree v := by
  have main : ∀ m v, NulFree m → FiltersSay P locale datadir files (fs ++ (gs ++ [l])) m v →
      FiltersSay P locale datadir files (fs ++ (gs ++ [l])) v v ∧ NulFree v ∧ ((0x2F : Byte) ∉ m → (0x2F : Byte) ∉ v) := by
    intro m v hm h
    obtain ⟨mid, h1, h2⟩ := FiltersSay.split h
    obtain ⟨cut, h3, h4⟩ := FiltersSay.split h2
    obtain ⟨G, hG⟩ := bytewise hf h1
    have hmid := filtersSay_unique h1 (hG m)
    have one : ∀ c, FiltersSay P locale datadir files fs [c] (G c) := fun c => by
      have := hG [c]
      rwa [List.flatMap_singleton] at this
    have hc0 : ∀ c ∈ m, c ≠ 0 := fun c hc h => hm (h ▸ hc)
    have good : ∀ x ∈ mid, x ≠ 0 ∧ G x = [x] := by
      intro x hx
      rw [hmid] at hx
      obtain ⟨c, hc, hx⟩ := List.mem_flatMap.1 hx
      obtain ⟨q1, q2⟩ := hone c (G c) (hc0 c hc) (one c) x hx
      exact ⟨q1, filtersSay_unique (one x) q2⟩
    have noslash : (0x2F : Byte) ∉ m → (0x2F : Byte) ∉ mid := by
      intro hm' hx
      rw [hmid] at hx
      obtain ⟨c, hc, hx⟩ := List.mem_flatMap.1 hx
      exact hslash c (G c) (hc0 c hc) (fun h => hm' (h ▸ hc)) (one c) hx
    have hmid0 : NulFree mid := fun h => (good 0 h).1 rfl
    have fixed : ∀ w : Bytes, (∀ x ∈ w, x ∈ mid) → FiltersSay P locale datadir files fs w w := by
      intro w hw
      have := hG w
      rwa [flatMap_self_of fun x hx => (good x (hw x hx)).2] at this
    have hsh : Shortens (if l.maxLength = 0 then 256 else l.maxLength) cut v := by
      have h5 := filtersSay_one.1 h4
      cases h5 with
      | maxLength _ _ h => exact h
      | lower hc => rw [hl] at hc; cases hc
      | wipeup _ hc => rw [hl] at hc; cases hc
      | uncgi _ hc => rw [hl] at hc; cases hc
      | iso8859_1 _ hc => rw [hl] at hc; cases hc
      | safe _ hc => rw [hl] at hc; cases hc
      | utf8 _ _ hc => rw [hl] at hc; cases hc
    have last : FiltersSay P locale datadir files [l] v v := filtersSay_one.2 (.maxLength _ hl (shortens_again hsh))
    have key : (∀ x ∈ cut, x ∈ mid) ∧ FiltersSay P locale datadir files gs v v := by
      rcases hg with rfl | ⟨g, hgc, hgt, rfl⟩
      · cases h3
        exact ⟨fun _ h => h, .nil _⟩
      · have hcut : cut = wipe g.removeTrailing mid := filterSays_unique (filtersSay_one.1 h3) (.wipeup _ hgc (wipe_spec hmid0))
        have hw : IsWipeup false mid cut := by rw [hcut, hgt]; exact wipe_spec hmid0
        obtain ⟨k1, k2⟩ := shortens_wiped hsh (wipeup_head hw) (Spec.Reduces.noAdjacent hw)
        refine ⟨fun x hx => wipe_mem hmid0 x (by rw [← hcut]; exact hx), filtersSay_one.2 (.wipeup _ hgc ?_)⟩
        rw [hgt]
        unfold IsWipeup
        rw [dropWhile_self k1]
        exact reduces_self k2
    have sub : ∀ x ∈ v, x ∈ mid := fun x hx => key.1 x (shortens_mem hsh x hx)
    exact ⟨filtersSay_append (fixed v sub) (filtersSay_append key.2 last), fun h => hmid0 (sub _ h), fun hm' hx => noslash hm' (sub _ hx)⟩
  exact ⟨⟨fun m v hm h => (main m v hm h).1, fun m v hm hs h => (main m v hm h).2.2 hs⟩, fun m v hm h => (main m v hm h).2.1⟩

/-- **C119.** A `utf_8` filter with any table, filters that work character by character after it, and a `wipeup` at the end or none: one pass is enough if they make
of every character, and of a byte that is none, only characters they leave alone. -/
theorem C119_utf8_settles_by_characters {f : Filter} (hf8 : f.cleaner = .utf8) {fs : List Filter}
    (hf : ∀ f ∈ fs, f.cleaner = .safe ∨ f.cleaner = .iso8859_1 ∨ f.cleaner = .lower)
    {gs : List Filter} (hg : gs = [] ∨ ∃ g : Filter, g.cleaner = .wipeup ∧ gs = [g])
    (hone : ∀ u w, NulFree u → (∃ n, IsUnit u n) ∨ u = [0xFF] → FiltersSay P locale datadir files (f :: fs) u w →
      Units (fun x n => n ≠ 0 ∧ FiltersSay P locale datadir files (f :: fs) x x) w)
    (hslash : ∀ u w, NulFree u → (∃ n, IsUnit u n) ∨ u = [0xFF] → (0x2F : Byte) ∉ u → FiltersSay P locale datadir files (f :: fs) u w → (0x2F : Byte) ∉ w) :
    Settles (FiltersSay P locale datadir files (f :: fs ++ gs)) ∧ ∀ m v, NulFree m → FiltersSay P locale datadir files (f :: fs ++ gs) m v → NulFree v := by
  have main : ∀ m v, NulFree m → FiltersSay P locale datadir files (f :: fs ++ gs) m v →
      FiltersSay P locale datadir files (f :: fs ++ gs) v v ∧ NulFree v ∧ ((0x2F : Byte) ∉ m → (0x2F : Byte) ∉ v) := by
    intro s v hs h
    obtain ⟨mid, h1, h2⟩ := FiltersSay.split h
    obtain ⟨out, h3, h4⟩ : ∃ out, FilterSays P locale datadir files f s out ∧ FiltersSay P locale datadir files fs out mid := by
      cases h1 with
      | cons _ _ _ o _ a b => exact ⟨o, a, b⟩
    obtain ⟨t, hts, hread⟩ : ∃ t, TableSays locale datadir files f t ∧ UnicodeReads t s out := by
      cases h3 with
      | utf8 t _ _ a b => exact ⟨t, a, b⟩
      | lower hc => rw [hf8] at hc; cases hc
      | wipeup _ hc => rw [hf8] at hc; cases hc
      | uncgi _ hc => rw [hf8] at hc; cases hc
      | maxLength _ hc => rw [hf8] at hc; cases hc
      | iso8859_1 _ hc => rw [hf8] at hc; cases hc
      | safe _ hc => rw [hf8] at hc; cases hc
    obtain ⟨G, hG⟩ := bytewise hf h4
    have hmid : mid = out.flatMap G := filtersSay_unique h4 (hG out)
    have put : ∀ {a b : Bytes}, UnicodeReads t a b → FiltersSay P locale datadir files (f :: fs) a (b.flatMap G) :=
      fun h => .cons _ _ _ _ _ (.utf8 t _ hf8 hts h) (hG _)
    have lone : UnicodeReads t [0xFF] (lit "_") := .broken [0xFF] [] [] (.stray 0xFF [] (by decide)) .nil
    have good : Units (fun x n => n ≠ 0 ∧ FiltersSay P locale datadir files (f :: fs) x x) mid ∧ ((0x2F : Byte) ∉ s → (0x2F : Byte) ∉ mid) := by
      rw [hmid]
      clear h h1 h2 h3 h4 hmid
      induction hread with
      | nil => exact ⟨.nil, fun h => h⟩
      | char u n rest o hu _ ih =>
        have hu0 : NulFree u := fun h => hs (List.mem_append_left _ h)
        obtain ⟨i1, i2⟩ := ih fun h => hs (List.mem_append_right _ h)
        rw [List.flatMap_append]
        refine ⟨(hone u _ hu0 (.inl ⟨n, hu⟩) (put (reads_one hu))).append i1, fun hx hm => ?_⟩
        rcases List.mem_append.1 hm with hm | hm
        · exact hslash u _ hu0 (.inl ⟨n, hu⟩) (fun h => hx (List.mem_append_left _ h)) (put (reads_one hu)) hm
        · exact i2 (fun h => hx (List.mem_append_right _ h)) hm
      | broken u rest o hu _ ih =>
        obtain ⟨i1, i2⟩ := ih fun h => hs (List.mem_append_right _ h)
        rw [List.flatMap_append]
        refine ⟨(hone [0xFF] _ (by simp [NulFree]) (.inr rfl) (put lone)).append i1, fun hx hm => ?_⟩
        rcases List.mem_append.1 hm with hm | hm
        · exact hslash [0xFF] _ (by simp [NulFree]) (.inr rfl) (by simp) (put lone) hm
        · exact i2 (fun h => hx (List.mem_append_right _ h)) hm
    have hmid0 : NulFree mid := good.1.nulFree fun _ _ h => h.1
    have fixed : ∀ {w : Bytes}, Units (fun x n => n ≠ 0 ∧ FiltersSay P locale datadir files (f :: fs) x x) w →
        ∃ b, UnicodeReads t w b ∧ b.flatMap G = w := by
      intro w hw
      induction hw with
      | nil => exact ⟨[], .nil, rfl⟩
      | cons u n rest hu hp _ ih =>
        obtain ⟨b, hb, hb'⟩ := ih
        refine ⟨unicodeSays t n u ++ b, .char u n rest b hu hb, ?_⟩
        rw [List.flatMap_append, hb', ← filtersSay_unique hp.2 (put (reads_one hu))]
    have fix : ∀ {w : Bytes}, Units (fun x n => n ≠ 0 ∧ FiltersSay P locale datadir files (f :: fs) x x) w → FiltersSay P locale datadir files (f :: fs) w w := by
      intro w hw
      obtain ⟨b, hb, hb'⟩ := fixed hw
      have := put hb
      rwa [hb'] at this
    rcases hg with rfl | ⟨g, hgc, rfl⟩
    · cases h2
      rw [List.append_nil]
      exact ⟨fix good.1, hmid0, good.2⟩
    · have hv : v = wipe g.removeTrailing mid := filterSays_unique (filtersSay_one.1 h2) (.wipeup _ hgc (wipe_spec hmid0))
      have sub : ∀ x ∈ v, x ∈ mid := fun x hx => wipe_mem hmid0 x (by rw [← hv]; exact hx)
      have hv0 : NulFree v := fun h => hmid0 (sub _ h)
      refine ⟨filtersSay_append (fix (by rw [hv]; exact wipe_units_within _ good.1 hmid0)) (filtersSay_one.2 ?_), hv0, fun hm' hx => good.2 hm' (sub _ hx)⟩
      have := FilterSays.wipeup (P := P) (locale := locale) (datadir := datadir) (files := files) (f := g) (s := v) _ hgc (wipe_spec hv0)
      rw [show wipe g.removeTrailing v = v by rw [hv, wipe_idem hmid0]] at this
      exact this
  exact ⟨⟨fun m v hm h => (main m v hm h).1, fun m v hm hs h => (main m v hm h).2.2 hs⟩, fun m v hm h => (main m v hm h).2.1⟩

end

/-! ### Where one pass is not enough -/

def trailCut : List Filter := [{ cleaner := .wipeup, removeTrailing := true }, { cleaner := .maxLength, maxLength := 8 }]

theorem wipe_says {P : Platform} {locale : Bytes} {datadir : Option Bytes} {files : Bytes → Option Bytes} {f : Filter} (hf : f.cleaner = .wipeup) {s v : Bytes}
    (hs : NulFree s) (h : wipe f.removeTrailing s = v) : FilterSays P locale datadir files f s v := h ▸ .wipeup _ hf (wipe_spec hs)

/-- **C119.** With `remove_trailing` one pass is not enough: `max_length` can cut a name behind an underscore, which then stands before the extension. -/
theorem C119_trailing_and_length_unsettled (P : Platform) (locale : Bytes) (datadir : Option Bytes) (files : Bytes → Option Bytes) :
    FiltersSay P locale datadir files trailCut (lit "abc_d.txt") (lit "abc_.txt") ∧
      FiltersSay P locale datadir files trailCut (lit "abc_.txt") (lit "abc.txt") ∧ ¬ Settles (FiltersSay P locale datadir files trailCut) := by
  have h1 : FiltersSay P locale datadir files trailCut (lit "abc_d.txt") (lit "abc_.txt") := by
    refine .cons _ _ _ (lit "abc_d.txt") _ (wipe_says rfl (by decide) (by decide)) (filtersSay_one.2 (.maxLength _ rfl ?_))
    have he : ExtensionAt (lit "abc_d.txt") 5 := by
      refine ⟨5, ⟨by decide, fun j hj => ?_⟩, by decide, .inl ⟨rfl, fun i h0 h1 _ => ?_⟩⟩
      · rcases j with _ | _ | _ | _ | _ | _ | _ | _ | _ | j <;> first | omega | simp [lit]
      · rcases i with _ | _ | _ | _ | _ | i <;> first | omega | simp [lit]
    exact .cut 5 (lit "abc_") (by decide) he (by decide) (by decide) (by decide)
  have h2 : FiltersSay P locale datadir files trailCut (lit "abc_.txt") (lit "abc.txt") :=
    .cons _ _ _ (lit "abc.txt") _ (wipe_says rfl (by decide) (by decide)) (filtersSay_one.2 (.maxLength _ rfl (.fits (by decide))))
  refine ⟨h1, h2, fun hs => ?_⟩
  have := filtersSay_unique h2 (hs.again _ _ (by decide) h1)
  revert this
  decide

def accentCut : List Filter := [{ cleaner := .utf8, filename := some (lit "t") }, { cleaner := .maxLength, maxLength := 4 }]

theorem accent_says (locale : Bytes) {f : Filter} (hf : f.filename = some (lit "t")) (hb : f.builtin = none) :
    TableSays locale none accentFiles f ⟨lastOf [(0xE9, lit "e")], none⟩ :=
  .filename _ accentTable _ hb hf (by unfold accentFiles; rw [if_neg (by decide), if_pos rfl]) (accent_table locale)

theorem accent_unit (v : Nat) (u : Bytes) : unicodeSays ⟨lastOf [(0xE9, lit "e")], none⟩ v u =
    if v = 0xE9 then lit "e" else if v = 0 then lit "_hidden_null_" else if 0x10FFFF < v then lit "_" else u := by
  have : lastOf [(0xE9, lit "e")] v = if v = 0xE9 then some (lit "e") else none := by
    by_cases h : v = 0xE9
    · subst h; rfl
    · rw [if_neg h]
      simp [lastOf, Ne.symm h]
  unfold unicodeSays
  simp only [this]
  by_cases h : v = 0xE9
  · simp [h]
  · simp [h]

/-- **C119.** With `utf_8` and `max_length` one pass is not enough: `ab中`, cut behind four bytes, ends in the middle of a character, and the next pass makes an
underscore of what is left of it. -/
theorem C119_utf8_and_length_unsettled (P : Platform) (locale : Bytes) :
    FiltersSay P locale none accentFiles accentCut [0x61, 0x62, 0xE4, 0xB8, 0xAD] [0x61, 0x62, 0xE4, 0xB8] ∧
      FiltersSay P locale none accentFiles accentCut [0x61, 0x62, 0xE4, 0xB8] (lit "ab_") ∧ ¬ Settles (FiltersSay P locale none accentFiles accentCut) := by
  have keep : ∀ {u : Bytes} {v : Nat} {rest out : Bytes}, IsUnit u v → v ≠ 0 → v ≠ 0xE9 → v ≤ 0x10FFFF → UnicodeReads ⟨lastOf [(0xE9, lit "e")], none⟩ rest out →
      UnicodeReads ⟨lastOf [(0xE9, lit "e")], none⟩ (u ++ rest) (u ++ out) := by
    intro u v rest out hu h0 h1 h2 h
    have := UnicodeReads.char u v rest out hu h
    rwa [accent_unit, if_neg h1, if_neg h0, if_neg (by omega)] at this
  have ha : IsUnit [0x61] 0x61 := isUnit_ascii (c := 0x61) (by decide)
  have hb : IsUnit [0x62] 0x62 := isUnit_ascii (c := 0x62) (by decide)
  have hz : IsUnit [0xE4, 0xB8, 0xAD] 0x4E2D := ⟨0xE4, [0xB8, 0xAD], 3, 0xE0, rfl, by decide, rfl, by decide, by decide⟩
  have r1 : UnicodeReads ⟨lastOf [(0xE9, lit "e")], none⟩ [0x61, 0x62, 0xE4, 0xB8, 0xAD] [0x61, 0x62, 0xE4, 0xB8, 0xAD] :=
    keep ha (by decide) (by decide) (by decide) (keep hb (by decide) (by decide) (by decide) (keep hz (by decide) (by decide) (by decide) .nil))
  have r2 : UnicodeReads ⟨lastOf [(0xE9, lit "e")], none⟩ [0x61, 0x62, 0xE4, 0xB8] (lit "ab_") :=
    keep ha (by decide) (by decide) (by decide) (keep hb (by decide) (by decide) (by decide)
      (.broken [0xE4, 0xB8] [] [] (.short 0xE4 [0xB8] [] 3 0xE0 (by decide) (by decide) (by decide) nofun) .nil))
  have h1 : FiltersSay P locale none accentFiles accentCut [0x61, 0x62, 0xE4, 0xB8, 0xAD] [0x61, 0x62, 0xE4, 0xB8] :=
    .cons _ _ _ _ _ (.utf8 _ _ rfl (accent_says locale rfl rfl) r1) (filtersSay_one.2 (.maxLength _ rfl (.plain (by decide) (.inl fun j => by
      rcases j with _ | _ | _ | _ | _ | j <;> simp))))
  have h2 : FiltersSay P locale none accentFiles accentCut [0x61, 0x62, 0xE4, 0xB8] (lit "ab_") :=
    .cons _ _ _ _ _ (.utf8 _ _ rfl (accent_says locale rfl rfl) r2) (filtersSay_one.2 (.maxLength _ rfl (.fits (by decide))))
  refine ⟨h1, h2, fun hs => ?_⟩
  have := filtersSay_unique h2 (hs.again _ _ (by decide) h1)
  revert this
  decide

/-! ### Concrete cases -/

/-- `utf_8` with a table that makes `e` of `é`, `lower`, and `wipeup`. -/
def accentLower : List Filter := [{ cleaner := .utf8, filename := some (lit "t") }, { cleaner := .lower }, { cleaner := .wipeup, removeTrailing := true }]

theorem small_large : ∀ c : Byte, 0x80 ≤ c.toNat → small c = c := by
  intro c hc
  unfold small
  rw [if_neg (by omega)]

theorem accentLower_unit (P : Platform) (locale : Bytes) {u : Bytes} {n : Nat} (hu : IsUnit u n) :
    FiltersSay P locale none accentFiles (accentLower.take 2) u
      ((if n = 0xE9 then lit "e" else if n = 0 then lit "_hidden_null_" else if 0x10FFFF < n then lit "_" else u).map small) := by
  have := reads_one (m := ⟨lastOf [(0xE9, lit "e")], none⟩) hu
  rw [accent_unit] at this
  exact .cons _ _ _ _ _ (.utf8 _ _ rfl (accent_says locale rfl rfl) this) (filtersSay_one.2 (.lower rfl))

theorem small_small : ∀ c : Byte, small (small c) = small c := forall_byte (by decide +kernel)

theorem small_ascii_byte : ∀ c : Byte, c.toNat < 0x80 → c ≠ 0 → (small c).toNat < 0x80 ∧ small c ≠ 0 ∧ ((small c) = 0x2F → c = 0x2F) := forall_byte (by decide +kernel)

/-- An ASCII character, in small, is left alone. -/
theorem accentLower_ascii (P : Platform) (locale : Bytes) {c : Byte} (hc : c.toNat < 0x80) (h0 : c ≠ 0) :
    FiltersSay P locale none accentFiles (accentLower.take 2) [c] [small c] := by
  have hn : c.toNat ≠ 0 := fun h => h0 (UInt8.toNat_inj.1 (by simpa using h))
  have := accentLower_unit P locale (isUnit_ascii hc)
  rwa [if_neg (by omega), if_neg hn, if_neg (by omega)] at this

theorem accentLower_settles (P : Platform) (locale : Bytes) : Settles (FiltersSay P locale none accentFiles accentLower) ∧
    ∀ m v, NulFree m → FiltersSay P locale none accentFiles accentLower m v → NulFree v := by
  have ascii : ∀ w : Bytes, (∀ c ∈ w, c.toNat < 0x80 ∧ c ≠ 0) →
      Units (fun x n => n ≠ 0 ∧ FiltersSay P locale none accentFiles (accentLower.take 2) x x) (w.map small) := by
    intro w hw
    refine units_ascii fun c hc => ?_
    obtain ⟨d, hd, rfl⟩ := List.mem_map.1 hc
    obtain ⟨q1, q2, _⟩ := small_ascii_byte d (hw d hd).1 (hw d hd).2
    have := accentLower_ascii P locale q1 q2
    rw [small_small] at this
    exact ⟨q1, fun h => q2 (UInt8.toNat_inj.1 (by simpa using h)), this⟩
  have broken : ∀ w, FiltersSay P locale none accentFiles (accentLower.take 2) [0xFF] w → w = lit "_" := by
    intro w h
    exact filtersSay_unique h (.cons _ _ _ _ _ (.utf8 _ _ rfl (accent_says locale rfl rfl)
      (.broken [0xFF] [] [] (.stray 0xFF [] (by decide)) .nil)) (filtersSay_one.2 (.lower rfl)))
  refine C119_utf8_settles_by_characters (f := { cleaner := .utf8, filename := some (lit "t") }) rfl (fs := [{ cleaner := .lower }]) (by simp)
    (gs := [{ cleaner := .wipeup, removeTrailing := true }]) (.inr ⟨_, rfl, rfl⟩) ?_ ?_
  · rintro u w hu (⟨n, hn⟩ | rfl) h
    · rw [filtersSay_unique h (accentLower_unit P locale hn)]
      split
      · exact ascii _ (by decide)
      split
      · exact ascii _ (by decide)
      split
      · exact ascii _ (by decide)
      · rename_i k1 k2 k3
        rcases hn.ascii_or_high with ⟨x, rfl, hx, rfl⟩ | ⟨_, hx⟩
        · exact ascii _ fun c hc => by
            cases List.mem_singleton.1 hc
            exact ⟨hx, fun h => hu (by simp [h])⟩
        · have e : u.map small = u := by
            conv => rhs; rw [← List.map_id u]
            exact List.map_congr_left fun c hc => small_large c (hx c hc)
          have := accentLower_unit P locale hn
          rw [if_neg k1, if_neg k2, if_neg k3, e] at this
          rw [e]
          have := Units.cons (p := fun x n => n ≠ 0 ∧ FiltersSay P locale none accentFiles (accentLower.take 2) x x) u n [] hn ⟨k2, this⟩ .nil
          rwa [List.append_nil] at this
    · rw [broken w h]
      exact ascii (lit "_") (by decide)
  · rintro u w hu (⟨n, hn⟩ | rfl) hs h
    · rw [filtersSay_unique h (accentLower_unit P locale hn)]
      split
      · decide
      split
      · decide
      split
      · decide
      · intro hm
        obtain ⟨c, hc, e⟩ := List.mem_map.1 hm
        by_cases hlow : c.toNat < 0x80
        · exact hs ((small_ascii_byte c hlow fun h => hu (h ▸ hc)).2.2 e ▸ hc)
        · rw [small_large c (by omega)] at e
          exact hs (e ▸ hc)
    · rw [broken w h]
      decide

/- `CAFÉ__.É` becomes `cafe.e` in one pass. -/
example (P : Platform) (locale : Bytes) :
    FiltersSay P locale none accentFiles accentLower ([0x43, 0x41, 0x46, 0xC3, 0xA9, 0x5F, 0x5F, 0x2E] ++ [0xC3, 0xA9]) (lit "cafe.e") := by
  have k : ∀ {c : Byte} {rest out : Bytes}, c ∈ [0x43, 0x41, 0x46, 0x5F, 0x2E] → UnicodeReads ⟨lastOf [(0xE9, lit "e")], none⟩ rest out →
      UnicodeReads ⟨lastOf [(0xE9, lit "e")], none⟩ (c :: rest) (c :: out) := by
    intro c rest out hc h
    have hx : ∀ c ∈ ([0x43, 0x41, 0x46, 0x5F, 0x2E] : Bytes), c.toNat < 0x80 ∧ c.toNat ≠ 0 := by decide
    obtain ⟨q1, q2⟩ := hx c hc
    have := UnicodeReads.char [c] c.toNat rest out (isUnit_ascii q1) h
    rwa [accent_unit, if_neg (by omega), if_neg q2, if_neg (by omega)] at this
  have e : ∀ {rest out : Bytes}, UnicodeReads ⟨lastOf [(0xE9, lit "e")], none⟩ rest out →
      UnicodeReads ⟨lastOf [(0xE9, lit "e")], none⟩ (0xC3 :: 0xA9 :: rest) (0x65 :: out) := by
    intro rest out h
    have := UnicodeReads.char [0xC3, 0xA9] 0xE9 rest out ⟨0xC3, [0xA9], 2, 0xC0, rfl, by decide, rfl, by decide, by decide⟩ h
    rwa [accent_unit, if_pos rfl] at this
  exact .cons _ _ _ (lit "CAFe__.e") _ (.utf8 _ _ rfl (accent_says locale rfl rfl)
      (k (by simp) (k (by simp) (k (by simp) (e (k (by simp) (k (by simp) (k (by simp) (e .nil)))))))))
    (.cons _ _ _ (lit "cafe__.e") _ (FilterSays.lower rfl) (filtersSay_one.2 (wipe_says rfl (by decide) (by decide))))

/- `max_length` at the end, after the filters of the example of the manual. -/
example (P : Platform) (locale : Bytes) : Settles (FiltersSay P locale none manualFiles (manualFilters.take 2 ++ ([{ cleaner := .wipeup }] ++ [{ cleaner := .maxLength, maxLength := 8 }]))) := by
  have one : ∀ c v, FiltersSay P locale none manualFiles (manualFilters.take 2) [c] v → v = manualSays locale c := by
    intro c v h
    have := filtersSay_unique h (manual_first P locale [c])
    rwa [List.flatMap_singleton] at this
  refine (C119_max_length_at_the_end ?_ (.inr ⟨_, rfl, rfl, rfl⟩) rfl ?_ ?_).1
  · intro f hf
    simp only [manualFilters, List.take_succ_cons, List.take_zero, List.mem_cons, List.not_mem_nil, or_false] at hf
    rcases hf with rfl | rfl <;> simp
  · intro c v hc h x hx
    rw [one c v h] at hx
    obtain ⟨h1, _, h2⟩ := manualSays_stable locale c hc x hx
    refine ⟨h1, ?_⟩
    have := manual_first P locale [x]
    rwa [List.flatMap_singleton, h2] at this
  · intro c v hc _ h hx
    rw [one c v h] at hx
    exact (manualSays_stable locale c hc _ hx).2.1 rfl

end Detox
