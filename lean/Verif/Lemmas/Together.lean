import Verif.Lemmas.TerritoryRun
import Verif.Props.Concurrent
import Verif.Props.Tree

/-!
# Several processes at the same time: each sees only what it does itself
-/

set_option autoImplicit false

namespace Detox
open Spec

variable {B : Ground}

/-! ### Apart -/

theorem slot_of {T : Renamer} (hB : Fits B T) {x : Ino} {n : Bytes} (h : Slot B T x n) :
    ∃ f ∈ T.args, ∃ p, Concerns T.R f p ∧ B.fs.slot p = some (x, B.fs.norm x n) := by
  obtain ⟨f, hf, dir, name, m, h1, h2, h3, h4, h5, h6, h7, h8⟩ := h
  refine ⟨f, hf, dir ++ m, ?_, ?_⟩
  · rcases h6 with rfl | h6
    · exact .inl h1.symm
    · exact .inr ⟨dir, name, m, ⟨h1, h3.slash, h2⟩, h6, rfl⟩
  · unfold FS.slot
    rw [locate_of_leads hB.tree h2 h5 h4 h7, h8]
    rfl

theorem treesApart_mine {T U : Renamer} (hT : Fits B T) (hU : Fits B U) (h : TreesApart B.fs T U) {x : Ino} {n : Bytes} (h1 : Mine B T x n) : ¬ Mine B U x n := by
  intro h2
  rcases h1 with h1 | h1 <;> rcases h2 with h2 | h2
  · exact h.inside x h1 h2
  · obtain ⟨f, hf, p, hp, hs⟩ := slot_of hU h2
    exact h.right f hf p _ hp hs h1
  · obtain ⟨f, hf, p, hp, hs⟩ := slot_of hT h1
    exact h.left f hf p _ hp hs h2
  · obtain ⟨f, hf, p, hp, hs⟩ := slot_of hT h1
    obtain ⟨f', hf', p', hp', hs'⟩ := slot_of hU h2
    exact h.files f hf f' hf' p p' _ hp hp' hs hs'

theorem treesApart_symm {fs : FS} {a b : Renamer} (h : TreesApart fs a b) : TreesApart fs b a :=
  ⟨farApart_symm h.files, fun d h1 h2 => h.inside d h2 h1, h.right, h.left⟩

/-! ### What holds at any time -/

/-- A process: who it is, what it would see alone, what it sees, and the calls to come. -/
structure Conf where
  who : Renamer
  alone : World
  seen : World
  calls : List Event

/-- The names as they are. -/
structure Common (B : Ground) (ts : List Renamer) (g : FS) : Prop where
  norm : g.norm = B.fs.norm
  length : g.entries.length = B.fs.entries.length
  rest : ∀ (k : Nat) (e : Entry), B.fs.entries[k]? = some e → (∀ T ∈ ts, ¬ Owns B T e) → g.entries[k]? = some e

theorem Common.touch {ts : List Renamer} {g g' : FS} (h : Common B ts g) {T : Renamer} (hT : T ∈ ts) (ht : Touch B T g g') : Common B ts g' := by
  cases ht with
  | not => exact h
  | moved e w h1 h2 h3 h4 =>
    refine ⟨h.norm, by simp only [movedFS, List.length_map]; exact h.length, fun k e0 hk hno => ?_⟩
    rw [moved_place (h.rest k e0 hk hno)]
    unfold moveEntry
    rw [if_neg]
    rintro rfl
    exact hno T hT h3

/-- One process. -/
structure Conf.Good (B : Ground) (g : FS) (c : Conf) : Prop where
  fits : Fits B c.who
  agree : AgreeOnW B c.who c.alone c.seen
  now : c.seen.fs = g
  safe : SafeFrom B c.who c.alone c.calls

/-- What another has done. -/
def Conf.sees (g : FS) (c : Conf) : Conf := { c with seen := c.seen.sees g }

theorem Conf.Good.other {g g' : FS} {c : Conf} (h : c.Good B g) (hg : g.norm = B.fs.norm) {U : Renamer} (hU : Fits B U) (ha : TreesApart B.fs U c.who) (ht : Touch B U g g') :
    (c.sees g').Good B g' := by
  have hn : c.alone.fs.norm = B.fs.norm := by rw [← h.agree.fs.norm, h.now]; exact hg
  have hfs := h.agree.fs
  rw [h.now] at hfs
  have hag := (AgreeOn.other hU hfs hn ht fun x n h1 => treesApart_mine hU h.fits ha h1).1
  refine ⟨h.fits, ⟨hag, ?_, h.agree.opened, h.agree.refused, h.agree.dirs⟩, rfl, h.safe⟩
  funext i
  show (c.seen.streams i).map (Stream.after g') = c.alone.streams i
  rw [h.agree.streams]
  cases hi : c.alone.streams i with
  | none => rfl
  | some s =>
    obtain ⟨h1, h2⟩ := h.agree.dirs i s hi
    simp only [Option.map_some, Stream.after, Option.some.injEq]
    have : s.owed.filter (fun n => n ∈ g'.namesIn s.dir) = s.owed := by
      refine List.filter_eq_self.2 fun n hn => ?_
      rw [namesIn_filter (hag.inside s.dir h1)]
      simpa using h2 n hn
    rw [this]

theorem together_alone {c : List (World × List Event)} {ws : List World} (h : Together c ws) : ∀ (cs : List Conf) (g : FS),
    c = cs.map (fun x => (x.seen, x.calls)) → Common B (cs.map (·.who)) g → (∀ x ∈ cs, x.Good B g) → cs.Pairwise (fun a b => TreesApart B.fs a.who b.who) →
    ∃ g', (∀ w ∈ ws, w.fs = g') ∧ Common B (cs.map (·.who)) g' ∧ ∀ x ∈ cs, ∃ V, World.Steps x.alone x.calls V ∧ AgreeOn B x.who V.fs g' := by
  induction h with
  | done c hc =>
    rintro cs g rfl hcom hgood _
    refine ⟨g, fun w hw => ?_, hcom, fun x hx => ⟨x.alone, ?_, ?_⟩⟩
    · rw [List.map_map] at hw
      obtain ⟨x, hx, rfl⟩ := List.mem_map.1 hw
      exact (hgood x hx).now
    · have : x.calls = [] := hc (x.seen, x.calls) (List.mem_map.2 ⟨x, hx, rfl⟩)
      rw [this]
      exact .nil _
    · rw [← (hgood x hx).now]
      exact (hgood x hx).agree.fs
  | next l r w w' e t ws hstep _ ih =>
    intro cs g hcs hcom hgood hap
    obtain ⟨l', m, rfl, rfl, hm⟩ := List.map_eq_append_iff.1 hcs.symm
    obtain ⟨x, r', rfl, hx, rfl⟩ := List.map_eq_cons_iff.1 hm
    obtain ⟨rfl, hcalls⟩ := Prod.mk.inj hx
    have gx := hgood x (by simp)
    have hsafe := gx.safe
    rw [hcalls] at hsafe
    obtain ⟨V', hV, hag, htouch⟩ := hsafe.1 x.seen gx.agree w' hstep
    rw [gx.now] at htouch
    have hcom' := hcom.touch (T := x.who) (List.mem_map.2 ⟨x, by simp, rfl⟩) htouch
    have apl : ∀ y ∈ l', TreesApart B.fs x.who y.who := fun y hy => treesApart_symm ((List.pairwise_append.1 hap).2.2 y hy x (by simp))
    have apr : ∀ y ∈ r', TreesApart B.fs x.who y.who := fun y hy => (List.pairwise_cons.1 (List.pairwise_append.1 hap).2.1).1 y hy
    have whos : ∀ q : List Conf, (q.map (Conf.sees w'.fs)).map (·.who) = q.map (·.who) := by
      intro q
      rw [List.map_map]
      rfl
    obtain ⟨g', h1, h2, h3⟩ := ih (l'.map (Conf.sees w'.fs) ++ ⟨x.who, V', w', t⟩ :: r'.map (Conf.sees w'.fs)) w'.fs
      (by simp [Function.comp_def, Conf.sees]) (by
        rw [List.map_append, List.map_cons, whos, whos]
        simpa using hcom') (by
        intro y hy
        rcases List.mem_append.1 hy with hy | hy
        · obtain ⟨z, hz, rfl⟩ := List.mem_map.1 hy
          exact (hgood z (by simp [hz])).other hcom.norm gx.fits (apl z hz) htouch
        · rcases List.mem_cons.1 hy with rfl | hy
          · exact ⟨gx.fits, hag, rfl, hsafe.2 V' hV⟩
          · obtain ⟨z, hz, rfl⟩ := List.mem_map.1 hy
            exact (hgood z (by simp [hz])).other hcom.norm gx.fits (apr z hz) htouch) (by
        have : (l' ++ x :: r').map (·.who) = (l'.map (Conf.sees w'.fs) ++ (⟨x.who, V', w', t⟩ : Conf) :: r'.map (Conf.sees w'.fs)).map (·.who) := by
          rw [List.map_append, List.map_append, List.map_cons, List.map_cons, whos, whos]
        have hap' := List.pairwise_map (f := Conf.who) (R := fun a b => TreesApart B.fs a b) |>.2 hap
        rw [this] at hap'
        exact List.pairwise_map.1 hap')
    have whos2 : (l'.map (Conf.sees w'.fs) ++ (⟨x.who, V', w', t⟩ : Conf) :: r'.map (Conf.sees w'.fs)).map (·.who) = (l' ++ x :: r').map (·.who) := by
      rw [List.map_append, List.map_append, List.map_cons, List.map_cons, whos, whos]
    rw [whos2] at h2
    refine ⟨g', h1, h2, fun y hy => ?_⟩
    have same : ∀ z, z ∈ l' ∨ z ∈ r' → ∃ V, World.Steps z.alone z.calls V ∧ AgreeOn B z.who V.fs g' := by
      intro z hz
      refine h3 (z.sees w'.fs) ?_
      rcases hz with hz | hz
      · exact List.mem_append_left _ (List.mem_map_of_mem hz)
      · exact List.mem_append_right _ (List.mem_cons_of_mem _ (List.mem_map_of_mem hz))
    rcases List.mem_append.1 hy with hy | hy
    · exact same y (.inl hy)
    · rcases List.mem_cons.1 hy with rfl | hy
      · obtain ⟨V, s1, s2⟩ := h3 ⟨y.who, V', w', t⟩ (by simp)
        refine ⟨V, ?_, s2⟩
        rw [hcalls]
        exact .cons _ _ _ _ _ hV s1
      · exact same y (.inr hy)

/-! ### At the beginning -/

theorem agree_start {T : Renamer} (hB : Fits B T) : AgreeOnW B T (World.start B.fs) (World.start B.fs) := by
  refine ⟨⟨⟨_, rfl⟩, hB.tree, fun _ _ _ => rfl, fun _ _ => rfl, fun _ _ _ => rfl, fun _ => rfl, fun k e0 hk => ⟨e0, e0, hk, hk, rfl, rfl, fun ho => ⟨rfl, Own.mine ho⟩, fun _ => rfl⟩⟩,
    rfl, rfl, rfl, fun h s hs => by cases hs⟩

theorem view_start {T : Renamer} (hB : Fits B T) : View B T B.fs :=
  ⟨⟨_, rfl⟩, hB.tree, fun _ _ _ => rfl, fun e he => ⟨e, he, rfl, rfl⟩, fun _ he => .inl he⟩

theorem common_start (ts : List Renamer) : Common B ts B.fs := ⟨rfl, rfl, fun _ _ hk _ => hk⟩

theorem safe_harmless {T : Renamer} {t : List Event} : ∀ {reads : List Event}, (∀ e ∈ reads, Harmless e) → ∀ {V : World}, SafeFrom B T V t → SafeFrom B T V (reads ++ t)
  | [], _, _, h => h
  | e :: reads, hr, V, h => by
    have ih := safe_harmless (reads := reads) (fun e he => hr e (by simp [he])) h
    have : ∀ W W', World.Step W e W' → W' = W ∧ ∀ V, World.Step V e V := by
      intro W W' hs
      have := hr e (by simp)
      cases hs with
      | out => exact ⟨rfl, fun V => .out V _⟩
      | err => exact ⟨rfl, fun V => .err V _⟩
      | slurp => exact ⟨rfl, fun V => .slurp V _ _⟩
      | _ => cases this
    refine ⟨fun W hW W' hs => ?_, fun V' hs => ?_⟩
    · obtain ⟨rfl, h2⟩ := this W W' hs
      exact ⟨V, h2 V, hW, .not⟩
    · obtain ⟨rfl, _⟩ := this V V' hs
      exact ih

theorem owns_iff {B : Ground} {T : Renamer} (hB : Fits B T) {e : Entry} (he : e ∈ B.fs.entries) : Owns B T e ↔ T.Has B.fs e := by
  constructor
  · rintro (h | ⟨f, hf, dir, name, h1, h2, h3, h4, h5, h6⟩)
    · exact .inl h
    · refine .inr ⟨f, hf, dir, name, ⟨h1, h3.slash, h2⟩, h3.nonempty, ?_, find_of_entry hB.tree.unique he rfl h6⟩
      rw [h1] at h5 ⊢
      exact locate_of_leads hB.tree h2 h3 h4 h5
  · rintro (h | ⟨f, hf, dir, name, h1, h2, h3, h4⟩)
    · exact .inl h
    · have hden : B.fs.denied f = false := by
        cases hx : B.fs.denied f with
        | false => rfl
        | true =>
          unfold FS.locate at h3
          rw [if_pos (.inr hx)] at h3
          cases h3
      obtain ⟨_, _, h6⟩ := FS_find_some h4
      cases hB.steady f hf with
      | name dir' name' x g1 g2 g3 g4 g5 g6 g7 =>
        have e1 := splitsAs_unique h1
        have e2 := splitsAs_unique (p := f) (d := dir') (n := name') ⟨g1, g3, g2⟩
        have ed : dir' = dir := e2.1.trans e1.1.symm
        have en : name' = name := e2.2.trans e1.2.symm
        subst ed en
        have hp : PlainName name' := ⟨g4, g3, g5, g6⟩
        rw [g1] at h3 hden
        rw [locate_of_leads hB.tree g2 hp g7 hden] at h3
        obtain ⟨rfl, _⟩ := Prod.mk.inj (Option.some.inj h3)
        exact .inr ⟨f, hf, dir', name', g1, g2, hp, g7, by rw [g1]; exact hden, h6⟩
      | self dir' name' d g1 g2 g3 g4 g5 =>
        exfalso
        have hs' : (0x2F : Byte) ∉ name' := by rcases g3 with rfl | rfl | rfl <;> decide
        have e1 := splitsAs_unique h1
        have e2 := splitsAs_unique (p := f) (d := dir') (n := name') ⟨g1, hs', g2⟩
        have en : name' = name := e2.2.trans e1.2.symm
        subst en
        unfold FS.locate at h3
        rw [if_neg (by simp [g4, hden]), g1, comps_dir_name g2 h2 hs'] at h3
        split at h3
        · rename_i d n hd hn
          rw [List.getLast?_append] at hn
          simp at hn
          subst hn
          rw [if_pos] at h3
          · cases h3
          · rcases g3 with g3 | g3 | g3
            · exact absurd g3 h2
            · exact .inl g3
            · exact .inr (.inl g3)
        · cases h3

theorem pairwise_of_ne {α : Type} {R : α → α → Prop} (hR : ∀ a b, R a b → R b a) : ∀ {l : List α}, l.Pairwise R → ∀ a ∈ l, ∀ b ∈ l, a ≠ b → R a b
  | [], _, _, ha, _, _, _ => by cases ha
  | x :: l, h, a, ha, b, hb, hne => by
    obtain ⟨h1, h2⟩ := List.pairwise_cons.1 h
    rcases List.mem_cons.1 ha with ha1 | ha1 <;> rcases List.mem_cons.1 hb with hb1 | hb1
    · exact absurd (ha1.trans hb1.symm) hne
    · rw [ha1]; exact h1 b hb1
    · rw [hb1]; exact hR _ _ (h1 a ha1)
    · exact pairwise_of_ne hR h2 a ha1 b hb1 hne

theorem names_of_places {fs g : FS} (hl : g.entries.length = fs.entries.length)
    (h : ∀ (k : Nat) (e : Entry), fs.entries[k]? = some e → ∃ n, g.entries[k]? = some { e with name := n }) (j : Ino) : g.names j = fs.names j := by
  rw [FS_names_eq, FS_names_eq]
  have : g.entries.map Entry.ino = fs.entries.map Entry.ino := by
    refine List.ext_getElem? fun k => ?_
    rw [List.getElem?_map, List.getElem?_map]
    cases hk : fs.entries[k]? with
    | none =>
      rw [List.getElem?_eq_none_iff] at hk
      rw [List.getElem?_eq_none_iff.2 (by omega)]
    | some e =>
      obtain ⟨n, hn⟩ := h k e hk
      rw [hn]
      rfl
  rw [this]

/-! ### All of them -/

/-- Several of them, each over its own trees. -/
structure Tenants {α : Type} (who : α → Renamer) (calls : α → List Event) (fs : FS) (depth : Ino → Nat) (slack level : Nat) (ts : List α) : Prop where
  tree : fs.Tree depth slack
  steady : ∀ t ∈ ts, ∀ f ∈ (who t).args, fs.Steady depth slack level f
  nul : ∀ t ∈ ts, ∀ f ∈ (who t).args, (0 : Byte) ∉ f
  safe : ∀ t ∈ ts, ∀ B : Ground, Fits B (who t) → SafeFrom B (who t) (World.start B.fs) (calls t)
  apart : ts.Pairwise fun a b => TreesApart fs (who a) (who b)

section
variable {fs : FS} {depth : Ino → Nat} {slack level : Nat} {α : Type} {who : α → Renamer} {calls : α → List Event} {ps : List α}

theorem Tenants.fits (h : Tenants who calls fs depth slack level ps) {p : α} (hp : p ∈ ps) : Fits ⟨fs, depth, slack, level⟩ (who p) :=
  ⟨h.tree, h.steady p hp, h.nul p hp⟩

theorem Tenants.together (h : Tenants who calls fs depth slack level ps) {ws : List World} (ht : Together (ps.map fun p => (World.start fs, (calls p))) ws) :
    ∃ g, (∀ w ∈ ws, w.fs = g) ∧ Common ⟨fs, depth, slack, level⟩ (ps.map who) g ∧
      ∀ p ∈ ps, ∃ V, World.Steps (World.start fs) (calls p) V ∧ AgreeOn ⟨fs, depth, slack, level⟩ (who p) V.fs g := by
  obtain ⟨g, h1, h2, h3⟩ := together_alone (B := ⟨fs, depth, slack, level⟩) ht (ps.map fun p => ⟨(who p), World.start fs, World.start fs, (calls p)⟩) fs
    (by rw [List.map_map]; rfl) (common_start (B := ⟨fs, depth, slack, level⟩) _) (by
      intro x hx
      obtain ⟨p, hp, rfl⟩ := List.mem_map.1 hx
      exact ⟨h.fits hp, agree_start (h.fits hp), rfl, h.safe p hp _ (h.fits hp)⟩) (List.pairwise_map.2 h.apart)
  rw [List.map_map] at h2
  exact ⟨g, h1, h2, fun p hp => h3 _ (List.mem_map.2 ⟨p, hp, rfl⟩)⟩

/-- However the calls of several detox processes interleave, each over its own trees, and whatever they have been able to do so far: every process
has got the answers it would have got if it were alone. Every entry is where it was, only its name may be another; what is in the directories of a process, and
its arguments, have the names that process would have given them alone; all other entries have the names they had. -/
theorem tenants_alone (h : Tenants who calls fs depth slack level ps) {ws : List World} (ht : Together (ps.map fun p => (World.start fs, (calls p))) ws) :
    ∃ g, (∀ w ∈ ws, w.fs = g) ∧ g.entries.length = fs.entries.length ∧
      (∀ (k : Nat) (e : Entry), fs.entries[k]? = some e → ∃ n, g.entries[k]? = some { e with name := n }) ∧
      (∀ p ∈ ps, ∃ V, World.Steps (World.start fs) (calls p) V ∧ ∀ (k : Nat) (e : Entry), fs.entries[k]? = some e → (who p).Has fs e → g.entries[k]? = V.fs.entries[k]?) ∧
      ∀ (k : Nat) (e : Entry), fs.entries[k]? = some e → (∀ p ∈ ps, ¬ (who p).Has fs e) → g.entries[k]? = some e := by
  obtain ⟨g, h1, h2, h3⟩ := h.together ht
  have alone : ∀ p ∈ ps, ∃ V, World.Steps (World.start fs) (calls p) V ∧ ∀ (k : Nat) (e : Entry), fs.entries[k]? = some e → (who p).Has fs e → g.entries[k]? = V.fs.entries[k]? := by
    intro p hp
    obtain ⟨V, hV, hag⟩ := h3 p hp
    refine ⟨V, hV, fun k e hk hh => ?_⟩
    obtain ⟨eg, ev, q1, q2, _, _, q5, _⟩ := hag.places k e hk
    rw [q1, q2, (q5 ((owns_iff (h.fits hp) (List.mem_of_getElem? hk)).2 hh)).1]
  have rest : ∀ (k : Nat) (e : Entry), fs.entries[k]? = some e → (∀ p ∈ ps, ¬ (who p).Has fs e) → g.entries[k]? = some e := by
    intro k e hk hno
    refine h2.rest k e hk fun T hT ho => ?_
    obtain ⟨p, hp, rfl⟩ := List.mem_map.1 hT
    exact hno p hp ((owns_iff (h.fits hp) (List.mem_of_getElem? hk)).1 ho)
  refine ⟨g, h1, h2.length, fun k e hk => ?_, alone, rest⟩
  by_cases hx : ∃ p ∈ ps, (who p).Has fs e
  · obtain ⟨p, hp, _⟩ := hx
    obtain ⟨V, _, hag⟩ := h3 p hp
    obtain ⟨eg, ev, q1, _, q3, q4, _, _⟩ := hag.places k e hk
    refine ⟨eg.name, ?_⟩
    rw [q1, ← q3, ← q4]
  · exact ⟨e.name, rest k e hk fun p hp hh => hx ⟨p, hp, hh⟩⟩

/-- At any time, everything has as many names as it had before. -/
theorem tenants_names (h : Tenants who calls fs depth slack level ps) {ws : List World} (ht : Together (ps.map fun p => (World.start fs, (calls p))) ws) :
    ∀ w ∈ ws, ∀ j, w.fs.names j = fs.names j := by
  obtain ⟨g, h1, h2, h3, _⟩ := tenants_alone h ht
  intro w hw j
  rw [h1 w hw]
  exact names_of_places h2 h3 j

theorem treats_has {o : Options} {skip : Bytes → Prop} {p : α} {e : Entry} (h : fs.Treats o (who p).args skip e) : (who p).Has fs e := by
  rcases h.2 with h | ⟨h, _⟩
  · exact .inr h
  · left
    generalize e.dir = d at h
    induction h with
    | arg f d hf hl hk => exact .arg f d hf hl hk
    | sub e he _ _ hk _ ih => exact .sub e he ih hk

/-- So if each process alone would leave its trees with clean names, all of them together do: every entry that one of them is to treat has the name
that one should give it, and all others have the names they had. (`Q p` says what names `p` should give, `o p` and `ignored p` what it looks at: see C98.) -/
theorem tenants_cleaned (h : Tenants who calls fs depth slack level ps) {ws : List World} (ht : Together (ps.map fun p => (World.start fs, (calls p))) ws)
    (Q : α → Bytes → Bytes → Prop) (o : α → Options) (ignored : α → List Bytes)
    (hc : ∀ p ∈ ps, ∀ V, World.Steps (World.start fs) (calls p) V → fs.Cleaned (Q p) (o p) (who p).args (ignored p) V.fs) :
    ∃ g, (∀ w ∈ ws, w.fs = g) ∧ ∃ new : Entry → Bytes, g.entries = fs.entries.map (fun e => { e with name := new e }) ∧ ∀ e ∈ fs.entries,
      (∀ p ∈ ps, fs.Treats (o p) (who p).args (fun n => Hidden n ∨ n ∈ ignored p) e → Q p e.name (new e)) ∧
      ((∀ p ∈ ps, ¬ fs.Treats (o p) (who p).args Hidden e) → new e = e.name) ∧
      (new e = e.name ∨ ∃ p ∈ ps, (who p).Has fs e ∧ Q p e.name (new e)) := by
  obtain ⟨g, h1, hlen, hplace, halone, hrest⟩ := tenants_alone h ht
  have clean : ∀ p ∈ ps, ∃ new : Entry → Bytes, (∀ (k : Nat) (e : Entry), fs.entries[k]? = some e → (who p).Has fs e → g.entries[k]? = some { e with name := new e }) ∧
      ∀ e ∈ fs.entries, (fs.Treats (o p) (who p).args (fun n => Hidden n ∨ n ∈ ignored p) e → Q p e.name (new e)) ∧
        (¬ fs.Treats (o p) (who p).args Hidden e → new e = e.name) ∧ (new e = e.name ∨ Q p e.name (new e)) := by
    intro p hp
    obtain ⟨V, hV, hp1⟩ := halone p hp
    obtain ⟨new, hn1, hn2⟩ := hc p hp V hV
    refine ⟨new, fun k e hk hh => ?_, hn2⟩
    rw [hp1 k e hk hh, hn1, List.getElem?_map, hk]
    rfl
  have one : ∀ p ∈ ps, ∀ q ∈ ps, ∀ e ∈ fs.entries, (who p).Has fs e → (who q).Has fs e → p = q := by
    intro p hp q hq e he h1 h2
    refine Classical.byContradiction fun hne => ?_
    have hap := pairwise_of_ne (fun a b => treesApart_symm) h.apart p hp q hq hne
    exact treesApart_mine (h.fits hp) (h.fits hq) hap (((owns_iff (h.fits hp) he).2 h1).mine) (((owns_iff (h.fits hq) he).2 h2).mine)
  have all : ∃ N : α → Entry → Bytes, ∀ p ∈ ps, (∀ (k : Nat) (e : Entry), fs.entries[k]? = some e → (who p).Has fs e → g.entries[k]? = some { e with name := N p e }) ∧
      ∀ e ∈ fs.entries, (fs.Treats (o p) (who p).args (fun n => Hidden n ∨ n ∈ ignored p) e → Q p e.name (N p e)) ∧
        (¬ fs.Treats (o p) (who p).args Hidden e → N p e = e.name) ∧ (N p e = e.name ∨ Q p e.name (N p e)) := by
    classical
    refine ⟨fun p => if hp : p ∈ ps then Classical.choose (clean p hp) else fun e => e.name, fun p hp => ?_⟩
    simp only [dif_pos hp]
    exact Classical.choose_spec (clean p hp)
  obtain ⟨N, hN⟩ := all
  have pick : ∃ new : Entry → Bytes, ∀ e ∈ fs.entries, (∀ p ∈ ps, (who p).Has fs e → new e = N p e) ∧ ((∀ p ∈ ps, ¬ (who p).Has fs e) → new e = e.name) := by
    classical
    refine ⟨fun e => if hx : ∃ p, p ∈ ps ∧ (who p).Has fs e then N (Classical.choose hx) e else e.name, fun e he => ⟨?_, ?_⟩⟩
    · intro p hp hh
      have hx : ∃ p, p ∈ ps ∧ (who p).Has fs e := ⟨p, hp, hh⟩
      simp only [dif_pos hx]
      rw [one _ (Classical.choose_spec hx).1 p hp e he (Classical.choose_spec hx).2 hh]
    · intro hno
      show (if hx : ∃ p, p ∈ ps ∧ (who p).Has fs e then N (Classical.choose hx) e else e.name) = e.name
      rw [dif_neg]
      rintro ⟨p, hp, hh⟩
      exact hno p hp hh
  obtain ⟨new, hnew⟩ := pick
  refine ⟨g, h1, new, ?_, fun e he => ⟨fun p hp htr => ?_, fun hno => ?_, ?_⟩⟩
  · refine List.ext_getElem? fun k => ?_
    rw [List.getElem?_map]
    cases hk : fs.entries[k]? with
    | none =>
      rw [List.getElem?_eq_none_iff] at hk
      exact List.getElem?_eq_none_iff.2 (by omega)
    | some e =>
      have he := List.mem_of_getElem? hk
      by_cases hx : ∃ p ∈ ps, (who p).Has fs e
      · obtain ⟨p, hp, hh⟩ := hx
        rw [(hN p hp).1 k e hk hh, Option.map_some, (hnew e he).1 p hp hh]
      · have hno : ∀ p ∈ ps, ¬ (who p).Has fs e := fun p hp hh => hx ⟨p, hp, hh⟩
        rw [hrest k e hk hno, Option.map_some, (hnew e he).2 hno]
  · rw [(hnew e he).1 p hp (treats_has htr)]
    exact ((hN p hp).2 e he).1 htr
  · by_cases hx : ∃ p ∈ ps, (who p).Has fs e
    · obtain ⟨p, hp, hh⟩ := hx
      rw [(hnew e he).1 p hp hh]
      exact ((hN p hp).2 e he).2.1 (hno p hp)
    · exact (hnew e he).2 fun p hp hh => hx ⟨p, hp, hh⟩
  · by_cases hx : ∃ p ∈ ps, (who p).Has fs e
    · obtain ⟨p, hp, hh⟩ := hx
      rw [(hnew e he).1 p hp hh]
      exact ((hN p hp).2 e he).2.2.imp id fun hq => ⟨p, hp, hh, hq⟩
    · exact .inl ((hnew e he).2 fun p hp hh => hx ⟨p, hp, hh⟩)

end

end Detox
