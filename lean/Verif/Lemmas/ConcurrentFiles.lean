import Verif.Lemmas.ConcurrentRun
import Verif.Props.Result

/-!
# What several processes do to their files
-/

set_option autoImplicit false

namespace Detox
open Spec

/-- Someone who renames files, with the calls it makes. -/
structure Worker where
  who : Renamer
  calls : List Event

/-- The calls are those of a run over the files, after some reading. -/
def Worker.Works (w : Worker) (wet : Prop) : Prop :=
  ∃ reads t o ws seen R, w.calls = reads ++ t ∧ (∀ e ∈ reads, Harmless e) ∧ ArgsScanBy R o ws w.who.args [] t seen ∧ (wet → o.dryRun = false) ∧
    SameFor R w.who.R w.who.args ∧ ∀ a b c, R a b → R a c → b = c

/-- Where the files are, and where they should be. -/
def territory (fs : FS) (a : Renamer) (d : Ino) (n : Bytes) : Prop := ∃ f ∈ a.args, ∃ p, Concerns a.R f p ∧ fs.locate p = some (d, n)

theorem farApart_disjoint {fs : FS} {a b : Renamer} (h : FarApart fs a b) : Disjoint fs (territory fs a) (territory fs b) := by
  rintro d n n' ⟨f, hf, p, hp, hl⟩ ⟨g, hg, q, hq, hl'⟩ he
  refine h f hf g hg p q (d, fs.norm d n) hp hq ?_ ?_
  · unfold FS.slot; rw [hl]; rfl
  · unfold FS.slot; rw [hl', he]; rfl

theorem worker_careful {fair wet : Prop} {w : Worker} (hw : w.Works wet) {fs : FS} (hu : fs.Unique) (hf : w.who.Files fs) :
    Careful fair (territory fs w.who) fs w.calls := by
  obtain ⟨reads, t, o, ws, seen, R, h1, h2, h3, _, h5, _⟩ := hw
  have ht : Territory R w.who.args (territory fs w.who) fs := ⟨hu, fun f hf p hp d n hd => ⟨f, hf, p, h5.concerns hf hp, hd⟩, hf⟩
  have hc : Careful fair (territory fs w.who) fs reads := careful_harmless h2
  rw [h1]
  exact hc.append fun fs1 hs => args_careful (fun _ h => h) (hc.keeps ht hs) h3

theorem workers_careful {fair wet : Prop} {ws : List Worker} (hw : ∀ w ∈ ws, w.Works wet) {fs : FS} (hu : fs.Unique) (hf : ∀ w ∈ ws, w.who.Files fs)
    (hfar : ws.Pairwise fun a b => FarApart fs a.who b.who) : AllCareful fair fs (ws.map fun w => (territory fs w.who, w.calls)) := by
  refine ⟨hu, ?_, fun p hp => ?_⟩
  · rw [List.pairwise_map]
    exact hfar.imp fun h => farApart_disjoint h
  · obtain ⟨w, hw', rfl⟩ := List.mem_map.1 hp
    exact worker_careful (hw w hw') hu (hf w hw')

/-- Interleaved or one after the other. -/
theorem workers_serial {fair wet : Prop} {ws : List Worker} (hw : ∀ w ∈ ws, w.Works wet) {fs fs' : FS} (hu : fs.Unique) (hf : ∀ w ∈ ws, w.who.Files fs)
    (hfar : ws.Pairwise fun a b => FarApart fs a.who b.who) {m : List Event} (hm : Interleaved (ws.map (·.calls)) m) (hs : StepsBy fair fs m fs') :
    StepsBy fair fs (ws.flatMap (·.calls)) fs' := by
  have := AllCareful.serial hm (ps := ws.map fun w => (territory fs w.who, w.calls)) (by simp [Function.comp_def]) (workers_careful hw hu hf hfar) hs
  simpa [List.flatMap_map] using this

/-- At any time every object has as many names as before. -/
theorem workers_names {fair wet : Prop} {ws : List Worker} (hw : ∀ w ∈ ws, w.Works wet) {fs fs1 : FS} (hu : fs.Unique) (hf : ∀ w ∈ ws, w.who.Files fs)
    (hfar : ws.Pairwise fun a b => FarApart fs a.who b.who) {m1 m2 : List Event} (hm : Interleaved (ws.map (·.calls)) (m1 ++ m2)) (hs : StepsBy fair fs m1 fs1)
    (j : Ino) : fs1.names j = fs.names j := by
  have := AllCareful.mixed hm (ps := ws.map fun w => (territory fs w.who, w.calls)) (by simp [Function.comp_def]) (workers_careful (fair := fair) hw hu hf hfar)
  exact (this.left.leavesAlone (T2 := fun _ _ => False) (fun _ _ _ _ h => h.elim) hu hs).names j

/-! ### What becomes of the files -/

theorem LeavesAlone.mono {T T' : Ino → Bytes → Prop} {a b : FS} (h : LeavesAlone T a b) (hm : ∀ d n, T' d n → T d n) : LeavesAlone T' a b :=
  ⟨h.same, h.uniq, h.locate, h.names, fun d n ht => h.find d n (hm d n ht), fun p hp => h.lstat p fun d n hd => hm d n (hp d n hd)⟩

theorem LeavesAlone.symm {T : Ino → Bytes → Prop} {a b : FS} (hu : a.Unique) (h : LeavesAlone T a b) : LeavesAlone T b a := by
  refine ⟨?_, hu, fun p => (h.locate p).symm, fun j => (h.names j).symm, fun d n ht => (h.find d n ht).symm, fun p hp => (h.lstat p fun d n hd => hp d n ?_).symm⟩
  · obtain ⟨es, rfl⟩ := h.same
    exact ⟨a.entries, rfl⟩
  · rw [h.locate]; exact hd

theorem LeavesAlone.lookup {T : Ino → Bytes → Prop} {a b : FS} (h : LeavesAlone T a b) {p : Bytes} (hp : ∀ d n, a.locate p = some (d, n) → T d n) {i : Ino}
    (hi : b.lookup p = some i) : a.lookup p = some i := by
  obtain ⟨st, h1, c, d⟩ := FS_lstat_lookup hi
  rw [h.lstat p hp] at h1
  obtain ⟨j, hj, x, y⟩ := FS_lstat_some h1
  rw [hj]
  cases i; cases j
  simp only at c d x y
  rw [← x, ← y, c, d]

theorem LeavesAlone.wants {a : Renamer} {fs fs1 : FS} (h : LeavesAlone (territory fs a) fs fs1) {f dir w : Bytes} {e : Entry} (hf : f ∈ a.args)
    (hw : Wants a.R fs f dir e w) : Wants a.R fs1 f dir e w := by
  obtain ⟨name, k0, k1, k2, k3, k4, k5⟩ := hw
  exact ⟨name, k0, k1, by rw [h.locate]; exact k2, by rw [h.find _ _ ⟨f, hf, f, .inl rfl, k2⟩]; exact k3, k4, k5⟩

theorem LeavesAlone.territory {a b : Renamer} {fs fs1 : FS} (h : LeavesAlone (territory fs b) fs fs1) : Detox.territory fs1 a = Detox.territory fs a := by
  funext d n
  unfold Detox.territory
  simp only [h.locate]

theorem LeavesAlone.canHave {a : Renamer} {fs fs1 : FS} (h : LeavesAlone (Detox.territory fs a) fs fs1) {f dir w : Bytes} {e : Entry} (hf : f ∈ a.args)
    (hsl : NewNameHasNoSlash a.R f) (hw : Wants a.R fs f dir e w) (hc : CanHave fs dir e w) : CanHave fs1 dir e w := by
  obtain ⟨name, k0, k1, k2, k3, k4, k5⟩ := hw
  have hl := locate_sibling k0 k1 k2 hc.proper (hsl _ _ _ k1 k4) hc.allowed
  have hfind := h.find _ _ ⟨f, hf, dir ++ w, .inr ⟨dir, name, w, k1, k4, rfl⟩, hl⟩
  refine ⟨hc.proper, by rw [h.denied]; exact hc.allowed, fun e' he' h1 h2 => ?_⟩
  have : fs1.find e.dir w = some e' := (find_iff h.uniq).2 ⟨he', h1, h2⟩
  rw [hfind] at this
  obtain ⟨m1, m2, m3⟩ := FS_find_some this
  rw [h.names]
  exact hc.free e' m1 m2 m3

/-- One worker after the other: what becomes of the entries. -/
theorem workers_become : ∀ {ws : List Worker} {fs fs' : FS}, (∀ w ∈ ws, w.Works True) → fs.Unique →
    (∀ w ∈ ws, w.who.Files fs) → (∀ w ∈ ws, ∀ f ∈ w.who.args, NewNameHasNoSlash w.who.R f) → (∀ w ∈ ws, Apart w.who.R fs w.who.args) →
    ws.Pairwise (fun a b => FarApart fs a.who b.who) → FS.FairSteps fs (ws.flatMap (·.calls)) fs' →
    ∃ g : Entry → Entry, fs' = { fs with entries := fs.entries.map g } ∧ ∀ e ∈ fs.entries, BecomesAmong fs (ws.map (·.who)) e (g e)
  | [], fs, fs', _, _, _, _, _, _, hs => by
    cases hs
    exact ⟨id, by simp, fun e _ => .kept (by simp)⟩
  | w :: ws, fs, fs', hw, hu, hf, hsl, hap, hfar, hs => by
    obtain ⟨hfar1, hfar2⟩ := List.pairwise_cons.1 hfar
    rw [List.flatMap_cons] at hs
    obtain ⟨fs1, hs1, hs2⟩ := hs.append_inv
    have hcare := worker_careful (fair := True) (hw w (by simp)) hu (hf w (by simp))
    have alone : ∀ v ∈ ws, LeavesAlone (territory fs v.who) fs fs1 := fun v hv =>
      hcare.leavesAlone (farApart_disjoint (hfar1 v hv)) hu (stepsBy_fair.2 hs1)
    have alone0 : LeavesAlone (territory fs ⟨fun _ _ => False, []⟩) fs fs1 :=
      hcare.leavesAlone (by rintro d n n' _ ⟨f, hf, _⟩; cases hf) hu (stepsBy_fair.2 hs1)
    have slot1 : ∀ p, fs1.slot p = fs.slot p := by
      intro p
      unfold FS.slot
      rw [alone0.locate, alone0.norm]
    -- the first one
    obtain ⟨reads, t, o, ig, seen, R, c1, c2, c3, c4, c5, c6⟩ := hw w (by simp)
    have hs1' := hs1
    rw [c1] at hs1'
    obtain ⟨y, hy, hs3⟩ := hs1'.append_inv
    have := harmless_steps c2 hy
    subst this
    obtain ⟨g1, e1, b1⟩ := args_effect c6 (c4 trivial) w.who.args c3 hs3 hu (hf w (by simp))
      (fun f hf dir name v h1 h2 => hsl w (by simp) f hf dir name v h1 ((c5 f hf _ _ h1 v).1 h2)) (c5.symm.apart (hap w (by simp)))
    -- the others
    obtain ⟨g2, e2, b2⟩ := workers_become (ws := ws) (fun v hv => hw v (by simp [hv])) alone0.uniq
      (fun v hv f hf' i hi => by
        rw [alone0.kind]
        exact hf v (by simp [hv]) f hf' i ((alone v hv).lookup (fun d n hd => ⟨f, hf', f, .inl rfl, hd⟩) hi))
      (fun v hv => hsl v (by simp [hv]))
      (fun v hv => (hap v (by simp [hv])).imp fun h p q x hp hq h1 h2 => h p q x hp hq (by rw [← slot1]; exact h1) (by rw [← slot1]; exact h2))
      (hfar2.imp fun h f hf g hg p q x hp hq h1 h2 => h f hf g hg p q x hp hq (by rw [← slot1]; exact h1) (by rw [← slot1]; exact h2)) hs2
    refine ⟨fun x => g2 (g1 x), ?_, fun e he => ?_⟩
    · rw [e2, e1]
      simp [Function.comp_def]
    have hin : g1 e ∈ fs1.entries := by rw [e1]; exact List.mem_map.2 ⟨e, he, rfl⟩
    have h2 := b2 _ hin
    show BecomesAmong y ((w :: ws).map (·.who)) e (g2 (g1 e))
    have h1 := c5.becomes (b1 e he)
    generalize g1 e = e1' at h1 h2 hin ⊢
    rcases h1 with ⟨f, dir, v, hfa, hwa, hca⟩ | hno
    · -- nobody else has to do with it
      have hkeep : g2 { e with name := v } = { e with name := v } := by
        generalize hgen : g2 { e with name := v } = z at h2 ⊢
        cases h2 with
        | kept _ => rfl
        | renamed t f' dir' v' ht hf' hw' hc' =>
          exfalso
          obtain ⟨u, hu', rfl⟩ := List.mem_map.1 ht
          obtain ⟨name, k0, k1, k2, k3, k4, k5⟩ := hwa
          obtain ⟨name', k0', k1', k2', k3', k4', k5'⟩ := hw'
          have hl := locate_sibling k0 k1 k2 hca.proper (hsl w (by simp) f hfa _ _ _ k1 k4) hca.allowed
          obtain ⟨_, _, m3⟩ := FS_find_some k3'
          rw [alone0.locate] at k2'
          rw [alone0.norm] at m3
          exact farApart_disjoint (hfar1 u hu') e.dir v name' ⟨f, hfa, dir ++ v, .inr ⟨dir, name, v, k1, k4, rfl⟩, hl⟩ ⟨f', hf', f', .inl rfl, k2'⟩ m3
      rw [hkeep]
      exact .renamed w.who f dir v (by simp) hfa hwa hca
    · generalize hgen : g2 e = z at h2 ⊢
      cases h2 with
      | renamed t f' dir' v' ht hf' hw' hc' =>
        obtain ⟨u, hu', rfl⟩ := List.mem_map.1 ht
        have A := (alone u hu').symm hu
        have A' : LeavesAlone (territory fs1 u.who) fs1 y := by rw [(alone u hu').territory]; exact A
        refine .renamed u.who f' dir' v' (by simp; exact .inr ⟨u, hu', rfl⟩) hf' (A'.wants hf' hw') (A'.canHave hf' (hsl u (by simp [hu']) f' hf') hw' hc')
      | kept hk =>
        refine .kept fun t ht f' hf' dir' v' hw' hc' => ?_
        rw [List.map_cons] at ht
        rcases List.mem_cons.1 ht with rfl | ht
        · exact hno f' hf' dir' v' hw' hc'
        · have ht' := ht
          obtain ⟨u, hu', rfl⟩ := List.mem_map.1 ht
          exact hk _ ht' f' hf' dir' v' ((alone u hu').wants hf' hw') ((alone u hu').canHave hf' (hsl u (by simp [hu']) f' hf') hw' hc')

end Detox
