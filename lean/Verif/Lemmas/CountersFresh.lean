import Verif.Lemmas.CountersRun
import Verif.Props.Brings

/-!
# Counters start at zero, and the whole program with counters
-/

set_option autoImplicit false

namespace Detox
open Spec

/-! ### New tables have counted nothing -/

theorem tablePut_most (t : Table) (k : Nat) (d : Bytes) : (tablePut t k d).1.most = t.most := by
  unfold tablePut
  split
  · rfl
  · split
    · rfl
    · split <;> rfl

theorem tableCopyRows_most : ∀ (rows : List Row) (dst : Table), (tableCopyRows dst rows).most = dst.most
  | [], _ => rfl
  | r :: rs, dst => by
    unfold tableCopyRows
    split
    · split
      · rw [tableCopyRows_most rs, tablePut_most]
      · exact tableCopyRows_most rs dst
    · exact tableCopyRows_most rs dst

theorem tableResize_most (t : Table) (rows : Int) (hash : Bool) : (tableResize t rows hash).most = 0 := by
  unfold tableResize
  rw [tableCopyRows_most]
  rfl

theorem parseTableLine_most {ctype l : Bytes} {st st' : Bool × Table} (h : parseTableLine ctype st l = some st') : st'.2.most = st.2.most := by
  unfold parseTableLine at h
  split at h
  · cases h; rfl
  · split at h
    · cases h; rfl
    · cases h; rfl
    · cases h; rfl
    · cases h; rfl
    · split at h
      · next hp =>
        cases h
        exact (congrArg (fun x => x.1.most) hp).symm.trans (tablePut_most _ _ _)
      · cases h

theorem parseTableLines_most {ctype : Bytes} : ∀ {ls : List Bytes} {st st' : Bool × Table}, parseTableLines ctype st ls = some st' →
    st'.2.most = st.2.most
  | [], _, _, h => by cases h; rfl
  | l :: ls, st, st', h => by
    unfold parseTableLines at h
    split at h
    · cases h
    · next hl => rw [parseTableLines_most h, parseTableLine_most hl]

theorem parseTableContent_most {ctype text : Bytes} {t : Table} (h : parseTableContent ctype text = some t) : t.most = 0 := by
  unfold parseTableContent at h
  obtain ⟨st, h1, rfl⟩ := Option.map_eq_some_iff.1 h
  rw [parseTableLines_most h1]
  rfl

theorem builtinNamed_most {n : Bytes} {t : Table} (h : BuiltinNamed n t) : t.most = 0 := by
  cases h with
  | iso8859_1 => exact tableResize_most _ _ _
  | unicode => exact tableResize_most _ _ _
  | safe => exact tableResize_most _ _ _
  | cp1252 => exact tableResize_most _ _ _

theorem inUse_most {I : Invocation} {ss : List Setting} {tr : List Event} {q : Sequence} (h : InUse I ss tr q) :
    ∀ f ∈ q.filters, ∀ t, f.table = some t → t.most = 0 := by
  intro f hf t ht
  rcases C91_tables_in_use h hf ht with ⟨n, hn⟩ | ⟨_, _, _, hp⟩
  · exact builtinNamed_most hn
  · exact parseTableContent_most hp

/-! ### `main` -/

/-- There is so much to look up that a counter may have overflowed. -/
def MayOverflow (I : Invocation) (ss : List Setting) (tr : List Event) : Prop :=
  ∃ q, InUse I ss tr q ∧ intMax < weigh tr * reach q.filters

theorem detoxMain_tracks {P : Platform} {I : Invocation} {fuel : Nat} {ss : List Setting} {ws : List Bytes}
    (hc : CommandLine I.posixlyCorrect I.args ss ws) :
    Tracks (MayOverflow I ss) (fun _ a b => a = b) [] (detoxMainCounted P I fuel) (detoxMain P I fuel) := by
  unfold detoxMainCounted detoxMain
  refine (Tracks.refl _ []).bind ?_
  rintro h o _ ⟨rfl, t0, rfl, h0⟩
  obtain ⟨_, rfl, ha, _⟩ := parseOptions_ret hc h0
  unfold detoxConfiguredCounted detoxConfigured
  refine (Tracks.refl _ _).bind ?_
  rintro h c _ ⟨rfl, r1, hr, h1⟩
  replace hr : h = r1 := hr
  subst hr
  split
  · exact ((Tracks.refl _ _).mono (fun _ h => h) fun _ _ _ h => h.1)
  · cases hq : sequenceChooseDefault c.sequences o.sequenceName with
    | none => exact ((Tracks.refl _ _).mono (fun _ h => h) fun _ _ _ h => h.1)
    | some q =>
      simp only
      refine (Tracks.refl _ _).bind ?_
      rintro _ q' _ ⟨rfl, r2, rfl, h2⟩
      rw [ha.2.2.2.2.2.2.2.1] at h1
      rw [sequenceChooseDefault_iff, ha.2.2.2.2.2.2.2.2] at hq
      have use : ∀ t, InUse I ss (h ++ r2 ++ t) q' := fun t => ⟨c, q, h, r2, t, rfl, h1, hq, h2⟩
      have := detoxWork_tracks (P := P) (h0 := h ++ r2)
        (o := { o with filesToIgnore := c.filesToIgnore, sequenceToUse := some q' }) rfl (inUse_most (use [])) fuel
      refine this.mono ?_ fun _ _ _ _ => trivial
      rintro _ ⟨t, rfl, hm⟩
      refine ⟨q', use t, Nat.lt_of_lt_of_le hm (Nat.mul_le_mul_right _ ?_)⟩
      rw [weigh_append]
      omega

end Detox
