import Verif.Props.EndToEnd
import Verif.Spec.Inline
import Verif.Spec.DryRun

/-!
# With nothing configured, nothing is printed before the work begins
-/

set_option autoImplicit false

namespace Detox

open Spec

/-- Nothing but failed attempts at reading files. -/
def Fruitless (tr : List Event) : Prop := ∀ e ∈ tr, ∃ f, e = Event.slurp (some f) none

/-- If the program returns, it has read a file, or all it did were failed attempts. -/
def Prog.Tells {α : Type} (p : Prog α) : Prop :=
  ∀ tr a, Trace p tr (.ret a) → Fruitless tr ∨ ∃ f text, Event.slurp (some f) (some text) ∈ tr

theorem Prog.Tells.ret {α : Type} (a : α) : (Prog.ret a).Tells := by
  intro tr b h
  cases h
  exact .inl fun e he => by cases he

theorem Prog.Tells.ofRes {α : Type} (x : Res α) : (Prog.ofRes x).Tells := by
  intro tr b h
  cases x with
  | ok a => cases h; exact .inl fun e he => by cases he
  | exit n => cases h
  | ub u => cases h
  | stuck => cases h

theorem Prog.Tells.bind {α β : Type} {p : Prog α} {f : α → Prog β} (hp : p.Tells) (hf : ∀ a, (f a).Tells) : (p.bind f).Tells := by
  intro tr b h
  obtain ⟨a, t1, t2, rfl, h1, h2⟩ := trace_bind_ret h
  rcases hp _ _ h1 with g1 | ⟨n, text, g1⟩
  · rcases hf a _ _ h2 with g2 | ⟨n, text, g2⟩
    · exact .inl fun e he => (List.mem_append.1 he).elim (g1 e) (g2 e)
    · exact .inr ⟨n, text, List.mem_append_right _ g2⟩
  · exact .inr ⟨n, text, List.mem_append_left _ g1⟩

theorem parseConfigFile_tells (file : Bytes) (before : Option ConfigFile × Nat) : (parseConfigFile file before).Tells := by
  intro tr a h
  unfold parseConfigFile at h
  cases h with
  | slurp _ _ r tr' _ h =>
    cases r with
    | none =>
      cases h
      exact .inl fun e he => ⟨file, by simpa using he⟩
    | some text => exact .inr ⟨file, text, List.mem_cons_self ..⟩

theorem tryConfig_tells (path : Bytes) (before : Option ConfigFile × Nat) : (tryConfig path before).Tells := by
  unfold tryConfig
  split
  · exact parseConfigFile_tells _ _
  · exact .ret _

theorem configFileLoad_tells (E : ConfigEnv) : (configFileLoad E none).Tells := by
  unfold configFileLoad
  refine .bind ?_ fun c1 => .bind ?_ fun c2 => .bind ?_ fun c3 => .bind ?_ fun c4 => .bind ?_ fun c5 => ?_
  · cases E.sysconfdir with
    | none => exact .ret _
    | some d => exact tryConfig_tells _ _
  · split
    · exact .ret _
    · exact parseConfigFile_tells _ _
  · split
    · exact .ret _
    · exact parseConfigFile_tells _ _
  · cases E.home with
    | none => exact .ret _
    | some d => exact tryConfig_tells _ _
  · cases E.xdg with
    | none => exact .ret _
    | some d => exact tryConfig_tells _ _
  · split
    · exact .ret _
    · exact .ofRes _

theorem mem_filesRead {tr : List Event} {p : Bytes} {r : Option Bytes} (h : Event.slurp (some p) r ∈ tr) : (p, r) ∈ filesRead tr := by
  induction tr with
  | nil => cases h
  | cons e tr ih =>
    rcases List.mem_cons.1 h with rfl | h
    · exact List.mem_cons_self ..
    · have := ih h
      unfold filesRead
      split
      · simp_all
      · simp_all
      · simp_all

theorem firstOf_reads {ps : List Bytes} {reads : List (Bytes × Option Bytes)} {r : List (Bytes × Bytes)} (h : FirstOf ps reads r) :
    ∀ x ∈ reads, x.1 ∈ ps := by
  induction h with
  | nothing => intro x hx; cases hx
  | found p ps text =>
    intro x hx
    rw [List.mem_singleton.1 hx]
    exact List.mem_cons_self ..
  | missing p ps reads r _ ih =>
    intro x hx
    rcases List.mem_cons.1 hx with rfl | hx
    · exact List.mem_cons_self ..
    · exact List.mem_cons_of_mem _ (ih x hx)

theorem allOf_reads {ps : List Bytes} {reads : List (Bytes × Option Bytes)} {r : List (Bytes × Bytes)} (h : AllOf ps reads r) :
    ∀ x ∈ reads, x.1 ∈ ps := by
  induction h with
  | nothing => intro x hx; cases hx
  | found p ps text reads r _ ih =>
    intro x hx
    rcases List.mem_cons.1 hx with rfl | hx
    · exact List.mem_cons_self ..
    · exact List.mem_cons_of_mem _ (ih x hx)
  | missing p ps reads r _ ih =>
    intro x hx
    rcases List.mem_cons.1 hx with rfl | hx
    · exact List.mem_cons_self ..
    · exact List.mem_cons_of_mem _ (ih x hx)

/-- Looking for config files where there are none. -/
theorem unconfigured_fruitless {E : ConfigEnv} {tr : List Event} {c : ConfigFile} (h : Trace (configFileLoad E none) tr (.ret c))
    (hn : ∀ p ∈ systemFiles E ++ userFiles E, ∀ text, Event.slurp (some p) (some text) ∉ tr) : Fruitless tr := by
  rcases configFileLoad_tells E _ _ h with h1 | ⟨f, text, h1⟩
  · exact h1
  · obtain ⟨sys, user, ex1, ex2, g1, g2, g3, _⟩ := C44_without_option_f h
    have := mem_filesRead h1
    rw [g1] at this
    refine absurd h1 (hn f ?_ text)
    rcases List.mem_append.1 this with h' | h'
    · exact List.mem_append_left _ (firstOf_reads g2 _ h')
    · exact List.mem_append_right _ (allOf_reads g3 _ h')

/-- Filters of the built-in sequences read no tables. -/
theorem reviewSequence_reads_nothing {ctype : Bytes} {datadir : Option Bytes} {q q' : Sequence} (hq : ∀ f ∈ q.filters, f.SelfContained)
    {tr : List Event} (h : Trace (reviewSequence ctype datadir q) tr (.ret q')) : tr = [] := by
  have key : ∀ fs tr fs', (∀ f ∈ fs, f.SelfContained) → Trace (loadTables ctype datadir fs) tr (.ret fs') → tr = [] := by
    intro fs
    induction fs with
    | nil => intro tr fs' _ h; cases h; rfl
    | cons f fs ih =>
      intro tr fs' hs h
      unfold loadTables at h
      obtain ⟨t, tr1, tr2, rfl, h1, h2⟩ := trace_bind_ret h
      obtain ⟨fs1, tr3, tr4, rfl, h3, h4⟩ := trace_bind_ret h2
      rw [(loadTable_selfContained (hs f (by simp)) h1).1, ih _ _ (fun g hg => hs g (by simp [hg])) h3]
      cases h4
      rfl
  unfold reviewSequence at h
  obtain ⟨fs, tr1, tr2, rfl, h1, h2⟩ := trace_bind_ret h
  rw [key _ _ _ hq h1]
  cases h2
  rfl

/-- With nothing configured, before the work begins there is nothing but attempts at reading config files. -/
theorem unconfigured_reads {I : Invocation} {ss : List Setting} {reads tr : List Event} {o : Options} {ignored : List Bytes}
    (hrd : Ready I ss reads o ignored) (hu : Unconfigured I ss tr) (hr : ∀ e ∈ reads, e ∈ tr) : Fruitless reads := by
  obtain ⟨c, q, q', r1, r2, rfl, g1, g2, g3, g4, g5⟩ := hrd.stages
  rw [hu.1] at g1
  have hn : ∀ p ∈ systemFiles I.config ++ userFiles I.config, ∀ text, Event.slurp (some p) (some text) ∉ r1 :=
    fun p hp text hm => hu.2 p hp text (hr _ (List.mem_append_left _ hm))
  have hs := unconfigured_spoof g1 hn
  have hq : q ∈ spoofSequences := by rw [← spoof_eq hs]; exact chosen_mem g2
  rw [reviewSequence_reads_nothing (spoof_selfContained q hq) g3, List.append_nil]
  exact unconfigured_fruitless g1 hn

theorem Fruitless.outputs {tr t : List Event} (h : Fruitless tr) : outputs (tr ++ t) = outputs t := by
  show List.filterMap _ _ = _
  rw [List.filterMap_append, List.filterMap_eq_nil_iff.2]
  · rfl
  · intro e he
    obtain ⟨f, rfl⟩ := h e he
    rfl

theorem Fruitless.outText {tr t : List Event} (h : Fruitless tr) : outText (tr ++ t) = outText t := by
  induction tr with
  | nil => rfl
  | cons e tr ih =>
    obtain ⟨f, rfl⟩ := h e (List.mem_cons_self ..)
    exact ih fun x hx => h x (List.mem_cons_of_mem _ hx)

end Detox
