import Verif.Lemmas.Stream
import Verif.Lemmas.Main

/-!
# Reading piece by piece, in the whole program
-/

set_option autoImplicit false

namespace Detox
open Spec

theorem trace_stopped {α : Type} {p : Prog α} {t : List Event} {o : Outcome α} (h : Trace p t o) : Trace p t .running := by
  induction h with
  | ret => exact .stop _
  | stop => exact .stop _
  | exit => exact .stop _
  | ub => exact .stop _
  | stuck => exact .stop _
  | lstat p k r tr o _ ih => exact .lstat _ _ _ _ _ ih
  | rename p q k r tr o _ ih => exact .rename _ _ _ _ _ _ ih
  | opendir p k r tr o _ ih => exact .opendir _ _ _ _ _ ih
  | readdir p k r tr o _ ih => exact .readdir _ _ _ _ _ ih
  | closedir p k tr o _ ih => exact .closedir _ _ _ _ ih
  | slurp p k r tr o _ ih => exact .slurp _ _ _ _ _ ih
  | out s k tr o _ ih => exact .out _ _ _ _ ih
  | err s k tr o _ ih => exact .err _ _ _ _ ih

/-! ### The whole program -/

theorem condensed_append {over : Bool} {tr2 : List FlowEvent} {tr2' : List Event} (h2 : Condensed over tr2 tr2') {tr1 : List FlowEvent} {tr1' : List Event}
    (h1 : Condensed true tr1 tr1') : Condensed over (tr1 ++ tr2) (tr1' ++ tr2') := by
  generalize hb : true = b at h1
  induction h1 with
  | nil => exact h2
  | sys _ _ _ _ _ ih => exact .sys _ _ _ _ (ih hb)
  | unopened _ path tr tr' _ ih => exact .unopened _ _ _ _ (ih hb)
  | file _ path part tr text rest tr' a1 a2 a3 a4 _ ih =>
    have := Condensed.file over path part _ text rest _ a1 a2 a3 a4 (ih hb)
    simpa only [List.cons_append, List.append_assoc] using this
  | fileCut => cases hb
  | stdin _ part tr text rest tr' a1 a2 a3 a4 _ ih =>
    have := Condensed.stdin over part _ text rest _ a1 a2 a3 a4 (ih hb)
    simpa only [List.cons_append, List.append_assoc] using this
  | stdinCut => cases hb

theorem condensed_sys {over : Bool} {tr2 : List FlowEvent} {tr2' : List Event} (h2 : Condensed over tr2 tr2') :
    ∀ (tr : List Event), Condensed over (tr.map .sys ++ tr2) (tr ++ tr2')
  | [] => h2
  | _ :: tr => .sys _ _ _ _ (condensed_sys h2 tr)

theorem steady_weaken : ∀ {b : Bool} {tr : List FlowEvent}, Steady b tr → Steady false tr
  | _, [], _ => trivial
  | b, .sys _ :: tr, h => steady_weaken (b := b) (tr := tr) h
  | _, .fopen _ _ :: _, h => h
  | b, .read _ (.data _) :: tr, h => ⟨by simp, steady_weaken (b := b) (tr := tr) h.2⟩
  | _, .read _ (.fail _) :: _, h => h

theorem steady_sys {b : Bool} {tr2 : List FlowEvent} : ∀ {tr : List Event}, Steady b (tr.map .sys ++ tr2) → Steady b tr2
  | [], h => h
  | _ :: tr, h => steady_sys (tr := tr) h

theorem parseStream_any {P : Platform} {o : Options} {rounds : Nat} {path : Option Bytes} {tr : List FlowEvent} {oc : Outcome Unit}
    (h : FlowTrace (parseStream P o rounds path) tr oc) (hst : Steady false tr) (hoc : oc = .stuck → (delivered tr).length < rounds) :
    ∃ tr', Condensed (decide (oc = .ret ())) tr tr' ∧ Trace (parseInline P o path) tr' oc := by
  cases path with
  | none =>
    obtain ⟨hc, text, rest, hu, hT, hret⟩ := streamLoop_any P o none rounds _ false tr oc h ⟨by simp, by simp⟩ hst (by simpa [delivered] using hoc)
    simp only [List.nil_append] at hu
    refine ⟨.slurp none (some text) :: otherCalls tr, ?_, .slurp _ _ _ _ _ (hT _ (Nat.le_refl _))⟩
    by_cases ho : oc = .ret ()
    · obtain ⟨g1, g2⟩ := hret ho
      have := Condensed.stdin (decide (oc = .ret ())) tr [] text rest [] hc hu g1 (g2 rfl) (.nil _)
      simpa using this
    · rw [decide_eq_false ho]
      exact .stdinCut tr text rest hc hu
  | some file =>
    unfold parseStream at h
    cases h with
    | stop => exact ⟨[], .nil _, .stop _⟩
    | fopen _ _ ok t _ h =>
      cases ok with
      | false =>
        simp only [Bool.false_eq_true, if_false] at h
        have : ∃ t', Condensed (decide (oc = .ret ())) t t' ∧ Trace (.err (file ++ lit ": ") (.ret ()) : Prog Unit) t' oc := by
          cases h with
          | stop => exact ⟨[], .nil _, .stop _⟩
          | err _ _ t _ h =>
            cases h with
            | stop => exact ⟨_, .sys _ _ _ _ (.nil _), .err _ _ _ _ (.stop _)⟩
            | ret => exact ⟨_, .sys _ _ _ _ (.nil _), .err _ _ _ _ (.ret _)⟩
        obtain ⟨t', h1, h2⟩ := this
        exact ⟨_, .unopened _ _ _ _ h1, .slurp _ _ _ _ _ h2⟩
      | true =>
        simp only [if_true] at h
        obtain ⟨hc, text, rest, hu, hT, hret⟩ := streamLoop_any P o (some file) rounds _ false t oc h ⟨by simp, by simp⟩ hst (by simpa [delivered] using hoc)
        simp only [List.nil_append] at hu
        refine ⟨.slurp (some file) (some text) :: otherCalls t, ?_, .slurp _ _ _ _ _ (hT _ (Nat.le_refl _))⟩
        by_cases ho : oc = .ret ()
        · obtain ⟨g1, g2⟩ := hret ho
          have := Condensed.file (decide (oc = .ret ())) file t [] text rest [] hc hu g1 (g2 rfl) (.nil _)
          simpa using this
        · rw [decide_eq_false ho]
          exact .fileCut file t text rest hc hu

theorem streamArg_any {P : Platform} {o : Options} {rounds : Nat} {file : Bytes} {tr : List FlowEvent} {oc : Outcome Unit}
    (h : FlowTrace (streamArg P o rounds file) tr oc) (hst : Steady false tr) (hoc : oc = .stuck → (delivered tr).length < rounds) :
    ∃ tr', Condensed (decide (oc = .ret ())) tr tr' ∧ Trace (inlineArg P o file) tr' oc := by
  unfold streamArg at h
  cases h with
  | stop => exact ⟨[], .nil _, .stop _⟩
  | lstat _ _ r t _ h =>
    have complain : ∀ (s : Bytes), FlowTrace (.err s (.ret ()) : Flow Unit) t oc →
        ∃ t', Condensed (decide (oc = .ret ())) t t' ∧ Trace (.err s (.ret ()) : Prog Unit) t' oc := by
      intro s h
      cases h with
      | stop => exact ⟨[], .nil _, .stop _⟩
      | err _ _ t _ h =>
        cases h with
        | stop => exact ⟨_, .sys _ _ _ _ (.nil _), .err _ _ _ _ (.stop _)⟩
        | ret => exact ⟨_, .sys _ _ _ _ (.nil _), .err _ _ _ _ (.ret _)⟩
    cases r with
    | none =>
      obtain ⟨t', h1, h2⟩ := complain _ h
      exact ⟨_, .sys _ _ _ _ h1, .lstat _ _ _ _ _ h2⟩
    | some st =>
      by_cases hk : st.kind = .dir
      · simp only [if_pos hk] at h
        obtain ⟨t', h1, h2⟩ := complain _ h
        refine ⟨_, .sys _ _ _ _ h1, .lstat _ _ _ _ _ ?_⟩
        simp only [if_pos hk]
        exact h2
      · simp only [if_neg hk] at h
        obtain ⟨t', h1, h2⟩ := parseStream_any h hst (by simpa [delivered] using hoc)
        refine ⟨_, .sys _ _ _ _ h1, .lstat _ _ _ _ _ ?_⟩
        simp only [if_neg hk]
        exact h2

theorem sameEnd_unit {o o' : Outcome Unit} (h : o.SameEnd o') : o = o' ∧ o ≠ .ret () := by
  cases h <;> exact ⟨rfl, by simp⟩

theorem trace_bind_end {α β : Type} {p : Prog α} {r : List Event} {o : Outcome α} {o' : Outcome β} (h : Trace p r o)
    (hs : o.SameEnd o') {f : α → Prog β} : Trace (p.bind f) r o' := by
  induction h with
  | ret => cases hs
  | stop => cases hs; exact .stop _
  | exit => cases hs; exact .exit _
  | ub => cases hs; exact .ub _
  | stuck => cases hs; exact .stuck
  | lstat p k r tr o _ ih => exact .lstat _ _ _ _ _ (ih hs)
  | rename p q k r tr o _ ih => exact .rename _ _ _ _ _ _ (ih hs)
  | opendir p k r tr o _ ih => exact .opendir _ _ _ _ _ (ih hs)
  | readdir p k r tr o _ ih => exact .readdir _ _ _ _ _ (ih hs)
  | closedir p k tr o _ ih => exact .closedir _ _ _ _ (ih hs)
  | slurp p k r tr o _ ih => exact .slurp _ _ _ _ _ (ih hs)
  | out s k tr o _ ih => exact .out _ _ _ _ (ih hs)
  | err s k tr o _ ih => exact .err _ _ _ _ (ih hs)

theorem streamFileLoop_any {P : Platform} {o : Options} {rounds : Nat} : ∀ (n : Nat) (l : Filelist) (tr : List FlowEvent) (oc : Outcome Unit),
    FlowTrace (streamFileLoop P o rounds n l) tr oc → Steady false tr → (oc = .stuck → (delivered tr).length < rounds) →
    ∃ tr', Condensed (decide (oc = .ret ())) tr tr' ∧ Trace (inlineFileLoop P o n l) tr' oc
  | 0, l, tr, oc, h, hst, hoc => by
    cases h with
    | stop => exact ⟨[], .nil _, .stop _⟩
    | stuck => exact ⟨[], .nil _, .stuck⟩
  | n + 1, l, tr, oc, h, hst, hoc => by
    unfold streamFileLoop at h
    unfold inlineFileLoop
    rcases flow_ofRes_any h with ⟨p, hp, h⟩ | ⟨rfl, rfl⟩ | ⟨rfl, hf⟩
    · rw [hp]
      obtain ⟨l', file⟩ := p
      cases file with
      | none =>
        cases h with
        | stop => exact ⟨[], .nil _, .stop _⟩
        | ret => exact ⟨[], .nil _, .ret _⟩
      | some file =>
        show ∃ tr', _ ∧ Trace ((inlineArg P o file).bind _) tr' oc
        rcases flow_bind_any h with ⟨⟨⟩, tr1, tr2, rfl, h1, h2⟩ | ⟨o', ho, h1⟩
        · obtain ⟨hst1, hst2⟩ := (steady_append _ _ _).1 hst
          obtain ⟨t1, c1, T1⟩ := streamArg_any h1 hst1 (by simp)
          obtain ⟨t2, c2, T2⟩ := streamFileLoop_any n l' tr2 oc h2 (steady_weaken hst2) fun he => by
            have := hoc he
            rw [delivered_append, List.length_append] at this
            omega
          exact ⟨t1 ++ t2, condensed_append c2 c1, trace_append T1 T2⟩
        · obtain ⟨rfl, _⟩ := sameEnd_unit ho
          obtain ⟨t1, c1, T1⟩ := streamArg_any h1 hst hoc
          exact ⟨t1, c1, trace_bind_end T1 ho⟩
    · exact ⟨[], .nil _, .stop _⟩
    · generalize filelistGet l = x at hf
      refine ⟨[], .nil _, ?_⟩
      cases hf with
      | exit n => exact .exit n
      | ub u => exact .ub u
      | stuck => exact .stuck

theorem streamMain_any {P : Platform} {o : Options} {rounds : Nat} {files : Option Filelist} {tr : List FlowEvent} {oc : Outcome Unit}
    (h : FlowTrace (streamMain P o rounds files) tr oc) (hst : Steady false tr) (hoc : oc = .stuck → (delivered tr).length < rounds) :
    ∃ tr', Condensed (decide (oc = .ret ())) tr tr' ∧ Trace (inlineMain P o files) tr' oc := by
  cases files with
  | none => exact parseStream_any h hst hoc
  | some l =>
    unfold streamMain at h
    unfold inlineMain
    by_cases hc : filelistCount (some l) > 0
    · simp only [if_pos hc] at h ⊢
      exact streamFileLoop_any _ _ _ _ h hst hoc
    · simp only [if_neg hc] at h ⊢
      exact parseStream_any h hst hoc

/-- What is done before inline mode, by one program and by the other. -/
inductive Before (P : Platform) (rounds : Nat) (whole : Prog Unit) (tr : List Event) : Outcome (Flow Unit) → Prop
  | done : Trace whole tr (.ret ()) → Before P rounds whole tr (.ret (.ret ()))
  | inline (o : Options) : o.isInlineMode = true → (∀ t oc, Trace (inlineMain P o o.files) t oc → Trace whole (tr ++ t) oc) →
      Before P rounds whole tr (.ret (streamMain P o rounds o.files))
  | ends (oc : Outcome (Flow Unit)) (oc' : Outcome Unit) : oc.SameEnd oc' → Trace whole tr oc' → Before P rounds whole tr oc

theorem Before.bind {α : Type} {P : Platform} {rounds : Nat} {p : Prog α} {f : α → Prog Unit} {g : α → Prog (Flow Unit)}
    (hfg : ∀ a tr oc, Trace (g a) tr oc → Before P rounds (f a) tr oc) {tr : List Event} {oc : Outcome (Flow Unit)}
    (h : Trace (p.bind g) tr oc) : Before P rounds (p.bind f) tr oc := by
  rcases trace_bind_any h with ⟨a, tr1, tr2, rfl, h1, h2⟩ | ⟨o', ho, h1⟩
  · cases hfg a tr2 oc h2 with
    | done h3 => exact .done (trace_append h1 h3)
    | inline o ho h3 => exact .inline o ho fun t oc ht => by rw [List.append_assoc]; exact trace_append h1 (h3 t oc ht)
    | ends _ oc' hs h3 => exact .ends _ oc' hs (trace_append h1 h3)
  · cases ho with
    | running => exact .ends _ _ .running (trace_bind_end h1 .running)
    | exit n => exact .ends _ _ (.exit n) (trace_bind_end h1 (.exit n))
    | ub n => exact .ends _ _ (.ub n) (trace_bind_end h1 (.ub n))
    | stuck => exact .ends _ _ .stuck (trace_bind_end h1 .stuck)

theorem streamWork_before {P : Platform} {o : Options} {fuel rounds : Nat} {tr : List Event} {oc : Outcome (Flow Unit)}
    (h : Trace (streamWork P o fuel rounds) tr oc) : Before P rounds (detoxWork P o fuel) tr oc := by
  unfold streamWork at h
  by_cases hi : o.isInlineMode = true
  · rw [if_pos hi] at h
    have : detoxWork P o fuel = inlineMain P o o.files := by unfold detoxWork; rw [if_pos hi]
    cases h with
    | stop => exact .ends _ _ .running (.stop _)
    | ret => exact .inline o hi fun t oc ht => by rw [this]; exact ht
  · rw [if_neg hi] at h
    rcases trace_bind_any h with ⟨a, tr1, tr2, rfl, h1, h2⟩ | ⟨o', ho, h1⟩
    · cases h2 with
      | stop => rw [List.append_nil]; exact .ends _ _ .running (trace_stopped h1)
      | ret => rw [List.append_nil]; exact .done h1
    · cases ho with
      | running => exact .ends _ _ .running h1
      | exit n => exact .ends _ _ (.exit n) h1
      | ub n => exact .ends _ _ (.ub n) h1
      | stuck => exact .ends _ _ .stuck h1

theorem detoxMainStream_before {P : Platform} {I : Invocation} {fuel rounds : Nat} {tr : List Event} {oc : Outcome (Flow Unit)}
    (h : Trace (detoxMainStream P I fuel rounds) tr oc) : Before P rounds (detoxMain P I fuel) tr oc := by
  refine Before.bind (fun o tr oc h => ?_) h
  unfold detoxConfigured
  unfold streamConfigured at h
  refine Before.bind (fun c tr oc h => ?_) h
  by_cases hl : o.listSequences = true
  · rw [if_pos hl] at h ⊢
    refine Before.bind (fun t tr oc h => ?_) h
    cases h with
    | stop => exact .ends _ _ .running (.stop _)
    | out _ _ _ _ h =>
      cases h with
      | stop => exact .ends _ _ .running (.out _ _ _ _ (.stop _))
      | exit => exact .ends _ _ (.exit 0) (.out _ _ _ _ (.exit _))
  · rw [if_neg hl] at h ⊢
    cases hq : sequenceChooseDefault c.sequences o.sequenceName with
    | none =>
      rw [hq] at h
      cases h with
      | stop => exact .ends _ _ .running (.stop _)
      | err _ _ _ _ h =>
        cases h with
        | stop => exact .ends _ _ .running (.err _ _ _ _ (.stop _))
        | exit => exact .ends _ _ (.exit 1) (.err _ _ _ _ (.exit _))
    | some q =>
      rw [hq] at h
      exact Before.bind (fun q' tr oc h => streamWork_before h) h

theorem detoxMainStream_any {P : Platform} {I : Invocation} {fuel rounds : Nat} {tr : List FlowEvent} {oc : Outcome Unit}
    (h : StreamTrace (detoxMainStream P I fuel rounds) tr oc) (hst : Steady false tr) (hoc : oc = .stuck → (delivered tr).length < rounds) :
    ∃ tr', Condensed (decide (oc = .ret ())) tr tr' ∧ Trace (detoxMain P I fuel) tr' oc := by
  have plain : ∀ (t : List Event) (o1 : Outcome (Flow Unit)), Trace (detoxMainStream P I fuel rounds) t o1 → (∃ oc', o1.SameEnd oc' ∧ oc' = oc) →
      ∃ tr', Condensed (decide (oc = .ret ())) (t.map .sys) tr' ∧ Trace (detoxMain P I fuel) tr' oc := by
    rintro t o1 ht ⟨oc', hs, rfl⟩
    have hc : Condensed (decide (oc' = .ret ())) (t.map .sys) t := by simpa using condensed_sys (.nil (decide (oc' = .ret ()))) t
    cases detoxMainStream_before ht with
    | done => cases hs
    | inline => cases hs
    | ends _ oc'' hs' h3 =>
      have : oc'' = oc' := by cases hs <;> cases hs' <;> rfl
      subst this
      exact ⟨t, hc, h3⟩
  cases h with
  | before t h => exact plain t _ h ⟨_, .running, rfl⟩
  | exit t n h => exact plain t _ h ⟨_, .exit n, rfl⟩
  | ub t u h => exact plain t _ h ⟨_, .ub u, rfl⟩
  | stuck t h => exact plain t _ h ⟨_, .stuck, rfl⟩
  | andThen t q t' _ h h' =>
    have hst' := steady_sys hst
    cases detoxMainStream_before h with
    | done hd =>
      cases h' with
      | stop => exact ⟨t, by simpa using condensed_sys (.nil _) t, trace_stopped hd⟩
      | ret => exact ⟨t, by simpa using condensed_sys (.nil _) t, hd⟩
    | inline o ho hk =>
      obtain ⟨t2, c2, T2⟩ := streamMain_any h' hst' fun he => by
        have := hoc he
        rw [delivered_append, List.length_append] at this
        omega
      exact ⟨t ++ t2, condensed_sys c2 t, hk _ _ T2⟩
    | ends _ _ hs => cases hs

end Detox
