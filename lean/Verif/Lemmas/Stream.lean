import Verif.Model.Stream
import Verif.Spec.Stream
import Verif.Lemmas.Inline
import Verif.Lemmas.ConfigLoad
import Verif.Props.Inline

/-!
# Lemmas on reading piece by piece
-/

set_option autoImplicit false

namespace Detox
open Spec

theorem flow_bind_any {α β : Type} {p : Flow α} {f : α → Flow β} {tr : List FlowEvent} {o : Outcome β}
    (h : FlowTrace (p.bind f) tr o) :
    (∃ a tr1 tr2, tr = tr1 ++ tr2 ∧ FlowTrace p tr1 (.ret a) ∧ FlowTrace (f a) tr2 o) ∨
      (∃ o' : Outcome α, o'.SameEnd o ∧ FlowTrace p tr o') := by
  induction p generalizing tr with
  | ret a => exact .inl ⟨a, [], tr, rfl, .ret a, h⟩
  | exit n => cases h with
    | stop => exact .inr ⟨_, .running, .stop _⟩
    | exit => exact .inr ⟨_, .exit n, .exit n⟩
  | ub u => cases h with
    | stop => exact .inr ⟨_, .running, .stop _⟩
    | ub => exact .inr ⟨_, .ub u, .ub u⟩
  | stuck => cases h with
    | stop => exact .inr ⟨_, .running, .stop _⟩
    | stuck => exact .inr ⟨_, .stuck, .stuck⟩
  | lstat p k ih => cases h with
    | stop => exact .inr ⟨_, .running, .stop _⟩
    | lstat _ _ r t _ h =>
      rcases ih r h with ⟨a, tr1, tr2, rfl, h1, h2⟩ | ⟨o', ho, h1⟩
      · exact .inl ⟨a, _ :: tr1, tr2, rfl, .lstat _ _ _ _ _ h1, h2⟩
      · exact .inr ⟨o', ho, .lstat _ _ _ _ _ h1⟩
  | fopen p k ih => cases h with
    | stop => exact .inr ⟨_, .running, .stop _⟩
    | fopen _ _ r t _ h =>
      rcases ih r h with ⟨a, tr1, tr2, rfl, h1, h2⟩ | ⟨o', ho, h1⟩
      · exact .inl ⟨a, _ :: tr1, tr2, rfl, .fopen _ _ _ _ _ h1, h2⟩
      · exact .inr ⟨o', ho, .fopen _ _ _ _ _ h1⟩
  | read p k ih => cases h with
    | stop => exact .inr ⟨_, .running, .stop _⟩
    | read _ _ r t _ h =>
      rcases ih r h with ⟨a, tr1, tr2, rfl, h1, h2⟩ | ⟨o', ho, h1⟩
      · exact .inl ⟨a, _ :: tr1, tr2, rfl, .read _ _ _ _ _ h1, h2⟩
      · exact .inr ⟨o', ho, .read _ _ _ _ _ h1⟩
  | out s k ih => cases h with
    | stop => exact .inr ⟨_, .running, .stop _⟩
    | out _ _ t _ h =>
      rcases ih h with ⟨a, tr1, tr2, rfl, h1, h2⟩ | ⟨o', ho, h1⟩
      · exact .inl ⟨a, _ :: tr1, tr2, rfl, .out _ _ _ _ h1, h2⟩
      · exact .inr ⟨o', ho, .out _ _ _ _ h1⟩
  | err s k ih => cases h with
    | stop => exact .inr ⟨_, .running, .stop _⟩
    | err _ _ t _ h =>
      rcases ih h with ⟨a, tr1, tr2, rfl, h1, h2⟩ | ⟨o', ho, h1⟩
      · exact .inl ⟨a, _ :: tr1, tr2, rfl, .err _ _ _ _ h1, h2⟩
      · exact .inr ⟨o', ho, .err _ _ _ _ h1⟩

theorem flow_append {α β : Type} {p : Flow α} {r : List FlowEvent} {a : α} (h : FlowTrace p r (.ret a)) {f : α → Flow β}
    {t : List FlowEvent} {out : Outcome β} (ht : FlowTrace (f a) t out) : FlowTrace (p.bind f) (r ++ t) out := by
  generalize ho : Outcome.ret a = o at h
  induction h with
  | ret => cases ho; exact ht
  | stop => cases ho
  | exit => cases ho
  | ub => cases ho
  | stuck => cases ho
  | lstat p k r tr o _ ih => exact .lstat _ _ _ _ _ (ih ho)
  | fopen p k r tr o _ ih => exact .fopen _ _ _ _ _ (ih ho)
  | read p k r tr o _ ih => exact .read _ _ _ _ _ (ih ho)
  | out s k tr o _ ih => exact .out _ _ _ _ (ih ho)
  | err s k tr o _ ih => exact .err _ _ _ _ (ih ho)

theorem flow_bind_end {α β : Type} {p : Flow α} {r : List FlowEvent} {o : Outcome α} {o' : Outcome β} (h : FlowTrace p r o)
    (hs : o.SameEnd o') {f : α → Flow β} : FlowTrace (p.bind f) r o' := by
  induction h with
  | ret => cases hs
  | stop => cases hs; exact .stop _
  | exit => cases hs; exact .exit _
  | ub => cases hs; exact .ub _
  | stuck => cases hs; exact .stuck
  | lstat p k r tr o _ ih => exact .lstat _ _ _ _ _ (ih hs)
  | fopen p k r tr o _ ih => exact .fopen _ _ _ _ _ (ih hs)
  | read p k r tr o _ ih => exact .read _ _ _ _ _ (ih hs)
  | out s k tr o _ ih => exact .out _ _ _ _ (ih hs)
  | err s k tr o _ ih => exact .err _ _ _ _ (ih hs)

/-- A first part of an execution is an execution. -/
theorem flow_prefix {α : Type} {p : Flow α} {x y : List FlowEvent} {o : Outcome α} (h : FlowTrace p (x ++ y) o) : FlowTrace p x .running := by
  induction x generalizing p with
  | nil => exact .stop _
  | cons e x ih =>
    cases h with
    | lstat _ _ _ _ _ h => exact .lstat _ _ _ _ _ (ih h)
    | fopen _ _ _ _ _ h => exact .fopen _ _ _ _ _ (ih h)
    | read _ _ _ _ _ h => exact .read _ _ _ _ _ (ih h)
    | out _ _ _ _ h => exact .out _ _ _ _ (ih h)
    | err _ _ _ _ h => exact .err _ _ _ _ (ih h)

theorem flow_bind_assoc {α β γ : Type} (p : Flow α) (f : α → Flow β) (g : β → Flow γ) :
    (p.bind f).bind g = p.bind fun a => (f a).bind g := by
  induction p with
  | ret a => rfl
  | exit n => rfl
  | ub u => rfl
  | stuck => rfl
  | lstat p k ih => simp only [Flow.bind]; congr; funext r; exact ih r
  | fopen p k ih => simp only [Flow.bind]; congr; funext r; exact ih r
  | read p k ih => simp only [Flow.bind]; congr; funext r; exact ih r
  | out s k ih => simp only [Flow.bind, ih]
  | err s k ih => simp only [Flow.bind, ih]

/-! ### What the reads gave -/

theorem delivered_append : ∀ (a b : List FlowEvent), delivered (a ++ b) = delivered a ++ delivered b
  | [], _ => rfl
  | .sys _ :: a, b => by simp [delivered, delivered_append a b]
  | .fopen _ _ :: a, b => by simp [delivered, delivered_append a b]
  | .read _ (.data _) :: a, b => by simp [delivered, delivered_append a b]
  | .read _ (.fail _) :: a, b => by simp [delivered, delivered_append a b]

theorem otherCalls_append : ∀ (a b : List FlowEvent), otherCalls (a ++ b) = otherCalls a ++ otherCalls b
  | [], _ => rfl
  | .sys _ :: a, b => by simp [otherCalls, otherCalls_append a b]
  | .fopen _ _ :: a, b => by simp [otherCalls, otherCalls_append a b]
  | .read _ _ :: a, b => by simp [otherCalls, otherCalls_append a b]

theorem answers_append : ∀ (a b : List FlowEvent), answers (a ++ b) = answers a ++ answers b
  | [], _ => rfl
  | .sys _ :: a, b => by simp [answers, answers_append a b]
  | .fopen _ _ :: a, b => by simp [answers, answers_append a b]
  | .read _ _ :: a, b => by simp [answers, answers_append a b]

theorem NoFailure.append {a b : List FlowEvent} (h : NoFailure (a ++ b)) : NoFailure a ∧ NoFailure b := by
  constructor
  · intro x hx; exact h x (by rw [answers_append]; exact List.mem_append_left _ hx)
  · intro x hx; exact h x (by rw [answers_append]; exact List.mem_append_right _ hx)

/-- Whether a read of the current file has failed, after `tr`. -/
def failedAfter : Bool → List FlowEvent → Bool
  | b, [] => b
  | b, .sys _ :: tr => failedAfter b tr
  | _, .fopen _ _ :: tr => failedAfter false tr
  | b, .read _ (.data _) :: tr => failedAfter b tr
  | _, .read _ (.fail _) :: tr => failedAfter true tr

theorem steady_append : ∀ (b : Bool) (x y : List FlowEvent), Steady b (x ++ y) ↔ Steady b x ∧ Steady (failedAfter b x) y
  | _, [], _ => by simp [Steady, failedAfter]
  | b, .sys _ :: x, y => by simp [Steady, failedAfter, steady_append b x y]
  | _, .fopen _ _ :: x, y => by simp [Steady, failedAfter, steady_append false x y]
  | b, .read _ (.data _) :: x, y => by simp [Steady, failedAfter, steady_append b x y, and_assoc]
  | _, .read _ (.fail _) :: x, y => by simp [Steady, failedAfter, steady_append true x y, and_assoc]

/-- The end of the file is remembered only when the buffer is empty, and a read fails only then. -/
def Stream.Sane (st : Stream) (failed : Bool) : Prop := (st.eof = true → st.buf = []) ∧ (failed = true → st.buf = [])

/-- Nothing more will come. -/
def Stream.Over (st : Stream) (failed : Bool) : Prop := st.buf = [] ∧ (st.eof = true ∨ failed = true)

/-- What there is to know of `fgets`. -/
structure GetsSpec (n : Nat) (got : Bytes) (st : Stream) (b : Bool) (tr : List FlowEvent) (l : Option Bytes) (st' : Stream) : Prop where
  sane : st'.Sane (failedAfter b tr)
  calls : otherCalls tr = []
  used : ∃ used, st.buf ++ delivered tr = used ++ st'.buf ∧ used.length ≤ n ∧
    (∀ line, l = some line → line = got ++ used ∧ line ≠ [] ∧ ((∃ x, used = x ++ [0x0A] ∧ (0x0A : Byte) ∉ x) ∨
      ((0x0A : Byte) ∉ used ∧ (used.length = n ∨ st'.Over (failedAfter b tr))))) ∧
    (l = none → st'.buf = [] ∧ (0x0A : Byte) ∉ used ∧ used.length < n ∧ (b = false → NoFailure tr → used = [] ∧ got = []))

theorem streamGets_ret (path : Option Bytes) : ∀ (n : Nat) (got : Bytes) (st : Stream) (b : Bool) (tr : List FlowEvent) (l : Option Bytes)
    (st' : Stream), FlowTrace (streamGets path n got st) tr (.ret (l, st')) → 0 < n + got.length → st.Sane b → Steady b tr →
    GetsSpec n got st b tr l st'
  | 0, got, st, b, tr, l, st', h, hg, hs, hst => by
    cases h
    refine ⟨hs, rfl, [], by simp [delivered], by simp, ?_, by simp⟩
    rintro line hl
    cases hl
    refine ⟨by simp, ?_, .inr ⟨by simp, .inl rfl⟩⟩
    intro he; rw [he] at hg; simp at hg
  | n + 1, got, st, b, tr, l, st', h, hg, hs, hst => by
    have step : ∀ (c : Byte) (s : Bytes) (tr : List FlowEvent) (l : Option Bytes) (st' : Stream) (b : Bool), Steady b tr →
        ({ st with buf := s } : Stream).Sane b →
        FlowTrace (if c = 0x0A then .ret (some (got ++ [c]), { st with buf := s }) else streamGets path n (got ++ [c]) { st with buf := s })
          tr (.ret (l, st')) → GetsSpec (n + 1) got { st with buf := c :: s } b tr l st' := by
      intro c s tr l st' b hst hs h
      by_cases hc : c = 0x0A
      · rw [if_pos hc] at h
        cases h
        refine ⟨hs, rfl, [c], by simp [delivered], by simp, ?_, by simp⟩
        rintro line hl
        cases hl
        exact ⟨rfl, by simp, .inl ⟨[], by simp [hc], by simp⟩⟩
      · rw [if_neg hc] at h
        obtain ⟨h1, h2, used, h3, h4, h5, h6⟩ := streamGets_ret path n (got ++ [c]) _ b tr l st' h (by simp; omega) hs hst
        refine ⟨h1, h2, c :: used, by simpa using h3, by simpa using h4, ?_, ?_⟩
        · intro line hl
          obtain ⟨e, hne, hx⟩ := h5 line hl
          refine ⟨by rw [e]; simp, hne, ?_⟩
          rcases hx with ⟨x, hx, hx'⟩ | ⟨hx, hx'⟩
          · exact .inl ⟨c :: x, by simp [hx], by simp [hx', Ne.symm hc]⟩
          · refine .inr ⟨by simp [hx, Ne.symm hc], ?_⟩
            rcases hx' with hx' | hx'
            · exact .inl (by simp [hx'])
            · exact .inr hx'
        · intro hl
          obtain ⟨g1, g2, g3, g4⟩ := h6 hl
          refine ⟨g1, by simp [g2, Ne.symm hc], by simp [g3], ?_⟩
          intro hb hn
          exact absurd (g4 hb hn).2 (by simp)
    unfold streamGets at h
    cases hbuf : st.buf with
    | cons c s =>
      have hst' : st = { st with buf := c :: s } := by rw [← hbuf]
      have he : st.eof = false := by
        cases he : st.eof with
        | false => rfl
        | true => rw [hs.1 he] at hbuf; cases hbuf
      have hb : b = false := by
        cases b with
        | false => rfl
        | true => rw [hs.2 rfl] at hbuf; cases hbuf
      rw [hbuf] at h
      rw [hst']
      exact step c s tr l st' b hst ⟨by simp [he], by simp [hb]⟩ h
    | nil =>
      rw [hbuf] at h
      by_cases he : st.eof = true
      · simp only [he, if_true] at h
        by_cases hgot : got = []
        · simp only [hgot, if_true] at h
          cases h
          exact ⟨hs, rfl, [], by simp [delivered], by simp, by simp, by simp [hbuf, hgot]⟩
        · simp only [hgot, if_false] at h
          cases h
          refine ⟨hs, rfl, [], by simp [delivered], by simp, ?_, by simp⟩
          rintro line hl
          cases hl
          exact ⟨by simp, hgot, .inr ⟨by simp, .inr ⟨hbuf, .inl he⟩⟩⟩
      · simp only [if_neg he] at h
        cases h with
        | read _ _ r t _ h =>
          cases r with
          | data d =>
            cases d with
            | cons c s =>
              simp only [Steady] at hst
              have hb : b = false := by
                cases b with
                | false => rfl
                | true => exact absurd (hst.1 rfl) (by simp)
              subst hb
              have := step c s t l st' false hst.2 ⟨fun hx => absurd hx he, by simp⟩ h
              obtain ⟨h1, h2, used, h3, h4, h5, h6⟩ := this
              refine ⟨h1, h2, used, ?_, h4, h5, ?_⟩
              · rw [hbuf]
                simpa [delivered] using h3
              · intro hl
                obtain ⟨g1, g2, g3, g4⟩ := h6 hl
                refine ⟨g1, g2, g3, fun _ hn => g4 rfl fun a ha => hn a ?_⟩
                simp [answers, ha]
            | nil =>
              simp only [Steady] at hst
              by_cases hgot : got = []
              · simp only [hgot, if_true] at h
                cases h
                exact ⟨⟨by simp, by simp⟩, rfl, [], by simp [delivered, hbuf], by simp, by simp, by simp [hgot]⟩
              · simp only [hgot, if_false] at h
                cases h
                refine ⟨⟨by simp, by simp⟩, rfl, [], by simp [delivered, hbuf], by simp, ?_, by simp⟩
                rintro line hl
                cases hl
                exact ⟨by simp, hgot, .inr ⟨by simp, .inr ⟨by simp, .inl rfl⟩⟩⟩
          | fail again =>
            simp only [Steady] at hst
            simp only [hst.1, Bool.false_eq_true, false_and, if_false] at h
            cases h
            refine ⟨⟨by simp [hbuf], by simp [hbuf]⟩, rfl, [], by simp [delivered], by simp, by simp, ?_⟩
            intro _
            exact ⟨hbuf, by simp, by simp, fun _ hn => absurd (by simp [answers]) (hn again)⟩

/-! ### Only reading -/

/-- A program that does nothing but read `path`, and returns. -/
def Flow.Reads {α : Type} (path : Option Bytes) : Flow α → Prop
  | .ret _ => True
  | .read p k => p = path ∧ ∀ r, (k r).Reads path
  | _ => False

theorem Flow.Reads.trace {α : Type} {path : Option Bytes} {p : Flow α} {tr : List FlowEvent} {o : Outcome α} (h : FlowTrace p tr o)
    (hp : p.Reads path) : (∀ e ∈ tr, ∃ r, e = .read path r) ∧ (o = .running ∨ ∃ a, o = .ret a) := by
  induction h with
  | stop => exact ⟨by simp, .inl rfl⟩
  | ret a => exact ⟨by simp, .inr ⟨a, rfl⟩⟩
  | exit => cases hp
  | ub => cases hp
  | stuck => cases hp
  | lstat => cases hp
  | fopen => cases hp
  | out => cases hp
  | err => cases hp
  | read p k r tr o _ ih =>
    obtain ⟨h1, h2⟩ := ih (hp.2 r)
    refine ⟨?_, h2⟩
    intro e he
    rcases List.mem_cons.1 he with rfl | he
    · exact ⟨r, by rw [hp.1]⟩
    · exact h1 e he

theorem Flow.Reads.bind {α β : Type} {path : Option Bytes} {f : α → Flow β} (hf : ∀ a, (f a).Reads path) : ∀ {p : Flow α}, p.Reads path → (p.bind f).Reads path := by
  intro p hp
  induction p with
  | ret a => exact hf a
  | read p k ih => exact ⟨hp.1, fun r => ih r (hp.2 r)⟩
  | exit => cases hp
  | ub => cases hp
  | stuck => cases hp
  | lstat => cases hp
  | fopen => cases hp
  | out => cases hp
  | err => cases hp

theorem otherCalls_reads {path : Option Bytes} : ∀ {tr : List FlowEvent}, (∀ e ∈ tr, ∃ r, e = .read path r) → otherCalls tr = []
  | [], _ => rfl
  | e :: tr, h => by
    obtain ⟨r, rfl⟩ := h e (List.mem_cons_self ..)
    exact otherCalls_reads (tr := tr) fun x hx => h x (List.mem_cons_of_mem _ hx)

theorem streamGets_reads (path : Option Bytes) : ∀ (n : Nat) (got : Bytes) (st : Stream), (streamGets path n got st).Reads path
  | 0, _, _ => trivial
  | n + 1, got, st => by
    have step : ∀ (c : Byte) (s : Bytes), (if c = 0x0A then (.ret (some (got ++ [c]), { st with buf := s }) : Flow (Option Bytes × Stream))
        else streamGets path n (got ++ [c]) { st with buf := s }).Reads path := by
      intro c s
      split
      · trivial
      · exact streamGets_reads path n _ _
    unfold streamGets
    split
    · exact step _ _
    · split
      · trivial
      · refine ⟨rfl, fun r => ?_⟩
        rcases r with (_ | ⟨c, s⟩) | a
        · trivial
        · exact step _ _
        · trivial

theorem streamGetc_reads (path : Option Bytes) (st : Stream) : (streamGetc path st).Reads path := by
  unfold streamGetc
  split
  · trivial
  · split
    · trivial
    · refine ⟨rfl, fun r => ?_⟩
      rcases r with (_ | ⟨c, s⟩) | a <;> trivial

theorem streamConts_reads (P : Platform) (path : Option Bytes) : ∀ (n : Nat) (st : Stream), (streamConts P path n st).Reads path
  | 0, _ => trivial
  | n + 1, st => by
    unfold streamConts
    refine Flow.Reads.bind (fun r => ?_) (streamGetc_reads path st)
    split
    · trivial
    · split
      · exact Flow.Reads.bind (fun _ => by trivial) (streamConts_reads P path n _)
      · split <;> trivial

/-! ### `fgetc` -/

structure GetcSpec (st : Stream) (b : Bool) (tr : List FlowEvent) (c : Option Byte) (st' : Stream) : Prop where
  sane : st'.Sane (failedAfter b tr)
  used : st.buf ++ delivered tr = c.toList ++ st'.buf
  some_ : ∀ x, c = some x → st'.eof = false ∧ failedAfter b tr = false
  none_ : c = none → st'.Over (failedAfter b tr)
  over : st.Over b → c = none

theorem streamGetc_ret {path : Option Bytes} {st : Stream} {b : Bool} {tr : List FlowEvent} {c : Option Byte} {st' : Stream}
    (h : FlowTrace (streamGetc path st) tr (.ret (c, st'))) (hs : st.Sane b) (hst : Steady b tr) : GetcSpec st b tr c st' := by
  unfold streamGetc at h
  cases hbuf : st.buf with
  | cons x s =>
    have he : st.eof = false := by
      cases he : st.eof with
      | false => rfl
      | true => rw [hs.1 he] at hbuf; cases hbuf
    have hb : b = false := by
      cases b with
      | false => rfl
      | true => rw [hs.2 rfl] at hbuf; cases hbuf
    rw [hbuf] at h
    cases h
    exact ⟨⟨by simp [he], by simp [hb, failedAfter]⟩, by simp [hbuf, delivered], by simp [he, hb, failedAfter], by simp, fun ho => by rw [ho.1] at hbuf; cases hbuf⟩
  | nil =>
    rw [hbuf] at h
    by_cases he : st.eof = true
    · simp only [if_pos he] at h
      cases h
      exact ⟨hs, by simp [delivered, hbuf], by simp, fun _ => ⟨hbuf, .inl he⟩, fun _ => rfl⟩
    · simp only [if_neg he] at h
      cases h with
      | read _ _ r t _ h =>
        cases r with
        | data d =>
          simp only [Steady] at hst
          cases d with
          | cons x s =>
            cases h
            have hb : b = false := by
              cases b with
              | false => rfl
              | true => exact absurd (hst.1 rfl) (by simp)
            subst hb
            exact ⟨⟨fun hx => absurd hx he, by simp [failedAfter]⟩, by simp [hbuf, delivered], by simp [failedAfter, he], by simp,
              fun ho => by rcases ho.2 with h | h <;> simp_all⟩
          | nil =>
            cases h
            exact ⟨⟨by simp, by simp⟩, by simp [hbuf, delivered], by simp, fun _ => ⟨rfl, .inl rfl⟩, fun _ => rfl⟩
        | fail again =>
          cases h
          exact ⟨⟨by simp [hbuf], by simp [hbuf]⟩, by simp [hbuf, delivered], by simp, fun _ => ⟨hbuf, .inr rfl⟩, fun _ => rfl⟩

theorem failedAfter_append : ∀ (b : Bool) (x y : List FlowEvent), failedAfter b (x ++ y) = failedAfter (failedAfter b x) y
  | _, [], _ => rfl
  | b, .sys _ :: x, y => failedAfter_append b x y
  | _, .fopen _ _ :: x, y => failedAfter_append false x y
  | b, .read _ (.data _) :: x, y => failedAfter_append b x y
  | _, .read _ (.fail _) :: x, y => failedAfter_append true x y

/-! ### Completing a character -/

/-- What there is to know of the loop that completes a character. -/
structure ContsSpec (P : Platform) (n : Nat) (st : Stream) (b : Bool) (tr : List FlowEvent) (f : Bytes) (st' : Stream) (w : Bool) : Prop where
  sane : st'.Sane (failedAfter b tr)
  used : st.buf ++ delivered tr = f ++ st'.buf
  fetch : ∀ X D : Bytes, X <+: st'.buf ++ D → (st'.Over (failedAfter b tr) → X = []) → fetchConts P n (f ++ X) = (f, X, w)
  over : st.Over b → f = [] ∧ st'.Over (failedAfter b tr)

theorem streamConts_ret (P : Platform) (path : Option Bytes) : ∀ (n : Nat) (st : Stream) (b : Bool) (tr : List FlowEvent) (f : Bytes)
    (st' : Stream) (w : Bool), FlowTrace (streamConts P path n st) tr (.ret (f, st', w)) → st.Sane b → Steady b tr →
    ContsSpec P n st b tr f st' w
  | 0, st, b, tr, f, st', w, h, hs, hst => by
    cases h
    exact ⟨hs, by simp [delivered], by simp [fetchConts], fun h => ⟨rfl, h⟩⟩
  | n + 1, st, b, tr, f, st', w, h, hs, hst => by
    unfold streamConts at h
    rcases flow_bind_any h with ⟨⟨c, s1⟩, tr1, tr2, rfl, h1, h2⟩ | ⟨o', ho, _⟩
    · obtain ⟨hst1, hst2⟩ := (steady_append _ _ _).1 hst
      have g := streamGetc_ret h1 hs hst1
      cases c with
      | none =>
        cases h2
        have hov := g.none_ rfl
        refine ⟨by simpa using g.sane, by simpa using g.used, ?_, fun _ => ⟨rfl, by simpa using hov⟩⟩
        intro X D _ hX
        rw [hX (by simpa using hov)]
        simp [fetchConts]
      | some c =>
        obtain ⟨he, hf⟩ := g.some_ c rfl
        have hu := g.used
        simp only [Option.toList] at hu
        by_cases hc : isUtf8Cont c = true
        · simp only [hc, if_true] at h2
          rcases flow_bind_any h2 with ⟨q, tr3, tr4, rfl, h3, h4⟩ | ⟨o', ho, _⟩
          · obtain ⟨q1, q2, q3⟩ := q
            cases h4
            simp only [List.append_nil] at *
            have ih := streamConts_ret P path n s1 _ tr3 _ _ _ h3 g.sane hst2
            refine ⟨by rw [failedAfter_append]; exact ih.sane, ?_, ?_, fun ho => absurd (g.over ho) (by simp)⟩
            · rw [delivered_append, ← List.append_assoc, hu]
              have := ih.used
              simp only [List.cons_append, List.nil_append] at this ⊢
              rw [this]
            · intro X D hX hX'
              rw [failedAfter_append] at hX'
              have := ih.fetch X D hX hX'
              simp [fetchConts, hc, this]
          · cases ho
        · simp only [hc, Bool.false_eq_true, if_false] at h2
          by_cases hff : (P.charSigned && decide (c = 0xFF)) = true
          · simp only [hff, if_true] at h2
            cases h2
            refine ⟨by simpa using g.sane, by simpa using hu, ?_, fun ho => absurd (g.over ho) (by simp)⟩
            intro X D _ _
            simp only [List.cons_append, List.nil_append, fetchConts]
            simp [hc, hff]
          · simp only [hff, Bool.false_eq_true, if_false] at h2
            cases h2
            refine ⟨⟨by simp, by simp [hf]⟩, by simpa using hu, ?_, fun ho => absurd (g.over ho) (by simp)⟩
            intro X D hX _
            cases X with
            | nil => simp [fetchConts]
            | cons x X =>
              obtain ⟨t, ht⟩ := hX
              simp only [List.cons_append, List.cons.injEq] at ht
              rw [ht.1]
              simp only [List.nil_append, fetchConts]
              simp [hc, hff]
    · cases ho

/-! ### Lines -/

theorem takeLine_ends_line : ∀ (n : Nat) (x X : Bytes), (0x0A : Byte) ∉ x → x.length < n → takeLine n (x ++ [0x0A] ++ X) = (x ++ [0x0A], X)
  | 0, x, X, _, h => by simp at h
  | n + 1, [], X, _, _ => by simp [takeLine]
  | n + 1, c :: x, X, hn, hl => by
    have ih := takeLine_ends_line n x X (fun h => hn (List.mem_cons_of_mem _ h)) (by simpa using hl)
    have hc : c ≠ 0x0A := fun h => hn (by simp [h])
    simp only [List.cons_append, takeLine, hc, if_false, ih]

theorem takeLine_full : ∀ (x X : Bytes), (0x0A : Byte) ∉ x → takeLine x.length (x ++ X) = (x, X)
  | [], X, _ => by simp [takeLine]
  | c :: x, X, hn => by
    have ih := takeLine_full x X (fun h => hn (List.mem_cons_of_mem _ h))
    have hc : c ≠ 0x0A := fun h => hn (by simp [h])
    simp only [List.cons_append, List.length_cons, takeLine, hc, if_false, ih]

theorem takeLine_no_line : ∀ (n : Nat) (x : Bytes), (0x0A : Byte) ∉ x → x.length ≤ n → takeLine n x = (x, [])
  | 0, [], _, _ => rfl
  | 0, c :: x, _, h => by simp at h
  | n + 1, [], _, _ => rfl
  | n + 1, c :: x, hn, hl => by
    have ih := takeLine_no_line n x (fun h => hn (List.mem_cons_of_mem _ h)) (by simpa using hl)
    have hc : c ≠ 0x0A := fun h => hn (by simp [h])
    simp only [takeLine, hc, if_false, ih]

/-- The line `fgets` got is the line that would be taken of the whole text. -/
theorem GetsSpec.takeLine {n : Nat} {st : Stream} {b : Bool} {tr : List FlowEvent} {line : Bytes} {st' : Stream}
    (h : GetsSpec n [] st b tr (some line) st') : st.buf ++ delivered tr = line ++ st'.buf ∧ line ≠ [] ∧ line.length ≤ n ∧
    ∀ X : Bytes, (st'.Over (failedAfter b tr) → X = []) → takeLine n (line ++ X) = (line, X) := by
  obtain ⟨_, _, used, h1, h2, h3, _⟩ := h
  obtain ⟨e, hne, hx⟩ := h3 line rfl
  simp only [List.nil_append] at e
  subst e
  refine ⟨h1, hne, h2, ?_⟩
  intro X hX
  rcases hx with ⟨x, rfl, hx⟩ | ⟨hx, hl | ho⟩
  · exact takeLine_ends_line n x X hx (by simp at h2; omega)
  · rw [← hl]; exact takeLine_full _ X hx
  · rw [hX ho, List.append_nil]
    exact takeLine_no_line n _ hx h2

theorem flow_ofRes_any {α β : Type} {x : Res α} {k : α → Flow β} {tr : List FlowEvent} {oc : Outcome β}
    (h : FlowTrace ((Flow.ofRes x).bind k) tr oc) : (∃ a, x = .ok a ∧ FlowTrace (k a) tr oc) ∨ (tr = [] ∧ oc = .running) ∨
      (tr = [] ∧ FailsAs x oc) := by
  cases x with
  | ok a => exact .inl ⟨a, rfl, h⟩
  | exit n => cases h with
    | stop => exact .inr (.inl ⟨rfl, rfl⟩)
    | exit => exact .inr (.inr ⟨rfl, .exit n⟩)
  | ub u => cases h with
    | stop => exact .inr (.inl ⟨rfl, rfl⟩)
    | ub => exact .inr (.inr ⟨rfl, .ub u⟩)
  | stuck => cases h with
    | stop => exact .inr (.inl ⟨rfl, rfl⟩)
    | stuck => exact .inr (.inr ⟨rfl, .stuck⟩)

/-- What there is to know of a round that got as far as printing. -/
structure CompleteSpec (P : Platform) (base : Bytes) (st : Stream) (b : Bool) (tr : List FlowEvent) (text : Bytes) (st' : Stream) (w : Bool) (f : Bytes) : Prop where
  sane : st'.Sane (failedAfter b tr)
  used : st.buf ++ delivered tr = f ++ st'.buf
  text_eq : text = base ++ f
  complete : ∀ X D : Bytes, X <+: st'.buf ++ D → (st'.Over (failedAfter b tr) → X = []) → completeChunk P base (f ++ X) = .ok (text, X, w)
  over : st.Over b → f = [] ∧ st'.Over (failedAfter b tr)

theorem streamComplete_any {P : Platform} {path : Option Bytes} {base : Bytes} {st : Stream} {b : Bool} {tr : List FlowEvent}
    {oc : Outcome (Bytes × Stream × Bool)} (h : FlowTrace (streamComplete P path base st) tr oc) (hs : st.Sane b) (hst : Steady b tr) :
    (∀ e ∈ tr, ∃ r, e = .read path r) ∧
    (oc = .running ∨ (∃ text st' w f, oc = .ret (text, st', w) ∧ CompleteSpec P base st b tr text st' w f) ∨
      ∃ f rest, st.buf ++ delivered tr = f ++ rest ∧ (st.Over b → f = []) ∧ FailsAs (completeChunk P base f) oc) := by
  unfold streamComplete at h
  rcases flow_ofRes_any h with ⟨d, hd, h⟩ | ⟨rfl, rfl⟩ | ⟨rfl, hf⟩
  · have hcc : ∀ r, completeChunk P base r = (do
        let c := base.getD (base.length - d) 0
        if isUtf8Start c then
          let r1 := skipConts ((utf8Width c).getD 0 - 1) (base.drop (base.length - d + 1))
          if 0 < r1.1 ∧ r1.2 = [] then
            let f := fetchConts P r1.1 r
            if base.length + f.1.length < inlineBufSize then pure (base ++ f.1, f.2.1, f.2.2) else .ub .oobWrite
          else pure (base, r, false)
        else pure (base, r, false)) := by
      intro r; unfold completeChunk; rw [hd]; rfl
    simp only at h hcc
    have stay : FlowTrace (.ret (base, st, false) : Flow (Bytes × Stream × Bool)) tr oc → (∀ r, completeChunk P base r = .ok (base, r, false)) →
        (∀ e ∈ tr, ∃ r, e = .read path r) ∧
        (oc = .running ∨ (∃ text st' w f, oc = .ret (text, st', w) ∧ CompleteSpec P base st b tr text st' w f) ∨
          ∃ f rest, st.buf ++ delivered tr = f ++ rest ∧ (st.Over b → f = []) ∧ FailsAs (completeChunk P base f) oc) := by
      intro h hc
      cases h with
      | stop => exact ⟨by simp, .inl rfl⟩
      | ret =>
        refine ⟨by simp, .inr (.inl ⟨_, _, _, [], rfl, ⟨hs, by simp [delivered], by simp, ?_, fun ho => ⟨rfl, ho⟩⟩⟩)⟩
        intro X D _ _
        simpa using hc X
    by_cases h1 : isUtf8Start (base.getD (base.length - d) 0) = true
    · rw [if_pos h1] at h
      by_cases h2 : 0 < (skipConts ((utf8Width (base.getD (base.length - d) 0)).getD 0 - 1) (base.drop (base.length - d + 1))).1 ∧
          (skipConts ((utf8Width (base.getD (base.length - d) 0)).getD 0 - 1) (base.drop (base.length - d + 1))).2 = []
      · rw [if_pos h2] at h
        have hcc' : ∀ r f X w, fetchConts P (skipConts ((utf8Width (base.getD (base.length - d) 0)).getD 0 - 1) (base.drop (base.length - d + 1))).1 r = (f, X, w) →
            completeChunk P base r = if base.length + f.length < inlineBufSize then .ok (base ++ f, X, w) else .ub .oobWrite := by
          intro r f X w hf
          rw [hcc, if_pos h1, if_pos h2, hf]
          rfl
        rcases flow_bind_any h with ⟨⟨f, st', w⟩, tr1, tr2, rfl, h3, h4⟩ | ⟨o', ho, h3⟩
        · obtain ⟨hst1, hst2⟩ := (steady_append _ _ _).1 hst
          have hr := (Flow.Reads.trace h3 (streamConts_reads P path _ st)).1
          have g := streamConts_ret P path _ st b tr1 f st' w h3 hs hst1
          by_cases h5 : base.length + f.length < inlineBufSize
          · simp only [h5, if_true] at h4
            cases h4 with
            | stop => rw [List.append_nil]; exact ⟨hr, .inl rfl⟩
            | ret =>
              rw [List.append_nil]
              refine ⟨hr, .inr (.inl ⟨_, _, _, f, rfl, ⟨g.sane, g.used, rfl, ?_, g.over⟩⟩)⟩
              intro X D hX hX'
              rw [hcc' _ f X w (g.fetch X D hX hX'), if_pos h5]
          · simp only [h5, if_false] at h4
            cases h4 with
            | stop => rw [List.append_nil]; exact ⟨hr, .inl rfl⟩
            | ub =>
              rw [List.append_nil]
              refine ⟨hr, .inr (.inr ⟨f, st'.buf, g.used, fun ho => (g.over ho).1, ?_⟩)⟩
              have := g.fetch [] [] (List.nil_prefix) (fun _ => rfl)
              rw [List.append_nil] at this
              rw [hcc' _ f [] w this, if_neg h5]
              exact .ub _
        · have hr := Flow.Reads.trace h3 (streamConts_reads P path _ st)
          refine ⟨hr.1, .inl ?_⟩
          rcases hr.2 with rfl | ⟨a, rfl⟩
          · cases ho; rfl
          · cases ho
      · rw [if_neg h2] at h
        refine stay h fun r => ?_
        rw [hcc, if_pos h1, if_neg h2]
        rfl
    · rw [if_neg h1] at h
      refine stay h fun r => ?_
      rw [hcc, if_neg h1]
      rfl
  · exact ⟨by simp, .inl rfl⟩
  · refine ⟨by simp, .inr (.inr ⟨[], st.buf, by simp [delivered], fun _ => rfl, ?_⟩)⟩
    unfold completeChunk
    generalize hx : seekBack base 7 1 = x at hf
    cases hf <;> simp [bind, Res.bind] <;> constructor

/-! ### Printing -/

theorem streamPrint_eq (P : Platform) (o : Options) (text : Bytes) (nl : Bool) :
    streamPrint P o text nl = (Flow.ofRes (sequenceRunFilters P o.sequenceToUse (chunkWork text))).bind fun hold =>
      .out (hold.getD text) (if nl then .out [0x0A] (.ret ()) else .ret ()) := by
  have : (fun hold : Option Bytes => (Flow.out (hold.getD text) (if nl then .out [0x0A] (.ret ()) else .ret ()) : Flow Unit)) = fun hold =>
      Flow.out (match hold with | some w => w | none => text) (if nl then .out [0x0A] (.ret ()) else .ret ()) := by
    funext hold
    cases hold <;> rfl
  rw [this]
  rfl

theorem printChunk_ok {P : Platform} {o : Options} {text : Bytes} {nl : Bool} {k : Prog Unit} {hold : Option Bytes}
    (h : sequenceRunFilters P o.sequenceToUse (chunkWork text) = .ok hold) :
    printChunk P o text nl k = .out (hold.getD text) (if nl then .out [0x0A] k else k) := by
  rw [printChunk_eq, h]
  rfl

/-- What is printed in a round, by one program and by the other. -/
structure Prints {α : Type} (path : Option Bytes) (a : α) (q : Prog Unit → Prog Unit) (tr : List FlowEvent) (oc : Outcome α) : Prop where
  copies : ∀ e ∈ tr, Copies path e
  nothing : delivered tr = []
  unfailed : ∀ b, failedAfter b tr = b
  ends : (oc = .ret a ∧ ∀ k t oc', Trace k t oc' → Trace (q k) (otherCalls tr ++ t) oc') ∨
    ∃ oc' : Outcome Unit, oc.SameEnd oc' ∧ ∀ k, Trace (q k) (otherCalls tr) oc'

theorem Prints.stop {α : Type} (path : Option Bytes) (a : α) (q : Prog Unit → Prog Unit) : Prints path a q [] .running :=
  ⟨by simp, rfl, fun _ => rfl, .inr ⟨_, .running, fun _ => .stop _⟩⟩

theorem Prints.out {α : Type} {path : Option Bytes} {a : α} {q : Prog Unit → Prog Unit} {tr : List FlowEvent} {oc : Outcome α} (s : Bytes)
    (h : Prints path a q tr oc) : Prints path a (fun k => .out s (q k)) (.sys (.out s) :: tr) oc := by
  refine ⟨?_, h.nothing, h.unfailed, ?_⟩
  · intro e he
    rcases List.mem_cons.1 he with rfl | he
    · exact .inr (.inl ⟨s, rfl⟩)
    · exact h.copies e he
  · rcases h.ends with ⟨h1, h2⟩ | ⟨oc', h1, h2⟩
    · exact .inl ⟨h1, fun k t oc' hk => .out _ _ _ _ (h2 k t oc' hk)⟩
    · exact .inr ⟨oc', h1, fun k => .out _ _ _ _ (h2 k)⟩

theorem Prints.err {α : Type} {path : Option Bytes} {a : α} {q : Prog Unit → Prog Unit} {tr : List FlowEvent} {oc : Outcome α} (s : Bytes)
    (h : Prints path a q tr oc) : Prints path a (fun k => .err s (q k)) (.sys (.err s) :: tr) oc := by
  refine ⟨?_, h.nothing, h.unfailed, ?_⟩
  · intro e he
    rcases List.mem_cons.1 he with rfl | he
    · exact .inr (.inr ⟨s, rfl⟩)
    · exact h.copies e he
  · rcases h.ends with ⟨h1, h2⟩ | ⟨oc', h1, h2⟩
    · exact .inl ⟨h1, fun k t oc' hk => .err _ _ _ _ (h2 k t oc' hk)⟩
    · exact .inr ⟨oc', h1, fun k => .err _ _ _ _ (h2 k)⟩

theorem Prints.ret {α : Type} {path : Option Bytes} {a : α} {tr : List FlowEvent} {oc : Outcome α} (h : FlowTrace (.ret a) tr oc) :
    Prints path a (fun k => k) tr oc := by
  cases h with
  | stop => exact .stop ..
  | ret => exact ⟨by simp, rfl, fun _ => rfl, .inl ⟨rfl, fun _ _ _ h => h⟩⟩

theorem streamPrint_prints {α : Type} {P : Platform} {o : Options} {path : Option Bytes} {text : Bytes} {nl : Bool} {a : α} {tr : List FlowEvent}
    {oc : Outcome α} (h : FlowTrace ((streamPrint P o text nl).bind fun _ => .ret a) tr oc) : Prints path a (printChunk P o text nl) tr oc := by
  rw [streamPrint_eq, flow_bind_assoc] at h
  rcases flow_ofRes_any h with ⟨hold, hx, h⟩ | ⟨rfl, rfl⟩ | ⟨rfl, hf⟩
  · have : printChunk P o text nl = fun k => .out (hold.getD text) (if nl then .out [0x0A] k else k) := by
      funext k; exact printChunk_ok hx
    rw [this]
    cases nl with
    | false =>
      cases h with
      | stop => exact .stop ..
      | out _ _ t _ h => exact .out _ (.ret h)
    | true =>
      cases h with
      | stop => exact .stop ..
      | out _ _ t _ h =>
        refine .out (q := fun k => .out [0x0A] k) _ ?_
        cases h with
        | stop => exact .stop ..
        | out _ _ t _ h => exact .out _ (.ret h)
  · exact .stop ..
  · refine ⟨by simp, rfl, fun _ => rfl, .inr ?_⟩
    have : ∀ k, printChunk P o text nl k = (Prog.ofRes (sequenceRunFilters P o.sequenceToUse (chunkWork text))).bind fun hold =>
      .out (hold.getD text) (if nl then .out [0x0A] k else k) := fun k => printChunk_eq ..
    generalize sequenceRunFilters P o.sequenceToUse (chunkWork text) = x at this hf
    cases hf with
    | exit n => exact ⟨_, .exit n, fun k => by rw [this]; exact .exit n⟩
    | ub u => exact ⟨_, .ub u, fun k => by rw [this]; exact .ub u⟩
    | stuck => exact ⟨_, .stuck, fun k => by rw [this]; exact .stuck⟩

/-! ### A round -/

theorem nextChunk_of_line {P : Platform} {s line rest : Bytes} (h : takeLine 1007 s = (line, rest)) :
    nextChunk P s = if strrchrIdx 0x0A (cstr line) = none then
        (completeChunk P (cstr line) rest >>= fun r => pure ((cutNewline r.1).1, (cutNewline r.1).2, r.2.2, r.2.1))
      else .ok ((cutNewline (cstr line)).1, (cutNewline (cstr line)).2, false, rest) := by
  unfold nextChunk
  rw [show inlineBufSize - inlineBufPadding - 1 = 1007 from rfl, h]
  rfl

theorem inlineLoop_chunk {P : Platform} {o : Options} {m : Nat} {s t : Bytes} {nl w : Bool} {X : Bytes} (hne : s ≠ [])
    (h : nextChunk P s = .ok (t, nl, w, X)) :
    inlineLoop P o (m + 1) s = (fun k => if w then .err (lit "detox: warning: stream push back failed\n") (printChunk P o t nl k) else printChunk P o t nl k)
      (inlineLoop P o m X) := by
  cases s with
  | nil => exact absurd rfl hne
  | cons c s =>
    show (Prog.ofRes (nextChunk P (c :: s))).bind _ = _
    rw [h]
    rfl

theorem inlineLoop_fails {P : Platform} {o : Options} {m : Nat} {s : Bytes} {oc : Outcome Unit} (hne : s ≠ [])
    (h : FailsAs (nextChunk P s) oc) : Trace (inlineLoop P o (m + 1) s) [] oc := by
  cases s with
  | nil => exact absurd rfl hne
  | cons c s =>
    unfold inlineLoop
    generalize nextChunk P (c :: s) = x at h
    cases h with
    | exit n => exact .exit n
    | ub u => exact .ub u
    | stuck => exact .stuck

theorem copies_reads {path : Option Bytes} {tr : List FlowEvent} (h : ∀ e ∈ tr, ∃ r, e = .read path r) : ∀ e ∈ tr, Copies path e :=
  fun e he => .inl (h e he)

/-- What there is to know of a round. -/
structure RoundSpec (P : Platform) (o : Options) (path : Option Bytes) (line : Bytes) (st : Stream) (b : Bool) (tr : List FlowEvent) (oc : Outcome Stream) : Prop where
  copies : ∀ e ∈ tr, Copies path e
  ends : (∃ st' f, oc = .ret st' ∧ st'.Sane (failedAfter b tr) ∧ st.buf ++ delivered tr = f ++ st'.buf ∧
      (st.Over b → f = [] ∧ st'.Over (failedAfter b tr)) ∧
      ∀ X D : Bytes, X <+: st'.buf ++ D → (st'.Over (failedAfter b tr) → X = []) → takeLine 1007 (line ++ (f ++ X)) = (line, f ++ X) →
        ∀ m t oc', Trace (inlineLoop P o m X) t oc' → Trace (inlineLoop P o (m + 1) (line ++ (f ++ X))) (otherCalls tr ++ t) oc') ∨
    ∃ oc' : Outcome Unit, oc.SameEnd oc' ∧ ∃ f rest, st.buf ++ delivered tr = f ++ rest ∧ (st.Over b → f = []) ∧
      (takeLine 1007 (line ++ f) = (line, f) → ∀ m, Trace (inlineLoop P o (m + 1) (line ++ f)) (otherCalls tr) oc')

theorem failsAs_ret {α β : Type} (x : Res α) (b : β) : ¬ FailsAs x (.ret b) := by
  intro h
  cases h

theorem streamRound_any {P : Platform} {o : Options} {path : Option Bytes} {line : Bytes} {st : Stream} {b : Bool} {tr : List FlowEvent}
    {oc : Outcome Stream} (h : FlowTrace (streamRound P o path line st) tr oc) (hs : st.Sane b) (hst : Steady b tr) (hne : line ≠ []) :
    RoundSpec P o path line st b tr oc := by
  have hne' : ∀ x, line ++ x ≠ [] := fun x hx => hne (by simp at hx; exact hx.1)
  have print : ∀ (text : Bytes) (st' : Stream) (w : Bool) (f : Bytes) (tr1 tr2 : List FlowEvent),
      (∀ e ∈ tr1, ∃ r, e = .read path r) → st'.Sane (failedAfter b tr1) → st.buf ++ delivered tr1 = f ++ st'.buf →
      (st.Over b → f = [] ∧ st'.Over (failedAfter b tr1)) →
      (∀ X D : Bytes, X <+: st'.buf ++ D → (st'.Over (failedAfter b tr1) → X = []) → takeLine 1007 (line ++ (f ++ X)) = (line, f ++ X) →
        nextChunk P (line ++ (f ++ X)) = .ok ((cutNewline text).1, (cutNewline text).2, w, X)) →
      FlowTrace (if w then .err (lit "detox: warning: stream push back failed\n") ((streamPrint P o (cutNewline text).1 (cutNewline text).2).bind fun _ => .ret st')
        else (streamPrint P o (cutNewline text).1 (cutNewline text).2).bind fun _ => .ret st') tr2 oc →
      RoundSpec P o path line st b (tr1 ++ tr2) oc := by
    intro text st' w f tr1 tr2 hr hsane hused hover hnext h
    have hp : Prints path st' (fun k => if w then .err (lit "detox: warning: stream push back failed\n") (printChunk P o (cutNewline text).1 (cutNewline text).2 k)
        else printChunk P o (cutNewline text).1 (cutNewline text).2 k) tr2 oc := by
      cases w with
      | false => exact streamPrint_prints h
      | true =>
        cases h with
        | stop => exact .stop ..
        | err _ _ t _ h => exact .err _ (streamPrint_prints h)
    obtain ⟨h1, h2, h3, h4⟩ := hp
    have hoc : otherCalls (tr1 ++ tr2) = otherCalls tr2 := by rw [otherCalls_append, otherCalls_reads hr]; rfl
    have hde : delivered (tr1 ++ tr2) = delivered tr1 := by rw [delivered_append, h2, List.append_nil]
    have hfa : failedAfter b (tr1 ++ tr2) = failedAfter b tr1 := by rw [failedAfter_append, h3]
    refine ⟨?_, ?_⟩
    · intro e he
      rcases List.mem_append.1 he with he | he
      · exact .inl (hr e he)
      · exact h1 e he
    · rw [hoc, hde, hfa]
      rcases h4 with ⟨rfl, h4⟩ | ⟨oc', hse, h4⟩
      · refine .inl ⟨st', f, rfl, hsane, hused, hover, ?_⟩
        intro X D hX hX' htl m t oc' hk
        rw [inlineLoop_chunk (hne' _) (hnext X D hX hX' htl)]
        exact h4 _ _ _ hk
      · refine .inr ⟨oc', hse, f, st'.buf, hused, fun ho => (hover ho).1, ?_⟩
        intro htl m
        have := hnext [] [] List.nil_prefix (fun _ => rfl)
        rw [List.append_nil] at this
        rw [inlineLoop_chunk (hne' _) (this htl)]
        exact h4 _
  unfold streamRound at h
  by_cases hnl : strrchrIdx 0x0A (cstr line) = none
  · simp only [if_pos hnl] at h
    have fromComplete : ∀ tr o1, FlowTrace (streamComplete P path (cstr line) st) tr o1 → Steady b tr → _ :=
      fun tr o1 h hst => streamComplete_any (b := b) h hs hst
    rcases flow_bind_any h with ⟨⟨text, st', w⟩, tr1, tr2, rfl, h1, h2⟩ | ⟨o', ho, h1⟩
    · obtain ⟨hst1, _⟩ := (steady_append _ _ _).1 hst
      obtain ⟨hr, h3⟩ := fromComplete _ _ h1 hst1
      rcases h3 with h3 | ⟨_, _, _, f, he, g⟩ | ⟨_, _, _, _, hf⟩
      · cases h3
      · cases he
        refine print text st' w f tr1 tr2 hr g.sane g.used g.over ?_ h2
        intro X D hX hX' htl
        rw [nextChunk_of_line htl, if_pos hnl, g.complete X D hX hX']
        rfl
      · exact absurd hf (failsAs_ret _ _)
    · obtain ⟨hr, h3⟩ := fromComplete _ _ h1 hst
      refine ⟨copies_reads hr, .inr ?_⟩
      rw [otherCalls_reads hr]
      rcases h3 with rfl | ⟨_, _, _, f, rfl, g⟩ | ⟨f, rest, hu, hov, hf⟩
      · cases ho
        exact ⟨_, .running, [], _, (List.nil_append _).symm, fun _ => rfl, fun _ _ => .stop _⟩
      · cases ho
      · have : ∃ oc' : Outcome Unit, oc.SameEnd oc' ∧ FailsAs (completeChunk P (cstr line) f) oc' := by
          generalize completeChunk P (cstr line) f = x at hf
          cases hf with
          | exit n => cases ho; exact ⟨_, .exit n, .exit n⟩
          | ub n => cases ho; exact ⟨_, .ub n, .ub n⟩
          | stuck => cases ho; exact ⟨_, .stuck, .stuck⟩
        obtain ⟨oc', h5, h6⟩ := this
        refine ⟨oc', h5, f, rest, hu, hov, ?_⟩
        intro htl m
        refine inlineLoop_fails (hne' _) ?_
        rw [nextChunk_of_line htl, if_pos hnl]
        generalize completeChunk P (cstr line) f = x at h6
        cases h6 with
        | exit n => exact .exit n
        | ub n => exact .ub n
        | stuck => exact .stuck
  · simp only [if_neg hnl] at h
    refine print (cstr line) st false [] [] tr (by simp) hs (by simp [delivered]) (fun ho => ⟨rfl, ho⟩) ?_ h
    intro X D hX hX' htl
    rw [nextChunk_of_line htl, if_neg hnl]
    rfl

/-! ### The loop -/

/-- If nothing more will come, the loop is done. -/
theorem streamLoop_over {P : Platform} {o : Options} {path : Option Bytes} {n : Nat} {st : Stream} {b : Bool} {tr : List FlowEvent} {oc : Outcome Unit}
    (h : FlowTrace (streamLoop P o path n st) tr oc) (ho : st.Over b) (hst : Steady b tr) : delivered tr = [] := by
  cases n with
  | zero => cases h <;> rfl
  | succ n =>
    unfold streamLoop at h
    rw [show inlineBufSize - inlineBufPadding - 1 = 1006 + 1 from rfl] at h
    unfold streamGets at h
    rw [ho.1] at h
    by_cases he : st.eof = true
    · simp only [if_pos he] at h
      cases h <;> rfl
    · simp only [if_neg he] at h
      have hb : b = true := by rcases ho.2 with h | h; exact absurd h he; exact h
      subst hb
      cases h with
      | stop => rfl
      | read _ _ r t _ h =>
        cases r with
        | data d =>
          simp only [Steady] at hst
          cases hst.1 trivial
          cases h <;> rfl
        | fail a =>
          simp only [ne_eq, not_true_eq_false, and_false, if_false] at h
          cases h <;> rfl

theorem heldBack_line {s : Bytes} {n : Nat} (hn : n ≤ 1023) (hl : s.length ≤ n) (h : (0x0A : Byte) ∉ s) : HeldBack s := ⟨by omega, fun _ => h⟩

theorem streamLoop_any (P : Platform) (o : Options) (path : Option Bytes) : ∀ (n : Nat) (st : Stream) (b : Bool) (tr : List FlowEvent)
    (oc : Outcome Unit), FlowTrace (streamLoop P o path n st) tr oc → st.Sane b → Steady b tr →
    (oc = .stuck → (st.buf ++ delivered tr).length < n) →
    (∀ e ∈ tr, Copies path e) ∧ ∃ text rest, st.buf ++ delivered tr = text ++ rest ∧
      (∀ m, text.length ≤ m → Trace (inlineLoop P o m text) (otherCalls tr) oc) ∧
      (oc = .ret () → HeldBack rest ∧ (b = false → NoFailure tr → rest = []))
  | 0, st, b, tr, oc, h, hs, hst, hoc => by
    cases h with
    | stop => exact ⟨by simp, [], st.buf, by simp [delivered], fun _ _ => .stop _, by simp⟩
    | stuck => exact absurd (hoc rfl) (Nat.not_lt_zero _)
  | n + 1, st, b, tr, oc, h, hs, hst, hoc => by
    unfold streamLoop at h
    rw [show inlineBufSize - inlineBufPadding - 1 = 1007 from rfl] at h
    rcases flow_bind_any h with ⟨⟨l, st1⟩, tr1, tr2, rfl, h1, h2⟩ | ⟨o', ho, h1⟩
    · obtain ⟨hst1, hst2⟩ := (steady_append _ _ _).1 hst
      have hr := (Flow.Reads.trace h1 (streamGets_reads path _ _ _)).1
      have g := streamGets_ret path 1007 [] st b tr1 l st1 h1 (by simp) hs hst1
      cases l with
      | none =>
        obtain ⟨_, _, used, hu, _, _, hnone⟩ := g
        obtain ⟨hb1, hnn, hlt, hnf⟩ := hnone rfl
        have : tr2 = [] ∧ (oc = .running ∨ oc = .ret ()) := by cases h2 <;> simp
        obtain ⟨rfl, hoc'⟩ := this
        rw [List.append_nil]
        refine ⟨copies_reads hr, [], used, by simpa [hb1] using hu, ?_, ?_⟩
        · intro m _
          rw [otherCalls_reads hr]
          rcases hoc' with rfl | rfl
          · exact .stop _
          · unfold inlineLoop; exact .ret ()
        · intro _
          exact ⟨heldBack_line (n := 1007) (by omega) (by omega) hnn, fun hb hn => (hnf hb hn).1⟩
      | some line =>
        obtain ⟨hu, hne, hll, htl⟩ := g.takeLine
        rcases flow_bind_any h2 with ⟨st2, tr3, tr4, rfl, h3, h4⟩ | ⟨o', ho, h3⟩
        · obtain ⟨hst3, hst4⟩ := (steady_append _ _ _).1 hst2
          obtain ⟨hc3, hend⟩ := streamRound_any h3 g.sane hst3 hne
          rcases hend with ⟨st', f, he, hs', hu', hov, hrun⟩ | ⟨oc', hse, _⟩
          · have he' : st2 = st' := by cases he; rfl
            subst he'
            obtain ⟨hc4, text, rest, hu4, hT, hret⟩ := streamLoop_any P o path n st2 _ tr4 oc h4 hs' hst4 fun ho => by
              have hlt := hoc ho
              rw [delivered_append, delivered_append, ← List.append_assoc, hu, List.append_assoc line, ← List.append_assoc st1.buf, hu'] at hlt
              have : 0 < line.length := List.length_pos_iff.2 hne
              simp only [List.length_append] at hlt ⊢
              omega
            have hX : st2.Over (failedAfter (failedAfter b tr1) tr3) → text = [] := by
              intro hov'
              have hd := streamLoop_over h4 hov' hst4
              rw [hd, hov'.1] at hu4
              simpa using (List.append_eq_nil_iff.1 hu4.symm).1
            refine ⟨?_, line ++ (f ++ text), rest, ?_, ?_, ?_⟩
            · intro e he
              rcases List.mem_append.1 he with he | he
              · exact .inl (hr e he)
              · rcases List.mem_append.1 he with he | he
                · exact hc3 e he
                · exact hc4 e he
            · rw [delivered_append, delivered_append, ← List.append_assoc, hu]
              rw [List.append_assoc line, ← List.append_assoc st1.buf, hu', List.append_assoc f, hu4]
              simp only [List.append_assoc]
            · intro m hm
              obtain ⟨m, rfl⟩ : ∃ k, m = k + 1 := by
                cases m with
                | zero =>
                  have : 0 < line.length := List.length_pos_iff.2 hne
                  simp only [List.length_append] at hm
                  omega
                | succ k => exact ⟨k, rfl⟩
              rw [otherCalls_append, otherCalls_append, otherCalls_reads hr, List.nil_append]
              refine hrun text (delivered tr4) ⟨rest, hu4.symm⟩ hX (htl _ ?_) m _ oc (hT m ?_)
              · intro hov1
                obtain ⟨hf, hov2⟩ := hov hov1
                rw [hf, hX hov2]
                rfl
              · have : 0 < line.length := List.length_pos_iff.2 hne
                simp only [List.length_append] at hm
                omega
            · intro ho
              obtain ⟨g1, g2⟩ := hret ho
              refine ⟨g1, fun hb hn => ?_⟩
              obtain ⟨n1, n2⟩ := NoFailure.append hn
              obtain ⟨n3, n4⟩ := NoFailure.append n2
              refine g2 ?_ n4
              have key : ∀ (b : Bool) (tr : List FlowEvent), b = false → NoFailure tr → failedAfter b tr = false := by
                intro b tr
                induction tr generalizing b with
                | nil => intro hb _; exact hb
                | cons e tr ih =>
                  intro hb hn
                  have hn' : NoFailure tr := (NoFailure.append (a := [e]) (b := tr) hn).2
                  cases e with
                  | sys => exact ih b hb hn'
                  | fopen => exact ih false rfl hn'
                  | read p r =>
                    cases r with
                    | data => exact ih b hb hn'
                    | fail a => exact absurd (by simp [answers]) (hn a)
              exact key _ _ (key _ _ hb n1) n3
          · cases hse
        · obtain ⟨hc3, hend⟩ := streamRound_any h3 g.sane hst2 hne
          rcases hend with ⟨st', f, he, _⟩ | ⟨oc', hse, f, rest, hu', hov, hrun⟩
          · rw [he] at ho; cases ho
          · have hoc' : oc' = oc := by cases ho <;> cases hse <;> rfl
            subst hoc'
            refine ⟨?_, line ++ f, rest, ?_, ?_, ?_⟩
            · intro e he
              rcases List.mem_append.1 he with he | he
              · exact .inl (hr e he)
              · exact hc3 e he
            · rw [delivered_append, ← List.append_assoc, hu, List.append_assoc, hu', List.append_assoc]
            · intro m hm
              obtain ⟨m, rfl⟩ : ∃ k, m = k + 1 := by
                cases m with
                | zero =>
                  have : 0 < line.length := List.length_pos_iff.2 hne
                  simp only [List.length_append] at hm
                  omega
                | succ k => exact ⟨k, rfl⟩
              rw [otherCalls_append, otherCalls_reads hr, List.nil_append]
              exact hrun (htl f hov) m
            · intro hr'
              rw [hr'] at ho
              cases ho
    · have hr := Flow.Reads.trace h1 (streamGets_reads path _ _ _)
      refine ⟨copies_reads hr.1, [], _, (List.nil_append _).symm, ?_, ?_⟩
      · intro m _
        rw [otherCalls_reads hr.1]
        rcases hr.2 with rfl | ⟨a, rfl⟩
        · cases ho; exact .stop _
        · cases ho
      · intro h
        subst h
        cases ho

end Detox
