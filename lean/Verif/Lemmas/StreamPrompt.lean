import Verif.Lemmas.StreamWaits
import Verif.Lemmas.StreamFeeds
import Verif.Lemmas.StreamMain

/-!
# Standard input is read by `parse_inline` only if there are no arguments
-/

set_option autoImplicit false

namespace Detox
open Spec

/-- All calls that a program can make are of a kind. -/
def Flow.Makes {α : Type} (Q : FlowEvent → Prop) : Flow α → Prop
  | .ret _ | .exit _ | .ub _ | .stuck => True
  | .lstat p k => ∀ r, Q (.sys (.lstat p r)) ∧ (k r).Makes Q
  | .fopen p k => ∀ r, Q (.fopen p r) ∧ (k r).Makes Q
  | .read p k => ∀ r, Q (.read p r) ∧ (k r).Makes Q
  | .out s k => Q (.sys (.out s)) ∧ k.Makes Q
  | .err s k => Q (.sys (.err s)) ∧ k.Makes Q

theorem Flow.Makes.bind {α β : Type} {Q : FlowEvent → Prop} {f : α → Flow β} (hf : ∀ a, (f a).Makes Q) :
    ∀ {p : Flow α}, p.Makes Q → (p.bind f).Makes Q
  | .ret a, _ => hf a
  | .exit _, _ | .ub _, _ | .stuck, _ => trivial
  | .lstat _ _, h => fun r => ⟨(h r).1, bind hf (h r).2⟩
  | .fopen _ _, h => fun r => ⟨(h r).1, bind hf (h r).2⟩
  | .read _ _, h => fun r => ⟨(h r).1, bind hf (h r).2⟩
  | .out _ _, h => ⟨h.1, bind hf h.2⟩
  | .err _ _, h => ⟨h.1, bind hf h.2⟩

theorem Flow.Makes.trace {α : Type} {Q : FlowEvent → Prop} {p : Flow α} {tr : List FlowEvent} {oc : Outcome α} (h : FlowTrace p tr oc)
    (hp : p.Makes Q) : ∀ e ∈ tr, Q e := by
  induction h with
  | stop | ret | exit | ub | stuck => simp
  | lstat _ _ r _ _ _ ih => exact fun e he => (List.mem_cons.1 he).elim (fun h => h ▸ (hp r).1) (fun he => ih (hp r).2 e he)
  | fopen _ _ r _ _ _ ih => exact fun e he => (List.mem_cons.1 he).elim (fun h => h ▸ (hp r).1) (fun he => ih (hp r).2 e he)
  | read _ _ r _ _ _ ih => exact fun e he => (List.mem_cons.1 he).elim (fun h => h ▸ (hp r).1) (fun he => ih (hp r).2 e he)
  | out _ _ _ _ _ ih => exact fun e he => (List.mem_cons.1 he).elim (fun h => h ▸ hp.1) (fun he => ih hp.2 e he)
  | err _ _ _ _ _ ih => exact fun e he => (List.mem_cons.1 he).elim (fun h => h ▸ hp.1) (fun he => ih hp.2 e he)

theorem Flow.Makes.ofRes {α : Type} {Q : FlowEvent → Prop} (r : Res α) : (Flow.ofRes r).Makes Q := by cases r <;> trivial

theorem streamGetc_makes {Q : FlowEvent → Prop} {path : Option Bytes} (hr : ∀ r, Q (.read path r)) (st : Stream) : (streamGetc path st).Makes Q := by
  unfold streamGetc
  split
  · trivial
  · split
    · trivial
    · intro r
      refine ⟨hr r, ?_⟩
      dsimp only
      split <;> trivial

theorem streamGets_makes {Q : FlowEvent → Prop} {path : Option Bytes} (hr : ∀ r, Q (.read path r)) :
    ∀ (n : Nat) (got : Bytes) (st : Stream), (streamGets path n got st).Makes Q
  | 0, _, _ => trivial
  | n + 1, got, st => by
    unfold streamGets
    split
    · split
      · trivial
      · exact streamGets_makes hr n _ _
    · split
      · trivial
      · intro r
        refine ⟨hr r, ?_⟩
        dsimp only
        split
        · split
          · trivial
          · exact streamGets_makes hr n _ _
        · trivial
        · trivial

theorem streamConts_makes {Q : FlowEvent → Prop} {P : Platform} {path : Option Bytes} (hr : ∀ r, Q (.read path r)) :
    ∀ (n : Nat) (st : Stream), (streamConts P path n st).Makes Q
  | 0, _ => trivial
  | n + 1, st => by
    unfold streamConts
    refine Flow.Makes.bind (fun a => ?_) (streamGetc_makes hr st)
    split
    · trivial
    · split
      · refine Flow.Makes.bind (fun _ => ?_) (streamConts_makes hr n _)
        trivial
      · split <;> trivial

theorem streamLoop_makes {Q : FlowEvent → Prop} {P : Platform} {o : Options} {path : Option Bytes} (hr : ∀ r, Q (.read path r))
    (ho : ∀ s, Q (.sys (.out s))) (he : ∀ s, Q (.sys (.err s))) : ∀ (n : Nat) (st : Stream), (streamLoop P o path n st).Makes Q
  | 0, _ => trivial
  | n + 1, st => by
    unfold streamLoop
    refine Flow.Makes.bind (fun a => ?_) (streamGets_makes hr _ _ st)
    split
    · trivial
    · refine Flow.Makes.bind (fun _ => streamLoop_makes hr ho he n _) ?_
      unfold streamRound
      refine Flow.Makes.bind (fun q => ?_) ?_
      · have : ((streamPrint P o (cutNewline q.1).1 (cutNewline q.1).2).bind fun _ => .ret q.2.1).Makes Q := by
          refine Flow.Makes.bind (fun _ => ?_) ?_
          · trivial
          unfold streamPrint
          refine Flow.Makes.bind (fun _ => ?_) (.ofRes _)
          refine ⟨ho _, ?_⟩
          split
          · exact ⟨ho _, trivial⟩
          · trivial
        dsimp only
        split
        · exact ⟨he _, this⟩
        · exact this
      · split
        · unfold streamComplete
          refine Flow.Makes.bind (fun d => ?_) (.ofRes _)
          dsimp only
          split
          · split
            · refine Flow.Makes.bind (fun f => ?_) (streamConts_makes hr _ _)
              split <;> trivial
            · trivial
          · trivial
        · trivial

theorem streamFileLoop_makes {Q : FlowEvent → Prop} {P : Platform} {o : Options} {rounds : Nat} (hr : ∀ f r, Q (.read (some f) r))
    (hf : ∀ f r, Q (.fopen f r)) (hs : ∀ e, Q (.sys e)) : ∀ (n : Nat) (l : Filelist), (streamFileLoop P o rounds n l).Makes Q
  | 0, _ => trivial
  | n + 1, l => by
    unfold streamFileLoop
    refine Flow.Makes.bind (fun p => ?_) (.ofRes _)
    split
    · trivial
    · rename_i file _
      refine Flow.Makes.bind (fun _ => streamFileLoop_makes hr hf hs n _) ?_
      unfold streamArg
      intro r
      refine ⟨hs _, ?_⟩
      dsimp only
      split
      · exact ⟨hs _, trivial⟩
      · split
        · exact ⟨hs _, trivial⟩
        · intro ok
          refine ⟨hf _ _, ?_⟩
          dsimp only
          split
          · exact streamLoop_makes (hr file) (fun _ => hs _) (fun _ => hs _) _ _
          · exact ⟨hs _, trivial⟩

theorem steady_prefix {x y : List FlowEvent} : ∀ {b : Bool}, Steady b (x ++ y) → Steady b x := by
  induction x with
  | nil => intro b _; trivial
  | cons e x ih =>
    intro b h
    cases e with
    | sys e => exact ih (b := b) h
    | fopen p r => exact ih (b := false) h
    | read p r =>
      cases r with
      | data s => exact ⟨h.1, ih (b := b) h.2⟩
      | fail a => exact ⟨h.1, ih (b := true) h.2⟩

/-- Waiting for standard input: all that `parse_inline` has to say about what came before, has been said. -/
theorem detoxMainStream_waits {P : Platform} {I : Invocation} {fuel rounds : Nat} {tr : List FlowEvent} {r : ReadRes} {oc : Outcome Unit}
    (h : StreamTrace (detoxMainStream P I fuel rounds) (tr ++ [.read none r]) oc) (hst : Steady false tr) :
    ∃ pre part text rest, tr = pre.map .sys ++ part ∧ (∀ e ∈ part, Copies none e) ∧ delivered part = text ++ rest ∧ HeldBack rest ∧
      Trace (detoxMain P I fuel) (pre ++ .slurp none (some text) :: otherCalls part) (.ret ()) := by
  have nosys : ∀ t : List Event, t.map FlowEvent.sys = tr ++ [.read none r] → False := by
    intro t ht
    have : FlowEvent.read none r ∈ t.map FlowEvent.sys := by rw [ht]; simp
    obtain ⟨e, _, he⟩ := List.mem_map.1 this
    cases he
  generalize hx : tr ++ [FlowEvent.read none r] = x at h
  cases h with
  | before t h => exact (nosys t hx.symm).elim
  | exit t n h => exact (nosys t hx.symm).elim
  | ub t u h => exact (nosys t hx.symm).elim
  | stuck t h => exact (nosys t hx.symm).elim
  | andThen t q t' _ h h' =>
    rcases append_read_split hx with ⟨_, ht⟩ | ⟨part, rfl, rfl⟩
    · exact (nosys t ht).elim
    · have hst' := steady_sys hst
      cases detoxMainStream_before h with
      | done hd => exact absurd h' ret_no_event
      | ends _ _ hs => cases hs
      | inline o ho hk =>
        have hst2 : Steady false part := hst'
        have fromParse : FlowTrace (parseStream P o rounds none) (part ++ [.read none r]) oc →
            inlineMain P o o.files = parseInline P o none → ∃ pre part' text rest,
            t.map FlowEvent.sys ++ part = pre.map .sys ++ part' ∧ (∀ e ∈ part', Copies none e) ∧ delivered part' = text ++ rest ∧ HeldBack rest ∧
            Trace (detoxMain P I fuel) (pre ++ .slurp none (some text) :: otherCalls part') (.ret ()) := by
          intro hp hm
          have hp : FlowTrace (streamLoop P o none rounds ⟨[], false⟩) (part ++ [.read none r]) oc := hp
          obtain ⟨text, rest, e1, e2, e3⟩ := streamLoop_waits P o none rounds ⟨[], false⟩ false part none r oc hp (by constructor <;> simp) hst2
          refine ⟨t, part, text, rest, rfl, ?_, by simpa using e1, e2, ?_⟩
          · intro e he
            have := Flow.Makes.trace hp (streamLoop_makes (Q := Copies none) (fun r => .inl ⟨r, rfl⟩) (fun s => .inr (.inl ⟨s, rfl⟩))
              (fun s => .inr (.inr ⟨s, rfl⟩)) _ _)
            exact this e (by simp [he])
          · refine hk _ _ ?_
            rw [hm]
            exact .slurp _ _ _ _ _ (e3 _ (by omega))
        unfold streamMain at h'
        cases hf : o.files with
        | none =>
          rw [hf] at h'
          refine fromParse h' ?_
          rw [hf]; rfl
        | some l =>
          rw [hf] at h'
          by_cases hc : filelistCount (some l) > 0
          · dsimp only at h'
            rw [if_pos hc] at h'
            have := Flow.Makes.trace h' (streamFileLoop_makes (Q := fun e => ∀ r, e ≠ .read none r) (by simp) (by simp) (by simp) _ _)
            exact absurd rfl (this (.read none r) (by simp) r)
          · dsimp only at h'
            rw [if_neg hc] at h'
            refine fromParse h' ?_
            rw [hf]
            unfold inlineMain
            simp only [if_neg hc]

end Detox
