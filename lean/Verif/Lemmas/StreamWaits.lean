import Verif.Lemmas.StreamMain

/-!
# What has been printed when detox waits for more, and which executions there are
-/

set_option autoImplicit false

namespace Detox
open Spec

theorem ret_no_event {α : Type} {a : α} {tr : List FlowEvent} {e : FlowEvent} {oc : Outcome α} : ¬ FlowTrace (.ret a) (tr ++ [e]) oc := by
  intro h
  generalize hx : tr ++ [e] = x at h
  cases h <;> simp at hx

theorem streamGets_waits (path : Option Bytes) : ∀ (n : Nat) (got : Bytes) (st : Stream) (tr : List FlowEvent) (p : Option Bytes) (r : ReadRes)
    (oc : Outcome (Option Bytes × Stream)), FlowTrace (streamGets path n got st) (tr ++ [.read p r]) oc →
    (0x0A : Byte) ∉ st.buf ++ delivered tr ∧ (st.buf ++ delivered tr).length < n
  | 0, got, st, tr, p, r, oc, h => by
    exact absurd h ret_no_event
  | n + 1, got, st, tr, p, r, oc, h => by
    have step : ∀ (c : Byte) (s : Bytes) (tr : List FlowEvent),
        FlowTrace (if c = 0x0A then .ret (some (got ++ [c]), { st with buf := s }) else streamGets path n (got ++ [c]) { st with buf := s })
          (tr ++ [.read p r]) oc → (0x0A : Byte) ∉ c :: s ++ delivered tr ∧ (c :: s ++ delivered tr).length < n + 1 := by
      intro c s tr h
      by_cases hc : c = 0x0A
      · rw [if_pos hc] at h
        exact absurd h ret_no_event
      · rw [if_neg hc] at h
        obtain ⟨h1, h2⟩ := streamGets_waits path n _ _ tr p r oc h
        exact ⟨by simpa [Ne.symm hc] using h1, by simpa using h2⟩
    unfold streamGets at h
    cases hbuf : st.buf with
    | cons c s =>
      rw [hbuf] at h
      exact step c s tr h
    | nil =>
      rw [hbuf] at h
      by_cases he : st.eof = true
      · simp only [if_pos he] at h
        exact absurd h ret_no_event
      · simp only [if_neg he] at h
        cases tr with
        | nil => simp [delivered]
        | cons e tr =>
          cases h with
          | read _ _ a t _ h =>
            rcases a with (_ | ⟨c, s⟩) | a
            · exact absurd h ret_no_event
            · exact step c s tr h
            · exact absurd h ret_no_event

theorem append_read_split {tr tr1 tr2 : List FlowEvent} {e : FlowEvent} (h : tr ++ [e] = tr1 ++ tr2) :
    (tr2 = [] ∧ tr1 = tr ++ [e]) ∨ ∃ t, tr2 = t ++ [e] ∧ tr = tr1 ++ t := by
  rcases List.eq_nil_or_concat tr2 with rfl | ⟨t, x, rfl⟩
  · exact .inl ⟨rfl, by simpa using h.symm⟩
  · refine .inr ⟨t, ?_⟩
    rw [List.concat_eq_append, ← List.append_assoc] at h
    obtain ⟨h1, h2⟩ := List.append_inj' h rfl
    rw [List.concat_eq_append]
    exact ⟨by rw [List.singleton_inj.1 h2], h1⟩

theorem streamConts_waits (P : Platform) (path : Option Bytes) : ∀ (n : Nat) (st : Stream) (tr : List FlowEvent) (p : Option Bytes) (r : ReadRes)
    (oc : Outcome (Bytes × Stream × Bool)), FlowTrace (streamConts P path n st) (tr ++ [.read p r]) oc →
    (∀ c ∈ st.buf ++ delivered tr, isUtf8Cont c = true) ∧ (st.buf ++ delivered tr).length < n
  | 0, st, tr, p, r, oc, h => by
    exact absurd h ret_no_event
  | n + 1, st, tr, p, r, oc, h => by
    unfold streamConts at h
    have step : ∀ (c : Byte) (s1 : Stream) (tr : List FlowEvent),
        FlowTrace (if isUtf8Cont c then (streamConts P path n s1).bind fun q => .ret (c :: q.1, q.2)
          else if P.charSigned && c = 0xFF then .ret ([c], s1, true) else .ret ([], ⟨c :: s1.buf, false⟩, false)) (tr ++ [.read p r]) oc →
        (∀ x ∈ c :: s1.buf ++ delivered tr, isUtf8Cont x = true) ∧ (c :: s1.buf ++ delivered tr).length < n + 1 := by
      intro c s1 tr h
      by_cases hc : isUtf8Cont c = true
      · rw [if_pos hc] at h
        have : ∃ oc', FlowTrace (streamConts P path n s1) (tr ++ [.read p r]) oc' := by
          rcases flow_bind_any h with ⟨q, tr1, tr2, he, h1, h2⟩ | ⟨o', _, h1⟩
          · rcases append_read_split he with ⟨_, rfl⟩ | ⟨t, rfl, _⟩
            · exact ⟨_, h1⟩
            · exact absurd h2 ret_no_event
          · exact ⟨_, h1⟩
        obtain ⟨oc', h'⟩ := this
        obtain ⟨h1, h2⟩ := streamConts_waits P path n s1 tr p r oc' h'
        refine ⟨?_, by simpa using h2⟩
        intro x hx
        rcases List.mem_cons.1 hx with rfl | hx
        · exact hc
        · exact h1 x hx
      · rw [if_neg hc] at h
        generalize hx : tr ++ [FlowEvent.read p r] = x at h
        split at h <;> cases h <;> simp at hx
    unfold streamGetc at h
    cases hbuf : st.buf with
    | cons c s =>
      rw [hbuf] at h
      exact step c _ tr h
    | nil =>
      rw [hbuf] at h
      by_cases he : st.eof = true
      · simp only [if_pos he] at h
        exact absurd h ret_no_event
      · simp only [if_neg he] at h
        cases tr with
        | nil => simp [delivered]
        | cons e tr =>
          cases h with
          | read _ _ a t _ h =>
            rcases a with (_ | ⟨c, s⟩) | a
            · exact absurd h ret_no_event
            · exact step c _ tr h
            · exact absurd h ret_no_event

theorem skipConts_le : ∀ (n : Nat) (s : Bytes), (skipConts n s).1 ≤ n
  | 0, _ => by simp [skipConts]
  | n + 1, [] => by simp [skipConts]
  | n + 1, c :: s => by
    unfold skipConts
    split
    · have := skipConts_le n s; omega
    · simp

theorem utf8Width_le : ∀ c : Byte, (utf8Width c).getD 0 ≤ 6 := forall_byte (by decide +kernel)

theorem cont_not_newline : isUtf8Cont 0x0A = false := by decide

theorem streamRound_waits {P : Platform} {o : Options} {path : Option Bytes} {line : Bytes} {st : Stream} {tr : List FlowEvent} {p : Option Bytes} {r : ReadRes}
    {oc : Outcome Stream} (h : FlowTrace (streamRound P o path line st) (tr ++ [.read p r]) oc) (hl : line.length ≤ 1007) :
    otherCalls tr = [] ∧ HeldBack (line ++ (st.buf ++ delivered tr)) := by
  have noRead : ∀ (text : Bytes) (st' : Stream) (w : Bool) (t : List FlowEvent),
      FlowTrace (if w then .err (lit "detox: warning: stream push back failed\n") ((streamPrint P o (cutNewline text).1 (cutNewline text).2).bind fun _ => .ret st')
        else (streamPrint P o (cutNewline text).1 (cutNewline text).2).bind fun _ => .ret st') t oc → ∀ e ∈ t, ∃ e', e = .sys e' := by
    intro text st' w t h
    have print : ∀ t, FlowTrace ((streamPrint P o (cutNewline text).1 (cutNewline text).2).bind fun _ => .ret st') t oc → ∀ e ∈ t, ∃ e', e = .sys e' := by
      intro t h
      rw [streamPrint_eq, flow_bind_assoc] at h
      rcases flow_ofRes_any h with ⟨hold, _, h⟩ | ⟨rfl, rfl⟩ | ⟨rfl, hf⟩
      · cases h with
        | stop => simp
        | out _ _ t _ h =>
          cases hnl : (cutNewline text).2 with
          | false =>
            rw [hnl] at h
            cases h <;> simp
          | true =>
            rw [hnl] at h
            cases h with
            | stop => simp
            | out _ _ t _ h => cases h <;> simp
      · simp
      · simp
    cases w with
    | false => exact print t h
    | true =>
      cases h with
      | stop => simp
      | err _ _ t _ h =>
        intro e he
        rcases List.mem_cons.1 he with rfl | he
        · exact ⟨_, rfl⟩
        · exact print t h e he
  unfold streamRound at h
  by_cases hnl : strrchrIdx 0x0A (cstr line) = none
  · simp only [if_pos hnl] at h
    have : ∃ oc', FlowTrace (streamComplete P path (cstr line) st) (tr ++ [.read p r]) oc' := by
      rcases flow_bind_any h with ⟨q, tr1, tr2, he, h1, h2⟩ | ⟨o', _, h1⟩
      · rcases append_read_split he with ⟨_, rfl⟩ | ⟨t, rfl, _⟩
        · exact ⟨_, h1⟩
        · obtain ⟨_, he'⟩ := noRead _ _ _ _ h2 (.read p r) (by simp)
          cases he'
      · exact ⟨_, h1⟩
    obtain ⟨oc', h⟩ := this
    unfold streamComplete at h
    rcases flow_ofRes_any h with ⟨d, hd, h⟩ | ⟨he, _⟩ | ⟨he, _⟩
    · simp only at h
      split at h
      · split at h
        · rename_i hc
          have : ∃ oc', FlowTrace (streamConts P path (skipConts ((utf8Width ((cstr line).getD ((cstr line).length - d) 0)).getD 0 - 1) ((cstr line).drop ((cstr line).length - d + 1))).1 st)
              (tr ++ [.read p r]) oc' := by
            rcases flow_bind_any h with ⟨q, tr1, tr2, he, h1, h2⟩ | ⟨o', _, h1⟩
            · rcases append_read_split he with ⟨_, rfl⟩ | ⟨t, rfl, _⟩
              · exact ⟨_, h1⟩
              · generalize hx : t ++ [FlowEvent.read p r] = x at h2
                split at h2 <;> cases h2 <;> simp at hx
            · exact ⟨_, h1⟩
          obtain ⟨oc', h⟩ := this
          have hr := (Flow.Reads.trace h (streamConts_reads P path _ st)).1
          obtain ⟨h1, h2⟩ := streamConts_waits P path _ st tr p r oc' h
          have h3 := skipConts_le ((utf8Width ((cstr line).getD ((cstr line).length - d) 0)).getD 0 - 1) ((cstr line).drop ((cstr line).length - d + 1))
          have h4 := utf8Width_le ((cstr line).getD ((cstr line).length - d) 0)
          refine ⟨otherCalls_reads (path := path) fun e he => hr e (List.mem_append_left _ he), ?_, ?_⟩
          · rw [List.length_append]
            omega
          · intro h0 hm
            rcases List.mem_append.1 hm with hm | hm
            · have : cstr line = line := cstr_of_nulFree fun hc => h0 (List.mem_append_left _ hc)
              rw [this] at hnl
              exact (strrchrIdx_none_iff _ _).1 hnl hm
            · have := h1 _ hm
              rw [cont_not_newline] at this
              cases this
        · exact absurd h ret_no_event
      · exact absurd h ret_no_event
    · simp at he
    · simp at he
  · simp only [if_neg hnl] at h
    obtain ⟨_, he'⟩ := noRead (cstr line) st false _ h (.read p r) (by simp)
    cases he'

/-- When the loop waits for more, everything has been printed but a part that is held back. -/
theorem streamLoop_waits (P : Platform) (o : Options) (path : Option Bytes) : ∀ (n : Nat) (st : Stream) (b : Bool) (tr : List FlowEvent)
    (p : Option Bytes) (r : ReadRes) (oc : Outcome Unit), FlowTrace (streamLoop P o path n st) (tr ++ [.read p r]) oc → st.Sane b → Steady b tr →
    ∃ text rest, st.buf ++ delivered tr = text ++ rest ∧ HeldBack rest ∧
      ∀ m, text.length ≤ m → Trace (inlineLoop P o m text) (otherCalls tr) (.ret ())
  | 0, st, b, tr, p, r, oc, h, hs, hst => by
    generalize hx : tr ++ [FlowEvent.read p r] = x at h
    cases h <;> simp at hx
  | n + 1, st, b, tr, p, r, oc, h, hs, hst => by
    unfold streamLoop at h
    rw [show inlineBufSize - inlineBufPadding - 1 = 1007 from rfl] at h
    have inGets : ∀ oc', FlowTrace (streamGets path 1007 [] st) (tr ++ [.read p r]) oc' → ∃ text rest, st.buf ++ delivered tr = text ++ rest ∧ HeldBack rest ∧
        ∀ m, text.length ≤ m → Trace (inlineLoop P o m text) (otherCalls tr) (.ret ()) := by
      intro oc' h
      have hr := (Flow.Reads.trace h (streamGets_reads path _ _ _)).1
      obtain ⟨h1, h2⟩ := streamGets_waits path _ _ st tr p r oc' h
      refine ⟨[], st.buf ++ delivered tr, rfl, heldBack_line (n := 1007) (by omega) (by omega) h1, fun m _ => ?_⟩
      rw [otherCalls_reads (path := path) fun e he => hr e (List.mem_append_left _ he)]
      unfold inlineLoop
      exact .ret ()
    rcases flow_bind_any h with ⟨⟨l, st1⟩, tr1, tr2, he, h1, h2⟩ | ⟨o', _, h1⟩
    · rcases append_read_split he with ⟨_, rfl⟩ | ⟨t, rfl, rfl⟩
      · exact inGets _ h1
      · obtain ⟨hst1, hst2⟩ := (steady_append _ _ _).1 hst
        have hr := (Flow.Reads.trace h1 (streamGets_reads path _ _ _)).1
        have g := streamGets_ret path 1007 [] st b tr1 l st1 h1 (by simp) hs hst1
        cases l with
        | none =>
          exact absurd h2 ret_no_event
        | some line =>
          obtain ⟨hu, hne, hll, htl⟩ := g.takeLine
          have inRound : ∀ oc', FlowTrace (streamRound P o path line st1) (t ++ [.read p r]) oc' → ∃ text rest,
              st.buf ++ delivered (tr1 ++ t) = text ++ rest ∧ HeldBack rest ∧
              ∀ m, text.length ≤ m → Trace (inlineLoop P o m text) (otherCalls (tr1 ++ t)) (.ret ()) := by
            intro oc' h
            obtain ⟨g1, g2⟩ := streamRound_waits h hll
            refine ⟨[], _, ?_, g2, fun m _ => ?_⟩
            · rw [delivered_append, ← List.append_assoc, hu, List.append_assoc]; rfl
            · rw [otherCalls_append, otherCalls_reads hr, g1]
              unfold inlineLoop
              exact .ret ()
          rcases flow_bind_any h2 with ⟨st2, tr3, tr4, he, h3, h4⟩ | ⟨o', ho, h3⟩
          · rcases append_read_split he with ⟨_, rfl⟩ | ⟨t4, rfl, rfl⟩
            · exact inRound _ h3
            · obtain ⟨hst3, hst4⟩ := (steady_append _ _ _).1 hst2
              obtain ⟨hc3, hend⟩ := streamRound_any h3 g.sane hst3 hne
              rcases hend with ⟨st', f, he, hs', hu', hov, hrun⟩ | ⟨oc', hse, _⟩
              · have he' : st2 = st' := by cases he; rfl
                subst he'
                obtain ⟨text, rest, hu4, hb4, hT⟩ := streamLoop_waits P o path n st2 _ t4 p r oc h4 hs' hst4
                have hX : st2.Over (failedAfter (failedAfter b tr1) tr3) → text = [] := by
                  intro hov'
                  have hd := streamLoop_over (flow_prefix h4) hov' hst4
                  rw [hd, hov'.1] at hu4
                  simpa using (List.append_eq_nil_iff.1 hu4.symm).1
                refine ⟨line ++ (f ++ text), rest, ?_, hb4, ?_⟩
                · rw [delivered_append, delivered_append, ← List.append_assoc, hu]
                  rw [List.append_assoc line, ← List.append_assoc st1.buf, hu', List.append_assoc f, hu4]
                  simp only [List.append_assoc]
                · intro m hm
                  have hpos : 0 < line.length := List.length_pos_iff.2 hne
                  simp only [List.length_append] at hm
                  obtain ⟨m, rfl⟩ : ∃ k, m = k + 1 := ⟨m - 1, by omega⟩
                  rw [otherCalls_append, otherCalls_append, otherCalls_reads hr, List.nil_append]
                  refine hrun text (delivered t4) ⟨rest, hu4.symm⟩ hX (htl _ ?_) m _ _ (hT m (by omega))
                  intro hov1
                  obtain ⟨hf, hov2⟩ := hov hov1
                  rw [hf, hX hov2]
                  rfl
              · cases hse
          · exact inRound _ h3
    · exact inGets _ h1

end Detox
