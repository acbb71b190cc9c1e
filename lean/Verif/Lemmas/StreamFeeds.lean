import Verif.Lemmas.StreamWaits
import Verif.Lemmas.Counters

/-!
# Reading a text in given pieces
-/

set_option autoImplicit false

namespace Detox
open Spec

/-- The answers that are still to come, if the pieces `ps` are. -/
def pending (st : Stream) (ps : List Bytes) : List ReadRes := if st.eof then [] else ps.map .data ++ [.data []]

/-- The text that is still to come is `T`. -/
structure Feeds (st : Stream) (ps : List Bytes) (T : Bytes) : Prop where
  text : st.buf ++ ps.flatten = T
  pieces : ∀ p ∈ ps, p ≠ []
  eof : st.eof = true → st.buf = [] ∧ ps = []

/-- An execution that only reads, leads from one state to another. -/
structure Fed {α : Type} (path : Option Bytes) (p : Flow α) (a : α) (st st' : Stream) (ps : List Bytes) (T' : Bytes) (tr : List FlowEvent) (ps' : List Bytes) : Prop where
  run : FlowTrace p tr (.ret a)
  reads : ∀ e ∈ tr, ∃ r, e = .read path r
  answers : answers tr ++ pending st' ps' = pending st ps
  feeds : Feeds st' ps' T'

theorem streamGetc_feeds {path : Option Bytes} {st : Stream} {ps : List Bytes} {T : Bytes} (h : Feeds st ps T) :
    ∃ tr st' ps', Fed path (streamGetc path st) (T.head?, st') st st' ps T.tail tr ps' ∧ (T ≠ [] → st'.eof = false) := by
  obtain ⟨h1, h2, h3⟩ := h
  unfold streamGetc
  cases hbuf : st.buf with
  | cons c s =>
    have he : st.eof = false := by
      cases he : st.eof with
      | false => rfl
      | true => rw [(h3 he).1] at hbuf; cases hbuf
    rw [hbuf] at h1
    subst h1
    exact ⟨[], { st with buf := s }, ps, ⟨.ret _, by simp, by simp [answers, pending], ⟨by simp, h2, by simp [he]⟩⟩, by simp [he]⟩
  | nil =>
    rw [hbuf] at h1
    by_cases he : st.eof = true
    · simp only [if_pos he]
      obtain ⟨_, rfl⟩ := h3 he
      simp at h1
      subst h1
      exact ⟨[], st, [], ⟨.ret _, by simp, by simp [answers], ⟨by simp [hbuf], by simp, by simp [hbuf]⟩⟩, by simp⟩
    · simp only [if_neg he]
      cases ps with
      | nil =>
        simp at h1
        subst h1
        exact ⟨[.read path (.data [])], ⟨[], true⟩, [], ⟨.read _ _ _ _ _ (.ret _), by simp, by simp [answers, pending, he], ⟨by simp, by simp, by simp⟩⟩, by simp⟩
      | cons p ps =>
        have hp := h2 p (List.mem_cons_self ..)
        cases p with
        | nil => exact absurd rfl hp
        | cons c s =>
          subst h1
          refine ⟨[.read path (.data (c :: s))], { st with buf := s }, ps, ⟨.read _ _ _ _ _ (.ret _), by simp, by simp [answers, pending, he], ⟨by simp, fun p hp => h2 p (List.mem_cons_of_mem _ hp), ?_⟩⟩, ?_⟩
          · intro hx; exact absurd hx he
          · intro _; simpa using he

theorem streamGets_feeds (path : Option Bytes) : ∀ (n : Nat) (got : Bytes) (st : Stream) (ps : List Bytes) (T : Bytes), Feeds st ps T →
    0 < n + got.length →
    ∃ tr st' ps', Fed path (streamGets path n got st) (if got ++ (takeLine n T).1 = [] then none else some (got ++ (takeLine n T).1), st') st st' ps (takeLine n T).2 tr ps'
  | 0, got, st, ps, T, h, hg => by
    have : got ≠ [] := by intro he; rw [he] at hg; simp at hg
    refine ⟨[], st, ps, ?_, by simp, by simp [answers], by simpa [takeLine] using h⟩
    simp only [takeLine, List.append_nil, this, if_false]
    exact .ret _
  | n + 1, got, st, ps, T, h, hg => by
    obtain ⟨h1, h2, h3⟩ := h
    have step : ∀ (c : Byte) (s : Bytes) (ps : List Bytes), st.eof = false → (∀ p ∈ ps, p ≠ []) → ∃ tr st' ps',
        Fed path (if c = 0x0A then .ret (some (got ++ [c]), { st with buf := s }) else streamGets path n (got ++ [c]) { st with buf := s })
          (if got ++ (takeLine (n + 1) (c :: (s ++ ps.flatten))).1 = [] then none else some (got ++ (takeLine (n + 1) (c :: (s ++ ps.flatten))).1), st') { st with buf := s } st' ps
          (takeLine (n + 1) (c :: (s ++ ps.flatten))).2 tr ps' := by
      intro c s ps he hps
      by_cases hc : c = 0x0A
      · rw [if_pos hc]
        refine ⟨[], { st with buf := s }, ps, ?_, by simp, by simp [answers], ?_⟩
        · simp only [takeLine, hc, if_true, List.append_eq_nil_iff, List.cons_ne_self, and_false, if_false]
          exact .ret _
        · simp only [takeLine, hc, if_true]
          exact ⟨rfl, hps, by simp [he]⟩
      · rw [if_neg hc]
        obtain ⟨tr, st', ps', g1, g2, g3, g4⟩ := streamGets_feeds path n (got ++ [c]) { st with buf := s } ps (s ++ ps.flatten) ⟨rfl, hps, by simp [he]⟩ (by simp; omega)
        refine ⟨tr, st', ps', ?_, g2, g3, ?_⟩
        · simp only [takeLine, hc, if_false]
          simp only [List.append_assoc, List.cons_append, List.nil_append] at g1
          exact g1
        · simp only [takeLine, hc, if_false]
          exact g4
    unfold streamGets
    cases hbuf : st.buf with
    | cons c s =>
      have he : st.eof = false := by
        cases he : st.eof with
        | false => rfl
        | true => rw [(h3 he).1] at hbuf; cases hbuf
      rw [hbuf] at h1
      subst h1
      obtain ⟨tr, st', ps', g1, g2, g3, g4⟩ := step c s ps he h2
      exact ⟨tr, st', ps', g1, g2, by simpa [pending, he] using g3, g4⟩
    | nil =>
      rw [hbuf] at h1
      by_cases he : st.eof = true
      · simp only [if_pos he]
        obtain ⟨_, rfl⟩ := h3 he
        simp at h1
        subst h1
        refine ⟨[], st, [], ?_, by simp, by simp [answers], ⟨by simp [hbuf, takeLine], by simp, by simp [hbuf]⟩⟩
        simp only [takeLine, List.append_nil]
        exact .ret _
      · simp only [if_neg he]
        cases ps with
        | nil =>
          simp at h1
          subst h1
          refine ⟨[.read path (.data [])], ⟨[], true⟩, [], ?_, by simp, by simp [answers, pending, he], ⟨by simp [takeLine], by simp, by simp⟩⟩
          simp only [takeLine, List.append_nil]
          exact .read _ _ _ _ _ (.ret _)
        | cons p ps =>
          have hp := h2 p (List.mem_cons_self ..)
          cases p with
          | nil => exact absurd rfl hp
          | cons c s =>
            subst h1
            obtain ⟨tr, st', ps', g1, g2, g3, g4⟩ := step c s ps (by simpa using he) fun p hp => h2 p (List.mem_cons_of_mem _ hp)
            refine ⟨.read path (.data (c :: s)) :: tr, st', ps', .read _ _ _ _ _ (by simpa using g1), ?_, ?_, by simpa using g4⟩
            · intro e hm
              rcases List.mem_cons.1 hm with rfl | hm
              · exact ⟨_, rfl⟩
              · exact g2 e hm
            · simp only [answers, List.cons_append, g3]
              simp [pending, he]

theorem streamConts_feeds (P : Platform) (path : Option Bytes) : ∀ (n : Nat) (st : Stream) (ps : List Bytes) (T : Bytes), Feeds st ps T →
    ∃ tr st' ps', Fed path (streamConts P path n st) ((fetchConts P n T).1, st', (fetchConts P n T).2.2) st st' ps (fetchConts P n T).2.1 tr ps'
  | 0, st, ps, T, h => ⟨[], st, ps, .ret _, by simp, by simp [answers], by simpa [fetchConts] using h⟩
  | n + 1, st, ps, T, h => by
    obtain ⟨tr, st', ps', ⟨g1, g2, g3, g4⟩, g5⟩ := streamGetc_feeds (path := path) h
    unfold streamConts
    cases T with
    | nil =>
      refine ⟨tr, st', ps', ?_, g2, g3, by simpa [fetchConts] using g4⟩
      rw [← List.append_nil tr]
      exact flow_append g1 (.ret _)
    | cons c T =>
      simp only [List.head?_cons, List.tail_cons] at g1 g4
      by_cases hc : isUtf8Cont c = true
      · obtain ⟨tr2, st2, ps2, f1, f2, f3, f4⟩ := streamConts_feeds P path n st' ps' T g4
        refine ⟨tr ++ tr2, st2, ps2, flow_append g1 ?_, ?_, ?_, ?_⟩
        · simp only [fetchConts, hc, if_true]
          have := flow_append (f := fun q : Bytes × Stream × Bool => (.ret (c :: q.1, q.2) : Flow (Bytes × Stream × Bool))) f1 (.ret _)
          simpa using this
        · intro e he
          rcases List.mem_append.1 he with he | he
          · exact g2 e he
          · exact f2 e he
        · rw [answers_append, List.append_assoc, f3, g3]
        · simpa only [fetchConts, hc, if_true] using f4
      · by_cases hff : (P.charSigned && decide (c = 0xFF)) = true
        · refine ⟨tr, st', ps', ?_, g2, g3, by simpa only [fetchConts, hc, hff, if_true, Bool.false_eq_true, if_false] using g4⟩
          rw [← List.append_nil tr]
          refine flow_append g1 ?_
          simp only [fetchConts, hc, hff, if_true, Bool.false_eq_true, if_false]
          exact .ret _
        · have he := g5 (by simp)
          refine ⟨tr, ⟨c :: st'.buf, false⟩, ps', ?_, g2, by simpa [pending, he] using g3, ?_⟩
          · rw [← List.append_nil tr]
            refine flow_append g1 ?_
            simp only [fetchConts, hc, hff, Bool.false_eq_true, if_false]
            exact .ret _
          · simp only [fetchConts, hc, hff, Bool.false_eq_true, if_false]
            exact ⟨by simp [← g4.text], g4.pieces, by simp⟩

theorem flow_ofRes_fails {α β γ : Type} {x : Res α} {k : α → Flow β} {oc : Outcome γ} {oc' : Outcome β} (h : FailsAs x oc) (hs : oc'.SameEnd oc) :
    FlowTrace ((Flow.ofRes x).bind k) [] oc' := by
  cases h <;> cases hs <;> constructor

theorem streamComplete_feeds {P : Platform} {path : Option Bytes} {base : Bytes} {st : Stream} {ps : List Bytes} {T : Bytes} (h : Feeds st ps T) :
    (∀ text X w, completeChunk P base T = .ok (text, X, w) → ∃ tr st' ps', Fed path (streamComplete P path base st) (text, st', w) st st' ps X tr ps') ∧
    ∀ (oc : Outcome Unit) (oc' : Outcome (Bytes × Stream × Bool)), FailsAs (completeChunk P base T) oc → oc'.SameEnd oc →
      ∃ tr, FlowTrace (streamComplete P path base st) tr oc' ∧ (∀ e ∈ tr, ∃ r, e = .read path r) ∧ answers tr <+: pending st ps := by
  unfold completeChunk streamComplete
  cases hd : seekBack base 7 1 with
  | ok d =>
    simp only [bind, Res.bind, Flow.ofRes, Flow.bind]
    have stay : (∀ text X w, (pure (base, T, false) : Res (Bytes × Bytes × Bool)) = .ok (text, X, w) → ∃ tr st' ps', Fed path (.ret (base, st, false)) (text, st', w) st st' ps X tr ps') ∧
        ∀ (oc : Outcome Unit) (oc' : Outcome (Bytes × Stream × Bool)), FailsAs (pure (base, T, false) : Res (Bytes × Bytes × Bool)) oc → oc'.SameEnd oc →
          ∃ tr, FlowTrace (.ret (base, st, false)) tr oc' ∧ (∀ e ∈ tr, ∃ r, e = .read path r) ∧ answers tr <+: pending st ps := by
      refine ⟨?_, ?_⟩
      · intro text X w hx
        cases hx
        exact ⟨[], st, ps, .ret _, by simp, by simp [answers], h⟩
      · intro oc oc' hf
        cases hf
    split
    · split
      · obtain ⟨tr, st', ps', g1, g2, g3, g4⟩ := streamConts_feeds P path (skipConts ((utf8Width (base.getD (base.length - d) 0)).getD 0 - 1) (base.drop (base.length - d + 1))).1 st ps T h
        generalize fetchConts P (skipConts ((utf8Width (base.getD (base.length - d) 0)).getD 0 - 1) (base.drop (base.length - d + 1))).1 T = F at *
        obtain ⟨f, X, w⟩ := F
        simp only at *
        by_cases hl : base.length + f.length < inlineBufSize
        · simp only [if_pos hl]
          refine ⟨?_, ?_⟩
          · intro text X' w' hx
            cases hx
            refine ⟨tr, st', ps', ?_, g2, g3, g4⟩
            rw [← List.append_nil tr]
            refine flow_append g1 ?_
            simp only [if_pos hl]
            exact .ret _
          · intro oc oc' hf
            cases hf
        · simp only [if_neg hl]
          refine ⟨by simp, ?_⟩
          intro oc oc' hf hs
          cases hf
          cases hs
          refine ⟨tr, ?_, g2, ⟨_, g3⟩⟩
          rw [← List.append_nil tr]
          refine flow_append g1 ?_
          simp only [if_neg hl]
          exact .ub _
      · exact stay
    · exact stay
  | exit n =>
    refine ⟨fun _ _ _ hx => (by cases hx), ?_⟩
    intro oc oc' hf hs
    cases hf; cases hs
    exact ⟨[], .exit _, by simp, by simp [answers]⟩
  | ub n =>
    refine ⟨fun _ _ _ hx => (by cases hx), ?_⟩
    intro oc oc' hf hs
    cases hf; cases hs
    exact ⟨[], .ub _, by simp, by simp [answers]⟩
  | stuck =>
    refine ⟨fun _ _ _ hx => (by cases hx), ?_⟩
    intro oc oc' hf hs
    cases hf; cases hs
    exact ⟨[], .stuck, by simp, by simp [answers]⟩

/-- Printing in one program is printing in the other. -/
theorem printChunk_split {α : Type} {P : Platform} {o : Options} {text : Bytes} {nl : Bool} {k : Prog Unit} {tr : List Event} {oc : Outcome Unit} {a : α}
    (h : Trace (printChunk P o text nl k) tr oc) :
    (∃ t1 t2, tr = t1 ++ t2 ∧ Trace k t2 oc ∧ FlowTrace ((streamPrint P o text nl).bind fun _ => .ret a) (t1.map .sys) (.ret a)) ∨
      ∃ oc' : Outcome α, oc'.SameEnd oc ∧ FlowTrace ((streamPrint P o text nl).bind fun _ => .ret a) (tr.map .sys) oc' := by
  rw [streamPrint_eq, flow_bind_assoc]
  rw [printChunk_eq] at h
  rcases trace_ofRes_any h with ⟨hold, hx, h⟩ | ⟨rfl, rfl⟩ | ⟨rfl, hf⟩
  · rw [hx]
    cases nl with
    | false =>
      cases h with
      | stop => exact .inr ⟨_, .running, .stop _⟩
      | out _ _ t _ h => exact .inl ⟨[.out (hold.getD text)], t, rfl, h, .out _ _ _ _ (.ret _)⟩
    | true =>
      cases h with
      | stop => exact .inr ⟨_, .running, .stop _⟩
      | out _ _ t _ h =>
        cases h with
        | stop => exact .inr ⟨_, .running, .out _ _ _ _ (.stop _)⟩
        | out _ _ t _ h => exact .inl ⟨[.out (hold.getD text), .out [0x0A]], t, rfl, h, .out _ _ _ _ (.out _ _ _ _ (.ret _))⟩
  · exact .inr ⟨_, .running, .stop _⟩
  · right
    generalize sequenceRunFilters P o.sequenceToUse (chunkWork text) = x at hf
    cases hf with
    | exit n => exact ⟨_, .exit n, .exit n⟩
    | ub n => exact ⟨_, .ub n, .ub n⟩
    | stuck => exact ⟨_, .stuck, .stuck⟩

theorem otherCalls_sys : ∀ (tr : List Event), otherCalls (tr.map .sys) = tr ∧ answers (tr.map .sys) = []
  | [] => ⟨rfl, rfl⟩
  | e :: tr => by simp [otherCalls, answers, otherCalls_sys tr]

/-- A round, in one program and in the other. -/
theorem streamRound_feeds {P : Platform} {o : Options} {path : Option Bytes} {line : Bytes} {st : Stream} {ps : List Bytes} {s T : Bytes}
    (h : Feeds st ps T) (hne : s ≠ []) (htl : takeLine 1007 s = (line, T)) {m : Nat} {tr' : List Event} {oc : Outcome Unit}
    (ht : Trace (inlineLoop P o (m + 1) s) tr' oc) :
    (∃ tr st' ps' T' t1 t2, FlowTrace (streamRound P o path line st) tr (.ret st') ∧ otherCalls tr = t1 ∧ tr' = t1 ++ t2 ∧
      answers tr ++ pending st' ps' = pending st ps ∧ Feeds st' ps' T' ∧ T'.length ≤ T.length ∧ Trace (inlineLoop P o m T') t2 oc) ∨
    ∃ tr oc', oc'.SameEnd oc ∧ FlowTrace (streamRound P o path line st) tr oc' ∧ otherCalls tr = tr' ∧ answers tr <+: pending st ps := by
  have hnc := nextChunk_of_line (P := P) htl
  have print : ∀ (text X : Bytes) (w : Bool) (st' : Stream) (ps' : List Bytes) (tr1 : List FlowEvent),
      nextChunk P s = .ok ((cutNewline text).1, (cutNewline text).2, w, X) →
      Fed path (if strrchrIdx 0x0A (cstr line) = none then streamComplete P path (cstr line) st else .ret (cstr line, st, false)) (text, st', w) st st' ps X tr1 ps' →
      X.length ≤ T.length → 
      (∃ tr st' ps' T' t1 t2, FlowTrace (streamRound P o path line st) tr (.ret st') ∧ otherCalls tr = t1 ∧ tr' = t1 ++ t2 ∧
        answers tr ++ pending st' ps' = pending st ps ∧ Feeds st' ps' T' ∧ T'.length ≤ T.length ∧ Trace (inlineLoop P o m T') t2 oc) ∨
      ∃ tr oc', oc'.SameEnd oc ∧ FlowTrace (streamRound P o path line st) tr oc' ∧ otherCalls tr = tr' ∧ answers tr <+: pending st ps := by
    intro text X w st' ps' tr1 hn ⟨g1, g2, g3, g4⟩ hle
    rw [inlineLoop_chunk hne hn] at ht
    have key : (∃ t1 t2, tr' = t1 ++ t2 ∧ Trace (inlineLoop P o m X) t2 oc ∧
          FlowTrace (if w then .err (lit "detox: warning: stream push back failed\n") ((streamPrint P o (cutNewline text).1 (cutNewline text).2).bind fun _ => .ret st')
            else (streamPrint P o (cutNewline text).1 (cutNewline text).2).bind fun _ => .ret st') (t1.map .sys) (.ret st')) ∨
        ∃ oc' : Outcome Stream, oc'.SameEnd oc ∧
          FlowTrace (if w then .err (lit "detox: warning: stream push back failed\n") ((streamPrint P o (cutNewline text).1 (cutNewline text).2).bind fun _ => .ret st')
            else (streamPrint P o (cutNewline text).1 (cutNewline text).2).bind fun _ => .ret st') (tr'.map .sys) oc' := by
      cases w with
      | false => exact printChunk_split ht
      | true =>
        cases ht with
        | stop => exact .inr ⟨_, .running, .stop _⟩
        | err _ _ t _ ht =>
          rcases printChunk_split (a := st') ht with ⟨t1, t2, rfl, h1, h2⟩ | ⟨oc', h1, h2⟩
          · exact .inl ⟨_ :: t1, t2, rfl, h1, .err _ _ _ _ h2⟩
          · exact .inr ⟨oc', h1, .err _ _ _ _ h2⟩
    rcases key with ⟨t1, t2, h1, h2, h3⟩ | ⟨oc', h1, h2⟩
    · refine .inl ⟨tr1 ++ t1.map .sys, st', ps', X, t1, t2, flow_append g1 h3, ?_, h1, ?_, g4, hle, h2⟩
      · rw [otherCalls_append, otherCalls_reads g2, (otherCalls_sys t1).1]; rfl
      · rw [answers_append, (otherCalls_sys t1).2, List.append_nil, g3]
    · refine .inr ⟨tr1 ++ tr'.map .sys, oc', h1, flow_append g1 h2, ?_, ?_⟩
      · rw [otherCalls_append, otherCalls_reads g2, (otherCalls_sys tr').1]; rfl
      · rw [answers_append, (otherCalls_sys tr').2, List.append_nil]
        exact ⟨_, g3⟩
  by_cases hnl : strrchrIdx 0x0A (cstr line) = none
  · rw [if_pos hnl] at hnc
    obtain ⟨c1, c2⟩ := streamComplete_feeds (P := P) (path := path) (base := cstr line) h
    have fails : ∀ oc1 : Outcome Unit, FailsAs (completeChunk P (cstr line) T) oc1 → ∃ tr oc', oc'.SameEnd oc ∧
        FlowTrace (streamRound P o path line st) tr oc' ∧ otherCalls tr = tr' ∧ answers tr <+: pending st ps := by
      intro oc1 hf
      have hf' : FailsAs (nextChunk P s) oc1 := by
        rw [hnc]
        generalize completeChunk P (cstr line) T = x at hf
        cases hf <;> constructor
      have hrun := inlineLoop_fails (o := o) (m := m) hne hf'
      have : tr' = [] ∧ (oc = .running ∨ oc = oc1) := by
        cases s with
        | nil => exact absurd rfl hne
        | cons c s =>
          unfold inlineLoop at ht
          generalize nextChunk P (c :: s) = x at hf' ht
          cases hf' <;> cases ht <;> simp
      obtain ⟨rfl, hoc⟩ := this
      rcases hoc with rfl | rfl
      · exact ⟨[], .running, .running, .stop _, rfl, by simp [answers]⟩
      · have : ∃ (o1 : Outcome (Bytes × Stream × Bool)) (o2 : Outcome Stream), o1.SameEnd oc ∧ o2.SameEnd oc ∧ o1.SameEnd o2 := by
          generalize completeChunk P (cstr line) T = x at hf
          cases hf with
          | exit n => exact ⟨_, _, .exit n, .exit n, .exit n⟩
          | ub n => exact ⟨_, _, .ub n, .ub n, .ub n⟩
          | stuck => exact ⟨_, _, .stuck, .stuck, .stuck⟩
        obtain ⟨o1, o2, s1, s2, s3⟩ := this
        obtain ⟨tr, d1, d2, d3⟩ := c2 oc o1 hf s1
        refine ⟨tr, o2, s2, ?_, otherCalls_reads d2, d3⟩
        unfold streamRound
        simp only [if_pos hnl]
        exact flow_bind_end d1 s3
    cases hcc : completeChunk P (cstr line) T with
    | ok r =>
      obtain ⟨text, X, w⟩ := r
      obtain ⟨tr1, st', ps', hfed⟩ := c1 text X w hcc
      rw [hcc] at hnc
      refine print text X w st' ps' tr1 hnc (by rw [if_pos hnl]; exact hfed) ?_
      unfold completeChunk at hcc
      obtain ⟨d, _, hcc⟩ := res_bind_ok hcc
      simp only at hcc
      split at hcc
      · split at hcc
        · split at hcc
          · cases hcc
            have := (fetchConts_spec P (skipConts ((utf8Width ((cstr line).getD ((cstr line).length - d) 0)).getD 0 - 1) ((cstr line).drop ((cstr line).length - d + 1))).1 T).1
            have := congrArg List.length this
            rw [List.length_append] at this
            omega
          · cases hcc
        · cases hcc; exact Nat.le_refl _
      · cases hcc; exact Nat.le_refl _
    | exit n => exact .inr (fails (.exit n) (by rw [hcc]; exact .exit n))
    | ub n => exact .inr (fails (.ub n) (by rw [hcc]; exact .ub n))
    | stuck => exact .inr (fails .stuck (by rw [hcc]; exact .stuck))
  · rw [if_neg hnl] at hnc
    exact print (cstr line) T false st ps [] hnc (by rw [if_neg hnl]; exact ⟨.ret _, by simp, by simp [answers], h⟩) (Nat.le_refl _)

theorem streamLoop_feeds (P : Platform) (o : Options) (path : Option Bytes) : ∀ (n m : Nat) (T : Bytes) (st : Stream) (ps : List Bytes) (tr' : List Event)
    (oc : Outcome Unit), Feeds st ps T → T.length < n → T.length ≤ m → Trace (inlineLoop P o m T) tr' oc →
    ∃ tr, FlowTrace (streamLoop P o path n st) tr oc ∧ otherCalls tr = tr' ∧ answers tr <+: pending st ps
  | 0, _, _, _, _, _, _, _, hn, _, _ => by omega
  | n + 1, m, T, st, ps, tr', oc, h, hn, hm, ht => by
    obtain ⟨tr1, st1, ps1, g1, g2, g3, g4⟩ := streamGets_feeds path 1007 [] st ps T h (by simp)
    unfold streamLoop
    rw [show inlineBufSize - inlineBufPadding - 1 = 1007 from rfl]
    cases T with
    | nil =>
      have : tr' = [] ∧ (oc = .running ∨ oc = .ret ()) := by
        unfold inlineLoop at ht
        cases ht <;> simp
      obtain ⟨rfl, rfl | rfl⟩ := this
      · exact ⟨[], .stop _, rfl, by simp [answers]⟩
      · refine ⟨tr1, ?_, otherCalls_reads g2, ⟨_, g3⟩⟩
        rw [← List.append_nil tr1]
        exact flow_append g1 (.ret _)
    | cons c s =>
      obtain ⟨m, rfl⟩ : ∃ k, m = k + 1 := by
        cases m with
        | zero => simp at hm
        | succ k => exact ⟨k, rfl⟩
      have hpos := takeLine_pos (n := 1007) (s := c :: s) (by omega) (by simp)
      have hsp := (takeLine_spec 1007 (c :: s)).1
      generalize hL : takeLine 1007 (c :: s) = L at *
      obtain ⟨line, rest⟩ := L
      simp only [List.nil_append, hpos, if_false] at *
      have hlen := congrArg List.length hsp
      simp only [List.length_append, List.length_cons] at hlen
      have hp : 0 < line.length := List.length_pos_iff.2 hpos
      simp only [List.length_cons] at hn hm
      rcases streamRound_feeds (path := path) g4 (by simp) hL ht with ⟨tr2, st2, ps2, T2, t1, t2, f1, f2, f3, f4, f5, f6, f7⟩ | ⟨tr2, oc', f1, f2, f3, f4⟩
      · obtain ⟨tr3, e1, e2, e3⟩ := streamLoop_feeds P o path n m T2 st2 ps2 t2 oc f5 (by omega) (by omega) f7
        refine ⟨tr1 ++ (tr2 ++ tr3), flow_append g1 (flow_append f1 e1), ?_, ?_⟩
        · rw [otherCalls_append, otherCalls_append, otherCalls_reads g2, f2, e2, f3]; rfl
        · rw [answers_append, answers_append, ← g3, ← f4]
          exact List.prefix_append_right_inj _ |>.2 (List.prefix_append_right_inj _ |>.2 e3)
      · refine ⟨tr1 ++ tr2, flow_append g1 (flow_bind_end f2 f1), ?_, ?_⟩
        · rw [otherCalls_append, otherCalls_reads g2, f3]; rfl
        · rw [answers_append, ← g3]
          exact List.prefix_append_right_inj _ |>.2 f4

end Detox
