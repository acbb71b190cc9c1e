import Verif.Model.TableStream
import Verif.Lemmas.Stream
import Verif.Lemmas.StreamFeeds
import Verif.Lemmas.CheckTable
import Verif.Props.Warnings

/-!
# Lemmas on a table file read piece by piece
-/

set_option autoImplicit false

namespace Detox
open Spec

theorem fileLines_enough : ∀ (n : Nat) (s : Bytes), s.length ≤ n → fileLines n s = fileLines s.length s
  | 0, [], _ => rfl
  | 0, c :: s, h => by simp at h
  | n + 1, [], _ => rfl
  | n + 1, c :: s, h => by
    have hl : ((takeLine 1023 (c :: s)).2).length ≤ s.length := by
      have h1 := (takeLine_spec 1023 (c :: s)).1
      have h2 := takeLine_pos (n := 1023) (s := c :: s) (by decide) (by simp)
      have := congrArg List.length h1
      simp only [List.length_append, List.length_cons] at this
      have : 0 < (takeLine 1023 (c :: s)).1.length := List.length_pos_iff.2 h2
      omega
    rw [fileLines_cons, List.length_cons, fileLines_cons]
    simp only [List.length_cons] at h
    rw [fileLines_enough n _ (by omega), fileLines_enough s.length _ (by omega)]

theorem fileLines_step {line X : Bytes} (hne : line ≠ []) (h : takeLine 1023 (line ++ X) = (line, X)) :
    fileLines (line ++ X).length (line ++ X) = cstr line :: fileLines X.length X := by
  cases line with
  | nil => exact absurd rfl hne
  | cons c s =>
    rw [List.cons_append] at h ⊢
    rw [List.length_cons, fileLines_cons, h]
    simp only
    rw [fileLines_enough _ X (by simp)]

/-- If nothing more will come, `fgets` gives nothing. -/
theorem streamGets_over {path : Option Bytes} {n : Nat} {st : Stream} {b : Bool} {tr : List FlowEvent} {l : Option Bytes} {st' : Stream}
    (h : FlowTrace (streamGets path (n + 1) [] st) tr (.ret (l, st'))) (ho : st.Over b) (hst : Steady b tr) : delivered tr = [] ∧ l = none := by
  unfold streamGets at h
  rw [ho.1] at h
  by_cases he : st.eof = true
  · simp only [if_pos he, if_true] at h
    cases h; exact ⟨rfl, rfl⟩
  · simp only [if_neg he] at h
    have hb : b = true := by rcases ho.2 with h | h; exact absurd h he; exact h
    subst hb
    cases h with
    | read _ _ r t _ h =>
      cases r with
      | data d =>
        simp only [Steady] at hst
        cases hst.1 trivial
        cases h; exact ⟨rfl, rfl⟩
      | fail a =>
        simp only [ne_eq, not_true_eq_false, and_false, if_false] at h
        cases h; exact ⟨rfl, rfl⟩

theorem reads_unfailed {path : Option Bytes} : ∀ {tr : List FlowEvent}, (∀ e ∈ tr, ∃ r, e = .read path r) → NoFailure tr → failedAfter false tr = false
  | [], _, _ => rfl
  | e :: tr, hr, hf => by
    obtain ⟨r, rfl⟩ := hr e (by simp)
    cases r with
    | data d => exact reads_unfailed (tr := tr) (fun e he => hr e (by simp [he])) fun a ha => hf a (by simpa [answers] using ha)
    | fail a => exact absurd (by simp [answers]) (hf a)

theorem steady_no_again : ∀ (b : Bool) (tr : List FlowEvent), Steady b tr → ReadRes.fail true ∉ answers tr
  | _, [], _ => by simp [answers]
  | b, .sys _ :: tr, h => steady_no_again b tr h
  | _, .fopen _ _ :: tr, h => steady_no_again false tr h
  | b, .read _ (.data s) :: tr, h => by
    have := steady_no_again b tr h.2
    simpa [answers] using this
  | _, .read _ (.fail a) :: tr, h => by
    have := steady_no_again true tr h.2
    simpa [answers, h.1] using this

/-- If `fgets` gives a line, no read failed. -/
theorem streamGets_some_unfailed (path : Option Bytes) : ∀ (n : Nat) (got : Bytes) (st : Stream) (tr : List FlowEvent) (line : Bytes) (st' : Stream),
    FlowTrace (streamGets path n got st) tr (.ret (some line, st')) → ReadRes.fail true ∉ answers tr → NoFailure tr
  | 0, _, _, _, _, _, h, _ => by cases h; intro a ha; cases ha
  | n + 1, got, st, tr, line, st', h, ha => by
    have step : ∀ (c : Byte) (s : Bytes) (tr : List FlowEvent), ReadRes.fail true ∉ answers tr →
        FlowTrace (if c = 0x0A then .ret (some (got ++ [c]), { st with buf := s }) else streamGets path n (got ++ [c]) { st with buf := s })
          tr (.ret (some line, st')) → NoFailure tr := by
      intro c s tr ha h
      split at h
      · cases h; intro a ha; cases ha
      · exact streamGets_some_unfailed path n _ _ tr line st' h ha
    unfold streamGets at h
    split at h
    · exact step _ _ tr ha h
    · split at h
      · generalize hx : (if got = [] then none else some got) = x at h
        cases h; intro a ha; cases ha
      · cases h with
        | read _ _ r t _ h =>
          rcases r with (_ | ⟨c, s⟩) | a
          · generalize hx : (if got = [] then none else some got) = x at h
            cases h; intro a ha; simp [answers] at ha
          · have := step c s t (by simpa [answers] using ha) h
            intro a ha; exact this a (by simpa [answers] using ha)
          · cases a with
            | true => exact absurd (by simp [answers]) ha
            | false =>
              simp only [Bool.false_eq_true, false_and, if_false] at h
              cases h

/-- What there is to know of the loop of `parse_table`. -/
structure TableSpec (ctype : Bytes) (state : Bool × Table) (st : Stream) (b : Bool) (tr : List FlowEvent) (res : Option Table) (text rest : Bytes) : Prop where
  used : st.buf ++ delivered tr = text ++ rest
  result : (parseTableLines ctype state (fileLines text.length text)).map Prod.snd = res
  says : otherCalls tr = (tableLinesMessages ctype state (fileLines text.length text)).map .err
  short : rest.length < 1023 ∧ (0x0A : Byte) ∉ rest
  whole : b = false → NoFailure tr → rest = []
  over : st.Over b → text = []
  ends : b = false → ¬ NoFailure tr → res ≠ none → text = [] ∨ (∃ x, text = x ++ [0x0A]) ∨ ∃ x y, text = x ++ y ∧ y.length = 1023 ∧ (0x0A : Byte) ∉ y

theorem tableLoop_ret (ctype path : Bytes) : ∀ (n : Nat) (state : Bool × Table) (st : Stream) (b : Bool) (tr : List FlowEvent) (res : Option Table),
    FlowTrace (tableLoop ctype path n state st) tr (.ret res) → st.Sane b → Steady b tr → ∃ text rest, TableSpec ctype state st b tr res text rest
  | 0, _, _, _, _, _, h, _, _ => by cases h
  | n + 1, state, st, b, tr, res, h, hs, hst => by
    unfold tableLoop at h
    rcases flow_bind_any h with ⟨⟨l, st1⟩, tr1, tr2, rfl, h1, h2⟩ | ⟨o', ho, _⟩
    rotate_left
    · cases ho
    obtain ⟨hst1, hst2⟩ := (steady_append _ _ _).1 hst
    have g := streamGets_ret (some path) 1023 [] st b tr1 l st1 h1 (by simp) hs hst1
    have hov : st.Over b → l = none := fun ho => (streamGets_over (n := 1022) h1 ho hst1).2
    cases l with
    | none =>
      cases h2
      rw [List.append_nil]
      obtain ⟨_, hc, used, hu, _, _, hn⟩ := g
      obtain ⟨e1, e2, e3, e4⟩ := hn rfl
      rw [e1, List.append_nil] at hu
      exact ⟨[], used, ⟨hu, rfl, hc, ⟨e3, e2⟩, fun hb hf => (e4 hb hf).1, fun _ => rfl, fun _ _ _ => .inl rfl⟩⟩
    | some line =>
      have hc := g.calls
      obtain ⟨hu, hne, hlen, htake⟩ := g.takeLine
      have hover : ¬ st.Over b := fun ho => absurd (hov ho) (by simp)
      dsimp only at h2
      cases hp : parseTableLine ctype state (cstr line) with
      | none =>
        rw [hp] at h2
        dsimp only at h2
        have hlines := fileLines_step (X := st1.buf) hne (htake st1.buf fun ho => ho.1)
        have fin : delivered tr2 = [] ∧ res = none ∧ otherCalls tr2 = (match insideLine (cstr line) with | .row k d => [rowMessage k d] | _ => []).map .err := by
          split at h2
          · next k d hk =>
            rw [hk]
            cases h2 with | err _ _ _ _ h2 => cases h2; exact ⟨rfl, rfl, rfl⟩
          · next hk =>
            cases h2
            refine ⟨rfl, rfl, ?_⟩
            split
            · next k d hkd => exact absurd hkd (hk k d)
            · rfl
        refine ⟨line ++ st1.buf, [], ⟨?_, ?_, ?_, by simp, fun _ _ => rfl, fun ho => absurd ho hover, fun _ _ h => absurd fin.2.1 h⟩⟩
        · rw [delivered_append, fin.1, List.append_nil, hu, List.append_nil]
        · rw [hlines]
          simp only [parseTableLines, hp, fin.2.1, Option.map_none]
        · rw [otherCalls_append, hc, List.nil_append, fin.2.2, hlines]
          simp only [tableLinesMessages, hp]
          rfl
      | some state' =>
        rw [hp] at h2
        dsimp only at h2
        obtain ⟨text, rest, ih⟩ := tableLoop_ret ctype path n state' st1 _ tr2 res h2 g.sane hst2
        have hlines := fileLines_step (X := text) hne (htake text ih.over)
        refine ⟨line ++ text, rest, ⟨?_, ?_, ?_, ih.short, ?_, fun ho => absurd ho hover, ?_⟩⟩
        · rw [delivered_append, ← List.append_assoc, hu, List.append_assoc, ih.used, List.append_assoc]
        · rw [hlines]
          simp only [parseTableLines, hp, ih.result]
        · rw [otherCalls_append, hc, List.nil_append, ih.says, hlines]
          simp only [tableLinesMessages, hp]
        · intro hb hf
          obtain ⟨f1, f2⟩ := NoFailure.append (a := tr1) (b := tr2) hf
          refine ih.whole ?_ f2
          subst hb
          exact reads_unfailed (Flow.Reads.trace h1 (streamGets_reads (some path) 1023 [] st)).1 f1
        · intro hb hf hr
          subst hb
          have f1 := streamGets_some_unfailed (some path) 1023 [] st tr1 line st1 h1 (by
            intro hm
            exact steady_no_again false tr1 hst1 hm)
          have f2 : ¬ NoFailure tr2 := by
            intro f2
            apply hf
            intro a ha
            rw [answers_append] at ha
            rcases List.mem_append.1 ha with ha | ha
            · exact f1 a ha
            · exact f2 a ha
          have hb := reads_unfailed (Flow.Reads.trace h1 (streamGets_reads (some path) 1023 [] st)).1 f1
          rcases ih.ends hb f2 hr with h0 | ⟨x, hx⟩ | ⟨x, y, hx, hy⟩
          · subst h0
            obtain ⟨_, _, used, _, hu2, hu3, _⟩ := g
            obtain ⟨e, _, hx⟩ := hu3 line rfl
            simp only [List.nil_append] at e
            subst e
            rcases hx with ⟨x, hx, _⟩ | ⟨hx, hl | ho⟩
            · exact .inr (.inl ⟨x, by rw [hx, List.append_nil]⟩)
            · exact .inr (.inr ⟨[], line, by simp, hl, hx⟩)
            · exfalso
              rw [hb] at ho
              have he : st1.eof = true := by rcases ho.2 with h | h; exact h; cases h
              apply f2
              cases n with
              | zero => cases h2
              | succ n =>
                unfold tableLoop at h2
                rw [show (1023 : Nat) = 1022 + 1 from rfl] at h2
                unfold streamGets at h2
                simp only [ho.1, if_pos he, if_true, Flow.bind] at h2
                cases h2
                intro a ha
                cases ha
          · exact .inr (.inl ⟨line ++ x, by rw [hx, List.append_assoc]⟩)
          · exact .inr (.inr ⟨line ++ x, y, by rw [hx, List.append_assoc], hy⟩)

/-- With enough rounds the loop comes to its end. -/
theorem tableLoop_ends (ctype path : Bytes) : ∀ (n : Nat) (state : Bool × Table) (st : Stream) (b : Bool) (tr : List FlowEvent) (oc : Outcome (Option Table)),
    FlowTrace (tableLoop ctype path n state st) tr oc → st.Sane b → Steady b tr → (st.buf ++ delivered tr).length < n → oc = .running ∨ ∃ res, oc = .ret res
  | 0, _, _, _, _, _, _, _, _, hn => by simp at hn
  | n + 1, state, st, b, tr, oc, h, hs, hst, hn => by
    unfold tableLoop at h
    rcases flow_bind_any h with ⟨⟨l, st1⟩, tr1, tr2, rfl, h1, h2⟩ | ⟨o', ho, h1⟩
    · obtain ⟨hst1, hst2⟩ := (steady_append _ _ _).1 hst
      have g := streamGets_ret (some path) 1023 [] st b tr1 l st1 h1 (by simp) hs hst1
      cases l with
      | none =>
        cases h2 with
        | stop => exact .inl rfl
        | ret => exact .inr ⟨_, rfl⟩
      | some line =>
        obtain ⟨hu, hne, _, _⟩ := g.takeLine
        dsimp only at h2
        split at h2
        · refine tableLoop_ends ctype path n _ st1 _ tr2 oc h2 g.sane hst2 ?_
          rw [delivered_append, ← List.append_assoc, hu, List.append_assoc, List.length_append] at hn
          have := List.length_pos_iff.2 hne
          omega
        · split at h2
          · cases h2 with
            | stop => exact .inl rfl
            | err _ _ _ _ h2 =>
              cases h2 with
              | stop => exact .inl rfl
              | ret => exact .inr ⟨_, rfl⟩
          · cases h2 with
            | stop => exact .inl rfl
            | ret => exact .inr ⟨_, rfl⟩
    · rcases (Flow.Reads.trace h1 (streamGets_reads (some path) 1023 [] st)).2 with rfl | ⟨a, rfl⟩
      · cases ho; exact .inl rfl
      · cases ho

/-- Any way to cut a text into pieces is possible. -/
theorem tableLoop_feeds (ctype path : Bytes) : ∀ (n : Nat) (state : Bool × Table) (st : Stream) (ps : List Bytes) (T : Bytes), Feeds st ps T →
    T.length < n → ∃ tr, FlowTrace (tableLoop ctype path n state st) tr (.ret ((parseTableLines ctype state (fileLines T.length T)).map Prod.snd)) ∧
      otherCalls tr = (tableLinesMessages ctype state (fileLines T.length T)).map .err ∧ answers tr <+: pending st ps
  | 0, _, _, _, _, _, hn => by simp at hn
  | n + 1, state, st, ps, T, hfd, hn => by
    obtain ⟨tr1, st1, ps1, g1, g2, g3, g4⟩ := streamGets_feeds (some path) 1023 [] st ps T hfd (by simp)
    rw [List.nil_append] at g1
    unfold tableLoop
    cases T with
    | nil =>
      refine ⟨tr1, ?_, otherCalls_reads g2, ⟨_, g3⟩⟩
      have g1 : FlowTrace (streamGets (some path) 1023 [] st) tr1 (.ret (none, st1)) := by simpa [takeLine] using g1
      rw [← List.append_nil tr1]
      exact flow_append g1 (.ret _)
    | cons c T =>
      have hne := takeLine_pos (n := 1023) (s := c :: T) (by decide) (by simp)
      rw [if_neg hne] at g1
      have hsp := (takeLine_spec 1023 (c :: T)).1
      generalize hl : (takeLine 1023 (c :: T)).1 = line at *
      generalize hX : (takeLine 1023 (c :: T)).2 = X at *
      have hlen : X.length < n := by
        have := congrArg List.length hsp
        rw [List.length_append] at this
        have := List.length_pos_iff.2 hne
        omega
      have hlines : fileLines (c :: T).length (c :: T) = cstr line :: fileLines X.length X := by
        rw [hsp]
        refine fileLines_step hne ?_
        rw [← hsp, ← hl, ← hX]
      rw [hlines]
      cases hp : parseTableLine ctype state (cstr line) with
      | some state' =>
        obtain ⟨tr2, f1, f2, f3⟩ := tableLoop_feeds ctype path n state' st1 ps1 X g4 hlen
        refine ⟨tr1 ++ tr2, flow_append g1 ?_, ?_, ?_⟩
        · simp only [parseTableLines, hp]
          exact f1
        · rw [otherCalls_append, otherCalls_reads g2, List.nil_append, f2]
          simp only [tableLinesMessages, hp]
        · rw [answers_append, ← g3]
          exact List.prefix_append_right_inj _ |>.2 f3
      | none =>
        have : ∃ tr2, FlowTrace (match insideLine (cstr line) with | .row k d => .err (rowMessage k d) (.ret none) | _ => .ret none : Flow (Option Table)) tr2 (.ret none) ∧
            otherCalls tr2 = (match insideLine (cstr line) with | .row k d => [rowMessage k d] | _ => []).map .err ∧ answers tr2 = [] := by
          cases insideLine (cstr line) with
          | row k d => exact ⟨[.sys (.err _)], .err _ _ _ _ (.ret _), rfl, rfl⟩
          | skip => exact ⟨[], .ret _, rfl, rfl⟩
          | enter => exact ⟨[], .ret _, rfl, rfl⟩
          | leave => exact ⟨[], .ret _, rfl, rfl⟩
          | dflt d => exact ⟨[], .ret _, rfl, rfl⟩
        obtain ⟨tr2, f1, f2, f3⟩ := this
        refine ⟨tr1 ++ tr2, flow_append g1 ?_, ?_, ?_⟩
        · simp only [parseTableLines, hp]
          exact f1
        · rw [otherCalls_append, otherCalls_reads g2, List.nil_append, f2]
          simp only [tableLinesMessages, hp]
          rfl
        · rw [answers_append, f3, List.append_nil]
          exact ⟨_, g3⟩

/-! ### Running a program on given answers -/

/-- The result of a program when the calls are exactly those given. -/
def flowResult {α : Type} : Flow α → List FlowEvent → Option α
  | .ret a, [] => some a
  | .lstat p k, .sys (.lstat p' r) :: tr => if p = p' then flowResult (k r) tr else none
  | .fopen p k, .fopen p' r :: tr => if p = p' then flowResult (k r) tr else none
  | .read p k, .read p' r :: tr => if p = p' then flowResult (k r) tr else none
  | .out s k, .sys (.out s') :: tr => if s = s' then flowResult k tr else none
  | .err s k, .sys (.err s') :: tr => if s = s' then flowResult k tr else none
  | _, _ => none

theorem flowResult_sound {α : Type} (p : Flow α) (tr : List FlowEvent) (a : α) : flowResult p tr = some a → FlowTrace p tr (.ret a) := by
  induction p, tr using flowResult.induct with
  | case1 b => intro h; cases h; exact .ret _
  | case2 p k r tr ih => intro h; simp only [flowResult, if_true] at h; exact .lstat _ _ _ _ _ (ih h)
  | case3 p k p' r tr hne => intro h; simp [flowResult, hne] at h
  | case4 p k r tr ih => intro h; simp only [flowResult, if_true] at h; exact .fopen _ _ _ _ _ (ih h)
  | case5 p k p' r tr hne => intro h; simp [flowResult, hne] at h
  | case6 p k r tr ih => intro h; simp only [flowResult, if_true] at h; exact .read _ _ _ _ _ (ih h)
  | case7 p k p' r tr hne => intro h; simp [flowResult, hne] at h
  | case8 s k tr ih => intro h; simp only [flowResult, if_true] at h; exact .out _ _ _ _ (ih h)
  | case9 s k s' tr hne => intro h; simp [flowResult, hne] at h
  | case10 s k tr ih => intro h; simp only [flowResult, if_true] at h; exact .err _ _ _ _ (ih h)
  | case11 s k s' tr hne => intro h; simp [flowResult, hne] at h
  | case12 => intro h; simp_all [flowResult]

end Detox
