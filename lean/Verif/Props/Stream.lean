import Verif.Lemmas.StreamPrompt
import Verif.Props.InlineMain

/-!
# Inline mode as a filter whose input comes in pieces (C105)
-/

set_option autoImplicit false

namespace Detox
open Spec

/-- **C105.** However the input comes in pieces, the program does what it does when it has the whole text of each file from the start
(`detoxMain`, of which C38 to C41 and C95 speak): the same calls in the same order, with the same outcome. If all reads succeed, the
texts are exactly what was delivered; if one fails, a part without a newline, less than a buffer, may be missing at the end. `rounds`
only has to be larger than the input. -/
theorem C105_pieces_do_not_matter {P : Platform} {I : Invocation} {fuel rounds : Nat} {tr : List FlowEvent} {oc : Outcome Unit}
    (h : StreamTrace (detoxMainStream P I fuel rounds) tr oc) (hst : Steady false tr) (hr : (delivered tr).length < rounds) :
    ∃ tr', Condensed (decide (oc = .ret ())) tr tr' ∧ Trace (detoxMain P I fuel) tr' oc :=
  detoxMainStream_any h hst fun _ => hr

/-- **C105**, the other direction: any way to cut a text into pieces is possible. -/
theorem C105_any_pieces {P : Platform} {o : Options} {path : Option Bytes} {ps : List Bytes} (hps : ∀ p ∈ ps, p ≠ []) {tr' : List Event} {oc : Outcome Unit}
    (h : Trace (parseInline P o path) (.slurp path (some ps.flatten) :: tr') oc) {rounds : Nat} (hr : ps.flatten.length < rounds) :
    ∃ tr, FlowTrace (parseStream P o rounds path) tr oc ∧ otherCalls tr = tr' ∧ answers tr <+: ps.map .data ++ [.data []] := by
  cases h with
  | slurp _ _ _ _ _ h =>
    have h : Trace (inlineLoop P o ps.flatten.length ps.flatten) tr' oc := h
    obtain ⟨tr, h1, h2, h3⟩ := streamLoop_feeds P o path rounds _ ps.flatten ⟨[], false⟩ ps tr' oc ⟨rfl, hps, by simp⟩ hr (Nat.le_refl _) h
    have h3 : answers tr <+: ps.map .data ++ [.data []] := h3
    cases path with
    | none => exact ⟨tr, h1, h2, h3⟩
    | some file => exact ⟨.fopen file true :: tr, .fopen _ _ _ _ _ (by simpa using h1), h2, h3⟩

/-- **C105.** Nothing is held back but the beginning of a line: when detox asks for more input, it has printed all that it ever prints
for the text so far, apart from a part at its end that has no newline and is shorter than the buffer. -/
theorem C105_prints_before_it_reads {P : Platform} {I : Invocation} {fuel rounds : Nat} {tr : List FlowEvent} {r : ReadRes} {oc : Outcome Unit}
    (h : StreamTrace (detoxMainStream P I fuel rounds) (tr ++ [.read none r]) oc) (hst : Steady false tr) :
    ∃ pre part text rest, tr = pre.map .sys ++ part ∧ (∀ e ∈ part, Copies none e) ∧ delivered part = text ++ rest ∧ HeldBack rest ∧
      Trace (detoxMain P I fuel) (pre ++ .slurp none (some text) :: otherCalls part) (.ret ()) :=
  detoxMainStream_waits h hst

/-- The same for a file. -/
theorem C105_prints_before_it_reads_a_file {P : Platform} {o : Options} {rounds : Nat} {file : Bytes} {tr : List FlowEvent} {p : Option Bytes}
    {r : ReadRes} {oc : Outcome Unit} (h : FlowTrace (parseStream P o rounds (some file)) (.fopen file true :: (tr ++ [.read p r])) oc) (hst : Steady false tr) :
    ∃ text rest, delivered tr = text ++ rest ∧ HeldBack rest ∧ Trace (parseInline P o (some file)) (.slurp (some file) (some text) :: otherCalls tr) (.ret ()) := by
  cases h with
  | fopen _ _ _ _ _ h =>
    simp only [if_true] at h
    obtain ⟨text, rest, e1, e2, e3⟩ := streamLoop_waits P o _ rounds ⟨[], false⟩ false tr p r oc h (by constructor <;> simp) hst
    exact ⟨text, rest, e1, e2, .slurp _ _ _ _ _ (e3 _ (Nat.le_refl _))⟩

theorem delivered_sys {tr2 : List FlowEvent} : ∀ (tr : List Event), delivered (tr.map .sys ++ tr2) = delivered tr2
  | [] => rfl
  | _ :: tr => delivered_sys tr

theorem otherCalls_after_sys {tr2 : List FlowEvent} : ∀ (tr : List Event), otherCalls (tr.map .sys ++ tr2) = tr ++ otherCalls tr2
  | [] => rfl
  | e :: tr => congrArg (e :: ·) (otherCalls_after_sys tr)

/-- No config file is given with `-f`, and none can be read, nor a table. -/
def NothingConfigured (I : Invocation) (ss : List Setting) (tr : List FlowEvent) : Prop :=
  lastConfig ss = none ∧ (∀ p text, FlowEvent.sys (.slurp p (some text)) ∉ tr) ∧
    ∀ p ∈ systemFiles I.config ++ userFiles I.config, FlowEvent.fopen p true ∉ tr

/-- **C105.** Line by line: with nothing configured, when detox has been given some lines and asks for more, it has printed each of them,
as the built-in sequence cleans it. -/
theorem C105_answers_every_line {P : Platform} {I : Invocation} {fuel rounds : Nat} {ss : List Setting}
    (hc : CommandLine I.posixlyCorrect I.args ss []) (hi : CalledInline I.program ∨ Setting.inline ∈ ss) {tr : List FlowEvent} {r : ReadRes} {oc : Outcome Unit}
    (h : StreamTrace (detoxMainStream P I fuel rounds) (tr ++ [.read none r]) oc) (hst : Steady false tr) (hu : NothingConfigured I ss tr)
    {ls : List Bytes} (hls : ShortLines ls (delivered tr)) {E : TableEnv} {clean : Bytes → Bytes}
    (hcl : ∀ l ∈ ls, l ≠ lit "." → l ≠ lit ".." → runBuiltin P E (requested I ss) l = .ok (some (clean l))) :
    outText (otherCalls tr) = ls.flatMap fun l => (if l = lit "." ∨ l = lit ".." then l else clean l) ++ [0x0A] := by
  obtain ⟨pre, part, text, rest, rfl, hcp, hd, hh, ht⟩ := C105_prints_before_it_reads h hst
  rw [delivered_sys] at hls
  have hrest : rest = [] := by
    obtain ⟨e, hl⟩ := hls
    have h0 : (0 : Byte) ∉ text ++ rest := by
      rw [← hd, e]
      intro hm
      obtain ⟨l, hl', hm⟩ := List.mem_flatMap.1 hm
      rcases List.mem_append.1 hm with hm | hm
      · exact (hl l hl').2.2 hm
      · revert hm; decide
    have hnl := hh.2 fun hm => h0 (by simp [hm])
    rcases List.eq_nil_or_concat rest with hr | ⟨x, c, rfl⟩
    · exact hr
    · exfalso
      rcases List.eq_nil_or_concat ls with rfl | ⟨ls', l, rfl⟩
      · rw [hd] at e
        simp at e
      · rw [hd] at e
        simp only [List.concat_eq_append, List.flatMap_append, List.flatMap_cons, List.flatMap_nil, List.append_nil] at e
        have := congrArg List.getLast? e
        simp only [← List.append_assoc, List.getLast?_append, List.getLast?_singleton] at this
        simp at this
        rw [this] at hnl
        simp at hnl
  subst hrest
  rw [List.append_nil] at hd
  subst hd
  have hun : Unconfigured I ss (pre ++ .slurp none (some (delivered part)) :: otherCalls part) := by
    refine ⟨hu.1, fun p _ t hm => ?_⟩
    rcases List.mem_append.1 hm with hm | hm
    · exact hu.2.1 (some p) t (by simp [hm])
    · rcases List.mem_cons.1 hm with hm | hm
      · cases hm
      · have : ∀ x : List FlowEvent, (∀ e ∈ x, Copies none e) → Event.slurp (some p) (some t) ∉ otherCalls x := by
          intro x
          induction x with
          | nil => intro _ hm; cases hm
          | cons e x ih =>
            intro hx hm
            have ih := ih fun e he => hx e (by simp [he])
            rcases hx e (by simp) with ⟨r, rfl⟩ | ⟨s, rfl⟩ | ⟨s, rfl⟩
            · exact ih hm
            · rcases List.mem_cons.1 hm with hm | hm
              · cases hm
              · exact ih hm
            · rcases List.mem_cons.1 hm with hm | hm
              · cases hm
              · exact ih hm
        exact this part hcp hm
  have := C95_line_filter hc hi ht hun (s := delivered part) (by simp) hls hcl
  rw [← this, otherCalls_after_sys, outText_append, outText_append]
  rfl

/-- What a condensed execution shows of the original one. -/
theorem condensed_shows {over : Bool} {tr : List FlowEvent} {tr' : List Event} (h : Condensed over tr tr') (hover : over = true)
    (hs : ∀ p text, FlowEvent.sys (.slurp p (some text)) ∉ tr) (h0 : (0 : Byte) ∉ delivered tr) :
    outText tr' = outText (otherCalls tr) ∧ (∀ s ∈ textsRead tr', (0 : Byte) ∉ s) ∧
    (textsRead tr').flatten.count 0x0A = (delivered tr).count 0x0A ∧ (NoFailure tr → (textsRead tr').flatten = delivered tr) := by
  have copied : ∀ (path : Option Bytes) (x : List FlowEvent), (∀ e ∈ x, Copies path e) → textsRead (otherCalls x) = [] := by
    intro path x
    induction x with
    | nil => intro _; rfl
    | cons e x ih =>
      intro hx
      have ih := ih fun e he => hx e (by simp [he])
      rcases hx e (by simp) with ⟨r, rfl⟩ | ⟨s, rfl⟩ | ⟨s, rfl⟩ <;> exact ih
  have group : ∀ (path : Option Bytes) (part tr : List FlowEvent) (text rest : Bytes) (tr' : List Event),
      (∀ e ∈ part, Copies path e) → delivered part = text ++ rest → HeldBack rest → (NoFailure part → rest = []) → (0 : Byte) ∉ delivered (part ++ tr) →
      (outText tr' = outText (otherCalls tr) ∧ (∀ s ∈ textsRead tr', (0 : Byte) ∉ s) ∧
        (textsRead tr').flatten.count 0x0A = (delivered tr).count 0x0A ∧ (NoFailure tr → (textsRead tr').flatten = delivered tr)) →
      outText (otherCalls part ++ tr') = outText (otherCalls (part ++ tr)) ∧ (∀ s ∈ text :: textsRead (otherCalls part ++ tr'), (0 : Byte) ∉ s) ∧
        (text :: textsRead (otherCalls part ++ tr')).flatten.count 0x0A = (delivered (part ++ tr)).count 0x0A ∧
        (NoFailure (part ++ tr) → (text :: textsRead (otherCalls part ++ tr')).flatten = delivered (part ++ tr)) := by
    intro path part tr text rest tr' hc hd hh hn h0 ⟨i1, i2, i3, i4⟩
    rw [delivered_append, hd] at h0
    rw [delivered_append, hd, otherCalls_append, outText_append, outText_append, textsRead_append, copied path part hc, i1, List.nil_append]
    refine ⟨rfl, ?_, ?_, ?_⟩
    · intro s hs
      rcases List.mem_cons.1 hs with rfl | hs
      · exact fun hm => h0 (by simp [hm])
      · exact i2 s hs
    · have : (0x0A : Byte) ∉ rest := hh.2 fun hm => h0 (by simp [hm])
      rw [List.flatten_cons, List.count_append, i3, List.count_append, List.count_append, List.count_eq_zero.2 this, Nat.add_zero]
    · intro hnf
      obtain ⟨n1, n2⟩ := NoFailure.append hnf
      rw [List.flatten_cons, i4 n2, hn n1, List.append_nil]
  induction h with
  | nil => exact ⟨rfl, by simp [textsRead], by simp [textsRead, delivered], fun _ => rfl⟩
  | sys _ e tr tr' _ ih =>
    have hs' : ∀ p text, FlowEvent.sys (.slurp p (some text)) ∉ tr := fun p t hm => hs p t (by simp [hm])
    obtain ⟨i1, i2, i3, i4⟩ := ih hover hs' h0
    have ht : textsRead (e :: tr') = textsRead tr' := by
      cases e with
      | slurp p r =>
        cases r with
        | none => rfl
        | some t => exact absurd (by simp) (hs p t)
      | _ => rfl
    rw [ht]
    refine ⟨?_, i2, i3, i4⟩
    show outText ([e] ++ tr') = outText ([e] ++ otherCalls tr)
    rw [outText_append, outText_append, i1]
  | unopened _ path tr tr' _ ih =>
    obtain ⟨i1, i2, i3, i4⟩ := ih hover (fun p t hm => hs p t (by simp [hm])) h0
    exact ⟨i1, i2, i3, i4⟩
  | file _ path part tr text rest tr' a1 a2 a3 a4 _ ih =>
    have h0' : (0 : Byte) ∉ delivered (part ++ tr) := h0
    have h0'' : (0 : Byte) ∉ delivered tr := by
      rw [delivered_append] at h0'
      exact fun hm => h0' (by simp [hm])
    exact group (some path) part tr text rest tr' a1 a2 a3 a4 h0' (ih hover (fun p t hm => hs p t (by simp [hm])) h0'')
  | fileCut => cases hover
  | stdin _ part tr text rest tr' a1 a2 a3 a4 _ ih =>
    have h0'' : (0 : Byte) ∉ delivered tr := by
      rw [delivered_append] at h0
      exact fun hm => h0 (by simp [hm])
    exact group none part tr text rest tr' a1 a2 a3 a4 h0 (ih hover (fun p t hm => hs p t (by simp [hm])) h0'')
  | stdinCut => cases hover

/-- A file that is not opened is not read. -/
theorem condensed_unread {over : Bool} {tr : List FlowEvent} {tr' : List Event} (h : Condensed over tr tr') {p : Bytes}
    (hs : ∀ text, FlowEvent.sys (.slurp (some p) (some text)) ∉ tr) (hf : FlowEvent.fopen p true ∉ tr) (text : Bytes) :
    Event.slurp (some p) (some text) ∉ tr' := by
  have copied : ∀ (path : Option Bytes) (x : List FlowEvent), (∀ e ∈ x, Copies path e) → Event.slurp (some p) (some text) ∉ otherCalls x := by
    intro path x
    induction x with
    | nil => intro _ hm; cases hm
    | cons e x ih =>
      intro hx hm
      have ih := ih fun e he => hx e (by simp [he])
      rcases hx e (by simp) with ⟨r, rfl⟩ | ⟨s, rfl⟩ | ⟨s, rfl⟩
      · exact ih hm
      · rcases List.mem_cons.1 hm with hm | hm
        · cases hm
        · exact ih hm
      · rcases List.mem_cons.1 hm with hm | hm
        · cases hm
        · exact ih hm
  induction h with
  | nil => simp
  | sys _ e tr tr' _ ih =>
    intro hm
    rcases List.mem_cons.1 hm with hm | hm
    · exact hs text (by simp [hm])
    · exact ih (fun t hm => hs t (by simp [hm])) (fun hm => hf (by simp [hm])) hm
  | unopened _ path tr tr' _ ih =>
    intro hm
    rcases List.mem_cons.1 hm with hm | hm
    · cases hm
    · exact ih (fun t hm => hs t (by simp [hm])) (fun hm => hf (by simp [hm])) hm
  | file _ path part tr t rest tr' a1 a2 a3 a4 _ ih =>
    intro hm
    rcases List.mem_cons.1 hm with hm | hm
    · cases hm; exact hf (by simp)
    · rcases List.mem_append.1 hm with hm | hm
      · exact copied _ part a1 hm
      · exact ih (fun t hm => hs t (by simp [hm])) (fun hm => hf (by simp [hm])) hm
  | fileCut path part t rest a1 =>
    intro hm
    rcases List.mem_cons.1 hm with hm | hm
    · cases hm; exact hf (by simp)
    · exact copied _ part a1 hm
  | stdin _ part tr t rest tr' a1 a2 a3 a4 _ ih =>
    intro hm
    rcases List.mem_cons.1 hm with hm | hm
    · cases hm
    · rcases List.mem_append.1 hm with hm | hm
      · exact copied _ part a1 hm
      · exact ih (fun t hm => hs t (by simp [hm])) (fun hm => hf (by simp [hm])) hm
  | stdinCut part t rest a1 =>
    intro hm
    rcases List.mem_cons.1 hm with hm | hm
    · cases hm
    · exact copied _ part a1 hm

/-- **C105.** What C95 says of the output holds for input in pieces, and for input that cannot be read to its end: nothing but newlines
and harmless characters is printed, there are as many newlines as were delivered, and if all reads succeed the bytes that are not ASCII
are all there, in the same order. -/
theorem C105_default_output {P : Platform} {I : Invocation} {fuel rounds : Nat} {ss : List Setting} {ws : List Bytes}
    (hc : CommandLine I.posixlyCorrect I.args ss ws) (hi : CalledInline I.program ∨ Setting.inline ∈ ss) {tr : List FlowEvent}
    (h : StreamTrace (detoxMainStream P I fuel rounds) tr (.ret ())) (hst : Steady false tr) (hu : NothingConfigured I ss tr)
    (hn : requested I ss = none ∨ requested I ss = some (lit "default")) (h0 : NulFree (delivered tr)) :
    (∀ c ∈ outText (otherCalls tr), c = 0x0A ∨ hostile c = false) ∧ (outText (otherCalls tr)).count 0x0A = (delivered tr).count 0x0A ∧
    (NoFailure tr → (outText (otherCalls tr)).filter (fun c => decide (128 ≤ c.toNat)) = (delivered tr).filter (fun c => decide (128 ≤ c.toNat))) := by
  obtain ⟨tr', h1, h2⟩ := detoxMainStream_any h hst (by simp)
  obtain ⟨e1, e2, e3, e4⟩ := condensed_shows h1 (by simp) hu.2.1 h0
  obtain ⟨g1, g2, g3⟩ := C95_default_output hc hi h2 ⟨hu.1, fun p hp t => condensed_unread h1 (hu.2.1 (some p)) (hu.2.2 p hp) t⟩ hn e2
  rw [← e1]
  exact ⟨g1, g2.trans e3, fun hnf => by rw [g3, e4 hnf]⟩

/-! ### Runs -/

/-- Does a run end after exactly these calls? -/
def flowEnds : Flow Unit → List FlowEvent → Bool
  | .ret _, [] => true
  | .lstat p k, .sys (.lstat p' r) :: tr => p = p' && flowEnds (k r) tr
  | .fopen p k, .fopen p' r :: tr => p = p' && flowEnds (k r) tr
  | .read p k, .read p' r :: tr => p = p' && flowEnds (k r) tr
  | .out s k, .sys (.out s') :: tr => s = s' && flowEnds k tr
  | .err s k, .sys (.err s') :: tr => s = s' && flowEnds k tr
  | _, _ => false

theorem flowEnds_sound : ∀ (tr : List FlowEvent) (p : Flow Unit), flowEnds p tr = true → FlowTrace p tr (.ret ())
  | [], p, h => by
    cases p <;> first | exact .ret _ | (simp [flowEnds] at h)
  | e :: tr, p, h => by
    cases p with
    | ret | exit | ub | stuck => simp [flowEnds] at h
    | lstat q k =>
      cases e with
      | sys e => cases e <;> simp [flowEnds] at h; obtain ⟨rfl, h⟩ := h; exact .lstat _ _ _ _ _ (flowEnds_sound tr _ h)
      | _ => simp [flowEnds] at h
    | fopen q k =>
      cases e with
      | fopen => simp [flowEnds] at h; obtain ⟨rfl, h⟩ := h; exact .fopen _ _ _ _ _ (flowEnds_sound tr _ h)
      | _ => simp [flowEnds] at h
    | read q k =>
      cases e with
      | read => simp [flowEnds] at h; obtain ⟨rfl, h⟩ := h; exact .read _ _ _ _ _ (flowEnds_sound tr _ h)
      | _ => simp [flowEnds] at h
    | out q k =>
      cases e with
      | sys e => cases e <;> simp [flowEnds] at h; obtain ⟨rfl, h⟩ := h; exact .out _ _ _ _ (flowEnds_sound tr _ h)
      | _ => simp [flowEnds] at h
    | err q k =>
      cases e with
      | sys e => cases e <;> simp [flowEnds] at h; obtain ⟨rfl, h⟩ := h; exact .err _ _ _ _ (flowEnds_sound tr _ h)
      | _ => simp [flowEnds] at h

theorem streamEnds_sound {p : Prog (Flow Unit)} {pre : List Event} {part : List FlowEvent} (h : (p.result pre).any (flowEnds · part) = true) :
    StreamTrace p (pre.map .sys ++ part) (.ret ()) := by
  cases hp : p.result pre with
  | none => rw [hp] at h; simp at h
  | some q => rw [hp] at h; exact .andThen _ q _ _ (Prog.result_sound _ _ _ hp) (flowEnds_sound _ _ h)

/-- `inline-detox` with input in pieces: each line is printed before the next read. -/
def streamExample : List FlowEvent :=
  [.read none (.data (lit "a ")), .read none (.data (lit "b\n.\nx ")), .sys (.out (lit "a_b")), .sys (.out [0x0A]), .sys (.out (lit ".")), .sys (.out [0x0A]),
   .read none (.data (lit "& y\n")), .sys (.out (lit "x_and_y")), .sys (.out [0x0A]), .read none (.data [])]

theorem streamExample_runs : StreamTrace (detoxMainStream .linux pipeCall 10 20) (nothingInstalled.map .sys ++ streamExample) (.ret ()) :=
  streamEnds_sound (by decide +kernel)

/- What the theorems ask of a run. -/
example : Steady false (nothingInstalled.map .sys ++ streamExample) := by simp [nothingInstalled, streamExample, Steady]
example : NoFailure (nothingInstalled.map .sys ++ streamExample) := by intro a; simp [nothingInstalled, streamExample, answers]
example : NothingConfigured pipeCall [] (nothingInstalled.map .sys ++ streamExample) := by
  refine ⟨rfl, ?_, ?_⟩
  · intro p t; simp [nothingInstalled, streamExample]
  · intro p _; simp [nothingInstalled, streamExample]
example : NulFree (delivered (nothingInstalled.map .sys ++ streamExample)) := by decide +kernel
example : (delivered (nothingInstalled.map .sys ++ streamExample)).length < 20 := by decide +kernel

/-- Before the last read. -/
example : ∃ tr, nothingInstalled.map .sys ++ streamExample = tr ++ [.read none (.data [])] ∧
    ShortLines [lit "a b", lit ".", lit "x & y"] (delivered tr) ∧ outText (otherCalls tr) = lit "a_b\n.\nx_and_y\n" :=
  ⟨nothingInstalled.map .sys ++ streamExample.dropLast, by decide +kernel, ⟨by decide +kernel, by decide +kernel⟩, by decide +kernel⟩

/-- **C105**, what can go wrong: a read error (here after `a b`) looks like the end of the file, but what was read of the last line is
dropped. Nothing is said about it, and the exit status is that of success. -/
theorem C105_read_error_is_silent :
    StreamTrace (detoxMainStream .linux pipeCall 10 20)
      (nothingInstalled.map .sys ++ [.read none (.data (lit "1 2\na b")), .sys (.out (lit "1_2")), .sys (.out [0x0A]), .read none (.fail false)]) (.ret ()) ∧
    ∃ tr, Trace (detoxMain .linux pipeCall 10) (nothingInstalled ++ .slurp none (some (lit "1 2\na b")) :: tr) (.ret ()) ∧ outText tr = lit "1_2\na_b" :=
  ⟨streamEnds_sound (by decide +kernel),
    [.out (lit "1_2"), .out [0x0A], .out (lit "a_b")], Prog.result_sound _ _ _ (by decide +kernel), by decide +kernel⟩

/-- **C105**, why reading must be steady: if standard input is a non-blocking descriptor, a line is cut where the input happened to
come late, and cleaned in parts: `x`, nothing yet, `-y` becomes `xy`, although `x-y` is clean. -/
theorem C105_non_blocking_input_cuts_lines :
    StreamTrace (detoxMainStream .linux pipeCall 10 20)
      (nothingInstalled.map .sys ++ [.read none (.data (lit "x")), .read none (.fail true), .sys (.out (lit "x")), .read none (.data (lit "-y\n")),
        .sys (.out (lit "y")), .sys (.out [0x0A]), .read none (.data [])]) (.ret ()) ∧
    ∃ tr, Trace (detoxMain .linux pipeCall 10) (nothingInstalled ++ .slurp none (some (lit "x-y\n")) :: tr) (.ret ()) ∧ outText tr = lit "x-y\n" :=
  ⟨streamEnds_sound (by decide +kernel),
    [.out (lit "x-y"), .out [0x0A]], Prog.result_sound _ _ _ (by decide +kernel), by decide +kernel⟩

end Detox
