import Verif.Lemmas.ConfigScan

/-!
# C88 — config files are read through the scanner's buffer, piece by piece
-/

set_option autoImplicit false

namespace Detox

/-- **C88.** However the system cuts the config files into pieces when they are read: as long as no read fails and there is memory, loading
the configuration through the generated scanner with its buffer and the generated parser is exactly what it is in the model that the other
theorems are about: the same files, the same messages, the same configuration or the same failure. -/
theorem C88_load (w : YyWorld) (hw : w.Good) (E : ConfigEnv) (check : Option Bytes) (tr : List Event) (o : Outcome ConfigFile)
    (hs : FilesShort tr) : Trace (configFileLoadScan w E check) tr o ↔ Trace (configFileLoad E check) tr o := by
  constructor
  · intro h
    rcases (load_same w E check).trace h hs with h | ⟨msg, h, _⟩
    · exact h
    · exact absurd h (hw.not_fails msg)
  · exact fun h => (load_same w E check).trace_back hw h hs

/-- **C88.** If a read or an allocation fails, the program may end, with one of four messages and status 2; it does nothing else that it would
not do otherwise. In particular it does not touch memory outside the buffer, nor bytes of it that were not written. -/
theorem C88_load_any (w : YyWorld) (E : ConfigEnv) (check : Option Bytes) (tr : List Event) (o : Outcome ConfigFile)
    (hs : FilesShort tr) (h : Trace (configFileLoadScan w E check) tr o) : Trace (configFileLoad E check) tr o ∨
      ∃ msg, w.Fails msg ∧ (o = .running ∨ (o = .exit 2 ∧ tr.getLast? = some (.err (msg ++ lit "\n")))) :=
  (load_same w E check).trace h hs

/-- **C88.** So it is for the whole program. -/
theorem C88_main (w : YyWorld) (hw : w.Good) (P : Platform) (I : Invocation) (fuel : Nat) (tr : List Event) (o : Outcome Unit)
    (hs : FilesShort tr) : Trace (detoxMainScan w P I fuel) tr o ↔ Trace (detoxMain P I fuel) tr o := by
  constructor
  · intro h
    rcases (main_same w P I fuel).trace h hs with h | ⟨msg, h, _⟩
    · exact h
    · exact absurd h (hw.not_fails msg)
  · exact fun h => (main_same w P I fuel).trace_back hw h hs

/-- **C88.** And when a read or an allocation of the scanner fails. -/
theorem C88_main_any (w : YyWorld) (P : Platform) (I : Invocation) (fuel : Nat) (tr : List Event) (o : Outcome Unit)
    (hs : FilesShort tr) (h : Trace (detoxMainScan w P I fuel) tr o) : Trace (detoxMain P I fuel) tr o ∨
      ∃ msg, w.Fails msg ∧ (o = .running ∨ (o = .exit 2 ∧ tr.getLast? = some (.err (msg ++ lit "\n")))) :=
  (main_same w P I fuel).trace h hs

/-- **C88.** The tokens themselves: each call of `yylex` gives the next one of the file, with its text and its line; nothing is lost, repeated
or cut at the borders of what was read. -/
theorem C88_token (w : YyWorld) (pending : Bytes) (f : Flex) (src : Source) (hmax : pending.length ≤ 1073741822) (hr : FlexReady f src pending)
    (fuel : Nat) (hf : yyFuel pending.length ≤ fuel) :
    (∃ msg, yylex w fuel f src = .fatal msg ∧ w.Fails msg) ∨
    (∃ f' src', yylex w fuel f src = .ok (none, f', src') ∧ locateAll pending.length f.lineno pending = ([], f'.lineno) ∧
      ∀ s, FlexReady f' s s.rest) ∨
    ∃ x f' src' pending', yylex w fuel f src = .ok (some x, f', src') ∧ FlexReady f' src' pending' ∧ f'.lineno = x.line ∧
      locateAll pending.length f.lineno pending =
        (x :: (locateAll pending'.length x.line pending').1, (locateAll pending'.length x.line pending').2) := by
  rcases yylex_spec w pending f src hmax hr fuel hf with h | ⟨t, f', src', h1, h2⟩
  · exact .inl h
  · cases t with
    | none => exact .inr (.inl ⟨f', src', h1, h2.1, h2.2.2.1⟩)
    | some x =>
      obtain ⟨p', s1, _, s3, s4, _⟩ := h2
      exact .inr (.inr ⟨x, f', src', p', h1, s1, s3, s4⟩)

/-- **C88.** A config file that can be opened but not read, such as a directory: the program ends with status 2 and a message that does not name
the file. -/
theorem C88_unreadable (w : YyWorld) (hm : ∀ n, w.memory n = true) (hr : w.read 0 = .fail false) (E : ConfigEnv) (f text : Bytes) :
    Trace (configFileLoadScan w E (some f)) [.slurp (some f) (some text), .err (lit "input in flex scanner failed\n")] (.exit 2) := by
  obtain ⟨g, h1, h2⟩ := first_read w hm text hr (yyFuel text.length) 0 (by unfold yyFuel; exact Nat.le_trans (by decide) (Nat.mul_le_mul (show 6 ≤ _ by omega) (show 1 ≤ _ by omega)))
  have h3 : parseConfigScan w f text none {} = (0, .fatal (lit "input in flex scanner failed")) := by
    have e : ∀ vars : CState, yySteps f 20 { stack := [(0, .junk)], lval := .junk, vars := vars } none =
      .ok (.token ⟨[(1, .junk), (0, .junk)], .junk, vars⟩) := fun _ => rfl
    simp only [parseConfigScan, ScanState.start, h1, parseLoop, yyParseScan, e, yyPull]
    rw [show (0 : Nat) + 3 = 3 from rfl] at h2
    simp only [Nat.zero_add, h2]
    rfl
  refine .slurp _ _ _ _ _ ?_
  simp only [h3]
  exact .err _ _ _ _ (.exit 2)

/-- A scanner with a block of four bytes. -/
def smallFlex : Flex :=
  { buf := [some 0, some 0, none, none, none, none], bufSize := 4, bufChars := 0, status := .fresh, nChars := 0, cBufP := 0, text := 0,
    hold := 0, lastState := 0, lastCpos := none, lineno := 1 }

/-- It is ready. -/
example : ∀ s, FlexReady smallFlex s s.rest := fun s =>
  ⟨[], [], ⟨by intro j hj; rcases j with _ | _ | j <;> first | rfl | (simp at hj; omega), rfl, by decide, rfl, fun _ => ⟨rfl, rfl, rfl⟩,
    fun h => by cases h⟩, rfl, rfl⟩

/-- Reads of three bytes at a time, a block of four bytes at first, a NUL and other stray characters between the tokens, and words longer than
the block: the same configuration, and the block has grown. -/
example : (let text := lit "sequence \"default\" { \x00 $ safe { filename \"/usr/share/safe.tbl\"; }; wipeup; };\n# end\nignore { filename abc; };"
    let r := parseConfigScan { read := fun _ => .upto 3, memory := fun _ => true } (lit "f") text none { flex := some smallFlex }
    match r.2, (parseConfigText (lit "f") text none).2 with
    | .ok (.ok c, z), .ok c' => c.sequences == c'.sequences && (z.flex.map (·.bufSize)) == some 32 && (z.flex.map (·.lineno)) == some 3
    | _, _ => false) = true := by decide +kernel

/-- A syntax error: the text of the token is read back from the block. -/
example : (let text := lit "sequence abcdefgh {\n uncgi }"
    let r := parseConfigScan { read := fun n => .upto (n % 3), memory := fun _ => true } (lit "f") text none { flex := some smallFlex }
    match r.2 with
    | .ok (.exit 1, z) =>
      match scanError (lit "f") z with
      | .ok s => s == lit "detox: error parsing config file f: syntax error\n\tline 2: }\n"
      | _ => false
    | _ => false) = true := by decide +kernel

/-- The small scanner reads a file whose bytes all come with the first `read(2)`; the read numbered `k` is interrupted by a signal. -/
def interruptedAt (k : Nat) : YyWorld :=
  { read := fun n => if n = k then .fail true else .upto 200, memory := fun _ => true, calm := k + 1 }

/-- A configuration of 36 bytes. -/
def shortConfig : Bytes := lit "sequence default { uncgi; safe; }; \n"

/-- **C88.** (Finding.) All of the file has been delivered, and the read that would have said "end of file" is interrupted by a signal: the
scanner is written to try again, but `fread` had bytes to give, so the mark that it leaves in the stream is only seen at the next call, where
`errno` is 0. The program ends with status 2 although nothing is wrong with the file and no read has failed other than by the signal. -/
theorem C88_interrupted :
    (∀ n, (interruptedAt 1).read n = .fail false → False) ∧ (∀ n, (interruptedAt 1).memory n = true) ∧
    (match (parseConfigScan (interruptedAt 1) (lit "f") shortConfig none { flex := some smallFlex }).2 with
      | .fatal msg => msg == lit "input in flex scanner failed"
      | _ => false) = true ∧
    (match (parseConfigText (lit "f") shortConfig none).2 with
      | .ok _ => true
      | _ => false) = true := by
  refine ⟨fun n h => ?_, fun _ => rfl, by decide +kernel, by decide +kernel⟩
  simp only [interruptedAt] at h
  split at h <;> simp at h

/-- Interrupted before there was a byte to give: it is tried again, and nothing is lost. -/
example : (match (parseConfigScan (interruptedAt 0) (lit "f") shortConfig none { flex := some smallFlex }).2, (parseConfigText (lit "f") shortConfig none).2 with
    | .ok (.ok c, _), .ok c' => c.sequences == c'.sequences
    | _, _ => false) = true := by decide +kernel

/-- From a terminal, line by line, two bytes at a time. -/
example : (match (parseConfigScan { read := fun _ => .upto 2, memory := fun _ => true, interactive := fun _ => true } (lit "f") shortConfig none { flex := some smallFlex }).2,
      (parseConfigText (lit "f") shortConfig none).2 with
    | .ok (.ok c, _), .ok c' => c.sequences == c'.sequences
    | _, _ => false) = true := by decide +kernel

end Detox
