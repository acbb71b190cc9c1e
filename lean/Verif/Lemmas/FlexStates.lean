import Verif.Model.Flex
import Verif.Lemmas.FlexRef

/-!
# What the states of the generated scanner stand for

Written by `tools/genflex.py`; checked against the tables in `Lemmas/Flex.lean`.
-/

set_option autoImplicit false

namespace Detox

/-- The states, by number; those that are not used stand for `jam`. -/
def stateList : List LexState := [
  /- 0 -/ .jam,
  /- 1 -/ .start,
  /- 2 -/ .jam,
  /- 3 -/ .jam,
  /- 4 -/ .other,
  /- 5 -/ .blank,
  /- 6 -/ .newline,
  /- 7 -/ .quote,
  /- 8 -/ .comment,
  /- 9 -/ .number,
  /- 10 -/ .eol,
  /- 11 -/ .word [],
  /- 12 -/ .word [([0x75, 0x69, 0x6C, 0x74, 0x69, 0x6E], .builtin)],
  /- 13 -/ .word [([0x69, 0x6C, 0x65, 0x6E, 0x61, 0x6D, 0x65], .filename)],
  /- 14 -/ .word [([0x67, 0x6E, 0x6F, 0x72, 0x65], .ignore), ([0x73, 0x6F, 0x38, 0x38, 0x35, 0x39, 0x5F, 0x31], .iso8859_1)],
  /- 15 -/ .word [([0x65, 0x6E, 0x67, 0x74, 0x68], .length), ([0x6F, 0x77, 0x65, 0x72], .lower)],
  /- 16 -/ .word [([0x61, 0x78, 0x5F, 0x6C, 0x65, 0x6E, 0x67, 0x74, 0x68], .maxLength)],
  /- 17 -/ .word [([0x65, 0x6D, 0x6F, 0x76, 0x65, 0x5F, 0x74, 0x72, 0x61, 0x69, 0x6C, 0x69, 0x6E, 0x67], .removeTrailing)],
  /- 18 -/ .word [([0x61, 0x66, 0x65], .safe), ([0x65, 0x71, 0x75, 0x65, 0x6E, 0x63, 0x65], .sequence)],
  /- 19 -/ .word [([0x6E, 0x63, 0x67, 0x69], .uncgi), ([0x74, 0x66, 0x5F, 0x38], .utf8)],
  /- 20 -/ .word [([0x69, 0x70, 0x65, 0x75, 0x70], .wipeup)],
  /- 21 -/ .opn,
  /- 22 -/ .cls,
  /- 23 -/ .blank,
  /- 24 -/ .inside,
  /- 25 -/ .quoted,
  /- 26 -/ .comment,
  /- 27 -/ .number,
  /- 28 -/ .word [],
  /- 29 -/ .word [([0x69, 0x6C, 0x74, 0x69, 0x6E], .builtin)],
  /- 30 -/ .word [([0x6C, 0x65, 0x6E, 0x61, 0x6D, 0x65], .filename)],
  /- 31 -/ .word [([0x6E, 0x6F, 0x72, 0x65], .ignore)],
  /- 32 -/ .word [([0x6F, 0x38, 0x38, 0x35, 0x39, 0x5F, 0x31], .iso8859_1)],
  /- 33 -/ .word [([0x6E, 0x67, 0x74, 0x68], .length)],
  /- 34 -/ .word [([0x77, 0x65, 0x72], .lower)],
  /- 35 -/ .word [([0x78, 0x5F, 0x6C, 0x65, 0x6E, 0x67, 0x74, 0x68], .maxLength)],
  /- 36 -/ .word [([0x6D, 0x6F, 0x76, 0x65, 0x5F, 0x74, 0x72, 0x61, 0x69, 0x6C, 0x69, 0x6E, 0x67], .removeTrailing)],
  /- 37 -/ .word [([0x66, 0x65], .safe)],
  /- 38 -/ .word [([0x71, 0x75, 0x65, 0x6E, 0x63, 0x65], .sequence)],
  /- 39 -/ .word [([0x63, 0x67, 0x69], .uncgi)],
  /- 40 -/ .word [([0x66, 0x5F, 0x38], .utf8)],
  /- 41 -/ .word [([0x70, 0x65, 0x75, 0x70], .wipeup)],
  /- 42 -/ .word [([0x6C, 0x74, 0x69, 0x6E], .builtin)],
  /- 43 -/ .word [([0x65, 0x6E, 0x61, 0x6D, 0x65], .filename)],
  /- 44 -/ .word [([0x6F, 0x72, 0x65], .ignore)],
  /- 45 -/ .word [([0x38, 0x38, 0x35, 0x39, 0x5F, 0x31], .iso8859_1)],
  /- 46 -/ .word [([0x67, 0x74, 0x68], .length)],
  /- 47 -/ .word [([0x65, 0x72], .lower)],
  /- 48 -/ .word [([0x5F, 0x6C, 0x65, 0x6E, 0x67, 0x74, 0x68], .maxLength)],
  /- 49 -/ .word [([0x6F, 0x76, 0x65, 0x5F, 0x74, 0x72, 0x61, 0x69, 0x6C, 0x69, 0x6E, 0x67], .removeTrailing)],
  /- 50 -/ .word [([0x65], .safe)],
  /- 51 -/ .word [([0x75, 0x65, 0x6E, 0x63, 0x65], .sequence)],
  /- 52 -/ .word [([0x67, 0x69], .uncgi)],
  /- 53 -/ .word [([0x5F, 0x38], .utf8)],
  /- 54 -/ .word [([0x65, 0x75, 0x70], .wipeup)],
  /- 55 -/ .word [([0x74, 0x69, 0x6E], .builtin)],
  /- 56 -/ .word [([0x6E, 0x61, 0x6D, 0x65], .filename)],
  /- 57 -/ .word [([0x72, 0x65], .ignore)],
  /- 58 -/ .word [([0x38, 0x35, 0x39, 0x5F, 0x31], .iso8859_1)],
  /- 59 -/ .word [([0x74, 0x68], .length)],
  /- 60 -/ .word [([0x72], .lower)],
  /- 61 -/ .word [([0x6C, 0x65, 0x6E, 0x67, 0x74, 0x68], .maxLength)],
  /- 62 -/ .word [([0x76, 0x65, 0x5F, 0x74, 0x72, 0x61, 0x69, 0x6C, 0x69, 0x6E, 0x67], .removeTrailing)],
  /- 63 -/ .word [([], .safe)],
  /- 64 -/ .word [([0x65, 0x6E, 0x63, 0x65], .sequence)],
  /- 65 -/ .word [([0x69], .uncgi)],
  /- 66 -/ .word [([0x38], .utf8)],
  /- 67 -/ .word [([0x75, 0x70], .wipeup)],
  /- 68 -/ .word [([0x69, 0x6E], .builtin)],
  /- 69 -/ .word [([0x61, 0x6D, 0x65], .filename)],
  /- 70 -/ .word [([0x65], .ignore)],
  /- 71 -/ .word [([0x35, 0x39, 0x5F, 0x31], .iso8859_1)],
  /- 72 -/ .word [([0x68], .length)],
  /- 73 -/ .word [([], .lower)],
  /- 74 -/ .word [([0x65, 0x6E, 0x67, 0x74, 0x68], .maxLength)],
  /- 75 -/ .word [([0x65, 0x5F, 0x74, 0x72, 0x61, 0x69, 0x6C, 0x69, 0x6E, 0x67], .removeTrailing)],
  /- 76 -/ .word [([0x6E, 0x63, 0x65], .sequence)],
  /- 77 -/ .word [([], .uncgi)],
  /- 78 -/ .word [([], .utf8)],
  /- 79 -/ .word [([0x70], .wipeup)],
  /- 80 -/ .word [([0x6E], .builtin)],
  /- 81 -/ .word [([0x6D, 0x65], .filename)],
  /- 82 -/ .word [([], .ignore)],
  /- 83 -/ .word [([0x39, 0x5F, 0x31], .iso8859_1)],
  /- 84 -/ .word [([], .length)],
  /- 85 -/ .word [([0x6E, 0x67, 0x74, 0x68], .maxLength)],
  /- 86 -/ .word [([0x5F, 0x74, 0x72, 0x61, 0x69, 0x6C, 0x69, 0x6E, 0x67], .removeTrailing)],
  /- 87 -/ .word [([0x63, 0x65], .sequence)],
  /- 88 -/ .word [([], .wipeup)],
  /- 89 -/ .word [([], .builtin)],
  /- 90 -/ .word [([0x65], .filename)],
  /- 91 -/ .word [([0x5F, 0x31], .iso8859_1)],
  /- 92 -/ .word [([0x67, 0x74, 0x68], .maxLength)],
  /- 93 -/ .word [([0x74, 0x72, 0x61, 0x69, 0x6C, 0x69, 0x6E, 0x67], .removeTrailing)],
  /- 94 -/ .word [([0x65], .sequence)],
  /- 95 -/ .word [([], .filename)],
  /- 96 -/ .word [([0x31], .iso8859_1)],
  /- 97 -/ .word [([0x74, 0x68], .maxLength)],
  /- 98 -/ .word [([0x72, 0x61, 0x69, 0x6C, 0x69, 0x6E, 0x67], .removeTrailing)],
  /- 99 -/ .word [([], .sequence)],
  /- 100 -/ .word [([], .iso8859_1)],
  /- 101 -/ .word [([0x68], .maxLength)],
  /- 102 -/ .word [([0x61, 0x69, 0x6C, 0x69, 0x6E, 0x67], .removeTrailing)],
  /- 103 -/ .word [([], .maxLength)],
  /- 104 -/ .word [([0x69, 0x6C, 0x69, 0x6E, 0x67], .removeTrailing)],
  /- 105 -/ .word [([0x6C, 0x69, 0x6E, 0x67], .removeTrailing)],
  /- 106 -/ .word [([0x69, 0x6E, 0x67], .removeTrailing)],
  /- 107 -/ .word [([0x6E, 0x67], .removeTrailing)],
  /- 108 -/ .word [([0x67], .removeTrailing)],
  /- 109 -/ .word [([], .removeTrailing)],
  /- 110 -/ .jam]

end Detox
