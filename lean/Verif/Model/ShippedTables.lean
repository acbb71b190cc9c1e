import Verif.Model.Base

/-!
# The translation tables shipped with detox — `/repo/table/*.tbl`

Generated, byte for byte, from the files (the text of each line is repeated in a comment).
-/

set_option autoImplicit false

namespace Detox

/-- The lines of table/safe.tbl, lines 1-96. -/
def shipped_safe_lines : List Bytes := [
  -- # This file is part of the Detox package.
  [35, 32, 84, 104, 105, 115, 32, 102, 105, 108, 101, 32, 105, 115, 32, 112, 97, 114, 116, 32, 111, 102, 32, 116, 104, 101, 32, 68, 101, 116, 111, 120, 32, 112, 97, 99, 107, 97, 103, 101, 46, 10],
  -- #
  [35, 10],
  -- # Copyright (c) Doug Harple <detox.dharple@gmail.com>
  [35, 32, 67, 111, 112, 121, 114, 105, 103, 104, 116, 32, 40, 99, 41, 32, 68, 111, 117, 103, 32, 72, 97, 114, 112, 108, 101, 32, 60, 100, 101, 116, 111, 120, 46, 100, 104, 97, 114, 112, 108, 101, 64, 103, 109, 97, 105, 108, 46, 99, 111, 109, 62, 10],
  -- #
  [35, 10],
  -- # For the full copyright and license information, please view the LICENSE
  [35, 32, 70, 111, 114, 32, 116, 104, 101, 32, 102, 117, 108, 108, 32, 99, 111, 112, 121, 114, 105, 103, 104, 116, 32, 97, 110, 100, 32, 108, 105, 99, 101, 110, 115, 101, 32, 105, 110, 102, 111, 114, 109, 97, 116, 105, 111, 110, 44, 32, 112, 108, 101, 97, 115, 101, 32, 118, 105, 101, 119, 32, 116, 104, 101, 32, 76, 73, 67, 69, 78, 83, 69, 10],
  -- # file that was distributed with this source code.
  [35, 32, 102, 105, 108, 101, 32, 116, 104, 97, 116, 32, 119, 97, 115, 32, 100, 105, 115, 116, 114, 105, 98, 117, 116, 101, 100, 32, 119, 105, 116, 104, 32, 116, 104, 105, 115, 32, 115, 111, 117, 114, 99, 101, 32, 99, 111, 100, 101, 46, 10],
  -- 
  [10],
  -- #
  [35, 10],
  -- # This file replaces 7-bit characters that are special to shells with "_" or
  [35, 32, 84, 104, 105, 115, 32, 102, 105, 108, 101, 32, 114, 101, 112, 108, 97, 99, 101, 115, 32, 55, 45, 98, 105, 116, 32, 99, 104, 97, 114, 97, 99, 116, 101, 114, 115, 32, 116, 104, 97, 116, 32, 97, 114, 101, 32, 115, 112, 101, 99, 105, 97, 108, 32, 116, 111, 32, 115, 104, 101, 108, 108, 115, 32, 119, 105, 116, 104, 32, 34, 95, 34, 32, 111, 114, 10],
  -- # "-".  The exception is ampersand, which gets translated to "_and_".
  [35, 32, 34, 45, 34, 46, 32, 32, 84, 104, 101, 32, 101, 120, 99, 101, 112, 116, 105, 111, 110, 32, 105, 115, 32, 97, 109, 112, 101, 114, 115, 97, 110, 100, 44, 32, 119, 104, 105, 99, 104, 32, 103, 101, 116, 115, 32, 116, 114, 97, 110, 115, 108, 97, 116, 101, 100, 32, 116, 111, 32, 34, 95, 97, 110, 100, 95, 34, 46, 10],
  -- #
  [35, 10],
  -- # The absence of a "default" option means that if a character is not specified
  [35, 32, 84, 104, 101, 32, 97, 98, 115, 101, 110, 99, 101, 32, 111, 102, 32, 97, 32, 34, 100, 101, 102, 97, 117, 108, 116, 34, 32, 111, 112, 116, 105, 111, 110, 32, 109, 101, 97, 110, 115, 32, 116, 104, 97, 116, 32, 105, 102, 32, 97, 32, 99, 104, 97, 114, 97, 99, 116, 101, 114, 32, 105, 115, 32, 110, 111, 116, 32, 115, 112, 101, 99, 105, 102, 105, 101, 100, 10],
  -- # here, it will not be altered.
  [35, 32, 104, 101, 114, 101, 44, 32, 105, 116, 32, 119, 105, 108, 108, 32, 110, 111, 116, 32, 98, 101, 32, 97, 108, 116, 101, 114, 101, 100, 46, 10],
  -- #
  [35, 10],
  -- 
  [10],
  -- start
  [115, 116, 97, 114, 116, 10],
  -- 
  [10],
  -- #
  [35, 10],
  -- # Control characters to translate to _
  [35, 32, 67, 111, 110, 116, 114, 111, 108, 32, 99, 104, 97, 114, 97, 99, 116, 101, 114, 115, 32, 116, 111, 32, 116, 114, 97, 110, 115, 108, 97, 116, 101, 32, 116, 111, 32, 95, 10],
  -- #
  [35, 10],
  -- # Descriptions pulled from ascii(7)
  [35, 32, 68, 101, 115, 99, 114, 105, 112, 116, 105, 111, 110, 115, 32, 112, 117, 108, 108, 101, 100, 32, 102, 114, 111, 109, 32, 97, 115, 99, 105, 105, 40, 55, 41, 10],
  -- #
  [35, 10],
  -- 
  [10],
  -- 0x01        _    #  SOH (start of heading)
  [48, 120, 48, 49, 9, 9, 95, 9, 35, 32, 32, 83, 79, 72, 32, 40, 115, 116, 97, 114, 116, 32, 111, 102, 32, 104, 101, 97, 100, 105, 110, 103, 41, 10],
  -- 0x02        _    #  STX (start of text)
  [48, 120, 48, 50, 9, 9, 95, 9, 35, 32, 32, 83, 84, 88, 32, 40, 115, 116, 97, 114, 116, 32, 111, 102, 32, 116, 101, 120, 116, 41, 10],
  -- 0x03        _    #  ETX (end of text)
  [48, 120, 48, 51, 9, 9, 95, 9, 35, 32, 32, 69, 84, 88, 32, 40, 101, 110, 100, 32, 111, 102, 32, 116, 101, 120, 116, 41, 10],
  -- 0x04        _    #  EOT (end of transmission)
  [48, 120, 48, 52, 9, 9, 95, 9, 35, 32, 32, 69, 79, 84, 32, 40, 101, 110, 100, 32, 111, 102, 32, 116, 114, 97, 110, 115, 109, 105, 115, 115, 105, 111, 110, 41, 10],
  -- 0x05        _    #  ENQ (enquiry)
  [48, 120, 48, 53, 9, 9, 95, 9, 35, 32, 32, 69, 78, 81, 32, 40, 101, 110, 113, 117, 105, 114, 121, 41, 10],
  -- 0x06        _    #  ACK (acknowledge)
  [48, 120, 48, 54, 9, 9, 95, 9, 35, 32, 32, 65, 67, 75, 32, 40, 97, 99, 107, 110, 111, 119, 108, 101, 100, 103, 101, 41, 10],
  -- 0x07        _    #  BEL '\a' (bell)
  [48, 120, 48, 55, 9, 9, 95, 9, 35, 32, 32, 66, 69, 76, 32, 39, 92, 97, 39, 32, 40, 98, 101, 108, 108, 41, 10],
  -- 0x08        _    #  BS  '\b' (backspace)
  [48, 120, 48, 56, 9, 9, 95, 9, 35, 32, 32, 66, 83, 32, 32, 39, 92, 98, 39, 32, 40, 98, 97, 99, 107, 115, 112, 97, 99, 101, 41, 10],
  -- 0x09        _    #  HT  '\t' (horizontal tab)
  [48, 120, 48, 57, 9, 9, 95, 9, 35, 32, 32, 72, 84, 32, 32, 39, 92, 116, 39, 32, 40, 104, 111, 114, 105, 122, 111, 110, 116, 97, 108, 32, 116, 97, 98, 41, 10],
  -- 0x0a        _    #  LF  '\n' (new line)
  [48, 120, 48, 97, 9, 9, 95, 9, 35, 32, 32, 76, 70, 32, 32, 39, 92, 110, 39, 32, 40, 110, 101, 119, 32, 108, 105, 110, 101, 41, 10],
  -- 0x0b        _    #  VT  '\v' (vertical tab)
  [48, 120, 48, 98, 9, 9, 95, 9, 35, 32, 32, 86, 84, 32, 32, 39, 92, 118, 39, 32, 40, 118, 101, 114, 116, 105, 99, 97, 108, 32, 116, 97, 98, 41, 10],
  -- 0x0c        _    #  FF  '\f' (form feed)
  [48, 120, 48, 99, 9, 9, 95, 9, 35, 32, 32, 70, 70, 32, 32, 39, 92, 102, 39, 32, 40, 102, 111, 114, 109, 32, 102, 101, 101, 100, 41, 10],
  -- 0x0d        _    #  CR  '\r' (carriage ret)
  [48, 120, 48, 100, 9, 9, 95, 9, 35, 32, 32, 67, 82, 32, 32, 39, 92, 114, 39, 32, 40, 99, 97, 114, 114, 105, 97, 103, 101, 32, 114, 101, 116, 41, 10],
  -- 0x0e        _    #  SO  (shift out)
  [48, 120, 48, 101, 9, 9, 95, 9, 35, 32, 32, 83, 79, 32, 32, 40, 115, 104, 105, 102, 116, 32, 111, 117, 116, 41, 10],
  -- 0x0f        _    #  SI  (shift in)
  [48, 120, 48, 102, 9, 9, 95, 9, 35, 32, 32, 83, 73, 32, 32, 40, 115, 104, 105, 102, 116, 32, 105, 110, 41, 10],
  -- 0x10        _    #  DLE (data link escape)
  [48, 120, 49, 48, 9, 9, 95, 9, 35, 32, 32, 68, 76, 69, 32, 40, 100, 97, 116, 97, 32, 108, 105, 110, 107, 32, 101, 115, 99, 97, 112, 101, 41, 10],
  -- 0x11        _    #  DC1 (device control 1)
  [48, 120, 49, 49, 9, 9, 95, 9, 35, 32, 32, 68, 67, 49, 32, 40, 100, 101, 118, 105, 99, 101, 32, 99, 111, 110, 116, 114, 111, 108, 32, 49, 41, 10],
  -- 0x12        _    #  DC2 (device control 2)
  [48, 120, 49, 50, 9, 9, 95, 9, 35, 32, 32, 68, 67, 50, 32, 40, 100, 101, 118, 105, 99, 101, 32, 99, 111, 110, 116, 114, 111, 108, 32, 50, 41, 10],
  -- 0x13        _    #  DC3 (device control 3)
  [48, 120, 49, 51, 9, 9, 95, 9, 35, 32, 32, 68, 67, 51, 32, 40, 100, 101, 118, 105, 99, 101, 32, 99, 111, 110, 116, 114, 111, 108, 32, 51, 41, 10],
  -- 0x14        _    #  DC4 (device control 4)
  [48, 120, 49, 52, 9, 9, 95, 9, 35, 32, 32, 68, 67, 52, 32, 40, 100, 101, 118, 105, 99, 101, 32, 99, 111, 110, 116, 114, 111, 108, 32, 52, 41, 10],
  -- 0x15        _    #  NAK (negative ack.)
  [48, 120, 49, 53, 9, 9, 95, 9, 35, 32, 32, 78, 65, 75, 32, 40, 110, 101, 103, 97, 116, 105, 118, 101, 32, 97, 99, 107, 46, 41, 10],
  -- 0x16        _    #  SYN (synchronous idle)
  [48, 120, 49, 54, 9, 9, 95, 9, 35, 32, 32, 83, 89, 78, 32, 40, 115, 121, 110, 99, 104, 114, 111, 110, 111, 117, 115, 32, 105, 100, 108, 101, 41, 10],
  -- 0x17        _    #  ETB (end of trans. blk)
  [48, 120, 49, 55, 9, 9, 95, 9, 35, 32, 32, 69, 84, 66, 32, 40, 101, 110, 100, 32, 111, 102, 32, 116, 114, 97, 110, 115, 46, 32, 98, 108, 107, 41, 10],
  -- 0x18        _    #  CAN (cancel)
  [48, 120, 49, 56, 9, 9, 95, 9, 35, 32, 32, 67, 65, 78, 32, 40, 99, 97, 110, 99, 101, 108, 41, 10],
  -- 0x19        _    #  EM  (end of medium)
  [48, 120, 49, 57, 9, 9, 95, 9, 35, 32, 32, 69, 77, 32, 32, 40, 101, 110, 100, 32, 111, 102, 32, 109, 101, 100, 105, 117, 109, 41, 10],
  -- 0x1a        _    #  SUB (substitute)
  [48, 120, 49, 97, 9, 9, 95, 9, 35, 32, 32, 83, 85, 66, 32, 40, 115, 117, 98, 115, 116, 105, 116, 117, 116, 101, 41, 10],
  -- 0x1b        _    #  ESC (escape)
  [48, 120, 49, 98, 9, 9, 95, 9, 35, 32, 32, 69, 83, 67, 32, 40, 101, 115, 99, 97, 112, 101, 41, 10],
  -- 0x1c        _    #  FS  (file separator)
  [48, 120, 49, 99, 9, 9, 95, 9, 35, 32, 32, 70, 83, 32, 32, 40, 102, 105, 108, 101, 32, 115, 101, 112, 97, 114, 97, 116, 111, 114, 41, 10],
  -- 0x1d        _    #  GS  (group separator)
  [48, 120, 49, 100, 9, 9, 95, 9, 35, 32, 32, 71, 83, 32, 32, 40, 103, 114, 111, 117, 112, 32, 115, 101, 112, 97, 114, 97, 116, 111, 114, 41, 10],
  -- 0x1e        _    #  RS  (record separator)
  [48, 120, 49, 101, 9, 9, 95, 9, 35, 32, 32, 82, 83, 32, 32, 40, 114, 101, 99, 111, 114, 100, 32, 115, 101, 112, 97, 114, 97, 116, 111, 114, 41, 10],
  -- 0x1f        _    #  US  (unit separator)
  [48, 120, 49, 102, 9, 9, 95, 9, 35, 32, 32, 85, 83, 32, 32, 40, 117, 110, 105, 116, 32, 115, 101, 112, 97, 114, 97, 116, 111, 114, 41, 10],
  -- 
  [10],
  -- 0x7f        _    #  DEL
  [48, 120, 55, 102, 9, 9, 95, 9, 35, 32, 32, 68, 69, 76, 10],
  -- 
  [10],
  -- #
  [35, 10],
  -- # Chars to translate to _
  [35, 32, 67, 104, 97, 114, 115, 32, 116, 111, 32, 116, 114, 97, 110, 115, 108, 97, 116, 101, 32, 116, 111, 32, 95, 10],
  -- #
  [35, 10],
  -- 
  [10],
  -- 0x20        _    # space
  [48, 120, 50, 48, 9, 9, 95, 9, 35, 32, 115, 112, 97, 99, 101, 10],
  -- 0x21        _    # !
  [48, 120, 50, 49, 9, 9, 95, 9, 35, 32, 33, 10],
  -- 0x22        _    # "
  [48, 120, 50, 50, 9, 9, 95, 9, 35, 32, 34, 10],
  -- 0x24        _    # $
  [48, 120, 50, 52, 9, 9, 95, 9, 35, 32, 36, 10],
  -- 0x27        _    # '
  [48, 120, 50, 55, 9, 9, 95, 9, 35, 32, 39, 10],
  -- 0x2a        _    # *
  [48, 120, 50, 97, 9, 9, 95, 9, 35, 32, 42, 10],
  -- 0x2f        _    # /
  [48, 120, 50, 102, 9, 9, 95, 9, 35, 32, 47, 10],
  -- 0x3a        _    # :
  [48, 120, 51, 97, 9, 9, 95, 9, 35, 32, 58, 10],
  -- 0x3b        _    # ;
  [48, 120, 51, 98, 9, 9, 95, 9, 35, 32, 59, 10],
  -- 0x3c        _    # <
  [48, 120, 51, 99, 9, 9, 95, 9, 35, 32, 60, 10],
  -- 0x3e        _    # >
  [48, 120, 51, 101, 9, 9, 95, 9, 35, 32, 62, 10],
  -- 0x3f        _    # ?
  [48, 120, 51, 102, 9, 9, 95, 9, 35, 32, 63, 10],
  -- 0x40        _    # @
  [48, 120, 52, 48, 9, 9, 95, 9, 35, 32, 64, 10],
  -- 0x5c        _    # \
  [48, 120, 53, 99, 9, 9, 95, 9, 35, 32, 92, 10],
  -- 0x60        _    # `
  [48, 120, 54, 48, 9, 9, 95, 9, 35, 32, 96, 10],
  -- 0x7c        _    # |
  [48, 120, 55, 99, 9, 9, 95, 9, 35, 32, 124, 10],
  -- 
  [10],
  -- #
  [35, 10],
  -- # Chars to translate to -
  [35, 32, 67, 104, 97, 114, 115, 32, 116, 111, 32, 116, 114, 97, 110, 115, 108, 97, 116, 101, 32, 116, 111, 32, 45, 10],
  -- #
  [35, 10],
  -- 
  [10],
  -- 0x28        -    # (
  [48, 120, 50, 56, 9, 9, 45, 9, 35, 32, 40, 10],
  -- 0x29        -    # )
  [48, 120, 50, 57, 9, 9, 45, 9, 35, 32, 41, 10],
  -- 0x5b        -    # [
  [48, 120, 53, 98, 9, 9, 45, 9, 35, 32, 91, 10],
  -- 0x5d        -    # ]
  [48, 120, 53, 100, 9, 9, 45, 9, 35, 32, 93, 10],
  -- 0x7b        -    # {
  [48, 120, 55, 98, 9, 9, 45, 9, 35, 32, 123, 10],
  -- 0x7d        -    # }
  [48, 120, 55, 100, 9, 9, 45, 9, 35, 32, 125, 10],
  -- 
  [10],
  -- #
  [35, 10],
  -- # Other
  [35, 32, 79, 116, 104, 101, 114, 10],
  -- #
  [35, 10],
  -- 
  [10],
  -- 0x26        _and_    # &
  [48, 120, 50, 54, 9, 9, 95, 97, 110, 100, 95, 9, 35, 32, 38, 10],
  -- 
  [10],
  -- end
  [101, 110, 100, 10]]

/-- The file table/safe.tbl, lines 1-96. -/
def shipped_safe : Bytes := shipped_safe_lines.flatten

/-- The lines of table/unicode.tbl, lines 1-221. -/
def shipped_unicode_lines : List Bytes := [
  -- # This file is part of the Detox package.
  [35, 32, 84, 104, 105, 115, 32, 102, 105, 108, 101, 32, 105, 115, 32, 112, 97, 114, 116, 32, 111, 102, 32, 116, 104, 101, 32, 68, 101, 116, 111, 120, 32, 112, 97, 99, 107, 97, 103, 101, 46, 10],
  -- #
  [35, 10],
  -- # Copyright (c) Doug Harple <detox.dharple@gmail.com>
  [35, 32, 67, 111, 112, 121, 114, 105, 103, 104, 116, 32, 40, 99, 41, 32, 68, 111, 117, 103, 32, 72, 97, 114, 112, 108, 101, 32, 60, 100, 101, 116, 111, 120, 46, 100, 104, 97, 114, 112, 108, 101, 64, 103, 109, 97, 105, 108, 46, 99, 111, 109, 62, 10],
  -- #
  [35, 10],
  -- # For the full copyright and license information, please view the LICENSE
  [35, 32, 70, 111, 114, 32, 116, 104, 101, 32, 102, 117, 108, 108, 32, 99, 111, 112, 121, 114, 105, 103, 104, 116, 32, 97, 110, 100, 32, 108, 105, 99, 101, 110, 115, 101, 32, 105, 110, 102, 111, 114, 109, 97, 116, 105, 111, 110, 44, 32, 112, 108, 101, 97, 115, 101, 32, 118, 105, 101, 119, 32, 116, 104, 101, 32, 76, 73, 67, 69, 78, 83, 69, 10],
  -- # file that was distributed with this source code.
  [35, 32, 102, 105, 108, 101, 32, 116, 104, 97, 116, 32, 119, 97, 115, 32, 100, 105, 115, 116, 114, 105, 98, 117, 116, 101, 100, 32, 119, 105, 116, 104, 32, 116, 104, 105, 115, 32, 115, 111, 117, 114, 99, 101, 32, 99, 111, 100, 101, 46, 10],
  -- 
  [10],
  -- #
  [35, 10],
  -- # Special thanks to:
  [35, 32, 83, 112, 101, 99, 105, 97, 108, 32, 116, 104, 97, 110, 107, 115, 32, 116, 111, 58, 10],
  -- # - https://www.unicode.org/Public/5.2.0/ucd/UnicodeData.txt
  [35, 32, 45, 32, 104, 116, 116, 112, 115, 58, 47, 47, 119, 119, 119, 46, 117, 110, 105, 99, 111, 100, 101, 46, 111, 114, 103, 47, 80, 117, 98, 108, 105, 99, 47, 53, 46, 50, 46, 48, 47, 117, 99, 100, 47, 85, 110, 105, 99, 111, 100, 101, 68, 97, 116, 97, 46, 116, 120, 116, 10],
  -- # - https://www.unicode.org/Public/15.1.0/ucd/UnicodeData.txt
  [35, 32, 45, 32, 104, 116, 116, 112, 115, 58, 47, 47, 119, 119, 119, 46, 117, 110, 105, 99, 111, 100, 101, 46, 111, 114, 103, 47, 80, 117, 98, 108, 105, 99, 47, 49, 53, 46, 49, 46, 48, 47, 117, 99, 100, 47, 85, 110, 105, 99, 111, 100, 101, 68, 97, 116, 97, 46, 116, 120, 116, 10],
  -- # - https://metacpan.org/pod/Text::Unidecode
  [35, 32, 45, 32, 104, 116, 116, 112, 115, 58, 47, 47, 109, 101, 116, 97, 99, 112, 97, 110, 46, 111, 114, 103, 47, 112, 111, 100, 47, 84, 101, 120, 116, 58, 58, 85, 110, 105, 100, 101, 99, 111, 100, 101, 10],
  -- # - https://github.com/Behat/Transliterator
  [35, 32, 45, 32, 104, 116, 116, 112, 115, 58, 47, 47, 103, 105, 116, 104, 117, 98, 46, 99, 111, 109, 47, 66, 101, 104, 97, 116, 47, 84, 114, 97, 110, 115, 108, 105, 116, 101, 114, 97, 116, 111, 114, 10],
  -- # - https://www.unicode.org/charts/
  [35, 32, 45, 32, 104, 116, 116, 112, 115, 58, 47, 47, 119, 119, 119, 46, 117, 110, 105, 99, 111, 100, 101, 46, 111, 114, 103, 47, 99, 104, 97, 114, 116, 115, 47, 10],
  -- #
  [35, 10],
  -- 
  [10],
  -- start
  [115, 116, 97, 114, 116, 10],
  -- 
  [10],
  -- #
  [35, 10],
  -- # C0 Controls and Basic Latin
  [35, 32, 67, 48, 32, 67, 111, 110, 116, 114, 111, 108, 115, 32, 97, 110, 100, 32, 66, 97, 115, 105, 99, 32, 76, 97, 116, 105, 110, 10],
  -- #
  [35, 10],
  -- # The ASCII characters, 0x20-0x7E are here because detox should convert
  [35, 32, 84, 104, 101, 32, 65, 83, 67, 73, 73, 32, 99, 104, 97, 114, 97, 99, 116, 101, 114, 115, 44, 32, 48, 120, 50, 48, 45, 48, 120, 55, 69, 32, 97, 114, 101, 32, 104, 101, 114, 101, 32, 98, 101, 99, 97, 117, 115, 101, 32, 100, 101, 116, 111, 120, 32, 115, 104, 111, 117, 108, 100, 32, 99, 111, 110, 118, 101, 114, 116, 10],
  -- # multibyte versions of them to single-byte versions.
  [35, 32, 109, 117, 108, 116, 105, 98, 121, 116, 101, 32, 118, 101, 114, 115, 105, 111, 110, 115, 32, 111, 102, 32, 116, 104, 101, 109, 32, 116, 111, 32, 115, 105, 110, 103, 108, 101, 45, 98, 121, 116, 101, 32, 118, 101, 114, 115, 105, 111, 110, 115, 46, 10],
  -- #
  [35, 10],
  -- # For instance, the byte sequence 0xC0 0xA0 is really just 0x20 (space).
  [35, 32, 70, 111, 114, 32, 105, 110, 115, 116, 97, 110, 99, 101, 44, 32, 116, 104, 101, 32, 98, 121, 116, 101, 32, 115, 101, 113, 117, 101, 110, 99, 101, 32, 48, 120, 67, 48, 32, 48, 120, 65, 48, 32, 105, 115, 32, 114, 101, 97, 108, 108, 121, 32, 106, 117, 115, 116, 32, 48, 120, 50, 48, 32, 40, 115, 112, 97, 99, 101, 41, 46, 10],
  -- #
  [35, 10],
  -- # https://unicode.org/charts/PDF/U0000.pdf
  [35, 32, 104, 116, 116, 112, 115, 58, 47, 47, 117, 110, 105, 99, 111, 100, 101, 46, 111, 114, 103, 47, 99, 104, 97, 114, 116, 115, 47, 80, 68, 70, 47, 85, 48, 48, 48, 48, 46, 112, 100, 102, 10],
  -- #
  [35, 10],
  -- 
  [10],
  -- 0x0001        "_"    # START OF HEADING
  [48, 120, 48, 48, 48, 49, 9, 9, 34, 95, 34, 9, 35, 32, 83, 84, 65, 82, 84, 32, 79, 70, 32, 72, 69, 65, 68, 73, 78, 71, 10],
  -- 0x0002        "_"    # START OF TEXT
  [48, 120, 48, 48, 48, 50, 9, 9, 34, 95, 34, 9, 35, 32, 83, 84, 65, 82, 84, 32, 79, 70, 32, 84, 69, 88, 84, 10],
  -- 0x0003        "_"    # END OF TEXT
  [48, 120, 48, 48, 48, 51, 9, 9, 34, 95, 34, 9, 35, 32, 69, 78, 68, 32, 79, 70, 32, 84, 69, 88, 84, 10],
  -- 0x0004        "_"    # END OF TRANSMISSION
  [48, 120, 48, 48, 48, 52, 9, 9, 34, 95, 34, 9, 35, 32, 69, 78, 68, 32, 79, 70, 32, 84, 82, 65, 78, 83, 77, 73, 83, 83, 73, 79, 78, 10],
  -- 0x0005        "_"    # ENQUIRY
  [48, 120, 48, 48, 48, 53, 9, 9, 34, 95, 34, 9, 35, 32, 69, 78, 81, 85, 73, 82, 89, 10],
  -- 0x0006        "_"    # ACKNOWLEDGE
  [48, 120, 48, 48, 48, 54, 9, 9, 34, 95, 34, 9, 35, 32, 65, 67, 75, 78, 79, 87, 76, 69, 68, 71, 69, 10],
  -- 0x0007        "_"    # BELL
  [48, 120, 48, 48, 48, 55, 9, 9, 34, 95, 34, 9, 35, 32, 66, 69, 76, 76, 10],
  -- 0x0008        "_"    # BACKSPACE
  [48, 120, 48, 48, 48, 56, 9, 9, 34, 95, 34, 9, 35, 32, 66, 65, 67, 75, 83, 80, 65, 67, 69, 10],
  -- 0x0009        "_"    # CHARACTER TABULATION
  [48, 120, 48, 48, 48, 57, 9, 9, 34, 95, 34, 9, 35, 32, 67, 72, 65, 82, 65, 67, 84, 69, 82, 32, 84, 65, 66, 85, 76, 65, 84, 73, 79, 78, 10],
  -- 0x000A        "_"    # LINE FEED (LF)
  [48, 120, 48, 48, 48, 65, 9, 9, 34, 95, 34, 9, 35, 32, 76, 73, 78, 69, 32, 70, 69, 69, 68, 32, 40, 76, 70, 41, 10],
  -- 0x000B        "_"    # LINE TABULATION
  [48, 120, 48, 48, 48, 66, 9, 9, 34, 95, 34, 9, 35, 32, 76, 73, 78, 69, 32, 84, 65, 66, 85, 76, 65, 84, 73, 79, 78, 10],
  -- 0x000C        "_"    # FORM FEED (FF)
  [48, 120, 48, 48, 48, 67, 9, 9, 34, 95, 34, 9, 35, 32, 70, 79, 82, 77, 32, 70, 69, 69, 68, 32, 40, 70, 70, 41, 10],
  -- 0x000D        "_"    # CARRIAGE RETURN (CR)
  [48, 120, 48, 48, 48, 68, 9, 9, 34, 95, 34, 9, 35, 32, 67, 65, 82, 82, 73, 65, 71, 69, 32, 82, 69, 84, 85, 82, 78, 32, 40, 67, 82, 41, 10],
  -- 0x000E        "_"    # SHIFT OUT
  [48, 120, 48, 48, 48, 69, 9, 9, 34, 95, 34, 9, 35, 32, 83, 72, 73, 70, 84, 32, 79, 85, 84, 10],
  -- 0x000F        "_"    # SHIFT IN
  [48, 120, 48, 48, 48, 70, 9, 9, 34, 95, 34, 9, 35, 32, 83, 72, 73, 70, 84, 32, 73, 78, 10],
  -- 
  [10],
  -- 0x0010        "_"    # DATA LINK ESCAPE
  [48, 120, 48, 48, 49, 48, 9, 9, 34, 95, 34, 9, 35, 32, 68, 65, 84, 65, 32, 76, 73, 78, 75, 32, 69, 83, 67, 65, 80, 69, 10],
  -- 0x0011        "_"    # DEVICE CONTROL ONE
  [48, 120, 48, 48, 49, 49, 9, 9, 34, 95, 34, 9, 35, 32, 68, 69, 86, 73, 67, 69, 32, 67, 79, 78, 84, 82, 79, 76, 32, 79, 78, 69, 10],
  -- 0x0012        "_"    # DEVICE CONTROL TWO
  [48, 120, 48, 48, 49, 50, 9, 9, 34, 95, 34, 9, 35, 32, 68, 69, 86, 73, 67, 69, 32, 67, 79, 78, 84, 82, 79, 76, 32, 84, 87, 79, 10],
  -- 0x0013        "_"    # DEVICE CONTROL THREE
  [48, 120, 48, 48, 49, 51, 9, 9, 34, 95, 34, 9, 35, 32, 68, 69, 86, 73, 67, 69, 32, 67, 79, 78, 84, 82, 79, 76, 32, 84, 72, 82, 69, 69, 10],
  -- 0x0014        "_"    # DEVICE CONTROL FOUR
  [48, 120, 48, 48, 49, 52, 9, 9, 34, 95, 34, 9, 35, 32, 68, 69, 86, 73, 67, 69, 32, 67, 79, 78, 84, 82, 79, 76, 32, 70, 79, 85, 82, 10],
  -- 0x0015        "_"    # NEGATIVE ACKNOWLEDGE
  [48, 120, 48, 48, 49, 53, 9, 9, 34, 95, 34, 9, 35, 32, 78, 69, 71, 65, 84, 73, 86, 69, 32, 65, 67, 75, 78, 79, 87, 76, 69, 68, 71, 69, 10],
  -- 0x0016        "_"    # SYNCHRONOUS IDLE
  [48, 120, 48, 48, 49, 54, 9, 9, 34, 95, 34, 9, 35, 32, 83, 89, 78, 67, 72, 82, 79, 78, 79, 85, 83, 32, 73, 68, 76, 69, 10],
  -- 0x0017        "_"    # END OF TRANSMISSION BLOCK
  [48, 120, 48, 48, 49, 55, 9, 9, 34, 95, 34, 9, 35, 32, 69, 78, 68, 32, 79, 70, 32, 84, 82, 65, 78, 83, 77, 73, 83, 83, 73, 79, 78, 32, 66, 76, 79, 67, 75, 10],
  -- 0x0018        "_"    # CANCEL
  [48, 120, 48, 48, 49, 56, 9, 9, 34, 95, 34, 9, 35, 32, 67, 65, 78, 67, 69, 76, 10],
  -- 0x0019        "_"    # END OF MEDIUM
  [48, 120, 48, 48, 49, 57, 9, 9, 34, 95, 34, 9, 35, 32, 69, 78, 68, 32, 79, 70, 32, 77, 69, 68, 73, 85, 77, 10],
  -- 0x001A        "_"    # SUBSTITUTE
  [48, 120, 48, 48, 49, 65, 9, 9, 34, 95, 34, 9, 35, 32, 83, 85, 66, 83, 84, 73, 84, 85, 84, 69, 10],
  -- 0x001B        "_"    # ESCAPE
  [48, 120, 48, 48, 49, 66, 9, 9, 34, 95, 34, 9, 35, 32, 69, 83, 67, 65, 80, 69, 10],
  -- 0x001C        "_"    # INFORMATION SEPARATOR FOUR
  [48, 120, 48, 48, 49, 67, 9, 9, 34, 95, 34, 9, 35, 32, 73, 78, 70, 79, 82, 77, 65, 84, 73, 79, 78, 32, 83, 69, 80, 65, 82, 65, 84, 79, 82, 32, 70, 79, 85, 82, 10],
  -- 0x001D        "_"    # INFORMATION SEPARATOR THREE
  [48, 120, 48, 48, 49, 68, 9, 9, 34, 95, 34, 9, 35, 32, 73, 78, 70, 79, 82, 77, 65, 84, 73, 79, 78, 32, 83, 69, 80, 65, 82, 65, 84, 79, 82, 32, 84, 72, 82, 69, 69, 10],
  -- 0x001E        "_"    # INFORMATION SEPARATOR TWO
  [48, 120, 48, 48, 49, 69, 9, 9, 34, 95, 34, 9, 35, 32, 73, 78, 70, 79, 82, 77, 65, 84, 73, 79, 78, 32, 83, 69, 80, 65, 82, 65, 84, 79, 82, 32, 84, 87, 79, 10],
  -- 0x001F        "_"    # INFORMATION SEPARATOR ONE
  [48, 120, 48, 48, 49, 70, 9, 9, 34, 95, 34, 9, 35, 32, 73, 78, 70, 79, 82, 77, 65, 84, 73, 79, 78, 32, 83, 69, 80, 65, 82, 65, 84, 79, 82, 32, 79, 78, 69, 10],
  -- 
  [10],
  -- 0x0020        " "    # SPACE
  [48, 120, 48, 48, 50, 48, 9, 9, 34, 32, 34, 9, 35, 32, 83, 80, 65, 67, 69, 10],
  -- 0x0021        !    # EXCLAMATION MARK
  [48, 120, 48, 48, 50, 49, 9, 9, 33, 9, 35, 32, 69, 88, 67, 76, 65, 77, 65, 84, 73, 79, 78, 32, 77, 65, 82, 75, 10],
  -- 0x0022        '"'    # QUOTATION MARK
  [48, 120, 48, 48, 50, 50, 9, 9, 39, 34, 39, 9, 35, 32, 81, 85, 79, 84, 65, 84, 73, 79, 78, 32, 77, 65, 82, 75, 10],
  -- 0x0023        #    # NUMBER SIGN
  [48, 120, 48, 48, 50, 51, 9, 9, 35, 9, 35, 32, 78, 85, 77, 66, 69, 82, 32, 83, 73, 71, 78, 10],
  -- 0x0024        $    # DOLLAR SIGN
  [48, 120, 48, 48, 50, 52, 9, 9, 36, 9, 35, 32, 68, 79, 76, 76, 65, 82, 32, 83, 73, 71, 78, 10],
  -- 0x0025        %    # PERCENT SIGN
  [48, 120, 48, 48, 50, 53, 9, 9, 37, 9, 35, 32, 80, 69, 82, 67, 69, 78, 84, 32, 83, 73, 71, 78, 10],
  -- 0x0026        &    # AMPERSAND
  [48, 120, 48, 48, 50, 54, 9, 9, 38, 9, 35, 32, 65, 77, 80, 69, 82, 83, 65, 78, 68, 10],
  -- 0x0027        "'"    # APOSTROPHE
  [48, 120, 48, 48, 50, 55, 9, 9, 34, 39, 34, 9, 35, 32, 65, 80, 79, 83, 84, 82, 79, 80, 72, 69, 10],
  -- 0x0028        (    # LEFT PARENTHESIS
  [48, 120, 48, 48, 50, 56, 9, 9, 40, 9, 35, 32, 76, 69, 70, 84, 32, 80, 65, 82, 69, 78, 84, 72, 69, 83, 73, 83, 10],
  -- 0x0029        )    # RIGHT PARENTHESIS
  [48, 120, 48, 48, 50, 57, 9, 9, 41, 9, 35, 32, 82, 73, 71, 72, 84, 32, 80, 65, 82, 69, 78, 84, 72, 69, 83, 73, 83, 10],
  -- 0x002A        *    # ASTERISK
  [48, 120, 48, 48, 50, 65, 9, 9, 42, 9, 35, 32, 65, 83, 84, 69, 82, 73, 83, 75, 10],
  -- 0x002B        +    # PLUS SIGN
  [48, 120, 48, 48, 50, 66, 9, 9, 43, 9, 35, 32, 80, 76, 85, 83, 32, 83, 73, 71, 78, 10],
  -- 0x002C        ,    # COMMA
  [48, 120, 48, 48, 50, 67, 9, 9, 44, 9, 35, 32, 67, 79, 77, 77, 65, 10],
  -- 0x002D        -    # HYPHEN-MINUS
  [48, 120, 48, 48, 50, 68, 9, 9, 45, 9, 35, 32, 72, 89, 80, 72, 69, 78, 45, 77, 73, 78, 85, 83, 10],
  -- 0x002E        .    # FULL STOP
  [48, 120, 48, 48, 50, 69, 9, 9, 46, 9, 35, 32, 70, 85, 76, 76, 32, 83, 84, 79, 80, 10],
  -- 0x002F        /    # SOLIDUS
  [48, 120, 48, 48, 50, 70, 9, 9, 47, 9, 35, 32, 83, 79, 76, 73, 68, 85, 83, 10],
  -- 
  [10],
  -- 0x0030        0    # DIGIT ZERO
  [48, 120, 48, 48, 51, 48, 9, 9, 48, 9, 35, 32, 68, 73, 71, 73, 84, 32, 90, 69, 82, 79, 10],
  -- 0x0031        1    # DIGIT ONE
  [48, 120, 48, 48, 51, 49, 9, 9, 49, 9, 35, 32, 68, 73, 71, 73, 84, 32, 79, 78, 69, 10],
  -- 0x0032        2    # DIGIT TWO
  [48, 120, 48, 48, 51, 50, 9, 9, 50, 9, 35, 32, 68, 73, 71, 73, 84, 32, 84, 87, 79, 10],
  -- 0x0033        3    # DIGIT THREE
  [48, 120, 48, 48, 51, 51, 9, 9, 51, 9, 35, 32, 68, 73, 71, 73, 84, 32, 84, 72, 82, 69, 69, 10],
  -- 0x0034        4    # DIGIT FOUR
  [48, 120, 48, 48, 51, 52, 9, 9, 52, 9, 35, 32, 68, 73, 71, 73, 84, 32, 70, 79, 85, 82, 10],
  -- 0x0035        5    # DIGIT FIVE
  [48, 120, 48, 48, 51, 53, 9, 9, 53, 9, 35, 32, 68, 73, 71, 73, 84, 32, 70, 73, 86, 69, 10],
  -- 0x0036        6    # DIGIT SIX
  [48, 120, 48, 48, 51, 54, 9, 9, 54, 9, 35, 32, 68, 73, 71, 73, 84, 32, 83, 73, 88, 10],
  -- 0x0037        7    # DIGIT SEVEN
  [48, 120, 48, 48, 51, 55, 9, 9, 55, 9, 35, 32, 68, 73, 71, 73, 84, 32, 83, 69, 86, 69, 78, 10],
  -- 0x0038        8    # DIGIT EIGHT
  [48, 120, 48, 48, 51, 56, 9, 9, 56, 9, 35, 32, 68, 73, 71, 73, 84, 32, 69, 73, 71, 72, 84, 10],
  -- 0x0039        9    # DIGIT NINE
  [48, 120, 48, 48, 51, 57, 9, 9, 57, 9, 35, 32, 68, 73, 71, 73, 84, 32, 78, 73, 78, 69, 10],
  -- 0x003A        :    # COLON
  [48, 120, 48, 48, 51, 65, 9, 9, 58, 9, 35, 32, 67, 79, 76, 79, 78, 10],
  -- 0x003B        ;    # SEMICOLON
  [48, 120, 48, 48, 51, 66, 9, 9, 59, 9, 35, 32, 83, 69, 77, 73, 67, 79, 76, 79, 78, 10],
  -- 0x003C        <    # LESS-THAN SIGN
  [48, 120, 48, 48, 51, 67, 9, 9, 60, 9, 35, 32, 76, 69, 83, 83, 45, 84, 72, 65, 78, 32, 83, 73, 71, 78, 10],
  -- 0x003D        =    # EQUALS SIGN
  [48, 120, 48, 48, 51, 68, 9, 9, 61, 9, 35, 32, 69, 81, 85, 65, 76, 83, 32, 83, 73, 71, 78, 10],
  -- 0x003E        >    # GREATER-THAN SIGN
  [48, 120, 48, 48, 51, 69, 9, 9, 62, 9, 35, 32, 71, 82, 69, 65, 84, 69, 82, 45, 84, 72, 65, 78, 32, 83, 73, 71, 78, 10],
  -- 0x003F        ?    # QUESTION MARK
  [48, 120, 48, 48, 51, 70, 9, 9, 63, 9, 35, 32, 81, 85, 69, 83, 84, 73, 79, 78, 32, 77, 65, 82, 75, 10],
  -- 
  [10],
  -- 0x0040        @    # COMMERCIAL AT
  [48, 120, 48, 48, 52, 48, 9, 9, 64, 9, 35, 32, 67, 79, 77, 77, 69, 82, 67, 73, 65, 76, 32, 65, 84, 10],
  -- 0x0041        A    # LATIN CAPITAL LETTER A
  [48, 120, 48, 48, 52, 49, 9, 9, 65, 9, 35, 32, 76, 65, 84, 73, 78, 32, 67, 65, 80, 73, 84, 65, 76, 32, 76, 69, 84, 84, 69, 82, 32, 65, 10],
  -- 0x0042        B    # LATIN CAPITAL LETTER B
  [48, 120, 48, 48, 52, 50, 9, 9, 66, 9, 35, 32, 76, 65, 84, 73, 78, 32, 67, 65, 80, 73, 84, 65, 76, 32, 76, 69, 84, 84, 69, 82, 32, 66, 10],
  -- 0x0043        C    # LATIN CAPITAL LETTER C
  [48, 120, 48, 48, 52, 51, 9, 9, 67, 9, 35, 32, 76, 65, 84, 73, 78, 32, 67, 65, 80, 73, 84, 65, 76, 32, 76, 69, 84, 84, 69, 82, 32, 67, 10],
  -- 0x0044        D    # LATIN CAPITAL LETTER D
  [48, 120, 48, 48, 52, 52, 9, 9, 68, 9, 35, 32, 76, 65, 84, 73, 78, 32, 67, 65, 80, 73, 84, 65, 76, 32, 76, 69, 84, 84, 69, 82, 32, 68, 10],
  -- 0x0045        E    # LATIN CAPITAL LETTER E
  [48, 120, 48, 48, 52, 53, 9, 9, 69, 9, 35, 32, 76, 65, 84, 73, 78, 32, 67, 65, 80, 73, 84, 65, 76, 32, 76, 69, 84, 84, 69, 82, 32, 69, 10],
  -- 0x0046        F    # LATIN CAPITAL LETTER F
  [48, 120, 48, 48, 52, 54, 9, 9, 70, 9, 35, 32, 76, 65, 84, 73, 78, 32, 67, 65, 80, 73, 84, 65, 76, 32, 76, 69, 84, 84, 69, 82, 32, 70, 10],
  -- 0x0047        G    # LATIN CAPITAL LETTER G
  [48, 120, 48, 48, 52, 55, 9, 9, 71, 9, 35, 32, 76, 65, 84, 73, 78, 32, 67, 65, 80, 73, 84, 65, 76, 32, 76, 69, 84, 84, 69, 82, 32, 71, 10],
  -- 0x0048        H    # LATIN CAPITAL LETTER H
  [48, 120, 48, 48, 52, 56, 9, 9, 72, 9, 35, 32, 76, 65, 84, 73, 78, 32, 67, 65, 80, 73, 84, 65, 76, 32, 76, 69, 84, 84, 69, 82, 32, 72, 10],
  -- 0x0049        I    # LATIN CAPITAL LETTER I
  [48, 120, 48, 48, 52, 57, 9, 9, 73, 9, 35, 32, 76, 65, 84, 73, 78, 32, 67, 65, 80, 73, 84, 65, 76, 32, 76, 69, 84, 84, 69, 82, 32, 73, 10],
  -- 0x004A        J    # LATIN CAPITAL LETTER J
  [48, 120, 48, 48, 52, 65, 9, 9, 74, 9, 35, 32, 76, 65, 84, 73, 78, 32, 67, 65, 80, 73, 84, 65, 76, 32, 76, 69, 84, 84, 69, 82, 32, 74, 10],
  -- 0x004B        K    # LATIN CAPITAL LETTER K
  [48, 120, 48, 48, 52, 66, 9, 9, 75, 9, 35, 32, 76, 65, 84, 73, 78, 32, 67, 65, 80, 73, 84, 65, 76, 32, 76, 69, 84, 84, 69, 82, 32, 75, 10],
  -- 0x004C        L    # LATIN CAPITAL LETTER L
  [48, 120, 48, 48, 52, 67, 9, 9, 76, 9, 35, 32, 76, 65, 84, 73, 78, 32, 67, 65, 80, 73, 84, 65, 76, 32, 76, 69, 84, 84, 69, 82, 32, 76, 10],
  -- 0x004D        M    # LATIN CAPITAL LETTER M
  [48, 120, 48, 48, 52, 68, 9, 9, 77, 9, 35, 32, 76, 65, 84, 73, 78, 32, 67, 65, 80, 73, 84, 65, 76, 32, 76, 69, 84, 84, 69, 82, 32, 77, 10],
  -- 0x004E        N    # LATIN CAPITAL LETTER N
  [48, 120, 48, 48, 52, 69, 9, 9, 78, 9, 35, 32, 76, 65, 84, 73, 78, 32, 67, 65, 80, 73, 84, 65, 76, 32, 76, 69, 84, 84, 69, 82, 32, 78, 10],
  -- 0x004F        O    # LATIN CAPITAL LETTER O
  [48, 120, 48, 48, 52, 70, 9, 9, 79, 9, 35, 32, 76, 65, 84, 73, 78, 32, 67, 65, 80, 73, 84, 65, 76, 32, 76, 69, 84, 84, 69, 82, 32, 79, 10],
  -- 
  [10],
  -- 0x0050        P    # LATIN CAPITAL LETTER P
  [48, 120, 48, 48, 53, 48, 9, 9, 80, 9, 35, 32, 76, 65, 84, 73, 78, 32, 67, 65, 80, 73, 84, 65, 76, 32, 76, 69, 84, 84, 69, 82, 32, 80, 10],
  -- 0x0051        Q    # LATIN CAPITAL LETTER Q
  [48, 120, 48, 48, 53, 49, 9, 9, 81, 9, 35, 32, 76, 65, 84, 73, 78, 32, 67, 65, 80, 73, 84, 65, 76, 32, 76, 69, 84, 84, 69, 82, 32, 81, 10],
  -- 0x0052        R    # LATIN CAPITAL LETTER R
  [48, 120, 48, 48, 53, 50, 9, 9, 82, 9, 35, 32, 76, 65, 84, 73, 78, 32, 67, 65, 80, 73, 84, 65, 76, 32, 76, 69, 84, 84, 69, 82, 32, 82, 10],
  -- 0x0053        S    # LATIN CAPITAL LETTER S
  [48, 120, 48, 48, 53, 51, 9, 9, 83, 9, 35, 32, 76, 65, 84, 73, 78, 32, 67, 65, 80, 73, 84, 65, 76, 32, 76, 69, 84, 84, 69, 82, 32, 83, 10],
  -- 0x0054        T    # LATIN CAPITAL LETTER T
  [48, 120, 48, 48, 53, 52, 9, 9, 84, 9, 35, 32, 76, 65, 84, 73, 78, 32, 67, 65, 80, 73, 84, 65, 76, 32, 76, 69, 84, 84, 69, 82, 32, 84, 10],
  -- 0x0055        U    # LATIN CAPITAL LETTER U
  [48, 120, 48, 48, 53, 53, 9, 9, 85, 9, 35, 32, 76, 65, 84, 73, 78, 32, 67, 65, 80, 73, 84, 65, 76, 32, 76, 69, 84, 84, 69, 82, 32, 85, 10],
  -- 0x0056        V    # LATIN CAPITAL LETTER V
  [48, 120, 48, 48, 53, 54, 9, 9, 86, 9, 35, 32, 76, 65, 84, 73, 78, 32, 67, 65, 80, 73, 84, 65, 76, 32, 76, 69, 84, 84, 69, 82, 32, 86, 10],
  -- 0x0057        W    # LATIN CAPITAL LETTER W
  [48, 120, 48, 48, 53, 55, 9, 9, 87, 9, 35, 32, 76, 65, 84, 73, 78, 32, 67, 65, 80, 73, 84, 65, 76, 32, 76, 69, 84, 84, 69, 82, 32, 87, 10],
  -- 0x0058        X    # LATIN CAPITAL LETTER X
  [48, 120, 48, 48, 53, 56, 9, 9, 88, 9, 35, 32, 76, 65, 84, 73, 78, 32, 67, 65, 80, 73, 84, 65, 76, 32, 76, 69, 84, 84, 69, 82, 32, 88, 10],
  -- 0x0059        Y    # LATIN CAPITAL LETTER Y
  [48, 120, 48, 48, 53, 57, 9, 9, 89, 9, 35, 32, 76, 65, 84, 73, 78, 32, 67, 65, 80, 73, 84, 65, 76, 32, 76, 69, 84, 84, 69, 82, 32, 89, 10],
  -- 0x005A        Z    # LATIN CAPITAL LETTER Z
  [48, 120, 48, 48, 53, 65, 9, 9, 90, 9, 35, 32, 76, 65, 84, 73, 78, 32, 67, 65, 80, 73, 84, 65, 76, 32, 76, 69, 84, 84, 69, 82, 32, 90, 10],
  -- 0x005B        [    # LEFT SQUARE BRACKET
  [48, 120, 48, 48, 53, 66, 9, 9, 91, 9, 35, 32, 76, 69, 70, 84, 32, 83, 81, 85, 65, 82, 69, 32, 66, 82, 65, 67, 75, 69, 84, 10],
  -- 0x005C        \    # REVERSE SOLIDUS
  [48, 120, 48, 48, 53, 67, 9, 9, 92, 9, 35, 32, 82, 69, 86, 69, 82, 83, 69, 32, 83, 79, 76, 73, 68, 85, 83, 10],
  -- 0x005D        ]    # RIGHT SQUARE BRACKET
  [48, 120, 48, 48, 53, 68, 9, 9, 93, 9, 35, 32, 82, 73, 71, 72, 84, 32, 83, 81, 85, 65, 82, 69, 32, 66, 82, 65, 67, 75, 69, 84, 10],
  -- 0x005E        ^    # CIRCUMFLEX ACCENT
  [48, 120, 48, 48, 53, 69, 9, 9, 94, 9, 35, 32, 67, 73, 82, 67, 85, 77, 70, 76, 69, 88, 32, 65, 67, 67, 69, 78, 84, 10],
  -- 0x005F        _    # LOW LINE
  [48, 120, 48, 48, 53, 70, 9, 9, 95, 9, 35, 32, 76, 79, 87, 32, 76, 73, 78, 69, 10],
  -- 
  [10],
  -- 0x0060        `    # GRAVE ACCENT
  [48, 120, 48, 48, 54, 48, 9, 9, 96, 9, 35, 32, 71, 82, 65, 86, 69, 32, 65, 67, 67, 69, 78, 84, 10],
  -- 0x0061        a    # LATIN SMALL LETTER A
  [48, 120, 48, 48, 54, 49, 9, 9, 97, 9, 35, 32, 76, 65, 84, 73, 78, 32, 83, 77, 65, 76, 76, 32, 76, 69, 84, 84, 69, 82, 32, 65, 10],
  -- 0x0062        b    # LATIN SMALL LETTER B
  [48, 120, 48, 48, 54, 50, 9, 9, 98, 9, 35, 32, 76, 65, 84, 73, 78, 32, 83, 77, 65, 76, 76, 32, 76, 69, 84, 84, 69, 82, 32, 66, 10],
  -- 0x0063        c    # LATIN SMALL LETTER C
  [48, 120, 48, 48, 54, 51, 9, 9, 99, 9, 35, 32, 76, 65, 84, 73, 78, 32, 83, 77, 65, 76, 76, 32, 76, 69, 84, 84, 69, 82, 32, 67, 10],
  -- 0x0064        d    # LATIN SMALL LETTER D
  [48, 120, 48, 48, 54, 52, 9, 9, 100, 9, 35, 32, 76, 65, 84, 73, 78, 32, 83, 77, 65, 76, 76, 32, 76, 69, 84, 84, 69, 82, 32, 68, 10],
  -- 0x0065        e    # LATIN SMALL LETTER E
  [48, 120, 48, 48, 54, 53, 9, 9, 101, 9, 35, 32, 76, 65, 84, 73, 78, 32, 83, 77, 65, 76, 76, 32, 76, 69, 84, 84, 69, 82, 32, 69, 10],
  -- 0x0066        f    # LATIN SMALL LETTER F
  [48, 120, 48, 48, 54, 54, 9, 9, 102, 9, 35, 32, 76, 65, 84, 73, 78, 32, 83, 77, 65, 76, 76, 32, 76, 69, 84, 84, 69, 82, 32, 70, 10],
  -- 0x0067        g    # LATIN SMALL LETTER G
  [48, 120, 48, 48, 54, 55, 9, 9, 103, 9, 35, 32, 76, 65, 84, 73, 78, 32, 83, 77, 65, 76, 76, 32, 76, 69, 84, 84, 69, 82, 32, 71, 10],
  -- 0x0068        h    # LATIN SMALL LETTER H
  [48, 120, 48, 48, 54, 56, 9, 9, 104, 9, 35, 32, 76, 65, 84, 73, 78, 32, 83, 77, 65, 76, 76, 32, 76, 69, 84, 84, 69, 82, 32, 72, 10],
  -- 0x0069        i    # LATIN SMALL LETTER I
  [48, 120, 48, 48, 54, 57, 9, 9, 105, 9, 35, 32, 76, 65, 84, 73, 78, 32, 83, 77, 65, 76, 76, 32, 76, 69, 84, 84, 69, 82, 32, 73, 10],
  -- 0x006A        j    # LATIN SMALL LETTER J
  [48, 120, 48, 48, 54, 65, 9, 9, 106, 9, 35, 32, 76, 65, 84, 73, 78, 32, 83, 77, 65, 76, 76, 32, 76, 69, 84, 84, 69, 82, 32, 74, 10],
  -- 0x006B        k    # LATIN SMALL LETTER K
  [48, 120, 48, 48, 54, 66, 9, 9, 107, 9, 35, 32, 76, 65, 84, 73, 78, 32, 83, 77, 65, 76, 76, 32, 76, 69, 84, 84, 69, 82, 32, 75, 10],
  -- 0x006C        l    # LATIN SMALL LETTER L
  [48, 120, 48, 48, 54, 67, 9, 9, 108, 9, 35, 32, 76, 65, 84, 73, 78, 32, 83, 77, 65, 76, 76, 32, 76, 69, 84, 84, 69, 82, 32, 76, 10],
  -- 0x006D        m    # LATIN SMALL LETTER M
  [48, 120, 48, 48, 54, 68, 9, 9, 109, 9, 35, 32, 76, 65, 84, 73, 78, 32, 83, 77, 65, 76, 76, 32, 76, 69, 84, 84, 69, 82, 32, 77, 10],
  -- 0x006E        n    # LATIN SMALL LETTER N
  [48, 120, 48, 48, 54, 69, 9, 9, 110, 9, 35, 32, 76, 65, 84, 73, 78, 32, 83, 77, 65, 76, 76, 32, 76, 69, 84, 84, 69, 82, 32, 78, 10],
  -- 0x006F        o    # LATIN SMALL LETTER O
  [48, 120, 48, 48, 54, 70, 9, 9, 111, 9, 35, 32, 76, 65, 84, 73, 78, 32, 83, 77, 65, 76, 76, 32, 76, 69, 84, 84, 69, 82, 32, 79, 10],
  -- 
  [10],
  -- 0x0070        p    # LATIN SMALL LETTER P
  [48, 120, 48, 48, 55, 48, 9, 9, 112, 9, 35, 32, 76, 65, 84, 73, 78, 32, 83, 77, 65, 76, 76, 32, 76, 69, 84, 84, 69, 82, 32, 80, 10],
  -- 0x0071        q    # LATIN SMALL LETTER Q
  [48, 120, 48, 48, 55, 49, 9, 9, 113, 9, 35, 32, 76, 65, 84, 73, 78, 32, 83, 77, 65, 76, 76, 32, 76, 69, 84, 84, 69, 82, 32, 81, 10],
  -- 0x0072        r    # LATIN SMALL LETTER R
  [48, 120, 48, 48, 55, 50, 9, 9, 114, 9, 35, 32, 76, 65, 84, 73, 78, 32, 83, 77, 65, 76, 76, 32, 76, 69, 84, 84, 69, 82, 32, 82, 10],
  -- 0x0073        s    # LATIN SMALL LETTER S
  [48, 120, 48, 48, 55, 51, 9, 9, 115, 9, 35, 32, 76, 65, 84, 73, 78, 32, 83, 77, 65, 76, 76, 32, 76, 69, 84, 84, 69, 82, 32, 83, 10],
  -- 0x0074        t    # LATIN SMALL LETTER T
  [48, 120, 48, 48, 55, 52, 9, 9, 116, 9, 35, 32, 76, 65, 84, 73, 78, 32, 83, 77, 65, 76, 76, 32, 76, 69, 84, 84, 69, 82, 32, 84, 10],
  -- 0x0075        u    # LATIN SMALL LETTER U
  [48, 120, 48, 48, 55, 53, 9, 9, 117, 9, 35, 32, 76, 65, 84, 73, 78, 32, 83, 77, 65, 76, 76, 32, 76, 69, 84, 84, 69, 82, 32, 85, 10],
  -- 0x0076        v    # LATIN SMALL LETTER V
  [48, 120, 48, 48, 55, 54, 9, 9, 118, 9, 35, 32, 76, 65, 84, 73, 78, 32, 83, 77, 65, 76, 76, 32, 76, 69, 84, 84, 69, 82, 32, 86, 10],
  -- 0x0077        w    # LATIN SMALL LETTER W
  [48, 120, 48, 48, 55, 55, 9, 9, 119, 9, 35, 32, 76, 65, 84, 73, 78, 32, 83, 77, 65, 76, 76, 32, 76, 69, 84, 84, 69, 82, 32, 87, 10],
  -- 0x0078        x    # LATIN SMALL LETTER X
  [48, 120, 48, 48, 55, 56, 9, 9, 120, 9, 35, 32, 76, 65, 84, 73, 78, 32, 83, 77, 65, 76, 76, 32, 76, 69, 84, 84, 69, 82, 32, 88, 10],
  -- 0x0079        y    # LATIN SMALL LETTER Y
  [48, 120, 48, 48, 55, 57, 9, 9, 121, 9, 35, 32, 76, 65, 84, 73, 78, 32, 83, 77, 65, 76, 76, 32, 76, 69, 84, 84, 69, 82, 32, 89, 10],
  -- 0x007A        z    # LATIN SMALL LETTER Z
  [48, 120, 48, 48, 55, 65, 9, 9, 122, 9, 35, 32, 76, 65, 84, 73, 78, 32, 83, 77, 65, 76, 76, 32, 76, 69, 84, 84, 69, 82, 32, 90, 10],
  -- 0x007B        {    # LEFT CURLY BRACKET
  [48, 120, 48, 48, 55, 66, 9, 9, 123, 9, 35, 32, 76, 69, 70, 84, 32, 67, 85, 82, 76, 89, 32, 66, 82, 65, 67, 75, 69, 84, 10],
  -- 0x007C        |    # VERTICAL LINE
  [48, 120, 48, 48, 55, 67, 9, 9, 124, 9, 35, 32, 86, 69, 82, 84, 73, 67, 65, 76, 32, 76, 73, 78, 69, 10],
  -- 0x007D        }    # RIGHT CURLY BRACKET
  [48, 120, 48, 48, 55, 68, 9, 9, 125, 9, 35, 32, 82, 73, 71, 72, 84, 32, 67, 85, 82, 76, 89, 32, 66, 82, 65, 67, 75, 69, 84, 10],
  -- 0x007E        ~    # TILDE
  [48, 120, 48, 48, 55, 69, 9, 9, 126, 9, 35, 32, 84, 73, 76, 68, 69, 10],
  -- 0x007F        "_"    # DELETE
  [48, 120, 48, 48, 55, 70, 9, 9, 34, 95, 34, 9, 35, 32, 68, 69, 76, 69, 84, 69, 10],
  -- 
  [10],
  -- #
  [35, 10],
  -- # Latin 1 Supplemental - 0x0080-0x00FF
  [35, 32, 76, 97, 116, 105, 110, 32, 49, 32, 83, 117, 112, 112, 108, 101, 109, 101, 110, 116, 97, 108, 32, 45, 32, 48, 120, 48, 48, 56, 48, 45, 48, 120, 48, 48, 70, 70, 10],
  -- #
  [35, 10],
  -- # https://unicode.org/charts/PDF/U0080.pdf
  [35, 32, 104, 116, 116, 112, 115, 58, 47, 47, 117, 110, 105, 99, 111, 100, 101, 46, 111, 114, 103, 47, 99, 104, 97, 114, 116, 115, 47, 80, 68, 70, 47, 85, 48, 48, 56, 48, 46, 112, 100, 102, 10],
  -- #
  [35, 10],
  -- 
  [10],
  -- 0x00A0        " "    # NO-BREAK SPACE
  [48, 120, 48, 48, 65, 48, 9, 9, 34, 32, 34, 9, 35, 32, 78, 79, 45, 66, 82, 69, 65, 75, 32, 83, 80, 65, 67, 69, 10],
  -- 
  [10],
  -- 0x00AD        -    # SOFT HYPHEN
  [48, 120, 48, 48, 65, 68, 9, 9, 45, 9, 35, 32, 83, 79, 70, 84, 32, 72, 89, 80, 72, 69, 78, 10],
  -- 
  [10],
  -- #
  [35, 10],
  -- # General Punctuation - 0x2000-0x206F
  [35, 32, 71, 101, 110, 101, 114, 97, 108, 32, 80, 117, 110, 99, 116, 117, 97, 116, 105, 111, 110, 32, 45, 32, 48, 120, 50, 48, 48, 48, 45, 48, 120, 50, 48, 54, 70, 10],
  -- #
  [35, 10],
  -- # https://unicode.org/charts/PDF/U2000.pdf
  [35, 32, 104, 116, 116, 112, 115, 58, 47, 47, 117, 110, 105, 99, 111, 100, 101, 46, 111, 114, 103, 47, 99, 104, 97, 114, 116, 115, 47, 80, 68, 70, 47, 85, 50, 48, 48, 48, 46, 112, 100, 102, 10],
  -- #
  [35, 10],
  -- 
  [10],
  -- 0x2000        " "    # EN QUAD
  [48, 120, 50, 48, 48, 48, 9, 9, 34, 32, 34, 9, 35, 32, 69, 78, 32, 81, 85, 65, 68, 10],
  -- 0x2001        " "    # EM QUAD
  [48, 120, 50, 48, 48, 49, 9, 9, 34, 32, 34, 9, 35, 32, 69, 77, 32, 81, 85, 65, 68, 10],
  -- 0x2002        " "    # EN SPACE
  [48, 120, 50, 48, 48, 50, 9, 9, 34, 32, 34, 9, 35, 32, 69, 78, 32, 83, 80, 65, 67, 69, 10],
  -- 0x2003        " "    # EM SPACE
  [48, 120, 50, 48, 48, 51, 9, 9, 34, 32, 34, 9, 35, 32, 69, 77, 32, 83, 80, 65, 67, 69, 10],
  -- 0x2004        " "    # THREE-PER-EM SPACE
  [48, 120, 50, 48, 48, 52, 9, 9, 34, 32, 34, 9, 35, 32, 84, 72, 82, 69, 69, 45, 80, 69, 82, 45, 69, 77, 32, 83, 80, 65, 67, 69, 10],
  -- 0x2005        " "    # FOUR-PER-EM SPACE
  [48, 120, 50, 48, 48, 53, 9, 9, 34, 32, 34, 9, 35, 32, 70, 79, 85, 82, 45, 80, 69, 82, 45, 69, 77, 32, 83, 80, 65, 67, 69, 10],
  -- 0x2006        " "    # SIX-PER-EM SPACE
  [48, 120, 50, 48, 48, 54, 9, 9, 34, 32, 34, 9, 35, 32, 83, 73, 88, 45, 80, 69, 82, 45, 69, 77, 32, 83, 80, 65, 67, 69, 10],
  -- 0x2007        " "    # FIGURE SPACE
  [48, 120, 50, 48, 48, 55, 9, 9, 34, 32, 34, 9, 35, 32, 70, 73, 71, 85, 82, 69, 32, 83, 80, 65, 67, 69, 10],
  -- 0x2008        " "    # PUNCTUATION SPACE
  [48, 120, 50, 48, 48, 56, 9, 9, 34, 32, 34, 9, 35, 32, 80, 85, 78, 67, 84, 85, 65, 84, 73, 79, 78, 32, 83, 80, 65, 67, 69, 10],
  -- 0x2009        " "    # THIN SPACE
  [48, 120, 50, 48, 48, 57, 9, 9, 34, 32, 34, 9, 35, 32, 84, 72, 73, 78, 32, 83, 80, 65, 67, 69, 10],
  -- 0x200A        " "    # HAIR SPACE
  [48, 120, 50, 48, 48, 65, 9, 9, 34, 32, 34, 9, 35, 32, 72, 65, 73, 82, 32, 83, 80, 65, 67, 69, 10],
  -- 0x200B        ""    # ZERO WIDTH SPACE
  [48, 120, 50, 48, 48, 66, 9, 9, 34, 34, 9, 35, 32, 90, 69, 82, 79, 32, 87, 73, 68, 84, 72, 32, 83, 80, 65, 67, 69, 10],
  -- 0x200C        ""    # ZERO WIDTH NON-JOINER
  [48, 120, 50, 48, 48, 67, 9, 9, 34, 34, 9, 35, 32, 90, 69, 82, 79, 32, 87, 73, 68, 84, 72, 32, 78, 79, 78, 45, 74, 79, 73, 78, 69, 82, 10],
  -- 0x200D        ""    # ZERO NON-JOINER
  [48, 120, 50, 48, 48, 68, 9, 9, 34, 34, 9, 35, 32, 90, 69, 82, 79, 32, 78, 79, 78, 45, 74, 79, 73, 78, 69, 82, 10],
  -- 0x200E        ""    # LEFT-TO-RIGHT MARK
  [48, 120, 50, 48, 48, 69, 9, 9, 34, 34, 9, 35, 32, 76, 69, 70, 84, 45, 84, 79, 45, 82, 73, 71, 72, 84, 32, 77, 65, 82, 75, 10],
  -- 0x200F        ""    # RIGHT-TO-LEFT MARK
  [48, 120, 50, 48, 48, 70, 9, 9, 34, 34, 9, 35, 32, 82, 73, 71, 72, 84, 45, 84, 79, 45, 76, 69, 70, 84, 32, 77, 65, 82, 75, 10],
  -- 
  [10],
  -- 0x2010        -    # HYPHEN
  [48, 120, 50, 48, 49, 48, 9, 9, 45, 9, 35, 32, 72, 89, 80, 72, 69, 78, 10],
  -- 0x2011        -    # NON-BREAKING HYPHEN
  [48, 120, 50, 48, 49, 49, 9, 9, 45, 9, 35, 32, 78, 79, 78, 45, 66, 82, 69, 65, 75, 73, 78, 71, 32, 72, 89, 80, 72, 69, 78, 10],
  -- 0x2012        -    # FIGURE DASH
  [48, 120, 50, 48, 49, 50, 9, 9, 45, 9, 35, 32, 70, 73, 71, 85, 82, 69, 32, 68, 65, 83, 72, 10],
  -- 0x2013        -    # EN DASH
  [48, 120, 50, 48, 49, 51, 9, 9, 45, 9, 35, 32, 69, 78, 32, 68, 65, 83, 72, 10],
  -- 0x2014        -    # EM DASH
  [48, 120, 50, 48, 49, 52, 9, 9, 45, 9, 35, 32, 69, 77, 32, 68, 65, 83, 72, 10],
  -- 0x2015        -    # HORIZONTAL BAR
  [48, 120, 50, 48, 49, 53, 9, 9, 45, 9, 35, 32, 72, 79, 82, 73, 90, 79, 78, 84, 65, 76, 32, 66, 65, 82, 10],
  -- 0x2017        _    # DOUBLE LOW LINE
  [48, 120, 50, 48, 49, 55, 9, 9, 95, 9, 35, 32, 68, 79, 85, 66, 76, 69, 32, 76, 79, 87, 32, 76, 73, 78, 69, 10],
  -- 
  [10],
  -- 0x2028        " "    # LINE SEPARATOR
  [48, 120, 50, 48, 50, 56, 9, 9, 34, 32, 34, 9, 35, 32, 76, 73, 78, 69, 32, 83, 69, 80, 65, 82, 65, 84, 79, 82, 10],
  -- 0x2029        " "    # PARAGRAPH SEPARATOR
  [48, 120, 50, 48, 50, 57, 9, 9, 34, 32, 34, 9, 35, 32, 80, 65, 82, 65, 71, 82, 65, 80, 72, 32, 83, 69, 80, 65, 82, 65, 84, 79, 82, 10],
  -- 0x202A        " "    # LEFT-TO-RIGHT EMBEDDING
  [48, 120, 50, 48, 50, 65, 9, 9, 34, 32, 34, 9, 35, 32, 76, 69, 70, 84, 45, 84, 79, 45, 82, 73, 71, 72, 84, 32, 69, 77, 66, 69, 68, 68, 73, 78, 71, 10],
  -- 0x202B        " "    # RIGHT-TO-LEFT EMBEDDING
  [48, 120, 50, 48, 50, 66, 9, 9, 34, 32, 34, 9, 35, 32, 82, 73, 71, 72, 84, 45, 84, 79, 45, 76, 69, 70, 84, 32, 69, 77, 66, 69, 68, 68, 73, 78, 71, 10],
  -- 0x202C        " "    # POP DIRECTIONAL FORMATTING
  [48, 120, 50, 48, 50, 67, 9, 9, 34, 32, 34, 9, 35, 32, 80, 79, 80, 32, 68, 73, 82, 69, 67, 84, 73, 79, 78, 65, 76, 32, 70, 79, 82, 77, 65, 84, 84, 73, 78, 71, 10],
  -- 0x202D        " "    # LEFT-TO-RIGHT OVERRIDE
  [48, 120, 50, 48, 50, 68, 9, 9, 34, 32, 34, 9, 35, 32, 76, 69, 70, 84, 45, 84, 79, 45, 82, 73, 71, 72, 84, 32, 79, 86, 69, 82, 82, 73, 68, 69, 10],
  -- 0x202E        " "    # RIGHT-TO-LEFT OVERRIDE
  [48, 120, 50, 48, 50, 69, 9, 9, 34, 32, 34, 9, 35, 32, 82, 73, 71, 72, 84, 45, 84, 79, 45, 76, 69, 70, 84, 32, 79, 86, 69, 82, 82, 73, 68, 69, 10],
  -- 0x202F        " "    # NARROW NO-BREAK SPACE
  [48, 120, 50, 48, 50, 70, 9, 9, 34, 32, 34, 9, 35, 32, 78, 65, 82, 82, 79, 87, 32, 78, 79, 45, 66, 82, 69, 65, 75, 32, 83, 80, 65, 67, 69, 10],
  -- 
  [10],
  -- 0x2044        "_"    # FRACTION SLASH
  [48, 120, 50, 48, 52, 52, 9, 9, 34, 95, 34, 9, 35, 32, 70, 82, 65, 67, 84, 73, 79, 78, 32, 83, 76, 65, 83, 72, 10],
  -- 
  [10],
  -- 0x205F        " "    # MEDIUM MATHEMATICAL SPACE
  [48, 120, 50, 48, 53, 70, 9, 9, 34, 32, 34, 9, 35, 32, 77, 69, 68, 73, 85, 77, 32, 77, 65, 84, 72, 69, 77, 65, 84, 73, 67, 65, 76, 32, 83, 80, 65, 67, 69, 10],
  -- 
  [10],
  -- 0x2060        ""    # WORD JOINER
  [48, 120, 50, 48, 54, 48, 9, 9, 34, 34, 9, 35, 32, 87, 79, 82, 68, 32, 74, 79, 73, 78, 69, 82, 10],
  -- 
  [10],
  -- end
  [101, 110, 100, 10]]

/-- The file table/unicode.tbl, lines 1-221. -/
def shipped_unicode : Bytes := shipped_unicode_lines.flatten

/-- The lines of table/iso8859_1.tbl, lines 1-130. -/
def shipped_iso8859_1_lines : List Bytes := [
  -- # This file is part of the Detox package.
  [35, 32, 84, 104, 105, 115, 32, 102, 105, 108, 101, 32, 105, 115, 32, 112, 97, 114, 116, 32, 111, 102, 32, 116, 104, 101, 32, 68, 101, 116, 111, 120, 32, 112, 97, 99, 107, 97, 103, 101, 46, 10],
  -- #
  [35, 10],
  -- # Copyright (c) Doug Harple <detox.dharple@gmail.com>
  [35, 32, 67, 111, 112, 121, 114, 105, 103, 104, 116, 32, 40, 99, 41, 32, 68, 111, 117, 103, 32, 72, 97, 114, 112, 108, 101, 32, 60, 100, 101, 116, 111, 120, 46, 100, 104, 97, 114, 112, 108, 101, 64, 103, 109, 97, 105, 108, 46, 99, 111, 109, 62, 10],
  -- #
  [35, 10],
  -- # For the full copyright and license information, please view the LICENSE
  [35, 32, 70, 111, 114, 32, 116, 104, 101, 32, 102, 117, 108, 108, 32, 99, 111, 112, 121, 114, 105, 103, 104, 116, 32, 97, 110, 100, 32, 108, 105, 99, 101, 110, 115, 101, 32, 105, 110, 102, 111, 114, 109, 97, 116, 105, 111, 110, 44, 32, 112, 108, 101, 97, 115, 101, 32, 118, 105, 101, 119, 32, 116, 104, 101, 32, 76, 73, 67, 69, 78, 83, 69, 10],
  -- # file that was distributed with this source code.
  [35, 32, 102, 105, 108, 101, 32, 116, 104, 97, 116, 32, 119, 97, 115, 32, 100, 105, 115, 116, 114, 105, 98, 117, 116, 101, 100, 32, 119, 105, 116, 104, 32, 116, 104, 105, 115, 32, 115, 111, 117, 114, 99, 101, 32, 99, 111, 100, 101, 46, 10],
  -- 
  [10],
  -- #
  [35, 10],
  -- # Special thanks to: http://www.bbsinc.com/iso8859.html
  [35, 32, 83, 112, 101, 99, 105, 97, 108, 32, 116, 104, 97, 110, 107, 115, 32, 116, 111, 58, 32, 104, 116, 116, 112, 58, 47, 47, 119, 119, 119, 46, 98, 98, 115, 105, 110, 99, 46, 99, 111, 109, 47, 105, 115, 111, 56, 56, 53, 57, 46, 104, 116, 109, 108, 10],
  -- #
  [35, 10],
  -- 
  [10],
  -- #
  [35, 10],
  -- # This file transcodes upper 8-bit characters encoded in ISO-8859-1 into UTF-8.
  [35, 32, 84, 104, 105, 115, 32, 102, 105, 108, 101, 32, 116, 114, 97, 110, 115, 99, 111, 100, 101, 115, 32, 117, 112, 112, 101, 114, 32, 56, 45, 98, 105, 116, 32, 99, 104, 97, 114, 97, 99, 116, 101, 114, 115, 32, 101, 110, 99, 111, 100, 101, 100, 32, 105, 110, 32, 73, 83, 79, 45, 56, 56, 53, 57, 45, 49, 32, 105, 110, 116, 111, 32, 85, 84, 70, 45, 56, 46, 10],
  -- # It's meant to be used with the iso8859_1 filter, which selects for characters
  [35, 32, 73, 116, 39, 115, 32, 109, 101, 97, 110, 116, 32, 116, 111, 32, 98, 101, 32, 117, 115, 101, 100, 32, 119, 105, 116, 104, 32, 116, 104, 101, 32, 105, 115, 111, 56, 56, 53, 57, 95, 49, 32, 102, 105, 108, 116, 101, 114, 44, 32, 119, 104, 105, 99, 104, 32, 115, 101, 108, 101, 99, 116, 115, 32, 102, 111, 114, 32, 99, 104, 97, 114, 97, 99, 116, 101, 114, 115, 10],
  -- # between 0x80 and 0xFF.
  [35, 32, 98, 101, 116, 119, 101, 101, 110, 32, 48, 120, 56, 48, 32, 97, 110, 100, 32, 48, 120, 70, 70, 46, 10],
  -- #
  [35, 10],
  -- 
  [10],
  -- default        _
  [100, 101, 102, 97, 117, 108, 116, 9, 9, 95, 10],
  -- 
  [10],
  -- start
  [115, 116, 97, 114, 116, 10],
  -- 
  [10],
  -- #
  [35, 10],
  -- # Latin 1 Supplemental - 0x0080-0x00FF
  [35, 32, 76, 97, 116, 105, 110, 32, 49, 32, 83, 117, 112, 112, 108, 101, 109, 101, 110, 116, 97, 108, 32, 45, 32, 48, 120, 48, 48, 56, 48, 45, 48, 120, 48, 48, 70, 70, 10],
  -- #
  [35, 10],
  -- # https://unicode.org/charts/PDF/U0080.pdf
  [35, 32, 104, 116, 116, 112, 115, 58, 47, 47, 117, 110, 105, 99, 111, 100, 101, 46, 111, 114, 103, 47, 99, 104, 97, 114, 116, 115, 47, 80, 68, 70, 47, 85, 48, 48, 56, 48, 46, 112, 100, 102, 10],
  -- #
  [35, 10],
  -- 
  [10],
  -- 0x00A0        " "        # NO-BREAK SPACE
  [48, 120, 48, 48, 65, 48, 9, 9, 34, 32, 34, 9, 9, 35, 32, 78, 79, 45, 66, 82, 69, 65, 75, 32, 83, 80, 65, 67, 69, 10],
  -- 0x00A1        "\u00A1"    # INVERTED EXCLAMATION MARK
  [48, 120, 48, 48, 65, 49, 9, 9, 34, 92, 117, 48, 48, 65, 49, 34, 9, 35, 32, 73, 78, 86, 69, 82, 84, 69, 68, 32, 69, 88, 67, 76, 65, 77, 65, 84, 73, 79, 78, 32, 77, 65, 82, 75, 10],
  -- 0x00A2        "\u00A2"    # CENT SIGN
  [48, 120, 48, 48, 65, 50, 9, 9, 34, 92, 117, 48, 48, 65, 50, 34, 9, 35, 32, 67, 69, 78, 84, 32, 83, 73, 71, 78, 10],
  -- 0x00A3        "\u00A3"    # POUND SIGN
  [48, 120, 48, 48, 65, 51, 9, 9, 34, 92, 117, 48, 48, 65, 51, 34, 9, 35, 32, 80, 79, 85, 78, 68, 32, 83, 73, 71, 78, 10],
  -- 0x00A4        "\u00A4"    # CURRENCY SIGN
  [48, 120, 48, 48, 65, 52, 9, 9, 34, 92, 117, 48, 48, 65, 52, 34, 9, 35, 32, 67, 85, 82, 82, 69, 78, 67, 89, 32, 83, 73, 71, 78, 10],
  -- 0x00A5        "\u00A5"    # YEN SIGN
  [48, 120, 48, 48, 65, 53, 9, 9, 34, 92, 117, 48, 48, 65, 53, 34, 9, 35, 32, 89, 69, 78, 32, 83, 73, 71, 78, 10],
  -- 0x00A6        "\u00A6"    # BROKEN BAR
  [48, 120, 48, 48, 65, 54, 9, 9, 34, 92, 117, 48, 48, 65, 54, 34, 9, 35, 32, 66, 82, 79, 75, 69, 78, 32, 66, 65, 82, 10],
  -- 0x00A7        "\u00A7"    # SECTION SIGN
  [48, 120, 48, 48, 65, 55, 9, 9, 34, 92, 117, 48, 48, 65, 55, 34, 9, 35, 32, 83, 69, 67, 84, 73, 79, 78, 32, 83, 73, 71, 78, 10],
  -- 0x00A8        "\u00A8"    # DIAERESIS
  [48, 120, 48, 48, 65, 56, 9, 9, 34, 92, 117, 48, 48, 65, 56, 34, 9, 35, 32, 68, 73, 65, 69, 82, 69, 83, 73, 83, 10],
  -- 0x00A9        "\u00A9"    # COPYRIGHT SIGN
  [48, 120, 48, 48, 65, 57, 9, 9, 34, 92, 117, 48, 48, 65, 57, 34, 9, 35, 32, 67, 79, 80, 89, 82, 73, 71, 72, 84, 32, 83, 73, 71, 78, 10],
  -- 0x00AA        "\u00AA"    # FEMININE ORDINAL INDICATOR
  [48, 120, 48, 48, 65, 65, 9, 9, 34, 92, 117, 48, 48, 65, 65, 34, 9, 35, 32, 70, 69, 77, 73, 78, 73, 78, 69, 32, 79, 82, 68, 73, 78, 65, 76, 32, 73, 78, 68, 73, 67, 65, 84, 79, 82, 10],
  -- 0x00AB        "\u00AB"    # LEFT-POINTING DOUBLE ANGLE QUOTATION MARK
  [48, 120, 48, 48, 65, 66, 9, 9, 34, 92, 117, 48, 48, 65, 66, 34, 9, 35, 32, 76, 69, 70, 84, 45, 80, 79, 73, 78, 84, 73, 78, 71, 32, 68, 79, 85, 66, 76, 69, 32, 65, 78, 71, 76, 69, 32, 81, 85, 79, 84, 65, 84, 73, 79, 78, 32, 77, 65, 82, 75, 10],
  -- 0x00AC        "\u00AC"    # NOT SIGN
  [48, 120, 48, 48, 65, 67, 9, 9, 34, 92, 117, 48, 48, 65, 67, 34, 9, 35, 32, 78, 79, 84, 32, 83, 73, 71, 78, 10],
  -- 0x00AD        "-"        # SOFT HYPHEN
  [48, 120, 48, 48, 65, 68, 9, 9, 34, 45, 34, 9, 9, 35, 32, 83, 79, 70, 84, 32, 72, 89, 80, 72, 69, 78, 10],
  -- 0x00AE        "\u00AE"    # REGISTERED SIGN
  [48, 120, 48, 48, 65, 69, 9, 9, 34, 92, 117, 48, 48, 65, 69, 34, 9, 35, 32, 82, 69, 71, 73, 83, 84, 69, 82, 69, 68, 32, 83, 73, 71, 78, 10],
  -- 0x00AF        "\u00AF"    # MACRON
  [48, 120, 48, 48, 65, 70, 9, 9, 34, 92, 117, 48, 48, 65, 70, 34, 9, 35, 32, 77, 65, 67, 82, 79, 78, 10],
  -- 
  [10],
  -- 0x00B0        "\u00B0"    # DEGREE SIGN
  [48, 120, 48, 48, 66, 48, 9, 9, 34, 92, 117, 48, 48, 66, 48, 34, 9, 35, 32, 68, 69, 71, 82, 69, 69, 32, 83, 73, 71, 78, 10],
  -- 0x00B1        "\u00B1"    # PLUS-MINUS SIGN
  [48, 120, 48, 48, 66, 49, 9, 9, 34, 92, 117, 48, 48, 66, 49, 34, 9, 35, 32, 80, 76, 85, 83, 45, 77, 73, 78, 85, 83, 32, 83, 73, 71, 78, 10],
  -- 0x00B2        "\u00B2"    # SUPERSCRIPT TWO
  [48, 120, 48, 48, 66, 50, 9, 9, 34, 92, 117, 48, 48, 66, 50, 34, 9, 35, 32, 83, 85, 80, 69, 82, 83, 67, 82, 73, 80, 84, 32, 84, 87, 79, 10],
  -- 0x00B3        "\u00B3"    # SUPERSCRIPT THREE
  [48, 120, 48, 48, 66, 51, 9, 9, 34, 92, 117, 48, 48, 66, 51, 34, 9, 35, 32, 83, 85, 80, 69, 82, 83, 67, 82, 73, 80, 84, 32, 84, 72, 82, 69, 69, 10],
  -- 0x00B4        "\u00B4"    # ACUTE ACCENT
  [48, 120, 48, 48, 66, 52, 9, 9, 34, 92, 117, 48, 48, 66, 52, 34, 9, 35, 32, 65, 67, 85, 84, 69, 32, 65, 67, 67, 69, 78, 84, 10],
  -- 0x00B5        "\u00B5"    # MICRO SIGN
  [48, 120, 48, 48, 66, 53, 9, 9, 34, 92, 117, 48, 48, 66, 53, 34, 9, 35, 32, 77, 73, 67, 82, 79, 32, 83, 73, 71, 78, 10],
  -- 0x00B6        "\u00B6"    # PILCROW SIGN
  [48, 120, 48, 48, 66, 54, 9, 9, 34, 92, 117, 48, 48, 66, 54, 34, 9, 35, 32, 80, 73, 76, 67, 82, 79, 87, 32, 83, 73, 71, 78, 10],
  -- 0x00B7        "\u00B7"    # MIDDLE DOT
  [48, 120, 48, 48, 66, 55, 9, 9, 34, 92, 117, 48, 48, 66, 55, 34, 9, 35, 32, 77, 73, 68, 68, 76, 69, 32, 68, 79, 84, 10],
  -- 0x00B8        "\u00B8"    # CEDILLA
  [48, 120, 48, 48, 66, 56, 9, 9, 34, 92, 117, 48, 48, 66, 56, 34, 9, 35, 32, 67, 69, 68, 73, 76, 76, 65, 10],
  -- 0x00B9        "\u00B9"    # SUPERSCRIPT ONE
  [48, 120, 48, 48, 66, 57, 9, 9, 34, 92, 117, 48, 48, 66, 57, 34, 9, 35, 32, 83, 85, 80, 69, 82, 83, 67, 82, 73, 80, 84, 32, 79, 78, 69, 10],
  -- 0x00BA        "\u00BA"    # MASCULINE ORDINAL INDICATOR
  [48, 120, 48, 48, 66, 65, 9, 9, 34, 92, 117, 48, 48, 66, 65, 34, 9, 35, 32, 77, 65, 83, 67, 85, 76, 73, 78, 69, 32, 79, 82, 68, 73, 78, 65, 76, 32, 73, 78, 68, 73, 67, 65, 84, 79, 82, 10],
  -- 0x00BB        "\u00BB"    # RIGHT-POINTING DOUBLE ANGLE QUOTATION MARK
  [48, 120, 48, 48, 66, 66, 9, 9, 34, 92, 117, 48, 48, 66, 66, 34, 9, 35, 32, 82, 73, 71, 72, 84, 45, 80, 79, 73, 78, 84, 73, 78, 71, 32, 68, 79, 85, 66, 76, 69, 32, 65, 78, 71, 76, 69, 32, 81, 85, 79, 84, 65, 84, 73, 79, 78, 32, 77, 65, 82, 75, 10],
  -- 0x00BC        "\u00BC"    # VULGAR FRACTION ONE QUARTER
  [48, 120, 48, 48, 66, 67, 9, 9, 34, 92, 117, 48, 48, 66, 67, 34, 9, 35, 32, 86, 85, 76, 71, 65, 82, 32, 70, 82, 65, 67, 84, 73, 79, 78, 32, 79, 78, 69, 32, 81, 85, 65, 82, 84, 69, 82, 10],
  -- 0x00BD        "\u00BD"    # VULGAR FRACTION ONE HALF
  [48, 120, 48, 48, 66, 68, 9, 9, 34, 92, 117, 48, 48, 66, 68, 34, 9, 35, 32, 86, 85, 76, 71, 65, 82, 32, 70, 82, 65, 67, 84, 73, 79, 78, 32, 79, 78, 69, 32, 72, 65, 76, 70, 10],
  -- 0x00BE        "\u00BE"    # VULGAR FRACTION THREE QUARTERS
  [48, 120, 48, 48, 66, 69, 9, 9, 34, 92, 117, 48, 48, 66, 69, 34, 9, 35, 32, 86, 85, 76, 71, 65, 82, 32, 70, 82, 65, 67, 84, 73, 79, 78, 32, 84, 72, 82, 69, 69, 32, 81, 85, 65, 82, 84, 69, 82, 83, 10],
  -- 0x00BF        "\u00BF"    # INVERTED QUESTION MARK
  [48, 120, 48, 48, 66, 70, 9, 9, 34, 92, 117, 48, 48, 66, 70, 34, 9, 35, 32, 73, 78, 86, 69, 82, 84, 69, 68, 32, 81, 85, 69, 83, 84, 73, 79, 78, 32, 77, 65, 82, 75, 10],
  -- 
  [10],
  -- 0x00C0        "\u00C0"    # LATIN CAPITAL LETTER A WITH GRAVE
  [48, 120, 48, 48, 67, 48, 9, 9, 34, 92, 117, 48, 48, 67, 48, 34, 9, 35, 32, 76, 65, 84, 73, 78, 32, 67, 65, 80, 73, 84, 65, 76, 32, 76, 69, 84, 84, 69, 82, 32, 65, 32, 87, 73, 84, 72, 32, 71, 82, 65, 86, 69, 10],
  -- 0x00C1        "\u00C1"    # LATIN CAPITAL LETTER A WITH ACUTE
  [48, 120, 48, 48, 67, 49, 9, 9, 34, 92, 117, 48, 48, 67, 49, 34, 9, 35, 32, 76, 65, 84, 73, 78, 32, 67, 65, 80, 73, 84, 65, 76, 32, 76, 69, 84, 84, 69, 82, 32, 65, 32, 87, 73, 84, 72, 32, 65, 67, 85, 84, 69, 10],
  -- 0x00C2        "\u00C2"    # LATIN CAPITAL LETTER A WITH CIRCUMFLEX
  [48, 120, 48, 48, 67, 50, 9, 9, 34, 92, 117, 48, 48, 67, 50, 34, 9, 35, 32, 76, 65, 84, 73, 78, 32, 67, 65, 80, 73, 84, 65, 76, 32, 76, 69, 84, 84, 69, 82, 32, 65, 32, 87, 73, 84, 72, 32, 67, 73, 82, 67, 85, 77, 70, 76, 69, 88, 10],
  -- 0x00C3        "\u00C3"    # LATIN CAPITAL LETTER A WITH TILDE
  [48, 120, 48, 48, 67, 51, 9, 9, 34, 92, 117, 48, 48, 67, 51, 34, 9, 35, 32, 76, 65, 84, 73, 78, 32, 67, 65, 80, 73, 84, 65, 76, 32, 76, 69, 84, 84, 69, 82, 32, 65, 32, 87, 73, 84, 72, 32, 84, 73, 76, 68, 69, 10],
  -- 0x00C4        "\u00C4"    # LATIN CAPITAL LETTER A WITH DIAERESIS
  [48, 120, 48, 48, 67, 52, 9, 9, 34, 92, 117, 48, 48, 67, 52, 34, 9, 35, 32, 76, 65, 84, 73, 78, 32, 67, 65, 80, 73, 84, 65, 76, 32, 76, 69, 84, 84, 69, 82, 32, 65, 32, 87, 73, 84, 72, 32, 68, 73, 65, 69, 82, 69, 83, 73, 83, 10],
  -- 0x00C5        "\u00C5"    # LATIN CAPITAL LETTER A WITH RING ABOVE
  [48, 120, 48, 48, 67, 53, 9, 9, 34, 92, 117, 48, 48, 67, 53, 34, 9, 35, 32, 76, 65, 84, 73, 78, 32, 67, 65, 80, 73, 84, 65, 76, 32, 76, 69, 84, 84, 69, 82, 32, 65, 32, 87, 73, 84, 72, 32, 82, 73, 78, 71, 32, 65, 66, 79, 86, 69, 10],
  -- 0x00C6        "\u00C6"    # LATIN CAPITAL LETTER AE
  [48, 120, 48, 48, 67, 54, 9, 9, 34, 92, 117, 48, 48, 67, 54, 34, 9, 35, 32, 76, 65, 84, 73, 78, 32, 67, 65, 80, 73, 84, 65, 76, 32, 76, 69, 84, 84, 69, 82, 32, 65, 69, 10],
  -- 0x00C7        "\u00C7"    # LATIN CAPITAL LETTER C WITH CEDILLA
  [48, 120, 48, 48, 67, 55, 9, 9, 34, 92, 117, 48, 48, 67, 55, 34, 9, 35, 32, 76, 65, 84, 73, 78, 32, 67, 65, 80, 73, 84, 65, 76, 32, 76, 69, 84, 84, 69, 82, 32, 67, 32, 87, 73, 84, 72, 32, 67, 69, 68, 73, 76, 76, 65, 10],
  -- 0x00C8        "\u00C8"    # LATIN CAPITAL LETTER E WITH GRAVE
  [48, 120, 48, 48, 67, 56, 9, 9, 34, 92, 117, 48, 48, 67, 56, 34, 9, 35, 32, 76, 65, 84, 73, 78, 32, 67, 65, 80, 73, 84, 65, 76, 32, 76, 69, 84, 84, 69, 82, 32, 69, 32, 87, 73, 84, 72, 32, 71, 82, 65, 86, 69, 10],
  -- 0x00C9        "\u00C9"    # LATIN CAPITAL LETTER E WITH ACUTE
  [48, 120, 48, 48, 67, 57, 9, 9, 34, 92, 117, 48, 48, 67, 57, 34, 9, 35, 32, 76, 65, 84, 73, 78, 32, 67, 65, 80, 73, 84, 65, 76, 32, 76, 69, 84, 84, 69, 82, 32, 69, 32, 87, 73, 84, 72, 32, 65, 67, 85, 84, 69, 10],
  -- 0x00CA        "\u00CA"    # LATIN CAPITAL LETTER E WITH CIRCUMFLEX
  [48, 120, 48, 48, 67, 65, 9, 9, 34, 92, 117, 48, 48, 67, 65, 34, 9, 35, 32, 76, 65, 84, 73, 78, 32, 67, 65, 80, 73, 84, 65, 76, 32, 76, 69, 84, 84, 69, 82, 32, 69, 32, 87, 73, 84, 72, 32, 67, 73, 82, 67, 85, 77, 70, 76, 69, 88, 10],
  -- 0x00CB        "\u00CB"    # LATIN CAPITAL LETTER E WITH DIAERESIS
  [48, 120, 48, 48, 67, 66, 9, 9, 34, 92, 117, 48, 48, 67, 66, 34, 9, 35, 32, 76, 65, 84, 73, 78, 32, 67, 65, 80, 73, 84, 65, 76, 32, 76, 69, 84, 84, 69, 82, 32, 69, 32, 87, 73, 84, 72, 32, 68, 73, 65, 69, 82, 69, 83, 73, 83, 10],
  -- 0x00CC        "\u00CC"    # LATIN CAPITAL LETTER I WITH GRAVE
  [48, 120, 48, 48, 67, 67, 9, 9, 34, 92, 117, 48, 48, 67, 67, 34, 9, 35, 32, 76, 65, 84, 73, 78, 32, 67, 65, 80, 73, 84, 65, 76, 32, 76, 69, 84, 84, 69, 82, 32, 73, 32, 87, 73, 84, 72, 32, 71, 82, 65, 86, 69, 10],
  -- 0x00CD        "\u00CD"    # LATIN CAPITAL LETTER I WITH ACUTE
  [48, 120, 48, 48, 67, 68, 9, 9, 34, 92, 117, 48, 48, 67, 68, 34, 9, 35, 32, 76, 65, 84, 73, 78, 32, 67, 65, 80, 73, 84, 65, 76, 32, 76, 69, 84, 84, 69, 82, 32, 73, 32, 87, 73, 84, 72, 32, 65, 67, 85, 84, 69, 10],
  -- 0x00CE        "\u00CE"    # LATIN CAPITAL LETTER I WITH CIRCUMFLEX
  [48, 120, 48, 48, 67, 69, 9, 9, 34, 92, 117, 48, 48, 67, 69, 34, 9, 35, 32, 76, 65, 84, 73, 78, 32, 67, 65, 80, 73, 84, 65, 76, 32, 76, 69, 84, 84, 69, 82, 32, 73, 32, 87, 73, 84, 72, 32, 67, 73, 82, 67, 85, 77, 70, 76, 69, 88, 10],
  -- 0x00CF        "\u00CF"    # LATIN CAPITAL LETTER I WITH DIAERESIS
  [48, 120, 48, 48, 67, 70, 9, 9, 34, 92, 117, 48, 48, 67, 70, 34, 9, 35, 32, 76, 65, 84, 73, 78, 32, 67, 65, 80, 73, 84, 65, 76, 32, 76, 69, 84, 84, 69, 82, 32, 73, 32, 87, 73, 84, 72, 32, 68, 73, 65, 69, 82, 69, 83, 73, 83, 10],
  -- 
  [10],
  -- 0x00D0        "\u00D0"    # LATIN CAPITAL LETTER ETH (Icelandic)
  [48, 120, 48, 48, 68, 48, 9, 9, 34, 92, 117, 48, 48, 68, 48, 34, 9, 35, 32, 76, 65, 84, 73, 78, 32, 67, 65, 80, 73, 84, 65, 76, 32, 76, 69, 84, 84, 69, 82, 32, 69, 84, 72, 32, 40, 73, 99, 101, 108, 97, 110, 100, 105, 99, 41, 10],
  -- 0x00D1        "\u00D1"    # LATIN CAPITAL LETTER N WITH TILDE
  [48, 120, 48, 48, 68, 49, 9, 9, 34, 92, 117, 48, 48, 68, 49, 34, 9, 35, 32, 76, 65, 84, 73, 78, 32, 67, 65, 80, 73, 84, 65, 76, 32, 76, 69, 84, 84, 69, 82, 32, 78, 32, 87, 73, 84, 72, 32, 84, 73, 76, 68, 69, 10],
  -- 0x00D2        "\u00D2"    # LATIN CAPITAL LETTER O WITH GRAVE
  [48, 120, 48, 48, 68, 50, 9, 9, 34, 92, 117, 48, 48, 68, 50, 34, 9, 35, 32, 76, 65, 84, 73, 78, 32, 67, 65, 80, 73, 84, 65, 76, 32, 76, 69, 84, 84, 69, 82, 32, 79, 32, 87, 73, 84, 72, 32, 71, 82, 65, 86, 69, 10],
  -- 0x00D3        "\u00D3"    # LATIN CAPITAL LETTER O WITH ACUTE
  [48, 120, 48, 48, 68, 51, 9, 9, 34, 92, 117, 48, 48, 68, 51, 34, 9, 35, 32, 76, 65, 84, 73, 78, 32, 67, 65, 80, 73, 84, 65, 76, 32, 76, 69, 84, 84, 69, 82, 32, 79, 32, 87, 73, 84, 72, 32, 65, 67, 85, 84, 69, 10],
  -- 0x00D4        "\u00D4"    # LATIN CAPITAL LETTER O WITH CIRCUMFLEX
  [48, 120, 48, 48, 68, 52, 9, 9, 34, 92, 117, 48, 48, 68, 52, 34, 9, 35, 32, 76, 65, 84, 73, 78, 32, 67, 65, 80, 73, 84, 65, 76, 32, 76, 69, 84, 84, 69, 82, 32, 79, 32, 87, 73, 84, 72, 32, 67, 73, 82, 67, 85, 77, 70, 76, 69, 88, 10],
  -- 0x00D5        "\u00D5"    # LATIN CAPITAL LETTER O WITH TILDE
  [48, 120, 48, 48, 68, 53, 9, 9, 34, 92, 117, 48, 48, 68, 53, 34, 9, 35, 32, 76, 65, 84, 73, 78, 32, 67, 65, 80, 73, 84, 65, 76, 32, 76, 69, 84, 84, 69, 82, 32, 79, 32, 87, 73, 84, 72, 32, 84, 73, 76, 68, 69, 10],
  -- 0x00D6        "\u00D6"    # LATIN CAPITAL LETTER O WITH DIAERESIS
  [48, 120, 48, 48, 68, 54, 9, 9, 34, 92, 117, 48, 48, 68, 54, 34, 9, 35, 32, 76, 65, 84, 73, 78, 32, 67, 65, 80, 73, 84, 65, 76, 32, 76, 69, 84, 84, 69, 82, 32, 79, 32, 87, 73, 84, 72, 32, 68, 73, 65, 69, 82, 69, 83, 73, 83, 10],
  -- 0x00D7        "\u00D7"    # MULTIPLICATION SIGN
  [48, 120, 48, 48, 68, 55, 9, 9, 34, 92, 117, 48, 48, 68, 55, 34, 9, 35, 32, 77, 85, 76, 84, 73, 80, 76, 73, 67, 65, 84, 73, 79, 78, 32, 83, 73, 71, 78, 10],
  -- 0x00D8        "\u00D8"    # LATIN CAPITAL LETTER O WITH STROKE
  [48, 120, 48, 48, 68, 56, 9, 9, 34, 92, 117, 48, 48, 68, 56, 34, 9, 35, 32, 76, 65, 84, 73, 78, 32, 67, 65, 80, 73, 84, 65, 76, 32, 76, 69, 84, 84, 69, 82, 32, 79, 32, 87, 73, 84, 72, 32, 83, 84, 82, 79, 75, 69, 10],
  -- 0x00D9        "\u00D9"    # LATIN CAPITAL LETTER U WITH GRAVE
  [48, 120, 48, 48, 68, 57, 9, 9, 34, 92, 117, 48, 48, 68, 57, 34, 9, 35, 32, 76, 65, 84, 73, 78, 32, 67, 65, 80, 73, 84, 65, 76, 32, 76, 69, 84, 84, 69, 82, 32, 85, 32, 87, 73, 84, 72, 32, 71, 82, 65, 86, 69, 10],
  -- 0x00DA        "\u00DA"    # LATIN CAPITAL LETTER U WITH ACUTE
  [48, 120, 48, 48, 68, 65, 9, 9, 34, 92, 117, 48, 48, 68, 65, 34, 9, 35, 32, 76, 65, 84, 73, 78, 32, 67, 65, 80, 73, 84, 65, 76, 32, 76, 69, 84, 84, 69, 82, 32, 85, 32, 87, 73, 84, 72, 32, 65, 67, 85, 84, 69, 10],
  -- 0x00DB        "\u00DB"    # LATIN CAPITAL LETTER U WITH CIRCUMFLEX
  [48, 120, 48, 48, 68, 66, 9, 9, 34, 92, 117, 48, 48, 68, 66, 34, 9, 35, 32, 76, 65, 84, 73, 78, 32, 67, 65, 80, 73, 84, 65, 76, 32, 76, 69, 84, 84, 69, 82, 32, 85, 32, 87, 73, 84, 72, 32, 67, 73, 82, 67, 85, 77, 70, 76, 69, 88, 10],
  -- 0x00DC        "\u00DC"    # LATIN CAPITAL LETTER U WITH DIAERESIS
  [48, 120, 48, 48, 68, 67, 9, 9, 34, 92, 117, 48, 48, 68, 67, 34, 9, 35, 32, 76, 65, 84, 73, 78, 32, 67, 65, 80, 73, 84, 65, 76, 32, 76, 69, 84, 84, 69, 82, 32, 85, 32, 87, 73, 84, 72, 32, 68, 73, 65, 69, 82, 69, 83, 73, 83, 10],
  -- 0x00DD        "\u00DD"    # LATIN CAPITAL LETTER Y WITH ACUTE
  [48, 120, 48, 48, 68, 68, 9, 9, 34, 92, 117, 48, 48, 68, 68, 34, 9, 35, 32, 76, 65, 84, 73, 78, 32, 67, 65, 80, 73, 84, 65, 76, 32, 76, 69, 84, 84, 69, 82, 32, 89, 32, 87, 73, 84, 72, 32, 65, 67, 85, 84, 69, 10],
  -- 0x00DE        "\u00DE"    # LATIN CAPITAL LETTER THORN (Icelandic)
  [48, 120, 48, 48, 68, 69, 9, 9, 34, 92, 117, 48, 48, 68, 69, 34, 9, 35, 32, 76, 65, 84, 73, 78, 32, 67, 65, 80, 73, 84, 65, 76, 32, 76, 69, 84, 84, 69, 82, 32, 84, 72, 79, 82, 78, 32, 40, 73, 99, 101, 108, 97, 110, 100, 105, 99, 41, 10],
  -- 0x00DF        "\u00DF"    # LATIN SMALL LETTER SHARP S (German)
  [48, 120, 48, 48, 68, 70, 9, 9, 34, 92, 117, 48, 48, 68, 70, 34, 9, 35, 32, 76, 65, 84, 73, 78, 32, 83, 77, 65, 76, 76, 32, 76, 69, 84, 84, 69, 82, 32, 83, 72, 65, 82, 80, 32, 83, 32, 40, 71, 101, 114, 109, 97, 110, 41, 10],
  -- 
  [10],
  -- 0x00E0        "\u00E0"    # LATIN SMALL LETTER A WITH GRAVE
  [48, 120, 48, 48, 69, 48, 9, 9, 34, 92, 117, 48, 48, 69, 48, 34, 9, 35, 32, 76, 65, 84, 73, 78, 32, 83, 77, 65, 76, 76, 32, 76, 69, 84, 84, 69, 82, 32, 65, 32, 87, 73, 84, 72, 32, 71, 82, 65, 86, 69, 10],
  -- 0x00E1        "\u00E1"    # LATIN SMALL LETTER A WITH ACUTE
  [48, 120, 48, 48, 69, 49, 9, 9, 34, 92, 117, 48, 48, 69, 49, 34, 9, 35, 32, 76, 65, 84, 73, 78, 32, 83, 77, 65, 76, 76, 32, 76, 69, 84, 84, 69, 82, 32, 65, 32, 87, 73, 84, 72, 32, 65, 67, 85, 84, 69, 10],
  -- 0x00E2        "\u00E2"    # LATIN SMALL LETTER A WITH CIRCUMFLEX
  [48, 120, 48, 48, 69, 50, 9, 9, 34, 92, 117, 48, 48, 69, 50, 34, 9, 35, 32, 76, 65, 84, 73, 78, 32, 83, 77, 65, 76, 76, 32, 76, 69, 84, 84, 69, 82, 32, 65, 32, 87, 73, 84, 72, 32, 67, 73, 82, 67, 85, 77, 70, 76, 69, 88, 10],
  -- 0x00E3        "\u00E3"    # LATIN SMALL LETTER A WITH TILDE
  [48, 120, 48, 48, 69, 51, 9, 9, 34, 92, 117, 48, 48, 69, 51, 34, 9, 35, 32, 76, 65, 84, 73, 78, 32, 83, 77, 65, 76, 76, 32, 76, 69, 84, 84, 69, 82, 32, 65, 32, 87, 73, 84, 72, 32, 84, 73, 76, 68, 69, 10],
  -- 0x00E4        "\u00E4"    # LATIN SMALL LETTER A WITH DIAERESIS
  [48, 120, 48, 48, 69, 52, 9, 9, 34, 92, 117, 48, 48, 69, 52, 34, 9, 35, 32, 76, 65, 84, 73, 78, 32, 83, 77, 65, 76, 76, 32, 76, 69, 84, 84, 69, 82, 32, 65, 32, 87, 73, 84, 72, 32, 68, 73, 65, 69, 82, 69, 83, 73, 83, 10],
  -- 0x00E5        "\u00E5"    # LATIN SMALL LETTER A WITH RING ABOVE
  [48, 120, 48, 48, 69, 53, 9, 9, 34, 92, 117, 48, 48, 69, 53, 34, 9, 35, 32, 76, 65, 84, 73, 78, 32, 83, 77, 65, 76, 76, 32, 76, 69, 84, 84, 69, 82, 32, 65, 32, 87, 73, 84, 72, 32, 82, 73, 78, 71, 32, 65, 66, 79, 86, 69, 10],
  -- 0x00E6        "\u00E6"    # LATIN SMALL LETTER AE
  [48, 120, 48, 48, 69, 54, 9, 9, 34, 92, 117, 48, 48, 69, 54, 34, 9, 35, 32, 76, 65, 84, 73, 78, 32, 83, 77, 65, 76, 76, 32, 76, 69, 84, 84, 69, 82, 32, 65, 69, 10],
  -- 0x00E7        "\u00E7"    # LATIN SMALL LETTER C WITH CEDILLA
  [48, 120, 48, 48, 69, 55, 9, 9, 34, 92, 117, 48, 48, 69, 55, 34, 9, 35, 32, 76, 65, 84, 73, 78, 32, 83, 77, 65, 76, 76, 32, 76, 69, 84, 84, 69, 82, 32, 67, 32, 87, 73, 84, 72, 32, 67, 69, 68, 73, 76, 76, 65, 10],
  -- 0x00E8        "\u00E8"    # LATIN SMALL LETTER E WITH GRAVE
  [48, 120, 48, 48, 69, 56, 9, 9, 34, 92, 117, 48, 48, 69, 56, 34, 9, 35, 32, 76, 65, 84, 73, 78, 32, 83, 77, 65, 76, 76, 32, 76, 69, 84, 84, 69, 82, 32, 69, 32, 87, 73, 84, 72, 32, 71, 82, 65, 86, 69, 10],
  -- 0x00E9        "\u00E9"    # LATIN SMALL LETTER E WITH ACUTE
  [48, 120, 48, 48, 69, 57, 9, 9, 34, 92, 117, 48, 48, 69, 57, 34, 9, 35, 32, 76, 65, 84, 73, 78, 32, 83, 77, 65, 76, 76, 32, 76, 69, 84, 84, 69, 82, 32, 69, 32, 87, 73, 84, 72, 32, 65, 67, 85, 84, 69, 10],
  -- 0x00EA        "\u00EA"    # LATIN SMALL LETTER E WITH CIRCUMFLEX
  [48, 120, 48, 48, 69, 65, 9, 9, 34, 92, 117, 48, 48, 69, 65, 34, 9, 35, 32, 76, 65, 84, 73, 78, 32, 83, 77, 65, 76, 76, 32, 76, 69, 84, 84, 69, 82, 32, 69, 32, 87, 73, 84, 72, 32, 67, 73, 82, 67, 85, 77, 70, 76, 69, 88, 10],
  -- 0x00EB        "\u00EB"    # LATIN SMALL LETTER E WITH DIAERESIS
  [48, 120, 48, 48, 69, 66, 9, 9, 34, 92, 117, 48, 48, 69, 66, 34, 9, 35, 32, 76, 65, 84, 73, 78, 32, 83, 77, 65, 76, 76, 32, 76, 69, 84, 84, 69, 82, 32, 69, 32, 87, 73, 84, 72, 32, 68, 73, 65, 69, 82, 69, 83, 73, 83, 10],
  -- 0x00EC        "\u00EC"    # LATIN SMALL LETTER I WITH GRAVE
  [48, 120, 48, 48, 69, 67, 9, 9, 34, 92, 117, 48, 48, 69, 67, 34, 9, 35, 32, 76, 65, 84, 73, 78, 32, 83, 77, 65, 76, 76, 32, 76, 69, 84, 84, 69, 82, 32, 73, 32, 87, 73, 84, 72, 32, 71, 82, 65, 86, 69, 10],
  -- 0x00ED        "\u00ED"    # LATIN SMALL LETTER I WITH ACUTE
  [48, 120, 48, 48, 69, 68, 9, 9, 34, 92, 117, 48, 48, 69, 68, 34, 9, 35, 32, 76, 65, 84, 73, 78, 32, 83, 77, 65, 76, 76, 32, 76, 69, 84, 84, 69, 82, 32, 73, 32, 87, 73, 84, 72, 32, 65, 67, 85, 84, 69, 10],
  -- 0x00EE        "\u00EE"    # LATIN SMALL LETTER I WITH CIRCUMFLEX
  [48, 120, 48, 48, 69, 69, 9, 9, 34, 92, 117, 48, 48, 69, 69, 34, 9, 35, 32, 76, 65, 84, 73, 78, 32, 83, 77, 65, 76, 76, 32, 76, 69, 84, 84, 69, 82, 32, 73, 32, 87, 73, 84, 72, 32, 67, 73, 82, 67, 85, 77, 70, 76, 69, 88, 10],
  -- 0x00EF        "\u00EF"    # LATIN SMALL LETTER I WITH DIAERESIS
  [48, 120, 48, 48, 69, 70, 9, 9, 34, 92, 117, 48, 48, 69, 70, 34, 9, 35, 32, 76, 65, 84, 73, 78, 32, 83, 77, 65, 76, 76, 32, 76, 69, 84, 84, 69, 82, 32, 73, 32, 87, 73, 84, 72, 32, 68, 73, 65, 69, 82, 69, 83, 73, 83, 10],
  -- 
  [10],
  -- 0x00F0        "\u00F0"    # LATIN SMALL LETTER ETH (Icelandic)
  [48, 120, 48, 48, 70, 48, 9, 9, 34, 92, 117, 48, 48, 70, 48, 34, 9, 35, 32, 76, 65, 84, 73, 78, 32, 83, 77, 65, 76, 76, 32, 76, 69, 84, 84, 69, 82, 32, 69, 84, 72, 32, 40, 73, 99, 101, 108, 97, 110, 100, 105, 99, 41, 10],
  -- 0x00F1        "\u00F1"    # LATIN SMALL LETTER N WITH TILDE
  [48, 120, 48, 48, 70, 49, 9, 9, 34, 92, 117, 48, 48, 70, 49, 34, 9, 35, 32, 76, 65, 84, 73, 78, 32, 83, 77, 65, 76, 76, 32, 76, 69, 84, 84, 69, 82, 32, 78, 32, 87, 73, 84, 72, 32, 84, 73, 76, 68, 69, 10],
  -- 0x00F2        "\u00F2"    # LATIN SMALL LETTER O WITH GRAVE
  [48, 120, 48, 48, 70, 50, 9, 9, 34, 92, 117, 48, 48, 70, 50, 34, 9, 35, 32, 76, 65, 84, 73, 78, 32, 83, 77, 65, 76, 76, 32, 76, 69, 84, 84, 69, 82, 32, 79, 32, 87, 73, 84, 72, 32, 71, 82, 65, 86, 69, 10],
  -- 0x00F3        "\u00F3"    # LATIN SMALL LETTER O WITH ACUTE
  [48, 120, 48, 48, 70, 51, 9, 9, 34, 92, 117, 48, 48, 70, 51, 34, 9, 35, 32, 76, 65, 84, 73, 78, 32, 83, 77, 65, 76, 76, 32, 76, 69, 84, 84, 69, 82, 32, 79, 32, 87, 73, 84, 72, 32, 65, 67, 85, 84, 69, 10],
  -- 0x00F4        "\u00F4"    # LATIN SMALL LETTER O WITH CIRCUMFLEX
  [48, 120, 48, 48, 70, 52, 9, 9, 34, 92, 117, 48, 48, 70, 52, 34, 9, 35, 32, 76, 65, 84, 73, 78, 32, 83, 77, 65, 76, 76, 32, 76, 69, 84, 84, 69, 82, 32, 79, 32, 87, 73, 84, 72, 32, 67, 73, 82, 67, 85, 77, 70, 76, 69, 88, 10],
  -- 0x00F5        "\u00F5"    # LATIN SMALL LETTER O WITH TILDE
  [48, 120, 48, 48, 70, 53, 9, 9, 34, 92, 117, 48, 48, 70, 53, 34, 9, 35, 32, 76, 65, 84, 73, 78, 32, 83, 77, 65, 76, 76, 32, 76, 69, 84, 84, 69, 82, 32, 79, 32, 87, 73, 84, 72, 32, 84, 73, 76, 68, 69, 10],
  -- 0x00F6        "\u00F6"    # LATIN SMALL LETTER O WITH DIAERESIS
  [48, 120, 48, 48, 70, 54, 9, 9, 34, 92, 117, 48, 48, 70, 54, 34, 9, 35, 32, 76, 65, 84, 73, 78, 32, 83, 77, 65, 76, 76, 32, 76, 69, 84, 84, 69, 82, 32, 79, 32, 87, 73, 84, 72, 32, 68, 73, 65, 69, 82, 69, 83, 73, 83, 10],
  -- 0x00F7        "\u00F7"    # DIVISION SIGN
  [48, 120, 48, 48, 70, 55, 9, 9, 34, 92, 117, 48, 48, 70, 55, 34, 9, 35, 32, 68, 73, 86, 73, 83, 73, 79, 78, 32, 83, 73, 71, 78, 10],
  -- 0x00F8        "\u00F8"    # LATIN SMALL LETTER O WITH STROKE
  [48, 120, 48, 48, 70, 56, 9, 9, 34, 92, 117, 48, 48, 70, 56, 34, 9, 35, 32, 76, 65, 84, 73, 78, 32, 83, 77, 65, 76, 76, 32, 76, 69, 84, 84, 69, 82, 32, 79, 32, 87, 73, 84, 72, 32, 83, 84, 82, 79, 75, 69, 10],
  -- 0x00F9        "\u00F9"    # LATIN SMALL LETTER U WITH GRAVE
  [48, 120, 48, 48, 70, 57, 9, 9, 34, 92, 117, 48, 48, 70, 57, 34, 9, 35, 32, 76, 65, 84, 73, 78, 32, 83, 77, 65, 76, 76, 32, 76, 69, 84, 84, 69, 82, 32, 85, 32, 87, 73, 84, 72, 32, 71, 82, 65, 86, 69, 10],
  -- 0x00FA        "\u00FA"    # LATIN SMALL LETTER U WITH ACUTE
  [48, 120, 48, 48, 70, 65, 9, 9, 34, 92, 117, 48, 48, 70, 65, 34, 9, 35, 32, 76, 65, 84, 73, 78, 32, 83, 77, 65, 76, 76, 32, 76, 69, 84, 84, 69, 82, 32, 85, 32, 87, 73, 84, 72, 32, 65, 67, 85, 84, 69, 10],
  -- 0x00FB        "\u00FB"    # LATIN SMALL LETTER U WITH CIRCUMFLEX
  [48, 120, 48, 48, 70, 66, 9, 9, 34, 92, 117, 48, 48, 70, 66, 34, 9, 35, 32, 76, 65, 84, 73, 78, 32, 83, 77, 65, 76, 76, 32, 76, 69, 84, 84, 69, 82, 32, 85, 32, 87, 73, 84, 72, 32, 67, 73, 82, 67, 85, 77, 70, 76, 69, 88, 10],
  -- 0x00FC        "\u00FC"    # LATIN SMALL LETTER U WITH DIAERESIS
  [48, 120, 48, 48, 70, 67, 9, 9, 34, 92, 117, 48, 48, 70, 67, 34, 9, 35, 32, 76, 65, 84, 73, 78, 32, 83, 77, 65, 76, 76, 32, 76, 69, 84, 84, 69, 82, 32, 85, 32, 87, 73, 84, 72, 32, 68, 73, 65, 69, 82, 69, 83, 73, 83, 10],
  -- 0x00FD        "\u00FD"    # LATIN SMALL LETTER Y WITH ACUTE
  [48, 120, 48, 48, 70, 68, 9, 9, 34, 92, 117, 48, 48, 70, 68, 34, 9, 35, 32, 76, 65, 84, 73, 78, 32, 83, 77, 65, 76, 76, 32, 76, 69, 84, 84, 69, 82, 32, 89, 32, 87, 73, 84, 72, 32, 65, 67, 85, 84, 69, 10],
  -- 0x00FE        "\u00FE"    # LATIN SMALL LETTER THORN (Icelandic)
  [48, 120, 48, 48, 70, 69, 9, 9, 34, 92, 117, 48, 48, 70, 69, 34, 9, 35, 32, 76, 65, 84, 73, 78, 32, 83, 77, 65, 76, 76, 32, 76, 69, 84, 84, 69, 82, 32, 84, 72, 79, 82, 78, 32, 40, 73, 99, 101, 108, 97, 110, 100, 105, 99, 41, 10],
  -- 0x00FF        "\u00FF"    # LATIN SMALL LETTER Y WITH DIAERESIS
  [48, 120, 48, 48, 70, 70, 9, 9, 34, 92, 117, 48, 48, 70, 70, 34, 9, 35, 32, 76, 65, 84, 73, 78, 32, 83, 77, 65, 76, 76, 32, 76, 69, 84, 84, 69, 82, 32, 89, 32, 87, 73, 84, 72, 32, 68, 73, 65, 69, 82, 69, 83, 73, 83, 10],
  -- 
  [10],
  -- end
  [101, 110, 100, 10]]

/-- The file table/iso8859_1.tbl, lines 1-130. -/
def shipped_iso8859_1 : Bytes := shipped_iso8859_1_lines.flatten

/-- The lines of table/cp1252.tbl, lines 1-64. -/
def shipped_cp1252_lines : List Bytes := [
  -- # This file is part of the Detox package.
  [35, 32, 84, 104, 105, 115, 32, 102, 105, 108, 101, 32, 105, 115, 32, 112, 97, 114, 116, 32, 111, 102, 32, 116, 104, 101, 32, 68, 101, 116, 111, 120, 32, 112, 97, 99, 107, 97, 103, 101, 46, 10],
  -- #
  [35, 10],
  -- # Copyright (c) Doug Harple <detox.dharple@gmail.com>
  [35, 32, 67, 111, 112, 121, 114, 105, 103, 104, 116, 32, 40, 99, 41, 32, 68, 111, 117, 103, 32, 72, 97, 114, 112, 108, 101, 32, 60, 100, 101, 116, 111, 120, 46, 100, 104, 97, 114, 112, 108, 101, 64, 103, 109, 97, 105, 108, 46, 99, 111, 109, 62, 10],
  -- #
  [35, 10],
  -- # For the full copyright and license information, please view the LICENSE
  [35, 32, 70, 111, 114, 32, 116, 104, 101, 32, 102, 117, 108, 108, 32, 99, 111, 112, 121, 114, 105, 103, 104, 116, 32, 97, 110, 100, 32, 108, 105, 99, 101, 110, 115, 101, 32, 105, 110, 102, 111, 114, 109, 97, 116, 105, 111, 110, 44, 32, 112, 108, 101, 97, 115, 101, 32, 118, 105, 101, 119, 32, 116, 104, 101, 32, 76, 73, 67, 69, 78, 83, 69, 10],
  -- # file that was distributed with this source code.
  [35, 32, 102, 105, 108, 101, 32, 116, 104, 97, 116, 32, 119, 97, 115, 32, 100, 105, 115, 116, 114, 105, 98, 117, 116, 101, 100, 32, 119, 105, 116, 104, 32, 116, 104, 105, 115, 32, 115, 111, 117, 114, 99, 101, 32, 99, 111, 100, 101, 46, 10],
  -- 
  [10],
  -- #
  [35, 10],
  -- # This table contains some rules for transliterating Window CP-1252 characters
  [35, 32, 84, 104, 105, 115, 32, 116, 97, 98, 108, 101, 32, 99, 111, 110, 116, 97, 105, 110, 115, 32, 115, 111, 109, 101, 32, 114, 117, 108, 101, 115, 32, 102, 111, 114, 32, 116, 114, 97, 110, 115, 108, 105, 116, 101, 114, 97, 116, 105, 110, 103, 32, 87, 105, 110, 100, 111, 119, 32, 67, 80, 45, 49, 50, 53, 50, 32, 99, 104, 97, 114, 97, 99, 116, 101, 114, 115, 10],
  -- # into ASCII.
  [35, 32, 105, 110, 116, 111, 32, 65, 83, 67, 73, 73, 46, 10],
  -- #
  [35, 10],
  -- # Thanks to:
  [35, 32, 84, 104, 97, 110, 107, 115, 32, 116, 111, 58, 10],
  -- # - https://en.wikipedia.org/wiki/Windows-1252
  [35, 32, 45, 32, 104, 116, 116, 112, 115, 58, 47, 47, 101, 110, 46, 119, 105, 107, 105, 112, 101, 100, 105, 97, 46, 111, 114, 103, 47, 119, 105, 107, 105, 47, 87, 105, 110, 100, 111, 119, 115, 45, 49, 50, 53, 50, 10],
  -- #
  [35, 10],
  -- 
  [10],
  -- #
  [35, 10],
  -- # "default" is commented out because this is not intended to be run in
  [35, 32, 34, 100, 101, 102, 97, 117, 108, 116, 34, 32, 105, 115, 32, 99, 111, 109, 109, 101, 110, 116, 101, 100, 32, 111, 117, 116, 32, 98, 101, 99, 97, 117, 115, 101, 32, 116, 104, 105, 115, 32, 105, 115, 32, 110, 111, 116, 32, 105, 110, 116, 101, 110, 100, 101, 100, 32, 116, 111, 32, 98, 101, 32, 114, 117, 110, 32, 105, 110, 10],
  -- # isolation.  It should be a prefilter in front of the ISO 8859-1 filter, or,
  [35, 32, 105, 115, 111, 108, 97, 116, 105, 111, 110, 46, 32, 32, 73, 116, 32, 115, 104, 111, 117, 108, 100, 32, 98, 101, 32, 97, 32, 112, 114, 101, 102, 105, 108, 116, 101, 114, 32, 105, 110, 32, 102, 114, 111, 110, 116, 32, 111, 102, 32, 116, 104, 101, 32, 73, 83, 79, 32, 56, 56, 53, 57, 45, 49, 32, 102, 105, 108, 116, 101, 114, 44, 32, 111, 114, 44, 10],
  -- # in very rare cases, the UTF-8 one.
  [35, 32, 105, 110, 32, 118, 101, 114, 121, 32, 114, 97, 114, 101, 32, 99, 97, 115, 101, 115, 44, 32, 116, 104, 101, 32, 85, 84, 70, 45, 56, 32, 111, 110, 101, 46, 10],
  -- #
  [35, 10],
  -- 
  [10],
  -- # default
  [35, 32, 100, 101, 102, 97, 117, 108, 116, 10],
  -- 
  [10],
  -- start
  [115, 116, 97, 114, 116, 10],
  -- 
  [10],
  -- #
  [35, 10],
  -- # CP-1252 Translation - 0x0080-0x009F
  [35, 32, 67, 80, 45, 49, 50, 53, 50, 32, 84, 114, 97, 110, 115, 108, 97, 116, 105, 111, 110, 32, 45, 32, 48, 120, 48, 48, 56, 48, 45, 48, 120, 48, 48, 57, 70, 10],
  -- #
  [35, 10],
  -- 
  [10],
  -- 0x0080        "\u20AC"    # EURO SIGN
  [48, 120, 48, 48, 56, 48, 9, 9, 34, 92, 117, 50, 48, 65, 67, 34, 9, 35, 32, 69, 85, 82, 79, 32, 83, 73, 71, 78, 10],
  -- 0x0081        "-"        # undefined, or control character
  [48, 120, 48, 48, 56, 49, 9, 9, 34, 45, 34, 9, 9, 35, 32, 117, 110, 100, 101, 102, 105, 110, 101, 100, 44, 32, 111, 114, 32, 99, 111, 110, 116, 114, 111, 108, 32, 99, 104, 97, 114, 97, 99, 116, 101, 114, 10],
  -- 0x0082        "\u201A"    # SINGLE LOW-9 QUOTATION MARK
  [48, 120, 48, 48, 56, 50, 9, 9, 34, 92, 117, 50, 48, 49, 65, 34, 9, 35, 32, 83, 73, 78, 71, 76, 69, 32, 76, 79, 87, 45, 57, 32, 81, 85, 79, 84, 65, 84, 73, 79, 78, 32, 77, 65, 82, 75, 10],
  -- 0x0083        "\u0192"    # LATIN SMALL LETTER F WITH HOOK
  [48, 120, 48, 48, 56, 51, 9, 9, 34, 92, 117, 48, 49, 57, 50, 34, 9, 35, 32, 76, 65, 84, 73, 78, 32, 83, 77, 65, 76, 76, 32, 76, 69, 84, 84, 69, 82, 32, 70, 32, 87, 73, 84, 72, 32, 72, 79, 79, 75, 10],
  -- 0x0084        "\u201E"    # DOUBLE LOW-9 QUOTATION MARK
  [48, 120, 48, 48, 56, 52, 9, 9, 34, 92, 117, 50, 48, 49, 69, 34, 9, 35, 32, 68, 79, 85, 66, 76, 69, 32, 76, 79, 87, 45, 57, 32, 81, 85, 79, 84, 65, 84, 73, 79, 78, 32, 77, 65, 82, 75, 10],
  -- 0x0085        "\u2026"    # HORIZONTAL ELLIPSIS
  [48, 120, 48, 48, 56, 53, 9, 9, 34, 92, 117, 50, 48, 50, 54, 34, 9, 35, 32, 72, 79, 82, 73, 90, 79, 78, 84, 65, 76, 32, 69, 76, 76, 73, 80, 83, 73, 83, 10],
  -- 0x0086        "\u2020"    # DAGGER
  [48, 120, 48, 48, 56, 54, 9, 9, 34, 92, 117, 50, 48, 50, 48, 34, 9, 35, 32, 68, 65, 71, 71, 69, 82, 10],
  -- 0x0087        "\u2021"    # DOUBLE DAGGER
  [48, 120, 48, 48, 56, 55, 9, 9, 34, 92, 117, 50, 48, 50, 49, 34, 9, 35, 32, 68, 79, 85, 66, 76, 69, 32, 68, 65, 71, 71, 69, 82, 10],
  -- 0x0088        "\u02C6"    # MODIFIER LETTER CIRCUMFLEX ACCENT
  [48, 120, 48, 48, 56, 56, 9, 9, 34, 92, 117, 48, 50, 67, 54, 34, 9, 35, 32, 77, 79, 68, 73, 70, 73, 69, 82, 32, 76, 69, 84, 84, 69, 82, 32, 67, 73, 82, 67, 85, 77, 70, 76, 69, 88, 32, 65, 67, 67, 69, 78, 84, 10],
  -- 0x0089        "\u2030"    # PER MILLE SIGN
  [48, 120, 48, 48, 56, 57, 9, 9, 34, 92, 117, 50, 48, 51, 48, 34, 9, 35, 32, 80, 69, 82, 32, 77, 73, 76, 76, 69, 32, 83, 73, 71, 78, 10],
  -- 0x008A        "\u0160"    # LATIN CAPITAL LETTER S WITH CARON
  [48, 120, 48, 48, 56, 65, 9, 9, 34, 92, 117, 48, 49, 54, 48, 34, 9, 35, 32, 76, 65, 84, 73, 78, 32, 67, 65, 80, 73, 84, 65, 76, 32, 76, 69, 84, 84, 69, 82, 32, 83, 32, 87, 73, 84, 72, 32, 67, 65, 82, 79, 78, 10],
  -- 0x008B        "\u2039"    # SINGLE LEFT-POINTING ANGLE QUOTATION MARK
  [48, 120, 48, 48, 56, 66, 9, 9, 34, 92, 117, 50, 48, 51, 57, 34, 9, 35, 32, 83, 73, 78, 71, 76, 69, 32, 76, 69, 70, 84, 45, 80, 79, 73, 78, 84, 73, 78, 71, 32, 65, 78, 71, 76, 69, 32, 81, 85, 79, 84, 65, 84, 73, 79, 78, 32, 77, 65, 82, 75, 10],
  -- 0x008C        "\u0152"    # LATIN CAPITAL LIGATURE OE
  [48, 120, 48, 48, 56, 67, 9, 9, 34, 92, 117, 48, 49, 53, 50, 34, 9, 35, 32, 76, 65, 84, 73, 78, 32, 67, 65, 80, 73, 84, 65, 76, 32, 76, 73, 71, 65, 84, 85, 82, 69, 32, 79, 69, 10],
  -- 0x008D        "-"        # undefined, or control character
  [48, 120, 48, 48, 56, 68, 9, 9, 34, 45, 34, 9, 9, 35, 32, 117, 110, 100, 101, 102, 105, 110, 101, 100, 44, 32, 111, 114, 32, 99, 111, 110, 116, 114, 111, 108, 32, 99, 104, 97, 114, 97, 99, 116, 101, 114, 10],
  -- 0x008E        "\u017D"    # LATIN CAPITAL LETTER Z WITH CARON
  [48, 120, 48, 48, 56, 69, 9, 9, 34, 92, 117, 48, 49, 55, 68, 34, 9, 35, 32, 76, 65, 84, 73, 78, 32, 67, 65, 80, 73, 84, 65, 76, 32, 76, 69, 84, 84, 69, 82, 32, 90, 32, 87, 73, 84, 72, 32, 67, 65, 82, 79, 78, 10],
  -- 0x008F        "-"        # undefined, or control character
  [48, 120, 48, 48, 56, 70, 9, 9, 34, 45, 34, 9, 9, 35, 32, 117, 110, 100, 101, 102, 105, 110, 101, 100, 44, 32, 111, 114, 32, 99, 111, 110, 116, 114, 111, 108, 32, 99, 104, 97, 114, 97, 99, 116, 101, 114, 10],
  -- 
  [10],
  -- 0x0090        "-"        # undefined, or control character
  [48, 120, 48, 48, 57, 48, 9, 9, 34, 45, 34, 9, 9, 35, 32, 117, 110, 100, 101, 102, 105, 110, 101, 100, 44, 32, 111, 114, 32, 99, 111, 110, 116, 114, 111, 108, 32, 99, 104, 97, 114, 97, 99, 116, 101, 114, 10],
  -- 0x0091        "\u2018"    # LEFT SINGLE QUOTATION MARK
  [48, 120, 48, 48, 57, 49, 9, 9, 34, 92, 117, 50, 48, 49, 56, 34, 9, 35, 32, 76, 69, 70, 84, 32, 83, 73, 78, 71, 76, 69, 32, 81, 85, 79, 84, 65, 84, 73, 79, 78, 32, 77, 65, 82, 75, 10],
  -- 0x0092        "\u2019"    # RIGHT SINGLE QUOTATION MARK
  [48, 120, 48, 48, 57, 50, 9, 9, 34, 92, 117, 50, 48, 49, 57, 34, 9, 35, 32, 82, 73, 71, 72, 84, 32, 83, 73, 78, 71, 76, 69, 32, 81, 85, 79, 84, 65, 84, 73, 79, 78, 32, 77, 65, 82, 75, 10],
  -- 0x0093        "\u201C"    # LEFT DOUBLE QUOTATION MARK
  [48, 120, 48, 48, 57, 51, 9, 9, 34, 92, 117, 50, 48, 49, 67, 34, 9, 35, 32, 76, 69, 70, 84, 32, 68, 79, 85, 66, 76, 69, 32, 81, 85, 79, 84, 65, 84, 73, 79, 78, 32, 77, 65, 82, 75, 10],
  -- 0x0094        "\u201D"    # RIGHT DOUBLE QUOTATION MARK
  [48, 120, 48, 48, 57, 52, 9, 9, 34, 92, 117, 50, 48, 49, 68, 34, 9, 35, 32, 82, 73, 71, 72, 84, 32, 68, 79, 85, 66, 76, 69, 32, 81, 85, 79, 84, 65, 84, 73, 79, 78, 32, 77, 65, 82, 75, 10],
  -- 0x0095        "\u2022"    # BULLET
  [48, 120, 48, 48, 57, 53, 9, 9, 34, 92, 117, 50, 48, 50, 50, 34, 9, 35, 32, 66, 85, 76, 76, 69, 84, 10],
  -- 0x0096        "\u2013"    # EN DASH
  [48, 120, 48, 48, 57, 54, 9, 9, 34, 92, 117, 50, 48, 49, 51, 34, 9, 35, 32, 69, 78, 32, 68, 65, 83, 72, 10],
  -- 0x0097        "\u2014"    # EM DASH
  [48, 120, 48, 48, 57, 55, 9, 9, 34, 92, 117, 50, 48, 49, 52, 34, 9, 35, 32, 69, 77, 32, 68, 65, 83, 72, 10],
  -- 0x0098        "\u02DC"    # SMALL TILDE
  [48, 120, 48, 48, 57, 56, 9, 9, 34, 92, 117, 48, 50, 68, 67, 34, 9, 35, 32, 83, 77, 65, 76, 76, 32, 84, 73, 76, 68, 69, 10],
  -- 0x0099        "\u2122"    # TRADE MARK SIGN
  [48, 120, 48, 48, 57, 57, 9, 9, 34, 92, 117, 50, 49, 50, 50, 34, 9, 35, 32, 84, 82, 65, 68, 69, 32, 77, 65, 82, 75, 32, 83, 73, 71, 78, 10],
  -- 0x009A        "\u0161"    # LATIN SMALL LETTER S WITH CARON
  [48, 120, 48, 48, 57, 65, 9, 9, 34, 92, 117, 48, 49, 54, 49, 34, 9, 35, 32, 76, 65, 84, 73, 78, 32, 83, 77, 65, 76, 76, 32, 76, 69, 84, 84, 69, 82, 32, 83, 32, 87, 73, 84, 72, 32, 67, 65, 82, 79, 78, 10],
  -- 0x009B        "\u203A"    # SINGLE RIGHT-POINTING ANGLE QUOTATION MARK
  [48, 120, 48, 48, 57, 66, 9, 9, 34, 92, 117, 50, 48, 51, 65, 34, 9, 35, 32, 83, 73, 78, 71, 76, 69, 32, 82, 73, 71, 72, 84, 45, 80, 79, 73, 78, 84, 73, 78, 71, 32, 65, 78, 71, 76, 69, 32, 81, 85, 79, 84, 65, 84, 73, 79, 78, 32, 77, 65, 82, 75, 10],
  -- 0x009C        "\u0153"    # LATIN SMALL LIGATURE OE
  [48, 120, 48, 48, 57, 67, 9, 9, 34, 92, 117, 48, 49, 53, 51, 34, 9, 35, 32, 76, 65, 84, 73, 78, 32, 83, 77, 65, 76, 76, 32, 76, 73, 71, 65, 84, 85, 82, 69, 32, 79, 69, 10],
  -- 0x009D        "-"        # undefined, or control character
  [48, 120, 48, 48, 57, 68, 9, 9, 34, 45, 34, 9, 9, 35, 32, 117, 110, 100, 101, 102, 105, 110, 101, 100, 44, 32, 111, 114, 32, 99, 111, 110, 116, 114, 111, 108, 32, 99, 104, 97, 114, 97, 99, 116, 101, 114, 10],
  -- 0x009E        "\u017E"    # LATIN SMALL LETTER Z WITH CARON
  [48, 120, 48, 48, 57, 69, 9, 9, 34, 92, 117, 48, 49, 55, 69, 34, 9, 35, 32, 76, 65, 84, 73, 78, 32, 83, 77, 65, 76, 76, 32, 76, 69, 84, 84, 69, 82, 32, 90, 32, 87, 73, 84, 72, 32, 67, 65, 82, 79, 78, 10],
  -- 0x009F        "\u0178"    # LATIN CAPITAL LETTER Y WITH DIAERESIS
  [48, 120, 48, 48, 57, 70, 9, 9, 34, 92, 117, 48, 49, 55, 56, 34, 9, 35, 32, 76, 65, 84, 73, 78, 32, 67, 65, 80, 73, 84, 65, 76, 32, 76, 69, 84, 84, 69, 82, 32, 89, 32, 87, 73, 84, 72, 32, 68, 73, 65, 69, 82, 69, 83, 73, 83, 10],
  -- 
  [10],
  -- end
  [101, 110, 100, 10]]

/-- The file table/cp1252.tbl, lines 1-64. -/
def shipped_cp1252 : Bytes := shipped_cp1252_lines.flatten

end Detox
