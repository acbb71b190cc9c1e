import Verif.Model.Base

/-!
# The translation tables shipped with detox — `/repo/table/*.tbl`

Generated, byte for byte, from the files (the text of each line is repeated in a comment).
-/

set_option autoImplicit false

namespace Detox

/-- The lines of table/c_escape.tbl, lines 1-57. -/
def shipped_c_escape_lines : List Bytes := [
  -- # This file is part of the Detox package.
  [35, 32, 84, 104, 105, 115, 32, 102, 105, 108, 101, 32, 105, 115, 32, 112, 97, 114, 116, 32, 111, 102, 32, 116, 104, 101, 32, 68, 101, 116, 111, 120, 32, 112, 97, 99, 107, 97, 103, 101, 46, 10],
  -- #
  [35, 10],
  -- # Copyright (c) Doug Harple <detox.dharple@gmail.com>
  [35, 32, 67, 111, 112, 121, 114, 105, 103, 104, 116, 32, 40, 99, 41, 32, 68, 111, 117, 103, 32, 72, 97, 114, 112, 108, 101, 32, 60, 100, 101, 116, 111, 120, 46, 100, 104, 97, 114, 112, 108, 101, 64, 103, 109, 97, 105, 108, 46, 99, 111, 109, 62, 10],
  -- #
  [35, 10],
  -- # For the full copyright and license information, please view the LICENSE
  [35, 32, 70, 111, 114, 32, 116, 104, 101, 32, 102, 117, 108, 108, 32, 99, 111, 112, 121, 114, 105, 103, 104, 116, 32, 97, 110, 100, 32, 108, 105, 99, 101, 110, 115, 101, 32, 105, 110, 102, 111, 114, 109, 97, 116, 105, 111, 110, 44, 32, 112, 108, 101, 97, 115, 101, 32, 118, 105, 101, 119, 32, 116, 104, 101, 32, 76, 73, 67, 69, 78, 83, 69, 10],
  -- # file that was distributed with this source code.
  [35, 32, 102, 105, 108, 101, 32, 116, 104, 97, 116, 32, 119, 97, 115, 32, 100, 105, 115, 116, 114, 105, 98, 117, 116, 101, 100, 32, 119, 105, 116, 104, 32, 116, 104, 105, 115, 32, 115, 111, 117, 114, 99, 101, 32, 99, 111, 100, 101, 46, 10],
  -- 
  [10],
  -- #
  [35, 10],
  -- # This file holds the escape sequences needed to escape all characters between
  [35, 32, 84, 104, 105, 115, 32, 102, 105, 108, 101, 32, 104, 111, 108, 100, 115, 32, 116, 104, 101, 32, 101, 115, 99, 97, 112, 101, 32, 115, 101, 113, 117, 101, 110, 99, 101, 115, 32, 110, 101, 101, 100, 101, 100, 32, 116, 111, 32, 101, 115, 99, 97, 112, 101, 32, 97, 108, 108, 32, 99, 104, 97, 114, 97, 99, 116, 101, 114, 115, 32, 98, 101, 116, 119, 101, 101, 110, 10],
  -- # 0x01 and 0x7F.
  [35, 32, 48, 120, 48, 49, 32, 97, 110, 100, 32, 48, 120, 55, 70, 46, 10],
  -- #
  [35, 10],
  -- 
  [10],
  -- start
  [115, 116, 97, 114, 116, 10],
  -- 
  [10],
  -- 0x01        \x01    #  SOH (start of heading)
  [48, 120, 48, 49, 9, 9, 92, 120, 48, 49, 9, 35, 32, 32, 83, 79, 72, 32, 40, 115, 116, 97, 114, 116, 32, 111, 102, 32, 104, 101, 97, 100, 105, 110, 103, 41, 10],
  -- 0x02        \x02    #  STX (start of text)
  [48, 120, 48, 50, 9, 9, 92, 120, 48, 50, 9, 35, 32, 32, 83, 84, 88, 32, 40, 115, 116, 97, 114, 116, 32, 111, 102, 32, 116, 101, 120, 116, 41, 10],
  -- 0x03        \x03    #  ETX (end of text)
  [48, 120, 48, 51, 9, 9, 92, 120, 48, 51, 9, 35, 32, 32, 69, 84, 88, 32, 40, 101, 110, 100, 32, 111, 102, 32, 116, 101, 120, 116, 41, 10],
  -- 0x04        \x04    #  EOT (end of transmission)
  [48, 120, 48, 52, 9, 9, 92, 120, 48, 52, 9, 35, 32, 32, 69, 79, 84, 32, 40, 101, 110, 100, 32, 111, 102, 32, 116, 114, 97, 110, 115, 109, 105, 115, 115, 105, 111, 110, 41, 10],
  -- 0x05        \x05    #  ENQ (enquiry)
  [48, 120, 48, 53, 9, 9, 92, 120, 48, 53, 9, 35, 32, 32, 69, 78, 81, 32, 40, 101, 110, 113, 117, 105, 114, 121, 41, 10],
  -- 0x06        \x06    #  ACK (acknowledge)
  [48, 120, 48, 54, 9, 9, 92, 120, 48, 54, 9, 35, 32, 32, 65, 67, 75, 32, 40, 97, 99, 107, 110, 111, 119, 108, 101, 100, 103, 101, 41, 10],
  -- 0x07        \a    #  BEL '\a' (bell)
  [48, 120, 48, 55, 9, 9, 92, 97, 9, 35, 32, 32, 66, 69, 76, 32, 39, 92, 97, 39, 32, 40, 98, 101, 108, 108, 41, 10],
  -- 0x08        \b    #  BS  '\b' (backspace)
  [48, 120, 48, 56, 9, 9, 92, 98, 9, 35, 32, 32, 66, 83, 32, 32, 39, 92, 98, 39, 32, 40, 98, 97, 99, 107, 115, 112, 97, 99, 101, 41, 10],
  -- 0x09        \t    #  HT  '\t' (horizontal tab)
  [48, 120, 48, 57, 9, 9, 92, 116, 9, 35, 32, 32, 72, 84, 32, 32, 39, 92, 116, 39, 32, 40, 104, 111, 114, 105, 122, 111, 110, 116, 97, 108, 32, 116, 97, 98, 41, 10],
  -- 0x0a        \n    #  LF  '\n' (new line)
  [48, 120, 48, 97, 9, 9, 92, 110, 9, 35, 32, 32, 76, 70, 32, 32, 39, 92, 110, 39, 32, 40, 110, 101, 119, 32, 108, 105, 110, 101, 41, 10],
  -- 0x0b        \v    #  VT  '\v' (vertical tab)
  [48, 120, 48, 98, 9, 9, 92, 118, 9, 35, 32, 32, 86, 84, 32, 32, 39, 92, 118, 39, 32, 40, 118, 101, 114, 116, 105, 99, 97, 108, 32, 116, 97, 98, 41, 10],
  -- 0x0c        \f    #  FF  '\f' (form feed)
  [48, 120, 48, 99, 9, 9, 92, 102, 9, 35, 32, 32, 70, 70, 32, 32, 39, 92, 102, 39, 32, 40, 102, 111, 114, 109, 32, 102, 101, 101, 100, 41, 10],
  -- 0x0d        \r    #  CR  '\r' (carriage ret)
  [48, 120, 48, 100, 9, 9, 92, 114, 9, 35, 32, 32, 67, 82, 32, 32, 39, 92, 114, 39, 32, 40, 99, 97, 114, 114, 105, 97, 103, 101, 32, 114, 101, 116, 41, 10],
  -- 0x0e        \x0e    #  SO  (shift out)
  [48, 120, 48, 101, 9, 9, 92, 120, 48, 101, 9, 35, 32, 32, 83, 79, 32, 32, 40, 115, 104, 105, 102, 116, 32, 111, 117, 116, 41, 10],
  -- 0x0f        \x0f    #  SI  (shift in)
  [48, 120, 48, 102, 9, 9, 92, 120, 48, 102, 9, 35, 32, 32, 83, 73, 32, 32, 40, 115, 104, 105, 102, 116, 32, 105, 110, 41, 10],
  -- 0x10        \x10    #  DLE (data link escape)
  [48, 120, 49, 48, 9, 9, 92, 120, 49, 48, 9, 35, 32, 32, 68, 76, 69, 32, 40, 100, 97, 116, 97, 32, 108, 105, 110, 107, 32, 101, 115, 99, 97, 112, 101, 41, 10],
  -- 0x11        \x11    #  DC1 (device control 1)
  [48, 120, 49, 49, 9, 9, 92, 120, 49, 49, 9, 35, 32, 32, 68, 67, 49, 32, 40, 100, 101, 118, 105, 99, 101, 32, 99, 111, 110, 116, 114, 111, 108, 32, 49, 41, 10],
  -- 0x12        \x12    #  DC2 (device control 2)
  [48, 120, 49, 50, 9, 9, 92, 120, 49, 50, 9, 35, 32, 32, 68, 67, 50, 32, 40, 100, 101, 118, 105, 99, 101, 32, 99, 111, 110, 116, 114, 111, 108, 32, 50, 41, 10],
  -- 0x13        \x13    #  DC3 (device control 3)
  [48, 120, 49, 51, 9, 9, 92, 120, 49, 51, 9, 35, 32, 32, 68, 67, 51, 32, 40, 100, 101, 118, 105, 99, 101, 32, 99, 111, 110, 116, 114, 111, 108, 32, 51, 41, 10],
  -- 0x14        \x14    #  DC4 (device control 4)
  [48, 120, 49, 52, 9, 9, 92, 120, 49, 52, 9, 35, 32, 32, 68, 67, 52, 32, 40, 100, 101, 118, 105, 99, 101, 32, 99, 111, 110, 116, 114, 111, 108, 32, 52, 41, 10],
  -- 0x15        \x15    #  NAK (negative ack.)
  [48, 120, 49, 53, 9, 9, 92, 120, 49, 53, 9, 35, 32, 32, 78, 65, 75, 32, 40, 110, 101, 103, 97, 116, 105, 118, 101, 32, 97, 99, 107, 46, 41, 10],
  -- 0x16        \x16    #  SYN (synchronous idle)
  [48, 120, 49, 54, 9, 9, 92, 120, 49, 54, 9, 35, 32, 32, 83, 89, 78, 32, 40, 115, 121, 110, 99, 104, 114, 111, 110, 111, 117, 115, 32, 105, 100, 108, 101, 41, 10],
  -- 0x17        \x17    #  ETB (end of trans. blk)
  [48, 120, 49, 55, 9, 9, 92, 120, 49, 55, 9, 35, 32, 32, 69, 84, 66, 32, 40, 101, 110, 100, 32, 111, 102, 32, 116, 114, 97, 110, 115, 46, 32, 98, 108, 107, 41, 10],
  -- 0x18        \x18    #  CAN (cancel)
  [48, 120, 49, 56, 9, 9, 92, 120, 49, 56, 9, 35, 32, 32, 67, 65, 78, 32, 40, 99, 97, 110, 99, 101, 108, 41, 10],
  -- 0x19        \x19    #  EM  (end of medium)
  [48, 120, 49, 57, 9, 9, 92, 120, 49, 57, 9, 35, 32, 32, 69, 77, 32, 32, 40, 101, 110, 100, 32, 111, 102, 32, 109, 101, 100, 105, 117, 109, 41, 10],
  -- 0x1a        \x1a    #  SUB (substitute)
  [48, 120, 49, 97, 9, 9, 92, 120, 49, 97, 9, 35, 32, 32, 83, 85, 66, 32, 40, 115, 117, 98, 115, 116, 105, 116, 117, 116, 101, 41, 10],
  -- 0x1b        \x1b    #  ESC (escape)
  [48, 120, 49, 98, 9, 9, 92, 120, 49, 98, 9, 35, 32, 32, 69, 83, 67, 32, 40, 101, 115, 99, 97, 112, 101, 41, 10],
  -- 0x1c        \x1c    #  FS  (file separator)
  [48, 120, 49, 99, 9, 9, 92, 120, 49, 99, 9, 35, 32, 32, 70, 83, 32, 32, 40, 102, 105, 108, 101, 32, 115, 101, 112, 97, 114, 97, 116, 111, 114, 41, 10],
  -- 0x1d        \x1d    #  GS  (group separator)
  [48, 120, 49, 100, 9, 9, 92, 120, 49, 100, 9, 35, 32, 32, 71, 83, 32, 32, 40, 103, 114, 111, 117, 112, 32, 115, 101, 112, 97, 114, 97, 116, 111, 114, 41, 10],
  -- 0x1e        \x1e    #  RS  (record separator)
  [48, 120, 49, 101, 9, 9, 92, 120, 49, 101, 9, 35, 32, 32, 82, 83, 32, 32, 40, 114, 101, 99, 111, 114, 100, 32, 115, 101, 112, 97, 114, 97, 116, 111, 114, 41, 10],
  -- 0x1f        \x1f    #  US  (unit separator)
  [48, 120, 49, 102, 9, 9, 92, 120, 49, 102, 9, 35, 32, 32, 85, 83, 32, 32, 40, 117, 110, 105, 116, 32, 115, 101, 112, 97, 114, 97, 116, 111, 114, 41, 10],
  -- 
  [10],
  -- 0x22        '\"'    # "
  [48, 120, 50, 50, 9, 9, 39, 92, 34, 39, 9, 35, 32, 34, 10],
  -- 
  [10],
  -- 0x27        "\'"    # '
  [48, 120, 50, 55, 9, 9, 34, 92, 39, 34, 9, 35, 32, 39, 10],
  -- 
  [10],
  -- 0x3F        \?    # ?
  [48, 120, 51, 70, 9, 9, 92, 63, 9, 35, 32, 63, 10],
  -- 
  [10],
  -- 0x5c        \\    # \
  [48, 120, 53, 99, 9, 9, 92, 92, 9, 35, 32, 92, 10],
  -- 
  [10],
  -- 0x7f        \x7f    #  DEL
  [48, 120, 55, 102, 9, 9, 92, 120, 55, 102, 9, 35, 32, 32, 68, 69, 76, 10],
  -- 
  [10],
  -- end
  [101, 110, 100, 10]]

/-- The file table/c_escape.tbl, lines 1-57. -/
def shipped_c_escape : Bytes := shipped_c_escape_lines.flatten

end Detox
