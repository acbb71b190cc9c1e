import Verif.Model.Table

/-!
# Built-in tables — `/repo/src/builtin_table.c`

Generated from the text of `builtin_table.c` (row by row, C string literals decoded with a UTF-8
execution character set, so `"\\u00A1"` is the two bytes C2 A1).
-/

set_option autoImplicit false

namespace Detox

/-- `builtin_safe_rows`, builtin_table.c:18-74. -/
def builtin_safe_rows : List Row := [
  ⟨0x0001, some [0x5F]⟩,
  ⟨0x0002, some [0x5F]⟩,
  ⟨0x0003, some [0x5F]⟩,
  ⟨0x0004, some [0x5F]⟩,
  ⟨0x0005, some [0x5F]⟩,
  ⟨0x0006, some [0x5F]⟩,
  ⟨0x0007, some [0x5F]⟩,
  ⟨0x0008, some [0x5F]⟩,
  ⟨0x0009, some [0x5F]⟩,
  ⟨0x000a, some [0x5F]⟩,
  ⟨0x000b, some [0x5F]⟩,
  ⟨0x000c, some [0x5F]⟩,
  ⟨0x000d, some [0x5F]⟩,
  ⟨0x000e, some [0x5F]⟩,
  ⟨0x000f, some [0x5F]⟩,
  ⟨0x0010, some [0x5F]⟩,
  ⟨0x0011, some [0x5F]⟩,
  ⟨0x0012, some [0x5F]⟩,
  ⟨0x0013, some [0x5F]⟩,
  ⟨0x0014, some [0x5F]⟩,
  ⟨0x0015, some [0x5F]⟩,
  ⟨0x0016, some [0x5F]⟩,
  ⟨0x0017, some [0x5F]⟩,
  ⟨0x0018, some [0x5F]⟩,
  ⟨0x0019, some [0x5F]⟩,
  ⟨0x001a, some [0x5F]⟩,
  ⟨0x001b, some [0x5F]⟩,
  ⟨0x001c, some [0x5F]⟩,
  ⟨0x001d, some [0x5F]⟩,
  ⟨0x001e, some [0x5F]⟩,
  ⟨0x001f, some [0x5F]⟩,
  ⟨0x0020, some [0x5F]⟩,
  ⟨0x0021, some [0x5F]⟩,
  ⟨0x0022, some [0x5F]⟩,
  ⟨0x0024, some [0x5F]⟩,
  ⟨0x0026, some [0x5F, 0x61, 0x6E, 0x64, 0x5F]⟩,
  ⟨0x0027, some [0x5F]⟩,
  ⟨0x0028, some [0x2D]⟩,
  ⟨0x0029, some [0x2D]⟩,
  ⟨0x002a, some [0x5F]⟩,
  ⟨0x002f, some [0x5F]⟩,
  ⟨0x003a, some [0x5F]⟩,
  ⟨0x003b, some [0x5F]⟩,
  ⟨0x003c, some [0x5F]⟩,
  ⟨0x003e, some [0x5F]⟩,
  ⟨0x003f, some [0x5F]⟩,
  ⟨0x0040, some [0x5F]⟩,
  ⟨0x005b, some [0x2D]⟩,
  ⟨0x005c, some [0x5F]⟩,
  ⟨0x005d, some [0x2D]⟩,
  ⟨0x0060, some [0x5F]⟩,
  ⟨0x007b, some [0x2D]⟩,
  ⟨0x007c, some [0x5F]⟩,
  ⟨0x007d, some [0x2D]⟩,
  ⟨0x007f, some [0x5F]⟩]

/-- `builtin_safe_table`, builtin_table.c:76-89. -/
def builtin_safe_table : Table :=
  { rows := builtin_safe_rows, used := 55, maxDataLength := 5, maxKey := 0x007f,
    hits := 0, misses := 0, seeks := 0, overwrites := 0,
    useHash := false, builtin := true, defaultTranslation := none }

/-- `load_builtin_safe_table`, builtin_table.c:91-94. -/
def load_builtin_safe_table : Table := tableResize builtin_safe_table 256 true

/-- `builtin_iso8859_1_rows`, builtin_table.c:100-197. -/
def builtin_iso8859_1_rows : List Row := [
  ⟨0x00a0, some [0x20]⟩,
  ⟨0x00a1, some [0xC2, 0xA1]⟩,
  ⟨0x00a2, some [0xC2, 0xA2]⟩,
  ⟨0x00a3, some [0xC2, 0xA3]⟩,
  ⟨0x00a4, some [0xC2, 0xA4]⟩,
  ⟨0x00a5, some [0xC2, 0xA5]⟩,
  ⟨0x00a6, some [0xC2, 0xA6]⟩,
  ⟨0x00a7, some [0xC2, 0xA7]⟩,
  ⟨0x00a8, some [0xC2, 0xA8]⟩,
  ⟨0x00a9, some [0xC2, 0xA9]⟩,
  ⟨0x00aa, some [0xC2, 0xAA]⟩,
  ⟨0x00ab, some [0xC2, 0xAB]⟩,
  ⟨0x00ac, some [0xC2, 0xAC]⟩,
  ⟨0x00ad, some [0x2D]⟩,
  ⟨0x00ae, some [0xC2, 0xAE]⟩,
  ⟨0x00af, some [0xC2, 0xAF]⟩,
  ⟨0x00b0, some [0xC2, 0xB0]⟩,
  ⟨0x00b1, some [0xC2, 0xB1]⟩,
  ⟨0x00b2, some [0xC2, 0xB2]⟩,
  ⟨0x00b3, some [0xC2, 0xB3]⟩,
  ⟨0x00b4, some [0xC2, 0xB4]⟩,
  ⟨0x00b5, some [0xC2, 0xB5]⟩,
  ⟨0x00b6, some [0xC2, 0xB6]⟩,
  ⟨0x00b7, some [0xC2, 0xB7]⟩,
  ⟨0x00b8, some [0xC2, 0xB8]⟩,
  ⟨0x00b9, some [0xC2, 0xB9]⟩,
  ⟨0x00ba, some [0xC2, 0xBA]⟩,
  ⟨0x00bb, some [0xC2, 0xBB]⟩,
  ⟨0x00bc, some [0xC2, 0xBC]⟩,
  ⟨0x00bd, some [0xC2, 0xBD]⟩,
  ⟨0x00be, some [0xC2, 0xBE]⟩,
  ⟨0x00bf, some [0xC2, 0xBF]⟩,
  ⟨0x00c0, some [0xC3, 0x80]⟩,
  ⟨0x00c1, some [0xC3, 0x81]⟩,
  ⟨0x00c2, some [0xC3, 0x82]⟩,
  ⟨0x00c3, some [0xC3, 0x83]⟩,
  ⟨0x00c4, some [0xC3, 0x84]⟩,
  ⟨0x00c5, some [0xC3, 0x85]⟩,
  ⟨0x00c6, some [0xC3, 0x86]⟩,
  ⟨0x00c7, some [0xC3, 0x87]⟩,
  ⟨0x00c8, some [0xC3, 0x88]⟩,
  ⟨0x00c9, some [0xC3, 0x89]⟩,
  ⟨0x00ca, some [0xC3, 0x8A]⟩,
  ⟨0x00cb, some [0xC3, 0x8B]⟩,
  ⟨0x00cc, some [0xC3, 0x8C]⟩,
  ⟨0x00cd, some [0xC3, 0x8D]⟩,
  ⟨0x00ce, some [0xC3, 0x8E]⟩,
  ⟨0x00cf, some [0xC3, 0x8F]⟩,
  ⟨0x00d0, some [0xC3, 0x90]⟩,
  ⟨0x00d1, some [0xC3, 0x91]⟩,
  ⟨0x00d2, some [0xC3, 0x92]⟩,
  ⟨0x00d3, some [0xC3, 0x93]⟩,
  ⟨0x00d4, some [0xC3, 0x94]⟩,
  ⟨0x00d5, some [0xC3, 0x95]⟩,
  ⟨0x00d6, some [0xC3, 0x96]⟩,
  ⟨0x00d7, some [0xC3, 0x97]⟩,
  ⟨0x00d8, some [0xC3, 0x98]⟩,
  ⟨0x00d9, some [0xC3, 0x99]⟩,
  ⟨0x00da, some [0xC3, 0x9A]⟩,
  ⟨0x00db, some [0xC3, 0x9B]⟩,
  ⟨0x00dc, some [0xC3, 0x9C]⟩,
  ⟨0x00dd, some [0xC3, 0x9D]⟩,
  ⟨0x00de, some [0xC3, 0x9E]⟩,
  ⟨0x00df, some [0xC3, 0x9F]⟩,
  ⟨0x00e0, some [0xC3, 0xA0]⟩,
  ⟨0x00e1, some [0xC3, 0xA1]⟩,
  ⟨0x00e2, some [0xC3, 0xA2]⟩,
  ⟨0x00e3, some [0xC3, 0xA3]⟩,
  ⟨0x00e4, some [0xC3, 0xA4]⟩,
  ⟨0x00e5, some [0xC3, 0xA5]⟩,
  ⟨0x00e6, some [0xC3, 0xA6]⟩,
  ⟨0x00e7, some [0xC3, 0xA7]⟩,
  ⟨0x00e8, some [0xC3, 0xA8]⟩,
  ⟨0x00e9, some [0xC3, 0xA9]⟩,
  ⟨0x00ea, some [0xC3, 0xAA]⟩,
  ⟨0x00eb, some [0xC3, 0xAB]⟩,
  ⟨0x00ec, some [0xC3, 0xAC]⟩,
  ⟨0x00ed, some [0xC3, 0xAD]⟩,
  ⟨0x00ee, some [0xC3, 0xAE]⟩,
  ⟨0x00ef, some [0xC3, 0xAF]⟩,
  ⟨0x00f0, some [0xC3, 0xB0]⟩,
  ⟨0x00f1, some [0xC3, 0xB1]⟩,
  ⟨0x00f2, some [0xC3, 0xB2]⟩,
  ⟨0x00f3, some [0xC3, 0xB3]⟩,
  ⟨0x00f4, some [0xC3, 0xB4]⟩,
  ⟨0x00f5, some [0xC3, 0xB5]⟩,
  ⟨0x00f6, some [0xC3, 0xB6]⟩,
  ⟨0x00f7, some [0xC3, 0xB7]⟩,
  ⟨0x00f8, some [0xC3, 0xB8]⟩,
  ⟨0x00f9, some [0xC3, 0xB9]⟩,
  ⟨0x00fa, some [0xC3, 0xBA]⟩,
  ⟨0x00fb, some [0xC3, 0xBB]⟩,
  ⟨0x00fc, some [0xC3, 0xBC]⟩,
  ⟨0x00fd, some [0xC3, 0xBD]⟩,
  ⟨0x00fe, some [0xC3, 0xBE]⟩,
  ⟨0x00ff, some [0xC3, 0xBF]⟩]

/-- `builtin_iso8859_1_table`, builtin_table.c:199-212. -/
def builtin_iso8859_1_table : Table :=
  { rows := builtin_iso8859_1_rows, used := 96, maxDataLength := 6, maxKey := 0x00ff,
    hits := 0, misses := 0, seeks := 0, overwrites := 0,
    useHash := false, builtin := true, defaultTranslation := some [0x5F] }

/-- `load_builtin_iso8859_1_table`, builtin_table.c:214-217. -/
def load_builtin_iso8859_1_table : Table := tableResize builtin_iso8859_1_table 256 true

/-- `builtin_unicode_rows`, builtin_table.c:223-387. -/
def builtin_unicode_rows : List Row := [
  ⟨0x0001, some [0x5F]⟩,
  ⟨0x0002, some [0x5F]⟩,
  ⟨0x0003, some [0x5F]⟩,
  ⟨0x0004, some [0x5F]⟩,
  ⟨0x0005, some [0x5F]⟩,
  ⟨0x0006, some [0x5F]⟩,
  ⟨0x0007, some [0x5F]⟩,
  ⟨0x0008, some [0x5F]⟩,
  ⟨0x0009, some [0x5F]⟩,
  ⟨0x000a, some [0x5F]⟩,
  ⟨0x000b, some [0x5F]⟩,
  ⟨0x000c, some [0x5F]⟩,
  ⟨0x000d, some [0x5F]⟩,
  ⟨0x000e, some [0x5F]⟩,
  ⟨0x000f, some [0x5F]⟩,
  ⟨0x0010, some [0x5F]⟩,
  ⟨0x0011, some [0x5F]⟩,
  ⟨0x0012, some [0x5F]⟩,
  ⟨0x0013, some [0x5F]⟩,
  ⟨0x0014, some [0x5F]⟩,
  ⟨0x0015, some [0x5F]⟩,
  ⟨0x0016, some [0x5F]⟩,
  ⟨0x0017, some [0x5F]⟩,
  ⟨0x0018, some [0x5F]⟩,
  ⟨0x0019, some [0x5F]⟩,
  ⟨0x001a, some [0x5F]⟩,
  ⟨0x001b, some [0x5F]⟩,
  ⟨0x001c, some [0x5F]⟩,
  ⟨0x001d, some [0x5F]⟩,
  ⟨0x001e, some [0x5F]⟩,
  ⟨0x001f, some [0x5F]⟩,
  ⟨0x0020, some [0x20]⟩,
  ⟨0x0021, some [0x21]⟩,
  ⟨0x0022, some [0x22]⟩,
  ⟨0x0023, some [0x23]⟩,
  ⟨0x0024, some [0x24]⟩,
  ⟨0x0025, some [0x25]⟩,
  ⟨0x0026, some [0x26]⟩,
  ⟨0x0027, some [0x27]⟩,
  ⟨0x0028, some [0x28]⟩,
  ⟨0x0029, some [0x29]⟩,
  ⟨0x002a, some [0x2A]⟩,
  ⟨0x002b, some [0x2B]⟩,
  ⟨0x002c, some [0x2C]⟩,
  ⟨0x002d, some [0x2D]⟩,
  ⟨0x002e, some [0x2E]⟩,
  ⟨0x002f, some [0x2F]⟩,
  ⟨0x0030, some [0x30]⟩,
  ⟨0x0031, some [0x31]⟩,
  ⟨0x0032, some [0x32]⟩,
  ⟨0x0033, some [0x33]⟩,
  ⟨0x0034, some [0x34]⟩,
  ⟨0x0035, some [0x35]⟩,
  ⟨0x0036, some [0x36]⟩,
  ⟨0x0037, some [0x37]⟩,
  ⟨0x0038, some [0x38]⟩,
  ⟨0x0039, some [0x39]⟩,
  ⟨0x003a, some [0x3A]⟩,
  ⟨0x003b, some [0x3B]⟩,
  ⟨0x003c, some [0x3C]⟩,
  ⟨0x003d, some [0x3D]⟩,
  ⟨0x003e, some [0x3E]⟩,
  ⟨0x003f, some [0x3F]⟩,
  ⟨0x0040, some [0x40]⟩,
  ⟨0x0041, some [0x41]⟩,
  ⟨0x0042, some [0x42]⟩,
  ⟨0x0043, some [0x43]⟩,
  ⟨0x0044, some [0x44]⟩,
  ⟨0x0045, some [0x45]⟩,
  ⟨0x0046, some [0x46]⟩,
  ⟨0x0047, some [0x47]⟩,
  ⟨0x0048, some [0x48]⟩,
  ⟨0x0049, some [0x49]⟩,
  ⟨0x004a, some [0x4A]⟩,
  ⟨0x004b, some [0x4B]⟩,
  ⟨0x004c, some [0x4C]⟩,
  ⟨0x004d, some [0x4D]⟩,
  ⟨0x004e, some [0x4E]⟩,
  ⟨0x004f, some [0x4F]⟩,
  ⟨0x0050, some [0x50]⟩,
  ⟨0x0051, some [0x51]⟩,
  ⟨0x0052, some [0x52]⟩,
  ⟨0x0053, some [0x53]⟩,
  ⟨0x0054, some [0x54]⟩,
  ⟨0x0055, some [0x55]⟩,
  ⟨0x0056, some [0x56]⟩,
  ⟨0x0057, some [0x57]⟩,
  ⟨0x0058, some [0x58]⟩,
  ⟨0x0059, some [0x59]⟩,
  ⟨0x005a, some [0x5A]⟩,
  ⟨0x005b, some [0x5B]⟩,
  ⟨0x005c, some [0x5C]⟩,
  ⟨0x005d, some [0x5D]⟩,
  ⟨0x005e, some [0x5E]⟩,
  ⟨0x005f, some [0x5F]⟩,
  ⟨0x0060, some [0x60]⟩,
  ⟨0x0061, some [0x61]⟩,
  ⟨0x0062, some [0x62]⟩,
  ⟨0x0063, some [0x63]⟩,
  ⟨0x0064, some [0x64]⟩,
  ⟨0x0065, some [0x65]⟩,
  ⟨0x0066, some [0x66]⟩,
  ⟨0x0067, some [0x67]⟩,
  ⟨0x0068, some [0x68]⟩,
  ⟨0x0069, some [0x69]⟩,
  ⟨0x006a, some [0x6A]⟩,
  ⟨0x006b, some [0x6B]⟩,
  ⟨0x006c, some [0x6C]⟩,
  ⟨0x006d, some [0x6D]⟩,
  ⟨0x006e, some [0x6E]⟩,
  ⟨0x006f, some [0x6F]⟩,
  ⟨0x0070, some [0x70]⟩,
  ⟨0x0071, some [0x71]⟩,
  ⟨0x0072, some [0x72]⟩,
  ⟨0x0073, some [0x73]⟩,
  ⟨0x0074, some [0x74]⟩,
  ⟨0x0075, some [0x75]⟩,
  ⟨0x0076, some [0x76]⟩,
  ⟨0x0077, some [0x77]⟩,
  ⟨0x0078, some [0x78]⟩,
  ⟨0x0079, some [0x79]⟩,
  ⟨0x007a, some [0x7A]⟩,
  ⟨0x007b, some [0x7B]⟩,
  ⟨0x007c, some [0x7C]⟩,
  ⟨0x007d, some [0x7D]⟩,
  ⟨0x007e, some [0x7E]⟩,
  ⟨0x007f, some [0x5F]⟩,
  ⟨0x00a0, some [0x20]⟩,
  ⟨0x00ad, some [0x2D]⟩,
  ⟨0x2000, some [0x20]⟩,
  ⟨0x2001, some [0x20]⟩,
  ⟨0x2002, some [0x20]⟩,
  ⟨0x2003, some [0x20]⟩,
  ⟨0x2004, some [0x20]⟩,
  ⟨0x2005, some [0x20]⟩,
  ⟨0x2006, some [0x20]⟩,
  ⟨0x2007, some [0x20]⟩,
  ⟨0x2008, some [0x20]⟩,
  ⟨0x2009, some [0x20]⟩,
  ⟨0x200a, some [0x20]⟩,
  ⟨0x200b, some []⟩,
  ⟨0x200c, some []⟩,
  ⟨0x200d, some []⟩,
  ⟨0x200e, some []⟩,
  ⟨0x200f, some []⟩,
  ⟨0x2010, some [0x2D]⟩,
  ⟨0x2011, some [0x2D]⟩,
  ⟨0x2012, some [0x2D]⟩,
  ⟨0x2013, some [0x2D]⟩,
  ⟨0x2014, some [0x2D]⟩,
  ⟨0x2015, some [0x2D]⟩,
  ⟨0x2017, some [0x5F]⟩,
  ⟨0x2028, some [0x20]⟩,
  ⟨0x2029, some [0x20]⟩,
  ⟨0x202a, some [0x20]⟩,
  ⟨0x202b, some [0x20]⟩,
  ⟨0x202c, some [0x20]⟩,
  ⟨0x202d, some [0x20]⟩,
  ⟨0x202e, some [0x20]⟩,
  ⟨0x202f, some [0x20]⟩,
  ⟨0x2044, some [0x5F]⟩,
  ⟨0x205f, some [0x20]⟩,
  ⟨0x2060, some []⟩]

/-- `builtin_unicode_table`, builtin_table.c:389-402. -/
def builtin_unicode_table : Table :=
  { rows := builtin_unicode_rows, used := 163, maxDataLength := 1, maxKey := 0x2060,
    hits := 0, misses := 0, seeks := 0, overwrites := 0,
    useHash := false, builtin := true, defaultTranslation := none }

/-- `load_builtin_unicode_table`, builtin_table.c:404-407. -/
def load_builtin_unicode_table : Table := tableResize builtin_unicode_table 256 true

/-- `builtin_cp1252_rows`, builtin_table.c:413-446. -/
def builtin_cp1252_rows : List Row := [
  ⟨0x0080, some [0xE2, 0x82, 0xAC]⟩,
  ⟨0x0081, some [0x2D]⟩,
  ⟨0x0082, some [0xE2, 0x80, 0x9A]⟩,
  ⟨0x0083, some [0xC6, 0x92]⟩,
  ⟨0x0084, some [0xE2, 0x80, 0x9E]⟩,
  ⟨0x0085, some [0xE2, 0x80, 0xA6]⟩,
  ⟨0x0086, some [0xE2, 0x80, 0xA0]⟩,
  ⟨0x0087, some [0xE2, 0x80, 0xA1]⟩,
  ⟨0x0088, some [0xCB, 0x86]⟩,
  ⟨0x0089, some [0xE2, 0x80, 0xB0]⟩,
  ⟨0x008a, some [0xC5, 0xA0]⟩,
  ⟨0x008b, some [0xE2, 0x80, 0xB9]⟩,
  ⟨0x008c, some [0xC5, 0x92]⟩,
  ⟨0x008d, some [0x2D]⟩,
  ⟨0x008e, some [0xC5, 0xBD]⟩,
  ⟨0x008f, some [0x2D]⟩,
  ⟨0x0090, some [0x2D]⟩,
  ⟨0x0091, some [0xE2, 0x80, 0x98]⟩,
  ⟨0x0092, some [0xE2, 0x80, 0x99]⟩,
  ⟨0x0093, some [0xE2, 0x80, 0x9C]⟩,
  ⟨0x0094, some [0xE2, 0x80, 0x9D]⟩,
  ⟨0x0095, some [0xE2, 0x80, 0xA2]⟩,
  ⟨0x0096, some [0xE2, 0x80, 0x93]⟩,
  ⟨0x0097, some [0xE2, 0x80, 0x94]⟩,
  ⟨0x0098, some [0xCB, 0x9C]⟩,
  ⟨0x0099, some [0xE2, 0x84, 0xA2]⟩,
  ⟨0x009a, some [0xC5, 0xA1]⟩,
  ⟨0x009b, some [0xE2, 0x80, 0xBA]⟩,
  ⟨0x009c, some [0xC5, 0x93]⟩,
  ⟨0x009d, some [0x2D]⟩,
  ⟨0x009e, some [0xC5, 0xBE]⟩,
  ⟨0x009f, some [0xC5, 0xB8]⟩]

/-- `builtin_cp1252_table`, builtin_table.c:448-461. -/
def builtin_cp1252_table : Table :=
  { rows := builtin_cp1252_rows, used := 32, maxDataLength := 6, maxKey := 0x009f,
    hits := 0, misses := 0, seeks := 0, overwrites := 0,
    useHash := false, builtin := true, defaultTranslation := none }

/-- `load_builtin_cp1252_table`, builtin_table.c:463-466. -/
def load_builtin_cp1252_table : Table := tableResize builtin_cp1252_table 256 true

end Detox
