{"id": "C01", "title": "Default sequence leaves no shell-hostile character", "statement": "Whatever name goes in, the name produced by the built-in 'default' sequence (safe + wipeup{remove_trailing}) contains no control character, no DEL, no space and none of ! \" $ & ' ( ) * / : ; < > ? @ [ \\ ] ` { | }.", "quantifier": "every NUL-free byte string used as a filename, of any length", "why_tests_cant": "256^n filenames; a test covers a handful and cannot rule out a position/length/neighbour dependent leak.", "anchors": ["src/clean_string.c:clean_safe", "src/clean_string.c:clean_wipeup", "src/builtin_table.c:builtin_safe_rows", "src/config_file_spoof.c:spoof_config_file", "src/sequence.c:sequence_run_filters"]}
{"id": "C02", "title": "Default sequence is idempotent", "statement": "Running the built-in default sequence on its own output changes nothing, so running detox twice gives the same names as running it once.", "quantifier": "every NUL-free byte string", "why_tests_cant": "Idempotence must hold for every string, including ones where one filter creates input for another (e.g. '_and_' next to dashes, runs of mixed '.-_').", "anchors": ["src/clean_string.c:clean_safe", "src/clean_string.c:clean_wipeup", "src/config_file_spoof.c:spoof_config_file"]}
{"id": "C03", "title": "Default sequence never touches non-ASCII bytes", "statement": "The bytes >= 0x80 of the name (in order) are the same before and after the built-in default sequence; UTF-8 text survives byte for byte.", "quantifier": "every NUL-free byte string, on platforms with signed and with unsigned char", "why_tests_cant": "Depends on sign extension of char into the table key for every byte value in every context.", "anchors": ["src/clean_string.c:clean_safe", "src/table.c:table_get", "src/clean_string.c:clean_wipeup"]}
{"id": "C04", "title": "wipeup computes the documented reduction", "statement": "wipeup drops every leading '-', '_' and '#', then replaces each maximal run of '-'/'_' (plus '.' with remove_trailing) by one character: '.' if the run has one (remove_trailing only), else '-' if it has one, else '_'; everything else is kept in order.", "quantifier": "every NUL-free byte string and both settings of remove_trailing", "why_tests_cant": "Runs of unbounded length and arbitrary mixtures; tests fix finitely many.", "anchors": ["src/clean_string.c:clean_wipeup"]}
{"id": "C05", "title": "wipeup output is normal and wipeup is idempotent", "statement": "wipeup output never starts with '-', '_' or '#', never contains two adjacent members of the reduction set, is never longer than the input, and is a fixed point of wipeup.", "quantifier": "every NUL-free byte string and both settings of remove_trailing", "why_tests_cant": "Universal statement about all strings.", "anchors": ["src/clean_string.c:clean_wipeup"]}
{"id": "C06", "title": "max_length bounds the name and keeps the extension", "statement": "If the name is longer than the limit (0 means 256), then either the result has at most the limit in bytes, starts like the original and ends with its extension, or the extension alone does not fit and the name comes back unchanged. Names within the limit are unchanged; the filter is idempotent.", "quantifier": "every NUL-free byte string and every limit", "why_tests_cant": "All lengths, all positions of dots, all limits; off-by-one errors live at boundaries tests miss.", "anchors": ["src/clean_string.c:clean_max_length"]}
{"id": "C07", "title": "max_length always meets the limit (documented claim)", "statement": "man detoxrc: 'trims a filename down to the length specified (or less)'. The output never exceeds the limit. (Expected to be refuted: when the extension does not fit, the code gives up.)", "quantifier": "every NUL-free byte string and every limit >= 1", "why_tests_cant": "Needs exactly the rare inputs where the extension is as long as the limit.", "anchors": ["src/clean_string.c:clean_max_length", "man/detoxrc.5"]}
{"id": "C08", "title": "lower changes only ASCII capitals", "statement": "lower maps A-Z to a-z position by position, leaves every other byte alone, keeps the length, and is idempotent.", "quantifier": "every NUL-free byte string (C or UTF-8 locale)", "why_tests_cant": "Universal over strings; includes bytes passed to isupper as negative ints.", "anchors": ["src/clean_string.c:clean_lower"]}
{"id": "C09", "title": "uncgi inverts CGI escaping", "statement": "For every text, uncgi applied to any correct CGI encoding of it (each byte escaped as %XX with hex digits of either case, or space as '+', or left literal when it is neither '%' nor '+') gives the text back.", "quantifier": "every NUL-free byte string and every choice of encoding per byte", "why_tests_cant": "A round trip over all strings and all 2^n ways to encode each.", "anchors": ["src/clean_string.c:clean_uncgi"]}
{"id": "C10", "title": "uncgi cuts the name at an encoded NUL", "statement": "If the name contains %00 the observable result is exactly the decoding of what precedes the first %00; otherwise nothing is lost.", "quantifier": "every NUL-free byte string", "why_tests_cant": "Depends on the position of %00 relative to every other escape.", "anchors": ["src/clean_string.c:clean_uncgi"]}
{"id": "C11", "title": "utf_8 filter translates well-formed UTF-8 code point by code point", "statement": "On the UTF-8 encoding of any sequence of Unicode scalar values (no U+0000), the utf_8 filter outputs, for each code point in order, its table entry if there is one, else the default if there is one, else the original bytes.", "quantifier": "every sequence of Unicode scalar values and every translation table", "why_tests_cant": "1.1M code points in unbounded sequences and arbitrary tables.", "anchors": ["src/clean_utf_8.c:clean_utf_8", "src/clean_utf_8.c:get_utf_8_width", "src/table.c:table_get"]}
{"id": "C12", "title": "utf_8 filter output is structurally valid UTF-8", "statement": "With a table whose entries are ASCII (such as the built-in 'unicode' table), the utf_8 filter's output always splits into complete lead+continuation units: truncated, stray and invalid bytes never survive, for any input bytes.", "quantifier": "every byte string, well formed or not", "why_tests_cant": "Malformed inputs are unbounded and adversarial.", "anchors": ["src/clean_utf_8.c:clean_utf_8"]}
{"id": "C13", "title": "utf_8 filter never lets an encoded NUL or an out-of-range value through", "statement": "No unit of the output of the utf_8 filter decodes to 0 or to a value above 0x10FFFF (ASCII table entries).", "quantifier": "every byte string", "why_tests_cant": "Needs all overlong and 5/6-byte forms in all contexts.", "anchors": ["src/clean_utf_8.c:clean_utf_8", "src/clean_utf_8.c:null_replacement"]}
{"id": "C14", "title": "utf_8 sequence is idempotent", "statement": "With the built-in unicode table, filtering twice equals filtering once; likewise for the whole 'utf_8' sequence.", "quantifier": "every byte string", "why_tests_cant": "Universal over malformed and well-formed strings.", "anchors": ["src/clean_utf_8.c:clean_utf_8", "src/builtin_table.c:builtin_unicode_rows"]}
{"id": "C15", "title": "iso8859_1 transcodes Latin-1 to valid UTF-8", "statement": "With the built-in iso8859_1 table the output is always valid UTF-8: ASCII is kept, 0xA1-0xFF become the UTF-8 encoding of the same code point (0xA0 becomes a space and 0xAD a hyphen), 0x80-0x9F become '_'.", "quantifier": "every byte string", "why_tests_cant": "Universal over strings; checks every byte in every position.", "anchors": ["src/clean_string.c:clean_iso8859_1", "src/builtin_table.c:builtin_iso8859_1_rows"]}
{"id": "C16", "title": "iso8859_1-legacy transcodes CP-1252 and Latin-1 to UTF-8", "statement": "The shipped sequence 'iso8859_1-legacy' (cp1252 then iso8859_1) turns each CP-1252 byte 0x80-0x9F into the UTF-8 encoding of its character, as etc/detoxrc says. (Expected to be refuted: the second filter re-encodes the first one's output.)", "quantifier": "every byte string", "why_tests_cant": "A test of each filter alone passes; only the composition is wrong.", "anchors": ["src/config_file_spoof.c:spoof_config_file", "etc/detoxrc", "src/clean_string.c:clean_iso8859_1"]}
{"id": "C17", "title": "Cleaning is memory safe", "statement": "No cleaning filter reads or writes outside its buffers, whatever the filename, for every table that detox can load (built-in or from a file). (Expected to hold only under a condition on the table; the built-in unicode table violates it.)", "quantifier": "every NUL-free byte string and every table", "why_tests_cant": "A heap overrun of a few bytes is invisible to a test: malloc rounds up.", "anchors": ["src/clean_string.c:clean_iso8859_1", "src/clean_string.c:clean_safe", "src/clean_utf_8.c:clean_utf_8", "src/table.c:table_put"]}
{"id": "C18", "title": "Cleaning always terminates with a name", "statement": "Once a sequence's tables are loaded, running it on any name returns a name: it does not loop, exit, or return 'no result'.", "quantifier": "every sequence of filters over every kind, every name (memory safe tables)", "why_tests_cant": "Termination and totality are universal.", "anchors": ["src/sequence.c:sequence_run_filters", "src/sequence.c:sequence_review", "src/filter.c:filter_run", "src/filter.c:filter_load_table"]}
{"id": "C19", "title": "Only uncgi and overlong UTF-8 can create a '/'", "statement": "The built-in sequences default, iso8859_1, iso8859_1-legacy, utf_8, uncgi, lower, iso8859_1-only, cp1252-only and lower-only never produce a '/' from a basename; 'uncgi-only' and 'utf_8-only' can.", "quantifier": "every '/'-free name", "why_tests_cant": "Path traversal needs one bad name among all of them.", "anchors": ["src/config_file_spoof.c:spoof_config_file", "src/clean_string.c", "src/clean_utf_8.c"]}
{"id": "C20", "title": "A translation table behaves like a map", "statement": "After any sequence of insertions, looking up a key gives the value of the latest successful insertion for that key, or nothing; hashing, collisions and table size never show.", "quantifier": "every table size, hashed or linear, every sequence of insertions and lookups", "why_tests_cant": "All collision patterns over all histories.", "anchors": ["src/table.c:table_init", "src/table.c:table_put", "src/table.c:table_get"]}
{"id": "C21", "title": "Insertion fails exactly when documented", "statement": "table_put fails exactly for key 0 or when as many insertions have already succeeded as there are rows; a failing insertion changes nothing observable.", "quantifier": "every history of insertions", "why_tests_cant": "Depends on history (overwrites also consume capacity).", "anchors": ["src/table.c:table_put"]}
{"id": "C22", "title": "Resizing preserves the mapping", "statement": "table_resize to at least the number of stored entries preserves every mapping, the default translation and the longest-entry length; resizing to fewer rows may drop entries but never changes one.", "quantifier": "every table reachable by insertions, every new size, hash flag either way", "why_tests_cant": "Rehash placement varies with every table.", "anchors": ["src/table.c:table_resize"]}
{"id": "C23", "title": "max_data_length is the longest entry", "statement": "After any history the recorded longest-entry length is at least the length of every entry a lookup can return.", "quantifier": "every history of insertions and resizes", "why_tests_cant": "The output buffers are sized from it, so one missed history is a heap overrun.", "anchors": ["src/table.c:table_put", "src/table.c:table_resize"]}
{"id": "C24", "title": "Built-in tables equal the shipped table files", "statement": "Loading table/safe.tbl and table/unicode.tbl gives, for every key and whatever the locale, the translations and default of the built-in tables of the same name. table/iso8859_1.tbl and table/cp1252.tbl do not: they have the same keys and default, but carry the literal text \\uXXXX where the built-in table has the character it names. table/c_escape.tbl gives the table that is written out in escape_utf_8.c: the escapes of C for the control characters of ASCII, quotes, ? and the backslash, and nothing else.", "quantifier": "every key", "why_tests_cant": "Tests compare a few characters; equality is over all keys and includes the file parser.", "anchors": ["src/builtin_table.c", "table/safe.tbl", "table/unicode.tbl", "table/iso8859_1.tbl", "table/c_escape.tbl", "src/escape_utf_8.c:27-82", "src/parse_table.c:parse_table"]}
{"id": "C25", "title": "A written table file loads back", "statement": "Any table written out in the documented format (start / 'value \"translation\"' lines / end, optional default) and loaded with parse_table yields exactly the listed translations, last one winning, provided it has at most max(500, size/6) rows.", "quantifier": "every list of (code, translation) pairs of any length with representable values", "why_tests_cant": "Round trip over all tables; exercises sscanf semantics on every line.", "anchors": ["src/parse_table.c:parse_table"]}
{"id": "C26", "title": "Language blocks apply exactly when the locale matches", "statement": "Rows in a 'start LANG' block take effect iff LANG is a case-insensitive prefix of the LC_CTYPE locale name; otherwise the block's rows are ignored.", "quantifier": "every table file made of such blocks and every locale name", "why_tests_cant": "All combinations of blocks and locales.", "anchors": ["src/parse_table.c:parse_table"]}
{"id": "C27", "title": "detox never overwrites or loses a file", "statement": "With no concurrent modification, whatever the arguments, options, directory contents and whichever renames fail (lstat failing only for paths rename cannot follow either, see C60), and wherever the process is killed, no existing name is ever replaced: every file object keeps exactly as many names as before and its content; names stay unique per directory; and with a sequence that makes no slash nothing leaves its directory.", "quantifier": "every file system, every option set, every sequence, every readdir order, every failing rename, every crash point", "why_tests_cant": "All trees, all orders, all crash points.", "anchors": ["src/file.c:parse_file", "src/file.c:parse_dir", "src/detox.c:main"]}
{"id": "C28", "title": "A concurrent process can still be clobbered", "statement": "If another process creates the target name between detox's check and its rename, detox overwrites it. (Documents the limit of the previous property.)", "quantifier": "there exists an interleaving", "why_tests_cant": "A race window of microseconds.", "anchors": ["src/file.c:parse_file"]}
{"id": "C29", "title": "Dry run changes nothing", "statement": "With -n detox never issues a rename, for every tree, whatever the system calls answer.", "quantifier": "every argument list, every response of the system calls, every prefix of the run", "why_tests_cant": "All executions.", "anchors": ["src/file.c:parse_file", "src/file.c:parse_dir", "src/detox.c:main"]}
{"id": "C30", "title": "Dry run announces the renames of a real run", "statement": "For a given file, -n prints 'old -> new' exactly when a real run would attempt rename(old, new), with the same names.", "quantifier": "every file, sequence and every answer of lstat", "why_tests_cant": "Two executions compared on all inputs.", "anchors": ["src/file.c:parse_file"]}
{"id": "C31", "title": "Renames are guarded and local", "statement": "Every rename(old,new) that detox issues: old and new share the directory part; new's last part is the cleaned last part of old and differs from it; lstat(old) succeeded; and lstat(new) either failed or found the same device and inode with a link count of at most 1.", "quantifier": "every response of every system call, every option set, every tree", "why_tests_cant": "Universal over all executions.", "anchors": ["src/file.c:parse_file"]}
{"id": "C32", "title": "'.' and '..' are never renamed", "statement": "detox never renames an argument whose last component is '.' or '..' (or empty, as in 'dir/'), and inline mode prints the lines '.' and '..' unchanged.", "quantifier": "every sequence, every path", "why_tests_cant": "Holds for every filter combination, including ones that would change dots.", "anchors": ["src/file.c:is_protected", "src/file.c:parse_file", "src/file.c:parse_inline"]}
{"id": "C33", "title": "Hidden files are left alone during a directory scan", "statement": "Entries starting with '.' found while scanning a directory are never renamed or entered.", "quantifier": "every execution", "why_tests_cant": "All trees and orders.", "anchors": ["src/file.c:ignore_file", "src/file.c:parse_dir"]}
{"id": "C34", "title": "Ignored names are left alone during a directory scan", "statement": "Entries listed in the config's ignore section are never renamed or entered while scanning directories. (Expected to be refuted: the ignore list is a cursor that is not rewound after a match.)", "quantifier": "every ignore list, every history of checks", "why_tests_cant": "The failure needs two consecutive checks of an ignored name.", "anchors": ["src/file.c:ignore_file", "src/filelist.c:filelist_get"]}
{"id": "C35", "title": "Symbolic links are not followed and directories are entered only with -r", "statement": "detox opens a directory only after lstat said it is a real directory; without -r it opens only the directories named on the command line (under their possibly new name).", "quantifier": "every execution", "why_tests_cant": "All trees and schedules.", "anchors": ["src/file.c:parse_dir", "src/detox.c:main"]}
{"id": "C36", "title": "Special files are touched only with --special", "statement": "Without --special, detox renames only things that lstat reported as regular file or directory.", "quantifier": "every execution", "why_tests_cant": "All trees.", "anchors": ["src/file.c:parse_dir", "src/detox.c:main"]}
{"id": "C37", "title": "A successful parse_file reports where the file now is", "statement": "parse_file returns the path the object has after the call: the new path iff the rename succeeded, else the original path; so recursion continues in the right directory.", "quantifier": "every response", "why_tests_cant": "All outcomes of all system calls.", "anchors": ["src/file.c:parse_file"]}
{"id": "C38", "title": "Inline mode filters line by line", "statement": "For NUL-free input whose lines are shorter than 1007 bytes, the output is every line cleaned by the sequence ('.' and '..' verbatim), with newlines exactly where they were.", "quantifier": "every input stream with such lines, every sequence", "why_tests_cant": "All streams.", "anchors": ["src/file.c:parse_inline"]}
{"id": "C39", "title": "Inline mode never splits a UTF-8 character", "statement": "For valid UTF-8 input with lines of any length, each chunk handed to the filters is itself valid UTF-8, and chunks concatenate to the input.", "quantifier": "every valid UTF-8 stream", "why_tests_cant": "Depends on alignment of every character with the 1007-byte buffer.", "anchors": ["src/file.c:parse_inline"]}
{"id": "C40", "title": "Inline mode stays within its buffer", "statement": "Inline processing never reads or writes outside its 1024-byte buffer. (Expected to be refuted for reads: a NUL at the start of a chunk, or a final unterminated chunk of fewer than 6 continuation bytes, reads before the buffer.)", "quantifier": "every input stream", "why_tests_cant": "One-byte out-of-bounds reads do not crash.", "anchors": ["src/file.c:parse_inline"]}
{"id": "C41", "title": "Inline mode loses no byte", "statement": "For NUL-free input that triggers no out-of-bounds read, the chunks handed to the filters plus the newlines are exactly the input, in order, even when pushing back a byte fails.", "quantifier": "every NUL-free stream", "why_tests_cant": "All alignments, including byte 0xFF pushed back as EOF.", "anchors": ["src/file.c:parse_inline"]}
{"id": "C42", "title": "Sequence selection", "statement": "With a name (option -s, else DETOX_SEQUENCE) detox uses the sequence of that name or fails if there is none; without a name it uses 'default', else the first sequence.", "quantifier": "every configuration and every name", "why_tests_cant": "All lists.", "anchors": ["src/sequence.c:sequence_choose_default", "src/detox.c:main", "src/parse_options.c:parse_options_getopt"]}
{"id": "C43", "title": "Later configuration replaces earlier sequences by name", "statement": "After loading any series of config files, sequence names are unique; the definition in effect for a name is the last one read; sequences keep the position of their first definition; ignore entries accumulate.", "quantifier": "every series of config files", "why_tests_cant": "All histories of definitions.", "anchors": ["src/config_file_yacc.y:cf_append_sequence_list", "src/config_file_yacc.y:parse_config_file", "src/config_file.c:config_file_load"]}
{"id": "C44", "title": "-f excludes every other config file", "statement": "With -f only that file is read, and a missing file is a fatal error; without it the first of the system files, then ~/.detoxrc, then $XDG_CONFIG_HOME/detox/detoxrc are merged, and the built-in config is used iff none exists.", "quantifier": "every environment and every set of existing files", "why_tests_cant": "All combinations.", "anchors": ["src/config_file.c:config_file_load"]}
{"id": "C45", "title": "Built-in configuration equals the shipped detoxrc", "statement": "Parsing etc/detoxrc yields the same sequences, filters and ignore list as the built-in configuration.", "quantifier": "the whole shipped file", "why_tests_cant": "Unit tests compare counts; equality must hold for every field.", "anchors": ["src/config_file_spoof.c:spoof_config_file", "etc/detoxrc", "src/config_file_yacc.y", "src/config_file_lex.l"]}
{"id": "C46", "title": "A written configuration parses back", "statement": "Writing any configuration (sequences with quoted names, filters with any options, ignore lists) in the documented syntax and parsing it yields the same configuration.", "quantifier": "every configuration whose strings contain no quote, newline or NUL", "why_tests_cant": "Round trip over all configurations.", "anchors": ["src/config_file_yacc.y", "src/config_file_lex.l"]}
{"id": "C47", "title": "Comments and blanks do not matter in config files", "statement": "Inserting whitespace, newlines or # comments between tokens does not change what a config file means.", "quantifier": "every token sequence and every spacing", "why_tests_cant": "All layouts.", "anchors": ["src/config_file_lex.l"]}
{"id": "C48", "title": "File lists are ordered and complete", "statement": "Iterating a file list yields every added name, in order, exactly once, then ends and rewinds; growth never loses an entry.", "quantifier": "every number of entries and every interleaving of add/get", "why_tests_cant": "Growth boundaries and all histories.", "anchors": ["src/filelist.c"]}
{"id": "C49", "title": "Command-line options mean the same in any order", "statement": "The outcome of option parsing depends only on which flags occur, on the last -f and -s, and on the order of the file operands; flags may be clustered and may follow operands.", "quantifier": "every argv", "why_tests_cant": "All argument vectors.", "anchors": ["src/parse_options.c:parse_options_getopt"]}
{"id": "C50", "title": "escape-utf-8 output is printable ASCII and reversible", "statement": "The escape-utf-8 helper maps every valid UTF-8 line to printable ASCII from which the original can be recovered.", "quantifier": "every sequence of Unicode scalar values", "why_tests_cant": "1.1M code points, unbounded sequences.", "anchors": ["src/escape_utf_8.c", "src/clean_utf_8.c:clean_utf_8"]}
{"id": "C51", "title": "Generated built-in table source denotes the table", "statement": "The C string literal printed by generate-builtin-table for a table entry, read by a C compiler, denotes the entry (with \\u and \\U escapes expanded). The tables in builtin_table.c and escape_utf_8.c agree with what it makes of the shipped table files.", "quantifier": "every entry text", "why_tests_cant": "All strings; escaping bugs hide in rare characters.", "anchors": ["src/generate_builtin_table.c:escape_string"]}
{"id": "C52", "title": "utf_8 output is not guaranteed to be well-formed UTF-8", "statement": "The output of the utf_8 filter (built-in table) is structurally UTF-8 (C12) but not always RFC 3629 UTF-8: there are names whose cleaned form still contains encoded surrogates.", "quantifier": "existence of a name, for the built-in table", "why_tests_cant": "A test of known-good names passes; the claim is about the whole output language.", "anchors": ["src/clean_utf_8.c:clean_utf_8"]}
{"id": "C53", "title": "An empty default falls through", "statement": "A table file whose default line gives an empty string ('default \"\"') or nothing sets no default translation, as detox.tbl(5) documents (refuted for the quoted empty string: the default becomes the word 'default').", "quantifier": "every such file, every locale", "why_tests_cant": "A corner of sscanf (a %[ conversion that matches nothing) that no test table contains.", "anchors": ["src/parse_table.c:parse_table", "man/detox.tbl.5"]}
{"id": "C54", "title": "A valid table is not rejected for its size", "statement": "Every well-formed table file loads, however many rows it has (refuted: tables with more than 500 rows and fewer than 6 bytes per row are rejected).", "quantifier": "every table file", "why_tests_cant": "Needs unusually dense files; the claim is over all files.", "anchors": ["src/parse_table.c:parse_table", "src/table.c:table_put"]}
{"id": "C55", "title": "Comment lines have no effect", "statement": "A line starting with # has no effect on the loaded table (refuted for lines over 1022 bytes: the remainder is read as a line of its own).", "quantifier": "every comment line", "why_tests_cant": "Tests never use lines longer than the buffer.", "anchors": ["src/parse_table.c:parse_table"]}
{"id": "C56", "title": "parse_file does exactly what it should", "statement": "For a file whose cleaned last component differs from the present one (and is not . or ..), parse_file looks up the old and the new path and then: leaves the file if it is gone; refuses with a message if the new name belongs to another file or the file has several links; under -n announces; otherwise announces if verbose and renames, reporting a failure. Nothing else happens and nothing is left out.", "quantifier": "every path, sequence, option set and every answer of every system call", "why_tests_cant": "Quantifies over all answers of lstat and rename for all names; tests can only provoke a few of these combinations on a real file system.", "anchors": ["src/file.c:69-161"]}
{"id": "C57", "title": "Every scanned entry is treated", "statement": "In a run that returns, every directory entry that is neither hidden nor in the ignore list (and whose name is at most 1022 bytes) is looked up under the path of its directory, and if it is a regular file or directory (or anything, with --special) it is treated completely by parse_file.", "quantifier": "every run, every directory content, every answer of the system calls", "why_tests_cant": "All directory trees, all readdir orders and all failure patterns.", "anchors": ["src/file.c:166-232"]}
{"id": "C58", "title": "Directories are read to the end and closed", "statement": "readdir and closedir are only applied to the directory opened last and not yet closed; a directory is closed only after its last entry was read; when a run returns, no directory is open.", "quantifier": "every run, every answer of the system calls", "why_tests_cant": "Handle leaks on rare paths show up only in very deep or large trees.", "anchors": ["src/file.c:192-231"]}
{"id": "C59", "title": "No endless loop between system calls", "statement": "Cleaning any name with any sequence terminates, and whatever the system answers, detox always reaches its next system call or ends.", "quantifier": "every name, table, sequence, platform, every run", "why_tests_cant": "Termination for all inputs cannot be observed by running.", "anchors": ["src/file.c:33-232", "src/detox.c:91-111", "src/clean_string.c", "src/clean_utf_8.c"]}
{"id": "C60", "title": "A failing lstat is taken for a free name", "statement": "If lstat on the new name fails for another reason than the name being free (EIO, ENOMEM, EOVERFLOW), detox goes on to rename and the file of that name is replaced.", "quantifier": "there exists an execution", "why_tests_cant": "Needs a fault in exactly one system call.", "anchors": ["src/file.c:parse_file"]}
{"id": "C61", "title": "Other processes matter only between check and rename", "statement": "Whatever other processes do to the file system and whenever, a rename by detox leaves every object with as many names as before the call, provided nobody interferes between detox's last lstat of the old name and that rename.", "quantifier": "every execution, every interleaving with arbitrary changes", "why_tests_cant": "All interleavings.", "anchors": ["src/file.c:parse_file"]}
{"id": "C62", "title": "A directory reached through itself is renamed but not scanned", "statement": "There is an undisturbed execution in which detox is given a directory, renames it, does not find it under the path it then uses and finishes without an error message and without scanning it.", "quantifier": "there exists an execution", "why_tests_cant": "Paths through the renamed directory itself are easily overlooked.", "anchors": ["src/detox.c:main", "src/file.c:parse_dir"]}
{"id": "C63", "title": "The config parser accepts exactly the documented grammar", "statement": "A config file is accepted iff its tokens are a sentence of the grammar (sequences of one or more methods with their options, ignore rules of one or more file names); it then has the effect of its rules, otherwise detox exits with status 1. Keywords are recognised in any letter case and must be quoted when used as names.", "quantifier": "every token sequence, in every layout, on top of every previous configuration", "why_tests_cant": "All texts; tests cover a handful of files.", "anchors": ["src/config_file_yacc.y", "src/config_file_lex.l"]}
{"id": "C64", "title": "Reading a config file is defined unless it has NULs or huge numbers", "statement": "Whatever bytes a config file contains, reading it either succeeds or is a reported syntax error, unless it contains a NUL byte or a number above INT_MAX; a NUL in a quoted string makes the scanner access memory behind a copied string, and a number above INT_MAX is passed to atoi, both undefined.", "quantifier": "every file content", "why_tests_cant": "Arbitrary bytes; fuzzing samples.", "anchors": ["src/config_file_lex.l", "src/config_file_yacc.y:parse_config_file"]}
{"id": "C65", "title": "Asking for information, dry runs and inline mode rename nothing", "statement": "With -h, -V, -L or an unreadable option detox only reads config files and writes messages; with these, with -n, with --inline and when called as inline-detox it renames nothing.", "quantifier": "every command line, environment, config file and file system", "why_tests_cant": "All combinations of options and files.", "anchors": ["src/detox.c:main", "src/parse_options.c:parse_options_getopt", "src/file.c:parse_file", "src/file.c:parse_inline"]}
{"id": "C66", "title": "The program as a whole renames only what it should and loses nothing", "statement": "Every rename the program does, from its command line on, gives the file the name made by the sequence chosen from the loaded configuration with its loaded tables, in the same directory, after the new name was found free or the same file; on a file system nobody else changes every file keeps its number of names and its contents.", "quantifier": "every command line, environment, config file, table file, file system, and every point at which detox may be killed", "why_tests_cant": "All executions of the whole program.", "anchors": ["src/detox.c:main", "src/file.c:parse_file"]}
{"id": "C69", "title": "Exit status", "statement": "detox ends with status 0 or 1. Unless it was asked for help, version or listing or could not read its options (status 0), ending early has status 1 and follows a message on standard error, or the usage message if there are no operands. A failing rename does not change status 0.", "quantifier": "every execution", "why_tests_cant": "All failure paths.", "anchors": ["src/detox.c:main", "src/parse_options.c:parse_options_getopt", "src/config_file.c:config_file_load", "src/filter.c:filter_load_table"]}
{"id": "C67", "title": "Where translation tables come from", "statement": "A filter with 'builtin' gets that compiled-in table; one with 'filename' the table in that file; any other the first table found in DATADIR/detox, /usr/share/detox and /usr/local/share/detox (paths of 256 bytes or more are skipped), else the compiled-in table of its cleaner. Loading fails only for a table named in the config file.", "quantifier": "every sequence and every content of the files", "why_tests_cant": "All combinations of files and filters.", "anchors": ["src/filter.c:filter_load_table", "src/filter.c:filter_find_table", "src/sequence.c:sequence_review"]}
{"id": "C68", "title": "-L lists exactly the configuration", "statement": "-L shows every sequence once in order, marks exactly the one that would be used, then the names to ignore; with -v also source file, cleaners, their options and tables. It then exits with status 0.", "quantifier": "every configuration and command line", "why_tests_cant": "All configurations.", "anchors": ["src/config_file_dump.c:dump_config_file", "src/detox.c:main"]}
{"id": "C70", "title": "Plain detox gives files clean names, in place, once", "statement": "When no config file is given or can be read, every rename that detox attempts is from a path to the same directory part followed by what the built-in sequence asked for makes of the last part. With the default sequence the new name has no shell-hostile character and the same non-ASCII bytes; no later run renames a file with a name so given. With nine of the eleven built-in sequences no file leaves its directory; uncgi-only and utf_8-only can move files.", "quantifier": "every command line, every file tree, every answer of the system calls, every execution", "why_tests_cant": "Relates the command line to the system calls over all executions.", "anchors": ["src/main.c:main", "src/file.c:parse_file", "src/config_file_spoof.c:spoof_config_file", "src/sequence.c:sequence_run_filters"]}
{"id": "C71", "title": "No run of detox has undefined behaviour or hangs on its own", "statement": "No execution of detox on files reads or writes outside an object, passes a bad argument to a library function or runs for ever between system calls, provided that config files hold neither NUL bytes nor numbers beyond int and the sequence in use is defined on the names that occur. With nothing configured the only names to be excluded are, for utf_8 and utf_8-only, those with an overlong encoding of NUL, for which the run does write out of bounds.", "quantifier": "every command line, every file tree, every answer of the system calls, every execution", "why_tests_cant": "Absence of undefined behaviour over all executions.", "anchors": ["src/main.c:main", "src/file.c:parse_dir", "src/file.c:parse_inline", "src/clean_utf_8.c:clean_utf_8"]}
{"id": "C72", "title": "What a run over files and directories does, exactly", "statement": "A run that returns treats the arguments in order; a directory is renamed first and then scanned under the name it has now, entry by entry to the end; hidden and ignored entries are passed over, files are treated by parse_file, directories likewise and then, with -r, scanned in the same way; special files are left alone without --special. Conversely, detox does exactly this whenever the system answers so.", "quantifier": "every run, every directory tree, every answer of the system calls", "why_tests_cant": "All trees and all failure patterns.", "anchors": ["src/detox.c:main", "src/file.c:parse_dir", "src/file.c:parse_file"]}
{"id": "C73", "title": "The compiled scanner tables do what the scanner rules say", "statement": "On every input the table-driven matcher that flex generated (config_file_lex.c) never indexes outside its tables, always finds a match, and yields the same token, value and remaining input as the rules in config_file_lex.l read with flex's longest-match, first-rule discipline and the -i flag of Makefile.am.", "quantifier": "every byte string", "why_tests_cant": "All inputs; the checked-in generated file can drift from its source unnoticed.", "anchors": ["src/config_file_lex.c:yylex", "src/config_file_lex.l", "src/Makefile.am:30"]}
{"id": "C74", "title": "The compiled parser tables do what the grammar says", "statement": "On every token sequence the LALR automaton that bison generated (config_file_yacc.c) stays inside its tables and its initial stack, reads only semantic values that were set, and ends with the same variables, or the same syntax error, as the grammar in config_file_yacc.y.", "quantifier": "every token sequence, every config file text, every previous configuration", "why_tests_cant": "All token sequences; the generated tables are opaque.", "anchors": ["src/config_file_yacc.c:yyparse", "src/config_file_yacc.y"]}
{"id": "C75", "title": "escape-utf-8 output is safe to use in a C string", "statement": "As the comment in escape_utf_8.c promises, what escape-utf-8 prints for a text can be put between double quotes in a C program, where by the rules of C it denotes the UTF-8 encoding of the text.", "quantifier": "every sequence of Unicode scalar values except NUL", "why_tests_cant": "Depends on pairs of adjacent characters; 1.1M code points squared and more.", "anchors": ["src/escape_utf_8.c:133", "src/escape_utf_8.c:generate_c_escape_table"]}
{"id": "C76", "title": "check-table accepts exactly what detox can load, and its silence on lengths is a guarantee", "statement": "The helper check-table accepts a table file if and only if detox loads it where no language block applies, and then holds the same mapping, default and longest entry (with or without -l). For a file in the documented format it prints exactly: a notice for each code that comes after a greater or equal one in its block, one for each language block passed over, and one if the longest row is shorter than some default translation or than one byte. If it accepts a file without the last warning, the filters never leave their buffers with the table loaded from that file, in any locale. The second check (-b) fails exactly if the file gives two translations for one code. A failure is reported by an error message, never by the exit status.", "quantifier": "all file contents, all documented files, all locales, all names to clean, all command lines and executions", "why_tests_cant": "The claim relates two parsers on all files and the silence of one program to the absence of buffer overflows in another for all names.", "anchors": ["src/check_table.c:34", "src/check_table.c:229", "src/check_table.c:240", "src/check_table.c:376", "src/table_dump.c:18", "src/parse_table.c:27"]}
{"id": "C77", "title": "What check-table lists and counts is what is in the table", "statement": "For a table file in the documented format, check-table prints (after the notices of C76) with -d a listing that has every code of the table exactly once, in the order of places, with the translation detox would use, and with -v also exactly the empty places; and then statistics in which used is the number of rows, overwrites is used minus the number of different codes, hits is the number of rows, misses is 0, seeks is at most (with -l exactly) the number of rows, longest entry and maximum key are those of the rows, available is the size of the table, and the default is that of the file. With -b and rows that agree, the same holds of the resized table, whose size is the next multiple of 256 and whose used is the number of different codes. The options -b, -d, -l, -v mean this in any order, grouped or not, repeated or not; -h prints the usage and nothing else.", "quantifier": "all documented files below 2 GiB, all option words, both kinds of getopt, all executions", "why_tests_cant": "The counters depend on the history of all insertions and on collisions; the listing on the placement of all rows.", "anchors": ["src/table_dump.c:18", "src/table_dump.c:37", "src/table.c:46", "src/table.c:116", "src/table.c:182", "src/check_table.c:376"]}
{"id": "C78", "title": "A syntax error is reported with the token at fault and its line", "statement": "When detox ends while it loads its configuration, the last message names the file and gives a line and a token. The token is the first one of that file that no config file can have at its place after what comes before (nothing is printed for it if the file ends too early), exactly as it is written there; the line is one plus the number of newlines before that place. Two exceptions are part of the statement: newlines in files read earlier are counted as well, and newlines that end a string without closing quote are not.", "quantifier": "all contents of all candidate files, all environments, all executions of config_file_load", "why_tests_cant": "Needs the notion of viable prefix of the grammar for every token sequence and every layout; the project's test compares three messages.", "anchors": ["src/config_file_yacc.y:257", "src/config_file_lex.l:26", "src/config_file.c:38"]}
{"id": "C79", "title": "A file list gives back all its memory and never uses memory it gave back", "statement": "Whatever sequence of put, get, reset and count is applied to a file list between filelist_init and filelist_free, no freed block is read, written or freed again and NULL is not followed; the answers are those of a list with a cursor; and after filelist_free every block that the list ever allocated (the structure, every block of pointers, every copied name) is freed while no other block has changed. If an allocation fails, whichever it is, the program prints the out-of-memory message and exits with status 1.", "quantifier": "all sequences of operations, all names, all heaps, all failures of the allocator", "why_tests_cant": "The block of pointers is replaced at every sixteenth name; the failing allocation can be any; a sanitizer sees one run.", "anchors": ["src/filelist.c:39", "src/filelist.c:81", "src/filelist.c:100", "src/wrapped.c:24", "src/wrapped.c:47"]}
{"id": "C80", "title": "A table uses only memory it has, and table_free leaves exactly the strings that were replaced", "statement": "Whatever sequence of insertions and lookups is applied to a table between table_init and table_free, no freed block is used or freed again and the answers are those of a map. After table_free no other block has changed, and of the table's own blocks exactly the replaced translations remain: one for every insertion of a code that was already there (table_put overwrites the pointer without freeing). table_resize makes a table that shares no block with the original, so the original can be freed before the copy is used; it loses nothing by itself. If an allocation fails, the program prints the out-of-memory message and exits with status 1.", "quantifier": "all sizes, all sequences of operations before and after resizing, hashed and linear, all heaps, all failures of the allocator", "why_tests_cant": "Which insertions replace depends on the whole history, collisions included; leaks show only under instrumentation.", "anchors": ["src/table.c:21", "src/table.c:46", "src/table.c:78", "src/table.c:116", "src/table.c:182", "src/wrapped.c:24"]}
{"id": "C81", "title": "The work of detox never uses memory it gave back, and ends in order when memory runs out", "statement": "From the moment main has its options and its configuration: whatever files, directories and streams there are, whatever the system answers, no block of memory is read, written or freed after it was freed, no string is stored in a block that is too small for it, and NULL is not followed (what a filter does beyond the end of its buffer is the subject of C17 and C40: such runs end there as undefined, and nothing is said about what would follow). If no allocation fails, the calls to the system and the output are exactly those of the description on values that the other properties use. If one fails, everything up to there is the same, and then the out-of-memory message is printed and the exit status is 1.", "quantifier": "all sequences (also with shared filters), arguments, ignore lists, answers of the system, failures of the allocator", "why_tests_cant": "Ownership of the strings changes hands in six places in parse_file alone, depending on the file system; a sanitizer sees one path.", "anchors": ["src/file.c:69", "src/file.c:166", "src/file.c:242", "src/sequence.c:98", "src/filter.c:194", "src/detox.c:88", "src/wrapped.c:24"]}
{"id": "C82", "title": "How much memory is leaked: one string for every name that is already fine, and more", "statement": "parse_file leaks the copy of the name exactly if the name is '.' or '..' or the filters leave it as it is, and nothing otherwise; parse_dir leaks its path buffer for every directory that is opened; main leaks the path that parse_file returns for every argument that is no directory; parse_inline leaks its line buffer for every stream, and every line that is '.' or '..'. There are no other leaks: when the work is done exactly this number of strings is left, no block points to them, and every other block is as before. The number has no bound: a directory with n clean names costs n + 2 strings.", "quantifier": "all runs", "why_tests_cant": "The number depends on which names change; tests do not look at memory that is lost.", "anchors": ["src/file.c:97", "src/file.c:112", "src/file.c:186", "src/file.c:277", "src/file.c:392", "src/detox.c:106"]}
{"id": "C83", "title": "No run of detox misuses memory", "statement": "From the first instruction of main on: whatever the arguments and the environment are, whatever the configuration and table files contain, whatever the system answers, and whichever call of wrapped_malloc or wrapped_strdup fails, no block of memory is read, written or freed after it was freed, no text is stored in a block that is too small for it, and NULL is not followed. (Runs that C17, C40, C54 or C64 show to be undefined end there. The strdup calls of the scanner, which are not checked, are taken to succeed here; see C85.)", "quantifier": "all command lines, environments, file contents, answers of the system, failures of the allocator", "why_tests_cant": "The pointers made by the parser, the table reader and the spoofed configuration (which shares filters between sequences) are used in all later parts; a sanitizer sees one run.", "anchors": ["src/detox.c:25", "src/parse_options.c:126", "src/config_file.c:38", "src/config_file_yacc.y:273", "src/config_file_spoof.c:84", "src/parse_table.c:27", "src/filter.c:131", "src/sequence.c:75", "src/file.c:69"]}
{"id": "C84", "title": "With pointers or with values: the same program", "statement": "If no allocation fails, the runs of the program with its linked lists, shared filters, buffers and global variables are exactly those of the description on values that the other properties use, with the same calls, the same output and the same end. If wrapped_malloc or wrapped_strdup gets no memory, the run is the same up to there, and then the out-of-memory message is printed and the exit status is 1.", "quantifier": "all command lines, environments, file contents, answers of the system, failures of the allocator", "why_tests_cant": "An equality of two programs on all inputs.", "anchors": ["src/detox.c:25", "src/wrapped.c:24", "src/wrapped.c:47", "src/config_file_yacc.y:273", "src/sequence.c:28", "src/filter.c:131"]}
{"id": "C85", "title": "What happens when the scanner gets no memory", "statement": "The scanner of the config file does not check its strdup calls. Whatever they return, the only fault is that NULL is followed, and that only if one of them returned NULL. It does happen for a quoted string. For a plain word the failure is silent: a sequence whose name got no memory is called default, so that it can take the place of another sequence and a file gets a name that the configuration does not ask for, with exit status 0.", "quantifier": "all command lines, environments, file contents, answers of the system, failures of the allocator and of strdup in the scanner", "why_tests_cant": "Needs a failure of one particular small allocation.", "anchors": ["src/config_file_lex.l:46", "src/config_file_lex.l:57", "src/config_file_yacc.y:273"]}
{"id": "C86", "title": "A recursive run misses nothing", "statement": "On a file system that nobody else changes, whose readdir gives every entry that keeps its name while the directory is read: when detox (no dry run) is done with arguments that it does not move itself, every entry of every directory it opened is hidden, ignored, or a special file; or has a name that the sequence makes of some name; or the user was told that it cannot be renamed. With -r, every directory among these was opened, or the user was told that it cannot be. So if nothing was written to standard error, all names in the whole tree below a directory given are clean, though entries are renamed while their directory is being read and directories are renamed before they are entered.", "quantifier": "all file systems that are trees, arguments, options, sequences that make no slash, orders and repetitions in what readdir gives, failing calls", "why_tests_cant": "The order in which readdir gives entries while they are renamed depends on the file system; a test sees the one of its own.", "anchors": ["src/file.c:69", "src/file.c:166", "src/file.c:201", "src/detox.c:88"]}
{"id": "C87", "title": "After a silent detox -r no hostile name is left", "statement": "`detox -r DIR ...` with no config file to read, on the file system of C86: if the program returns and nothing was written to standard error, no name in the tree below DIR contains a shell-hostile character, except hidden names, {arch}, what is below these, and special files (unless --special is given). With another built-in sequence that makes no slashes every such name is one that this sequence makes.", "quantifier": "all command lines with -r, environments, file systems that are trees, answers of readdir, failing calls", "why_tests_cant": "A statement about every tree of files.", "anchors": ["src/detox.c:25", "src/file.c:69", "src/file.c:166", "src/config_file_spoof.c:84"]}
{"id": "C88", "title": "Config files are read through the scanner's buffer without loss", "statement": "The generated scanner keeps a buffer that it fills by reads of any size, moves and enlarges; below it stdio keeps one of its own, filled by read(2) in pieces of any size, and a terminal is read line by line. Whatever the sizes of the pieces: if no read and no allocation of the scanner fails, detox does exactly what it does when it has each config file as a whole, and no access is outside the buffer or to bytes of it that were never written. If one fails, the program does the same or ends with status 2 and one of four messages; a configuration is never silently cut short. A directory as config file is such a case, and the message does not name it. The scanner repeats a read interrupted by a signal, but not always: if the signal comes when stdio has part of a block already, the program ends with status 2.", "quantifier": "all config files below 2^30-1 bytes (any bytes), all ways in which read(2) cuts them, all sizes of the buffer of stdio, terminals or not, all failures and interruptions of reads, all failures of allocations, all command lines and environments, any number of files one after the other", "why_tests_cant": "The buffer is 16 KiB and refilled only for long files or short reads; the ways to cut a file are exponentially many.", "anchors": ["src/config_file_lex.c:667", "src/config_file_lex.c:745", "src/config_file_lex.c:1113", "src/config_file_lex.c:1250", "src/config_file_lex.c:1284", "src/config_file_yacc.y:180"]}
{"id": "C89", "title": "The warnings", "statement": "Apart from warnings on standard error the program does the same with and without them. clean_utf_8 prints, in order, one line for each stray byte, each sequence that is cut off (by the end or by another character), each NUL that is not in the table and each value beyond U+10FFFF that is not in the table; nothing else, and nothing on well-formed UTF-8. max_length warns exactly if the name is too long and its extension leaves no room, and then returns the name unchanged; otherwise the result is within the limit. So if a sequence ends with max_length and nothing is printed, the new name is within the limit. Reading a table prints a message, naming the row, exactly if the table is given up.", "quantifier": "all strings, tables, limits, sequences, table files, command lines, environments, executions", "why_tests_cant": "The existing tests ignore standard error; the strings are unbounded.", "anchors": ["src/clean_utf_8.c:60", "src/clean_string.c:250", "src/parse_table.c:188", "src/sequence.c:98", "src/file.c:69"]}
{"id": "C90", "title": "A silent recursive run leaves a clean tree, with warnings counted", "statement": "If detox -r, with any configuration whose sequence makes no slashes, writes nothing at all to standard error (neither complaints of its own nor warnings of the filters), then every name in the tree below a directory it opened is hidden, or to be ignored, or below such a one, or a special file without --special, or is what the sequence makes of some name about which no filter printed anything. So with max_length as last filter all these names are within the limit, and no character the sequence keeps out is in any of them.", "quantifier": "all command lines, environments, config files, table files, trees, executions that return; all ways readdir may report entries renamed meanwhile", "why_tests_cant": "Trees, configurations and the orders in which readdir reports entries are unbounded; the tests look at single files and ignore standard error.", "anchors": ["src/file.c:178", "src/file.c:69", "src/sequence.c:98", "src/clean_string.c:250", "src/detox.c:88"]}
{"id": "C91", "title": "Which characters can be in new names", "statement": "For any sequence with any tables: a character in the new name that no filter can bring in was in the old name, and no filter replaces it; a character replaced by some filter and brought in neither by it nor by a later one is in no new name, whatever comes before. Tables bring in what is in their translations and default, utf_8 also the characters of _hidden_null_, lower small letters, uncgi everything, wipeup and max_length nothing. A table read from a file has only characters of the file, comment lines not counted. After safe with the compiled-in table followed by any of wipeup, lower, max_length nothing shell-hostile is left. A sequence that keeps / out or brings none in moves nothing out of its directory.", "quantifier": "all sequences, tables, table files, names, characters, platforms", "why_tests_cant": "Users write sequences and tables themselves; the tests use a few fixed ones.", "anchors": ["src/clean_string.c:29", "src/clean_string.c:90", "src/clean_utf_8.c:60", "src/clean_string.c:194", "src/parse_table.c:27", "src/filter.c:131"]}
{"id": "C92", "title": "Which names the built-in sequences leave alone", "statement": "The default sequence leaves a name exactly as it is if and only if the name has no shell-hostile character and no control character, does not begin with one of - _ # and has no two of - _ . in a row: the whole program, unconfigured, calls rename for no other file. lower leaves alone exactly the names that are tidy in that sense and have no capital letter, lower-only those without capital letters, iso8859_1-only those in ASCII, cp1252-only those without a byte between 0x80 and 0x9F, uncgi-only those without an encoded character or plus sign; iso8859_1, iso8859_1-legacy and utf_8 leave a name in ASCII alone exactly if it is tidy. After one run of default, utf_8, lower, utf_8-only or lower-only a second run changes nothing; for each of the other six there is a name that a second run changes again.", "quantifier": "all names, platforms, command lines; all executions of the whole program without a config file", "why_tests_cant": "A test can show that some clean names are left alone, not that all of them are, nor that no other name is.", "anchors": ["src/clean_string.c:29", "src/clean_string.c:90", "src/builtin_table.c:21", "src/clean_utf_8.c:60", "src/sequence.c:98", "src/file.c:69"]}
{"id": "C93", "title": "The dry run tells the truth", "statement": "On the same file system, with files as arguments no two of which have or should have the same name in the same directory, detox -n prints exactly the renames, in order, that detox then attempts; with -v both print exactly the same text; and every complaint of the dry run is made by the real run, too. With two files that should get the same name the dry run announces two renames although the real run does one and refuses the other.", "quantifier": "all options, sequences, lists of files, file systems, executions in which no other process interferes; renames may fail", "why_tests_cant": "The dry run and the real run are two executions on all possible file systems; tests compare neither.", "anchors": ["src/file.c:69", "src/file.c:142", "src/file.c:150", "src/detox.c:120"]}
{"id": "C94", "title": "Running detox again changes nothing", "statement": "After a recursive run of detox that wrote nothing on standard error, with a sequence for which one pass is enough (default, utf_8, lower, lower-only) and no ignored names in the directories gone through, a second run on the same file system with the same sequence, whose arguments are in these directories and have fine names themselves, leaves the file system exactly as it is: it calls rename not once, and prints nothing but, with -v, one line for each argument; so a dry run announces nothing.", "quantifier": "all file systems, options, arguments, names, orders of readdir; all executions of both runs in which no other process interferes", "why_tests_cant": "The tests run detox once on a small tree; that nothing is left to do is a statement about all trees and both runs.", "anchors": ["src/file.c:69", "src/file.c:171", "src/detox.c:131", "src/clean_string.c:90"]}
{"id": "C95", "title": "Inline mode is a filter on lines, from the command line to standard output", "statement": "In inline mode the whole program, when it ends normally, does exactly this: it reads the configuration, then looks at each file argument in turn, complains about missing files, directories and files it cannot open, and prints the text of every other one chunk by chunk, cleaned by the sequence in use; without arguments it does that with standard input. With nothing configured and the default sequence it prints nothing but newlines and characters that are not shell-hostile, exactly as many newlines as it has read, and all bytes that are not ASCII in their order, whatever the lengths of the lines. Standard input with lines shorter than 1007 bytes is printed line by line, each line as the built-in sequence asked for cleans it, with . and .. left alone. A second inline-detox behind a pipe changes nothing.", "quantifier": "all command lines, texts without NUL bytes, platforms, configurations (first theorem); all executions", "why_tests_cant": "The tests feed a few lines to inline mode; they cannot cover all texts, command lines and long lines.", "anchors": ["src/file.c:242", "src/file.c:279", "src/detox.c:112", "src/config_file.c:38"]}
{"id": "C96", "title": "A configuration means what it says, from the texts of the files to the new names", "statement": "If the config files in effect and the table files they use are written as the manual pages describe, then every file detox renames gets the name that the filters of the sequence asked for say, one after the other, where a table filter replaces each character by the last row for it in the text of the table (under the locale), else by its default, else not at all; utf_8 does so for every complete character, spells out a hidden NUL, and writes an underscore for a character above U+10FFFF and for each broken-off one. The texts can say only one thing. Two tables without default in a row work as one in which the first has precedence, if the second leaves the translations of the first alone. Where char is signed, rows of a safe table for bytes from 0x80 mean nothing, so the same files and the same command give different names on different machines. The example of the manual does what the manual says.", "quantifier": "all config texts and table texts in the documented formats, all command lines, locales, names without NUL, platforms with harmless ctype and pointer arithmetic; all executions", "why_tests_cant": "The tests use a handful of configurations and tables; the statement is about all texts, and the difference between machines cannot be seen on one of them.", "anchors": ["src/clean_string.c:90", "src/clean_string.c:29", "src/clean_utf_8.c:60", "src/config_file.c:38", "src/filter.c:30", "src/parse_table.c:27", "src/sequence.c:98", "man/detox.tbl.5:24", "man/detoxrc.5:33"]}
{"id": "C97", "title": "Detox over files, from the command line to the directories afterwards", "statement": "For files that are not directories, a command line that asks for renaming, well-written config files (or none) and tables the program has room for: if detox has the file system for itself and the system does every rename it can do, detox gets to its end and returns with status 0, without undefined behaviour. Afterwards every entry of every directory is as it was, but for the name of those that are the last component of an argument, should have another name according to the filters of the sequence asked for, and can have it; a name can be had if it is not empty, . or .., the system follows the path, and no other entry of the directory has it (the entry itself only if the file has no second link). Whatever the system answers, and for directories too, the program can only return, or give up because of too many open files. A name of which the filters leave nothing stays as it is, with a message.", "quantifier": "all command lines, config and table texts in the documented formats, file systems, file arguments no two of which have or should have the same place, platforms with harmless ctype and pointer arithmetic", "why_tests_cant": "The tests check a few directories with a few names; they cannot cover all file systems, configurations and sets of arguments, nor show that nothing else in the file system changes.", "anchors": ["src/detox.c:25", "src/file.c:69", "src/file.c:101", "src/file.c:166", "src/sequence.c:98"]}
{"id": "C98", "title": "What a tree of directories is like after detox", "statement": "Take a run of detox (with or without -r) that does not complain, with a sequence for which one pass is enough (default, utf_8, lower, lower-only), on a file system nobody else changes, whose arguments exist. Afterwards every entry of every directory is in the same directory and is the same file. Entries that are arguments, or that are in a directory that is an argument, or with -r in the tree below one, have exactly the name that the sequence makes of their old name. All other entries, hidden ones and what is below them, special files without --special, and everything outside, have the name they had. Ignored names are an exception in either direction (C34). So the result is determined: it depends neither on the order of the arguments nor on the order or the repetitions in which readdir gives the entries.", "quantifier": "all file systems that are trees, all arguments that are steady and exist, all runs without complaints, all orders of readdir, all names, any case folding under which the names that come up are written as they are", "why_tests_cant": "the claim is about every tree, every order in which entries are read while they are being renamed, and says what did not change as well as what did", "anchors": ["src/detox.c:25", "src/file.c:33", "src/file.c:69", "src/file.c:166", "man/detox.1:103"]}
{"id": "C99", "title": "detox has no complaints if there is room for the new names", "statement": "Take a run of detox (with or without -r) with a sequence for which one pass is enough, on a file system nobody else changes, whose arguments exist. Suppose that rename and opendir fail only if there is a reason for it, that no new name is empty, `.`, `..` or longer than 255 bytes, that no new name is that of another entry of the directory nor the new name of another entry, and that no entry to be renamed is named twice (by two arguments, or by an argument and a scan). Then detox writes nothing to standard error, and the tree afterwards is the one of C98.", "quantifier": "all file systems that are trees, all arguments that are steady and exist, all orders of readdir, all names", "why_tests_cant": "whether a rename meets an obstacle depends on all renames before it and on all names in the directory; the claim is for every tree and every order of readdir", "anchors": ["src/detox.c:25", "src/file.c:33", "src/file.c:69", "src/file.c:166"]}
{"id": "C100", "title": "detox comes to an end, and gets there", "statement": "Take a run of detox (with or without -r) on a file system nobody else changes. If no directory listing goes on for ever (readdir gives at most as many names as the limit chosen), then there is a number of system calls which no execution exceeds, whatever the system answers. If further the new names fit in a directory entry and descriptors do not run out, a run with enough recursion depth ends by returning, and not by exit, undefined behaviour or an endless loop. And detox gets there: for the default, utf_8, lower and lower-only sequences without configuration, on a tree where there is room for the new names, there is a complete run, and after it the directories are clean and nothing has been written to standard error.", "quantifier": "all file systems that are trees, all arguments, all answers of the system, all orders of readdir", "why_tests_cant": "detox lists a directory while renaming in it and descends into what it has just renamed; that it does not go round for ever is a claim about all trees and all answers of readdir", "anchors": ["src/detox.c:25", "src/file.c:33", "src/file.c:69", "src/file.c:166"]}
{"id": "C101", "title": "A dry run over a tree tells what the run will do", "statement": "Take detox -n (with or without -r) on a file system that is a tree and that nobody else changes. Afterwards the file system is as before. Every line on standard output is either `Scanning: ` with an argument (only with -v) or `OLD -> NEW` for an entry the run treats, OLD a path that leads to it and NEW the same path with the name the sequence makes of it, different from the old one. Every message on standard error has one of three reasons: an argument that does not exist, a directory that cannot be opened, a new name that is taken or cannot be used. Without messages every entry to be renamed is announced, at every depth. And if the run without -n then is silent too, exactly the announced entries have new names, and they are the names announced.", "quantifier": "all file systems that are trees, all arguments, all orders of readdir, all sequences (for the whole program: the builtin default, utf_8, lower and lower-only)", "why_tests_cant": "the dry run walks the tree under the old names and the real run under the new ones; that they reach the same entries is a claim about all trees", "anchors": ["src/file.c:33", "src/file.c:69", "src/file.c:166", "man/detox.1:84"]}
{"id": "C102", "title": "How long new names can be", "statement": "Under the compiled-in sequences a new name is at most k times as long as the old one, where k is 4 for default, iso8859_1, utf_8, uncgi and lower, 5 for iso8859_1-legacy, 2 for iso8859_1-only, 3 for cp1252-only and 1 for utf_8-only, uncgi-only and lower-only; and for every length there is a name for which it is exactly k times as long. So names of up to 63 bytes (51 under iso8859_1-legacy) become names that fit into a directory entry of 255 bytes, and there are names of 64 bytes that do not. In a tree whose names have at most 63 bytes detox gets to its end and leaves everything clean, provided no new name is empty or taken.", "quantifier": "all names, all lengths, all trees", "why_tests_cant": "a bound for all names; the worst case (only ampersands) is not what one tries", "anchors": ["src/builtin_table.c:54", "src/clean_string.c:90", "src/clean_string.c:194", "src/config_file_spoof.c:84"]}
{"id": "C103", "title": "The counters of the tables overflow, but not soon", "statement": "table_get counts hits, misses and seeks in ints that nothing reads. Apart from their overflow these counters make no difference: every execution of detox with counters is one of detox without them, or is cut short by the overflow of a counter (undefined behaviour), and conversely. It overflows only if the bytes of the names looked at and of the texts read, times what the tables of the sequence in use may make of one byte, exceed 2^31-1; with nothing configured the factor is at most 6. And it does overflow: inline-detox with nothing installed, reading short lines, has undefined behaviour exactly when more than 2^31-1 of their bytes have a row in the safe table, or more than 2^31-1 have none.", "quantifier": "all invocations, configurations, tables, answers of the system, texts", "why_tests_cant": "takes streams of more than two thousand million bytes, and the overflow does not show in the output", "anchors": ["src/table.c:182", "src/detox_struct.h:49", "src/clean_string.c:48", "src/clean_string.c:108", "src/clean_utf_8.c:158", "src/file.c:279"]}
{"id": "C104", "title": "What the locale changes", "statement": "detox calls setlocale(LC_CTYPE, \"\") when the first table file is examined, and never again. If only ASCII letters are letters of one byte in the locale of the environment (\"C\", UTF-8), detox does exactly what it does without the call. In any other locale the filter lower replaces exactly the bytes that are capitals there, nothing else changes, and detox does what it would do with lower replaced by a safe filter with a table of that locale: so nothing is lost and no buffer overflows there either. But in a locale with Latin-1 lower spoils UTF-8: the file É is renamed to a name that is not UTF-8, if a table file is installed, and left alone if none is.", "quantifier": "all locales with characters of one byte, invocations, configurations, answers of the system", "why_tests_cant": "tests run in one locale with one installation", "anchors": ["src/parse_table.c:49", "src/clean_string.c:318", "src/sequence.c:75", "src/filter.c:131", "src/file.c:69"]}
{"id": "C105", "title": "Inline mode as a filter whose input comes in pieces", "statement": "However the input of inline mode is cut into pieces by the reads, detox does the same: the same calls in the same order, the same output and the same outcome as when it has the whole text of each file from the start; every way to cut a text is possible. When detox asks for more input, it has printed all that it ever prints for the input so far, apart from an unfinished part at the end without a newline and shorter than 1024 bytes; so with nothing configured every complete line has been answered. If a read fails, the output is that of a text that ends there, without its unfinished line; nothing but newlines and harmless characters is printed and as many newlines as were delivered. But the failure is not reported and the exit status is 0. With a non-blocking descriptor a line may be cut where the input came late, and what is printed is then not what the whole line would give.", "quantifier": "all command lines, configurations, answers of the system, and all ways to deliver the input in pieces, with failures of read", "why_tests_cant": "tests have a file or a pipe whose content comes in one piece, and no I/O errors", "anchors": ["src/file.c:242", "src/file.c:279", "src/file.c:336", "src/detox.c:112"]}
{"id": "C106", "title": "Several detox processes at the same time", "statement": "Let several detox processes run at the same time over files that are not directories, each with its own command line, config files and tables, their system calls interleaved in any way. If no file of one process has, or should get, the same place as a file of another, each process gets the answers, and the file system ends up, as if they had run one after the other, in whatever order; at every moment every object has as many names as before; and if the system does every rename it can do, in the end exactly those arguments of any of them that can have the name they should have, have it, and nothing else changed. If the places are the same, a file can be lost: detox 'a b' and detox 'a  b' both find a_b free, both rename, both end with status 0 and without a message, and one of the files is gone; this cannot happen if they run one after the other.", "quantifier": "all numbers of processes, all interleavings of their calls, all command lines, configurations, file systems", "why_tests_cant": "the interleavings cannot be enumerated; tests run one process", "anchors": ["src/file.c:124", "src/file.c:130", "src/file.c:151", "src/detox.c:102"]}
{"id": "C107", "title": "A table file as the system delivers it", "statement": "However a translation table comes in pieces from read, the table that detox builds, and its messages, are those for the text as a whole. The size that stat gives only decides whether there is a table: with two sizes there is none, or the lookups, the default and the cleaned names are the same. A table in the documented format is read exactly if its rows that take effect are at most 500 or at most a sixth of the size; so a table of more than 500 rows that loads from a file is given up when it comes from a pipe. If a read fails, the lines that were complete until then are taken for the whole table, and nothing is written to standard error. There is no other outcome: no exit, no undefined behaviour, no endless loop.", "quantifier": "all texts, all ways to cut them into pieces, all points at which a read fails, all sizes, all locales", "why_tests_cant": "tests read small regular files whose reads do not fail and whose size is right", "anchors": ["src/parse_table.c:44", "src/parse_table.c:56", "src/parse_table.c:86", "src/parse_table.c:186"]}
{"id": "C108", "title": "detox can be stopped at any moment and run again", "statement": "With nothing configured and one of the sequences default, utf_8, lower and lower-only, on a tree of directories: whenever detox stops (killed between two calls, out of file descriptors, or at its end), every entry is still in its directory, is the same file, and has the name it had or the name it should have; only entries to be treated have other names. If the arguments have clean names and no directory gets a name that is skipped, a later run with the same arguments, after any number of stopped ones, that ends without complaints leaves the tree that a single run would have left; and if there was room for the new names, such a run exists, and all runs in which the system does what it can are free of complaints. Without the second condition it is false: a directory that becomes hidden when it is renamed (-.x becomes .x) is never looked into again if detox is killed before it has been scanned.", "quantifier": "all trees, all arguments, all points at which it is stopped, any number of stopped runs, all orders of readdir, all errors", "why_tests_cant": "tests run detox to its end; there are as many places to stop as there are calls", "anchors": ["src/file.c:151", "src/file.c:205", "src/file.c:219", "src/file.c:221", "src/detox.c:93"]}
{"id": "C109", "title": "Names in UTF-8 stay in UTF-8", "statement": "If every filter of a sequence is lower, wipeup, utf_8, or iso8859_1 or safe with a table that translates all or none of the bytes that are not ASCII, and what the tables put into names is UTF-8, then the sequence makes UTF-8 of UTF-8. The built-in tables meet this, so with eight of the eleven built-in sequences (the default included) no path in UTF-8 is renamed to one that is not, at any moment of a run all names of the tree are UTF-8 if they were, and inline mode prints UTF-8 for UTF-8 whatever the lengths of the lines; iso8859_1, iso8859_1-legacy and iso8859_1-only make UTF-8 of any name. max_length keeps UTF-8 exactly if the first byte it drops does not go on with a character (so it can cut a character in two), uncgi does if all escapes are ASCII characters; cp1252-only and the uncgi sequences can break UTF-8.", "quantifier": "all names in UTF-8, all sequences of filters, all tables, all texts read in inline mode, all executions", "why_tests_cant": "the tests look at a few accented names with the built-in tables; which combinations of filters and limits break names is not looked at", "anchors": ["src/clean_string.c:29", "src/clean_string.c:90", "src/clean_string.c:143", "src/clean_string.c:250", "src/clean_string.c:305", "src/clean_utf_8.c:60"]}
{"id": "C110", "title": "What is printed arrives, or nobody is told", "statement": "However standard output is buffered and whatever becomes of the writes: nothing arrives that was not printed, nothing twice, nothing in another order. If no write fails, what has arrived at any moment is a beginning of what was printed, and all of it when the program ends. The other system calls do not depend on any of this, and neither does the exit status: every execution, with the same calls and the same end, is also possible with a standard output that refuses everything. With -v every rename is reported right before it is tried and nothing else is reported, so the report of a run whose writes work lists exactly the renames tried, in order. A reader that goes away kills detox; then each file has its old name or the one it should have, detox can be run again, and renames may be done that were not reported.", "quantifier": "all programs of the model (detox and inline-detox with any command line, any files), all ways of buffering, all answers of write, all moments", "why_tests_cant": "the tests read what detox prints from a pipe that works; no test has a full disk or a reader that goes away, and the moments of the writes depend on the library", "anchors": ["src/detox.c:94", "src/file.c:143", "src/file.c:408", "src/file.c:415", "src/parse_options.c:146"]}
{"id": "C111", "title": "The work is in proportion to the files", "statement": "At any moment, whatever the system answers, the calls detox has made after reading its configuration are at most eleven for each argument and each directory entry it was given; of these at most one rename and (with -r) one opendir for each, four lstat, and without -r one opendir for each argument. The directories it has open lie one in another: there are never more than names in the path opened last, and without -r never more than one. All these bounds are reached.", "quantifier": "all command lines that ask for renaming, all configurations and sequences, all answers of the system, all moments", "why_tests_cant": "the tests look at the tree after a run on small trees; they do not count calls, and no test can show a bound for all trees", "anchors": ["src/detox.c:92", "src/file.c:102", "src/file.c:192", "src/file.c:205"]}
{"id": "C112", "title": "As much as can be done where new names collide", "statement": "On a file system where names that are written differently are different, with a sequence for which one pass is enough and a system that does what it can, after any run that returns - with complaints or without - each entry that was to be renamed has its new name, unless it still has its old one and, in the tree as it is afterwards, cannot have the new one: that name is none an entry can be given, or another entry of the same directory has it. All other entries have the names they had. So every name that some entry was to get, and that an entry can be given, is in use afterwards; and where no names collide the tree is the one of C98.", "quantifier": "all trees, all command lines with existing arguments that name no entry twice, all orders of readdir, all runs that return", "why_tests_cant": "which of several entries gets the name depends on the order of readdir; the tests have one collision on one file system", "anchors": ["src/file.c:131", "src/file.c:135", "src/file.c:153"]}
{"id": "C113", "title": "Tables in a row", "statement": "Any number of safe filters, of iso8859_1 filters or of utf_8 filters in a row whose tables, but for the last, have no default, and each of which leaves alone what the tables before it put into names, make of every name what one filter would with a table that has for each character the first row there is, and the default of the last. For utf_8 the tables after the first must not be about a hidden NUL or values beyond U+10FFFF, and must leave '_' and '_hidden_null_' alone; the compiled-in unicode table is such a one, so the chain in the example of detoxrc(5) works. For two safe or iso8859_1 tables the condition is exact: they work as one table if and only if the second leaves alone what the first puts in. The two tables of iso8859_1-legacy do not. And a default in the first table hides the second.", "quantifier": "all lists of filters with tables from files or compiled in, all locales, all names", "why_tests_cant": "the tests run single filters, and the shipped chain on a few names", "anchors": ["src/clean_string.c:57", "src/clean_string.c:109", "src/clean_utf_8.c:158", "src/clean_string.c:60"]}
{"id": "C114", "title": "The legacy tables", "statement": "The four files in table/legacy, as they are: each parses under every locale into a table all of whose translations are printable ASCII; cp1252.tbl has no default, the others have '_'; unicode.tbl and unidecode.tbl have every printable ASCII character for itself; the blocks for German are used if and only if the locale begins with 'de', in any case. So the iso8859_1 filter with iso8859_1.tbl makes ASCII of every name, also with cp1252.tbl in front of it (the two then work as one table); the utf_8 filter with unicode.tbl or unidecode.tbl makes printable ASCII of every name whatever its bytes, keeps names of printable ASCII, and with the compiled-in safe table and wipeup with remove_trailing behind it makes every name tidy. unidecode.tbl, unlike the other three, puts slashes into names that have none, and has an empty translation for U+1FEE where its line has one in quotes.", "quantifier": "all locales, all names, all paths of the files", "why_tests_cant": "the files have over 10000 lines, and the tests use hardly any of them; the names are without bound", "anchors": ["src/parse_table.c:86", "src/parse_table.c:105", "src/clean_string.c:57", "src/clean_utf_8.c:158", "src/clean_string.c:109"]}
{"id": "C115", "title": "What the switches change", "statement": "In inline mode -n, -r, -v and --special change nothing at all, and inline-detox is the same program as detox --inline (the texts of -h, -V and for unreadable options aside). With -L nothing matters but -v, -f and the sequence asked for. Otherwise -v adds lines 'Scanning: ...' and '... -> ...' to the output and does nothing else: the executions with it are those without it with such lines put in, at every moment and to the end; with -n it adds the lines 'Scanning: ...' only. How often a switch is given does not matter, nor does the name of the program. --special changes nothing as long as only regular files and directories are met. Against detox(1), -n does not imply all of -v; against inline-detox(1), -v lists no changes in inline mode.", "quantifier": "all command lines, all answers of the system, all moments of a run", "why_tests_cant": "pairs of executions have to be compared, over all answers of the system", "anchors": ["src/detox.c:93", "src/file.c:142", "src/file.c:224", "src/parse_options.c:136", "src/config_file_dump.c:24"]}
{"id": "C116", "title": "Several detox -r processes at the same time", "statement": "Several detox processes may work in one file system at the same time, with -r, with their directories open while others rename, and with their system calls interleaved in any way. If no directory belongs to the trees of two of them, and the arguments and the names they should get lie at different places and not in a tree of another, then at any time each process has got exactly the answers it would have got alone; every entry is where it was; the entries of a process's trees have the names that process alone would have given them; all other entries have the names they had; nothing is lost or doubled. With nothing configured, a usual sequence and no error message, in the end every entry one of them was to treat has the name the filters of that process give it. Processes with -n, in inline mode, or that only list or explain, disturb nobody, whatever they look at.", "quantifier": "any number of processes, all configurations, all interleavings, all moments, all file trees", "why_tests_cant": "interleavings of system calls cannot be enumerated or forced from outside", "anchors": ["src/detox.c:133", "src/file.c:106", "src/file.c:142", "src/file.c:224"]}
{"id": "C117", "title": "What a tree of directories is like after detox, whatever is configured", "statement": "Take any configuration that is well written: config files anywhere detox looks or named with -f, table files anywhere, any sequence chosen in any way, names to ignore. Take a run of detox (with or without -r) that does not complain, on a file system nobody else changes, whose arguments exist. If the filters of the sequence leave alone what they have made, and make no slashes, then afterwards every entry of every directory is in the same directory and is the same file; arguments and what is in the directories scanned have exactly the names that the config files and table files, read as text, say; everything else has the name it had. A safe or iso8859_1 filter leaves alone what it has made if and only if it does so for single characters; for any number of safe, iso8859_1 and lower filters, with a wipeup at the end or not, it is enough that they leave alone each character they ever put into a name. The example in the manual is such a configuration, in every locale. For a table that exchanges two letters it is false: readdir may give a file again after it was renamed, it is renamed back, and detox ends without a complaint with the old name in place.", "quantifier": "all config files and table files that are well written, all locales, both signednesses of char, all file systems that are trees, all arguments that are steady and exist, all runs without complaints, all orders of readdir, all names", "why_tests_cant": "the claim is about every configuration together with every tree and every order of readdir; the counterexample depends on readdir giving a renamed entry again", "anchors": ["src/detox.c:25", "src/file.c:69", "src/file.c:166", "src/config_file.c:1", "src/parse_table.c:27", "src/sequence.c:1", "man/detox.tbl.5:60"]}
{"id": "C118", "title": "Complaints, collisions, dry runs and second runs, whatever is configured", "statement": "Take any well-written configuration whose filters leave alone what they have made and make no slashes, and a file system nobody else changes. (1) If the system does what it can, there is room for the new names and no entry to be renamed is named twice, detox writes nothing to standard error and every entry that is to be renamed has the name the configuration says. (2) Complaints or not, where names written differently are different, every entry to be renamed has its new name, or has the name it had and cannot have the new one in the tree as it is now. (3) A dry run with -n and then a real run with the same configuration, both without complaints: the dry run changes nothing, every line it prints is about a rename the real run does, and every rename the real run does is announced. (4) After detox -r without complaints a second run on what the first went through calls rename not once, changes nothing, and prints nothing but the lines of -v about its arguments. In particular reading a well-written configuration prints nothing.", "quantifier": "all config files and table files that are well written, all locales, both signednesses of char, all file systems that are trees, all arguments that are steady and exist, all orders of readdir, all names, all answers of the system", "why_tests_cant": "the claims compare two runs, or a run and a whole tree, for every configuration; tests have a few configurations and a few trees", "anchors": ["src/detox.c:25", "src/file.c:69", "src/file.c:166", "src/config_file.c:1", "src/parse_table.c:27", "src/config_file_lex.l:1"]}
{"id": "C119", "title": "Which configurations need one pass only: max_length and utf_8", "statement": "(1) Filters that work character by character (safe, iso8859_1, lower, with any tables), then at most one wipeup without remove_trailing, then max_length: if the filters of the first kind leave alone every character they ever put into a name, the whole sequence leaves alone every name it has made, and makes no slashes and no empty bytes if they do not. (2) With remove_trailing in the wipeup this is false: abc_d.txt becomes abc_.txt with max_length 8, which the next pass makes abc.txt. (3) A utf_8 filter with any table, then filters that work character by character, then at most one wipeup: the same is true if the filters before wipeup make of every UTF-8 character, and of a byte that is none, only characters they leave alone. (4) With max_length after utf_8 this is false: ab followed by U+4E2D cut behind four bytes ends in half a character, which the next pass makes an underscore.", "quantifier": "all names, all tables, all sequences of the forms given, all limits, all locales, both signednesses of char", "why_tests_cant": "a test sees single names and a single table; the claim gives a condition on the characters of the tables that is enough for all names", "anchors": ["src/clean_string.c:250", "src/clean_string.c:194", "src/clean_utf_8.c:60", "src/sequence.c:1"]}
{"id": "C120", "title": "Getting there, and runs that are stopped and run again, whatever is configured", "statement": "Take any well-written configuration whose filters leave alone what they have made and make no slashes, and a file system nobody else changes. (1) If there is room for the new names and no entry to be renamed is named twice, there is an execution of detox in which the system does what it can; it ends, there are no complaints, and every entry to be renamed has the name the configuration says. (2) Whenever detox is stopped (killed, out of file descriptors, or at its end, complaints or not), only names are different, and every entry has the name it had or is one to be renamed and has the name the configuration says. (3) However often it was stopped, if the arguments have clean names and no directory would get a name that is skipped, a last run without complaints leaves the tree as if there had been no other; with room for the names there is such a run, and every last run in which the system does what it can is one. (4) If no name is one to be ignored, the last run ends in the very state in which a run would have ended that was never stopped.", "quantifier": "all config files and table files that are well written, all locales, both signednesses of char, all file systems that are trees and in which names written differently are different, all moments at which a run may be stopped, any number of runs, all orders of readdir", "why_tests_cant": "the claim is about every moment of every execution with every configuration; a test stops a run at a few moments", "anchors": ["src/detox.c:25", "src/file.c:69", "src/file.c:166", "src/config_file.c:1", "src/sequence.c:1"]}
{"id": "C121", "title": "Several detox processes at the same time, each with a configuration of its own", "statement": "Several detox processes work at the same time on one file system (a tree in which names written differently are different, in which their arguments exist), their calls interleaved in any order, each over its own trees (no path that concerns an argument of one is the place of an argument of another, and no directory is under arguments of both), each with its own well-written configuration whose filters leave alone what they have made and make no slashes. (1) At any moment, whether the processes are at their end, still at work or killed, every entry has the name it had, or belongs to what one of them is to treat and has the name that the configuration of that one says; nothing else is changed. (2) When all have come to their end without complaints, every entry one of them is to treat has the name that the configuration of that one says, whatever the others are configured to do; what nobody is to treat has the name it had.", "quantifier": "all numbers of processes, all configurations, tables, locales and command lines per process, all such file systems, all interleavings, all moments", "why_tests_cant": "the interleavings of a handful of processes over small trees are already too many to run, and which one happens is not under the control of a test; the configurations are without bound", "anchors": ["src/config_file.c:1", "src/detox.c:133", "src/detox.c:25", "src/file.c:106", "src/file.c:142", "src/file.c:166", "src/file.c:224", "src/file.c:69", "src/sequence.c:1"]}
{"id": "C122", "title": "What a run leaves when the filters do not settle", "statement": "For any well-written configuration whose filters make no slashes, whether or not they leave alone what they have made (tables that swap letters, chains in which one filter makes what an earlier one would change): (1) at any moment of a run without --dry-run on a file system that nobody else changes and in which no directory contains itself, every entry is in the directory it was in, and its name is what the filters make of the old name, applied some number of times (none, once, or more: readdir may return a renamed entry again). (2) Hence, where names written differently are different, a name with a property that the filters keep still has it. (3) A name that is not the old one has every property that the filters always bring about. (4) After `detox -r DIR` without complaints, in a file system that is a tree, every name below DIR is hidden, to be ignored, of a special file (without --special), or has every property that the filters always bring about.", "quantifier": "all configurations, tables, locales, command lines, file systems, directory orders, answers of the system, moments", "why_tests_cant": "whether an entry is seen twice depends on the directory order of the file system; the configurations and the number of applications are without bound", "anchors": ["src/config_file.c:1", "src/detox.c:25", "src/file.c:166", "src/file.c:69", "src/sequence.c:1"]}
{"id": "C123", "title": "One run finishes the work of many that were stopped", "statement": "Take any well-written configuration whose filters leave alone what they have made and make no slashes, and arguments with clean names on a file system that is a tree in which names written differently are different. There are any number of rounds; in each of them any number of detox processes do parts of the work at the same time, their calls interleaved in any order, each over its own trees (some of the arguments, with or without -r or --special if the whole work is with them, any config files and tables that say the same of names), and each comes to its end, is killed or complains. (1) At any moment only names are different, and every entry has the name it had or is one to be renamed and has the name the configuration says. (2) If no directory would get a name that is skipped, one more run over all arguments that comes to its end without complaints leaves the tree as if there had been no other. (3) With room for the new names there is such a run, and every complete run in which the system does what it can is one. (4) If no name is one to be ignored, it ends in the very state in which a run would have ended that was alone from the start.", "quantifier": "all configurations, tables, locales, command lines per process, numbers of rounds and processes, interleavings, moments at which each process is stopped, file systems that are trees", "why_tests_cant": "the moments at which several processes can be stopped multiply with their interleavings and with the rounds; no test can go through them, and the state left behind is different for each", "anchors": ["src/config_file.c:1", "src/detox.c:133", "src/detox.c:25", "src/file.c:106", "src/file.c:142", "src/file.c:166", "src/file.c:224", "src/file.c:69", "src/sequence.c:1"]}
{"id": "C124", "title": "File systems on which upper and lower case are the same", "statement": "Take a file system that takes some names written differently for the same, and any well-written configuration whose filters make no slashes and give only names that it takes for the old ones (such as `lower` where the case of letters does not matter). At any moment of any run of detox on it, every entry is where it was, under a name the file system takes for the one it had, and only entries whose object has a single link have a name written differently: a directory for which lstat reports two links or more, as most file systems do, keeps its name, and so does a file with several names. A file whose new name leads to itself is refused with the message that the file already exists if it has two links or more; otherwise the rename is tried. So `detox -s lower-only -r Docs` where case is ignored renames Docs/README to Docs/readme, and refuses to rename Docs because \"docs\" is Docs itself.", "quantifier": "all file systems with any notion of sameness of names per directory, all configurations, tables, command lines, answers of readdir, failing renames, moments", "why_tests_cant": "test systems compare names byte by byte, where the branch for the own name is never taken with a link count above 1; the general statement is about all trees, orders and moments", "anchors": ["src/file.c:126", "src/file.c:132", "src/file.c:151", "src/clean_string.c:clean_lower"]}
{"id": "C125", "title": "Arguments that end in a slash", "statement": "Of an empty name every filter and every sequence makes an empty name. Hence no path that detox gives to rename as the old one ever ends in a slash, whatever the command line, the configuration, the tables and the system's answers. `detox DIR/` (with a sequence that does not fail on an empty name) asks lstat about the argument and then does exactly one of these: complains that it is not there, does nothing as it is not a directory, or goes through the directory; with a well-written configuration and no complaints the entries in it are treated as C117 says and the directory keeps its own name, however unclean. A symbolic link to a directory, given with a slash behind it, is followed, though the manual says detox does not go into such links, and without the slash it does not.", "quantifier": "all command lines, configurations, tables, file systems and answers; for the last sentence a concrete pair of runs", "why_tests_cant": "the number of filter sequences, trees and arguments has no bound; scripts with shell completion add the slash, which silently changes what is renamed", "anchors": ["src/file.c:71", "src/file.c:176", "src/detox.c:95", "man/detox.1:104"]}
{"id": "C126", "title": "One run with many arguments, or many runs with one", "statement": "Every run of detox over files that gets to its end first reads its configuration and tables, then does its work. Given the same configuration, `detox [options] f1 … fn` and `detox [options] f1; …; detox [options] fn` are the same: whatever the system answers, the calls of the one run, after the configuration was read, are exactly those of the many runs one after the other, with the same effect on the file system, provided no name that directories deliver is one to be ignored. (So xargs may split a list of files as it likes.) With ignored names it is not so: in `detox d e`, where both directories have an entry `{arch}`, the one in e may be renamed, as the place in the ignore list is kept from one argument to the next, while `detox e` alone leaves it as it is.", "quantifier": "all command lines, configurations, tables, lists of arguments, answers of the system, file systems; an equivalence of runs", "why_tests_cant": "a test compares one list of arguments split one way; state carried over from one argument to the next shows only for certain contents of directories", "anchors": ["src/detox.c:92", "src/file.c:33", "src/filelist.c:62"]}
{"id": "C127", "title": "A sequence in two parts", "statement": "A sequence can be applied in parts. If detox is run over a tree with the first filters of a sequence and then, with the same arguments and options, with the rest, both times without complaints, each entry to be treated has the name that all the filters make of the one it had at first, and the file system is in the very state in which one run with the whole sequence leaves it. Asked for: the first filters leave the names of the arguments as they are, and make no name that is hidden or to be ignored. Without this it is not so: `wipeup` makes `.AB` of `-.AB`, which a run with `lower` does not look at, while one run with `wipeup` and `lower` makes it `.ab`.", "quantifier": "all trees, all configurations in which each of the three sequences settles, all splits of a sequence, all answers of the system compatible with a file system", "why_tests_cant": "a test runs one sequence over one tree; here the tree of the second run is whatever the first has left, directories under new names included", "anchors": ["src/file.c:33", "src/file.c:165", "src/detox.c:92"]}
{"id": "C128", "title": "Arguments that are covered by others, and arguments that are gone", "statement": "Arguments that ask for nothing new change nothing: two runs of detox with the same options and configuration, one with some arguments and one with more that are covered by these — the entry is one of an argument or in a directory that is scanned, and if it is a directory it is scanned anyway — leave the file system in the same state if both have no complaints. With -r, every argument directly in a scanned directory is covered unless its name is hidden (`detox -r 'a b' .` is `detox -r .`). An argument that is not there (any more) costs exactly one failing lstat and one message, after the configuration was read, and the file system stays as it is.", "quantifier": "all trees, configurations for which one pass is enough, lists of arguments, answers of the system compatible with a file system", "why_tests_cant": "overlapping arguments interact through renames that were already done; there are arbitrarily many overlaps", "anchors": ["src/detox.c:92", "src/detox.c:98", "src/file.c:165"]}
{"id": "C129", "title": "Inline mode and renaming agree", "statement": "`ls | inline-detox` foretells `detox *`: if detox renames files without complaints, and inline-detox, with the same filters, locale and table directory, is given on standard input the names of entries that were to be treated, one on each line, it prints exactly the names these entries have now, in the same order. More generally, with any well-written configuration, whatever text inline-detox reads (standard input, or files): if its lines have less than 1007 bytes and no NUL, each line is printed as the filters of the sequence asked for say, by the texts of config file and tables (`.` and `..` as they are), and nothing else is printed. A name with a newline is two lines: of `a`, newline, `-b` inline mode makes something else than the name the file gets.", "quantifier": "all platforms on which the ctype calls are defined, config files, tables, command lines, texts, trees; all lists of names", "why_tests_cant": "the two modes share the filters but neither the reading of names nor the loop; a test compares them for some names", "anchors": ["src/file.c:242", "src/detox.c:127", "src/sequence.c:98"]}
{"id": "C130", "title": "Configurations that mean the same", "statement": "What becomes of a tree is decided by what the filters say, not by how it is written. Two runs of detox over the same tree, with the same arguments and the same -r and --special, each with its own config files, tables, locale and sequence, both without complaints: if the two sequences make the same of every name, the file system is in the same state afterwards; and inline mode prints the same for the same text. So it does not matter where a config file is, how its sequence is called, and where a table comes from (a filter says what its table says, be it built in, named, found, or built in for lack of a file); `lower` or `wipeup` twice in a row is the same as once, and `lower` and `wipeup` can be exchanged.", "quantifier": "all pairs of configurations, of which the first settles; all trees, names, texts; all answers of the system compatible with a file system", "why_tests_cant": "it relates all pairs of configurations over all trees; a test compares two configurations over one tree", "anchors": ["src/sequence.c:98", "src/config_file.c:38", "src/clean_string.c:194", "src/file.c:69"]}
{"id": "C131", "title": "From wherever detox is called", "statement": "`detox -r d`, `detox -r /home/d` and `cd d; detox -r .` do the same to what is in `d`. Two runs of detox over the same tree, from different working directories, with arguments that ask for the same directories and for the same entries (an entry whose name is clean may be asked for by one of them only), with the same -r and --special, each with its own config files, tables, locale and sequence, both without complaints: if the two sequences make the same of the names in the tree, every entry has the same name afterwards.", "quantifier": "all pairs of working directories, argument lists and configurations that settle; all trees; all answers of the system compatible with a file system", "why_tests_cant": "it relates all pairs of working directories and argument lists over all trees; a test compares two calls over one tree", "anchors": ["src/detox.c:92", "src/file.c:69", "src/file.c:166"]}
{"id": "C132", "title": "The order of the filters", "statement": "With the compiled-in tables, two different filters can be exchanged (make the same of every name in either order) if and only if one of them is lower and the other one is wipeup, max_length, safe or iso8859_1; for each other pair there is a name of which they make something else. With any tables: lower can be exchanged with max_length whatever the limit, with safe if the table treats capitals like small letters but for case, with iso8859_1 if the table has no capitals; iso8859_1 with wipeup if the table makes something without `-`, `_`, `#`, `.` of every character that is not ASCII; two filters that work character by character exactly if they can be exchanged on names of one character. What can be exchanged can be exchanged in any sequence.", "quantifier": "all pairs of filters, all tables from files or compiled in, all names, all locales, both signednesses of char", "why_tests_cant": "equality of two orders is a claim about all names and all tables", "anchors": ["src/sequence.c:98", "src/filter.c:194", "src/clean_string.c:194"]}
{"id": "C133", "title": "The same filter twice", "statement": "With the compiled-in tables, a filter given twice in a row makes of every name what it makes of it once if and only if it is neither uncgi nor iso8859_1 (`%2541` becomes `%41` and then `A`; a Latin-1 letter becomes UTF-8, whose bytes are then taken for Latin-1 letters). With any limit max_length can be repeated; with any table safe and iso8859_1 can be repeated exactly if they leave alone what they make of single characters; utf_8 can be if the table has no default, leaves alone what is in its own rows, and has no rows about a hidden NUL or values beyond U+10FFFF.", "quantifier": "all filters, all tables from files or compiled in, all names, all locales, both signednesses of char", "why_tests_cant": "idempotence is a claim about all names and all tables", "anchors": ["src/filter.c:194", "src/clean_string.c:29", "src/clean_string.c:90", "src/clean_utf_8.c:158"]}
{"id": "C134", "title": "Names of which nothing is left, and names that get hidden", "statement": "Call the control characters, the blank, DEL and the punctuation !\"#$'()*-/:;<>?@[\\]_`{|} vanishing. The built-in default sequence makes an empty name exactly of those names all of whose characters vanish; a hidden name exactly of those that begin with a dot once the vanishing characters at the front are removed (so `_.profile` becomes `.profile`); the name `.` exactly of those that after that begin with a dot and consist of dots and vanishing characters other than `#`; and the name `..` never.", "quantifier": "all names", "why_tests_cant": "an exact description of a set of names needs all names", "anchors": ["src/clean_string.c:90", "src/clean_string.c:194", "src/config_file_spoof.c:56"]}
{"id": "C135", "title": "The extension stays", "statement": "Let a name end in a dot and a nonempty extension without a dot. If a sequence contains no uncgi filter and each of its filters leaves the dot and each character of the extension alone when given as a name of one character, then what the sequence makes of the name ends in the same dot and extension. With the compiled-in tables this holds of every sequence of filters without uncgi and every extension of small letters and digits. With uncgi it does not hold: `a%00.txt` becomes `a`.", "quantifier": "all sequences of filters, tables, names and extensions", "why_tests_cant": "the filters, their tables and their number are arbitrary, and so is what stands before the extension", "anchors": ["src/filter.c:194", "src/clean_string.c:90", "src/clean_string.c:194", "src/clean_string.c:250", "src/clean_utf_8.c:60"]}
{"id": "C136", "title": "The front of a name stays", "statement": "Let a name begin with characters among which there is no dot and no percent sign. If a sequence contains no max_length filter and each of its filters leaves each of these characters alone when given as a name of one character, then what the sequence makes of the name begins with the same characters. With the compiled-in tables this holds of every sequence without max_length and of all small letters and digits. None of the exceptions can be dropped: max_length makes `repo` of `report` if the limit is four, uncgi makes `A` of `%41` although it leaves `%` alone, and wipeup with remove_trailing makes one dot of two although it leaves one alone.", "quantifier": "all sequences of filters, tables, names and beginnings", "why_tests_cant": "the filters, their tables and their number are arbitrary, and so is what follows", "anchors": ["src/filter.c:194", "src/clean_string.c:29", "src/clean_string.c:90", "src/clean_string.c:143", "src/clean_string.c:194", "src/clean_utf_8.c:60"]}
{"id": "C137", "title": "uncgi loses an extension only at an escaped NUL", "statement": "Let a name end in a dot and an extension without `%` and `+`. If `%00` does not occur before the dot, what uncgi makes of the name ends in the same dot and extension; and so does what a sequence makes of it that starts with uncgi and goes on with other filters that leave the dot and the characters of the (nonempty, dotless) extension alone one by one.", "quantifier": "all names and extensions, all filters and tables after uncgi", "why_tests_cant": "an escape might reach over the dot, or another escape might stand for NUL; only a proof over all names excludes it", "anchors": ["src/clean_string.c:143", "src/filter.c:194"]}
