# detox: formal model in Lean 4 — design

Everything is about dharple/detox at the pinned commit in `/repo`. The code was read, never built or run.

Layout (all under `lean/Verif/`):

* `Model/*.lean`  — the model, function by function; every definition cites `/repo` file and lines.
* `Spec/*.lean`   — small specifications used in property statements, written without the model's
                    helpers (RFC 3629 UTF-8, the documented wipeup reduction, table files, a file
                    system, what a run is, C literals and C source, ...).
* `Lemmas/*.lean` — helper lemmas.
* `Props/*.lean`  — the property theorems, named `Cnn_...`, with a concrete case (`example`) beside each.
* `Tests.lean`    — *tests, not proofs*: the vectors of the project's own unit tests evaluated in the model.
* `Audit.lean`    — generated: `#print axioms` for every theorem of `MANIFEST.json`.

`tools/sync.py` regenerates `Verif.lean` and `Audit.lean`. `tools/gen*.py` extract tables and shipped files
from the text of `/repo`. `tools/coverage.py` prints the table of section 3. `tools/mutate.py` applies the
seeded edits of `seeded/mutations.json` in a scratch copy; the results are in `seeded/LOG.jsonl`. Edits of `mutations.json` without a line in the log were written but not run; where a note says "only rebuilt", the other modules were not tried.

## 1. Trusted base

* The kernel of Lean 4.33.0. No axioms of our own, no `sorry`, no `native_decide`, no `bv_decide`.
* Axioms used (`Verif/Audit.lean` prints them at build time). All theorems of the manifest depend on exactly
  `propext`, `Classical.choice`, `Quot.sound`, except:
  `C74_parser` on `propext` only; `C06_max_length_exact`, `extension_or_not`,
  `C07_max_length_limit_met_partial`, `encodes_total`, `builtin_roomy`, `C43_last_definition_wins`,
  `C48_filelist_is_a_list_with_a_cursor`, `C48_iterating_delivers_everything` on `propext`, `Quot.sound`.
  Finite facts (all 256 bytes, all rows of a table, all states of an automaton) are decided by the kernel
  (`decide +kernel`) and lifted by a lemma; this adds no axiom.
* The reading of the C code: each model definition cites its source, but that it says the same is trusted.
  The tables of flex and bison, the built-in translation tables, the shipped table files and the shipped
  detoxrc are extracted from the text of `/repo` by the scripts in `tools/`; these scripts are trusted.
* The semantics given to the C library and to the operating system, see section 4.

## 2. Outcomes

* Cleaning and parsing functions return `Res`: `ok`, `exit` (the process ends by `exit`), `ub` (undefined
  behaviour, with its kind: read or write outside an object, bad `ctype` argument, pointer below an array,
  `atoi` out of range), `stuck` (an endless loop inside the process, or an internal limit of the model).
  `ub` and `stuck` are never assumed away: theorems prove their absence, or prove when they happen.
* What differs between platforms is a parameter (`Platform`): signedness of `char`, whether `isupper` and
  the like accept negative arguments, whether forming a pointer one below an array is harmless.
  `Platform.Benign` is what GNU/Linux gives; where strict ISO C makes a difference it is stated.
* `parse_file`, `parse_dir`, `parse_inline`, `config_file_load`, `main` and the helper programs are programs
  over system calls (`Prog`, Model/Sys.lean). `Trace p tr o` relates a program to every sequence of calls and
  answers it can have; answers are arbitrary. Prefixes of executions are included, so a theorem over all
  traces covers every crash point.
* Spec/FileSystem.lean answers `lstat` and `rename` by a POSIX file system: directory entries, inodes,
  symbolic links, hard links, an arbitrary folding of names for case-insensitive systems. `readdir` still
  answers arbitrarily and `rename` may fail at any time. A variant lets other processes act between calls.
* Spec/World.lean adds open directories (C86, C87). `readdir` keeps the promise of POSIX: before it
  reports the end it gives every name that is in the directory from `opendir` on and has not changed;
  other names may be given or not, also twice. `opendir` opens what the path leads to, or fails for any
  reason. Directories form a tree with one name for each (`FS.Tree`); the arguments do not lead through
  directories in which detox renames (`FS.Steady`, C62 is the case against it).

## 3. What is modelled

Functions of `/repo/src` and the model definitions that cite them (generated by `tools/coverage.py`). In addition
Model/Flex.lean and Model/Bison.lean model `yylex` (config_file_lex.c) and `yyparse` (config_file_yacc.c) with their
tables, and Model/Config.lean gives the scanner rules and grammar of config_file_lex.l and config_file_yacc.y.
Model/FlexBuffer.lean has `yylex` with its input buffer as a block of bytes that is moved, enlarged and refilled, and
Model/ConfigScan.lean `main` with config files read through it (C88); there reads give pieces of any size and can fail.

<!-- coverage -->
| file | function | lines | model |
|---|---|---|---|
| builtin_table.c | `load_builtin_safe_table` | 91-94 | `load_builtin_safe_table` |
| builtin_table.c | `load_builtin_iso8859_1_table` | 214-217 | `load_builtin_iso8859_1_table` |
| builtin_table.c | `load_builtin_unicode_table` | 404-407 | `load_builtin_unicode_table` |
| builtin_table.c | `load_builtin_cp1252_table` | 463-466 | `load_builtin_cp1252_table` |
| check_table.c | `check_table` | 34-238 | `CheckEnv`, `CheckState`, `checkBaseLine`, `skippingMessage`, `failedMessage`, `orderWarning`, `checkTableLine`, `lengthWarning`, `checkContent`, `checkTable` |
| check_table.c | `check_table_again` | 240-374 | `skippingMessage`, `failedMessage`, `checkAgainLine`, `checkTableAgain`, `checkItems` |
| check_table.c | `main` | 376-436 | `CheckOptions`, `checkItems`, `checkFile`, `checkMain` |
| clean_string.c | `clean_iso8859_1` | 29-80 | `cleanIsoLoop`, `cleanIso`, `cleanIsoLoopCounted`, `cleanCounted`, `mCleanIso`, `maxLengthWarning`, `filterRunLoud` |
| clean_string.c | `clean_safe` | 90-133 | `cleanSafeLoop`, `cleanSafe`, `cleanSafeLoopCounted`, `cleanCounted`, `mCleanSafe`, `filterRunLoud` |
| clean_string.c | `clean_uncgi` | 143-175 | `uncgiTest`, `uncgiEsc`, `cleanUncgiLoop`, `cleanUncgi`, `mCleanUncgi` |
| clean_string.c | `clean_wipeup` | 194-245 | `wipeLead`, `wipeSearch`, `cleanWipeupLoop`, `cleanWipeup`, `mCleanWipeup` |
| clean_string.c | `clean_max_length` | 250-309 | `lookBack`, `cleanMaxLength`, `mCleanMaxLength`, `maxLengthWarning`, `cleanMaxLengthLoud` |
| clean_string.c | `clean_lower` | 318-342 | `cleanLowerLoop`, `cleanLower`, `cleanLowerLoopIn`, `cleanLowerIn`, `mCleanLower` |
| clean_utf_8.c | `clean_utf_8` | 60-206 | `utf8ReplacementCounted`, `cleanUtf8LoopCounted`, `cleanCounted`, `mCleanUtf8`, `unpackStart`, `eatCont`, `utf8Replacement`, `cleanUtf8Loop`, `cleanUtf8`, `utf8Warnings`, `utf8CutWarning`, `cleanUtf8LoopLoud`, `cleanUtf8Loud` |
| clean_utf_8.c | `get_utf_8_width` | 217-232 | `utf8Width` |
| clean_utf_8.c | `is_utf_8_cont` | 242-245 | `isUtf8Cont` |
| clean_utf_8.c | `is_utf_8_start` | 254-257 | `isUtf8Start` |
| config_file.c | `config_file_init` | 20-29 | `configFileInit`, `mConfigFileInit` |
| config_file.c | `config_file_load` | 38-97 | `configFileLoad`, `tryConfigScan`, `configFileLoadScan`, `mOptConfig`, `mElseConfig`, `mElseSpoof`, `mConfigFileLoad` |
| config_file_dump.c | `dump_config_file` | 17-83 | `dumpTable`, `dumpFilter`, `dumpSequence`, `dumpSequences`, `dumpIgnored`, `dumpConfigFile`, `mDumpSequences`, `mDumpIgnored`, `mDumpConfigFile` |
| config_file_spoof.c | `generate_builtin_filter` | 26-32 | `generateBuiltinFilter`, `mGenerateBuiltinFilter` |
| config_file_spoof.c | `generate_filter` | 39-47 | `generateFilter`, `mGenerateFilter` |
| config_file_spoof.c | `generate_sequence` | 56-62 | `generateSequence`, `mGenerateSequence` |
| config_file_spoof.c | `generate_wipeup_filter` | 71-77 | `generateWipeupFilter`, `mGenerateWipeupFilter` |
| config_file_spoof.c | `spoof_config_file` | 84-154 | `safeWipeup`, `spoofSequences`, `spoofConfigFile`, `mSpoofSequences`, `mSpoofConfigFile` |
| detox.c | `main` | 25-132 | `detoxConfiguredScan`, `detoxMainScan`, `processArgCounted`, `fileLoopCounted`, `inlineArgCounted`, `inlineFileLoopCounted`, `inlineMainCounted`, `detoxWorkCounted`, `detoxConfiguredCounted`, `detoxMainCounted`, `processArg`, `fileLoop`, `inlineArg`, `inlineFileLoop`, `inlineMain`, `processArgBy`, `fileLoopBy`, `inlineArgBy`, `inlineFileLoopBy`, `inlineMainBy`, `detoxWorkBy`, `detoxConfiguredIn`, `detoxMainIn`, `detoxWork`, `detoxConfigured`, `detoxMain`, `mProcessArg`, `mFileLoop`, `mInlineArg`, `mInlineFileLoop`, `mDetoxWork`, `mDetoxConfigured`, `mDetoxMain`, `streamArg`, `streamFileLoop`, `streamMain`, `streamWork`, `streamConfigured`, `detoxMainStream`, `Stat`, `processArgLoud`, `fileLoopLoud`, `inlineArgLoud`, `inlineFileLoopLoud`, `inlineMainLoud`, `detoxWorkLoud`, `detoxConfiguredLoud`, `detoxMainLoud` |
| escape_utf_8.c | `generate_c_escape_table` | 93-127 | `escapePrintable`, `escapeOthers`, `generateCEscapeTable` |
| escape_utf_8.c | `main` | 135-160 | `escapeOptions`, `escapeMain` |
| file.c | `ignore_file` | 33-48 | `ignoreLoop`, `ignoreFile`, `mIgnoreLoop`, `mIgnoreFile` |
| file.c | `is_protected` | 57-64 | `isProtected` |
| file.c | `parse_file` | 69-161 | `parseFileCounted`, `dirPart`, `isTaken`, `doRename`, `announceAndRename`, `checkAndRename`, `parseFile`, `parseFileBy`, `mAnnounceAndRename`, `mCheckAndRename`, `mParseFile`, `Stat`, `parseFileLoud` |
| file.c | `parse_dir` | 166-232 | `dirLoopCounted`, `parseDirCounted`, `dirLoop`, `parseDir`, `dirLoopBy`, `parseDirBy`, `mDirLoop`, `mParseDir`, `Stat`, `dirLoopLoud`, `parseDirLoud` |
| file.c | `parse_inline` | 242-426 | `inlineLoopCounted`, `parseInlineCounted`, `seekBack`, `skipConts`, `fetchConts`, `completeChunk`, `cutNewline`, `nextChunk`, `printChunk`, `inlineLoop`, `parseInline`, `inlineLoopBy`, `parseInlineBy`, `mPrintChunk`, `mInlineLoop`, `mParseInline`, `streamGetc`, `streamGets`, `streamConts`, `streamComplete`, `streamPrint`, `streamRound`, `streamLoop`, `parseStream`, `inlineLoopLoud`, `parseInlineLoud` |
| filelist.c | `filelist_count` | 24-31 | `filelistCount`, `mFilelistCount` |
| filelist.c | `filelist_free` | 39-53 | `mFreeSlots`, `mFilelistFree` |
| filelist.c | `filelist_get` | 62-74 | `filelistGet`, `mFilelistGet` |
| filelist.c | `filelist_init` | 81-92 | `filelistInit`, `mFilelistInit` |
| filelist.c | `filelist_put` | 100-130 | `filelistGrow`, `filelistPut`, `mFilelistGrow`, `mFilelistPut` |
| filelist.c | `filelist_reset` | 137-144 | `filelistReset`, `mFilelistReset` |
| filter.c | `filter_find_table` | 30-66 | `filterFindTable`, `tryTableIn`, `findTableIn`, `tryTable`, `findTable`, `mTryTable`, `mFindTable`, `tryTableLoud`, `findTableLoud` |
| filter.c | `filter_init` | 69-80 | `filterInit`, `mFilterInit` |
| filter.c | `filter_load_builtin` | 87-98 | `filterLoadBuiltin`, `mLoadBuiltin` |
| filter.c | `filter_load_builtin_by_filename` | 111-124 | `filterLoadBuiltinByFilename`, `mLoadBuiltinByFilename` |
| filter.c | `filter_load_table` | 131-184 | `defaultTableFilename`, `filterLoadTable`, `loadTableIn`, `loadTable`, `mLoadTable`, `loadTableLoud` |
| filter.c | `filter_run` | 194-242 | `filterRunCounted`, `filterRun`, `filterRunIn`, `mFilterRun`, `filterRunLoud` |
| generate_builtin_table.c | `escape_string` | 31-59 | `escapeStringLoop`, `escapeString` |
| generate_builtin_table.c | `generate_loader` | 61-151 | `intOfUnsigned`, `baseName`, `generateRows`, `loaderRows`, `defaultText`, `generateLoader` |
| generate_builtin_table.c | `main` | 153-163 | `generateMain` |
| parse_options.c | `options_init` | 115-124 | — |
| parse_options.c | `parse_options_getopt` | 126-244 | `mApplyItem`, `mPutFiles`, `mWithOperands`, `mParseOptions`, `flagLetters`, `applyItem`, `putFiles`, `withOperands`, `parseOptions` |
| parse_table.c | `parse_table` | 27-202 | `readTableIn`, `readTable`, `mParseLines`, `mParseTable`, `scanArg`, `baseLine`, `insideLine`, `parseTableLine`, `tableRowsFor`, `parseTableContent`, `tableRowsOf`, `tableLoop`, `parseTableStream`, `parseTableSized`, `rowMessage`, `tableLinesMessages`, `tableMessages`, `readTableLoud` |
| sequence.c | `sequence_choose_default` | 28-54 | `sequenceFind`, `sequenceChooseDefault`, `chosenPosition`, `mFindSequence`, `mSequenceChooseDefault` |
| sequence.c | `sequence_init` | 56-66 | `mSequenceInit` |
| sequence.c | `sequence_review` | 75-88 | `reviewFilters`, `sequenceReview`, `loadTablesIn`, `reviewSequenceIn`, `loadTables`, `reviewSequence`, `mReviewFilters`, `mSequenceReview`, `loadTablesLoud`, `reviewSequenceLoud` |
| sequence.c | `sequence_run_filters` | 98-124 | `runFiltersCounted`, `sequenceRunFiltersCounted`, `runFilters`, `sequenceRunFilters`, `runFiltersIn`, `sequenceRunFiltersIn`, `mRunFilters`, `mSequenceRunFilters`, `runFiltersLoud`, `sequenceRunFiltersLoud` |
| table.c | `table_init` | 21-44 | `mTableInit`, `Row.empty`, `tableInit` |
| table.c | `table_resize` | 46-76 | `mCopyRows`, `mTableResize`, `mCopyStatic`, `mLoadStatic`, `tableCopyRows`, `tableResize` |
| table.c | `table_free` | 78-98 | `mFreeRows`, `mTableFree` |
| table.c | `table_hash` | 100-103 | `tableHash` |
| table.c | `table_put` | 116-170 | `Table.putSlot`, `mTablePut`, `Table.putProbe`, `Table.putScan`, `tablePut` |
| table.c | `table_get` | 182-221 | `tableGetCounted`, `mTableGet`, `Table.getProbe`, `Table.getScan`, `tableGet`, `tableGetCounting` |
| table_dump.c | `table_dump` | 18-35 | `tableDump` |
| table_dump.c | `table_stats` | 37-51 | `tableStats` |
| wrapped.c | `wrapped_malloc` | 24-45 | `OutBuf.alloc`, `outOfMemory`, `wrappedMalloc` |
| wrapped.c | `wrapped_strdup` | 47-68 | `outOfMemory`, `wrappedStrdup` |
<!-- end coverage -->

Not modelled:

* Memory, in most of the model: strings and lists are values there. A second model of some functions has pointers,
  allocation and freeing: `filelist.c`, `table.c`, the filters, `sequence.c`, `filter.c`, `file.c`, `parse_table.c`,
  `config_file*.c`, the actions of the grammar, `parse_options.c` and `main` (Model/Memory*.lean). In it the positions
  within a buffer are those of the model on values (`OutBuf` has its size), and a text is written into its block as a
  whole. The stack of bison, the buffers of stdio, and the helper programs, are without pointers. What is leaked is counted
  for the work (C82) and for lists and tables (C79, C80), not for the options and the configuration.
* `options_init`, `sequence_init` set fields to zero; they are the defaults of the structures.
* Allocation failure, outside the model with pointers: `wrapped_malloc` exits the process and nothing is said about
  that.
* The `DEBUG` parts, and the texts of `strerror`. The warnings of the filters and of the table reader on stderr are only in `Model/Warnings.lean` (C89); there `(int) max_length` in the warning of `max_length` is printed as the number itself, which needs a name of 2^31 bytes to make a difference.
* Config and table files of more than 2^31 bytes, and their line counts (where `int` overflows). The counters of the tables are only in `Model/Counters.lean` (C103), where `table_get` counts; `overwrites`, which counts rows of a table file, is not bounded there.
* flex: `yyout` (`fopen("/dev/null")`, whose result is not checked) and the
  functions of the generated file that are not called. bison: growing the stack beyond 200 elements (the model is
  `stuck` there, C74 shows it does not happen) and error recovery (the grammar has no `error` token; a syntax error exits).

## 4. What is assumed about library and system

* ctype functions and `strncasecmp` behave as in the "C" locale or a UTF-8 locale: only ASCII letters are letters.
  `isupper` and `tolower` are those of any locale in `Model/Locale.lean` (C104). There, as in glibc, a negative `char`
  is taken for the same byte, except FF, which is `EOF`; on a platform where that is undefined it is undefined (`ctypeArg`).
* `fgets`, `sscanf`, `strtol`/`strtoul`, `printf` with `%s`, `%c`, `%d`, `%x` as in glibc, as far as the code
  uses them (Model/Scanf.lean, Model/ParseTable.lean, Model/GenTable.lean). `getopt_long` as in glibc,
  including the reordering of arguments and abbreviations (Model/Options.lean).
* Reading a whole file is one event, `slurp`: it stands for `stat`, `open`, reading and closing. A file that
  changes while it is read is not covered, nor are read errors (they look like the end of the file), except for
  config files in C88, the input of inline mode in C105, and tables in C107 (where `stat` may also give a wrong size).
* stdio input in `Model/Stream.lean` and `Model/FlexBuffer.lean` is that of glibc (2.28 or later): a `read` happens when the buffer of the stream is empty,
  the end of the file is remembered and a failure is not, `fgets` gives up what it has when a read fails unless the failure is
  `EAGAIN`, and `ungetc` after a byte was taken puts it back into the buffer. `fclose` does nothing that shows.
* `setlocale` answers with the string in the environment of the model; it is called only when a table file is
  read (parse_table.c:41), and so it is in the model.
* `stderr` always accepts what is written. `stdout` does so except in C110, where it is buffered in any way and `write` may take a part, fail, or kill the process.
  The code does not look at the result of any `fprintf(stderr, …)`, so a failure there changes nothing but the message; being killed there is a
  run that is stopped, and the theorems about runs at any moment cover it.
* `.emfile` as the answer of `opendir` means that `errno` is `EMFILE` when file.c:198 tests it, which is after `fprintf` and `free`. If these change
  `errno`, the answer in the model is the other failure. The theorems hold for all answers.
* The layout of `Prog` gives one `out` event per print statement; `Model/Stdout.lean` (C110) says when it reaches the system: at any time until the end.
* `HAVE_STRUCT_STAT_ST_BLOCKS` and similar build switches are as in a build on GNU/Linux.
* The table of check-table's options and the order of its messages on the two output channels are modelled,
  interleaving between the channels on a terminal is not.

## 5. Findings

What the proofs showed about the code (each one is a theorem with a concrete witness):

| where | what | theorem |
|---|---|---|
| clean_max_length | gives up if the extension is as long as the limit | `C07_max_length_limit_exceeded` |
| iso8859_1-legacy | CP-1252 characters are transcoded twice, all of them | `C16_…` |
| utf_8, utf_8-legacy | `C0 80` with the built-in unicode table writes outside the buffer, by any amount; end to end from the command line | `C17_unicode_table_overflows`, `C71_encoded_nul_is_undefined` |
| any table | a default longer than the longest entry may overflow | `C17_long_default_overflows` |
| uncgi-only, utf_8-only | can make a `/`; `detox -s uncgi-only '..%2Fx'` moves a file away | `C19_…`, `C70_uncgi_only_moves_a_file_away` |
| utf_8 | encoded surrogates survive | `C52_…` |
| shipped iso8859_1.tbl, cp1252.tbl | contain `\uXXXX` literally, differ from the built-in tables | `C24_iso_and_cp1252_files_differ` |
| parse_table | `default ""` makes the translation the word `default`, `start ""` a block for locales called `start…`; more than 500 short rows fail; long comments leak | `C53_…`, `C54_…`, `C55_…` |
| ignore list | an ignored entry right after another is not recognised (cursor not rewound) | `C34_second_ignored_entry_is_renamed` |
| parse_file | stale result of `lstat` in a race; check and rename are not atomic; a failing `lstat` counts as free | `C36_…`, `C28_…`, `C60_…` |
| parse_file | `-n` announces two renames to the same name; the real run refuses the second | `C93_dry_run_can_promise_too_much` |
| iso8859_1\*, cp1252-only, uncgi\* | a second run may change the names again | `C92_not_done_after_one_run` |
| parse_dir | a directory renamed through itself is not scanned | `C62_…` |
| parse_inline | reads before its buffer on NUL or a lone continuation byte; text after NUL is lost | `C40_…`, `C41_…` |
| safe | `&` becomes `_and_`: a name of 64 ampersands gets a name of 256 bytes, too long for a directory entry | `C102_64_bytes_are_too_many` |
| table.c | `hits`, `misses`, `seeks` are `int`s and count every lookup: `inline-detox` on a stream of more than 2^31 bytes has undefined behaviour | `C103_long_streams`, `C103_two_billion_letters` |
| parse_table.c, clean_lower | `setlocale` is called only if a table file is there; in an 8-bit locale `lower` then changes bytes of UTF-8 names | `C104_latin1_spoils_utf8` |
| parse_inline | a read error looks like the end of the file, the unfinished line is dropped, the exit status is 0 | `C105_read_error_is_silent` |
| parse_inline | a line that comes late on a non-blocking descriptor is cleaned in parts | `C105_non_blocking_input_cuts_lines` |
| rename_file | two detox processes can find the same name free, and one of the files is lost without a message | `C106_a_file_is_lost` |
| parse_table | a read error goes unnoticed, and the table is used without the rows that are missing; more than 500 rows cannot be read from a pipe | `C107_half_a_table`, `C107_not_from_a_pipe` |
| `-r`, killed | a directory that gets a hidden name and was not scanned yet is skipped when detox is run again | `C108_out_of_view` |
| `max_length` | cuts characters of UTF-8 in two | `C109_max_length` |
| `cp1252-only` | breaks names in UTF-8 | `C109_not_all_builtin_mind_utf8` |
| standard output | results of printing are not looked at: on a full disk detox and inline-detox succeed and nothing arrives | `C110_nobody_notices`, `C110_full_disk` |
| `iso8859_1-legacy` | its two tables do not work as one, against detoxrc(5) on chained filters | `C113_legacy_not_one` |
| table/legacy/unidecode.tbl | ½ and 67 others get translations with `/`; without a `safe` filter behind it the rename goes to another directory or fails | `C114_slash` |
| table/legacy/unidecode.tbl | the line of U+1FEE, `""'"`, gives an empty translation | `C114_vanishes` |
| `-n` | does not imply all of `-v`, against detox(1): no `Scanning:` lines | `C115_dry_run_is_less_than_verbose` |
| `inline-detox -v` | lists no changes, against the example in inline-detox(1) | `C115_inline_verbose_lists_nothing` |
| parse_dir | directories are read while their entries are renamed: with a table that does not leave alone what it made, an entry may be renamed twice, even back to its old name | `C117_unsettled_tree` |
| `max_length` after `wipeup { remove_trailing; }` | a second run renames again: `abc_d.txt`, `abc_.txt`, `abc.txt` | `C119_trailing_and_length_unsettled` |
| `max_length` after `utf_8` | a second run renames again: the first may cut a character in two, the second makes `_` of the rest | `C119_utf8_and_length_unsettled` |
| parse_file | where case does not matter, a directory (or a file with several links) cannot get its name in small letters: `file already exists`, which is the directory itself | `C124_directory_in_its_own_way` |
| main, parse_dir | a symbolic link to a directory is followed if it is given with a slash behind it, though the manual says detox does not go into such links | `C125_slash_follows_links` |
| ignore list | its cursor is kept from one argument to the next: `detox d e` may rename an ignored entry of e that `detox e` leaves alone | `C126_ignored_in_the_next_directory` |
| hidden names | a name that a filter makes hidden (`-.AB` → `.AB`) is left alone by all later runs: sequences cannot always be applied in parts | `C127_hidden_from_the_second` |
| config scanner | NUL in a quoted string, number beyond `int`: undefined | `C64_…` |
| config scanner | a signal that interrupts a read when `fread` has something already: status 2, although the scanner means to repeat such reads | `C88_interrupted` |
| config scanner | a directory as config file, or any that cannot be read: status 2 and a message without the file's name | `C88_unreadable` |
| yyerror | line numbers go on from file to file; a line ending in an unclosed string is not counted | `C78_lines_of_earlier_files_are_counted`, `C78_unclosed_lines_are_not_counted` |
| main | status 0 although a rename failed | `C69_…` |
| clean_safe | looks a plain `char` up: where `char` is signed, rows for bytes from 0x80 never apply | `C96_signed_char_matters` |
| wipeup, parse_file | a name of `_`, `-` and `#` only becomes empty, and cannot be changed: the message is about a file with an empty name | `C97_emptied_name` |
| escape-utf-8 | output is not always a C string | `C75_…` |
| generate-builtin-table | default is not escaped; unreadable file dereferences NULL; unclosed quotes, wrong names | `C51_…` |
| check-table | status 0 for a broken table; `-b` then dereferences NULL; prints a NULL string | `C76_…` |
| config scanner | `strdup` unchecked: NULL is followed, or a sequence gets the wrong name silently | `C85_…` |
| table_put | loses the string it replaces | `C80_table_keeps_what_was_replaced` |
| parse_file, parse_dir, parse_inline, main | lose strings, without bound | `C82_strings_left_behind`, `C82_clean_names_cost_memory` |

## 6. How each property is proved

| id | modelled | proof |
|---|---|---|
| C01-C03 | default sequence = safe + wipeup on the built-in table | each filter is characterised by a pure function; per-byte facts by kernel `decide` over all bytes; induction on the string |
| C04, C05 | clean_wipeup | induction with the pending run generalised; the specification splits into maximal runs |
| C06, C07 | clean_max_length | index arithmetic; C07 refuted by a witness, exact characterisation proved |
| C08 | clean_lower | map |
| C09, C10 | clean_uncgi | induction on an inductive encoding relation |
| C11-C14, C52 | clean_utf_8 | decoder against an RFC 3629 encoder; induction over units |
| C15, C16 | clean_iso8859_1 | per-byte facts and induction; C16 refuted, exact condition (the bytes C4 and up tell) |
| C17, C18 | all filters with the capacity of the output buffer | exact bounds as equivalences; refuted for the unicode table |
| C19 | built-in sequences | absence of `/` filter by filter |
| C20-C23 | table.c | invariant of placement by induction on operations; refinement to a map |
| C24 | parse_table on the shipped bytes | kernel evaluation of the whole file, lifted to all keys |
| C25, C26, C53-C55 | parse_table | relation between lines and actions, round trip by induction on rows; empty words by comparison with a file that repeats the keyword |
| C27, C28, C60-C62 | closed file system | invariant over all traces; interleavings as witnesses |
| C29-C37, C56-C59 | any answers of the system | induction on traces and on the depth |
| C38-C41 | parse_inline | stream invariants; C40 refuted, exact condition |
| C42-C47, C63, C64 | scanner and parser of the config file, config_file_load | grammar as inductive relation, both directions; layout by induction |
| C48 | filelist.c | refinement to a list with a cursor |
| C49 | getopt_long and parse_options | induction over argv |
| C65-C69, C72 | main | case split of all executions; runs against an independent big-step description |
| C70, C71 | main with the built-in configuration | lifts C01, C02, C17, C40 to whole runs |
| C73, C74 | tables of flex and bison | simulation: reference automaton against the compressed tables, all states checked by the kernel |
| C50, C75 | escape_utf_8.c | table refinement and C11 |
| C51 | generate_builtin_table.c | the printed source is read by a small C reader (Spec/CSource.lean) and executed |
| C76 | check_table.c | same lines relation as C25, `says` computes the output of a program without other calls |
| C77 | check_table.c, table_dump.c, table.c | invariant on the counters (entries + overwrites = insertions), listing as a list of places, both passes |
| C78 | scanner, parser, yyerror, config_file_load | viable prefixes of the grammar; invariant on the line over the files read |
| C81, C82 | filter.c, clean_*.c, sequence_run_filters, file.c, detox.c:88-129 with a heap | `Follows`: the program with pointers makes the same calls as the one on values until it ends or memory runs out; ownership of blocks by `Swap` and `Leaves`, the latter with the number of strings lost |
| C79, C80 | filelist.c, table.c, wrapped.c with a heap | representation predicates; `Swap h old h' new` says which blocks a part of the program owned before and owns after, everything else being untouched; refinement to C48 and C20 |
| C83-C85 | the whole program with a heap | `Follows` from the first call on; representation of the configuration by chains of blocks that may share filters (`ConfigIn`), frame conditions by `Alters` and `Below`; for C85 the same invariants with strings that may be NULL |
| C86, C87 | file.c, detox.c on a file system with open directories | C72 turns the run into a scan; induction on scans with `Keeps`: which entries are dealt with, which names a stream still owes, paths lead to the same directories (`Leads`); C87 by C70 |
| C88 | yylex with its buffer, parse_config_file, main | invariant of the block between tokens (`FlexReady`) and within one (`BufHolds`); every jump of `yylex` gives the next piece of C73's automaton run; `SameRun` carries the equality through `main` |
| C89 | the warnings of clean_utf_8, clean_max_length, parse_table, in the whole program | the program with warnings is `Louder` than the one without, which gives both directions on executions; pieces of a string are unique by a reference splitter |
| C90 | the whole program with warnings, on the file system of C86 | the scans and the induction of C86 with any relation between old and new names; silent pieces of the program with warnings are pieces of the one without |
| C91 | clean_*.c, parse_table.c, filter.c | where each byte of the output of a filter comes from; induction over the filters and over the lines of a table file |
| C92 | builtin tables, clean_*.c, sequence.c, whole program | a filter that works byte by byte leaves a string alone exactly if it leaves every byte alone (`flatMap_fixed`); wipeup by its reductions; the whole program by C72 and C70 |
| C93 | file.c, dry and real, on a file system | both runs as scans (C72); one rename of a file changes no other place (`FileMoved`); induction over the arguments with `Untouched` |
| C94 | file.c, detox.c, two runs on the file system of C86 | C86 gives a set of directories with nothing to do (`Finished`); induction over the second scan with `Still` |
| C95 | detox.c, file.c (inline mode), the whole program | the loop over the arguments as `InlineArgs`; properties of text and output that add up (`InlineInput.total`); C41, C70 |
| C96 | the whole program, any configuration | texts to tables by C25, texts to sequences by C43, C44, C63; each filter by C04, C06, C08 to C11 (`filter_says`); renames by C66 |
| C97 | the whole program on files, any configuration | every stage returns (`Prog.Arrives`, `Prog.Endures`); a complete execution is built by answering from the file system (`fair_execution`); the final state by induction over the arguments, with one rename leaving alone what the others want and can have (`others_same`) |
| C98 | the whole program on trees, file system of C86 | a function says what has become of each entry (`Now`); entries that have their new names keep them (`Later`); induction over the scan beside that of C86, which gives completeness |
| C99 | the whole program on trees, file system of C86 | as C98: as long as each entry has its old or its new name (`Now`), room at the beginning is room now (`Now.room`), so that no rename fails and the messages of parse_file are not reached (`fileRun_quiet`) |
| C100 | the whole program on trees, file system of C86 | a count of calls for each stage (`Prog.Within`, `configFileLoad_within`, `fileLoop_calls`), by induction over the paths that can be below the arguments; the complete run is built by answering well (`Nice`, `nice_execution`), after which C98 and C99 say what it has done |
| C101 | the whole program on trees with `-n`, file system of C86 | the state does not change, so a simple induction over the scan (`scan_dry`, `arg_dry`, `args_dry`) gives what is written; with C98 for the real run |
| C102 | the compiled-in sequences; the whole program as in C100 | a cost for each byte that pays for what `safe` and `wipeup` make of it; per-byte facts over the whole tables; for the worst cases induction over the length |
| C103 | the whole program, with the counters of the tables (`Model/Counters.lean`) | a simulation indexed by the calls made so far (`Tracks`), with the counters bounded by what there was to look up; for the exact part, every row of the safe table is where its key says |
| C104 | the whole program, with `setlocale` and a locale for `lower` (`Model/Locale.lean`) | `lower` in a locale is `safe` with a table of 255 rows, so the work is the work with another sequence |
| C105 | inline mode with `fopen`, and `read` for each piece (`Model/Flow.lean`, `Model/Stream.lean`) | each execution, condensed, is one of the program that has each text at once; and back |
| C106 | any number of executions of the whole program, interleaved | calls that keep to different parts of the file system commute; runs over files keep to theirs, and rename to free names only as long as nobody interferes there |
| C107 | `parse_table` over a stream, with any answer of `stat` | the loop over `fgets` is the loop over the lines of the text delivered; rows and default do not depend on the number of rows allocated |
| C108 | runs cut short | the part that was done is continued by a system that lets nothing more be done, so that it is part of a complete run with the same effect; states in which the work is not done are composed |
| C109 | UTF-8 in, UTF-8 out | by the meaning of configurations (`FiltersSay`), filter by filter; UTF-8 can be cut in front of any byte that is not a continuation |
| C110 | standard output with its buffer | a relation between print statements and `write` calls; accounting by induction; for the report of `-v` every program of file.c keeps a journal |
| C111 | what a run costs | weights for the kinds of calls, bounds closed under sequencing; nesting of open directories by the weakest precondition of Lemmas/Trace |
| C112 | where new names collide | the completeness argument of C87 with a reason of one's own in place of a complaint (`Judge`): an entry left alone is barred, and stays so, for settled names are never given up |
| C113 | tables in a row | by the meaning of configurations; what one table puts in passes the following ones, character by character |
| C114 | the files in table/legacy | their text packed as numbers by tools/genlegacy.py, read by a checker on numbers that is proved right with respect to Spec/TableFile (Lemmas/ReadTable), evaluated by the kernel over the whole files |
| C115 | what the switches change | a relation between programs that lets one print more (`Varies`), closed under sequencing, carried over to executions in both directions |
| C116 | several `detox -r` at the same time | the places a process may look at or change (`Mine`, `Own`) are a fixed territory; alone and among others it sees the same territory (`AgreeOn`), call by call (`StaysIn`) |
| C117 | trees, with any configuration | C98's invariant over a run, the text of the files by C96/C97, names to ignore as written; for filters that work character by character the condition is one about characters |
| C118 | C99, C112, C101 and C94 with any configuration | the parts of a run from C117; a well-written config file makes the scanner print nothing, so the reading of the configuration is only reads |
| C119 | which configurations need one pass only: `max_length`, `utf_8` | cutting keeps the normal form of `wipeup` without `remove_trailing`; `utf_8` output is a row of characters each of which is left alone |
| C120 | C100 and C108 with any configuration | every cut trace can be continued to a complete one in which nothing more is renamed; then C118's parts of a run |
| C121 | C116 with any configuration per process, stopped or not | C116 gives every process the answers it would have got alone; then C117 and C120 for each |
| C122 | invariant over renames: every name is reached from the old one by the filters | one event at a time for (1)–(3); (4) is C86 for the options that the configuration gives |
| C123 | what a round leaves is a state midway of the whole run (the invariant of C120), by C121 | induction over the rounds; the last run is C120 from such a state |
| C124 | every successful rename, on a file system with any notion of sameness of names | the new name was looked up and led to the same object, so the guard of C31 bounds its link count; closure over runs as in C27 |
| C125 | arguments that end in a slash | every filter on the empty string; the guard of C66; in the tree of C117 no entry of the argument itself is treated, by depth |
| C126 | complete runs as scans (C72), both ways | a scan depends on names seen before only through ignored names; the program goes the same way as long as answers are the same, so the beginning is unique |
| C127 | the state after a run as in C120, C117 for both runs | what is scanned and treated after the first run is what was before it, under new names; the result of one run is unique (C98) |
| C128 | C117 for both runs, C98; complete runs as scans (C126) | what is to be treated is the same set of entries; a failing `lstat` leaves one way through the loop over arguments |
| C129 | C117 for the renaming run; C95 and the meaning of filters (C96) for the inline run | while the configuration is read, nothing but files is read and nothing is printed; both modes then say `FiltersSay`, which has one value |
| C130 | C117 for both runs, C98; C129 for inline mode; uniqueness of table texts (C96), C04, C05 | the hypotheses of C117 carry over along the equality of meanings; a run of reducible characters has no capitals, so reduction commutes with `lower` |
| C131 | C117 for both runs | being scanned and being treated carry over from one working directory to the other; whatever only one of the runs is asked to treat has a clean name |
| C132 | C04, C06, C96, C130 | shortening looks at lengths and dots only, reduction at `-`, `_`, `.` only; character-wise filters compose character by character; the other pairs by a name each |
| C133 | C113, C119, C130, C132 | a table in front of itself is itself; character-wise filters compose character by character; a name each for `uncgi` and `iso8859_1` |
| C134 | C04 | what is left of the front of a name by induction; a reduction is empty, or a single dot, only for a run |
| C135 | C133 | filter by filter: a run, a cut or a UTF-8 sequence never reaches over the dot into the extension |
| C136 | C135 | filter by filter, along the characters at the front |
| C137 | C135 | a dot is no hex digit, so no escape reaches over it; an escape of value 0 is `%00` |
