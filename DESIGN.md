# Formal model of mairix in Lean 4: design

## 1. Trusted base

* Lean 4.33.0's kernel (every theorem is re-checked by `vcheck`).
* The three standard axioms `propext`, `Classical.choice`, `Quot.sound`, and no others. No
  `sorry`, `native_decide`, `bv_decide`, `implemented_by`, or axiom of our own.
* The correspondence between `/repo` and the Lean definitions under `lean/Verif/Model/`. It is
  checked by reading only: each definition cites the file and lines it models and says where it
  simplifies. Nothing in this directory executes the C code.
* The small specifications under `lean/Verif/Spec/` (what "edit distance", "glob", "connected
  component" ... mean). They do not mention the model.

## 2. Conventions of the model

* A C `char`/`unsigned char` is `UInt8`; NUL-terminated text is a `List UInt8` (the bytes before
  the NUL), so that `strcmp(a,b)==0` is list equality. Where the code may run past a buffer the
  model uses explicit memory with a failing read/write (`Option`/`Except`), so undefined behaviour
  is a distinct outcome, never a default value.
* C `int`s that count messages are `Nat` where the code cannot overflow in practice; where
  overflow or signedness is part of the claim (`insert_value`, `db_date_cmp`, sizes, offsets in
  `open_db`) the model uses fixed width arithmetic or states the bound as a hypothesis.
* Locale: `isalnum`, `isspace`, `tolower` are those of the C locale (mairix never calls
  `setlocale`).
* The file system, clock and environment are parameters (functions), hence universally
  quantified.
* An `assert` or `exit` is a distinct outcome of the modelled function.

Layout: `Verif/Model/*` (cited model), `Verif/Spec/*` (independent specifications),
`Verif/Proofs/*` (lemmas), `Verif/Props/*` (the property theorems, with examples that meet the
hypotheses beside them).

## 3. Plan per property

| id | modelled | how proved |
|----|----------|-----------|
| C01 | `insert_value`, `insert_index_on_encoding`, `int_list_reader_read` as byte-list functions | round trip by induction on the sequence; the failure for gaps >= 63*2^24 is a separate theorem |
| C02 | the same with explicit `n`, `max` and a failing write | invariant `n <= max` and room for 4 bytes after the check |
| C03 | open addressing table as `Array (Option Token)`, any hash function | invariant over all histories (reachability of each token along its probe run, distinct texts, free slot), refinement to a finite map |
| C04 | `import_toktable*` | same invariant, established from a duplicate-free list |
| C05 | `recode_encoding`, `recode_toktable*` with the gap closing loop | termination by decreasing displacement; invariant restored at the fixpoint |
| C06, C07 | `tokenise_string`, `tokenise_html_string` | equality with a declarative characterisation of maximal runs |
| C08 | `find_base`, `find_threading` | union-find invariant; equivalence with the generated equivalence relation |
| C09 | `lookup_msgpath`, `message_compare` | bisection invariant |
| C10 | `update_database` for file/IMAP entries | characterisation of the resulting list |
| C11 | two runs after any history of runs | the first run wrote nothing, so the second finds the same; or it wrote, and what is loaded again agrees with the mail |
| C12 | `cull_dead_messages` | from C05 and the compaction loop |
| C13, C14 | `compute_mapping`, `char_length`, `write_*`, `open_db` on byte arrays | layout arithmetic; frame lemmas for disjoint writes |
| C15, C18, C19 | `match_string_in_table`, `do_search`'s argument loop | refinement to a denotational semantics of parsed queries |
| C16, C17 | `build_match_vector`, `substring_match_*` on 64-bit words | bit-by-bit invariant against edit distance; refutation of C17 for k>=1 |
| C20 | `discover_type` over the ways through datescan.nfa, `scan_date_expr`, `scan_date_string`; `localtime` and `mktime` are parameters | ways with different attributes part at some character; most recent days by arithmetic; a Gregorian calendar as an instance; converse: every accepted text has a documented form |
| C21, C22, C23 | range, flag and maildir name functions | equational, for all inputs |
| C24 | thread expansion; history of updates and purges | invariant; refutation witness |
| C25 | result collection; `db_date_cmp` as 32-bit subtraction | sortedness for any correct sort |
| C26 | `make_globber`, `is_glob_match` | automaton invariant against declarative matching |
| C27 | `split_on_colons`, `copy_folder_name` | round trip by induction |
| C28 | `lock_database` as a transition system over a shared file system | invariant; refutation trace |
| C29, C30 | mbox scanner | scanner against line-based specification; bisection |
| C31 | `compute_length`, `do_expand` | induction, two passes agree |
| C32-C35 | `unencode_data`, `decode_header_value` | round trips; refutations |
| C36 | `splice_header_lines` | equality with grouping |
| C37 | `open_db` on arbitrary bytes | refutation witnesses and the partial bounds theorem |
| C38 | `member_of`, `main` | from C51 |
| C39 | `mbox_terminate`, `append_*` | case analysis |
| C40 | duplicate check | adjacent equality in a sorted list |
| C41 | `cull_dead_mboxen` | renumbering invariant |
| C42 | `add_angled_terms` | equality with a declarative scan |
| C43 | integrity checks | corollary of the invariants of C01, C03 |
| C44 | index packing | arithmetic |
| C45 | `scan_status_flags` | equational |
| C46 | whole indexing runs and the search in the file written | invariants over all histories |
| C48 | `mk_maildir_path`, `mk_mh_path` | injectivity of decimal numbers, buffer sizes |
| C49 | `get_validated_mbox_msg`, `try_copy_to_path` | arithmetic on positions |
| C50 | fromcheck.nfa as a regular expression | derivatives; membership of all usual lines |
| C51 | `glob_and_expand_paths`, `build_message_list` over an abstract file system | induction on the depth of the tree, against a declarative meaning of folder lists |
| C52 | `make_nvp` over the subset construction of nvp.nfa | invariant of the scanner over its 43 states; induction over the components of a relational grammar |
| C47 | `data_to_rfc822`, `do_body`, `do_attachment`, `do_multipart` with a bound on the nesting | one relation for messages, parts and bodies, induction over it with the length as the bound; induction over lines for the delimiters |
| C53 | `parse_rfc822_date`, `mktime` as a parameter | computation along the form, and back from the branches of the code |
| C54 | `parse_rc_file` line by line | induction over the lines of a relational grammar; inversion of all branches for safety |
| C55 | `main` up to the dump, search or run | induction over the options; computation with the settings of C54 |
| C56 | Disk: inodes, links, the calls of search.c that change them | the entries of the results directories as lists; all paths to them unaffected; induction over the results |
| C57 | Whole: configuration and disk to the database, composed of Folders, Mime and Run | what the parser keeps are C strings (CText), so runs are sane; then C51, C47, C46, C18 and C20 together |
| C58 | Mapping: mapped memory, `data_alloc_type`, the cache of decompressed files | invariant over the sequence of files: what is mapped is the cached file |
| C59 | Md5: `md5.c` byte by byte, `compute_checksum` | register rotation as an invariant of the 64 macro calls; invariant of the input buffer over the bytes; the constants as sines by integer arithmetic with error bounds (Proofs/Sine) |
| C60 | Crash: `indexRun` up to the opening of the file for writing, then any number of the stores of `write_database` | what is read of a file does not depend on zeros behind it (`Written` with ≤), so stops before the first store keep the invariant of the histories of C46; later stops by concrete histories |
| C61 | the histories of C46, with the contents of one mbox in each run | `Spec/BoxWhole`: the messages of an mbox (From lines, then joining), the conditions on how it changes (`Steady`); invariant: the entries of the box in the index are the messages it held when it was last read (`BoxAt`); append-only boxes meet the conditions (`Grows`, `C61_grows`) |
| C62 | the back end of dfasyn from the automaton of the input file to the tables: ε-closure, subset construction, tags and attributes, dead states, classes, tables | `Spec/Subset`: moves of the automaton, values of expressions, `Outcome` of a sequence of tokens; invariants of the constructions; sets of states are finitely many; a class is refined until it is stable |
| C63 | character classes of dfasyn: bitmaps as they are on machines with 64-bit `long`, the splitting of classes into groups, the table `char2tok`, the expansion of transitions | `Spec/Charclass`: the characters of a class, moves and `COutcome` for sequences of characters and tokens; the groups are proved to be the sets of characters that are in the same classes, and moves over characters to be moves over groups; composed with C62; classes that are inverted and contain a character ≡ 31 mod 32 and empty classes are excluded, with violations |
| C64 | the scanner of `imap_ll_waitline` byte by byte with its buffer, stack of lists and the pieces `read` delivers; `imap_ll_command` | `Spec/ImapLine`: responses as data, how they are written (`wire`) and what they mean (`meant`); invariant: what the scanner has built so far is the meaning of what it has read; reading in pieces equals reading the whole stream; quoted strings with escapes are excluded, with violations |
| C65 | `string_len`, `format_cmd` | `Spec/ImapCommand`: a reader of commands by RFC 3501 (quoted strings with escapes, non-synchronising literals, lists); induction over commands; strings in quotes that have a backslash are excluded, with violations |
| C66, C67, C68 | `imap_select` with what it remembers, listing, fetching, clearing, copying and appending, and the output of `do_search` to an IMAP folder, for any way to run a command | `Spec/Imap`: the state of a server (mailboxes, what is selected), what commands do to it and what answers say (`Conforms`), with any further lines and attributes; `Spec/ImapServer` is a server that is proved to conform (`serve_conforms`); invariant: what is remembered about the selected folder is true (`Coherent`); bytes on the wire are C64 and C65 |
| C69, C70, C71 | the front end of dfasyn: what the actions of parse.y do with the declarations (blocks, inline blocks, abbreviations, tokens, attributes), the three input files of mairix, and `fromcheck`, `discover_type` and `make_nvp` with the scanner that is generated | for each file a certificate is checked by the kernel: the automaton that is read, its closures and its rows by groups of characters, and all pairs of a reached set of states and of a state of the model, closed under all groups (bisimulation, `PairsOk`); with C62 and C63 the statement follows for all texts; for From lines and dates the model's side is an automaton made of the regular expression (Proofs/Positions), for parameters it is `nvpNext`. Kinds of dates by their parts: `Spec/Scanners` |
| C72, C73, C74, C75, C76 | `imap_login`, `imap_ll_starttls` and the search for capabilities on the connection of C64, with the list of all exchanges as a history variable; what OpenSSL finds out and what comes through the encrypted channel are parameters | `Spec/ImapLogin`: which capabilities are in force after which exchanges (`InForce`), running commands again on a connection (`Replays`), names in certificates by RFC 2595; one invariant (`Sound`) for the two channels and one lemma per function for the course of a login; servers that accept: composition of C64 |
| C77 | the whole run of C57 with an mbox | `Spec/Posted`: deliveries as From line and text; the mbox as their concatenation is split into them (`splits_posted`), deliveries make it grow in the sense of C61; composition of C61, C47, C51, C18 |
| C78 | `dumper.c` whole, on the opened file (`Model/Dump`) | `Spec/Dump`: what a dump tells and its text; the printing loops give that text for what was written (C13), whose tables are the index (C46) |
| C79 | `scan.l` and `parse.y` of dfasyn (`Model/NfaText`), the texts of the three input files (`Model/NfaTexts`) | `Spec/NfaText` after the manual page dfasyn.5: how tokens are laid out, how declarations and expressions are made of tokens; the scanner gives the tokens of every layout, the parser reads the declarations of the tokens and accepts nothing else (both directions, so the grammar is unambiguous); the kernel computes the declarations of the three files of mairix, so C69–C71 hold for what dfasyn generates from their texts |
| C80, C81 | the loops of `do_search` for `-r` and `-x` (`Model/Terminal`) on the opened database; for `-x` the message is read again from the disc | `Spec/Terminal`: a `Hit` and its line, what an excerpt tells; each result has a place (invariant `Placed` of the database after any history), then C57 and C77 say which results there are; the message read again is the one indexed (C57); dates: `gmtime` is a parameter with what is known of it, the zone of the user another, so the day shown can be compared with the day meant |
| C82, C83 | `search_top` whole for maildirs, MH folders and mboxen as results (`Model/SearchTop`) | C82: C57 and C77 (what is found) composed with C56 (what the disk is then), with the texts in the mboxen found again by the checksums in the database (`posted_data`), no new induction; C83: the cases where the folder is not yet touched, and the general loss (`C83_lost`) where it is |
| C84 | the same with an mbox for the results | C57 and C77 composed with C56 (`C56_mbox`) and C39 (how the mbox is split again) |
| C85 | whole runs composed with searches with -t | C57 composed with C24: threads of message files, from the bytes of the files to the results (`C85_complete_partial`, and, if no message file has gone or changed, exactly the threads: `C85_exact_partial`); that no others are found is false while dead messages are in the database (`C85_deleted_violation`, finding 9) |
| C86 | hash.c as a function on memory with bounds | the loop and the switch refine a specification by blocks and little-endian numbers (`C86_hash`, `C86_only_text`); mixing has an inverse (`C86_mix_reversible`, `C86_states`) |
| C87 | whole searches with -t and a results folder | C85 composed with C82 and C84: from the bytes of the message files to the links in the folder or the texts in the mbox (`C87_maildir_partial`, `C87_mh_partial`, `C87_mbox_partial`); missing: what C85 misses (mboxen, purges, messages that have gone), -a, hard links |
| C88 | a search and searches with -a after it, maildir | invariant over the sequence of searches (`Collected`): the folder holds links for the results so far and nothing else; names of results are injective in their numbers; composed with C57. With mboxen (`C88_boxes_partial`): a copy that is there already is written again with the same text, which changes nothing; so to repeat a search with -a changes nothing at all. With indexing runs without -p between the searches (`C88_grown_partial`): by C91 a number in the name of an earlier result never belongs to another file. False if the database is purged in between (`C88_changed_violation`) and for MH folders (`C56_augment_lost_violation`); IMAP missing |
| C89 | `-r -t` after whole runs | C85 (exact) composed with the output of C80: all lines are lines of files, without repetition (`C89_threads_partial`) |
| C90 | a search and searches with -a after it, mbox, with indexing runs between them | invariant over the sequence (`HasBox`): the mbox is an inode that was not on the disk before, with the results so far; every step only appends; composed with C84 for each search (`C90_augment_partial`). Missing: as for C84 |
| C91 | numbers of messages in the database over indexing runs | C10 from any state that runs lead to (`update_aged`), composed with writing and loading (C21) for one run (`advances_run`), then induction over the runs (`C91_numbers`); with -p it is false (`keepRuns`, `C88_changed_violation`) |
| C92 | integrity checks on any database | each check is shown to decide its part of `SoundDb` (`Verdict`), and these are put together (`C92_integrity_partial`), for tables without empty lists and with no more words than noted. False for words with an empty list (`C92_empty_violation`) and for tables with more words than noted (`C92_overrun_violation`). That the databases of the program pass is C43 |

## 4. What is modelled and what is not

| code | Lean | remarks |
|------|------|---------|
| tok.c, db.c:257-379, 1062-1249 | Model/Encoding, TokTable | tables of words, encoded lists, loading, purging |
| tok.c, db.c:496-668 | Model/Tokenise, Message | words of a message; the parsed message is the input |
| hash.c | Model/Hash | elsewhere the hash function is a parameter: nothing depends on which it is |
| db.c:733-827 | Model/Threading | |
| db.c:53-256 | Model/Database, Integrity | integrity checks; `qsort` is any sorting function |
| db.c:671-1060 | Model/Update | |
| db.c:1251-1317, mbox.c:1038-1082 | Model/Cull | |
| writer.c:89-134, 602-615, mairix.c:447-451 (stopped runs) | Model/Crash | stores as wholes and in the order of the source; a machine that stops is left out |
| md5.c, mbox.c:106-114 | Model/Md5 | 32-bit `unsigned int`; the assembly for the 68000 left out |
| mbox.c:53-1120 | Model/MboxScan, MboxUpdate | `parse`, MD5 (see Model/Md5) and the check of "From " lines are parameters (for the latter see Model/Regex) |
| reader.c, writer.c, db.c:381-493 | Model/DbFile, ReadDb | byte-accurate, little endian, 32-bit `int`, 64-bit pointers |
| search.c:45-560, 780-1082 | Model/Substring, Search | date expressions are a parameter here (Model/Dates) |
| search.c:559-761, 1083-1184 | Model/Output | names and contents of results; IMAP is in Model/Imap, excerpts in Model/Terminal |
| search.c:614-622, 662-671, 737-760, 1084-1186, 1354-1551 | Model/Disk | a file system of inodes with links; permissions, full disks and other processes are left out, a slash at the end of a path is not seen |
| search.c:1187-1282 | Model/Terminal | output as a text; `gmtime` and `strftime` by the parts of the date; IMAP messages by a parameter |
| search.c:1494-1551 | Model/SearchTop | the database, the folder, the clearing, the search and the results in their order; a folder made in part is left out; what is found of IMAP messages is a parameter |
| search.c:676-713 | Model/Stored | the checksum of a message of an mbox is read from the database file, the text from the mbox as it is |
| fromcheck.nfa, mbox.c:209-241 | Model/Regex, Scanners | the language of the scanner as a regular expression; that the generated scanner accepts it is C69 |
| glob.c | Model/Glob | patterns as sets of 32 states; C strings |
| mbox.c:507-794, dirscan.c, mairix.c:88-136, 720-770 | Model/Folders | over an abstract file system; IMAP folders not modelled |
| expandstr.c | Model/Expand | the environment is a parameter |
| dotlock.c, mairix.c:447-450 | Model/Dotlock | any number of processes, one system call at a time |
| rfc822.c:216-295, 388-588 | Model/Decode | transfer encodings, byte-accurate |
| rfc822.c:113-215, 296-387, 619-671, 989-1000 | Model/Header | lines, encoded words, status flags |
| nvp.c:85-429, nvp.nfa | Model/Nvp, Scanners | the automaton as the subset construction of the blocks of nvp.nfa (dfasyn makes a copy of a block at each use); that the generated scanner does the same is C71 |
| dfasyn/n2d.c, evaluator.c, expr.c | Model/Subset | bitmaps as lists of `Bool`; states found by comparing sets instead of by signature and hash chain; the values of tags are computed for each set instead of being kept with version numbers |
| dfasyn/compdfa.c | Model/Compdfa | classes as a list of numbers; `qsort` as any function that sorts; reports are left out |
| dfasyn/tabcompr.c, dfasyn.c:72-347, 590-674 | Model/Tables, Model/Dfasyn | the tables as lists of the numbers printed, cut to the types declared for them; the text of the output is not modelled |
| dfasyn/parse.y, scan.l | Model/NfaText | the scanner and the parser: the tables of flex and bison are replaced by a scanner that takes the longest match and a parser by recursive descent |
| dfasyn/parse.y, blocks.c, states.c, stimulus.c, abbrevs.c, tokens.c | Model/Nfa | what is done for the declarations; names as numbers |
| fromcheck.nfa, datescan.nfa, nvp.nfa | Model/NfaTexts, Model/NfaFiles | the texts line by line; the declarations written down by hand, proved to be what is read from the texts (C79) |
| dfasyn/charclass.c, states.c:258-303 | Model/Charclass | the words of a bitmap as one number and a bit for each upper half; which classes are used, and that equal ones are kept once, is left out as it makes no difference |
| rfc822.c:421-436, 672-986, 1003-1083 | Model/Mime | attachments of a multipart are found before they are read (they do not influence the search); `mktime` is a parameter; messages on the terminal are left out |
| imap.c:205-712 | Model/ImapLine | timeouts, TLS and lost connections only as the end of the stream; literals are sent without waiting (`LITERAL+`) as the code does |
| imap.c:859-979, 1045-1234, imapinterface.c:11-49 | Model/ImapLogin | OpenSSL as a parameter (`TlsPeer`); the handshake is one step; allocations do not fail; the field `log` is not in the program |
| imap.c:837-857, 1236-1323, imapinterface.c, search.c:1284-1329 | Model/Imap | messages on the terminal left out; memory is not freed |
| dates.c, datescan.nfa | Model/Dates, Scanners | one `now` for all calls of `time`; `localtime` and `mktime` are parameters, `mktime` with what it makes of its argument |
| mairix.c:137-291, 537-790 | Model/Rc | C locale; `--force-hash-key-new-database` and messages left out |
| mairix.c:295-360, 780-851 | Model/Run | whole indexing runs and sequences of them |
| rfc822.c:1085-1449, xzfile.c | Model/Mapping | sequences of files that are mapped, read and freed; the decompressors are parameters |
| mairix.c:780-851, rfc822.c:1309-1486, db.c:885-906 | Model/Whole | the same from the configuration and the contents of the disk on; compressed files left out |

Not modelled: opening of IMAP connections (imap.c:41-165), decompression itself, memory
exhaustion, verbose output and usage texts.

Assumptions made by theorems about runs are in the structure `Sane` (Spec/Run): the sorting functions
sort, paths and header texts are C strings, checksums have 16 bytes (`md5_length`), mboxen are smaller than 2^31 bytes.
What is in memory that was never initialised (`junkHighest`, `junkIdx`, `junkMsg`) is arbitrary.

## 5. Findings: places where the code does not satisfy the property

Each is a theorem named `*_violation` with a concrete witness, unless marked "(read)".

1. `insert_value` cannot encode gaps in [63*2^24, 2^30) (`C01_violation`).
2. `int_list_reader_copy` leaves `highest` uninitialised for an empty list; `import_toktable2` then compares it in an
   assertion. Any mailbox with a reply to a message that is not there has such a list
   (`C04_ids_violation`, `C43_uninitialised_violation`).
3. A purge does not renumber threads; a threaded search afterwards leaves its table (`C24_purged_violation`).
4. Fuzzy search together with `^` counts errors against the wrong end (`C17_*_violation`).
5. A path search overwrites the hits of other alternatives, and aborts if there is a message on an IMAP server (Props/Search).
6. A trailing `/`, and whitespace in the last word of a query, are not handled as documented (Props/Search).
7. `db_date_cmp` subtracts 32-bit times (`C25_*_violation`).
8. Sizes in queries overflow (`C21_*_violation`).
9. Threaded search spreads from dead messages until they are purged (Props/Search).
10. `^word` without `=` is ignored (Props/Search).
11. A message of an mbox changed in place is not noticed unless it is at a bisection point (`C30_changed_in_place_violation`; in whole runs `C61_changed_violation`).
12. (In whole runs: `C61_shortened_violation`.) A truncated mbox leaves too many messages in its record; after saving and loading, their places are
    uninitialised and used (`C30_truncated_violation`).
13. The sizes of messages on IMAP servers are never written; a search by size sees leftovers in the file (`C21_imap_violation`).
14. Times are truncated to 32 bits on writing; a file with a time outside [0, 2^32) is indexed anew in every run (see 35).
15. `write_database` overwrites the file in place, so a run that is stopped while writing leaves a mixture: nothing is found any more and further runs fail (`C60_lost_violation`, `C60_shorter_violation`), the first run leaves a file that cannot be read (`C60_first_violation`), and a further run may complete, even with integrity checks, and leave words with the wrong message for good (`C60_wrong_violation`).
16. `open_db` accepts files whose tables leave the file: 32-bit wrap-around (`C37_wrap_violation`), the type table
    (`C37_types_violation`) and path offsets (`C37_path_violation`) are not checked; one byte of the magic number suffices
    (`C37_magic_violation`).
17. `mbox_terminate` adds one newline, not two, to a message of one byte (`C39_one_byte_violation`), and `append_data_to_mbox`
    never adds an empty line (`C39_imap_violation`).
18. `try_copy_to_path` drops the last byte of a message even if it is not a newline (`C49_last_byte_violation`).
19. A From line whose address has a domain of one character is not recognised (`C50_short_domain_violation`).
20. `create_symlink` calls `link` after a successful `symlink`; it then always fails without effect (`symlink_new`).
21. A pattern with 32 or more parts besides stars shifts an `int` by its width or more (`C26_long_violation`); an `omit` path of
    ordinary length does that. A `[` without `]` is read past its end (`C26_open_class_violation`). `[a-e-z]` is not what the comment says
    (`C26_double_range_violation`).
22. An item of a colon separated list cannot end in a backslash (`C27_backslash_violation`).
23. A results folder on another device is refused if its inode number is that of an indexed folder (`C38_device_violation`).
24. A wildcard directly below the root finds nothing (`C51_root_violation`).
25. The environment variable `MAIRIX_MAILDIR_FOLDERS` makes the program look at another one that is misspelt, `MAIRIX_MAIDIR_FOLDERS`
    (mairix.c:651), so that the maildir folders become null and results may go into them (`C55_environment_violation`).
26. A process that finds the lock gone between its failed `link` and reading it goes on without a lock (`C28_race_violation`); a
    signal to a process that does not hold the lock removes it (`C28_signal_violation`).
27. There is no way to write a `$` in a configuration value; a lone one vanishes silently (`C31_no_dollar`).
28. A quoted-printable body that ends in an incomplete `=` sequence is read past its end, and what is found there becomes part of
    the result (`C33_past_end_violation`, `C33_beyond_violation`).
29. A uuencoded body is never decoded correctly: the newline behind the `begin` line is taken as a length, so that the result always has
    a multiple of 42 bytes (`C34_never_violation`); short bodies make it write beyond its buffer (`C34_overflow_violation`).
30. White space between the name of a parameter and `=` becomes part of the name, so that e.g. the boundary is not found
    (`C52_space_violation`); a value in quotes with escapes is cut (`C52_escape_violation`); a header with an empty value in quotes
    is not read at all (`C52_empty_violation`).
31. Delimiter lines of multiparts with blanks behind the boundary are not recognised, so that parts are lost without an error
    (`C47_padding_violation`); so are the parts behind a null character in a line with something like a delimiter (`C47_null_violation`).
32. A day or year in a Date header that does not fit an `int` is undefined behaviour (`atoi`, `C53_overflow_violation`).
33. Searches by date use strict comparisons with the beginning of the first day, and messages are dated at the beginning of their day in
    standard time: `d:period` misses the messages of the first day in winter (`C20_first_day_violation`), `d:start-end` misses them always,
    since the start inherits the time of day 23:59:59 from the end (`C20_range_first_day_violation`), and `d:3d` finds nothing (`C20_ago_violation`).
34. `d:31` after a month without a 31st is in the future (`C20_day_violation`); `d:29feb` outside leap years is 1 March
    (`C20_leap_day_violation`); February 2100 has 29 days (`C20_century_violation`); 69 years overflow (`C20_overflow_violation`).
35. A file whose modification time lies before 1970 or after 2106 is indexed again in every run, and the database grows each time
    (`C11_time_violation`); while something is listed that is not a file the database is written again in every run (`C11_unreadable`).
36. Every line of the configuration file is cut at `#`, `!`, `;` and `%`, also within a value (`C54_characters_violation`), and blanks before a
    comment become part of the value (`C54_blanks_violation`). The outdated word `folders` without a value reads a null pointer
    (`C54_folders_violation`), a NUL at the beginning of a line the byte before the array (`C54_nul_violation`).
37. A results folder that begins with `.` but not with `./` is taken as below the base directory, against the manual (`C55_dot_violation`).
38. An augmented search in MH format numbers its results from 1 again. New results whose names are taken are silently left out
    (`C56_augment_lost_violation`); a result that is written as a file, because it comes from an mbox or an IMAP server, is written through the link that is there: it
    overwrites the user's message (`C56_augment_violation`). A results path that names a file loses it (`C56_file_removed`).
39. When a compressed file is found in the cache of decompressed ones `data_alloc_type` keeps the value of the last plain file, so `free_ro_mapping` unmaps it although the cache
    goes on referring to it; the next use reads memory that is not mapped (`C58_cache_violation`). Four results of a search in mbox format are enough.
40. A damaged compressed file: the -1 of the decompressor is taken as the largest number of bytes (`C58_damaged_violation`).
41. The length of a message is cut to 32 bits for its checksum, so of a message of 4 GiB or more only the beginning counts (`C59_long_violation`).
42. With more than 256 tokens the compressed tables of dfasyn are wrong (`C62_token_violation`); mairix uses uncompressed ones.
43. Where `long` has 64 bits dfasyn does not survive inverted classes such as `[^?]` or `[^_]`: `1<<31` is sign-extended and the upper half of the word outlives the inversion, so that the loop that splits classes runs on and stores beyond its array (`C63_inverted_violation`). The files of mairix have no inverted classes.
44. dfasyn reads before its bitmap or fails an assertion for an empty class such as `[a]~[a]` (`C63_empty_violation`).
45. Quoted strings with escapes from an IMAP server are cut at the first quote (`C64_escape_violation`).
46. Numbers beyond `INT_MAX` in tags or literals from an IMAP server overflow (`C64_overflow_violation`).
47. A late answer to an earlier IMAP command ends the current one as a lost connection does (`C64_stray_violation`).
48. Backslashes in IMAP folder names and credentials are not quoted: another folder is meant, or the command is not understood (`C65_backslash_violation`, `C65_quote_violation`).
49. A line of one word in the answer to FETCH, or `* 1 FETCH` without more, is read through a null pointer (`C66_null_violation`).
50. If a message is gone between listing and reading, or the server refuses, `make_rfc822_from_imap` returns a pointer that was never set (`C67_gone_violation`).
51. When a folder cannot be selected, mairix still takes the one before as selected; its messages are then neither read nor copied (`C67_stale_violation`, `C68_stale_violation`).
52. Results from files are lost if the IMAP folder for them does not exist (`C68_new_violation`).
53. A search into an IMAP folder that is indexed deletes its mail (`C68_indexed_violation`).
54. A changed mbox and results in an IMAP folder: copying from the null pointer (`C68_mbox_violation`); a lost connection while storing: reading through it (`C68_silent_violation`).
55. In `[\.\-+]` (nvp.nfa:26) dfasyn does not know `\.` as an escape, so that the class has a backslash in it: `text/x\y` is read as a subtype. nvp.c:296 compares `current_action` instead of `last_action`, so that values with a character set are always combined with former ones.
56. dfasyn: a block that is instantiated in itself overflows a buffer of 1024 bytes; with more than 32 abbreviations the array is moved while pointers into it are kept (abbrevs.c); cyclic definitions of tags recurse without end.
57. A server, or somebody in between, that refuses `STARTTLS` gets the password in clear (`C73_refused_violation`); after `PREAUTH` nothing is encrypted (`C73_preauth_violation`); `LOGINDISABLED` is not heeded (`C73_disabled_violation`).
58. The certificate `*` fits every server, and the asterisk may stand for a part of a word (`C74_asterisk_violation`).
59. What is sent in clear behind the answer to `STARTTLS` counts as the answers to the encrypted commands (`C75_injection_violation`).
60. A server that closes the connection during the login, or sends an empty response, makes mairix read through a null pointer (`C76_silent_violation`).
61. With `follow_mbox_symlinks` an mbox that is a symbolic link is indexed once; afterwards the modification time and size compared are those of the link, so that later deliveries are never found (`C77_link_violation`).
62. dfasyn.5 says that single characters can be given in double quotes; scan.l:83, 90-91 makes names of them, so such a file is refused or means something else (`C79_quoted_violation`).
63. dfasyn.5 has commas between the declarations of a group; parse.y:240-242 refuses them (`C79_group_violation`).
64. East of Greenwich excerpts show the day before the one in the Date header: rfc822.c:978-982 stores local midnight, search.c:1276 shows it with `gmtime` (`C81_date_violation`).
65. A search whose expression is refused (such as `d:foo`) has cleared the results folder before it is refused, so the results of the search before are lost (`C83_refused_violation`, `C83_lost`).
66. With -a a result whose number in the database is that of an earlier result still in the folder is silently not added: after a purge between the searches the numbers change, and different messages get the same name (`C88_changed_violation`).
67. (Read in the code; what is printed is not modelled.) search.c:616 calls `link` after a `symlink` that succeeded; it fails because the name now exists, so with -v every result of a folder search is reported as a failure although it is there.
68. (Read in the code; no theorem, C scopes are not modelled.) dfasyn.c:606-613 leaves `dfa_entries` pointing to an array whose block has ended; the later uses, such as compdfa.c:285-292, are undefined behaviour for a file without named entries.
69. db.c:58-79 reads the numbers of a list into an uninitialised variable and compares it afterwards; for a word with an empty list the outcome of the check depends on what was in it, or on the word before (`C92_empty_violation`).
70. db.c:86-96 copies the words of a table into an array of `table->n` elements and only afterwards asserts that there were so many; with more words than noted the check writes outside the array before the assertion (`C92_overrun_violation`).
