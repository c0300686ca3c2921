{"id": "C01", "title": "A token's message list survives encoding", "statement": "If a word is recorded for messages with non-decreasing numbers n1<=n2<=..., then reading back the byte string stored for that word yields exactly the distinct numbers, in increasing order, and nothing else; this holds when the list is followed in the database file by its terminator and arbitrary other bytes, and when it is read from memory without a terminator. (In the code it holds only while each gap is below 63*2^24; from there up to the asserted limit of 2^30 the first byte collides with the terminator.)", "quantifier": "all non-decreasing sequences of message numbers, all trailing file contents", "why_tests_cant": "The encoding has three length classes; the failing gap needs more than a billion messages and no test reaches it. The claim is about all sequences.", "anchors": ["tok.c: insert_value, insert_index_on_encoding, check_and_enlarge_encoding", "reader.c: int_list_reader_read"]}
{"id": "C02", "title": "Appending to a message list never writes outside its buffer", "statement": "Starting from an empty list, or from a list loaded from a database file, any sequence of append operations only writes inside the space allocated for the list, whatever the gaps.", "quantifier": "all sequences of appended message numbers, all initial lists loaded from a file", "why_tests_cant": "Overrun depends on the interplay of the growth rule with 1, 2 and 4 byte codes over every history.", "anchors": ["tok.c: check_and_enlarge_encoding, insert_value", "reader.c: int_list_reader_copy", "db.c: recode_encoding"]}
{"id": "C03", "title": "The word table behaves as a map from lower-cased word to message list", "statement": "After any sequence of additions of (word, message number) with non-decreasing message numbers, looking up a word finds it iff it was added (ignoring letter case), its list is the set of messages it was added for, no word is stored twice, and the insertion always terminates, for every hash function and hash key.", "quantifier": "all sequences of additions, all hash functions and keys, all table growth points", "why_tests_cant": "Collisions, wrap-around and rehashing on growth interact; only an invariant over all histories settles it.", "anchors": ["tok.c: add_token_in_file, enlarge_toktable", "hash.c: hashfn"]}
{"id": "C04", "title": "Reloading a saved word table loses nothing", "statement": "Loading the word table of a saved database gives a table in which exactly the saved words can be found, each with its saved message list, with room to go on adding; loading never reports a duplicate for a database that was written from a table without duplicates.", "quantifier": "all saved tables, all hash functions and keys, all subsequent additions", "why_tests_cant": "The reloaded table has another size than the saved one, so every collision pattern changes.", "anchors": ["db.c: import_toktable, import_toktable2", "reader.c: int_list_reader_copy"]}
{"id": "C05", "title": "Purging removes exactly the dead messages from every word's list", "statement": "After a purge each word's list is the image of its old list under renumbering of the surviving messages, words with no surviving message are gone, every remaining word can still be found, and the compaction of the table terminates.", "quantifier": "all tables, all hash functions, all sets of dead messages", "why_tests_cant": "The gap closing loop moves entries until nothing changes; termination and lookup correctness hold for all collision chains or not at all.", "anchors": ["db.c: recode_encoding, recode_toktable, recode_toktable2"]}
{"id": "C06", "title": "Indexed words are exactly the maximal runs of word characters, lower-cased", "statement": "The words indexed for a text are exactly its maximal runs of word characters (letters, digits, underscore; for addresses additionally the reading in which + - . @ _ are word characters), in lower case, each recorded for the message being indexed and no other.", "quantifier": "all NUL-terminated byte strings, both character classes", "why_tests_cant": "Ranges over all texts, including runs at both ends of the text and empty texts.", "anchors": ["db.c: tokenise_string, char_valid_p, special_table"]}
{"id": "C07", "title": "HTML markup is not indexed", "statement": "The words indexed for an HTML part are exactly the words of the text that remains when each tag, from < to the next > (or to the end of the text), is replaced by a separator.", "quantifier": "all NUL-terminated byte strings", "why_tests_cant": "Unterminated tags, adjacent tags and tags inside words must all be covered.", "anchors": ["db.c: tokenise_html_string"]}
{"id": "C08", "title": "Threads are the connected components of sharing a message identifier", "statement": "After threading, two messages have the same thread number iff they are linked by a chain of messages in which neighbours mention a common message identifier; thread numbers are 0,1,2,... in order of each thread's first message, hence below the number of messages.", "quantifier": "all databases: all assignments of message identifiers to messages, all orders of the identifier table", "why_tests_cant": "Union-find over arbitrary graphs; tests see only a few shapes.", "anchors": ["db.c: find_threading, find_base"]}
{"id": "C09", "title": "A path is found in the sorted list iff it is there", "statement": "Looking up a path of a given kind in a list sorted by kind and path returns a position holding it if one exists and reports absence otherwise; it never reads outside the list and terminates.", "quantifier": "all sorted lists, all keys and kinds", "why_tests_cant": "Bisection boundaries.", "anchors": ["db.c: lookup_msgpath", "mairix.c: message_compare"]}
{"id": "C10", "title": "An index update makes the index agree with the mail on disk", "statement": "After an update, the live single-file messages in the database are exactly: the previously live entries whose path is in the folder list with unchanged modification time (in fast mode: merely in the list; IMAP: in the list), unchanged and in their old positions, followed by one new entry for each other listed path that is a regular file (or IMAP), in list order; entries no longer present or changed become dead and nothing already dead comes back. No path is live twice.", "quantifier": "all databases, all sorted duplicate-free folder listings, all file states, both modes", "why_tests_cant": "The result depends on every combination of presence, staleness and kind across two lists.", "anchors": ["db.c: update_database, add_msg_path, do_stat"]}
{"id": "C11", "title": "Updating twice changes nothing the second time", "statement": "Running an update again with the same folder listing and unchanged files adds no message, kills no message and, if every listed path can be stat'ed as a file, reports that nothing changed, so the database is not rewritten.", "quantifier": "all histories of runs, all mail, all listings of it in any order, all contents of memory that is not initialised", "why_tests_cant": "Fixpoint of the update over every state.", "anchors": ["db.c: update_database", "mbox.c: build_mbox_lists", "mairix.c: main"]}
{"id": "C12", "title": "Purging keeps the surviving messages, in order, with their data", "statement": "After a purge the message list is the old list without its dead entries, in the same order; every surviving message keeps path, date, size, flags; and for every word and every surviving message, the message is listed under the word after the purge iff it was before.", "quantifier": "all databases, all sets of dead messages", "why_tests_cant": "Renumbering must agree between the message table and all seven word tables.", "anchors": ["db.c: cull_dead_messages, recode_toktable"]}
{"id": "C13", "title": "What is written to the database file is what is read back", "statement": "Writing a database and opening the resulting file gives back the same message kinds, flags, paths, times, sizes, dates, thread numbers, mailbox records and, for every word table, the same words with the same message lists, provided the file stays below the limits of its 32-bit offsets.", "quantifier": "all databases whose file fits the format's limits", "why_tests_cant": "The layout is computed in one pass and filled in another; agreement for all sizes is a proof obligation.", "anchors": ["writer.c: write_database, compute_mapping, write_header, write_messages, write_toktable", "reader.c: open_db, read_toktable_db"]}
{"id": "C14", "title": "Sections of the database file never overlap and fill the file exactly", "statement": "For every database the regions computed for the database file are pairwise disjoint, aligned where words are stored, inside the file, and the character data written is exactly as long as the space computed for it.", "quantifier": "all databases", "why_tests_cant": "Off-by-one between size computation and writer shows only for particular contents.", "anchors": ["writer.c: compute_mapping, char_length, toktable_char_length"]}
{"id": "C15", "title": "Exact word search returns exactly the messages containing the word", "statement": "A search for a word in a field yields exactly the messages listed under that word (compared in lower case) in that field's table, and searching several fields yields the union.", "quantifier": "all databases, all words, all sets of fields", "why_tests_cant": "Set equality over all databases.", "anchors": ["search.c: match_string_in_table, mark_hits_in_table, do_search"]}
{"id": "C16", "title": "Approximate substring search is exactly edit distance", "statement": "A search for substring=k matches a word iff some contiguous part of the word can be turned into the substring with at most k single-letter insertions, deletions or changes, for every k and every substring of 1 to 31 letters; the special-cased code for k=0..3 and the general code agree.", "quantifier": "all patterns of 1..31 bytes, all words, all k", "why_tests_cant": "Bit-parallel automaton against a recursive specification: infinitely many words; five separate code paths.", "anchors": ["search.c: build_match_vector, substring_match_0..3, substring_match_general"]}
{"id": "C17", "title": "Anchored substring search matches at the beginning of the word only", "statement": "A search for ^substring=k matches a word iff some prefix of the word is within k edits of the substring. (True for k=0; the code violates it for k>=1.)", "quantifier": "all patterns, all words, all k", "why_tests_cant": "The violation needs an error budget spent on the first letter.", "anchors": ["search.c: substring_match_1..3, substring_match_general, do_search"]}
{"id": "C18", "title": "Query operators mean what the manual says", "statement": "A message matches an argument x:w1,w2/w3,... iff for some /-separated alternative every ,-separated word matches (a ~word matches iff the word does not), and matches a query iff it matches every argument; spaces around words are ignored. (False in the code for an argument ending in a separator: the empty last alternative matches everything.)", "quantifier": "all query strings, all databases", "why_tests_cant": "Parsing and three nested hit vectors over all strings.", "anchors": ["search.c: do_search"]}
{"id": "C19", "title": "Search by several fields is the union over fields", "statement": "A word searched with several field letters matches a message iff it matches it in at least one of the fields; a is t,c,f and r is t,c; no field letters means t,c,f,s,b. (False in the code when the path field is combined with others: the path result overwrites the earlier fields' results, and it aborts on IMAP messages.)", "quantifier": "all field letter combinations, all databases, all words", "why_tests_cant": "Depends on order of table scans and on message kinds.", "anchors": ["search.c: do_search, match_substring_in_paths"]}
{"id": "C20", "title": "Date expressions denote the documented calendar ranges", "statement": "Each documented date expression (day, month, year, combinations, relative n d/w/m/y) is parsed to the time range of the calendar period it denotes relative to the current date: a day or month without a year is the most recent one that begins no later than the current date (for the start of a range: than its end); a range includes messages dated on its first and on its last day; any other text is refused.", "quantifier": "all expressions of the documented grammar, all current dates", "why_tests_cant": "Current date is an input; leap years, month ends and the 31st need every date.", "anchors": ["dates.c: scan_date_string, scan_date_expr, set_day, last_day", "datescan.nfa", "search.c: find_date_matches_in_table", "mairix.1: date section"]}
{"id": "C21", "title": "Date and size searches select exactly the messages in the range", "statement": "A date (size) search selects exactly the messages whose date (size) lies strictly between the two limits, where given, with limits swapped if given backwards; k and M multiply by 2^10 and 2^20.", "quantifier": "all databases, all limits", "why_tests_cant": "Mixed signed/unsigned comparisons, overflow at scale factors.", "anchors": ["search.c: find_date_matches_in_table, find_size_matches_in_table, parse_size_expr, parse_size_range"]}
{"id": "C22", "title": "Flag searches select exactly the messages with the requested flags", "statement": "F: followed by any mix of s,r,f and -s,-r,-f (either case) selects exactly the messages having every requested flag and lacking every negated one.", "quantifier": "all flag strings, all databases", "why_tests_cant": "All combinations of repeated and negated letters.", "anchors": ["search.c: find_flag_matches_in_table"]}
{"id": "C23", "title": "Maildir flags are read from the name and written back to the results folder", "statement": "A maildir file's seen, replied and flagged state is exactly the presence of S, R, F after its last :2, and a search result link has a name from which the same three flags are read back.", "quantifier": "all file names, all flag combinations, all result numbers and output folders", "why_tests_cant": "Names with several colons, names without info part.", "anchors": ["db.c: scan_maildir_flags", "search.c: mk_maildir_path, looks_like_maildir_new_p"]}
{"id": "C24", "title": "Threaded search returns whole threads and stays inside its tables", "statement": "With threading, the result is exactly the live messages whose thread contains a matching message, and no access outside the per-thread table occurs. (False in the code after a purge that was not followed by re-threading: thread numbers may be at least the number of messages.)", "quantifier": "all databases, all queries, all histories of updates and purges", "why_tests_cant": "Needs an invariant relating thread numbers to table size over histories.", "anchors": ["search.c: do_search", "db.c: cull_dead_messages, find_threading, update_database"]}
{"id": "C25", "title": "Results never contain dead messages and keep the requested order", "statement": "The list of results contains only live messages, each once, in database order, or with date sorting in non-decreasing date order (for any two dates less than 2^31 apart).", "quantifier": "all databases, all queries", "why_tests_cant": "Ordering by a comparison that subtracts 32-bit values is valid or not depending on all pairs.", "anchors": ["search.c: do_search, db_date_cmp"]}
{"id": "C26", "title": "Omit and wildcard patterns match like shell globs", "statement": "A pattern matches a folder path iff the path decomposes according to the pattern: ordinary characters match themselves, ? any character, [..] any listed character or range, * any sequence without /, ** any sequence. Holds for patterns of at most 31 non-star elements.", "quantifier": "all patterns, all paths", "why_tests_cant": "Bit-parallel nondeterministic automaton against declarative matching.", "anchors": ["glob.c: make_globber, is_glob_match, parse_charclass"]}
{"id": "C27", "title": "Colon separated lists split at unescaped colons only", "statement": "Splitting a colon separated list yields the items between unescaped colons with \\: meaning a literal colon; joining any list of non-empty items with colons, escaping the colons inside, and splitting gives the items back.", "quantifier": "all strings, all lists of items", "why_tests_cant": "Escapes at item boundaries and trailing separators.", "anchors": ["glob.c: split_on_colons, copy_folder_name"]}
{"id": "C28", "title": "An unlocked database is held by at most one process", "statement": "Among any number of processes starting, indexing, searching, finishing and crashing in any interleaving, at most one at a time passes the locking step without having released the lock. (False in the code when the lock disappears between the failed link and reading it.)", "quantifier": "all interleavings of system calls of any number of processes", "why_tests_cant": "A race between three system calls of two processes.", "anchors": ["dotlock.c: lock_database, unlock_database"]}
{"id": "C29", "title": "An mbox is split into messages that tile the file", "statement": "Splitting an mbox into messages gives consecutive, non-overlapping ranges: each starts right after a separator line, ends where the next separator line starts or at the end of the file, and separator lines are exactly the lines that match the From-line grammar at a line start; no byte outside the file is examined.", "quantifier": "all file contents", "why_tests_cant": "A shift-register scanner with a nested automaton over all byte strings.", "anchors": ["mbox.c: build_new_message_list, find_next_from, looks_like_from_separator, start_of_next_line"]}
{"id": "C30", "title": "Appending to an mbox keeps the indexed messages and indexes only the new ones", "statement": "When an mbox whose indexed messages are intact has grown, all old messages remain valid and scanning resumes right after the last of them; when some prefix is intact and the rest is not, exactly the maximal intact prefix is kept.", "quantifier": "all mboxes, all modifications for which intactness is prefix closed", "why_tests_cant": "Binary search over checksums against all possible modifications.", "anchors": ["mbox.c: find_number_intact, message_is_intact, rescan_mbox, build_new_message_list"]}
{"id": "C31", "title": "Environment and home expansion replaces every reference and nothing else", "statement": "Expanding a configuration value replaces a leading ~/ by the home directory and each $NAME or ${NAME} by its value (nothing if unset), copies all other characters, and the buffer allocated is exactly as long as the result.", "quantifier": "all strings, all environments", "why_tests_cant": "Two passes (length, copy) must agree for every input.", "anchors": ["expandstr.c: expand_string, compute_length, do_expand"]}
{"id": "C32", "title": "Base64 bodies are decoded as the standard says", "statement": "Decoding the base64 form of any data, broken into lines in any way, gives back exactly the data; no body makes the decoder read or write outside its buffers; bodies in other encodings that need no decoding are unchanged.", "quantifier": "all byte strings, all line breakings", "why_tests_cant": "All lengths modulo 3 and all byte values.", "anchors": ["rfc822.c: unencode_data, base64_table"]}
{"id": "C33", "title": "Quoted-printable bodies are decoded as the standard says", "statement": "Decoding the quoted-printable form of any data gives back the data: =XX becomes the byte, soft line breaks vanish, all other characters stay; no byte beyond the body is read. (False in the code when the body ends in an incomplete = sequence.)", "quantifier": "all byte strings, all soft line breaks", "why_tests_cant": "Escapes at the end of input.", "anchors": ["rfc822.c: unencode_data, looking_at_ws_then_newline, hex_to_val"]}
{"id": "C34", "title": "Uuencoded bodies are decoded safely and correctly", "statement": "Decoding a uuencoded body gives back the encoded data and never writes outside the buffer. (False in the code: line ends are taken as length characters.)", "quantifier": "all byte strings", "why_tests_cant": "Heap safety for all bodies.", "anchors": ["rfc822.c: unencode_data"]}
{"id": "C35", "title": "Encoded words in headers are decoded, everything else is unchanged", "statement": "A header value without =? is unchanged by decoding; an RFC 2047 encoded word with Q or B encoding is replaced by its decoded bytes; the result is never longer than the input and nothing outside the value is read.", "quantifier": "all header values", "why_tests_cant": "Nested scanning of delimiters with truncated words.", "anchors": ["rfc822.c: decode_header_value"]}
{"id": "C36", "title": "Folded header lines are joined", "statement": "The header of a message is accepted exactly if its first line (besides From lines) has a field name and every other has one or begins with white space; reading it yields one line per header field: each continuation line (starting with white space) is appended to the preceding field, in order, its leading white space reduced to its last character; fields are otherwise unchanged, and what follows the first blank line is the body.", "quantifier": "all sequences of header lines", "why_tests_cant": "All patterns of continuation lines, including at the start.", "anchors": ["rfc822.c: splice_header_lines"]}
{"id": "C37", "title": "A corrupt database file is rejected, not read out of bounds", "statement": "For every file content, opening it as a database either rejects it or gives tables that lie inside the file. (False in the code: 32-bit wrap-around and an unchecked message type table; magic number check accepts a file with a single matching byte.)", "quantifier": "all byte strings as file contents", "why_tests_cant": "Needs adversarial offsets.", "anchors": ["reader.c: open_db, read_toktable_db, read_toktable2_db, get_db_token, int_list_reader_read"]}
{"id": "C38", "title": "The results folder may not be an indexed folder", "statement": "A search is refused iff the results folder is covered by the configured folder lists (and not omitted), whatever the spelling with wildcards and ... suffixes.", "quantifier": "all configurations, all result folder names", "why_tests_cant": "Pattern semantics against path semantics.", "anchors": ["mairix.c: member_of, main"]}
{"id": "C39", "title": "Mail written to an mbox result folder can be split again", "statement": "Each message appended to an mbox result folder is followed by an empty line, so that the next From line is at the start of a line and every appended message is recoverable as one message, if its text contains no From-line itself.", "quantifier": "all sequences of message contents", "why_tests_cant": "Message endings of every shape, including messages of length 0 and 1.", "anchors": ["search.c: mbox_terminate, append_file_to_mbox, append_mboxmsg_to_mbox"]}
{"id": "C40", "title": "Duplicate folder listings never lead to a message indexed twice", "statement": "If the folder listing names a file more than once, indexing stops before the database is touched; otherwise it proceeds.", "quantifier": "all sorted listings", "why_tests_cant": "Adjacent comparison after sorting must be equivalent to global uniqueness.", "anchors": ["mairix.c: check_message_list_for_duplicates, message_compare"]}
{"id": "C41", "title": "A purge keeps mailbox records and message references consistent", "statement": "After purging, every mbox message refers to the same mailbox path and the same message in it as before, mailboxes without a path are gone, and no assertion fails.", "quantifier": "all databases reachable by updates", "why_tests_cant": "Renumbering of two tables that refer to each other.", "anchors": ["mbox.c: cull_dead_mboxen"]}
{"id": "C42", "title": "Message identifiers are extracted from angle brackets", "statement": "The identifiers recorded for a header are exactly the texts between a < and the next > , scanning from left to right.", "quantifier": "all header values", "why_tests_cant": "Unbalanced and nested brackets.", "anchors": ["db.c: add_angled_terms"]}
{"id": "C43", "title": "Integrity checks never reject a database built by indexing", "statement": "The consistency checks performed on loading, before purging and before writing never abort on a database reached from an empty one by any sequence of updates, purges, saves and loads.", "quantifier": "all histories", "why_tests_cant": "An assertion is a claim about all reachable states.", "anchors": ["db.c: check_toktable_enc_integrity, check_message_path_integrity, import_toktable, import_toktable2"]}
{"id": "C44", "title": "Mailbox and message positions survive packing", "statement": "The pair (mailbox number, message number) stored for an mbox message is read back unchanged, for all pairs accepted by the size check.", "quantifier": "all pairs below the limits", "why_tests_cant": "Boundary at 2^32.", "anchors": ["mbox.c: encode_mbox_indices, decode_mbox_indices, verify_mbox_size_constraints"]}
{"id": "C45", "title": "The status headers are understood", "statement": "The seen, replied and flagged state of an mbox message is exactly the presence of R, A and F in its status headers.", "quantifier": "all header values", "why_tests_cant": "All strings.", "anchors": ["rfc822.c: scan_status_flags"]}
{"id": "C46", "title": "A search after any history of indexing runs agrees with the mail", "statement": "Start without a database and perform any number of indexing runs that complete, with any changes to the mail in between, with or without purging and the fast mode. Then the database can be opened; every single-file or IMAP message a search sees was listed in the last run, is seen once, and has the words, date and flags it had when it was read in one of the runs; every listed message is seen. If files with unchanged modification time are unchanged, a search for a word finds exactly the listed messages that now have the word in one of the fields searched.", "quantifier": "all histories of runs, all states of the file system in each, all hash keys, all words and fields", "why_tests_cant": "It ranges over all histories of runs and all mail; it combines updating, purging, writing, loading and searching.", "anchors": ["mairix.c: main", "db.c: update_database, cull_dead_messages, new_database_from_file", "writer.c: write_database", "reader.c: open_db", "search.c: do_search"]}
{"id": "C47", "title": "Of a message exactly the headers, texts, file names and inner messages it contains are indexed", "statement": "Whatever a message consists of - header fields in any order, folded or with encoded words; a plain or HTML text; a message inside; a multipart with any number of parts, nested to any depth, in base64, quoted-printable or as it is - what mairix keeps of it is exactly: the values of To and Cc (all such fields), From, Subject, Message-ID, In-Reply-To and References (the first of each), its date and status, and in order each text of a part, each inner message, and the names of attached files; text outside the parts does not count, nor does what lies behind the message in memory. Reading ends for any data. (Not so: delimiter lines with blanks behind the boundary are not recognised.)", "quantifier": "all messages and all data, all depths of nesting", "why_tests_cant": "Unbounded nesting and all combinations of fields, encodings, boundaries and lines that only look like delimiters.", "anchors": ["rfc822.c: data_to_rfc822, do_body, do_attachment, do_multipart, unencode_data"]}
{"id": "C48", "title": "Every result gets a file name of its own", "statement": "For every query, the names made for the results in a maildir or MH results folder are pairwise different, one for each result, and fit the buffers they are built in.", "quantifier": "all databases with fewer than 2^31 messages, all queries, any order of the results, any results folder", "why_tests_cant": "Collisions and overruns would only show for particular numbers of messages and orders of results.", "anchors": ["search.c:mk_maildir_path", "search.c:mk_mh_path", "search.c:do_search"]}
{"id": "C49", "title": "A message taken out of an mbox is the one that was indexed", "statement": "A message in an mbox is delivered only if the checksum of the bytes delivered is the one stored when it was indexed, and these bytes are the part of the mbox recorded for the message; nothing outside the mbox is read. The copy in a results folder is the message with one header line added, without the empty line that separates it from the next. (False in the code for a last message that does not end with a newline: its last byte is lost.)", "quantifier": "all contents the mbox may have at the time of the search, all recorded positions below 2^32, any checksum function", "why_tests_cant": "The mbox can change in any way between indexing and searching.", "anchors": ["search.c:get_validated_mbox_msg", "search.c:try_copy_to_path"]}
{"id": "C50", "title": "Usual From lines are recognised, by their own line only", "statement": "A line made of From, an address (local part, or local part and a domain of at least two characters) and a date in the form of asctime starts a message, whatever follows it; whether a line starts a message depends on this line only. (Addresses with a domain of one character are not recognised.)", "quantifier": "all addresses, dates and following texts", "why_tests_cant": "The set of lines is infinite; the check is a generated automaton.", "anchors": ["fromcheck.nfa", "mbox.c:looks_like_from_separator"]}
{"id": "C51", "title": "Exactly the messages in the configured folders are indexed", "statement": "The messages an indexing run considers are exactly the files in new and cur of the maildirs, the numbered files of the MH folders, and the mboxen, that the folder lists of the configuration mean (single paths, wildcards in the last component, ... for everything below), less those that match an omit pattern, and less links to mboxen unless these are to be followed. Finding them ends on every file system with a limit on the length of paths, cyclic links included. (A wildcard directly below the root finds nothing.)", "quantifier": "all file systems, configurations and folder types", "why_tests_cant": "All directory trees, patterns and combinations with omitted parts.", "anchors": ["mbox.c: glob_and_expand_paths, handle_one_path, handle_wild, append_deep", "dirscan.c: build_message_list, get_maildir_message_paths, get_mh_message_paths"]}
{"id": "C52", "title": "Types, encodings and parameters of parts are read from headers", "statement": "From a Content-Type, Content-Transfer-Encoding or Content-Disposition header, mairix reads the type and subtype or the first word, and every parameter with its value: without quotes, in quotes, in numbered pieces (name*0=, name*1=), and with charset and percent escapes (name*=utf-8''..., name*0*=...), pieces joined in the order in which they appear. Letters of the name of the header do not depend on case, neither does the search for a parameter. No header, however malformed, makes it read or write outside its strings. (Not so: white space before the = becomes part of the name, a value with backslash escapes in quotes is cut, a header with an empty value in quotes is not read.)", "quantifier": "all header lines and all sequences of components", "why_tests_cant": "Unbounded headers, all combinations of components, white space and quoting; the scanner is a generated automaton.", "anchors": ["nvp.c: make_nvp, combine_nvp, nvp_lookupcase, nvp_major, nvp_minor, nvp_first", "nvp.nfa"]}
{"id": "C53", "title": "The date of a message is the day its header names", "statement": "From a Date header of the RFC 822 form (an optional day of the week, day, month by its first three letters, year of two or four digits, then a time) mairix takes exactly that day, as the local time at its beginning; of any other text it takes no date. (Not so: a number that does not fit an int is undefined behaviour.)", "quantifier": "all texts of the header", "why_tests_cant": "All texts and white space, all numbers.", "anchors": ["rfc822.c: parse_rfc822_date"]}
{"id": "C54", "title": "The configuration file means what its manual says", "statement": "From a file of comments, blank lines and documented settings, in any order and number, names in either case, mairix takes exactly these settings: of several lines for a setting with one value the last, lists of several lines joined, references to the environment replaced. A line that is too long is refused. Any other file without NUL gives settings or is refused; it never makes mairix read outside its memory. (Not so: every line is cut at # ! ; and %, also inside a value; the outdated word folders without a value reads a null pointer.)", "quantifier": "all files, environments and orders of lines", "why_tests_cant": "Unbounded files, all combinations of settings and values.", "anchors": ["mairix.c: parse_rc_file, copy_value, add_folders, parse_output_folder"]}
{"id": "C55", "title": "Options come before environment, environment before file", "statement": "For every command line of documented options in any order and search expressions, mairix dumps the database if -d is given, else searches if there is an expression or -t or -a, else indexes; it uses the database, base directory, folders, results folder and format of the command line, else of the environment, else of the configuration file, and refuses if base or database are nowhere given. (Not so: MAIRIX_MAILDIR_FOLDERS makes it forget all maildirs, and with them the check that results do not go into one; a results folder ../x is taken as below the base directory, against the manual.)", "quantifier": "all command lines, environments and configuration files", "why_tests_cant": "All combinations and orders of options with all files and environments.", "anchors": ["mairix.c: main"]}
{"id": "C56", "title": "A search changes nothing but its results folder", "statement": "Whatever is on the disk, a search with results in a maildir, MH folder or mbox leaves the contents of all other files, all links and all other directories as they are. Without -a the results folder then holds exactly the results, under their names and as links to or copies of the messages, besides subdirectories (and in an MH folder, entries whose names are not numbers); with -a everything in it stays and the results are added. Folders that are missing are made, at no cost to anything but what had their name. (Not so: with -a in MH format new results may be left out, and a copied message is written through an old link, over the user's mail.)", "quantifier": "all disks with any links, all results, formats, hard or symbolic links, with and without -a", "why_tests_cant": "All directory contents, links and combinations of results; what must not change is everything else.", "anchors": ["search.c: search_top, do_search, create_symlink, try_copy_to_path, write_to_file, maybe_create_maildir, directory_exists_remove_other, clear_maildir_subfolder, clear_mh_folder, clear_mbox_folder"]}
{"id": "C57", "title": "The mail in the configured folders is found by what it says", "statement": "After any history of completed indexing runs, a search finds, of the messages in files of their own, only those in the folders now configured; and of those whose files are well-formed messages (headers, MIME parts to any depth, transfer encodings, encoded words) exactly those whose headers, texts, file names, size, date, flags and paths satisfy the query.", "quantifier": "all configurations, directory trees, file contents with a meaning as messages, histories of runs, queries (words searched for in paths are searched for nowhere else and have at most 31 letters)", "why_tests_cant": "The composition of folder expansion, parsing, incremental indexing, the database format and the search must be right for all contents and all histories.", "anchors": ["mairix.c: main", "rfc822.c: make_rfc822, data_to_rfc822", "db.c: update_database, tokenise_message", "search.c: do_search"]}
{"id": "C58", "title": "Files are read as they are, compressed or not, in any order", "statement": "Whatever files mairix reads, one after the other and each any number of times, it gets exactly what they hold, decompressed if their names end in .gz, .bz2 or .xz, and never reads memory that is not mapped. (Not so: a compressed mbox read, then a plain file, then the mbox twice; and damaged compressed files.)", "quantifier": "all sequences of files, all contents, all addresses the kernel may choose", "why_tests_cant": "The fault needs a particular interleaving of compressed and plain files, out of all sequences.", "anchors": ["rfc822.c: create_ro_mapping, free_ro_mapping, find_ro_cache, add_ro_cache, data_alloc_type, is_compressed", "xzfile.c: xzopen, xzclose"]}
{"id": "C59", "title": "The checksum of a message is its MD5 digest", "statement": "The checksum by which mairix recognises a message of an mbox is, for every text shorter than 4 GiB, the digest that RFC 1321 defines, however the text is handed over in pieces and whatever the memory held before; no access leaves an array. (Not so from 4 GiB on: the length is cut to 32 bits.)", "quantifier": "all texts, all divisions into pieces, all contents of uninitialised memory", "why_tests_cant": "A wrong constant, carry or padding length shows only for particular lengths; the number of bits wraps at 2^32 and 2^64.", "anchors": ["md5.c:MD5Init", "md5.c:MD5Update", "md5.c:MD5Final", "md5.c:Transform", "mbox.c:compute_checksum"]}
{"id": "C60", "title": "Stopping an indexing run does no harm", "statement": "When an indexing run is stopped at any moment (killed, interrupted from the keyboard, out of time), the database file still answers searches as after the last run that completed, or as if this one had completed, and a further run brings it up to date. (Not so between the first and the last store into the file, when the file becomes shorter, and in the first run: the file is overwritten in place.)", "quantifier": "all histories of completed and stopped runs, all moments at which a run is stopped, all mail", "why_tests_cant": "The harm depends on the moment of the interruption between two stores and on what the file held before; a test stops a run at a few moments at best.", "anchors": ["writer.c:create_rw_mapping", "writer.c:write_database", "mairix.c:handlesig", "mairix.c:main"]}
{"id": "C61", "title": "All messages of an mbox are found", "statement": "After any history of indexing runs during which an mbox grew, or was changed from some message on, the index holds exactly the messages that are in the mbox now: each once, at its place, described as its text says; a search for a word finds exactly those of them that have the word. (Not so when a message before unchanged ones was changed in place, and when messages were only removed at the end.)", "quantifier": "all histories of runs, all contents of the mbox in each of them, all other mail, all words", "why_tests_cant": "What a run keeps of an mbox depends on a bisection over checksums of what all runs before it kept; the histories that go wrong are a matter of which messages changed and where they lie.", "anchors": ["mbox.c:find_number_intact", "mbox.c:build_new_message_list", "mbox.c:add_mbox_messages", "mbox.c:rescan_mbox", "mbox.c:build_mbox_lists", "db.c:cull_dead_messages", "db.c:new_database_from_file"]}
{"id": "C62", "title": "Generated scanners do what their input file says", "statement": "A scanner that dfasyn generates from an input file (mairix's scanners for dates, From lines and header parameters are such) gives, after any sequence of tokens and from any entry point, the attributes that the file says for the states of its automaton that can be reached with the tokens, and the defaults if there are none; it never reads outside its tables, and it stops (state -1) only when nothing but defaults can follow. The generator always ends; it rejects a file just if a default is missing, two attributes of a group can hold at once, or a tag of a state is defined by an expression as well.", "quantifier": "all automata, tag expressions, groups of attributes, entry points and sequences of tokens; compressed or uncompressed automata and tables; all correct sort functions", "why_tests_cant": "The scanner is the result of a subset construction, a pruning of dead states, a refinement of classes and an encoding into tables; a mistake in any of them shows only for some automata and some token sequences of any length.", "anchors": ["dfasyn/n2d.c:generate_epsilon_closure", "dfasyn/n2d.c:build_dfa", "dfasyn/n2d.c:add_dfa", "dfasyn/evaluator.c:evaluate_attrs", "dfasyn/expr.c:eval", "dfasyn/compdfa.c:compress_dfa", "dfasyn/compdfa.c:split_classes", "dfasyn/tabcompr.c:compress_transition_table", "dfasyn/dfasyn.c:print_uncompressed_tables", "dfasyn/dfasyn.c:print_compressed_tables", "dfasyn/dfasyn.c:main"]}
{"id": "C63", "title": "Character classes in generated scanners mean the characters written", "statement": "A scanner that dfasyn generates from a file with character classes treats each character just as the classes of the file say: after any sequence of characters and named tokens its attributes are those that the file says, where a class matches the characters between its brackets (ranges in either order, ^ for all others, ~ for differences), although the generator first splits the classes into groups and only the group of a character reaches the tables. A character in no class stops the scanner. The generator ends for every file whose classes are not empty, without storing outside its arrays.", "quantifier": "all automata with any classes, all sequences of characters and tokens, all 256 characters", "why_tests_cant": "There are 2^256 classes and any number of them can overlap; whether the grouping keeps apart what some class separates depends on all of them at once.", "anchors": ["dfasyn/charclass.c: split_charclasses, cc_test_bit, invert_charclass, print_charclass_mapping", "dfasyn/states.c: expand_charclass_transitions", "dfasyn/parse.y: char_class"]}
{"id": "C64", "title": "What an IMAP server says is read as meant", "statement": "However the bytes from an IMAP server arrive, in pieces of any size, each response is read as what it means: atoms, strings with any bytes in them, nested lists and the code in brackets, and reading stops exactly behind it. The result of a command are the responses of the server up to the one with the command's tag, in order. Whatever a server sends, no buffer is left.", "quantifier": "all responses of the protocol, all ways to cut the stream into reads, all further bytes; for safety all byte streams", "why_tests_cant": "The scanner is a hand-written state machine that is resumed at any byte; there are exponentially many ways to cut a stream, and messages in literals can look like any response.", "anchors": ["imap.c: imap_ll_waitline, imap_ll_command"]}
{"id": "C65", "title": "An IMAP server understands the commands as meant", "statement": "Each command that mairix sends is, for a server that reads it by the standard, exactly the words and strings that were meant: folder names, user names, passwords and whole messages arrive unchanged and nothing inside them is taken for another word or command. The buffer the command is made in is large enough.", "quantifier": "all commands with any folder names, credentials and messages of any bytes and any length, any tag number", "why_tests_cant": "The size of the buffer is computed in advance by a separate function; it has to be enough for every combination of atoms, lists, quoted strings and literals, and the choice of quoting has to be right for every string.", "anchors": ["imap.c: string_len, format_cmd, imap_ll_command, imap_ll_build"]}
{"id": "C66", "title": "All messages of the IMAP folders are listed, each once", "statement": "The messages that an indexing run finds on an IMAP server are exactly those in the configured folders that are not omitted by a pattern and not marked as deleted on the server, each under a name made of UIDVALIDITY, UID and folder that no other message has, whatever further responses and attributes the server sends and in whatever order; nothing on the server is changed.", "quantifier": "all servers that conform to the protocol, all mailboxes, folder names and flags, all answers allowed", "why_tests_cant": "The order of attributes and messages and the further lines are up to the server; one server in a test says nothing about the others.", "anchors": ["imapinterface.c: build_imap_message_list, scan_folder, add_imap_message_to_list", "imap.c: imap_select"]}
{"id": "C67", "title": "What is read under a name is that message on the IMAP server", "statement": "Reading a message by the name it has in the index gives exactly the body of the message on the server with that UIDVALIDITY, UID and folder, or nothing if it is gone or the folder has been renumbered, and never another message; nothing on the server changes.", "quantifier": "all conforming servers, all states of the mailboxes at the time of reading, all names, all messages read before in the session", "why_tests_cant": "It depends on what was selected before and on what has happened on the server since indexing.", "anchors": ["imapinterface.c: imap_fetch_message_raw, make_rfc822_from_imap", "imap.c: imap_select"]}
{"id": "C68", "title": "A search into an IMAP folder leaves exactly the results there", "statement": "After a search with results in an IMAP folder the folder has exactly the messages found, in order, with flags and unchanged bodies (behind the former ones if results are to be added), messages that are gone left out, and all other folders are as before; the folder is created if it does not exist.", "quantifier": "all conforming servers and states, all lists of hits in files, mboxen and folders of the server", "why_tests_cant": "The effect is a sequence of commands whose meaning depends on the selected folder and on which folders exist at that time.", "anchors": ["search.c: do_search (FT_IMAP)", "imapinterface.c: imap_clear_folder, imap_copy_message, imap_append_new_message, create_folder", "imap.c: imap_ll_is_trycreate"]}
{"id": "C69", "title": "The generated scanner recognises separator lines", "statement": "Running dfasyn on fromcheck.nfa succeeds, and mairix with the scanner generated takes a line for the beginning of a message in an mbox just if a beginning of what follows `From ` is in the language of separator lines that fromcheck.nfa describes; it never reads outside the generated tables.", "quantifier": "all texts, all ways qsort may sort", "why_tests_cant": "The scanner is generated by several hundred lines of C from a description; that the tables are right for all texts is a property of the generator and the description together.", "anchors": ["fromcheck.nfa", "dfasyn/parse.y", "dfasyn/blocks.c", "dfasyn/states.c", "dfasyn/n2d.c", "dfasyn/compdfa.c", "mbox.c: looks_like_from_separator"]}
{"id": "C70", "title": "The generated scanner finds the kind of a date", "statement": "Running dfasyn on datescan.nfa succeeds, and with the scanner generated mairix finds for each text in a date search the kind of date that it is by its parts (day, month, year, their combinations, six or eight digits, relative dates), and failure just if it is none of them; no text is of two kinds.", "quantifier": "all texts, all ways qsort may sort", "why_tests_cant": "Many alternatives share beginnings, so that an error in the merging of states or in the compression shows only for some texts.", "anchors": ["datescan.nfa", "dates.c: discover_type", "dfasyn/"]}
{"id": "C71", "title": "The generated scanner reads parameters of headers as nvp.nfa says", "statement": "Running dfasyn on nvp.nfa (706 states of the automaton after expansion of blocks) succeeds, and with the scanner generated mairix reads each header made of parameters as these say; any other header too is read or refused as the description says, and never anything outside the generated tables.", "quantifier": "all headers, all ways qsort may sort", "why_tests_cant": "The blocks are copied at each use, the deterministic automaton is minimised and its attributes are computed for sets of states; an error in any of these shows only for some headers.", "anchors": ["nvp.nfa", "nvp.c: make_nvp", "dfasyn/blocks.c: instantiate_block", "dfasyn/states.c: add_inline_block_transition"]}
{"id": "C72", "title": "The credentials for an IMAP server are only sent when they may be", "statement": "Whatever the server sends: mairix only sends CAPABILITY, STARTTLS and LOGIN while it logs in; LOGIN is sent at most once, with the configured name and password, and only after a greeting OK and with LITERAL+ and AUTH=PLAIN among the capabilities in force. The login counts as successful only if the server said so, and as denied only if it refused or nothing is configured.", "quantifier": "all sequences of bytes from the server, all ways they are cut up by read, all outcomes of the TLS handshake, all credentials", "why_tests_cant": "The server is not under control; a test has one or a few servers.", "anchors": ["imap.c: imap_login, imap_ll_starttls", "imapinterface.c: imap_start"]}
{"id": "C73", "title": "The password is encrypted if the server can do so", "statement": "If the server offers STARTTLS, the name and the password are only sent through an encrypted channel, to a server whose certificate was verified and names it.", "quantifier": "all servers, all outcomes of the handshake", "why_tests_cant": "Depends on what an attacker in between answers.", "anchors": ["imap.c: imap_login, imap_ll_starttls", "imapinterface.c: imap_start"]}
{"id": "C74", "title": "Only certificates for the configured server are accepted", "statement": "A certificate is accepted if and only if its common name is the name of the server, but for the case of letters, or *.domain for a server in that domain.", "quantifier": "all common names and server names", "why_tests_cant": "The names are arbitrary; wrong acceptance shows for few of them.", "anchors": ["imap.c: imap_login, imap_ll_starttls", "imapinterface.c: imap_start"]}
{"id": "C75", "title": "Answers to encrypted commands come through the encrypted channel", "statement": "The answers mairix takes for those to commands it sent encrypted came through the encrypted channel.", "quantifier": "all servers, all bytes sent in clear before the encryption begins, all ways they are cut up", "why_tests_cant": "Depends on the timing of bytes in the buffer.", "anchors": ["imap.c: imap_login, imap_ll_starttls", "imapinterface.c: imap_start", "imap.c: imap_ll_command, imap_ll_waitline"]}
{"id": "C76", "title": "mairix logs in to every server that accepts it, and survives all others", "statement": "A server that greets, has the capabilities and accepts the credentials is logged in to, with or without encryption, whatever further responses it sends and however they arrive; if it refuses, this is reported; no server makes the program crash.", "quantifier": "all conforming servers, all further responses, all ways of cutting up; for the safety: all servers", "why_tests_cant": "Arrival in pieces and further responses have no bound.", "anchors": ["imap.c: imap_login, imap_ll_starttls", "imapinterface.c: imap_start", "imap.c: imap_ll_command, imap_ll_waitline"]}
{"id": "C77", "title": "Mail delivered to an mbox is found", "statement": "After any number of indexing runs, with mail only ever delivered to an mbox of the configuration in between (appended with a From line, the text quoted and ending with a newline), a query finds of the messages in the mbox exactly those delivered so far that satisfy it, and no other places in it; no deliveries are lost, split, joined or mixed up.", "quantifier": "all sequences of runs with any configurations, all numbers of deliveries between them, all messages with a meaning, all queries; all sizes", "why_tests_cant": "Whether a delivery is noticed and found depends on all earlier runs and deliveries, on where the bytes of the From lines fall and on the whole of each message.", "anchors": ["mbox.c: build_mbox_lists, compare_mbox_sizes, find_number_intact, build_new_message_list, add_mbox_messages", "mairix.c: main", "search.c: search_top"]}
{"id": "C78", "title": "The dump shows the index as it is", "statement": "After any number of indexing runs that completed, mairix --dump prints, in its fixed format: every message file or IMAP message listed in the last run exactly once, with its path, size and flags; every message in an mbox with the number of a live mbox, whose path is printed, and the offset and size where it was found; and for every field each word once, followed by the numbers of exactly the messages that have the word in that field, in ascending order, sixteen to a line; the same for the message identifiers mentioned and owned.", "quantifier": "all histories of runs, all states of the mail in each, all hash keys and database names", "why_tests_cant": "It ranges over all mail and all histories; a wrong line break, number or list for some table size would be missed by any sample.", "anchors": ["dumper.c: dump_database, dump_token_chain, dump_toktable, dump_toktable2", "reader.c: open_db, int_list_reader_read"]}
{"id": "C79", "title": "Scanner descriptions mean what the manual page says", "statement": "An input file of dfasyn, laid out in any way with blanks, newlines, comments and any of the spellings of the reserved words, is read as exactly the declarations that it writes: classes with their escapes, transitions, blocks, attributes, and expressions with the operators binding as in C; the parts between %{ and %} are copied to the output unchanged; what makes no declarations is refused. In particular the scanners that dfasyn generates from the texts of the three input files of mairix recognise separator lines, dates and header parameters as they should.", "quantifier": "all texts made of the documented tokens, all lists of declarations, all layouts; the three files as they are", "why_tests_cant": "The declarations, layouts and expressions are unbounded; a wrong precedence or a token read wrongly in one context shows only in particular files.", "anchors": ["dfasyn/scan.l", "dfasyn/parse.y", "fromcheck.nfa", "datescan.nfa", "nvp.nfa"]}
{"id": "C80", "title": "Raw output tells where each result is", "statement": "A search with -r writes one line for each message that satisfies the query, in the order of the results, and nothing else: the path of its file, or the path of its mbox with the numbers of the first byte of the message and of the one after its last. Each message file is written at most once.", "quantifier": "all sequences of indexing runs, all mail folders, all queries", "why_tests_cant": "The lines depend on the whole history of the database and on every query; a wrong offset shows only in particular mboxen.", "anchors": ["search.c:do_search", "search.c:get_validated_mbox_msg"]}
{"id": "C81", "title": "Excerpts show the headers of the results", "statement": "A search with -x shows for each result its place, as -r does, and then its To, Cc, From, Subject, Message-ID, In-Reply-To and Date, those that the message has, with the values it has; the date is the day in the Date header.", "quantifier": "all sequences of indexing runs, all mail folders, all queries, all time zones", "why_tests_cant": "The headers range over all messages, the dates over all time zones.", "anchors": ["search.c:do_search"]}
{"id": "C82", "title": "After a search the results folder holds the results of that search", "statement": "After a search without -a the maildir or MH folder for results holds a link for each message file that satisfies the query, one for each, and a copy of each message of an mbox that does, and no other links or files; nothing else on the disk is changed.", "quantifier": "all sequences of indexing runs, all mail folders, all queries, all disks and contents of the results folder", "why_tests_cant": "It must hold for every database, query and earlier content of the results folder.", "anchors": ["search.c:search_top", "search.c:do_search", "search.c:clear_maildir_subfolders", "search.c:clear_mh_folder"]}
{"id": "C83", "title": "A search that is refused loses nothing", "statement": "If a search ends with an error before it has results, because the database is not valid, the folder cannot be made or the expression is not valid, then the results of the search before are still in the results folder.", "quantifier": "all databases, expressions and disks", "why_tests_cant": "There are unboundedly many invalid expressions and states of the folder.", "anchors": ["search.c:search_top", "search.c:do_search"]}
{"id": "C84", "title": "After a search the results mbox holds the results of that search", "statement": "After a search without -a with an mbox for the results, the mbox holds the message files and the messages of mboxen that satisfy the query, each with its whole text, a From line and a line that tells where it comes from, no file twice, and nothing else; nothing else on the disk is changed. If there are no From lines in the messages, the mbox is split into just these messages by whoever reads it.", "quantifier": "all sequences of indexing runs, all mail folders, all queries, all disks and earlier contents of the mbox", "why_tests_cant": "It must hold for every database, query, text of the messages and earlier content of the mbox.", "anchors": ["search.c:search_top", "search.c:do_search", "search.c:append_file_to_mbox", "search.c:append_mboxmsg_to_mbox", "search.c:mbox_terminate"]}
{"id": "C85", "title": "A search with -t finds the whole threads of the matches", "statement": "After any number of indexing runs, a search with -t finds all the messages in the threads of those that satisfy the query: every message that is linked to one of them by a chain of messages in which neighbours mention a common identifier in their Message-ID, In-Reply-To or References headers; and it finds no other messages.", "quantifier": "all sequences of indexing runs, all mail folders, all texts of messages, all queries, chains of any length", "why_tests_cant": "Threads are chains of unbounded length over any set of messages, and the numbers of threads are merged over any history of runs.", "anchors": ["search.c:do_search", "db.c:find_threading", "db.c:thread_messages", "writer.c:write_messages"]}
{"id": "C86", "title": "The hash of a word depends on its bytes and the key only", "statement": "The hash of a word is computed without reading outside the word and is determined by its bytes and the key: it is the function published by Jenkins. Mixing is reversible, so that the whole state (of which the hash is a third) tells different keys, and texts that differ in one block of 12 bytes, apart.", "quantifier": "all texts of any length, all keys, all contents of memory after the text", "why_tests_cant": "Reads outside the text depend on the length and on what is in memory after it; reversibility is about all 2^96 states.", "anchors": ["hash.c:hashfn", "hash.c:mix"]}
{"id": "C87", "title": "The results folder after a search with -t holds the whole threads of the matches and nothing else", "statement": "After any number of indexing runs, with message files that have not gone or changed since: a search with -t, with a maildir, an MH folder or an mbox for the results, ends without a fault; afterwards the folder holds links to (an mbox: the texts of) exactly the messages in the threads of those that satisfy the query, one for each, and nothing of earlier searches; nothing else on the disk is changed.", "quantifier": "all sequences of indexing runs, all mail folders, all texts of messages, all queries, all contents of the results folder before, all file systems", "why_tests_cant": "It composes unbounded histories of runs, chains of messages of any length and any earlier contents of the folder.", "anchors": ["search.c:search_top", "search.c:do_search", "search.c:clear_maildir_subfolder", "search.c:clear_mh_folder", "search.c:create_symlink", "db.c:find_threading"]}
{"id": "C88", "title": "Searches with -a add to the results of the searches before", "statement": "After any number of indexing runs, a search followed by any number of searches with -a over the same database, with a maildir for the results: each ends without a fault, and in the end the folder holds exactly one link to every message file that satisfies at least one of the queries, a copy of every message of an mbox that does, and no other links or copies; nothing else on the disk is changed; and to repeat any of the searches with -a then changes nothing at all. If there are indexing runs without -p between the searches, there is a link to every message file that satisfied a query at the time of its search, and no links to others.", "quantifier": "all sequences of indexing runs, all mail folders, all texts of messages, all sequences of queries of any length, all contents of the results folder before, all file systems", "why_tests_cant": "The number of searches, the overlap of their results and the contents of the folder before are unbounded.", "anchors": ["search.c:search_top", "search.c:mk_maildir_path", "search.c:create_symlink", "search.c:clear_maildir_subfolder", "mairix.c:main"]}
{"id": "C89", "title": "Whole threads on the terminal", "statement": "With -r -t a search writes the paths of exactly the messages that belong to the threads of those that satisfy the query, one line for each and nothing else, the threads being what the Message-ID, In-Reply-To and References headers in the files say.", "quantifier": "all configurations, directory trees, messages in files, histories of indexing runs without purges in which no indexed file goes or changes, and queries", "why_tests_cant": "It is a composition over unbounded mail stores, histories and chains of replies; a test sees single threads.", "anchors": ["search.c:do_search", "search.c:search_top", "db.c:find_threading", "mairix.c:main", "rfc822.c:make_rfc822"]}
{"id": "C90", "title": "Searches with -a append to an mbox of results", "statement": "A search followed by any number of searches with -a, with an mbox for the results, and with any indexing runs between the searches: each ends without a fault, and in the end the mbox holds the results of the first search, then those of the second as its database had them, and so on, each message with its whole text, a From line and a line that tells where it comes from, and nothing else; nothing else on the disk is changed. If there are no From lines in the messages, the mbox is split into just these by whoever reads it.", "quantifier": "all sequences of queries, all histories of indexing runs before each of them in which mail is only delivered to mboxen, all configurations, directory trees, messages and disks", "why_tests_cant": "Sequences of searches and of changes of the database between them, and the mail, are unbounded.", "anchors": ["search.c:search_top", "search.c:do_search", "search.c:append_file_to_mbox", "search.c:append_data_to_mbox", "mairix.c:main"]}
{"id": "C91", "title": "Without -p the numbers of messages are kept", "statement": "The names that mairix gives to results in a maildir (123456789.N.mairix) contain the number N of the message in the database, and searches with -a depend on it. After any number of indexing runs and any number of further ones without -p: no number that was in the database before belongs to another message file afterwards, also not one that was out of use; and a message file that was configured all the time and whose modification time has not changed still has its number.", "quantifier": "all sequences of indexing runs before and after, all configurations and mail folders in each of them, all texts of messages", "why_tests_cant": "The number of runs and what is delivered, changed and deleted between them are unbounded; a number used again shows only if just the right message goes and another comes.", "anchors": ["mairix.c:main", "db.c:update_database", "db.c:new_database_from_file", "search.c:mk_maildir_path", "writer.c:write_database"]}
{"id": "C92", "title": "The integrity checks find just the databases that are not sound", "statement": "The integrity checks (done when a database is loaded for indexing, before purging and before writing, unless switched off) let every sound database pass, and stop the program with a failed assertion on every other one. Sound means: no two messages kept one to a file have the same path, and no two IMAP messages the same place (messages in mboxes are not compared); in each table of words no word is there twice and the number of words noted is right; and the list of messages of each word ends with the message noted as its highest one, which exists.", "quantifier": "all databases in memory, sound or damaged, all results that qsort may give, all values of uninitialised memory", "why_tests_cant": "The damage to be found can be anywhere in a database of any size; a test shows only that some damage is found.", "anchors": ["db.c:check_database_integrity", "db.c:check_toktable_enc_integrity", "db.c:check_message_path_integrity"]}
