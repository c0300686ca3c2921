{
 "claims": [
  {
   "property": "C01",
   "status": "partial",
   "theorems": [
    "Mairix.C01_roundtrip_partial",
    "Mairix.C01_violation"
   ],
   "note": "Gaps in [63*2^24, 2^30) pass the code's assertion but are encoded with the terminator byte first (C01_violation); all smaller gaps round-trip."
  },
  {
   "property": "C02",
   "status": "proved",
   "theorems": [
    "Mairix.C02_no_overflow"
   ],
   "note": "Any index sequence, from a new list or one copied from any file contents."
  },
  {
   "property": "C03",
   "status": "proved",
   "theorems": [
    "Mairix.C03_word_map",
    "Mairix.C05_history"
   ],
   "note": "Any hash function; message numbers below 63*2^24 (see C01)."
  },
  {
   "property": "C04",
   "status": "partial",
   "theorems": [
    "Mairix.C04_reload",
    "Mairix.C05_id_history_partial",
    "Mairix.C04_ids_violation"
   ],
   "note": "Proved in full for the six word tables. For the message id table loading may abort when an uninitialised variable holds a large value (C04_ids_violation); otherwise it is as specified (C05_id_history_partial)."
  },
  {
   "property": "C05",
   "status": "proved",
   "theorems": [
    "Mairix.C05_purge",
    "Mairix.C05_history",
    "Mairix.C05_id_history_partial"
   ],
   "note": "Word tables in full; the message id table under the hypothesis on reloads that C04 needs."
  },
  {
   "property": "C06",
   "status": "proved",
   "theorems": [
    "Mairix.C06_words"
   ],
   "note": ""
  },
  {
   "property": "C07",
   "status": "proved",
   "theorems": [
    "Mairix.C07_html"
   ],
   "note": ""
  },
  {
   "property": "C08",
   "status": "proved",
   "theorems": [
    "Mairix.C08_threads"
   ],
   "note": "For every table reached by a history in which loading does not abort (see C04)."
  },
  {
   "property": "C09",
   "status": "proved",
   "theorems": [
    "Mairix.C09_lookup",
    "Mairix.C09_sorted"
   ],
   "note": "lookup_msgpath on every strictly sorted listing; message_compare with any qsort gives such a listing"
  },
  {
   "property": "C10",
   "status": "proved",
   "theorems": [
    "Mairix.C10_update"
   ],
   "note": "every update in every history of completed runs; thread numbers are the subject of C08"
  },
  {
   "property": "C11",
   "status": "partial",
   "theorems": [
    "Mairix.C11_messages_partial",
    "Mairix.C11_file_partial",
    "Mairix.C11_unreadable",
    "Mairix.C11_time_violation"
   ],
   "note": "Proved for whole runs after any history, for modification times and mbox sizes that fit in 32 bits (otherwise false, C11_time_violation) and unless the first run only compared names (fast) and the second compares times."
  },
  {
   "property": "C12",
   "status": "proved",
   "theorems": [
    "Mairix.C12_purge"
   ],
   "note": "every purge after an update in every history; thread numbers are kept, not renumbered, see C24_purged_violation"
  },
  {
   "property": "C13",
   "status": "proved",
   "theorems": [
    "Mairix.C13_load",
    "Mairix.C13_search"
   ],
   "note": "For every database any history of runs writes, loading or searching the file sees what was written. Values that do not fit 32 bits are truncated (SavedMsg). Values never initialised are assumed small, see C43_uninitialised_violation."
  },
  {
   "property": "C14",
   "status": "proved",
   "theorems": [
    "Mairix.C14_layout",
    "Mairix.C14_write"
   ],
   "note": "Stores of the whole file are pairwise disjoint, inside the file, and the computed length is the length used."
  },
  {
   "property": "C15",
   "status": "proved",
   "theorems": [
    "Mairix.C15_exact_word"
   ],
   "note": "letters:word finds exactly the live messages having the word in one of the fields, for any database that Shows the messages"
  },
  {
   "property": "C16",
   "status": "proved",
   "theorems": [
    "Mairix.C16_substring",
    "Mairix.C16_rejected",
    "Mairix.C16_empty_word",
    "Mairix.C16_paths_agree"
   ],
   "note": "Bit-parallel automaton on 64-bit words, all five matchers, against the independent edit-sequence specification."
  },
  {
   "property": "C17",
   "status": "partial",
   "theorems": [
    "Mairix.C17_anchored_exact",
    "Mairix.C17_anchored_partial",
    "Mairix.C17_no_misses",
    "Mairix.C17_violation",
    "Mairix.C17_anchor_ignored"
   ],
   "note": "exact for k=0; violated for k>=1"
  },
  {
   "property": "C18",
   "status": "partial",
   "theorems": [
    "Mairix.C18_query_partial",
    "Mairix.C18_trailing_separator_violation",
    "Mairix.C18_last_space_violation",
    "Mairix.C18_trailing_comma"
   ],
   "note": "whole query semantics for the documented syntax; violated by a trailing / and by white space in the last word"
  },
  {
   "property": "C19",
   "status": "partial",
   "theorems": [
    "Mairix.C19_fields_partial",
    "Mairix.C19_path_violation",
    "Mairix.C19_imap_violation"
   ],
   "note": "union over fields; violated when p is combined with other letters or IMAP messages exist"
  },
  {
   "property": "C20",
   "status": "partial",
   "theorems": [
    "Mairix.C20_period_partial",
    "Mairix.C20_from_partial",
    "Mairix.C20_until_partial",
    "Mairix.C20_range_partial",
    "Mairix.C20_days_partial",
    "Mairix.C20_refused",
    "Mairix.C20_safe",
    "Mairix.C20_search",
    "Mairix.C20_first_day_violation",
    "Mairix.C20_range_first_day_violation",
    "Mairix.C20_ago_violation",
    "Mairix.C20_day_violation",
    "Mairix.C20_leap_day_violation",
    "Mairix.C20_century_violation",
    "Mairix.C20_overflow_violation"
   ],
   "note": "All documented forms give the right days, for every current date and time zone, where the day exists in the month or year picked; nothing else is accepted. The property is false of the first day of a period in standard time and of ranges, of relative periods, of days the previous month lacks, of 29 February, of 2100 and of long relative times: proved as violations."
  },
  {
   "property": "C21",
   "status": "partial",
   "theorems": [
    "Mairix.C21_sizes_partial",
    "Mairix.C21_dates",
    "Mairix.C21_size_overflow_violation",
    "Mairix.C21_imap_violation"
   ],
   "note": "missing: size limits of 2^31 or more (overflow in the code)"
  },
  {
   "property": "C22",
   "status": "proved",
   "theorems": [
    "Mairix.C22_flags"
   ],
   "note": "all mixes of flag letters"
  },
  {
   "property": "C23",
   "status": "proved",
   "theorems": [
    "Mairix.C23_read",
    "Mairix.C23_link",
    "Mairix.C23_new"
   ],
   "note": "The flags read are the letters after the last :2,; the name of a result has the flags of the message (results folder without a colon in its name)."
  },
  {
   "property": "C24",
   "status": "partial",
   "theorems": [
    "Mairix.C24_threads_partial",
    "Mairix.C24_out_of_range",
    "Mairix.C24_dead_hit",
    "Mairix.C24_history_partial",
    "Mairix.C24_purged_violation"
   ],
   "note": "C24_history_partial is end to end for histories without purges; after a purge the property is false (C24_purged_violation)"
  },
  {
   "property": "C25",
   "status": "proved",
   "theorems": [
    "Mairix.C25_database_order",
    "Mairix.C25_date_order",
    "Mairix.C25_far_dates_violation"
   ],
   "note": "date order for dates less than 2^31 apart, as stated"
  },
  {
   "property": "C26",
   "status": "partial",
   "theorems": [
    "Mairix.C26_match_partial",
    "Mairix.C26_list_partial",
    "Mairix.C26_long_violation",
    "Mairix.C26_open_class_violation",
    "Mairix.C26_double_range_violation"
   ],
   "note": "Patterns of up to 31 parts besides stars, any mix of characters, classes, ?, * and **: compiled without fault and match exactly. Longer patterns shift beyond the width of an int (proved for every such pattern), an open class is read past its end, [a-e-z] takes both ranges."
  },
  {
   "property": "C27",
   "status": "partial",
   "theorems": [
    "Mairix.C27_split",
    "Mairix.C27_roundtrip_partial",
    "Mairix.C27_backslash_violation"
   ],
   "note": "Every text splits in exactly one way, at unescaped colons; the round trip holds unless an item before the last ends in a backslash (violation proved)."
  },
  {
   "property": "C28",
   "status": "partial",
   "theorems": [
    "Mairix.C28_exclusion_partial",
    "Mairix.C28_no_stale",
    "Mairix.C28_free",
    "Mairix.C28_refused",
    "Mairix.C28_race_violation",
    "Mairix.C28_signal_violation",
    "Mairix.C28_unlock_violation"
   ],
   "note": "Exclusion over all interleavings and crashes under three provisos; each proviso shown necessary by a violating history."
  },
  {
   "property": "C29",
   "status": "proved",
   "theorems": [
    "Mairix.C29_split",
    "Mairix.C29_start",
    "Mairix.C29_tiles",
    "Mairix.C29_unique"
   ],
   "note": "scan ends without faults and finds exactly the ranges between From lines (or MMDF separators); they tile the file; the split is unique; the From-line DFA is a parameter"
  },
  {
   "property": "C30",
   "status": "partial",
   "theorems": [
    "Mairix.C30_boundary",
    "Mairix.C30_intact",
    "Mairix.C30_changed_in_place_violation",
    "Mairix.C30_truncated_violation"
   ],
   "note": "exactly the still-present messages are kept when those are a prefix; a message changed in place before an unchanged last one is missed (violation)"
  },
  {
   "property": "C31",
   "status": "proved",
   "theorems": [
    "Mairix.C31_expand",
    "Mairix.C31_plain",
    "Mairix.C31_no_dollar"
   ],
   "note": "Every value, every environment; buffer length exact."
  },
  {
   "property": "C32",
   "status": "proved",
   "theorems": [
    "Mairix.C32_decode",
    "Mairix.C32_safe",
    "Mairix.C32_identity"
   ],
   "note": "every base64 form (any line breaks and other characters in between) decodes to exactly the data; any body at all is decoded without reading or writing outside; the other encodings leave the body as it is"
  },
  {
   "property": "C33",
   "status": "partial",
   "theorems": [
    "Mairix.C33_decode_partial",
    "Mairix.C33_safe_partial",
    "Mairix.C33_past_end_violation",
    "Mairix.C33_beyond_violation"
   ],
   "note": "every well formed quoted-printable body decodes to its data; a body followed by two readable bytes is decoded without fault. Missing: a body ending in an incomplete = sequence reads up to two bytes behind its end and takes them into the result (violations proved)"
  },
  {
   "property": "C34",
   "status": "partial",
   "theorems": [
    "Mairix.C34_never_violation",
    "Mairix.C34_overflow_violation",
    "Mairix.C34_safe_partial"
   ],
   "note": "false in the code: the decoder always yields a positive multiple of 42 bytes whatever was encoded, and it writes and reads beyond its buffers for short bodies (proved); safe for bodies of at least 126 bytes with 56 readable bytes behind them"
  },
  {
   "property": "C35",
   "status": "proved",
   "theorems": [
    "Mairix.C35_decode",
    "Mairix.C35_meaning",
    "Mairix.C35_plain",
    "Mairix.C35_word",
    "Mairix.C35_roundtrip"
   ],
   "note": "every value is decoded to what it means; a null byte that was encoded ends the value"
  },
  {
   "property": "C36",
   "status": "proved",
   "theorems": [
    "Mairix.C36_audit",
    "Mairix.C36_splice",
    "Mairix.C36_read",
    "Mairix.C36_safe"
   ],
   "note": "which headers are accepted, what fields they have, what the body is; safe on any data"
  },
  {
   "property": "C37",
   "status": "partial",
   "theorems": [
    "Mairix.C37_tables_partial",
    "Mairix.C37_search_partial",
    "Mairix.C37_wrap_violation",
    "Mairix.C37_types_violation",
    "Mairix.C37_path_violation",
    "Mairix.C37_magic_violation",
    "Mairix.C37_version_refused"
   ],
   "note": "What open_db guarantees for arbitrary bytes; the four ways in which the full property is false."
  },
  {
   "property": "C38",
   "status": "partial",
   "theorems": [
    "Mairix.C38_refused",
    "Mairix.C38_accepted_partial",
    "Mairix.C38_safe",
    "Mairix.C38_device_violation"
   ],
   "note": "Every results folder that is a configured folder by name or by being the same file is refused; nothing else is refused if all files are on one device; over several devices inode numbers may coincide (violation proved)."
  },
  {
   "property": "C39",
   "status": "partial",
   "theorems": [
    "Mairix.C39_split",
    "Mairix.C39_blank_line_partial",
    "Mairix.C39_one_byte_violation",
    "Mairix.C39_imap_violation"
   ],
   "note": "Re-splitting is proved for all lists of results. The empty line is missing after messages of one byte and after messages from IMAP servers."
  },
  {
   "property": "C40",
   "status": "proved",
   "theorems": [
    "Mairix.C40_duplicates",
    "Mairix.C40_no_duplicates"
   ],
   "note": "with duplicates the run stops with exit code 2 whatever the database file; without them it goes on"
  },
  {
   "property": "C41",
   "status": "proved",
   "theorems": [
    "Mairix.C41_mboxen",
    "Mairix.C12_purge"
   ],
   "note": "that no assertion fails is in C12_purge: the purge succeeds"
  },
  {
   "property": "C42",
   "status": "proved",
   "theorems": [
    "Mairix.C42_angled",
    "Mairix.C42_angled_unique"
   ],
   "note": ""
  },
  {
   "property": "C43",
   "status": "partial",
   "theorems": [
    "Mairix.C43_checks",
    "Mairix.C43_no_crash_partial",
    "Mairix.C43_uninitialised_violation"
   ],
   "note": "C43_checks: the integrity checks make no difference in any history; the assertion on loading can fail because of an uninitialised field (C43_uninitialised_violation), C43_no_crash_partial excludes this"
  },
  {
   "property": "C44",
   "status": "proved",
   "theorems": [
    "Mairix.C44_indices"
   ],
   "note": "For all pairs accepted by verify_mbox_size_constraints, at any place in the file."
  },
  {
   "property": "C45",
   "status": "proved",
   "theorems": [
    "Mairix.C45_status"
   ],
   "note": "date headers are under C20/C47"
  },
  {
   "property": "C46",
   "status": "proved",
   "theorems": [
    "Mairix.C46_history",
    "Mairix.C46_up_to_date",
    "Mairix.C46_search"
   ],
   "note": "end to end over all histories"
  },
  {
   "property": "C47",
   "status": "partial",
   "theorems": [
    "Mairix.C47_parse_partial",
    "Mairix.C47_ends",
    "Mairix.C47_padding_violation",
    "Mairix.C47_null_violation"
   ],
   "note": "Every message that has a meaning by the specification is read as meant, at any depth; any data: reading ends, faults only by the decoders and the date. Missing: padding behind boundaries and null characters (violations), malformed multiparts, repeated content headers."
  },
  {
   "property": "C48",
   "status": "proved",
   "theorems": [
    "Mairix.C48_maildir",
    "Mairix.C48_mh",
    "Mairix.C48_search"
   ],
   "note": "For all databases, queries and orders."
  },
  {
   "property": "C49",
   "status": "partial",
   "theorems": [
    "Mairix.C49_deliver",
    "Mairix.C49_copy_partial",
    "Mairix.C49_last_byte_violation"
   ],
   "note": "Delivery is proved; the copy loses its last byte if it is not a newline."
  },
  {
   "property": "C50",
   "status": "partial",
   "theorems": [
    "Mairix.C50_usual",
    "Mairix.C50_one_line",
    "Mairix.C50_short_domain_violation"
   ],
   "note": "From lines with an address and an asctime date are recognised; not with a domain of one character."
  },
  {
   "property": "C51",
   "status": "partial",
   "theorems": [
    "Mairix.C51_messages",
    "Mairix.C51_mboxen",
    "Mairix.C51_root_violation"
   ],
   "note": "All configurations whose items and patterns are well-formed (patterns of up to 31 parts) and file systems with bounded path length; a wildcard directly below the root finds nothing (violation proved). IMAP folders are not modelled."
  },
  {
   "property": "C52",
   "status": "partial",
   "theorems": [
    "Mairix.C52_parse_partial",
    "Mairix.C52_safe",
    "Mairix.C52_lookup",
    "Mairix.C52_space_violation",
    "Mairix.C52_escape_violation",
    "Mairix.C52_empty_violation"
   ],
   "note": "Every header of the grammar gives its entries; no header makes it go wrong. Missing: white space before =, escapes in quotes and empty quotes, which the code does not handle (violations proved)."
  },
  {
   "property": "C53",
   "status": "partial",
   "theorems": [
    "Mairix.C53_date",
    "Mairix.C53_undated",
    "Mairix.C53_means",
    "Mairix.C53_overflow_violation"
   ],
   "note": "All texts with a date and all without (up to nine digits in a row); numbers beyond int are undefined behaviour (violation)."
  },
  {
   "property": "C54",
   "status": "partial",
   "theorems": [
    "Mairix.C54_settings_partial",
    "Mairix.C54_safe_partial",
    "Mairix.C54_long",
    "Mairix.C54_characters_violation",
    "Mairix.C54_blanks_violation",
    "Mairix.C54_nul_violation",
    "Mairix.C54_folders_violation"
   ],
   "note": "Settings proved for every documented file whose values do not contain # ! ; %; safety for every file without NUL that has no bare 'folders' line. The violations show what the exclusions are about."
  },
  {
   "property": "C55",
   "status": "partial",
   "theorems": [
    "Mairix.C55_options",
    "Mairix.C55_search_partial",
    "Mairix.C55_index_partial",
    "Mairix.C55_dump_partial",
    "Mairix.C55_refused_partial",
    "Mairix.C55_environment_violation",
    "Mairix.C55_dot_violation"
   ],
   "note": "Proved while MAIRIX_MAILDIR_FOLDERS is not set; violations for that variable and for results folders that begin with a dot."
  },
  {
   "property": "C56",
   "status": "partial",
   "theorems": [
    "Mairix.C56_maildir",
    "Mairix.C56_mh",
    "Mairix.C56_augment_maildir_partial",
    "Mairix.C56_augment_mh_partial",
    "Mairix.C56_ready",
    "Mairix.C56_made",
    "Mairix.C56_made_mh",
    "Mairix.C56_mbox",
    "Mairix.C56_augment_mbox_partial",
    "Mairix.C56_augment_violation",
    "Mairix.C56_augment_lost_violation",
    "Mairix.C56_file_removed"
   ],
   "note": "Maildir, MH and mbox without -a in full, for every disk on which the results directories can be reached without going through themselves and new and cur differ; with -a under the hypothesis that no copied result has a name that is taken, and two violations without it. Other processes, permissions and full disks are not modelled."
  },
  {
   "property": "C57",
   "status": "partial",
   "theorems": [
    "Mairix.C57_found_partial",
    "Mairix.C57_word_partial",
    "Mairix.C57_path_partial",
    "Mairix.C57_days_partial"
   ],
   "note": "From configuration and file contents to search results, whatever the query asks for, including parts of paths. Missing: messages in mboxen (C77), compressed files, files that are no well-formed messages (except for searches by path), and the exceptions of C18, C20 and C21."
  },
  {
   "property": "C58",
   "status": "partial",
   "theorems": [
    "Mairix.C58_files_partial",
    "Mairix.C58_cache_violation",
    "Mairix.C58_damaged_violation"
   ],
   "note": "Every sequence in which no compressed file is read again after plain ones. The full claim is false: C58_cache_violation, C58_damaged_violation."
  },
  {
   "property": "C59",
   "status": "proved",
   "theorems": [
    "Mairix.C59_checksum",
    "Mairix.C59_pieces",
    "Mairix.C59_long_violation"
   ],
   "note": "For every text shorter than 4 GiB the checksum is the MD5 digest of RFC 1321, with the table of constants proved to be the leading bits of sines. The violation says what happens from 4 GiB on."
  },
  {
   "property": "C60",
   "status": "partial",
   "theorems": [
    "Mairix.C60_stopped_partial",
    "Mairix.C60_search_partial",
    "Mairix.C60_last_store",
    "Mairix.C60_lost_violation",
    "Mairix.C60_shorter_violation",
    "Mairix.C60_wrong_violation",
    "Mairix.C60_first_violation"
   ],
   "note": "Proved for stops before the first store into a file that does not become shorter, and after the last store. False for the other moments, with concrete histories."
  },
  {
   "property": "C61",
   "status": "partial",
   "theorems": [
    "Mairix.C61_mbox_partial",
    "Mairix.C61_search_partial",
    "Mairix.C61_grows",
    "Mairix.C61_changed_violation",
    "Mairix.C61_shortened_violation"
   ],
   "note": "Every mbox that can be read in the last run, under conditions on how it changed (Steady): unchanged times mean unchanged text, unchanged messages come first, no MMDF format, no colliding checksums. C61_grows: append-only boxes meet them. Violations: changed in place, shortened."
  },
  {
   "property": "C62",
   "status": "partial",
   "theorems": [
    "Mairix.C62_plain_partial",
    "Mairix.C62_packed_partial",
    "Mairix.C62_single",
    "Mairix.C62_accepts",
    "Mairix.C62_token_violation"
   ],
   "note": "partial: at most 32768 states; compressed tables also at most 256 tokens and 65535 transitions (false for more tokens: C62_token_violation); the parser of the input file: C79"
  },
  {
   "property": "C63",
   "status": "partial",
   "theorems": [
    "Mairix.C63_scan_partial",
    "Mairix.C63_packed_partial",
    "Mairix.C63_accepts_partial",
    "Mairix.C63_inverted_violation",
    "Mairix.C63_empty_violation"
   ],
   "note": "inverted classes with characters = 31 mod 32 and empty classes excluded (violations); uncompressed tables with up to 32768 states, compressed tables also with at most 256 tokens and parts of classes and 65535 transitions (false for more tokens: C62_token_violation)"
  },
  {
   "property": "C64",
   "status": "partial",
   "theorems": [
    "Mairix.C64_read_partial",
    "Mairix.C64_command_partial",
    "Mairix.C64_split",
    "Mairix.C64_safe_partial",
    "Mairix.C64_escape_violation",
    "Mairix.C64_overflow_violation",
    "Mairix.C64_stray_violation"
   ],
   "note": "all responses without escaped characters in quoted strings, all ways to cut the stream; numbers within int; escapes, overflow and stray answers violate the claim"
  },
  {
   "property": "C65",
   "status": "partial",
   "theorems": [
    "Mairix.C65_understood_partial",
    "Mairix.C65_fits",
    "Mairix.C65_backslash_violation",
    "Mairix.C65_quote_violation"
   ],
   "note": "all commands without backslashes in strings that are sent in quotes; those violate the claim"
  },
  {
   "property": "C66",
   "status": "partial",
   "theorems": [
    "Mairix.C66_listed_partial",
    "Mairix.C66_names",
    "Mairix.C66_null_violation"
   ],
   "note": "all conforming servers, folders that are listed once; answers about messages that nobody asked for are excluded"
  },
  {
   "property": "C67",
   "status": "partial",
   "theorems": [
    "Mairix.C67_fetched_partial",
    "Mairix.C67_indexed_partial",
    "Mairix.C67_absent",
    "Mairix.C67_gone_violation",
    "Mairix.C67_stale_violation"
   ],
   "note": "all conforming servers, as long as all folders asked for exist; after one that does not, the claim is violated"
  },
  {
   "property": "C68",
   "status": "partial",
   "theorems": [
    "Mairix.C68_stored_partial",
    "Mairix.C68_created",
    "Mairix.C68_new_violation",
    "Mairix.C68_indexed_violation",
    "Mairix.C68_stale_violation",
    "Mairix.C68_mbox_violation",
    "Mairix.C68_silent_violation"
   ],
   "note": "all conforming servers and hits whose folders exist and are not the one for the results"
  },
  {
   "property": "C69",
   "status": "proved",
   "theorems": [
    "Mairix.C69_from_line",
    "Mairix.C69_usual"
   ],
   "note": "stated for the declarations of the .nfa file; C79 proves them to be what is read from its text"
  },
  {
   "property": "C70",
   "status": "proved",
   "theorems": [
    "Mairix.C70_dates",
    "Mairix.C70_names"
   ],
   "note": "stated for the declarations of the .nfa file; C79 proves them to be what is read from its text"
  },
  {
   "property": "C71",
   "status": "proved",
   "theorems": [
    "Mairix.C71_params",
    "Mairix.C71_any"
   ],
   "note": "stated for the declarations of the .nfa file; C79 proves them to be what is read from its text"
  },
  {
   "property": "C72",
   "status": "proved",
   "theorems": [
    "Mairix.C72_credentials",
    "Mairix.C72_result",
    "Mairix.C72_wire"
   ],
   "note": "for all servers, readings and outcomes of the handshake"
  },
  {
   "property": "C73",
   "status": "partial",
   "theorems": [
    "Mairix.C73_encrypted_partial",
    "Mairix.C73_refused_violation",
    "Mairix.C73_preauth_violation",
    "Mairix.C73_disabled_violation"
   ],
   "note": "exactly when the password goes in clear; violations: STARTTLS refused, PREAUTH, LOGINDISABLED"
  },
  {
   "property": "C74",
   "status": "partial",
   "theorems": [
    "Mairix.C74_accepts",
    "Mairix.C74_names_partial",
    "Mairix.C74_asterisk_violation"
   ],
   "note": "names with an asterisk that is not followed by a dot are accepted too widely"
  },
  {
   "property": "C75",
   "status": "partial",
   "theorems": [
    "Mairix.C75_answers_partial",
    "Mairix.C75_injection_violation"
   ],
   "note": "holds if the buffer is empty when the encryption begins; violation otherwise"
  },
  {
   "property": "C76",
   "status": "partial",
   "theorems": [
    "Mairix.C76_accepted_partial",
    "Mairix.C76_refused_partial",
    "Mairix.C76_encrypted_partial",
    "Mairix.C76_silent_violation"
   ],
   "note": "silent servers crash the program (violation)"
  },
  {
   "property": "C77",
   "status": "partial",
   "theorems": [
    "Mairix.C77_found_partial",
    "Mairix.C77_link_violation"
   ],
   "note": "mboxen that are symbolic links (violation); MMDF"
  },
  {
   "property": "C78",
   "status": "proved",
   "theorems": [
    "Mairix.C78_dump"
   ],
   "note": "Whole of dumper.c. Numbers are printed with %d: a file size of 2^31 or more (as noted in 32 bits) is shown as negative."
  },
  {
   "property": "C79",
   "status": "partial",
   "theorems": [
    "Mairix.C79_read_partial",
    "Mairix.C79_refused",
    "Mairix.C79_unambiguous",
    "Mairix.C79_tokens",
    "Mairix.C79_from_line",
    "Mairix.C79_dates",
    "Mairix.C79_params",
    "Mairix.C79_quoted_violation",
    "Mairix.C79_group_violation"
   ],
   "note": "characters in double quotes and commas between the declarations of a group, both in the manual page, are not read as it says (violations proved)"
  },
  {
   "property": "C80",
   "status": "partial",
   "theorems": [
    "Mairix.C80_listed",
    "Mairix.C80_files_partial",
    "Mairix.C80_mbox_partial"
   ],
   "note": "C80_listed is unconditional on the queries; the statements from the files on have the conditions of C57 and C77."
  },
  {
   "property": "C81",
   "status": "partial",
   "theorems": [
    "Mairix.C81_files_partial",
    "Mairix.C81_mbox_partial",
    "Mairix.C81_date_partial",
    "Mairix.C81_date_violation"
   ],
   "note": "Excerpts of message files and of messages of mboxen that only grew are those of the headers of the messages, for all runs and queries; the date is that of the header where local time is Greenwich time or west of it; missing: IMAP messages. East of Greenwich the day shown is early (C81_date_violation)."
  },
  {
   "property": "C82",
   "status": "partial",
   "theorems": [
    "Mairix.C82_maildir_partial",
    "Mairix.C82_mh_partial"
   ],
   "note": "The results folder of a search, as a maildir or MH folder, over the database that any number of whole runs made: links to the message files and copies of the messages of mboxen that satisfy the query, nothing else; missing: mboxen that changed otherwise than by delivery, IMAP, -t, -a, and the hypotheses of C57 on the runs."
  },
  {
   "property": "C83",
   "status": "partial",
   "theorems": [
    "Mairix.C83_kept_partial",
    "Mairix.C83_lost",
    "Mairix.C83_refused_violation"
   ],
   "note": "Proved with -a, for invalid databases and for folders that cannot be made; proved false for invalid expressions without -a."
  },
  {
   "property": "C84",
   "status": "partial",
   "theorems": [
    "Mairix.C84_mbox_partial"
   ],
   "note": "The results mbox of a search over the database that any number of whole runs made: the results with their texts and nothing else, split again into just these; missing: mboxen that changed otherwise than by delivery, IMAP, -t, -a, and the hypotheses of C57 on the runs."
  },
  {
   "property": "C85",
   "status": "partial",
   "theorems": [
    "Mairix.C85_complete_partial",
    "Mairix.C85_exact_partial",
    "Mairix.C85_deleted_violation"
   ],
   "note": "All of a thread is found after whole runs without purges, for messages in files of their own; exactly the threads if there are no mboxen and no message file has gone or changed; otherwise false (a message that is gone still spreads to its thread until a purge)."
  },
  {
   "property": "C86",
   "status": "proved",
   "theorems": [
    "Mairix.C86_hash",
    "Mairix.C86_only_text",
    "Mairix.C86_mix_reversible",
    "Mairix.C86_states"
   ],
   "note": "hash.c, function and mixing, for texts of any length."
  },
  {
   "property": "C87",
   "status": "partial",
   "theorems": [
    "Mairix.C87_maildir_partial",
    "Mairix.C87_mh_partial",
    "Mairix.C87_mbox_partial"
   ],
   "note": "Under the conditions of C85_exact_partial (no mboxen, no purges, message files neither gone nor changed): the maildir or MH folder holds links to exactly the messages of the threads of the matches, once each; an mbox their texts. Missing: mboxen that are searched, purges, -a, -H."
  },
  {
   "property": "C88",
   "status": "partial",
   "theorems": [
    "Mairix.C88_augment_partial",
    "Mairix.C88_boxes_partial",
    "Mairix.C88_grown_partial",
    "Mairix.C88_changed_violation"
   ],
   "note": "All sequences of searches over one database, maildir results: links to message files and copies of messages of mboxen (to which mail is only delivered); to repeat one of them with -a changes nothing. C88_grown_partial: message files only, with any indexing runs without -p between the searches. False if the database is purged between the searches (C88_changed_violation) and for MH folders (C56_augment_lost_violation). Missing: IMAP, and the hypotheses of C57 and C77 on the runs."
  },
  {
   "property": "C89",
   "status": "partial",
   "theorems": [
    "Mairix.C89_threads_partial"
   ],
   "note": "The whole output, under the conditions of C85_exact_partial. Missing: mboxen, purges, message files gone or changed (false then: C85_deleted_violation)."
  },
  {
   "property": "C90",
   "status": "partial",
   "theorems": [
    "Mairix.C90_augment_partial"
   ],
   "note": "All sequences of searches, each with its own history of indexing runs (those of C84: mail only delivered to mboxen, message files unchanged). Missing: as for C84."
  },
  {
   "property": "C91",
   "status": "proved",
   "theorems": [
    "Mairix.C91_numbers"
   ],
   "note": "For all histories without -p after the first search. Messages in files of their own and on IMAP servers (the model of whole runs has no IMAP folders); for messages of mboxen only that their numbers never go to message files."
  },
  {
   "property": "C92",
   "status": "partial",
   "theorems": [
    "Mairix.C92_integrity_partial",
    "Mairix.C92_empty_violation",
    "Mairix.C92_overrun_violation"
   ],
   "note": "All databases in which no word has an empty list and no table has more words than noted; for the former the code uses an uninitialised variable (C92_empty_violation), for the latter it writes outside an array before the assertion (C92_overrun_violation)."
  }
 ]
}