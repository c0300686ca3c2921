import Verif.Proofs.ImapCommand

/-!
# C64 and C65: the connection to an IMAP server
-/

namespace Mairix
open Spec

/-! ## C64: responses -/

/-- **C64 (partial).**  However the bytes of the server arrive, a response is read as what it means: atoms, strings with any bytes, lists
and the code in brackets; and reading stops exactly behind it.  (Missing: quoted strings with quotes or backslashes inside, see
`C64_escape_violation`.) -/
theorem C64_read_partial {ll : ImapConn} {r : Response} {rest : Text} (ho : ll.Open) (hw : r.Wf)
    (ht : ∀ n, r.tag = some n → n + 1 = ll.next ∧ n ≤ 2147483647) (hs : ll.stream = r.bytes ++ rest) :
    ∃ ll', waitLine ll = .ok (some r.line, ll') ∧ ll'.stream = rest ∧ ll'.Open := by
  obtain ⟨ll', h1, h2, -, -, h5⟩ := waitLine_response ho hw ht hs
  exact ⟨ll', h1, h2, h5⟩

/-- **C64 (partial).**  A command whose buffer suffices is sent as a whole, and its result are the responses of the server up to the one
with its tag, in order. -/
theorem C64_command_partial {ll : ImapConn} {cmd : List ImapTok} {rs : List Response} {last : Response} {rest : Text} (ho : ll.Open)
    (hn : ll.next ≤ 2147483647) (hc : CmdToks cmd) (hrs : ∀ r ∈ rs, r.Wf ∧ r.tag = none) (hl : last.Wf) (ht : last.tag = some ll.next)
    (hs : ll.stream = (rs.map Response.bytes).flatten ++ last.bytes ++ rest) :
    ∃ ll', imapCommand ll cmd = .ok (some (rs.map Response.line ++ [last.line]), ll') ∧ ll'.stream = rest ∧ ll'.Open ∧
      ll'.next = ll.next + 1 ∧ ll'.sent = ll.sent ++ commandBytes ll.next cmd := by
  have hb := commandBytes_le hn hc
  unfold imapCommand
  rw [if_neg (by omega), if_neg (by omega)]
  simp only
  obtain ⟨ll', h1, h2, h3, h4, h5⟩ := collectLines_responses rs last
    (({ ll with next := ll.next + 1, sent := ll.sent ++ commandBytes ll.next cmd } : ImapConn).buf.length +
      ({ ll with next := ll.next + 1, sent := ll.sent ++ commandBytes ll.next cmd } : ImapConn).reads.flatten.length + 1)
    { ll with next := ll.next + 1, sent := ll.sent ++ commandBytes ll.next cmd } [] rest ho hrs hl ⟨ll.next, ht, rfl, hn⟩ hs
    (by simp [ImapConn.stream])
  exact ⟨ll', by simpa using h1, h2, h5, h3, h4⟩

/-- **C64.**  What is read only depends on the bytes, not on how `read` cuts them up. -/
theorem C64_split {a b : ImapConn} (ha : a.Open) (hb : b.Open) (hn : a.next = b.next) (hs : a.stream = b.stream) {r : Option ImapLine}
    {a' : ImapConn} (h : waitLine a = .ok (r, a')) : ∃ b', waitLine b = .ok (r, b') ∧ b'.stream = a'.stream := by
  have h1 := waitLoop_stream a.next a.reads {} a.buf ha
  have h2 := waitLoop_stream b.next b.reads {} b.buf hb
  unfold ImapConn.stream at hs
  rw [← hs, ← hn] at h2
  unfold waitLine at h ⊢
  rw [← hn]
  cases hf : feedBuf a.next {} (a.buf ++ a.reads.flatten) with
  | error e => rw [hf] at h1; simp only at h1; rw [h1] at h; cases h
  | ok x =>
    cases x with
    | inl s =>
      rw [hf] at h1 h2
      simp only at h1 h2
      rw [h1] at h; rw [h2]
      cases h
      exact ⟨_, rfl, rfl⟩
    | inr p =>
      rw [hf] at h1 h2
      obtain ⟨b1, r1, e1, f1, -⟩ := h1
      obtain ⟨b2, r2, e2, f2, -⟩ := h2
      rw [e1] at h; rw [e2]
      cases h
      exact ⟨_, rfl, by simp [ImapConn.stream, f1, f2]⟩

/-- **C64.**  Whatever a server sends, reading it never leaves a buffer; the only fault is a number beyond `INT_MAX`. -/
theorem C64_safe_partial (ll : ImapConn) : (∃ x, waitLine ll = .ok x) ∨ waitLine ll = .error .overflow := by
  unfold waitLine
  rcases waitLoop_safe ll.next ll.reads {} ll.buf (by constructor <;> simp) with ⟨x, h⟩ | h
  · rw [h]; exact Or.inl ⟨_, rfl⟩
  · rw [h]; exact Or.inr rfl

/-- `* 4 FETCH (UID 9 BODY[] {…} FLAGS ())` with a literal that looks like responses. -/
def fetchNine : Response where
  tag := none
  first := .atom (bs "4")
  code := none
  rest := [.atom (bs "FETCH"), .list [.atom (bs "UID"), .atom (bs "9"), .atom (bs "BODY[]"), .literal (bs "a)\r\nt0 OK\r\n\"{3}"),
    .atom (bs "FLAGS"), .list []]]

/-- `t0 OK [READ-WRITE] done`. -/
def okZero : Response where
  tag := some 0
  first := .atom (bs "OK")
  code := some [.atom (bs "READ-WRITE")]
  rest := [.atom (bs "done")]

theorem fetchNine_wf : fetchNine.Wf := by
  simp only [Response.Wf, fetchNine, WfTok, WfToks]
  decide

theorem okZero_wf : okZero.Wf := by
  simp only [Response.Wf, okZero, WfTok, WfToks]
  decide

/-- A connection on which both arrive in three pieces, the first one cut in the literal. -/
def exampleConn : ImapConn where
  reads := [fetchNine.bytes.take 40, fetchNine.bytes.drop 40 ++ okZero.bytes.take 3, okZero.bytes.drop 3]

example : ∃ ll', imapCommand exampleConn [.atom (bs "UID"), .atom (bs "FETCH")] = .ok (some [fetchNine.line, okZero.line], ll') ∧
    ll'.stream = [] ∧ ll'.sent = bs "t0 UID FETCH\r\n" := by
  obtain ⟨ll', h1, h2, -, -, h3⟩ := C64_command_partial (ll := exampleConn) (cmd := [.atom (bs "UID"), .atom (bs "FETCH")]) (rs := [fetchNine])
    (last := okZero) (rest := []) (by decide) (by decide) (by simp only [CmdToks, CmdTok]; decide)
    (by simpa using ⟨fetchNine_wf, rfl⟩) okZero_wf rfl (by decide +kernel)
  exact ⟨ll', h1, h2, by rw [h3]; decide⟩

example : ∃ b', waitLine { reads := [fetchNine.bytes] } = .ok (some fetchNine.line, b') ∧ b'.stream = [] := by
  obtain ⟨a', h1, h2, -⟩ := C64_read_partial (ll := { reads := [fetchNine.bytes.take 7, fetchNine.bytes.drop 7] }) (r := fetchNine) (rest := [])
    (by decide) fetchNine_wf (by simp [fetchNine]) (by decide)
  obtain ⟨b', h3, h4⟩ := C64_split (a := { reads := [fetchNine.bytes.take 7, fetchNine.bytes.drop 7] }) (b := { reads := [fetchNine.bytes] }) (by decide) (by decide) rfl (by decide) h1
  exact ⟨b', h3, by rw [h4, h2]⟩

example : (∃ x, waitLine { buf := [0x2a, 0x20, 0x28, 0x29, 0x29, 0x22, 0x7b, 0x35, 0x0a] } = .ok x) ∨
    waitLine { buf := [0x2a, 0x20, 0x28, 0x29, 0x29, 0x22, 0x7b, 0x35, 0x0a] } = .error .overflow := C64_safe_partial _

/-- A response with the quoted string `a"b`. -/
def escapedFetch : Response where
  tag := none
  first := .atom (bs "4")
  code := none
  rest := [.atom (bs "FETCH"), .list [.atom (bs "BODY[]"), .quoted (bs "a\"b"), .atom (bs "UID"), .atom (bs "9")]]

/-- **C64, violation.**  A backslash in a quoted string is not understood: the response `* 4 FETCH (BODY[] "a\"b" UID 9)` becomes
`4 FETCH (BODY[] "a\")`; the message is cut and its UID is lost (imap.c:365-375). -/
theorem C64_escape_violation :
    escapedFetch.bytes = bs "* 4 FETCH (BODY[] \"a\\\"b\" UID 9)\r\n" ∧
    waitLine { reads := [escapedFetch.bytes] } = .ok (some ⟨.untagged, [.atom (bs "4"), .atom (bs "FETCH"),
      .list [.atom (bs "BODY[]"), .string (bs "a\\")]]⟩, { }) ∧
    waitLine { reads := [escapedFetch.bytes] } ≠ .ok (some escapedFetch.line, { }) := by
  decide +kernel

/-- **C64, violation.**  A number beyond `INT_MAX`, which a server can send in any place where a literal may be, is undefined
behaviour (imap.c:300-301, 381-382). -/
theorem C64_overflow_violation : waitLine { buf := bs "* {2147483648}\r\n" } = .error .overflow := by decide +kernel

/-- **C64, violation.**  A line that is no response (here: a late answer to an earlier command) ends the current command, although the
answers to it follow: `imap_ll_waitline` returns the null pointer for it as it does for a lost connection (imap.c:256, 291-296,
693-696). -/
theorem C64_stray_violation :
    imapCommand { reads := [bs "t6 OK late\r\n* 3 EXISTS\r\nt7 OK done\r\n"], next := 7 } [.atom (bs "NOOP")] =
      .ok (none, { buf := bs "* 3 EXISTS\r\nt7 OK done\r\n", next := 8, sent := bs "t7 NOOP\r\n" }) := by decide +kernel

/-! ## C65: commands -/

/-- **C65 (partial).**  A server that reads a command as the standard says gets exactly the words and strings that were meant, whatever
bytes the strings have, and nothing of the strings is taken for a further word or command.  (Missing: strings with a backslash that
are sent in quotes, see `C65_backslash_violation`.) -/
theorem C65_understood_partial {n : Nat} {cmd : List ImapTok} (hne : cmd ≠ []) (h : CmdToks cmd) (hu : Unescapeds cmd) (rest : Text) :
    understood (commandBytes n cmd ++ rest) = some (bs "t" ++ digits n, cmd, rest) :=
  understood_command hne h hu rest

/-- **C65.**  The buffer a command is made in is large enough for it. -/
theorem C65_fits {ll : ImapConn} {cmd : List ImapTok} (hn : ll.next ≤ 2147483647) (h : CmdToks cmd) :
    imapCommand ll cmd ≠ .error .outOfBounds := by
  have hb := commandBytes_le hn h
  unfold imapCommand
  rw [if_neg (by omega), if_neg (by omega)]
  simp only
  have : ∀ fuel (ll : ImapConn) acc, collectLines fuel ll acc ≠ .error .outOfBounds := by
    intro fuel
    induction fuel with
    | zero => intro ll acc h; cases h
    | succ fuel ih =>
      intro ll acc
      rw [collectLines_succ]
      rcases C64_safe_partial ll with ⟨x, hx⟩ | hx
      · rw [hx]
        simp only [Except.bind]
        split
        · intro h; cases h
        · split
          · intro h; cases h
          · exact ih _ _
      · rw [hx]; intro h; cases h
  exact this _ _ _

/-- `APPEND "in\tbox" (\Seen) {…}` with a message that has line ends, quotes and backslashes. -/
def appendCmd : List ImapTok :=
  [.atom (bs "APPEND"), .string (bs "my box"), .list [.atom (bs "\\Seen")], .string (bs "Subject: \\\"\r\n\r\nt1 DELETE x\r\n")]

example : commandBytes 5 appendCmd =
    bs "t5 APPEND \"my box\" (\\Seen) {28+}\r\nSubject: \\\"\r\n\r\nt1 DELETE x\r\n\r\n" := by decide +kernel

example (rest : Text) : understood (commandBytes 5 appendCmd ++ rest) = some (bs "t5", appendCmd, rest) :=
  C65_understood_partial (by simp [appendCmd]) (by simp only [appendCmd, CmdToks, CmdTok]; decide)
    (by simp only [appendCmd, Unescapeds, Unescaped]; decide) rest

example : imapCommand exampleConn appendCmd ≠ .error .outOfBounds :=
  C65_fits (by decide) (by simp only [appendCmd, CmdToks, CmdTok]; decide)

/-- **C65, violation.**  A backslash in a string that is sent in quotes is not quoted (imap.c:550-571): for the folder named `a\\b` the
server understands the folder `a\b`, another one. -/
theorem C65_backslash_violation :
    understood (commandBytes 1 [.atom (bs "SELECT"), .string (bs "a\\\\b")]) = some (bs "t1", [.atom (bs "SELECT"), .string (bs "a\\b")], []) := by
  decide +kernel

/-- **C65, violation.**  A backslash at the end of the user name or of a folder takes away the closing quote: the
server makes no sense of the command. -/
theorem C65_quote_violation :
    understood (commandBytes 1 [.atom (bs "LOGIN"), .string (bs "me\\"), .string (bs " x y ")]) = none ∧
    understood (commandBytes 1 [.atom (bs "SELECT"), .string (bs "me\\")]) = none := by
  decide +kernel

end Mairix
