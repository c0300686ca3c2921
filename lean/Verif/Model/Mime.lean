import Verif.Model.Header
import Verif.Model.Nvp
import Verif.Model.Search

/-!
# Messages and their parts: rfc822.c:421-436, 672-986, 1003-1083

Memory is a text from some address on, as far as it is mapped, with the number of bytes that belong to the data; what lies behind them can be read, but is no part of the data.
-/

namespace Mairix

/-! ## The date -/

/-- The months (rfc822.c:950-961). -/
def monthNames : List Text := [bs "jan", bs "feb", bs "mar", bs "apr", bs "may", bs "jun", bs "jul", bs "aug", bs "sep", bs "oct", bs "nov", bs "dec"]

/-- `atoi` of a text that begins with a digit; a value beyond `INT_MAX` is undefined behaviour. -/
def atoiDigits (s : Text) : Res Nat :=
  let v := decimal (s.takeWhile isDigit)
  if v < 2147483648 then .ok v else .error .overflow

/-- The text behind the first comma, or all of it, without white space at its start (rfc822.c:935-938). -/
def dateStart (s : Text) : Text :=
  ((match strchr 0x2c s with
    | none => s
    | some (_, r) => r) : Text).dropWhile isSpace

/-- `tm_year` (rfc822.c:967-971). -/
def dateYear (y : Nat) : Nat := if y < 70 then y + 100 else if 1900 ≤ y then y - 1900 else y

/-- `parse_rfc822_date` (rfc822.c:925-986). `mktime` is that of the C library, for the beginning of a day in local time: it gets the day of the month, the month from 0 and the year less 1900. -/
def parseRfc822Date (mktime : Nat → Nat → Nat → Int) (text : Text) : Res Int :=
  let s := dateStart text
  if ¬ leadingDigit s then .ok (-1)
  else do
    let mday ← atoiDigits s
    if 31 < mday then .ok (-1)
    else
      let s := (s.dropWhile isDigit).dropWhile isSpace
      match monthNames.findIdx? (fun m => hasPrefixCase m s) with
      | none => .ok (-1)
      | some mon =>
        let s := (s.dropWhile (fun c => !isSpace c)).dropWhile isSpace
        if ¬ leadingDigit s then .ok (-1)
        else do
          let year ← atoiDigits s
          if ((s.dropWhile isDigit).dropWhile isSpace).isEmpty then .ok (-1)
          else .ok (mktime mday mon (dateYear year))
where
  /-- Whether the text begins with a digit. -/
  leadingDigit : Text → Bool
    | [] => false
    | c :: _ => isDigit c

/-! ## The header -/

/-- `init_headers` (rfc822.c:98-111). -/
def initHeaders : Headers := ⟨none, none, none, none, none, none, none, 0, false, false, false⟩

/-- What the loop over the header collects (rfc822.c:1010-1016). -/
structure HeaderScan where
  hdrs : Headers
  ct : Option Nvp
  cte : Option Nvp
  cd : Option Nvp

/-- `!current && (nvp = make_nvp(...))`. -/
def firstNvp (current : Option Nvp) (text pfx : Text) : Res (Option Nvp) :=
  match current with
  | some _ => .ok none
  | none => makeNvp text pfx

/-- The last tests of the loop over the header (rfc822.c:1047-1063). -/
def scanRest (mktime : Nat → Nat → Nat → Int) (st : HeaderScan) (x : Text) : Res HeaderScan :=
  if st.hdrs.date = 0 ∧ hasPrefixCase (bs "date:") x then do
    let v ← copyHeaderValue x
    match v with
    | none => .error .outOfBounds
    | some v => do
      let d ← parseRfc822Date mktime v
      .ok { st with hdrs := { st.hdrs with date := d } }
  else if st.hdrs.messageId = none ∧ hasPrefixCase (bs "message-id:") x then do
    let v ← copyHeaderValue x
    .ok { st with hdrs := { st.hdrs with messageId := v } }
  else if st.hdrs.inReplyTo = none ∧ hasPrefixCase (bs "in-reply-to:") x then do
    let v ← copyHeaderValue x
    .ok { st with hdrs := { st.hdrs with inReplyTo := v } }
  else if st.hdrs.references = none ∧ hasPrefixCase (bs "references:") x then do
    let v ← copyHeaderValue x
    .ok { st with hdrs := { st.hdrs with references := v } }
  else if hasPrefixCase (bs "status:") x then .ok { st with hdrs := scanStatusFlags (x.drop 7) st.hdrs }
  else if hasPrefixCase (bs "x-status:") x then .ok { st with hdrs := scanStatusFlags (x.drop 9) st.hdrs }
  else .ok st

/-- One round of the loop over the header (rfc822.c:1033-1063). -/
def scanLine (mktime : Nat → Nat → Nat → Int) (st : HeaderScan) (x : Text) : Res HeaderScan :=
  if hasPrefixCase (bs "to:") x then do
    let v ← copyOrConcat st.hdrs.to x
    .ok { st with hdrs := { st.hdrs with to := v } }
  else if hasPrefixCase (bs "cc:") x then do
    let v ← copyOrConcat st.hdrs.cc x
    .ok { st with hdrs := { st.hdrs with cc := v } }
  else if st.hdrs.from = none ∧ hasPrefixCase (bs "from:") x then do
    let v ← copyHeaderValue x
    .ok { st with hdrs := { st.hdrs with «from» := v } }
  else if st.hdrs.subject = none ∧ hasPrefixCase (bs "subject:") x then do
    let v ← copyHeaderValue x
    .ok { st with hdrs := { st.hdrs with subject := v } }
  else do
    match ← firstNvp st.ct x (bs "content-type:") with
    | some n => .ok { st with ct := some n }
    | none =>
      match ← firstNvp st.cte x (bs "content-transfer-encoding:") with
      | some n => .ok { st with cte := some n }
      | none =>
        match ← firstNvp st.cd x (bs "content-disposition:") with
        | some n => .ok { st with cd := some n }
        | none => scanRest mktime st x

/-- The loop over the header (rfc822.c:1033-1063). -/
def scanHeader (mktime : Nat → Nat → Nat → Int) : HeaderScan → List Text → Res HeaderScan
  | st, [] => .ok st
  | st, x :: xs => do
    let st ← scanLine mktime st x
    scanHeader mktime st xs

/-- One round of the loop over the header of a part (rfc822.c:792-799): of several headers the last one counts. -/
def scanPartLine (st : HeaderScan) (x : Text) : Res HeaderScan := do
  match ← makeNvp x (bs "content-type:") with
  | some n => .ok { st with ct := some n }
  | none =>
    match ← makeNvp x (bs "content-transfer-encoding:") with
    | some n => .ok { st with cte := some n }
    | none =>
      match ← makeNvp x (bs "content-disposition:") with
      | some n => .ok { st with cd := some n }
      | none => .ok st

/-- The loop over the header of a part (rfc822.c:792-799). -/
def scanPart : HeaderScan → List Text → Res HeaderScan
  | st, [] => .ok st
  | st, x :: xs => do
    let st ← scanPartLine st x
    scanPart st xs

/-! ## Parts -/

/-- `enum data_to_rfc822_error` (mairix.h:337-343). -/
inductive MimeError
  | ok | missingEnd | sansBoundary | badHeaders
deriving DecidableEq, Repr

/-- The search for a boundary (rfc822.c:875-881): what is before it, and the text from it on. It must not be at the very end of the data. -/
def findBoundary (b : Text) : Text → Option (Text × Text)
  | [] => none
  | c :: t =>
    if b.length + 2 < (c :: t).length ∧ bs "--" ++ b <+: c :: t then some ([], c :: t)
    else (findBoundary b t).map fun (p, r) => (c :: p, r)

/-- `looking_at_end_boundary` (rfc822.c:888-889). -/
def endBoundary (b r : Text) : Bool := decide (b.length + 3 < r.length) && decide (bs "--" <+: r.drop (b.length + 2))

/-- `boundary_ok` (rfc822.c:890-897): `before` is all the input before the boundary, `r` the input from the boundary on. -/
def boundaryOk (b before r : Text) : Bool :=
  (before.getLast? == none || before.getLast? == some 0x0a) &&
  (endBoundary b r || decide (r.length ≤ b.length + 3) || decide (bs "\n" <+: r.drop (b.length + 2)) || decide (bs "\r\n" <+: r.drop (b.length + 2)))

/-- `strchr(s, '\n')` in a text that a null byte follows: the number of characters before the newline. -/
def newlineAt (r : Text) : Option Nat := (r.takeWhile (· != 0)).idxOf? 0x0a

/-- What the inner loop finds. -/
inductive NextBoundary
  /-- no boundary: an error (rfc822.c:882-886) -/
  | missing
  /-- no line behind something that looked like a boundary (rfc822.c:898-904) -/
  | oops
  /-- the text skipped, and the text from the boundary on -/
  | found (skipped r : Text)
deriving DecidableEq

/-- The inner loop (rfc822.c:871-907), with fuel: `before` is the input before `start_b1_search_from`, `skipped` what of it the loop has passed, and `rest` the input from there on. -/
def nextBoundary (b : Text) : Nat → Text → Text → Text → Res NextBoundary
  | 0, _, _, _ => .error .diverges
  | fuel + 1, before, skipped, rest =>
    match findBoundary b rest with
    | none => .ok .missing
    | some (p, r) =>
      if boundaryOk b (before ++ p) r then .ok (.found (skipped ++ p) r)
      else match newlineAt r with
        | none => .ok .oops
        | some n => nextBoundary b fuel (before ++ p ++ r.take (n + 1)) (skipped ++ p ++ r.take (n + 1)) (r.drop (n + 1))

/-- `line_after_b0` (rfc822.c:917-921): the number of characters from the boundary to there. -/
def lineAfter (r : Text) : Nat :=
  match newlineAt r with
  | some n => n + 1
  | none => (r.takeWhile (· != 0)).length

/-- The loop of `do_multipart` (rfc822.c:868-922), with fuel: the parts, each as the memory from its start on and its length. `first` is set as long as `b0` is null. -/
def splitParts (b : Text) : Nat → Bool → Text → Text → Res (List (Text × Nat) × MimeError)
  | 0, _, _, _ => .error .diverges
  | fuel + 1, first, before, rest => do
    match ← nextBoundary b (rest.length + 1) before [] rest with
    | .missing => .ok ([], .missingEnd)
    | .oops => .ok ([], .ok)
    | .found p r =>
      let part := if first then [] else [(rest ++ [0], p.length)]
      if endBoundary b r then .ok (part, .ok)
      else do
        let n := lineAfter r
        let (parts, e) ← splitParts b fuel false (before ++ p ++ r.take n) (r.drop n)
        .ok (part ++ parts, e)

/-- `enqueue` (rfc822.c:80-96) of a list of attachments. -/
def Attachments.append : Attachments → Attachments → Attachments
  | .nil, b => b
  | .cons x f rest, b => .cons x f (rest.append b)

/-- The functions that are called again for what is inside of a part. -/
structure Mime where
  /-- `data_to_rfc822` -/
  message : Text → Nat → Res (Option Rfc822 × MimeError)
  /-- `do_attachment` -/
  part : Text → Nat → Res Attachments

/-- `do_attachment` for all parts in turn. -/
def Mime.parts (m : Mime) : List (Text × Nat) → Res Attachments
  | [] => .ok .nil
  | (mem, len) :: ps => do
    let a ← m.part mem len
    let r ← m.parts ps
    .ok (a.append r)

/-- `do_multipart` (rfc822.c:845-923). What `do_attachment` does does not influence the search for the boundaries, so they are found first here. -/
def doMultipart (m : Mime) (input : Text) : Option Text → Res (Attachments × MimeError)
  | none => .ok (.nil, .sansBoundary)
  | some b => do
    let (ps, e) ← splitParts b (input.length + 1) true [] input
    let a ← m.parts ps
    .ok (a, e)

/-- `!strcasecmp`, with a null pointer on the left not being equal. -/
def isCase (t : Option Text) (s : Text) : Bool :=
  match t with
  | none => false
  | some t => lower t = lower s

/-- `ct.major` (rfc822.c:427-433). -/
def ctMajor (ct : Nvp) : Option Text :=
  match nvpMajor ct with
  | some m => some m
  | none => nvpFirst ct

/-- The name of the file (rfc822.c:713-733). -/
def attFilename (ct : Nvp) (cd : Option Nvp) : Option Text :=
  match cd with
  | none => none
  | some cd =>
    if isCase (nvpFirst cd) (bs "attachment") then
      match nvpLookupCase (bs "filename") cd with
      | some f => some f
      | none => nvpLookup (bs "name") ct
    else none

/-- The C string at a place of the memory. -/
def cstr (t : Text) : Text := t.takeWhile (· != 0)

/-- The part for a type (rfc822.c:734-761), which is not `multipart`. -/
def doUnipart (m : Mime) (decoded : Text) (ct : Nvp) (filename : Option Text) : Res (Attachments × MimeError) :=
  if isCase (ctMajor ct) (bs "text") then
    if isCase (nvpMinor ct) (bs "plain") then .ok (.cons (.plain (cstr decoded)) filename .nil, .ok)
    else if isCase (nvpMinor ct) (bs "html") then .ok (.cons (.html (cstr decoded)) filename .nil, .ok)
    else .ok (.cons .other filename .nil, .ok)
  else if isCase (ctMajor ct) (bs "message") && isCase (nvpMinor ct) (bs "rfc822") then do
    let (r, e) ← m.message (decoded ++ [0]) decoded.length
    match r with
    | none => .ok (.cons .noMessage filename .nil, e)
    | some r => .ok (.cons (.message r) filename .nil, e)
  else .ok (.cons .other filename .nil, .ok)

/-- The encoding (rfc822.c:691-699): `none` if the header has no first word. -/
def bodyEncoding : Option Nvp → Option (Option Text)
  | none => some none
  | some cte => (nvpFirst cte).map some

/-- `do_body` (rfc822.c:680-772): the attachments it appends. -/
def doBody (m : Mime) (mem : Text) (len : Nat) (ct cte cd : Option Nvp) : Res (Attachments × MimeError) :=
  match bodyEncoding cte with
  | none => .ok (.nil, .ok)
  | some enc => do
    let decoded ← unencodeData mem len enc
    match ct with
    | none => .ok (.cons (.plain (cstr decoded)) none .nil, .ok)
    | some ct =>
      if isCase (ctMajor ct) (bs "multipart") then doMultipart m decoded (nvpLookupCase (bs "boundary") ct)
      else doUnipart m decoded ct (attFilename ct cd)

/-- `data_to_rfc822` (rfc822.c:1003-1083). -/
def dataToRfc822 (mktime : Nat → Nat → Nat → Int) (m : Mime) (mem : Text) (len : Nat) : Res (Option Rfc822 × MimeError) := do
  match ← splitAndSplice (mem.take len) with
  | none => .ok (none, .badHeaders)
  | some (lines, body) => do
    let st ← scanHeader mktime ⟨initHeaders, none, none, none⟩ lines
    let (atts, e) ← doBody m (mem.drop (len - body.length)) body.length st.ct st.cte st.cd
    .ok (some (.mk st.hdrs atts), e)

/-- `do_attachment` (rfc822.c:775-842). (The body is always within the part, so that the test at rfc822.c:820 never fails.) -/
def doAttachment (m : Mime) (mem : Text) (len : Nat) : Res Attachments := do
  match ← splitAndSplice (mem.take len) with
  | none => .ok .nil
  | some (lines, body) => do
    let st ← scanPart ⟨initHeaders, none, none, none⟩ lines
    let (atts, _) ← doBody m (mem.drop (len - body.length)) body.length st.ct st.cte st.cd
    .ok atts

/-- The functions with a bound on the depth of nesting. -/
def mime (mktime : Nat → Nat → Nat → Int) : Nat → Mime
  | 0 => ⟨fun _ _ => .error .diverges, fun _ _ => .error .diverges⟩
  | n + 1 => ⟨dataToRfc822 mktime (mime mktime n), doAttachment (mime mktime n)⟩

/-- `data_to_rfc822` for a whole message (rfc822.c:1003-1083), with what lies behind it in memory. -/
def parseMessage (mktime : Nat → Nat → Nat → Int) (data after : Text) : Res (Option Rfc822 × MimeError) :=
  (mime mktime (data.length + 1)).message (data ++ after) data.length

end Mairix
