import Verif.Model.Output
import Verif.Model.Whole
import Verif.Model.Stored
import Verif.Model.DbFile
import Verif.Model.Search

/-!
# Results on the terminal: search.c:1187-1282, 1494-1551
-/

namespace Mairix

/-- An unsigned number of the database as an `int`. -/
def asInt (n : Nat) : Int := (BitVec.ofNat 32 n).toInt

/-- `printf("%d")`. -/
def intText (n : Int) : Text := if n < 0 then bs "-" ++ digits n.natAbs else digits n.natAbs

/-- The line that tells where a message is (search.c:1194, 1199-1205, 1221-1222, 1230-1231, 1244-1249); the sum is one of `int`s. -/
def placeLine (db : ReadDb) (m : DbMsg) : Res Text :=
  if m.type = DB_MSG_FILE ∨ m.type = DB_MSG_IMAP then .ok (m.path ++ bs "\n")
  else if m.type = DB_MSG_MBOX then
    let start := asInt m.mtime
    let afterEnd := start + asInt m.size
    if afterEnd < -2 ^ 31 ∨ 2 ^ 31 ≤ afterEnd then .error .overflow
    else match db.mboxPaths[m.mbix]? with
      | none => .error .outOfBounds
      | some p => .ok (bs "mbox:" ++ p ++ bs " [" ++ intText start ++ bs "," ++ intText afterEnd ++ bs ")\n")
  else .ok []

/-- What is written for each of the results, one after the other (search.c:1188-1189, 1213-1214). -/
def writeEach (db : ReadDb) (one : DbMsg → Res Text) : List Nat → Res Text
  | [] => .ok []
  | i :: l =>
    match db.msgs[i]? with
    | none => .error .outOfBounds
    | some m => do
      let a ← one m
      let b ← writeEach db one l
      .ok (a ++ b)

/-- Results listed by their places (search.c:1187-1211). -/
def rawOutput (db : ReadDb) (found : List Nat) : Res Text := writeEach db (placeLine db) found

/-- What `gmtime` tells of a time: the day of the week, that of the month, the month from 0 on and the year from 1900 on. -/
structure GmDate where
  wday : Nat
  mday : Nat
  mon : Nat
  year : Int
  deriving DecidableEq, Repr

/-- `%d` of `strftime`. -/
def twoDigits (n : Nat) : Text := if n < 10 then bs "0" ++ digits n else digits n

/-- `strftime` with "%a, %d %b %Y" (search.c:1277), in the C locale (mairix sets only `LC_CTYPE`, mairix.c:554). -/
def gmText (g : GmDate) : Text :=
  [bs "Sun", bs "Mon", bs "Tue", bs "Wed", bs "Thu", bs "Fri", bs "Sat"].getD g.wday (bs "?") ++ bs ", " ++ twoDigits g.mday ++ bs " " ++
    [bs "Jan", bs "Feb", bs "Mar", bs "Apr", bs "May", bs "Jun", bs "Jul", bs "Aug", bs "Sep", bs "Oct", bs "Nov", bs "Dec"].getD g.mon (bs "?") ++ bs " " ++ intText (1900 + g.year)

/-- A header field, if there is one (search.c:1268-1275). -/
def fieldLine (label : Text) : Option Text → Text
  | none => []
  | some v => label ++ v ++ bs "\n"

/-- The headers of a message (search.c:1265-1280). -/
def headerLines (gmtime : Int → GmDate) (h : Headers) : Text :=
  fieldLine (bs "  To:         ") h.to ++ fieldLine (bs "  Cc:         ") h.cc ++ fieldLine (bs "  From:       ") h.from ++ fieldLine (bs "  Subject:    ") h.subject ++
    fieldLine (bs "  Message-ID: ") h.messageId ++ fieldLine (bs "  In-Reply-To:") h.inReplyTo ++ (bs "  Date:        " ++ gmText (gmtime h.date) ++ bs "\n")

/-- What is found of a message when it is shown (search.c:1223, 1233, 1251-1257): a file is read, a message of an mbox is taken from there if its checksum is right. `imap` is for messages on
servers. -/
def foundMessage (mktime : Nat → Nat → Nat → Int) (md5 : Text → List UInt8) (disc : Disc) (imap : Text → Option Rfc822) (raw : RawDb) (db : ReadDb) (m : DbMsg) :
    Res (Option Rfc822) :=
  if m.type = DB_MSG_FILE then .ok (disc.makeRfc822 mktime m.path)
  else if m.type = DB_MSG_IMAP then .ok (imap m.path)
  else if m.type = DB_MSG_MBOX then do
    let t ← mboxMsgData md5 disc raw db m
    .ok (t.bind fun t => (outcome (parseMessage mktime t (disc.after t))).1)
  else .ok none

/-- The headers of the message, if it could be parsed (search.c:1265). -/
def shownHeaders (gmtime : Int → GmDate) : Option Rfc822 → Text
  | none => []
  | some r => headerLines gmtime r.hdrs

/-- The line before each result (search.c:1220, 1229, 1247). -/
def excerptRule : Text := bs "---------------------------------\n"

/-- One result with its headers (search.c:1214-1280). -/
def excerptOne (gmtime : Int → GmDate) (parsed : DbMsg → Res (Option Rfc822)) (db : ReadDb) (m : DbMsg) : Res Text :=
  if m.type = DB_MSG_FILE ∨ m.type = DB_MSG_IMAP ∨ m.type = DB_MSG_MBOX then do
    let a ← placeLine db m
    let r ← parsed m
    .ok (excerptRule ++ a ++ shownHeaders gmtime r)
  else .ok []

/-- Results with their headers (search.c:1212-1282). -/
def excerptOutput (gmtime : Int → GmDate) (parsed : DbMsg → Res (Option Rfc822)) (db : ReadDb) (found : List Nat) : Res Text := writeEach db (excerptOne gmtime parsed db) found

/-- `search_top` and `do_search` with `-r` (search.c:1500, 1545): what is written for the arguments, with this database file. -/
def searchRaw (scan : Text → Option (Option Int × Option Int)) (sort : List Nat → List Nat) (file : Text) (args : List Text) (threads sortByDate : Bool) : Res Text := do
  let raw ← openDb file
  let view ← viewDb raw
  let found ← doSearch scan sort view args threads sortByDate
  rawOutput view found

/-- The same with `-x`. -/
def searchExcerpt (scan : Text → Option (Option Int × Option Int)) (sort : List Nat → List Nat) (gmtime : Int → GmDate) (mktime : Nat → Nat → Nat → Int) (md5 : Text → List UInt8)
    (disc : Disc) (imap : Text → Option Rfc822) (file : Text) (args : List Text) (threads sortByDate : Bool) : Res Text := do
  let raw ← openDb file
  let view ← viewDb raw
  let found ← doSearch scan sort view args threads sortByDate
  excerptOutput gmtime (foundMessage mktime md5 disc imap raw view) view found

end Mairix
