import Verif.Model.Encoding

/-!
# The opened database file as seen by the search: reader.h:114-180

What `open_db` delivers are pointers into the mapped file. Here the file has already been looked
through: a text is the C string at its offset, a message list is the rest of the file from its
offset on. `Verif/Model/DbFile.lean` relates this view to the bytes of the file.
-/

namespace Mairix

/-- reader.h:113 -/
abbrev DB_MSG_DEAD : UInt8 := 0
/-- reader.h:116 -/
abbrev DB_MSG_FILE : UInt8 := 1
/-- reader.h:118 -/
abbrev DB_MSG_MBOX : UInt8 := 2
/-- reader.h:120 -/
abbrev DB_MSG_IMAP : UInt8 := 3
/-- reader.h:123 -/
abbrev FLAG_SEEN : UInt8 := 8
/-- reader.h:124 -/
abbrev FLAG_REPLIED : UInt8 := 16
/-- reader.h:125 -/
abbrev FLAG_FLAGGED : UInt8 := 32

/-- One message of the opened file: entry `i` of the per-message tables (reader.h:143-156). `path`
is the C string at `path_offsets[i]`, `mbix`, `msgix` what `decode_mbox_indices` reads there. -/
structure DbMsg where
  typeAndFlags : UInt8
  path : Text
  mbix : Nat
  msgix : Nat
  mtime : Nat
  size : Nat
  date : Nat
  tid : Nat
  deriving DecidableEq, Repr

/-- `rd_msg_type` (reader.h:177-179). -/
def DbMsg.type (m : DbMsg) : UInt8 := m.typeAndFlags &&& 0x7

/-- `struct toktable_db` (reader.h:127-131): for each token its text (`get_db_token`, reader.c:108-116;
`none` for NULL) and the bytes from its list's offset to the end of the file. -/
abbrev DbTable := List (Option Text × List UInt8)

/-- `struct toktable2_db` (reader.h:133-138): text, list 0, list 1. -/
abbrev DbTable2 := List (Option Text × List UInt8 × List UInt8)

/-- `struct read_db` (reader.h:140-175). -/
structure ReadDb where
  msgs : List DbMsg
  mboxPaths : List Text
  to : DbTable
  cc : DbTable
  «from» : DbTable
  subject : DbTable
  body : DbTable
  attachmentName : DbTable
  msgIds : DbTable2

end Mairix
