import Verif.Model.Integrity

/-!
# What the integrity checks are to find out (specification)
-/

namespace Mairix.Spec

/-- A table of words is sound, with `nMsgs` messages in the database: the number of words noted is right, no word is there twice, and the last message in the list of each word is the one noted as the highest, and exists. -/
structure SoundTable (nMsgs : Nat) (t : Table Matches) : Prop where
  count : (t.slots.filterMap id).length = t.n
  once : ((t.slots.filterMap id).map (·.text)).Nodup
  last : ∀ e ∈ t.slots.filterMap id, (readAll e.data.bytes).getLast? = some e.data.highest ∧ e.data.highest < nMsgs

/-- The six tables of words. -/
def wordTables (t : Tables) : List (Table Matches) := [t.to, t.cc, t.from, t.subject, t.body, t.attachmentName]

/-- A database is sound: no two messages are in the same file or at the same place on an IMAP server, and the tables of words are sound. -/
structure SoundDb (db : Database) : Prop where
  files : (db.msgs.filterMap fun m => match m.src with | .file p _ _ => some p | _ => none).Nodup
  imap : (db.msgs.filterMap fun m => match m.src with | .imap p => some p | _ => none).Nodup
  tables : ∀ t ∈ wordTables db.tables, SoundTable db.msgs.length t

end Mairix.Spec
