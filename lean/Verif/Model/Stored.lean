import Verif.Model.Output
import Verif.Model.Whole
import Verif.Model.DbFile

/-!
# Messages of mboxen, looked up for output: search.c:676-712
-/

namespace Mairix

/-- The checksum that is stored for a message (search.c:707): 16 bytes of the database file. -/
def storedCheck (r : RawDb) (m : DbMsg) : Res (List UInt8) := do
  let off ← rd32 r.data (r.mboxChecksum + m.mbix)
  if off + 16 * m.msgix + 16 ≤ r.data.length then .ok ((r.data.drop (off + 16 * m.msgix)).take 16) else .error .outOfBounds

/-- `get_validated_mbox_msg` (search.c:676-713) with the mbox and the checksum looked up. The number of the mbox is used without a check (search.c:692). An mbox that cannot be mapped, or is empty, gives no message. -/
def mboxMsgData (md5 : Text → List UInt8) (disc : Disc) (raw : RawDb) (view : ReadDb) (m : DbMsg) : Res (Option Text) :=
  match view.mboxPaths[m.mbix]? with
  | none => .error .outOfBounds
  | some p =>
    match disc.map p with
    | .data va => do
      let c ← storedCheck raw m
      validatedMsg md5 va m c
    | _ => .ok none

end Mairix
