import Verif.Model.MboxUpdate

/-!
# When an indexed mbox message is still there (specification)
-/

namespace Mairix.Spec

/-- Message `i` of the mbox as it was indexed is still in the file `va`: the file reaches that far and
its text has the checksum noted. -/
def StillThere (w : MboxWorld) (mb : Mbox) (va : Text) (i : Nat) : Prop :=
  ∃ m start len, mb.msgs[i]? = some m ∧ m.pos = some (start, len) ∧ start + len ≤ va.length ∧
    m.check = w.md5 ((va.drop start).take len)

/-- The places of all messages of the mbox are known and fit into 63 bits, as file offsets do. -/
def PlacesKnown (mb : Mbox) : Prop :=
  ∀ m ∈ mb.msgs, ∃ start len, m.pos = some (start, len) ∧ start + len < 2 ^ 64

end Mairix.Spec
