import Verif.Model.SearchTop
import Verif.Spec.Disk

/-!
# Searches one after the other
-/

namespace Mairix.Spec

/-- Searches with `-a` for the queries `qs`, one after the other, with the results in the maildir `dir`, all end without a fault and lead from disk `d` to disk `d'`. -/
inductive Augmented (scan : Text → Option (Option Int × Option Int)) (sort : List Nat → List Nat) (md5 : Text → List UInt8) (disc : Disc) (imap : Text → Option Text) (dir file : Text) : List (List Text) → Disk → Disk → Prop
  | done {d} : Augmented scan sort md5 disc imap dir file [] d d
  | more {d e d' args qs} : searchTop scan sort md5 disc imap .maildir dir false true false false file args d = ⟨e, none⟩ → Augmented scan sort md5 disc imap dir file qs e d' →
      Augmented scan sort md5 disc imap dir file (args :: qs) d d'

/-- There is a directory at the path, and no entry of the directories `R` is needed to get there. -/
def Outside (d : Disk) (R : List Nat) (path : Text) : Prop := path ≠ [] ∧ ∃ r es, Route d R d.steps (d.start d.cwd path) (comps path) r ∧ d.nodes[r]? = some (.dir es)

end Mairix.Spec
