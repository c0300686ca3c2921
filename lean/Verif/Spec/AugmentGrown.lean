import Verif.Spec.AugmentMbox

/-!
# Searches one after the other with a maildir for the results, with indexing runs between them (specification)
-/

namespace Mairix.Spec

/-- The second search comes after the first: before it there were the same runs, and then any number of further ones without `-p`. -/
def Later (a b : BoxSearch) : Prop := ∃ ys : List Indexing, (∀ y ∈ ys, y.purge = false) ∧ b.xs ++ [b.x] = a.xs ++ [a.x] ++ ys

/-- Searches one after the other, all but the first with `-a` (`augment`: the first too), with the results in the maildir `dir`, end without a fault and lead from disk `d` to disk `d'`. -/
inductive SearchesIntoMaildir (scan : Text → Option (Option Int × Option Int)) (sort : List Nat → List Nat) (md5 : Text → List UInt8) (imap : Text → Option Text) (dir : Text) :
    Bool → List BoxSearch → Disk → Disk → Prop
  | done {augment d} : SearchesIntoMaildir scan sort md5 imap dir augment [] d d
  | more {augment q qs d e d'} : searchTop scan sort md5 q.x.disc imap .maildir dir false augment false false q.file q.args d = ⟨e, none⟩ → SearchesIntoMaildir scan sort md5 imap dir true qs e d' →
      SearchesIntoMaildir scan sort md5 imap dir augment (q :: qs) d d'

/-- The message file is one of those configured at the time of the search, and if it has a meaning as a message then it satisfied the query as it was then. -/
def FoundThen (mktime : Nat → Nat → Nat → Int) (a : BoxSearch) (p : Text) : Prop :=
  MessageFile a.setting a.items p ∧ ∀ m z, FileMeans mktime a.x.disc p m → Tells m p (a.x.disc.size p) z → ∀ c ∈ a.query, c.Holds z

end Mairix.Spec
