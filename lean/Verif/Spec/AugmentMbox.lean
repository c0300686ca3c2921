import Verif.Model.SearchTop
import Verif.Spec.SearchTop
import Verif.Spec.Whole
import Verif.Spec.Query

/-!
# Searches one after the other with an mbox for the results (specification)
-/

namespace Mairix.Spec

/-- A search: the indexing runs before it (`x` the last one), what the configuration of the last means, the database file they made, the query and how it is written. -/
structure BoxSearch where
  xs : List Indexing
  x : Indexing
  setting : Setting
  items : FolderType → List FolderItem
  file : Text
  query : List Cond
  args : List Text

/-- The runs are as for C84: mail is only delivered to mboxen, message files do not change, and the runs complete. -/
structure BoxSearch.Prepared (hashfn : Nat → Text → Nat) (mktime : Nat → Nat → Nat → Int) (md5 : Text → List UInt8) (dateRange : Text → Option Int → Option Int → Prop) (q : BoxSearch) : Prop where
  library : ∀ y ∈ q.xs ++ [q.x], LibraryOk y
  discs : ∀ y ∈ q.xs ++ [q.x], DiscOk y.disc
  configs : ∀ y ∈ q.xs ++ [q.x], ∃ s items, ∃ N < y.depth, Means y.config y.disc.fs s items ∧ PathMax y.disc.fs N
  means : Means q.x.config q.x.disc.fs q.setting q.items
  unchanged : ∀ y ∈ q.xs, Unchanged y.disc q.x.disc
  careful : q.x.fast = false
  after : ∀ y ∈ q.xs, y.disc.after = q.x.disc.after
  grown : ∀ p, Configured q.setting q.items .mbox p → ∃ ms, GrownBox mktime q.xs q.x p ms
  runs : indexMails hashfn mktime md5 (q.xs ++ [q.x]) none = .ok (some q.file)
  written : QueryWrittenAs dateRange q.query q.args
  fits : ∀ c ∈ q.query, Cond.Fits c

/-- Searches one after the other, all but the first with `-a` (`augment`: the first too), with the results in the mbox at `path`, end without a fault and lead from disk `d` to disk `d'`. -/
inductive SearchesInto (scan : Text → Option (Option Int × Option Int)) (sort : List Nat → List Nat) (md5 : Text → List UInt8) (imap : Text → Option Text) (path : Text) :
    Bool → List BoxSearch → Disk → Disk → Prop
  | done {augment d} : SearchesInto scan sort md5 imap path augment [] d d
  | more {augment q qs d e d'} : searchTop scan sort md5 q.x.disc imap .mbox path false augment false false q.file q.args d = ⟨e, none⟩ → SearchesInto scan sort md5 imap path true qs e d' →
      SearchesInto scan sort md5 imap path augment (q :: qs) d d'

end Mairix.Spec
