import Verif.Model.Basic

/-!
# What an index is (specification)

The mail is a list of messages; message number `i` is the list of (lower-case) words that occur in
it. An index must list, for each word, the numbers of the messages that contain it, in increasing
order.
-/

namespace Mairix.Spec

abbrev Mail := List (List Text)

/-- `l` is the list of the messages of `mail` that contain word `w`, in increasing order. -/
def IsListing (mail : Mail) (w : Text) (l : List Nat) : Prop :=
  l.Pairwise (· < ·) ∧ ∀ i, i ∈ l ↔ ∃ ws, mail[i]? = some ws ∧ w ∈ ws

/-- The elements whose mark is `true`. -/
def keepOnly {α : Type} : List Bool → List α → List α
  | true :: ks, m :: ms => m :: keepOnly ks ms
  | false :: ks, _ :: ms => keepOnly ks ms
  | _, _ => []

/-- Add a word to the last message; there must be one. -/
def addWord (w : Text) : Mail → Option Mail
  | [] => none
  | [ws] => some [w :: ws]
  | m :: ms => (addWord w ms).map (m :: ·)

/-- For the message id table: the ids each message mentions, each marked `true` where it is the
message's own id (its Message-ID header) and `false` where it is a reference. -/
abbrev IdMail := List (List (Text × Bool))

/-- All ids mentioned, per message. -/
def idsMentioned (mail : IdMail) : Mail := mail.map (·.map Prod.fst)

/-- The ids the messages have as their own, per message. -/
def idsOwn (mail : IdMail) : Mail := mail.map fun ids => (ids.filter (·.2)).map Prod.fst

/-- Add an id to the last message; there must be one. -/
def addId (p : Text × Bool) : IdMail → Option IdMail
  | [] => none
  | [ws] => some [p :: ws]
  | m :: ms => (addId p ms).map (m :: ·)

end Mairix.Spec
