import Verif.Proofs.MimeSafe

/-!
# C47: any data; what is not taken apart as meant
-/

namespace Mairix
open Spec

/-- **C47**: whatever the data, reading a message ends, and leaves nothing uninitialised; it can only go wrong by reading or writing outside of the memory of the message (quoted-printable and uuencode, see C33 and C34) or by a number in the date that is too big (C53). -/
theorem C47_ends (mktime : Nat → Nat → Nat → Int) (data after : Text) : (∃ r, parseMessage mktime data after = .ok r) ∨ parseMessage mktime data after = .error .outOfBounds ∨ parseMessage mktime data after = .error .overflow := by
  have := (mime_tamed mktime (data.length + 1) (data ++ after) data.length (by omega)).1
  unfold parseMessage
  cases h : (mime mktime (data.length + 1)).message (data ++ after) data.length with
  | ok r => exact .inl ⟨r, rfl⟩
  | error e => rcases this.only e h with rfl | rfl; exact .inr (.inl rfl); exact .inr (.inr rfl)

/-- The fault, if there is one. -/
def faultOf {α : Type} : Res α → Option Fault
  | .error e => some e
  | .ok _ => none

/-- That reading or writing outside really happens, and so does the overflow. -/
example : faultOf (parseMessage (fun _ _ _ => 0) (bs "Content-Transfer-Encoding: quoted-printable\n\na=") []) = some .outOfBounds ∧
    faultOf (parseMessage (fun _ _ _ => 0) (bs "Date: 1 Jan 99999999999 00:00\n\n") []) = some .overflow := by decide +kernel

/-- Whether a message has been read without errors, but without any attachments. -/
def nothingKept : Res (Option Rfc822 × MimeError) → Bool
  | .ok (some (.mk _ .nil), .ok) => true
  | _ => false

theorem nothingKept_iff {r : Res (Option Rfc822 × MimeError)} (h : nothingKept r = true) : ∃ hd, r = .ok (some (.mk hd .nil), .ok) := by
  unfold nothingKept at h
  split at h
  · exact ⟨_, rfl⟩
  · cases h

/-- **C47** is false for delimiter lines with blanks behind the boundary, which RFC 2046 (5.1.1) allows and asks readers to ignore: the part is lost, without an error. -/
theorem C47_padding_violation (mktime : Nat → Nat → Nat → Int) : ∃ h, parseMessage mktime (bs "Content-Type: multipart/mixed; boundary=xx\n\n--xx \n\nhello\n--xx--\n") [] = .ok (some (.mk h .nil), .ok) :=
  nothingKept_iff (by rfl)

/-- **C47** is false if a null character is in a line that contains something like a delimiter: the rest of the parts are lost, without an error. -/
theorem C47_null_violation (mktime : Nat → Nat → Nat → Int) : ∃ h, parseMessage mktime (bs "Content-Type: multipart/mixed; boundary=xx\n\n--xxy" ++ [0] ++ bs "\n--xx\n\nhello\n--xx--\n") [] = .ok (some (.mk h .nil), .ok) :=
  nothingKept_iff (by rfl)

end Mairix
