import Verif.Spec.Mbox
import Verif.Model.Output
import Verif.Model.Regex

/-!
# Results in an mbox (specification)
-/

namespace Mairix.Spec

/-- No line of the text looks like the beginning of a message in an mbox. -/
def NoFrom (t : Text) : Prop := ∀ p, ¬ FromLine fromCheck t 0 p

/-- The text of the message has no From line in it, and its path no newline. -/
def CleanFound : Found → Prop
  | .file path data => 0x0a ∉ path ∧ NoFrom data
  | .imap data => NoFrom data
  | .mbox path data => 0x0a ∉ path ∧ NoFrom data

/-- `t` is the message found, with a header line added (unless it comes from an IMAP server) and at most two newlines at the
end. -/
def Recovered : Found → Text → Prop
  | .file path data, t => ∃ k, k ≤ 2 ∧ t = bs "X-source-folder: " ++ path ++ bs "\n" ++ data ++ List.replicate k 0x0a
  | .imap data, t => t = data ++ bs "\n"
  | .mbox path data, t => ∃ k, k ≤ 2 ∧ t = bs "X-source-folder: " ++ path ++ bs "\n" ++ data ++ List.replicate k 0x0a

end Mairix.Spec
