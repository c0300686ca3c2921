import Verif.Model.Message
import Verif.Spec.Words
import Verif.Spec.Query

/-!
# The words of a message (specification)

Which words a user can find a parsed message by, per field, and which identifiers link it to other
messages. Only the type of parsed messages is taken from the model.
-/

namespace Mairix.Spec

mutual
/-- `HasWord m f w`: the message `m` is found by the (lower-case) word `w` in field `f`. -/
inductive HasWord : Rfc822 → Field → Text → Prop
  /-- to, cc, from: the single words and the whole addresses -/
  | to {h atts s w} : h.to = some s → MaximalRun WordChar s w ∨ MaximalRun AddrChar s w →
      HasWord (.mk h atts) .to (lower w)
  | cc {h atts s w} : h.cc = some s → MaximalRun WordChar s w ∨ MaximalRun AddrChar s w →
      HasWord (.mk h atts) .cc (lower w)
  | sender {h atts s w} : h.from = some s → MaximalRun WordChar s w ∨ MaximalRun AddrChar s w →
      HasWord (.mk h atts) .sender (lower w)
  | subject {h atts s w} : h.subject = some s → MaximalRun WordChar s w → HasWord (.mk h atts) .subject (lower w)
  | part {h atts f w} : PartHasWord atts f w → HasWord (.mk h atts) f w
/-- The same for the parts of a message. -/
inductive PartHasWord : Attachments → Field → Text → Prop
  | plain {b n rest w} : MaximalRun WordChar b w → PartHasWord (.cons (.plain b) n rest) .body (lower w)
  | html {b n rest w} : MaximalRun WordChar (stripTags b) w → PartHasWord (.cons (.html b) n rest) .body (lower w)
  /-- words of an attached message count for the message, in their field -/
  | embedded {m n rest f w} : HasWord m f w → PartHasWord (.cons (.message m) n rest) f w
  | filename {b n rest} : PartHasWord (.cons b (some n) rest) .attachment (lower n)
  | rest {b n rest f w} : PartHasWord rest f w → PartHasWord (.cons b n rest) f w
end

/-- `id` is one of the terms in angle brackets in `s`. -/
def Angled (s : Text) (id : Text) : Prop := ∃ ts, AngledTerms s ts ∧ id ∈ ts

mutual
/-- `HasId m own id`: the message mentions the identifier `id`, as its own (in its Message-ID) if `own`,
else as that of another message (in In-Reply-To or References). Those of attached messages count as
well. -/
inductive HasId : Rfc822 → Bool → Text → Prop
  | own {h atts s id} : h.messageId = some s → Angled s id → HasId (.mk h atts) true (lower id)
  | replyTo {h atts s id} : h.inReplyTo = some s → Angled s id → HasId (.mk h atts) false (lower id)
  | reference {h atts s id} : h.references = some s → Angled s id → HasId (.mk h atts) false (lower id)
  | part {h atts own id} : PartHasId atts own id → HasId (.mk h atts) own id
inductive PartHasId : Attachments → Bool → Text → Prop
  | embedded {m n rest own id} : HasId m own id → PartHasId (.cons (.message m) n rest) own id
  | rest {b n rest own id} : PartHasId rest own id → PartHasId (.cons b n rest) own id
end

end Mairix.Spec
