import Verif.Model.ImapLogin
import Verif.Spec.ImapCommand
import Verif.Spec.ImapLine

/-!
# What a login consists of

The commands sent and their answers are the `log` of a connection; these are the notions for speaking about it.
-/

namespace Mairix.Spec

/-- The three commands of a login. -/
def capabilityCmd : List ImapTok := [.atom (bs "CAPABILITY")]
@[inherit_doc capabilityCmd] def starttlsCmd : List ImapTok := [.atom (bs "STARTTLS")]
@[inherit_doc capabilityCmd] def loginCmd (user pass : Text) : List ImapTok := [.atom (bs "LOGIN"), .string (cstr user), .string (cstr pass)]

/-- The token is the word `w`. -/
def IsNamed (w : Text) (t : ImapTok) : Prop := ∃ s, (t = .atom s ∨ t = .string s) ∧ cstr s = w

/-- The list of capabilities has the capability `w`. -/
def Offers (caps : List ImapTok) (w : Text) : Prop := ∃ t ∈ caps, IsNamed w t

/-- The first word of a response. -/
def Opens (l : ImapLine) (w : Text) : Prop := ∃ s rest, l.items = .atom s :: rest ∧ cstr s = w

/-- The line `* OK [CAPABILITY …] …`, or another one with this code, announces the capabilities. -/
def AnnouncedIn (l : ImapLine) (caps : List ImapTok) : Prop :=
  ∃ first t rest, l.items = first :: .sqlist (t :: caps) :: rest ∧ IsNamed (bs "CAPABILITY") t

/-- The exchange was answered with the status `w`. -/
def Exchange.Answered (e : Exchange) (w : Text) : Prop := ∃ ls l, e.answer = some ls ∧ ls.getLast? = some l ∧ Opens l w

/-- The exchange is a `CAPABILITY` command with the answer `* CAPABILITY …`. -/
def Exchange.Lists (e : Exchange) (caps : List ImapTok) : Prop :=
  e.cmd = capabilityCmd ∧ ∃ ls, e.answer = some ls ∧ ∃ l ∈ ls, l.kind = .untagged ∧ ∃ s, l.items = .atom s :: caps ∧ cstr s = bs "CAPABILITY"

/-- The capabilities in force after the greeting and some exchanges: those announced last, where a `STARTTLS` that was accepted voids
what was announced before. -/
inductive InForce (greeting : ImapLine) : List Exchange → List ImapTok → Prop
  | greeting {caps} : AnnouncedIn greeting caps → InForce greeting [] caps
  | listed {es e caps} : Exchange.Lists e caps → InForce greeting (es ++ [e]) caps
  | announced {es e ls l caps} : e.answer = some ls → ls.getLast? = some l → AnnouncedIn l caps → InForce greeting (es ++ [e]) caps
  | kept {es e caps} : InForce greeting es caps → e.cmd = starttlsCmd → ¬ Exchange.Answered e (bs "OK") → InForce greeting (es ++ [e]) caps

/-- The bytes of commands with consecutive tags. -/
def wireFrom : Nat → List Exchange → Text
  | _, [] => []
  | n, e :: es => commandBytes n e.cmd ++ wireFrom (n + 1) es

/-- Running the commands one after the other on a connection gives the answers of the exchanges. -/
inductive Replays : ImapConn → List Exchange → ImapConn → Prop
  | nil {s} : Replays s [] s
  | snoc {s es s' e s''} : Replays s es s' → imapCommand s' e.cmd = .ok (e.answer, s'') → Replays s (es ++ [e]) s''

/-- The certificate names the server, as RFC 2595 (2.4) has it: the names are the same but for the case of letters, or the certificate is for
`*.domain` and the server is in that domain. -/
def NamesServer (commonName server : Text) : Prop :=
  lower commonName = lower server ∨
    ∃ domain label domain', commonName = bs "*." ++ domain ∧ server = label ++ bs "." ++ domain' ∧ label ≠ [] ∧ lower domain = lower domain'

/-- What mairix accepts as naming the server. -/
def EndsLike (commonName server : Text) : Prop :=
  lower commonName = lower server ∨ ∃ e p e', commonName = bs "*" ++ e ∧ server = p ++ e' ∧ lower e = lower e'

/-- What a server sends for a command: responses without a tag, and one with the tag of the command. -/
structure Reply where
  rs : List Response
  last : Response

/-- The bytes of the reply. -/
def Reply.bytes (a : Reply) : Text := (a.rs.map Response.bytes).flatten ++ a.last.bytes

/-- The reply is one for the command with the tag `n`, with the status `w`. -/
structure Reply.Is (a : Reply) (n : Nat) (w : Text) : Prop where
  untagged : ∀ r ∈ a.rs, r.Wf ∧ r.tag = none
  wf : a.last.Wf
  tag : a.last.tag = some n
  status : a.last.first = .atom w

/-- The first response of the kind `* CAPABILITY …` in the reply has these capabilities. -/
def Reply.Tells (a : Reply) (caps : List RespTok) : Prop :=
  caps ≠ [] ∧ ∃ pre r post, a.rs = pre ++ r :: post ∧ r.first = .atom (bs "CAPABILITY") ∧ r.code = none ∧ r.rest = caps ∧
    ∀ b ∈ pre, ∀ s, b.first = .atom s → cstr s ≠ bs "CAPABILITY"

/-- How a client learns the capabilities after a response, when `n` is the next tag: from the code of the response, or else by asking; `more` are the bytes
the server sends if it is asked, and the last argument is the next tag afterwards. -/
inductive Learns (r : Response) (n : Nat) : Text → List RespTok → Nat → Prop
  | code {caps} : r.code = some (.atom (bs "CAPABILITY") :: caps) → caps ≠ [] → Learns r n [] caps n
  | asked {a : Reply} {caps w} : (∀ l, r.code = some l → ∀ s, l.head? = some (.atom s) ∨ l.head? = some (.quoted s) ∨ l.head? = some (.literal s) →
      cstr s ≠ bs "CAPABILITY") → a.Is n w → a.Tells caps → Learns r n a.bytes caps (n + 1)

end Mairix.Spec
