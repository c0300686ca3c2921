import Verif.Model.Imap

/-!
# Logging in to an IMAP server: imap.c:859-979, 1045-1234 and imapinterface.c:11-49

The server is any sequence of bytes, cut by `read` in any way.  What OpenSSL finds out about the other side, and the bytes that come
through the encrypted channel, are parameters (`TlsPeer`).  Failing allocations and waiting for the handshake (imap.c:903-936) are not
modelled; a handshake that fails or does not end in time is `connects = false`.
-/

namespace Mairix

/-- What OpenSSL reports about the other side: whether `SSL_connect` succeeds, whether `SSL_get_verify_result` is `X509_V_OK`, the text
`X509_NAME_get_text_by_NID` leaves in `buf` (`none`: there is no certificate or no common name in it), and what the calls of `SSL_read`
return afterwards (imap.c:906, 937-950, 415). -/
structure TlsPeer where
  connects : Bool
  verified : Bool
  commonName : Option Text
  reads : List Text
  deriving DecidableEq

/-- A command and what `imap_ll_command` returned for it; `secure` says whether it went through the encrypted channel. -/
structure Exchange where
  secure : Bool
  cmd : List ImapTok
  answer : Option (List ImapLine)
  deriving DecidableEq

/-- The connection during the login: the bytes in clear, and those of the encrypted channel as soon as `ll->ssl` is set
(imap.c:977).  Both have the same buffer and the same tag numbers in the program; the connection that is not in use keeps its last
state here.  `log` is not in the program: it is the list of all exchanges, for the statements. -/
structure LoginConn where
  plain : ImapConn
  secret : Option ImapConn := none
  log : List Exchange := []
  deriving DecidableEq

/-- The connection in use. -/
def LoginConn.cur (c : LoginConn) : ImapConn := c.secret.getD c.plain

/-- `imap_ll_command` on the connection in use (imap.c:669-712; the channel is the one `ll->ssl` says, imap.c:414-415, 600-602). -/
def LoginConn.command (c : LoginConn) (cmd : List ImapTok) : Res (Option (List ImapLine) × LoginConn) := do
  let (r, ll) ← imapCommand c.cur cmd
  let log := c.log ++ [⟨c.secret.isSome, cmd, r⟩]
  match c.secret with
  | none => .ok (r, { c with plain := ll, log := log })
  | some _ => .ok (r, { c with secret := some ll, log := log })

/-- `l->leaf` as a string; null for lists. -/
def ImapTok.leaf : ImapTok → Option Text
  | .atom s => some (cstr s)
  | .string s => some (cstr s)
  | _ => none

/-- `find_capability_list_in_untagged_response` (imap.c:1045-1057); the empty list stands for the null pointer. -/
def capsInUntagged : List ImapLine → Res (List ImapTok)
  | [] => .ok []
  | l :: ls =>
    if l.kind = .untagged then
      match l.items with
      | [] => .error .outOfBounds
      | t :: rest => if t.isWord (bs "CAPABILITY") then .ok rest else capsInUntagged ls
    else capsInUntagged ls

/-- The same for a result that may be the null pointer. -/
def capsInAnswer : Option (List ImapLine) → Res (List ImapTok)
  | none => .error .outOfBounds
  | some ls => capsInUntagged ls

/-- `ask_for_capabilities` (imap.c:1059-1072) followed by `find_capability_list_in_untagged_response`. -/
def askCaps (c : LoginConn) : Res (List ImapTok × LoginConn) := do
  let (r, c) ← c.command [.atom (bs "CAPABILITY")]
  let caps ← capsInAnswer r
  .ok (caps, c)

/-- The condition of `find_capability_list_from_greeting` (imap.c:1079-1085): the capabilities in the line itself. -/
def capsInLine (l : ImapLine) : Option (List ImapTok) :=
  match l.items with
  | _ :: .sqlist (t :: rest) :: _ => if t.leaf = some (bs "CAPABILITY") then some rest else none
  | _ => none

/-- `find_capability_list_from_greeting` (imap.c:1074-1092); the empty list stands for the null pointer. -/
def capsFromGreeting (c : LoginConn) (l : ImapLine) : Res (List ImapTok × LoginConn) :=
  match capsInLine l with
  | some caps => .ok (caps, c)
  | none => askCaps c

/-- `have_capability` and `need_capability` (imap.c:1094-1113). -/
def haveCapability (caps : List ImapTok) (cap : Text) : Bool := caps.any (·.leaf == some cap)

/-- The comparison of the common name with the server's name (imap.c:951-975).  A null `servername` is not compared. -/
def certNameOk (commonName : Text) (servername : Option Text) : Bool :=
  match servername with
  | none => true
  | some s =>
    if lower commonName == lower s then true
    else
      match commonName with
      | 42 :: rest => decide (rest.length ≤ s.length) && lower rest == lower (s.drop (s.length - rest.length))
      | _ => false

/-- `enum imap_ll_starttls_result` (imap.h:47-52). -/
inductive TlsResult where
  | failedProceed | failed | failedCert | success
  deriving DecidableEq

/-- The end of `imap_ll_starttls` after an `OK` (imap.c:899-978). -/
def tlsCheck (peer : TlsPeer) (servername : Option Text) : TlsResult :=
  if peer.connects then
    if peer.verified then
      match peer.commonName with
      | none => .failedCert
      | some cn => if certNameOk (cstr cn) servername then .success else .failedCert
    else .failedCert
  else .failed

/-- `imap_ll_starttls` (imap.c:859-979).  After success the channel is the encrypted one; what was read before stays in the buffer
(imap.c:976-978). -/
def imapStarttls (c : LoginConn) (peer : TlsPeer) (servername : Option Text) : Res (TlsResult × LoginConn) := do
  let (r, c) ← c.command [.atom (bs "STARTTLS")]
  let st ← imapStatus r
  if st = bs "OK" then
    match tlsCheck peer servername with
    | .success => .ok (.success, { c with secret := some { c.cur with reads := peer.reads, sent := [] } })
    | x => .ok (x, c)
  else .ok (.failedProceed, c)

/-- `enum imap_login_result` (imap.h:57-61). -/
inductive LoginResult where
  | ok | denied | error
  deriving DecidableEq

/-- The code at `logged_in` (imap.c:1219-1225). -/
def loggedIn (caps : List ImapTok) : LoginResult := if haveCapability caps (bs "LITERAL+") then .ok else .error

/-- What `find_capability_list_from_greeting` and `logged_in` do after the answer `OK` (imap.c:1213-1225), and for `PREAUTH`
(imap.c:1147-1153). -/
def afterLogin (c : LoginConn) (l : ImapLine) : Res (LoginResult × LoginConn) := do
  let (caps, c) ← capsFromGreeting c l
  if caps = [] then .ok (.error, c) else .ok (loggedIn caps, c)

/-- The command `LOGIN` and its result (imap.c:1201-1234). -/
def sendLogin (c : LoginConn) (user pass : Text) : Res (LoginResult × LoginConn) := do
  let (r, c) ← c.command [.atom (bs "LOGIN"), .string (cstr user), .string (cstr pass)]
  let st ← imapStatus r
  if st = bs "OK" then
    match r.bind List.getLast? with
    | none => .error .outOfBounds
    | some l => afterLogin c l
  else if st = bs "NO" then .ok (.denied, c)
  else .ok (.error, c)

/-- From the check of `LITERAL+` on (imap.c:1188-1234). -/
def imapAuthenticate (c : LoginConn) (caps : List ImapTok) (user pass : Option Text) : Res (LoginResult × LoginConn) :=
  if haveCapability caps (bs "LITERAL+") then
    match user, pass with
    | some u, some p => if haveCapability caps (bs "AUTH=PLAIN") then sendLogin c u p else .ok (.error, c)
    | _, _ => .ok (.denied, c)
  else .ok (.error, c)

/-- The part that needs OpenSSL (imap.c:1165-1186): the capabilities and the connection to go on with, or the end of the login. -/
def maybeTls (c : LoginConn) (caps : List ImapTok) (peer : Option TlsPeer) (servername : Option Text) :
    Res (Option (List ImapTok) × LoginConn) :=
  match peer with
  | none => .ok (some caps, c)
  | some peer =>
    if haveCapability caps (bs "STARTTLS") then do
      let (x, c) ← imapStarttls c peer servername
      match x with
      | .failedProceed => .ok (some caps, c)
      | .success => do
        let (caps, c) ← askCaps c
        .ok (if caps = [] then none else some caps, c)
      | _ => .ok (none, c)
    else .ok (some caps, c)

/-- `imap_login` after the greeting `OK` (imap.c:1159-1234). -/
def afterGreeting (c : LoginConn) (l : ImapLine) (user pass : Option Text) (peer : Option TlsPeer) (servername : Option Text) :
    Res (LoginResult × LoginConn) := do
  let (caps, c) ← capsFromGreeting c l
  if caps = [] then .ok (.error, c)
  else
    let (caps, c) ← maybeTls c caps peer servername
    match caps with
    | none => .ok (.error, c)
    | some caps => imapAuthenticate c caps user pass

/-- `imap_login` (imap.c:1115-1234).  `peer = none`: the program was built without OpenSSL. -/
def imapLogin (c : LoginConn) (user pass : Option Text) (peer : Option TlsPeer) (servername : Option Text) :
    Res (LoginResult × LoginConn) := do
  let (r, ll) ← waitLine c.plain
  let c := { c with plain := ll }
  match r with
  | none => .ok (.error, c)
  | some l =>
    match l.items with
    | .atom s :: _ =>
      if cstr s = bs "BYE" then .ok (.error, c)
      else if cstr s = bs "PREAUTH" then afterLogin c l
      else if cstr s = bs "OK" then afterGreeting c l user pass peer servername
      else .ok (.error, c)
    | _ => .ok (.error, c)

/-- `imap_start` (imapinterface.c:11-49) on a connection that was made, with the bytes `reads` from it: the connection to be used, or
null.  With `imap_pipe` the name of the server is the one in the rc file, null if there is none. -/
def imapStart (reads : List Text) (user pass : Option Text) (peer : Option TlsPeer) (server : Option Text) : Res (Option LoginConn) := do
  let (r, c) ← imapLogin { plain := { reads := reads } } user pass peer server
  .ok (if r = .ok then some c else none)

end Mairix
