import Verif.Proofs.ImapStory
import Verif.Proofs.ImapAccept

/-!
# C72–C76: logging in to an IMAP server

In all statements `reads` are the bytes a server sends in clear, cut up in any way, and `peer` is what OpenSSL says about the other side
(or `none` for a program without OpenSSL).
-/

namespace Mairix
open Spec

/-! ## C72: what is sent, and when -/

/-- **C72.**  Whatever a server does: mairix only sends the commands `CAPABILITY`, `STARTTLS` and `LOGIN`, the last one at most once and with the name and
the password that were configured; and before it sends them the server has greeted it with `OK`, and among the capabilities in force
were `LITERAL+` and `AUTH=PLAIN`. -/
theorem C72_credentials {reads : List Text} {user pass : Option Text} {peer : Option TlsPeer} {server : Option Text} {res : LoginResult}
    {c : LoginConn} (h : imapLogin { plain := { reads := reads } } user pass peer server = .ok (res, c)) :
    (∀ e ∈ c.log, e.cmd = capabilityCmd ∨ e.cmd = starttlsCmd ∨ ∃ u p, user = some u ∧ pass = some p ∧ e.cmd = loginCmd u p) ∧
    ∀ pre e post, c.log = pre ++ e :: post → (∃ u p, e.cmd = loginCmd u p) →
      (∀ e' ∈ pre ++ post, ¬ ∃ u p, e'.cmd = loginCmd u p) ∧
      ∃ g ll caps, waitLine { reads := reads } = .ok (some g, ll) ∧ Opens g (bs "OK") ∧ InForce g pre caps ∧
        Offers caps (bs "LITERAL+") ∧ Offers caps (bs "AUTH=PLAIN") := by
  have hpart : ∀ pre e post, c.log = pre ++ e :: post → (∃ u p, e.cmd = loginCmd u p) →
      (∀ e' ∈ pre ++ post, ¬ ∃ u p, e'.cmd = loginCmd u p) ∧
      ∃ g ll caps, waitLine { reads := reads } = .ok (some g, ll) ∧ Opens g (bs "OK") ∧ InForce g pre caps ∧
        Offers caps (bs "LITERAL+") ∧ Offers caps (bs "AUTH=PLAIN") := fun pre e post hl he => by
    obtain ⟨g, start, u, p, caps, h1, h2, h3, h4, -, -, -, h5, h6, h7, -⟩ := story_login h hl he
    exact ⟨(h3.append h4).noLogin, g, start, caps, h1, h2, h5, h6, h7⟩
  refine ⟨fun e he => ?_, hpart⟩
  obtain ⟨g, start, h1, -, -, -, h2⟩ := imapLogin_story h
  rcases h2 with ⟨h2, -⟩ | ⟨l, rfl, h2 | h2⟩
  · rw [h2] at he; cases he
  · exact (h2.before e he).elim .inl (fun h => .inr (.inl h))
  · obtain ⟨pre0, e0, post0, u, p, caps, hl, hb, hb', rfl, rfl, he0, -⟩ := h2.story
    rw [hl] at he
    rcases List.mem_append.1 he with he | he
    · exact (hb e he).elim .inl (fun h => .inr (.inl h))
    · rcases List.mem_cons.1 he with rfl | he
      · exact .inr (.inr ⟨u, p, rfl, rfl, he0⟩)
      · exact (hb' e he).elim .inl (fun h => .inr (.inl h))

/-- **C72.**  The login only counts as successful if the server said so: with the greeting `PREAUTH`, or by answering `LOGIN` with `OK`; and
`LITERAL+` is among the capabilities in force.  It only counts as denied if the server answered `LOGIN` with `NO` or there is no name or
password. -/
theorem C72_result {reads : List Text} {user pass : Option Text} {peer : Option TlsPeer} {server : Option Text} {res : LoginResult}
    {c : LoginConn} (h : imapLogin { plain := { reads := reads } } user pass peer server = .ok (res, c)) :
    (res = .ok → ∃ g ll, waitLine { reads := reads } = .ok (some g, ll) ∧ (∃ caps, InForce g c.log caps ∧ Offers caps (bs "LITERAL+")) ∧
      (Opens g (bs "PREAUTH") ∨ ∃ e ∈ c.log, (∃ u p, e.cmd = loginCmd u p) ∧ Exchange.Answered e (bs "OK"))) ∧
    (res = .denied → user = none ∨ pass = none ∨ ∃ e ∈ c.log, (∃ u p, e.cmd = loginCmd u p) ∧ Exchange.Answered e (bs "NO")) := by
  obtain ⟨g, start, h1, -, -, -, h2⟩ := imapLogin_story h
  rcases h2 with ⟨-, rfl⟩ | ⟨l, rfl, h2 | h2⟩
  · exact ⟨fun h => (by cases h), fun h => (by cases h)⟩
  · refine ⟨fun hr => ?_, fun hr => (h2.denied hr).elim .inl (fun h => .inr (.inl h))⟩
    obtain ⟨h3, h4⟩ := h2.ok hr
    exact ⟨l, start, h1, h4, .inl h3⟩
  · obtain ⟨pre, e, post, u, p, caps, hl, -, -, rfl, rfl, he, -, -, -, -, hok, hno⟩ := h2.story
    refine ⟨fun hr => ?_, fun hr => .inr (.inr ⟨e, by simp [hl], ⟨u, p, he⟩, hno hr⟩)⟩
    obtain ⟨h3, h4⟩ := hok hr
    exact ⟨l, start, h1, h4, .inr ⟨e, by simp [hl], ⟨u, p, he⟩, h3⟩⟩

/-- **C72.**  The bytes on the wire are those of the exchanges, with consecutive tags: first those in clear, then the encrypted ones. -/
theorem C72_wire {reads : List Text} {user pass : Option Text} {peer : Option TlsPeer} {server : Option Text} {res : LoginResult}
    {c : LoginConn} (h : imapLogin { plain := { reads := reads } } user pass peer server = .ok (res, c)) :
    ∃ clear secret, c.log = clear ++ secret ∧ (∀ e ∈ clear, e.secure = false) ∧ (∀ e ∈ secret, e.secure = true) ∧
      c.plain.sent = wireFrom 0 clear ∧ ((c.secret.map ImapConn.sent).getD [] = wireFrom clear.length secret) := by
  obtain ⟨g, start, -, h1, h2, ⟨cl, sc, h3, h4, h5, h6, h7, h8⟩, -⟩ := imapLogin_story h
  refine ⟨cl, sc, h3, h4, h5, ?_, ?_⟩
  · rw [h6.wire.2, h1, h2]; simp
  · cases hs : c.secret with
    | none => rw [h7 hs]; rfl
    | some s =>
      obtain ⟨P, -, -, h9⟩ := h8 s hs
      have := h9.wire.2
      rw [h6.wire.1, h1] at this
      simpa using this

/-- A server without encryption: greeting, capabilities, and the answers to `LOGIN` and to `CAPABILITY`. -/
def clearServer : List Text :=
  [bs "* OK ready\r\n* CAPABI", bs "LITY IMAP4rev1 LITERAL+ AUTH=PLAIN\r\nt0 OK done\r\nt1 OK [CAPABILITY LITERAL+] welcome\r\n"]

/-- The login there, with the name `me` and the password `x y`. -/
theorem clearServer_login : ∃ c, imapLogin { plain := { reads := clearServer } } (some (bs "me")) (some (bs "x y")) none none = .ok (.ok, c) ∧
    (c.plain.sent == bs "t0 CAPABILITY\r\nt1 LOGIN \"me\" \"x y\"\r\n" && c.log.length == 2) = true :=
  login_run (by decide +kernel)

example : ∃ c : LoginConn, (∃ e ∈ c.log, (∃ u p, e.cmd = loginCmd u p) ∧ Exchange.Answered e (bs "OK")) ∧
    (∀ e ∈ c.log, e.cmd = capabilityCmd ∨ e.cmd = starttlsCmd ∨ ∃ u p, some (bs "me") = some u ∧ some (bs "x y") = some p ∧ e.cmd = loginCmd u p) ∧
    ∃ clear secret, c.log = clear ++ secret ∧ c.plain.sent = wireFrom 0 clear := by
  obtain ⟨c, h, -⟩ := clearServer_login
  refine ⟨c, ?_, (C72_credentials h).1, ?_⟩
  · obtain ⟨g, ll, h1, -, h2 | h2⟩ := (C72_result h).1 rfl
    · have : waitLine { reads := clearServer } = .ok (some ⟨.untagged, [.atom (bs "OK"), .atom (bs "ready")]⟩,
          { buf := bs "* CAPABI", reads := clearServer.drop 1 }) := by decide +kernel
      rw [this] at h1
      cases h1
      obtain ⟨s, rest, h3, h4⟩ := h2
      simp only [List.cons.injEq, ImapTok.atom.injEq] at h3
      rw [← h3.1] at h4
      exact absurd h4 (by decide)
    · exact h2
  · obtain ⟨cl, sc, h1, -, -, h2, -⟩ := C72_wire h
    exact ⟨cl, sc, h1, h2⟩

/-! ## C73: the password is encrypted -/

/-- **C73 (partial).**  If the password went through the encrypted channel then the other side has shown a certificate that OpenSSL
verified and whose name fits the name of the server, if one is configured.  It goes in clear only if the program was built without OpenSSL, the
server did not offer `STARTTLS`, or it did not accept it.  (Missing: that it does not go in clear in the last case, see
`C73_refused_violation`.) -/
theorem C73_encrypted_partial {reads : List Text} {user pass : Option Text} {peer : Option TlsPeer} {server : Option Text} {res : LoginResult}
    {c : LoginConn} (h : imapLogin { plain := { reads := reads } } user pass peer server = .ok (res, c)) {pre post : List Exchange}
    {e : Exchange} (hl : c.log = pre ++ e :: post) (he : ∃ u p, e.cmd = loginCmd u p) :
    (e.secure = true → ∃ P cn, peer = some P ∧ P.connects = true ∧ P.verified = true ∧ P.commonName = some cn ∧
      ∀ s, server = some s → EndsLike (cstr cn) s) ∧
    (e.secure = false → peer = none ∨
      (∃ g ll caps, waitLine { reads := reads } = .ok (some g, ll) ∧ InForce g pre caps ∧ ¬ Offers caps (bs "STARTTLS")) ∨
      ∃ e' ∈ pre, e'.cmd = starttlsCmd ∧ ¬ Exchange.Answered e' (bs "OK")) := by
  obtain ⟨g, start, u, p, caps, h1, -, -, -, -, -, -, -, -, -, h2, h3⟩ := story_login h hl he
  refine ⟨fun hs => ?_, fun hs => ?_⟩
  · obtain ⟨P, -, h4, h5, -⟩ := h2 hs
    obtain ⟨cn, h6⟩ := tlsCheck_success h5
    exact ⟨P, cn, h4, h6⟩
  · rcases h3 hs with h4 | ⟨caps, h4, h5⟩ | h4
    · exact .inl h4
    · exact .inr (.inl ⟨g, start, caps, h1, h4, h5⟩)
    · exact .inr (.inr h4)

/-- A server that offers encryption, up to the moment it begins. -/
def tlsServer : List Text := [bs "* OK [CAPABILITY LITERAL+ STARTTLS AUTH=PLAIN] hi\r\n", bs "t0 OK go\r\n"]

/-- The same server behind the encryption. -/
def tlsGood : TlsPeer where
  connects := true
  verified := true
  commonName := some (bs "*.example.org")
  reads := [bs "* CAPABILITY LITERAL+ AUTH=PLAIN\r\nt1 OK\r\nt2 ", bs "OK [CAPABILITY LITERAL+] in\r\n"]

theorem tlsServer_login : ∃ c, imapLogin { plain := { reads := tlsServer } } (some (bs "me")) (some (bs "xy")) (some tlsGood)
      (some (bs "Mail.Example.org")) = .ok (.ok, c) ∧
    (c.plain.sent == bs "t0 STARTTLS\r\n" && c.secret.map ImapConn.sent == some (bs "t1 CAPABILITY\r\nt2 LOGIN \"me\" \"xy\"\r\n") &&
      c.log.map (fun e => (e.secure, e.cmd)) == [(false, starttlsCmd), (true, capabilityCmd), (true, loginCmd (bs "me") (bs "xy"))] &&
      c.plain.buf == []) = true :=
  login_run (by decide +kernel)

example : ∃ P cn, some tlsGood = some P ∧ P.connects = true ∧ P.verified = true ∧ P.commonName = some cn ∧
    ∀ s, some (bs "Mail.Example.org") = some s → EndsLike (cstr cn) s := by
  obtain ⟨c, h, hp⟩ := tlsServer_login
  simp only [Bool.and_eq_true, beq_iff_eq] at hp
  obtain ⟨⟨-, hp⟩, -⟩ := hp
  obtain ⟨a, l1, hl, -, hp⟩ := List.map_eq_cons_iff.1 hp
  obtain ⟨b, l2, rfl, -, hp⟩ := List.map_eq_cons_iff.1 hp
  obtain ⟨e, l3, rfl, he, -⟩ := List.map_eq_cons_iff.1 hp
  simp only [Prod.mk.injEq] at he
  exact (C73_encrypted_partial h (pre := [a, b]) (post := l3) (e := e) hl ⟨_, _, he.2⟩).1 he.1

/-- **C73, violation.**  A server, or somebody in between, that offers `STARTTLS` and then answers it with `NO` gets the password in
clear, although encryption is possible (imap.c:888-898, 1168-1169). -/
theorem C73_refused_violation : ∃ c, imapLogin
      { plain := { reads := [bs "* OK [CAPABILITY LITERAL+ STARTTLS AUTH=PLAIN] hi\r\n", bs "t0 NO later\r\n", bs "t1 NO sorry\r\n"] } }
      (some (bs "me")) (some (bs "xy")) (some tlsGood) (some (bs "mail.example.org")) = .ok (.denied, c) ∧
    (c.plain.sent == bs "t0 STARTTLS\r\nt1 LOGIN \"me\" \"xy\"\r\n") = true :=
  login_run (by decide +kernel)

/-- **C73, violation.**  After the greeting `PREAUTH` no encryption is used, although the server offers it: all mail that is stored
afterwards goes in clear (imap.c:1147-1153). -/
theorem C73_preauth_violation : ∃ c, imapLogin
      { plain := { reads := [bs "* PREAUTH [CAPABILITY LITERAL+ STARTTLS AUTH=PLAIN] hi\r\n"] } }
      (some (bs "me")) (some (bs "xy")) (some tlsGood) (some (bs "mail.example.org")) = .ok (.ok, c) ∧
    (c.secret == none && c.log == []) = true :=
  login_run (by decide +kernel)

/-- **C73, violation.**  The password is sent in clear although the server said that it must not be (`LOGINDISABLED`; RFC 3501, 6.2.3:
a client must not send `LOGIN` then). -/
theorem C73_disabled_violation : ∃ c, imapLogin
      { plain := { reads := [bs "* OK [CAPABILITY LITERAL+ AUTH=PLAIN LOGINDISABLED] hi\r\n", bs "t0 NO sorry\r\n"] } }
      (some (bs "me")) (some (bs "xy")) none none = .ok (.denied, c) ∧
    (c.plain.sent == bs "t0 LOGIN \"me\" \"xy\"\r\n") = true :=
  login_run (by decide +kernel)

/-! ## C74: the name in the certificate -/

/-- **C74.**  A certificate that names the server is accepted. -/
theorem C74_accepts {cn server : Text} (h : NamesServer cn server) : certNameOk cn (some server) = true := by
  rw [certNameOk_iff]
  rcases h with h | ⟨d, label, d', rfl, rfl, -, h⟩
  · exact .inl h
  · refine .inr ⟨bs "." ++ d, label, bs "." ++ d', rfl, by simp, ?_⟩
    simp only [lower, List.map_append] at h ⊢
    rw [h]

/-- **C74 (partial).**  If a certificate is accepted then it names the server, provided that it does not begin with an asterisk, or begins with an
asterisk and a dot.  (Missing: other names with an asterisk, see `C74_asterisk_violation`.) -/
theorem C74_names_partial {cn server : Text} (hcn : ∀ rest, cn = bs "*" ++ rest → ∃ d, rest = bs "." ++ d)
    (hs : ∀ rest, server ≠ bs "." ++ rest) (h : certNameOk cn (some server) = true) : NamesServer cn server := by
  rw [certNameOk_iff] at h
  rcases h with h | ⟨e, p, e', rfl, rfl, h⟩
  · exact .inl h
  · obtain ⟨d, rfl⟩ := hcn e rfl
    cases e' with
    | nil => simp [lower, bs] at h
    | cons x d' =>
      have h1 : x = 46 ∧ lower d = lower d' := by
        have h2 : toLower 46 :: lower d = toLower x :: lower d' := h
        simp only [List.cons.injEq] at h2
        refine ⟨?_, h2.2⟩
        have : ∀ x : UInt8, toLower 46 = toLower x → x = 46 := by
          intro x; revert x; apply forall_byte; decide +kernel
        exact this x h2.1
      obtain ⟨rfl, h1⟩ := h1
      refine .inr ⟨d, p, d', rfl, by simp [bs], ?_, h1⟩
      rintro rfl
      exact hs d' rfl

example : NamesServer (bs "*.Example.org") (bs "mail.example.ORG") := by
  refine C74_names_partial (fun rest h => ⟨bs "Example.org", ?_⟩) (fun rest h => ?_) (by decide)
  · have h1 : rest = (bs "*.Example.org").drop 1 := by rw [h]; rfl
    exact h1.trans (by decide)
  · have h1 := congrArg List.head? h
    rw [show (bs "mail.example.ORG").head? = some 109 from by decide, show (bs "." ++ rest).head? = some 46 from rfl] at h1
    exact absurd h1 (by decide)

example : certNameOk (bs "mail.example.org") (some (bs "MAIL.example.org")) = true ∧
    certNameOk (bs "*.example.org") (some (bs "example.org")) = false ∧ certNameOk (bs "mail.example.org") (some (bs "evil.example.org")) = false := by
  decide

/-- **C74, violation.**  The certificate `*` is accepted for every server, and `*bank.example` for `notmybank.example`: the asterisk
need not stand for a whole part of the name (imap.c:958-970). -/
theorem C74_asterisk_violation : (∀ server, certNameOk (bs "*") (some server) = true) ∧ ¬ NamesServer (bs "*") (bs "mail.example.org") ∧
    certNameOk (bs "*bank.example") (some (bs "notmybank.example")) = true ∧ ¬ NamesServer (bs "*bank.example") (bs "notmybank.example") := by
  have hne : ∀ {a b : Text}, lower a ≠ lower b → (∀ d, a ≠ bs "*." ++ d) → ¬ NamesServer a b := by
    rintro a b h1 h2 (h | ⟨d, -, -, h, -⟩)
    · exact h1 h
    · exact h2 d h
  refine ⟨fun server => certNameOk_iff.2 (.inr ⟨[], server, [], rfl, by simp, rfl⟩), hne (by decide) (fun d h => ?_), by decide,
    hne (by decide) (fun d h => ?_)⟩
  · have : (42 : UInt8) :: ([] : Text) = 42 :: 46 :: d := h
    cases this
  · have : (42 : UInt8) :: 98 :: bs "ank.example" = 42 :: 46 :: d := h
    cases this

/-! ## C75: after the beginning of the encryption only encrypted answers count -/

/-- **C75 (partial).**  Provided that nothing was left in the buffer when the encryption began, the answers to all commands that went
through the encrypted channel are those that came through it.  (Missing: that nothing is left, see `C75_injection_violation`.) -/
theorem C75_answers_partial {reads : List Text} {user pass : Option Text} {peer : Option TlsPeer} {server : Option Text} {res : LoginResult}
    {c : LoginConn} (h : imapLogin { plain := { reads := reads } } user pass peer server = .ok (res, c)) {s : ImapConn}
    (hs : c.secret = some s) (hb : c.plain.buf = []) :
    ∃ P clear secret, peer = some P ∧ c.log = clear ++ secret ∧ (∀ e ∈ clear, e.secure = false) ∧ (∀ e ∈ secret, e.secure = true) ∧
      Replays { reads := P.reads, next := clear.length } secret s := by
  obtain ⟨g, start, -, h1, h2, ⟨cl, sc, h3, h4, h5, h6, h7, h8⟩, -⟩ := imapLogin_story h
  obtain ⟨P, h9, -, h10⟩ := h8 s hs
  refine ⟨P, cl, sc, h9, h3, h4, h5, ?_⟩
  have : ({ c.plain with reads := P.reads, sent := [] } : ImapConn) = { reads := P.reads, next := cl.length } := by
    have h11 := h6.wire.1
    simp [hb, h11, h1]
  rwa [this] at h10

example : ∃ (c : LoginConn) (s : ImapConn) (clear secret : List Exchange), c.secret = some s ∧ c.log = clear ++ secret ∧ Replays { reads := tlsGood.reads, next := clear.length } secret s := by
  obtain ⟨c, h, hp⟩ := tlsServer_login
  simp only [Bool.and_eq_true, beq_iff_eq] at hp
  cases hs : c.secret with
  | none => rw [hs] at hp; exact absurd hp.1.1.2 (by simp)
  | some s =>
    obtain ⟨P, cl, sc, h1, h2, -, -, h3⟩ := C75_answers_partial h hs hp.2
    cases h1
    exact ⟨c, s, cl, sc, hs, h2, h3⟩

/-- **C75, violation.**  What somebody in between appends in clear to the answer to `STARTTLS` stays in the buffer and counts as the answers to
the encrypted commands: here the server itself says nothing at all, and the login counts as successful (imap.c:249, 976-978). -/
theorem C75_injection_violation : ∃ c, imapLogin
      { plain := { reads := [bs "* OK [CAPABILITY LITERAL+ STARTTLS AUTH=PLAIN] hi\r\n",
        bs "t0 OK go\r\n* CAPABILITY LITERAL+ AUTH=PLAIN\r\nt1 OK\r\nt2 OK [CAPABILITY LITERAL+] in\r\n"] } }
      (some (bs "me")) (some (bs "xy")) (some { tlsGood with reads := [] }) (some (bs "mail.example.org")) = .ok (.ok, c) ∧
    (c.log.map (fun e => (e.secure, e.cmd)) == [(false, starttlsCmd), (true, capabilityCmd), (true, loginCmd (bs "me") (bs "xy"))]) = true :=
  login_run (by decide +kernel)

/-! ## C76: a server that accepts the login -/

/-- A greeting `* OK …`. -/
structure IsGreeting (g : Response) : Prop where
  wf : g.Wf
  tag : g.tag = none
  first : g.first = .atom (bs "OK")

/-- The login after the greeting and the capabilities. -/
theorem login_greeted {reads : List Text} {g : Response} {caps : List RespTok} {more rest : Text} {n : Nat} (hr : ∀ x ∈ reads, x ≠ [])
    (hg : IsGreeting g) (h0 : Learns g 0 more caps n) (hs : reads.flatten = g.bytes ++ more ++ rest)
    (user pass : Option Text) (peer : Option TlsPeer) (server : Option Text) :
    ∃ c : LoginConn, imapLogin { plain := { reads := reads } } user pass peer server = (do
        let (k, c) ← maybeTls c (meants caps) peer server
        match k with
        | none => .ok (.error, c)
        | some caps => imapAuthenticate c caps user pass) ∧
      c.cur.Open ∧ c.cur.stream = rest ∧ c.cur.next = n ∧ c.secret = none ∧ n ≤ 1 := by
  obtain ⟨ll, h1, h2, h3, -, h4⟩ := waitLine_response (ll := { reads := reads }) (r := g) (rest := more ++ rest) hr hg.wf
    (by simp [hg.tag]) (by simp [ImapConn.stream, hs])
  obtain ⟨c, h5, h6, h7, h8, h9, hne⟩ := learns_caps (c := { plain := ll }) (rest := rest) h4 (by simp [LoginConn.cur, h3]) h0
    (by simp [LoginConn.cur, h3]) h2
  refine ⟨c, ?_, h6, h7, h8, by simpa using h9, by cases h0 <;> omega⟩
  have hitems : ∃ more, g.line.items = .atom (bs "OK") :: more := ⟨_, by simp only [Response.line, hg.first, meant, List.singleton_append, List.cons_append]; rfl⟩
  obtain ⟨its, hitems⟩ := hitems
  have hk : cstr (bs "OK") = bs "OK" := by decide
  unfold imapLogin
  rw [h1]
  simp only [bind, Except.bind, hitems, hk]
  rw [if_neg (by decide), if_neg (by decide), if_pos trivial]
  simp only [afterGreeting, h5, bind, Except.bind]
  rw [if_neg (meants_ne hne)]
  rfl

/-- **C76 (partial).**  A server that greets with `OK`, has the needed capabilities, says so in the greeting and in the answer to `LOGIN` or when it is asked, and answers
`LOGIN` with `OK` is logged in to, whatever else it says and however its bytes arrive; and the next response it sends is the next one
that is read.  (Missing: servers that fall silent, see `C76_silent_violation`.) -/
theorem C76_accepted_partial {reads : List Text} {g : Response} {login : Reply} {caps caps' : List RespTok} {more more' rest u p : Text} {n m : Nat}
    (hr : ∀ x ∈ reads, x ≠ []) (hg : IsGreeting g) (h0 : Learns g 0 more caps n) (h1 : login.Is n (bs "OK"))
    (h2 : Learns login.last (n + 1) more' caps' m) (hlit : .atom (bs "LITERAL+") ∈ caps) (hlit' : .atom (bs "LITERAL+") ∈ caps')
    (hauth : .atom (bs "AUTH=PLAIN") ∈ caps) (hu : u.length ≤ 2147483647) (hp : p.length ≤ 2147483647)
    {peer : Option TlsPeer} {server : Option Text} (hpeer : peer = none ∨ ¬ Offers (meants caps) (bs "STARTTLS"))
    (hs : reads.flatten = g.bytes ++ more ++ (login.bytes ++ more' ++ rest)) :
    ∃ c, imapLogin { plain := { reads := reads } } (some u) (some p) peer server = .ok (.ok, c) ∧ c.cur.stream = rest ∧ c.secret = none := by
  obtain ⟨c, h3, h4, h5, h6, h7, hn⟩ := login_greeted hr hg h0 hs (some u) (some p) peer server
  have hm : maybeTls c (meants caps) peer server = .ok (some (meants caps), c) := by
    unfold maybeTls
    cases peer with
    | none => rfl
    | some P =>
      have hno : ¬ Offers (meants caps) (bs "STARTTLS") := by simpa using hpeer
      have : haveCapability (meants caps) (bs "STARTTLS") = false := by
        rw [Bool.eq_false_iff]; exact fun h => hno (haveCapability_iff.1 h)
      simp [this]
  obtain ⟨c', h8, h9, h10⟩ := sendLogin_reply (c := c) (u := u) (p := p) (a := login) (rest := rest) (caps := caps') h4 (by omega) hu hp
    (by rw [h6]; exact h1) (by rw [h6]; exact h2) hlit' h5
  refine ⟨c', ?_, h9, by simpa [h7] using h10⟩
  rw [h3, hm]
  simp only [bind, Except.bind, imapAuthenticate, have_meants (by decide) hlit, have_meants (by decide) hauth, if_pos]
  exact h8

/-- **C76 (partial).**  If the server answers `LOGIN` with `NO` then this counts as denied. -/
theorem C76_refused_partial {reads : List Text} {g : Response} {login : Reply} {caps : List RespTok} {more rest u p : Text} {n : Nat}
    (hr : ∀ x ∈ reads, x ≠ []) (hg : IsGreeting g) (h0 : Learns g 0 more caps n) (h1 : login.Is n (bs "NO"))
    (hlit : .atom (bs "LITERAL+") ∈ caps)
    (hauth : .atom (bs "AUTH=PLAIN") ∈ caps) (hu : u.length ≤ 2147483647) (hp : p.length ≤ 2147483647)
    (hs : reads.flatten = g.bytes ++ more ++ (login.bytes ++ rest)) (server : Option Text) :
    ∃ c, imapLogin { plain := { reads := reads } } (some u) (some p) none server = .ok (.denied, c) ∧ c.cur.stream = rest := by
  obtain ⟨c, h3, h4, h5, h6, h7, hn⟩ := login_greeted hr hg h0 hs (some u) (some p) none server
  obtain ⟨c', h8, h9, -⟩ := sendLogin_refused (c := c) (u := u) (p := p) (a := login) (rest := rest) h4 (by omega) hu hp
    (by rw [h6]; exact h1) h5
  refine ⟨c', ?_, h9⟩
  rw [h3]
  simp only [maybeTls, bind, Except.bind, imapAuthenticate, have_meants (by decide) hlit, have_meants (by decide) hauth, if_pos]
  exact h8

/-- **C76 (partial).**  A server that accepts `STARTTLS`, sends nothing further in clear and has a fitting certificate is logged in to
through the encrypted channel. -/
theorem C76_encrypted_partial {reads : List Text} {P : TlsPeer} {g : Response} {tls caps1 login : Reply}
    {caps caps' caps'' : List RespTok} {more more' rest u p w' : Text} {n m : Nat} {server : Option Text}
    (hr : ∀ x ∈ reads, x ≠ []) (hr' : ∀ x ∈ P.reads, x ≠ []) (hg : IsGreeting g) (h0 : Learns g 0 more caps n)
    (htls : .atom (bs "STARTTLS") ∈ caps) (h1 : tls.Is n (bs "OK")) (hP : tlsCheck P server = .success)
    (h2 : caps1.Is (n + 1) w') (ht' : caps1.Tells caps') (h3 : login.Is (n + 2) (bs "OK")) (h4 : Learns login.last (n + 3) more' caps'' m)
    (hlit : .atom (bs "LITERAL+") ∈ caps') (hlit' : .atom (bs "LITERAL+") ∈ caps'')
    (hauth : .atom (bs "AUTH=PLAIN") ∈ caps') (hu : u.length ≤ 2147483647) (hp : p.length ≤ 2147483647)
    (hs : reads.flatten = g.bytes ++ more ++ tls.bytes)
    (hs' : P.reads.flatten = caps1.bytes ++ (login.bytes ++ more' ++ rest)) :
    ∃ c, imapLogin { plain := { reads := reads } } (some u) (some p) (some P) server = .ok (.ok, c) ∧ c.cur.stream = rest ∧
      c.secret.isSome = true := by
  obtain ⟨c, h5, h6, h7, h8, h9, hn⟩ := login_greeted hr hg h0 hs (some u) (some p) (some P) server
  obtain ⟨c1, h10, h11, h12, h13, h14⟩ := command_reply (c := c) (cmd := [.atom (bs "STARTTLS")]) (a := tls) (rest := []) h6
    (by simp only [CmdToks, CmdTok]; decide) (by omega) (by rw [h8]; exact h1) (by rw [h7]; simp)
  have hbuf : c1.cur.buf = [] := (List.append_eq_nil_iff.1 h12).1
  have hst : imapStarttls c P server = .ok (.success, { c1 with secret := some { c1.cur with reads := P.reads, sent := [] } }) := by
    unfold imapStarttls
    rw [h10]
    simp only [bind, Except.bind, reply_status h1, hP]
    rw [if_pos (by decide)]
  have hc1 : c1.cur.next = n + 1 := by omega
  obtain ⟨c2, h15, h16, h17, h18, h19⟩ := askCaps_reply (c := { c1 with secret := some { c1.cur with reads := P.reads, sent := [] } })
    (a := caps1) (w := w') (rest := login.bytes ++ more' ++ rest) (by exact hr') (by show c1.cur.next ≤ 2147483647; omega)
    (by show caps1.Is c1.cur.next w'; rw [hc1]; exact h2) ht'
    (by show c1.cur.buf ++ P.reads.flatten = _; rw [hbuf, List.nil_append, hs'])
  have hn2 : c2.cur.next = n + 2 := h18.trans (by show c1.cur.next + 1 = n + 2; omega)
  obtain ⟨c3, h20, h21, h22⟩ := sendLogin_reply (c := c2) (u := u) (p := p) (a := login) (rest := rest) (caps := caps'') h16 (by omega) hu hp
    (by rw [hn2]; exact h3) (by rw [hn2]; exact h4) hlit' h17
  refine ⟨c3, ?_, h21, by rw [h22, h19]; rfl⟩
  rw [h5]
  have hm : maybeTls c (meants caps) (some P) server = .ok (some (meants caps'), c2) := by
    unfold maybeTls
    simp only [have_meants (by decide) htls, if_pos, hst, bind, Except.bind, h15]
    rw [if_neg (meants_ne ht'.1)]
  rw [hm]
  simp only [bind, Except.bind, imapAuthenticate, have_meants (by decide) hlit, have_meants (by decide) hauth, if_pos]
  exact h20

/-- `* OK ready`. -/
def readyGreeting : Response := ⟨none, .atom (bs "OK"), none, [.atom (bs "ready")]⟩

/-- `tn status done`, after some responses. -/
def doneReply (rs : List Response) (n : Nat) (status : String) : Reply := ⟨rs, ⟨some n, .atom (bs status), none, [.atom (bs "done")]⟩⟩

/-- `* CAPABILITY …`. -/
def capsLine (l : List RespTok) : Response := ⟨none, .atom (bs "CAPABILITY"), none, l⟩

/-- `* 3 EXISTS`. -/
def threeExist : Response := ⟨none, .atom (bs "3"), none, [.atom (bs "EXISTS")]⟩

/-- `IMAP4rev1 LITERAL+ AUTH=PLAIN`. -/
def someCaps : List RespTok := [.atom (bs "IMAP4rev1"), .atom (bs "LITERAL+"), .atom (bs "AUTH=PLAIN")]

theorem doneReply_is {rs : List Response} (h : ∀ r ∈ rs, r.Wf ∧ r.tag = none) (n : Nat) (st : String) (hst : WfTok none (.atom (bs st))) :
    (doneReply rs n st).Is n (bs st) := ⟨h, by
      refine ⟨hst, ?_⟩
      simp only [doneReply, WfTok, WfToks]
      decide, rfl, rfl⟩

theorem someCaps_wf : (capsLine someCaps).Wf ∧ threeExist.Wf ∧ (capsLine (.atom (bs "STARTTLS") :: someCaps)).Wf := by
  simp only [Response.Wf, capsLine, threeExist, someCaps, WfTok, WfToks]
  decide

theorem doneReply_tells {rs : List Response} {l : List RespTok} (hl : l ≠ []) (hrs : rs = [capsLine l] ∨ rs = [threeExist, capsLine l]) (n : Nat) (st : String) :
    (doneReply rs n st).Tells l := by
  refine ⟨hl, ?_⟩
  rcases hrs with rfl | rfl
  · exact ⟨[], capsLine l, [], rfl, rfl, rfl, rfl, by simp⟩
  · refine ⟨[threeExist], capsLine l, [], rfl, rfl, rfl, rfl, fun b hb s h => ?_⟩
    simp only [List.mem_singleton] at hb
    subst hb
    simp only [threeExist, RespTok.atom.injEq] at h
    subst h
    decide

theorem readyGreeting_is : IsGreeting readyGreeting := ⟨by simp only [Response.Wf, readyGreeting, WfTok, WfToks]; decide, rfl, rfl⟩

/-- `* OK [CAPABILITY IMAP4rev1 LITERAL+ AUTH=PLAIN] ready`. -/
def capsGreeting : Response := ⟨none, .atom (bs "OK"), some (.atom (bs "CAPABILITY") :: someCaps), [.atom (bs "ready")]⟩

theorem capsGreeting_is : IsGreeting capsGreeting := ⟨by simp only [Response.Wf, capsGreeting, someCaps, WfTok, WfToks]; decide, rfl, rfl⟩

theorem ok_wf : WfTok none (.atom (bs "OK")) := by simp only [WfTok]; decide

theorem no_wf : WfTok none (.atom (bs "NO")) := by simp only [WfTok]; decide

theorem capsLine_ok {r : Response} (h : r ∈ [threeExist, capsLine someCaps]) : r.Wf ∧ r.tag = none := by
  simp only [List.mem_cons, List.not_mem_nil, or_false] at h
  rcases h with rfl | rfl
  · exact ⟨someCaps_wf.2.1, rfl⟩
  · exact ⟨someCaps_wf.1, rfl⟩

theorem someCaps_told {r : Response} (hr : r.code = none) (n : Nat) :
    Learns r n (doneReply [threeExist, capsLine someCaps] n "OK").bytes someCaps (n + 1) :=
  .asked (fun l h => by rw [hr] at h; cases h) (doneReply_is (fun r hr => capsLine_ok hr) _ _ ok_wf)
    (doneReply_tells (by simp [someCaps]) (.inr rfl) _ _)

example : ∃ c, imapLogin { plain := { reads := [readyGreeting.bytes ++ (doneReply [threeExist, capsLine someCaps] 0 "OK").bytes ++
      ((doneReply [] 1 "OK").bytes ++ (doneReply [threeExist, capsLine someCaps] 2 "OK").bytes ++ [])] } } (some (bs "me")) (some (bs "xy")) none none = .ok (.ok, c) ∧
    c.cur.stream = [] ∧ c.secret = none :=
  C76_accepted_partial (g := readyGreeting) (login := doneReply [] 1 "OK") (by decide) readyGreeting_is (someCaps_told rfl 0)
    (doneReply_is (by simp) _ _ ok_wf) (someCaps_told rfl 2)
    (by simp [someCaps]) (by simp [someCaps]) (by simp [someCaps]) (by decide) (by decide) (.inl rfl) (by simp)

example : ∃ c, imapLogin { plain := { reads := [capsGreeting.bytes ++ [] ++
      ((doneReply [] 0 "OK").bytes ++ (doneReply [threeExist, capsLine someCaps] 1 "OK").bytes ++ [])] } } (some (bs "me")) (some (bs "xy")) none none = .ok (.ok, c) ∧
    c.cur.stream = [] ∧ c.secret = none :=
  C76_accepted_partial (g := capsGreeting) (login := doneReply [] 0 "OK") (by decide) capsGreeting_is (.code rfl (by simp [someCaps]))
    (doneReply_is (by simp) _ _ ok_wf) (someCaps_told rfl 1)
    (by simp [someCaps]) (by simp [someCaps]) (by simp [someCaps]) (by decide) (by decide) (.inl rfl) (by simp)

example : ∃ c, imapLogin { plain := { reads := [readyGreeting.bytes ++ (doneReply [threeExist, capsLine someCaps] 0 "OK").bytes ++
      ((doneReply [] 1 "NO").bytes ++ [])] } } (some (bs "me")) (some (bs "xy")) none none = .ok (.denied, c) ∧ c.cur.stream = [] :=
  C76_refused_partial (g := readyGreeting) (login := doneReply [] 1 "NO")
    (by decide) readyGreeting_is (someCaps_told rfl 0) (doneReply_is (by simp) _ _ no_wf)
    (by simp [someCaps]) (by simp [someCaps]) (by decide) (by decide) (by simp) none

example : ∃ c, imapLogin { plain := { reads := [readyGreeting.bytes, (doneReply [capsLine (.atom (bs "STARTTLS") :: someCaps)] 0 "OK").bytes ++
      (doneReply [] 1 "OK").bytes] } } (some (bs "me")) (some (bs "xy"))
      (some { tlsGood with reads := [(doneReply [capsLine someCaps] 2 "OK").bytes, (doneReply [] 3 "OK").bytes ++ (doneReply [threeExist, capsLine someCaps] 4 "OK").bytes] })
      (some (bs "mail.example.org")) = .ok (.ok, c) ∧
    c.cur.stream = [] ∧ c.secret.isSome = true :=
  C76_encrypted_partial (g := readyGreeting) (more := (doneReply [capsLine (.atom (bs "STARTTLS") :: someCaps)] 0 "OK").bytes) (tls := doneReply [] 1 "OK")
    (caps1 := doneReply [capsLine someCaps] 2 "OK") (login := doneReply [] 3 "OK") (rest := [])
    (by decide) (by decide) readyGreeting_is
    (.asked (fun l h => by cases h) (doneReply_is (fun r hr => (by rw [List.mem_singleton.1 hr]; exact ⟨someCaps_wf.2.2, rfl⟩)) _ _ ok_wf)
      (doneReply_tells (by simp) (.inl rfl) _ _)) (by simp) (doneReply_is (by simp) _ _ ok_wf) (by decide)
    (doneReply_is (fun r hr => capsLine_ok (by simp at hr ⊢; exact .inr hr)) _ _ ok_wf) (doneReply_tells (by simp [someCaps]) (.inl rfl) _ _)
    (doneReply_is (by simp) _ _ ok_wf) (someCaps_told rfl 4)
    (by simp [someCaps]) (by simp [someCaps]) (by simp [someCaps]) (by decide) (by decide) (by simp) (by simp)

/-- **C76, violation.**  A server that closes the connection, or does not answer in time, after the greeting, after `STARTTLS` or after
`LOGIN` makes the program read through a null pointer (imap.c:840, 887, 1049, 1213); so does an empty response to `CAPABILITY`
(imap.c:1052). -/
theorem C76_silent_violation :
    imapLogin { plain := { reads := [bs "* OK hi\r\n"] } } (some (bs "me")) (some (bs "xy")) none none = .error .outOfBounds ∧
    imapLogin { plain := { reads := [bs "* OK [CAPABILITY STARTTLS] hi\r\n"] } } (some (bs "me")) (some (bs "xy")) (some tlsGood) none = .error .outOfBounds ∧
    imapLogin { plain := { reads := [bs "* OK [CAPABILITY LITERAL+ AUTH=PLAIN] hi\r\n"] } } (some (bs "me")) (some (bs "xy")) none none = .error .outOfBounds ∧
    imapLogin { plain := { reads := [bs "* OK hi\r\n* \r\n* CAPABILITY LITERAL+ AUTH=PLAIN\r\nt0 OK\r\n"] } } (some (bs "me")) (some (bs "xy")) none none = .error .outOfBounds := by
  decide +kernel

end Mairix
