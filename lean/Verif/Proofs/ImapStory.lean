import Verif.Proofs.ImapLogin

/-!
# The course of a login
-/

namespace Mairix
open Spec

/-- No exchange is a `LOGIN`, and all are commands of a login. -/
def OnlyAsked (es : List Exchange) : Prop := ∀ e ∈ es, e.cmd = capabilityCmd ∨ e.cmd = starttlsCmd

theorem cap_ne_login {u p : Text} : capabilityCmd ≠ loginCmd u p := by simp [capabilityCmd, loginCmd]

theorem tls_ne_login {u p : Text} : starttlsCmd ≠ loginCmd u p := by simp [starttlsCmd, loginCmd]

theorem OnlyAsked.append {a b : List Exchange} (ha : OnlyAsked a) (hb : OnlyAsked b) : OnlyAsked (a ++ b) := fun e he =>
  (List.mem_append.1 he).elim (ha e) (hb e)

theorem OnlyAsked.one {e : Exchange} (h : e.cmd = capabilityCmd ∨ e.cmd = starttlsCmd) : OnlyAsked [e] := fun e' he => by
  rw [List.mem_singleton.1 he]; exact h

/-- How the password went: encrypted, or in clear because of what the server said. -/
def Channel (g : ImapLine) (pre : List Exchange) (peer : Option TlsPeer) (server : Option Text) (secure : Bool) : Prop :=
  (secure = true → ∃ P e, peer = some P ∧ tlsCheck P server = .success ∧ e ∈ pre ∧ e.cmd = starttlsCmd ∧ Exchange.Answered e (bs "OK")) ∧
  (secure = false → peer = none ∨ (∃ caps, InForce g pre caps ∧ ¬ Offers caps (bs "STARTTLS")) ∨
    ∃ e ∈ pre, e.cmd = starttlsCmd ∧ ¬ Exchange.Answered e (bs "OK"))

/-- A login that got as far as `LOGIN`. -/
structure Attempt (g : ImapLine) (user pass : Option Text) (peer : Option TlsPeer) (server : Option Text) (res : LoginResult)
    (c : LoginConn) : Prop where
  opens : Opens g (bs "OK")
  story : ∃ pre e post u p caps, c.log = pre ++ e :: post ∧ OnlyAsked pre ∧ OnlyAsked post ∧ user = some u ∧ pass = some p ∧
    e.cmd = loginCmd u p ∧ InForce g pre caps ∧ Offers caps (bs "LITERAL+") ∧ Offers caps (bs "AUTH=PLAIN") ∧
    Channel g pre peer server e.secure ∧
    (res = .ok → Exchange.Answered e (bs "OK") ∧ ∃ caps', InForce g c.log caps' ∧ Offers caps' (bs "LITERAL+")) ∧
    (res = .denied → Exchange.Answered e (bs "NO"))

/-- A login without a `LOGIN`. -/
structure NoLogin (g : ImapLine) (user pass : Option Text) (res : LoginResult) (c : LoginConn) : Prop where
  before : OnlyAsked c.log
  ok : res = .ok → Opens g (bs "PREAUTH") ∧ ∃ caps, InForce g c.log caps ∧ Offers caps (bs "LITERAL+")
  denied : res = .denied → user = none ∨ pass = none

theorem afterLogin_ok {start : ImapConn} {peer : Option TlsPeer} {server : Option Text} {c c' : LoginConn} {l : ImapLine}
    {res : LoginResult} (hS : Sound start peer server c) (h : afterLogin c l = .ok (res, c')) :
    Sound start peer server c' ∧ res ≠ .denied ∧ ∃ post, c'.log = c.log ++ post ∧ OnlyAsked post ∧
      (res = .ok → ∃ caps, Offers caps (bs "LITERAL+") ∧ ((post = [] ∧ AnnouncedIn l caps) ∨ ∃ e, post = [e] ∧ Exchange.Lists e caps)) := by
  unfold afterLogin at h
  obtain ⟨⟨caps, c1⟩, h1, h⟩ := res_bind_ok h
  obtain ⟨hs, -, h2⟩ := capsFromGreeting_ok hS h1
  have hfin : (caps = [] ∧ res = .error ∧ c' = c1) ∨ (caps ≠ [] ∧ res = loggedIn caps ∧ c' = c1) := by
    simp only at h
    split at h
    · simp only [Except.ok.injEq, Prod.mk.injEq] at h; exact .inl ⟨‹_›, h.1.symm, h.2.symm⟩
    · simp only [Except.ok.injEq, Prod.mk.injEq] at h; exact .inr ⟨‹_›, h.1.symm, h.2.symm⟩
  obtain ⟨hc', hd, hok⟩ : c' = c1 ∧ res ≠ .denied ∧ (res = .ok → caps ≠ [] ∧ Offers caps (bs "LITERAL+")) := by
    rcases hfin with ⟨-, rfl, rfl⟩ | ⟨hne, rfl, rfl⟩
    · exact ⟨rfl, by decide, fun h => by cases h⟩
    · refine ⟨rfl, ?_, fun h => ⟨hne, ?_⟩⟩
      · unfold loggedIn; split <;> decide
      · unfold loggedIn at h
        split at h
        · exact haveCapability_iff.1 ‹_›
        · cases h
  subst hc'
  refine ⟨hs, hd, ?_⟩
  rcases h2 with ⟨rfl, h3⟩ | ⟨e, h3, -, h4, h5⟩
  · exact ⟨[], by simp, fun e he => (by cases he), fun h => ⟨caps, (hok h).2, .inl ⟨rfl, h3⟩⟩⟩
  · exact ⟨[e], h3, .one (.inl h4), fun h => ⟨caps, (hok h).2, .inr ⟨e, rfl, h5 (hok h).1⟩⟩⟩

theorem sendLogin_ok {start : ImapConn} {g : ImapLine} {peer : Option TlsPeer} {server : Option Text} {c c' : LoginConn} {u p : Text}
    {caps : List ImapTok} {res : LoginResult} (hg : Opens g (bs "OK")) (hS : Sound start peer server c) (hb : OnlyAsked c.log)
    (hf : InForce g c.log caps) (h1 : Offers caps (bs "LITERAL+")) (h2 : Offers caps (bs "AUTH=PLAIN"))
    (hch : Channel g c.log peer server c.secret.isSome) (h : sendLogin c u p = .ok (res, c')) :
    Sound start peer server c' ∧ Attempt g (some u) (some p) peer server res c' := by
  unfold sendLogin at h
  obtain ⟨⟨r, c1⟩, h3, h⟩ := res_bind_ok h
  obtain ⟨hs, hl, hi⟩ := hS.command h3
  obtain ⟨st, h4, h⟩ := res_bind_ok h
  split at h
  · rename_i hst
    subst hst
    split at h
    · cases h
    · rename_i l hlast
      obtain ⟨hs', hd, post, hp1, hp2, hp3⟩ := afterLogin_ok hs h
      refine ⟨hs', hg, c.log, ⟨c.secret.isSome, loginCmd u p, r⟩, post, u, p, caps, ?_, hb, hp2, rfl, rfl, rfl, hf, h1, h2, hch, fun hr => ?_, fun hr => absurd hr hd⟩
      · rw [hp1, hl]; simp [loginCmd]
      · refine ⟨status_answered h4 (by decide) _ _, ?_⟩
        obtain ⟨caps', hc1, hc2⟩ := hp3 hr
        refine ⟨caps', ?_, hc1⟩
        rcases hc2 with ⟨rfl, ha⟩ | ⟨e, rfl, he⟩
        · rw [hp1, List.append_nil, hl]
          cases r with
          | none => cases hlast
          | some ls => exact .announced rfl hlast ha
        · rw [hp1]
          exact .listed he
  · split at h
    · rename_i hno
      subst hno
      simp only [Except.ok.injEq, Prod.mk.injEq] at h
      obtain ⟨rfl, rfl⟩ := h
      exact ⟨hs, hg, c.log, ⟨c.secret.isSome, loginCmd u p, r⟩, [], u, p, caps, hl, hb, fun e he => (by cases he), rfl, rfl, rfl, hf, h1, h2, hch,
        fun hr => (by cases hr), fun _ => status_answered h4 (by decide) _ _⟩
    · simp only [Except.ok.injEq, Prod.mk.injEq] at h
      obtain ⟨rfl, rfl⟩ := h
      exact ⟨hs, hg, c.log, ⟨c.secret.isSome, loginCmd u p, r⟩, [], u, p, caps, hl, hb, fun e he => (by cases he), rfl, rfl, rfl, hf, h1, h2, hch,
        fun hr => (by cases hr), fun hr => (by cases hr)⟩

theorem imapAuthenticate_ok {start : ImapConn} {g : ImapLine} {peer : Option TlsPeer} {server : Option Text} {c c' : LoginConn}
    {user pass : Option Text} {caps : List ImapTok} {res : LoginResult} (hg : Opens g (bs "OK")) (hS : Sound start peer server c)
    (hb : OnlyAsked c.log) (hf : InForce g c.log caps) (hch : Channel g c.log peer server c.secret.isSome)
    (h : imapAuthenticate c caps user pass = .ok (res, c')) :
    Sound start peer server c' ∧ (NoLogin g user pass res c' ∨ Attempt g user pass peer server res c') := by
  unfold imapAuthenticate at h
  split at h
  · rename_i h1
    split at h
    · split at h
      · rename_i h2
        obtain ⟨h3, h4⟩ := sendLogin_ok hg hS hb hf (haveCapability_iff.1 h1) (haveCapability_iff.1 h2) hch h
        exact ⟨h3, .inr h4⟩
      · cases h
        exact ⟨hS, .inl ⟨hb, fun h => (by cases h), fun h => (by cases h)⟩⟩
    · rename_i hn
      cases h
      refine ⟨hS, .inl ⟨hb, fun h => (by cases h), fun _ => ?_⟩⟩
      cases user with
      | none => exact .inl rfl
      | some u =>
        cases pass with
        | none => exact .inr rfl
        | some p => exact absurd rfl (hn u p rfl)
  · cases h
    exact ⟨hS, .inl ⟨hb, fun h => (by cases h), fun h => (by cases h)⟩⟩

theorem imapStarttls_ok {start : ImapConn} {P : TlsPeer} {server : Option Text} {c c' : LoginConn} {x : TlsResult}
    (hS : Sound start (some P) server c) (hn : c.secret = none) (h : imapStarttls c P server = .ok (x, c')) :
    Sound start (some P) server c' ∧ ∃ e, c'.log = c.log ++ [e] ∧ e.cmd = starttlsCmd ∧
      (x = .success → c'.secret.isSome = true ∧ tlsCheck P server = .success ∧ Exchange.Answered e (bs "OK")) ∧
      (x = .failedProceed → c'.secret = none ∧ ¬ Exchange.Answered e (bs "OK")) := by
  unfold imapStarttls at h
  obtain ⟨⟨r, c1⟩, h1, h⟩ := res_bind_ok h
  obtain ⟨hs, hl, hi⟩ := hS.command h1
  have hn1 : c1.secret = none := by rw [hn] at hi; simpa using hi
  obtain ⟨st, h2, h⟩ := res_bind_ok h
  simp only at h
  split at h
  · rename_i hst
    subst hst
    split at h
    · rename_i ht
      simp only [Except.ok.injEq, Prod.mk.injEq] at h
      obtain ⟨rfl, rfl⟩ := h
      refine ⟨?_, _, hl, rfl, fun _ => ⟨rfl, ht, status_answered h2 (by decide) _ _⟩, fun h => by cases h⟩
      obtain ⟨cl, sc, h3, h4, h5, h6, h7, h8⟩ := hs
      refine ⟨cl, [], ?_, h4, (by simp), h6, (by simp), fun s hsm => ⟨P, rfl, ht, ?_⟩⟩
      · simp only; rw [h3, h7 hn1]
      · simp only [Option.some.injEq] at hsm
        subst hsm
        simp only [LoginConn.cur, hn1, Option.getD_none]
        exact .nil
    · rename_i hx
      simp only [Except.ok.injEq, Prod.mk.injEq] at h
      obtain ⟨rfl, rfl⟩ := h
      refine ⟨hs, _, hl, rfl, fun h => absurd h (by simpa using hx), fun h => ?_⟩
      exfalso
      unfold tlsCheck at h
      split at h
      · split at h
        · split at h
          · cases h
          · split at h <;> cases h
        · cases h
      · cases h
  · rename_i hst
    simp only [Except.ok.injEq, Prod.mk.injEq] at h
    obtain ⟨rfl, rfl⟩ := h
    exact ⟨hs, _, hl, rfl, fun h => (by cases h), fun _ => ⟨hn1, status_not_answered h2 hst _ _⟩⟩

theorem maybeTls_ok {start : ImapConn} {g : ImapLine} {peer : Option TlsPeer} {server : Option Text} {c c' : LoginConn}
    {caps : List ImapTok} {caps' : Option (List ImapTok)} (hS : Sound start peer server c) (hn : c.secret = none) (hb : OnlyAsked c.log)
    (hf : InForce g c.log caps) (h : maybeTls c caps peer server = .ok (caps', c')) :
    Sound start peer server c' ∧ OnlyAsked c'.log ∧
      ∀ k, caps' = some k → InForce g c'.log k ∧ Channel g c'.log peer server c'.secret.isSome := by
  unfold maybeTls at h
  split at h
  · cases h
    refine ⟨hS, hb, fun k hk => ?_⟩
    cases hk
    exact ⟨hf, fun h => (by rw [hn] at h; cases h), fun _ => .inl rfl⟩
  · rename_i P
    split at h
    · obtain ⟨⟨x, c1⟩, h1, h⟩ := res_bind_ok h
      obtain ⟨hs, e, hl, he, hsucc, hproc⟩ := imapStarttls_ok hS hn h1
      have hb1 : OnlyAsked c1.log := hl ▸ hb.append (.one (.inr he))
      simp only at h
      split at h
      · cases h
        obtain ⟨h2, h3⟩ := hproc rfl
        refine ⟨hs, hb1, fun k hk => ?_⟩
        cases hk
        refine ⟨hl ▸ .kept hf he h3, fun h => (by rw [h2] at h; cases h), fun _ => .inr (.inr ⟨e, by simp [hl], he, h3⟩)⟩
      · obtain ⟨h2, h3, h4⟩ := hsucc rfl
        obtain ⟨⟨caps1, c2⟩, h5, h⟩ := res_bind_ok h
        obtain ⟨hs2, hi2, e2, hl2, -, he2, hli⟩ := askCaps_ok hs h5
        cases h
        refine ⟨hs2, hl2 ▸ hb1.append (.one (.inl he2)), fun k hk => ?_⟩
        split at hk
        · cases hk
        · rename_i hne
          cases hk
          refine ⟨hl2 ▸ .listed (hli hne), fun _ => ⟨P, e, rfl, h3, by simp [hl2, hl], he, h4⟩, fun h => ?_⟩
          rw [hi2, h2] at h; cases h
      · cases h
        exact ⟨hs, hb1, fun k hk => (by cases hk)⟩
    · rename_i hno
      cases h
      refine ⟨hS, hb, fun k hk => ?_⟩
      cases hk
      exact ⟨hf, fun h => (by rw [hn] at h; cases h), fun _ => .inr (.inl ⟨caps, hf, fun ho => hno (haveCapability_iff.2 ho)⟩)⟩

theorem afterGreeting_ok {start : ImapConn} {g : ImapLine} {peer : Option TlsPeer} {server : Option Text} {c c' : LoginConn}
    {user pass : Option Text} {res : LoginResult} (hg : Opens g (bs "OK")) (hS : Sound start peer server c) (hn : c.secret = none)
    (hl : c.log = []) (h : afterGreeting c g user pass peer server = .ok (res, c')) :
    Sound start peer server c' ∧ (NoLogin g user pass res c' ∨ Attempt g user pass peer server res c') := by
  unfold afterGreeting at h
  obtain ⟨⟨caps, c1⟩, h1, h⟩ := res_bind_ok h
  obtain ⟨hs, hi, h2⟩ := capsFromGreeting_ok hS h1
  have hn1 : c1.secret = none := by rw [hn] at hi; simpa using hi
  obtain ⟨hb, hf⟩ : OnlyAsked c1.log ∧ (caps ≠ [] → InForce g c1.log caps) := by
    rcases h2 with ⟨rfl, h2⟩ | ⟨e, h3, -, h4, h5⟩
    · rw [hl]; exact ⟨fun e he => (by cases he), fun _ => .greeting h2⟩
    · rw [h3]
      exact ⟨OnlyAsked.append (hl ▸ fun e he => by cases he) (.one (.inl h4)), fun hne => .listed (h5 hne)⟩
  simp only at h
  split at h
  · cases h
    exact ⟨hs, .inl ⟨hb, fun h => (by cases h), fun h => (by cases h)⟩⟩
  · rename_i hne
    obtain ⟨⟨caps', c2⟩, h3, h⟩ := res_bind_ok h
    obtain ⟨hs2, hb2, hk⟩ := maybeTls_ok hs hn1 hb (hf hne) h3
    cases caps' with
    | none =>
      cases h
      exact ⟨hs2, .inl ⟨hb2, fun h => (by cases h), fun h => (by cases h)⟩⟩
    | some k =>
      obtain ⟨hf2, hch⟩ := hk k rfl
      exact imapAuthenticate_ok hg hs2 hb2 hf2 hch h

/-- The course of a login: what was sent, and why. -/
theorem imapLogin_story {reads : List Text} {peer : Option TlsPeer} {server : Option Text} {user pass : Option Text} {res : LoginResult}
    {c : LoginConn} (h : imapLogin { plain := { reads := reads } } user pass peer server = .ok (res, c)) :
    ∃ g start, waitLine { reads := reads } = .ok (g, start) ∧ start.next = 0 ∧ start.sent = [] ∧ Sound start peer server c ∧
      ((c.log = [] ∧ res = .error) ∨ ∃ l, g = some l ∧ (NoLogin l user pass res c ∨ Attempt l user pass peer server res c)) := by
  unfold imapLogin at h
  obtain ⟨⟨g, start⟩, h1, h⟩ := res_bind_ok h
  obtain ⟨hk1, hk2⟩ := waitLine_keeps h1
  refine ⟨g, start, h1, hk1, hk2, ?_⟩
  have hS : Sound start peer server { plain := start } := ⟨[], [], rfl, by simp, by simp, .nil, by simp, by simp⟩
  simp only at h
  split at h
  · cases h; exact ⟨hS, .inl ⟨rfl, rfl⟩⟩
  · rename_i l
    split at h
    · rename_i s rest hi
      split at h
      · cases h; exact ⟨hS, .inl ⟨rfl, rfl⟩⟩
      · split at h
        · rename_i hp
          obtain ⟨hs, hd, post, h2, h3, h4⟩ := afterLogin_ok hS h
          simp only [List.nil_append] at h2
          refine ⟨hs, .inr ⟨l, rfl, .inl ⟨h2 ▸ h3, fun hr => ?_, fun hr => absurd hr hd⟩⟩⟩
          obtain ⟨caps, h5, h6⟩ := h4 hr
          refine ⟨⟨s, rest, hi, hp⟩, caps, ?_, h5⟩
          rcases h6 with ⟨rfl, h6⟩ | ⟨e, rfl, h6⟩
          · rw [h2]; exact .greeting h6
          · rw [h2]; exact .listed (es := []) h6
        · split at h
          · rename_i ho
            obtain ⟨h2, h3⟩ := afterGreeting_ok ⟨s, rest, hi, ho⟩ hS rfl rfl h
            exact ⟨h2, .inr ⟨l, rfl, h3⟩⟩
          · cases h; exact ⟨hS, .inl ⟨rfl, rfl⟩⟩
    · cases h; exact ⟨hS, .inl ⟨rfl, rfl⟩⟩

theorem OnlyAsked.noLogin {es : List Exchange} (hb : OnlyAsked es) : ∀ e ∈ es, ¬ ∃ u p, e.cmd = loginCmd u p := by
  rintro e he ⟨u, p, hc⟩
  rcases hb e he with h | h
  · exact cap_ne_login (h.symm.trans hc)
  · exact tls_ne_login (h.symm.trans hc)

/-- The `LOGIN` of a login. -/
theorem story_login {reads : List Text} {peer : Option TlsPeer} {server : Option Text} {user pass : Option Text} {res : LoginResult}
    {c : LoginConn} (h : imapLogin { plain := { reads := reads } } user pass peer server = .ok (res, c)) {pre post : List Exchange} {e : Exchange}
    (hl : c.log = pre ++ e :: post) (he : ∃ u p, e.cmd = loginCmd u p) :
    ∃ g start u p caps, waitLine { reads := reads } = .ok (some g, start) ∧ Opens g (bs "OK") ∧ OnlyAsked pre ∧ OnlyAsked post ∧ user = some u ∧
      pass = some p ∧ e.cmd = loginCmd u p ∧ InForce g pre caps ∧ Offers caps (bs "LITERAL+") ∧ Offers caps (bs "AUTH=PLAIN") ∧
      Channel g pre peer server e.secure := by
  obtain ⟨g, start, h1, -, -, -, h2⟩ := imapLogin_story h
  rcases h2 with ⟨h2, -⟩ | ⟨l, rfl, h2 | h2⟩
  · rw [h2] at hl; simp at hl
  · exact absurd he (h2.before.noLogin e (by simp [hl]))
  · obtain ⟨pre0, e0, post0, u, p, caps, hl', hb, hb', rfl, rfl, he0, hf, h3, h4, h5, -⟩ := h2.story
    obtain ⟨rfl, rfl, rfl⟩ : pre = pre0 ∧ e = e0 ∧ post = post0 := by
      rw [hl'] at hl
      rcases List.append_eq_append_iff.1 hl with ⟨t, h5, h6⟩ | ⟨t, h5, h6⟩
      · cases t with
        | nil => simp at h5 h6; exact ⟨h5, h6.1.symm, h6.2.symm⟩
        | cons x t =>
          simp only [List.cons_append, List.cons.injEq] at h6
          exact absurd he (hb'.noLogin e (by rw [h6.2]; simp))
      · cases t with
        | nil => simp at h5 h6; exact ⟨h5.symm, h6.1, h6.2⟩
        | cons x t =>
          exact absurd he (hb.noLogin e (by rw [h5]; simp only [List.cons_append, List.cons.injEq] at h6; simp [h6.1]))
    exact ⟨l, start, u, p, caps, h1, h2.opens, hb, hb', rfl, rfl, he0, hf, h3, h4, h5⟩

/-! ## The name in the certificate -/

theorem certNameOk_iff {cn s : Text} : certNameOk cn (some s) = true ↔ EndsLike cn s := by
  unfold certNameOk EndsLike
  simp only
  by_cases h : lower cn = lower s
  · simp [h]
  · have h' : (lower cn == lower s) = false := by simpa using h
    rw [h']
    simp only [Bool.false_eq_true, if_false, h, false_or]
    constructor
    · intro h1
      split at h1
      · rename_i rest
        simp only [Bool.and_eq_true, decide_eq_true_eq, beq_iff_eq] at h1
        exact ⟨rest, s.take (s.length - rest.length), s.drop (s.length - rest.length), rfl, (List.take_append_drop _ _).symm, h1.2⟩
      · cases h1
    · rintro ⟨e, p, e', rfl, rfl, h1⟩
      have hlen : e.length = e'.length := by simpa [lower] using congrArg List.length h1
      show (match (42 :: e : Text) with
        | 42 :: rest => decide (rest.length ≤ (p ++ e').length) && lower rest == lower ((p ++ e').drop ((p ++ e').length - rest.length))
        | _ => false) = true
      simp only [Bool.and_eq_true, decide_eq_true_eq, beq_iff_eq]
      refine ⟨by simp; omega, ?_⟩
      rw [h1]
      congr 1
      rw [List.length_append, hlen, Nat.add_sub_cancel, List.drop_left]

theorem tlsCheck_success {P : TlsPeer} {server : Option Text} (h : tlsCheck P server = .success) :
    ∃ cn, P.connects = true ∧ P.verified = true ∧ P.commonName = some cn ∧ ∀ s, server = some s → EndsLike (cstr cn) s := by
  unfold tlsCheck at h
  split at h
  · split at h
    · split at h
      · cases h
      · rename_i h1 h2 _ cn h3
        split at h
        · rename_i h4
          refine ⟨cn, h1, h2, h3, fun s hs => ?_⟩
          subst hs
          exact certNameOk_iff.1 h4
        · cases h
    · cases h
  · cases h

/-- A login that was run. -/
theorem login_run {x : Res (LoginResult × LoginConn)} {res : LoginResult} {p : LoginConn → Bool}
    (h : (match x with
      | .ok (r, c) => decide (r = res) && p c
      | .error _ => false) = true) : ∃ c, x = .ok (res, c) ∧ p c = true := by
  match x, h with
  | .ok (r, c), h =>
    simp only [Bool.and_eq_true, decide_eq_true_eq] at h
    exact ⟨c, by rw [h.1], h.2⟩

end Mairix
