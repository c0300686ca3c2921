import Verif.Spec.ImapLogin
import Verif.Proofs.ImapCommand

/-!
# Proofs about the login
-/

namespace Mairix
open Spec

/-! ## Connections -/

theorem waitLine_keeps {ll : ImapConn} {r : Option ImapLine} {ll' : ImapConn} (h : waitLine ll = .ok (r, ll')) :
    ll'.next = ll.next ∧ ll'.sent = ll.sent := by
  unfold waitLine at h
  obtain ⟨⟨r1, b1, rs1⟩, -, h⟩ := res_bind_ok h
  simp only [Except.ok.injEq, Prod.mk.injEq] at h
  obtain ⟨-, rfl⟩ := h
  exact ⟨rfl, rfl⟩

theorem collectLines_keeps : ∀ (fuel : Nat) {ll : ImapConn} {acc : List ImapLine} {r : Option (List ImapLine)} {ll' : ImapConn},
    collectLines fuel ll acc = .ok (r, ll') → ll'.next = ll.next ∧ ll'.sent = ll.sent
  | 0, _, _, _, _, h => by cases h
  | fuel + 1, ll, acc, r, ll', h => by
    rw [collectLines_succ] at h
    obtain ⟨⟨r1, l1⟩, h1, h⟩ := res_bind_ok h
    have hk := waitLine_keeps h1
    cases r1 with
    | none => simp only [Except.ok.injEq, Prod.mk.injEq] at h; obtain ⟨-, rfl⟩ := h; exact hk
    | some l =>
      simp only at h
      split at h
      · simp only [Except.ok.injEq, Prod.mk.injEq] at h; obtain ⟨-, rfl⟩ := h; exact hk
      · have := collectLines_keeps fuel h
        exact ⟨this.1.trans hk.1, this.2.trans hk.2⟩

theorem imapCommand_keeps {ll ll' : ImapConn} {cmd : List ImapTok} {r : Option (List ImapLine)} (h : imapCommand ll cmd = .ok (r, ll')) :
    ll'.next = ll.next + 1 ∧ ll'.sent = ll.sent ++ commandBytes ll.next cmd := by
  unfold imapCommand at h
  split at h
  · cases h
  · split at h
    · cases h
    · simpa using collectLines_keeps _ h

theorem wireFrom_append (n : Nat) (a b : List Exchange) : wireFrom n (a ++ b) = wireFrom n a ++ wireFrom (n + a.length) b := by
  induction a generalizing n with
  | nil => simp [wireFrom]
  | cons e a ih => simp [wireFrom, ih]; congr 1; omega

theorem Spec.Replays.wire {s s' : ImapConn} {es : List Exchange} (h : Replays s es s') :
    s'.next = s.next + es.length ∧ s'.sent = s.sent ++ wireFrom s.next es := by
  induction h with
  | nil => simp [wireFrom]
  | snoc _ h2 ih =>
    obtain ⟨h3, h4⟩ := imapCommand_keeps h2
    refine ⟨by simp [h3, ih.1]; omega, ?_⟩
    rw [h4, ih.1, ih.2, wireFrom_append]
    simp [wireFrom]

/-! ## The state of the connection -/

/-- The exchanges are those of the channel in clear followed by those of the encrypted channel, which begins with the buffer of the
other one. -/
def Sound (start : ImapConn) (peer : Option TlsPeer) (server : Option Text) (c : LoginConn) : Prop :=
  ∃ cl sc, c.log = cl ++ sc ∧ (∀ e ∈ cl, e.secure = false) ∧ (∀ e ∈ sc, e.secure = true) ∧ Replays start cl c.plain ∧
    (c.secret = none → sc = []) ∧
    ∀ s, c.secret = some s → ∃ P, peer = some P ∧ tlsCheck P server = .success ∧
      Replays { c.plain with reads := P.reads, sent := [] } sc s

theorem Sound.command {start : ImapConn} {peer : Option TlsPeer} {server : Option Text} {c c' : LoginConn} {cmd : List ImapTok} {r}
    (h : Sound start peer server c) (hc : c.command cmd = .ok (r, c')) :
    Sound start peer server c' ∧ c'.log = c.log ++ [⟨c.secret.isSome, cmd, r⟩] ∧ c'.secret.isSome = c.secret.isSome := by
  unfold LoginConn.command at hc
  obtain ⟨⟨r1, ll⟩, h1, hc⟩ := res_bind_ok hc
  obtain ⟨cl, sc, hl, hcl, hsc, hr, hn, hs⟩ := h
  simp only at hc
  cases hsec : c.secret with
  | none =>
    rw [hsec] at hc
    simp only [Option.isSome_none, Except.ok.injEq, Prod.mk.injEq] at hc
    obtain ⟨rfl, rfl⟩ := hc
    refine ⟨⟨cl ++ [⟨false, cmd, r1⟩], [], ?_, ?_, by simp, ?_, by simp, ?_⟩, rfl, by simp [hsec]⟩
    · simp [hl, hn hsec]
    · intro e he
      rcases List.mem_append.1 he with he | he
      · exact hcl e he
      · rw [List.mem_singleton.1 he]
    · refine .snoc hr ?_
      simpa [LoginConn.cur, hsec] using h1
    · intro s h2; simp [hsec] at h2
  | some s0 =>
    rw [hsec] at hc
    simp only [Option.isSome_some, Except.ok.injEq, Prod.mk.injEq] at hc
    obtain ⟨rfl, rfl⟩ := hc
    obtain ⟨P, hp, ht, hrp⟩ := hs s0 hsec
    refine ⟨⟨cl, sc ++ [⟨true, cmd, r1⟩], by simp [hl], hcl, ?_, hr, by simp, ?_⟩, rfl, rfl⟩
    · intro e he
      rcases List.mem_append.1 he with he | he
      · exact hsc e he
      · rw [List.mem_singleton.1 he]
    · intro s h2
      simp only [Option.some.injEq] at h2
      subst h2
      refine ⟨P, hp, ht, .snoc hrp ?_⟩
      simpa [LoginConn.cur, hsec] using h1

/-! ## Capabilities -/

theorem isWord_iff {t : ImapTok} {w : Text} : t.isWord w = true ↔ ∃ s, t = .atom s ∧ cstr s = w := by
  cases t <;> simp [ImapTok.isWord]

theorem leaf_iff {t : ImapTok} {w : Text} : t.leaf = some w ↔ IsNamed w t := by
  cases t <;> simp [ImapTok.leaf, IsNamed]

theorem haveCapability_iff {caps : List ImapTok} {w : Text} : haveCapability caps w = true ↔ Offers caps w := by
  simp [haveCapability, Offers, leaf_iff]

theorem capsInUntagged_ok : ∀ {ls : List ImapLine} {caps : List ImapTok}, capsInUntagged ls = .ok caps → caps ≠ [] →
    ∃ l ∈ ls, l.kind = .untagged ∧ ∃ s, l.items = .atom s :: caps ∧ cstr s = bs "CAPABILITY"
  | [], caps, h, hne => by cases h; exact absurd rfl hne
  | l :: ls, caps, h, hne => by
    unfold capsInUntagged at h
    split at h
    · rename_i hk
      split at h
      · cases h
      · rename_i t rest hi
        split at h
        · rename_i hw
          cases h
          obtain ⟨s, rfl, hs⟩ := isWord_iff.1 hw
          exact ⟨l, by simp, hk, s, hi, hs⟩
        · obtain ⟨l', h1, h2⟩ := capsInUntagged_ok h hne
          exact ⟨l', by simp [h1], h2⟩
    · obtain ⟨l', h1, h2⟩ := capsInUntagged_ok h hne
      exact ⟨l', by simp [h1], h2⟩

theorem askCaps_ok {start : ImapConn} {peer : Option TlsPeer} {server : Option Text} {c c' : LoginConn} {caps : List ImapTok}
    (hS : Sound start peer server c) (h : askCaps c = .ok (caps, c')) :
    Sound start peer server c' ∧ c'.secret.isSome = c.secret.isSome ∧
      ∃ e, c'.log = c.log ++ [e] ∧ e.secure = c.secret.isSome ∧ e.cmd = capabilityCmd ∧ (caps ≠ [] → Exchange.Lists e caps) := by
  unfold askCaps at h
  obtain ⟨⟨r, c1⟩, h1, h⟩ := res_bind_ok h
  obtain ⟨caps1, h2, h⟩ := res_bind_ok h
  cases h
  obtain ⟨hs, hl, hi⟩ := hS.command h1
  refine ⟨hs, hi, _, hl, rfl, rfl, fun hne => ⟨rfl, ?_⟩⟩
  cases r with
  | none => cases h2
  | some ls => exact ⟨ls, rfl, capsInUntagged_ok h2 hne⟩

theorem capsInLine_some {l : ImapLine} {caps : List ImapTok} (h : capsInLine l = some caps) : AnnouncedIn l caps := by
  unfold capsInLine at h
  split at h
  · rename_i a t rest b hi
    split at h
    · rename_i ht
      cases h
      exact ⟨a, t, b, hi, leaf_iff.1 ht⟩
    · cases h
  · cases h

/-- The capabilities after a line that may announce them, with the exchanges that were needed. -/
theorem capsFromGreeting_ok {start : ImapConn} {peer : Option TlsPeer} {server : Option Text} {c c' : LoginConn} {l : ImapLine}
    {caps : List ImapTok} (hS : Sound start peer server c) (h : capsFromGreeting c l = .ok (caps, c')) :
    Sound start peer server c' ∧ c'.secret.isSome = c.secret.isSome ∧
      ((c' = c ∧ AnnouncedIn l caps) ∨
        ∃ e, c'.log = c.log ++ [e] ∧ e.secure = c.secret.isSome ∧ e.cmd = capabilityCmd ∧ (caps ≠ [] → Exchange.Lists e caps)) := by
  unfold capsFromGreeting at h
  cases hl : capsInLine l with
  | some caps1 =>
    rw [hl] at h
    cases h
    exact ⟨hS, rfl, .inl ⟨rfl, capsInLine_some hl⟩⟩
  | none =>
    rw [hl] at h
    obtain ⟨h1, h2, h3⟩ := askCaps_ok hS h
    exact ⟨h1, h2, .inr h3⟩

theorem status_answered {r : Option (List ImapLine)} {w : Text} (h : imapStatus r = .ok w) (hw : w ≠ bs "BAD") (b : Bool) (cmd : List ImapTok) :
    Exchange.Answered ⟨b, cmd, r⟩ w := by
  unfold imapStatus at h
  split at h
  · cases h
  · rename_i ls
    split at h
    · cases h
    · rename_i l hl
      split at h
      · rename_i s rest hi
        cases h
        exact ⟨ls, l, rfl, hl, s, rest, hi, rfl⟩
      · cases h; exact absurd rfl hw

theorem status_not_answered {r : Option (List ImapLine)} {w v : Text} (h : imapStatus r = .ok w) (hw : w ≠ v) (b : Bool) (cmd : List ImapTok) :
    ¬ Exchange.Answered ⟨b, cmd, r⟩ v := by
  rintro ⟨ls, l, hr, hl, s, rest, hi, hs⟩
  simp only at hr
  subst hr
  simp only [imapStatus, hl, hi, Except.ok.injEq] at h
  exact hw (h ▸ hs)

end Mairix
