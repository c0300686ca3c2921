import Verif.Proofs.ImapLogin
import Verif.Props.ImapLine

/-!
# A server that accepts the login
-/

namespace Mairix
open Spec

/-- The lines of a reply. -/
def replyLines (a : Reply) : List ImapLine := a.rs.map Response.line ++ [a.last.line]

theorem command_reply {c : LoginConn} {cmd : List ImapTok} {a : Reply} {w rest : Text} (ho : c.cur.Open) (hc : CmdToks cmd)
    (hn : c.cur.next ≤ 2147483647) (ha : a.Is c.cur.next w) (hs : c.cur.stream = a.bytes ++ rest) :
    ∃ c', c.command cmd = .ok (some (replyLines a), c') ∧ c'.cur.Open ∧ c'.cur.stream = rest ∧ c'.cur.next = c.cur.next + 1 ∧
      c'.secret.isSome = c.secret.isSome := by
  obtain ⟨ll', h1, h2, h3, h4, -⟩ := C64_command_partial (rest := rest) ho hn hc ha.untagged ha.wf ha.tag (by rw [hs]; rfl)
  unfold LoginConn.command
  rw [h1]
  cases hsec : c.secret with
  | none => exact ⟨_, rfl, by simpa [LoginConn.cur, hsec] using h3, by simpa [LoginConn.cur, hsec] using h2, by simpa [LoginConn.cur, hsec] using h4, by simp [hsec]⟩
  | some s => exact ⟨_, rfl, by simpa [LoginConn.cur, hsec] using h3, by simpa [LoginConn.cur, hsec] using h2, by simpa [LoginConn.cur, hsec] using h4, by simp⟩

theorem reply_status {a : Reply} {n : Nat} {w : Text} (h : a.Is n w) : imapStatus (some (replyLines a)) = .ok (cstr w) := by
  simp [imapStatus, replyLines, Response.line, h.status, meant]

theorem reply_last {a : Reply} : (some (replyLines a)).bind List.getLast? = some a.last.line := by simp [replyLines]

theorem meants_eq (l : List RespTok) : meants l = l.map meant := by
  induction l with
  | nil => simp [meants]
  | cons t l ih => simp [meants, ih]

theorem capsInLine_none {r : Response} (h : ∀ l, r.code = some l → ∀ s, l.head? = some (.atom s) ∨ l.head? = some (.quoted s) ∨
    l.head? = some (.literal s) → cstr s ≠ bs "CAPABILITY") : capsInLine r.line = none := by
  unfold capsInLine Response.line
  cases hc : r.code with
  | none =>
    simp only [List.append_nil, List.singleton_append]
    split
    · rename_i a t rest b hi
      simp only [List.cons.injEq] at hi
      obtain ⟨-, hi⟩ := hi
      cases hr : r.rest with
      | nil => rw [hr] at hi; simp [meants] at hi
      | cons x xs =>
        rw [hr] at hi
        simp only [meants, List.cons.injEq] at hi
        cases x <;> simp [meant] at hi
    · rfl
  | some l =>
    simp only [List.singleton_append, List.cons_append, List.nil_append]
    cases l with
    | nil => simp [meants]
    | cons t l =>
      simp only [meants]
      rw [if_neg]
      intro ht
      cases t with
      | list l' => simp [meant, ImapTok.leaf] at ht
      | atom s => exact h _ hc s (.inl rfl) (by simpa [meant, ImapTok.leaf] using ht)
      | quoted s => exact h _ hc s (.inr (.inl rfl)) (by simpa [meant, ImapTok.leaf] using ht)
      | literal s => exact h _ hc s (.inr (.inr rfl)) (by simpa [meant, ImapTok.leaf] using ht)

theorem capsInLine_code {r : Response} {caps : List RespTok} (h : r.code = some (.atom (bs "CAPABILITY") :: caps)) :
    capsInLine r.line = some (meants caps) := by
  unfold capsInLine Response.line
  simp [h, meants, meant, ImapTok.leaf, show cstr (bs "CAPABILITY") = bs "CAPABILITY" from by decide]

theorem meant_isWord {t : RespTok} {w : Text} : (meant t).isWord w = true ↔ ∃ s, t = .atom s ∧ cstr s = w := by
  cases t <;> simp [meant, ImapTok.isWord]

theorem capsInUntagged_reply {tail : List ImapLine} : ∀ {pre : List Response} {r : Response} {post : List Response},
    (∀ x ∈ pre ++ r :: post, x.tag = none) → r.first = .atom (bs "CAPABILITY") → r.code = none →
    (∀ b ∈ pre, ∀ s, b.first = .atom s → cstr s ≠ bs "CAPABILITY") →
    capsInUntagged ((pre ++ r :: post).map Response.line ++ tail) = .ok (meants r.rest)
  | [], r, post, ht, h1, h2, _ => by
    have : r.tag = none := ht r (by simp)
    simp only [List.nil_append, List.map_cons, List.cons_append, capsInUntagged, Response.line, this, h1, h2]
    simp [meant, ImapTok.isWord, show cstr (bs "CAPABILITY") = bs "CAPABILITY" from by decide]
  | b :: pre, r, post, ht, h1, h2, h3 => by
    have hb : b.tag = none := ht b (by simp)
    have ih := capsInUntagged_reply (tail := tail) (pre := pre) (r := r) (post := post) (fun x hx => ht x (List.mem_cons_of_mem _ hx)) h1 h2
      (fun b hb => h3 b (by simp [hb]))
    have hw : (meant b.first).isWord (bs "CAPABILITY") = false := by
      rw [Bool.eq_false_iff]
      intro h
      obtain ⟨s, h4, h5⟩ := meant_isWord.1 h
      exact h3 b (by simp) s h4 h5
    rw [List.cons_append, List.map_cons, List.cons_append]
    rw [capsInUntagged]
    rw [if_pos (by simp [Response.line, hb])]
    simp only [Response.line, List.singleton_append, List.cons_append, hw]
    exact ih

theorem askCaps_reply {c : LoginConn} {a : Reply} {w rest : Text} {caps : List RespTok} (ho : c.cur.Open) (hn : c.cur.next ≤ 2147483647)
    (ha : a.Is c.cur.next w) (ht : a.Tells caps) (hs : c.cur.stream = a.bytes ++ rest) :
    ∃ c', askCaps c = .ok (meants caps, c') ∧ c'.cur.Open ∧ c'.cur.stream = rest ∧ c'.cur.next = c.cur.next + 1 ∧
      c'.secret.isSome = c.secret.isSome := by
  obtain ⟨c', h1, h2⟩ := command_reply (cmd := [.atom (bs "CAPABILITY")]) ho (by simp only [CmdToks, CmdTok]; decide) hn ha hs
  refine ⟨c', ?_, h2⟩
  unfold askCaps
  rw [h1]
  obtain ⟨-, pre, r, post, h3, h4, h5, rfl, h6⟩ := ht
  have : capsInAnswer (some (replyLines a)) = .ok (meants r.rest) := by
    have hu : ∀ x ∈ pre ++ r :: post, x.tag = none := fun x hx => (ha.untagged x (h3 ▸ hx)).2
    simp only [capsInAnswer, replyLines, h3]
    exact capsInUntagged_reply hu h4 h5 h6
  simp only [bind, Except.bind, this]

theorem meants_ne {caps : List RespTok} (h : caps ≠ []) : meants caps ≠ [] := by
  cases caps with
  | nil => exact absurd rfl h
  | cons t ts => simp [meants]

theorem have_meants {caps : List RespTok} {w : Text} (h : cstr w = w) (hm : .atom w ∈ caps) : haveCapability (meants caps) w = true := by
  rw [haveCapability_iff, meants_eq]
  exact ⟨.atom w, List.mem_map.2 ⟨_, hm, by simp [meant]⟩, w, .inl rfl, h⟩

theorem learns_caps {c : LoginConn} {r : Response} {n m : Nat} {more rest : Text} {caps : List RespTok} (ho : c.cur.Open)
    (hn : c.cur.next ≤ 2147483647) (h : Learns r n more caps m) (hc : c.cur.next = n) (hs : c.cur.stream = more ++ rest) :
    ∃ c', capsFromGreeting c r.line = .ok (meants caps, c') ∧ c'.cur.Open ∧ c'.cur.stream = rest ∧ c'.cur.next = m ∧
      c'.secret.isSome = c.secret.isSome ∧ caps ≠ [] := by
  cases h with
  | code h1 h2 => exact ⟨c, by simp only [capsFromGreeting, capsInLine_code h1], ho, by simpa using hs, hc, rfl, h2⟩
  | asked h1 h2 h3 =>
    obtain ⟨c', h4, h5, h6, h7, h8⟩ := askCaps_reply ho hn (hc ▸ h2) h3 hs
    exact ⟨c', by simp only [capsFromGreeting, capsInLine_none h1, h4], h5, h6, by omega, h8, h3.1⟩

theorem sendLogin_reply {c : LoginConn} {u p : Text} {a : Reply} {more rest : Text} {caps : List RespTok} {m : Nat} (ho : c.cur.Open)
    (hn : c.cur.next < 2147483647) (hu : u.length ≤ 2147483647) (hp : p.length ≤ 2147483647) (ha : a.Is c.cur.next (bs "OK"))
    (hb : Learns a.last (c.cur.next + 1) more caps m) (hlit : .atom (bs "LITERAL+") ∈ caps) (hs : c.cur.stream = a.bytes ++ more ++ rest) :
    ∃ c', sendLogin c u p = .ok (.ok, c') ∧ c'.cur.stream = rest ∧ c'.secret.isSome = c.secret.isSome := by
  have hcs : ∀ t : Text, t.length ≤ 2147483647 → (cstr t).length ≤ 2147483647 := fun t h =>
    Nat.le_trans (List.takeWhile_sublist _).length_le h
  obtain ⟨c1, h1, h2, h3, h4, h5⟩ := command_reply (cmd := [.atom (bs "LOGIN"), .string (cstr u), .string (cstr p)]) (rest := more ++ rest) ho
    (by simp only [CmdToks, CmdTok]; exact ⟨by decide, hcs u hu, hcs p hp, trivial⟩) (by omega) ha (by rw [hs]; simp)
  obtain ⟨c2, h6, -, h8, -, h10, hne⟩ := learns_caps (c := c1) (rest := rest) h2 (by omega) hb h4 h3
  refine ⟨c2, ?_, h8, h10.trans h5⟩
  unfold sendLogin
  rw [h1]
  simp only [bind, Except.bind, reply_status ha]
  rw [if_pos (by decide)]
  have hl := reply_last (a := a)
  rw [hl]
  simp only [afterLogin, h6, bind, Except.bind]
  rw [if_neg (meants_ne hne)]
  simp only [loggedIn, have_meants (by decide) hlit, if_pos]

theorem sendLogin_refused {c : LoginConn} {u p : Text} {a : Reply} {rest : Text} (ho : c.cur.Open)
    (hn : c.cur.next ≤ 2147483647) (hu : u.length ≤ 2147483647) (hp : p.length ≤ 2147483647) (ha : a.Is c.cur.next (bs "NO"))
    (hs : c.cur.stream = a.bytes ++ rest) :
    ∃ c', sendLogin c u p = .ok (.denied, c') ∧ c'.cur.stream = rest ∧ c'.secret.isSome = c.secret.isSome := by
  have hcs : ∀ t : Text, t.length ≤ 2147483647 → (cstr t).length ≤ 2147483647 := fun t h =>
    Nat.le_trans (List.takeWhile_sublist _).length_le h
  obtain ⟨c1, h1, h2, h3, h4, h5⟩ := command_reply (cmd := [.atom (bs "LOGIN"), .string (cstr u), .string (cstr p)]) (rest := rest) ho
    (by simp only [CmdToks, CmdTok]; exact ⟨by decide, hcs u hu, hcs p hp, trivial⟩) hn ha hs
  refine ⟨c1, ?_, h3, h5⟩
  unfold sendLogin
  rw [h1]
  simp only [bind, Except.bind, reply_status ha]
  rw [if_neg (by decide), if_pos (by decide)]

end Mairix
