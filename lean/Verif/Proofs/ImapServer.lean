import Verif.Proofs.ImapRun
import Verif.Spec.ImapServer

/-!
# The server of `Spec/ImapServer` conforms
-/

namespace Mairix
open Spec

theorem answer_reply {st : Text} {body : List (List ImapTok)} (h0 : (0 : UInt8) ∉ st)
    (h : ∀ i ∈ body, NoNuls i ∧ ∃ a t more, i = .atom a :: t :: more) : Answer st (body.map fun i => ⟨.untagged, i⟩) (reply st body) := by
  refine ⟨_, [], rfl, rfl, h0, ?_⟩
  intro l hl
  obtain ⟨i, hi, rfl⟩ := List.mem_map.mp hl
  exact h i hi

theorem answer_empty (st : Text) (h0 : (0 : UInt8) ∉ st) : Answer st [] (reply st []) := answer_reply (body := []) h0 (by simp)

theorem current_some {s : Server} {f : Text} {w : Bool} {b : Box} (h1 : s.selected = some (f, w)) (h2 : s.boxes f = some b) :
    s.current = some (f, w, b) := by
  simp only [Server.current, h1, h2, bind, Option.bind]

theorem noNuls_atoms : ∀ {l : List Text}, (∀ a ∈ l, (0 : UInt8) ∉ a) → NoNuls (l.map .atom)
  | [], _ => trivial
  | a :: l, h => ⟨h a List.mem_cons_self, noNuls_atoms fun b hb => h b (List.mem_cons_of_mem _ hb)⟩

theorem digits_ne_words (n : Nat) : digits n ∉ ownNames := by
  intro h
  have h1 : ∀ w ∈ ownNames, ∃ c ∈ w, isDigit c = false := by decide
  obtain ⟨c, hc, hd⟩ := h1 _ h
  rw [isDigit_digits hc] at hd
  cases hd

theorem renumber_map : ∀ (u : Nat) (ms : List MailMsg), (renumber u ms).map (fun m => (m.flags, m.body)) = ms.map fun m => (m.flags, m.body)
  | _, [] => rfl
  | u, m :: ms => by simp only [renumber, List.map_cons, renumber_map (u + 1) ms]

theorem flagToks_names (fl : MsgFlags) : (flagToks fl).filterMap atomText = flagNames fl := by
  obtain ⟨a, b, c⟩ := fl
  cases a <;> cases b <;> cases c <;> decide

theorem serve_select (s : Server) (f : Text) (w : Bool) :
    (∀ b, s.boxes f = some b → SelectAnswer b (s.doSelect f w).1 ∧ (s.doSelect f w).2 = { s with selected := some (f, w) }) ∧
    (s.boxes f = none → Refused (s.doSelect f w).1 ∧ (s.doSelect f w).2 = { s with selected := none }) := by
  constructor
  · intro b hb
    simp only [Server.doSelect, hb, and_true]
    refine ⟨_, answer_reply (by decide) ?_, ?_, ?_, ?_, ?_⟩
    · intro i hi
      simp only [List.mem_cons, List.not_mem_nil, or_false] at hi
      rcases hi with rfl | rfl | rfl
      · exact ⟨⟨by simp only [NoNul]; decide, trivial, trivial⟩, _, _, _, rfl⟩
      · exact ⟨⟨digits_noNul _, by simp only [NoNul]; decide, trivial⟩, _, _, _, rfl⟩
      · exact ⟨⟨by simp only [NoNul]; decide, ⟨by simp only [NoNul]; decide, digits_noNul _, trivial⟩, trivial⟩, _, _, _, rfl⟩
    · exact ⟨_, by simp only [List.map_cons, List.mem_cons]; exact Or.inr (Or.inr (Or.inl rfl)), [], [], rfl⟩
    · intro l hl v ⟨m, r, h⟩
      simp only [List.map_cons, List.map_nil, List.mem_cons, List.not_mem_nil, or_false] at hl
      rcases hl with rfl | rfl | rfl
      · injection h with h _; injection h with h; exact absurd h (by decide)
      · injection h with _ h; injection h with h _; cases h
      · injection h with _ h; injection h with h _; injection h with h; injection h with _ h; injection h with h _; injection h with h
        exact h.symm
    · exact ⟨_, by simp only [List.map_cons, List.mem_cons]; exact Or.inr (Or.inl rfl), [], rfl⟩
    · intro l hl v ⟨r, h⟩
      simp only [List.map_cons, List.map_nil, List.mem_cons, List.not_mem_nil, or_false] at hl
      rcases hl with rfl | rfl | rfl
      · injection h with _ h; injection h with h _; cases h
      · injection h with h _; injection h with h; exact h.symm
      · injection h with _ h; injection h with h _; cases h
  · intro hb
    simp only [Server.doSelect, hb, and_true]
    exact ⟨bs "NO", [], answer_empty _ (by decide), by decide⟩

theorem reports_lines {lines : MailMsg → List ImapTok} : ∀ {ms : List MailMsg}, (∀ m ∈ ms, FlagsLine m ⟨.untagged, lines m⟩) →
    Reports FlagsLine ms ((ms.map lines).map fun i => ⟨.untagged, i⟩)
  | [], _ => .nil
  | m :: ms, h => by
    rw [List.map_cons, List.map_cons]
    exact .msg (h m List.mem_cons_self) (reports_lines fun x hx => h x (List.mem_cons_of_mem _ hx))

theorem serve_conforms : Conforms serve id where
  select := by
    intro s f w
    obtain ⟨h1, h2⟩ := serve_select s f w
    refine ⟨(s.doSelect f w).1, (s.doSelect f w).2, ?_, h1, h2⟩
    cases w
    · simp only [serve, Server.run, Bool.false_eq_true, if_false]
      rw [if_neg (by decide), if_pos trivial]
    · simp only [serve, Server.run, if_true]
  list := by
    intro s f w b h1 h2 hpl
    simp only [id] at h1 h2
    refine ⟨reply (bs "OK") b.flagLines, s, ?_, ?_, rfl⟩
    · simp only [serve, Server.run]
      rw [if_pos (by decide), if_pos trivial, Server.doFetch, current_some h1 h2]
    · refine ⟨_, b.msgs, answer_reply (by decide) ?_, .refl _, reports_lines ?_⟩
      · intro i hi
        obtain ⟨m, hm, rfl⟩ := List.mem_map.mp hi
        refine ⟨⟨by simp only [NoNul]; decide, by simp only [NoNul]; decide, ⟨by simp only [NoNul]; decide, ?_, by simp only [NoNul]; decide,
          digits_noNul _, trivial⟩, trivial⟩, _, _, _, rfl⟩
        exact noNuls_atoms (hpl m hm)
      · intro m hm
        refine ⟨[(bs "FLAGS", .list (m.flags.map .atom)), (bs "UID", .atom (digits m.uid))], ⟨⟨_, _, rfl⟩, ?_⟩, ?_, ?_, ?_⟩
        · intro p hp a ha
          simp only [List.mem_cons, List.not_mem_nil, or_false] at hp
          rcases hp with rfl | rfl
          · cases ha
          · injection ha with ha
            rw [← ha]
            exact digits_ne_words _
        · intro p hp
          simp only [List.mem_cons, List.not_mem_nil, or_false] at hp
          rcases hp with rfl | rfl
          · exact ⟨fun h => absurd h (by simp only; decide), fun _ => rfl, fun h => absurd h (by simp only; decide)⟩
          · exact ⟨fun _ => rfl, fun h => absurd h (by simp only; decide), fun h => absurd h (by simp only; decide)⟩
        · exact ⟨_, by simp only [List.mem_cons]; exact Or.inr (Or.inl rfl), rfl⟩
        · exact ⟨_, List.mem_cons_self, rfl⟩
  fetch := by
    intro s f w b u h1 h2
    simp only [id] at h1 h2
    refine ⟨reply (bs "OK") (b.bodyLines u), s, ?_, ?_, rfl⟩
    · simp only [serve, Server.run]
      rw [if_pos (by decide), if_neg (by decide), Server.doFetch, current_some h1 h2, decimal_digits]
    · have hline : ∀ m : MailMsg, ∃ pairs, FetchLine pairs ⟨.untagged, [.atom (bs "1"), .atom (bs "FETCH"), .list [.atom (bs "UID"),
          .atom (digits m.uid), .atom (bs "BODY[]"), .string m.body]]⟩ ∧ TrueOf m pairs ∧ (∃ p ∈ pairs, p.1 = bs "UID") ∧
            ∃ p ∈ pairs, p.1 = bs "BODY[]" := by
        intro m
        refine ⟨[(bs "UID", .atom (digits m.uid)), (bs "BODY[]", .string m.body)], ⟨⟨_, _, rfl⟩, ?_⟩, ?_, ?_, ?_⟩
        · intro p hp a ha
          simp only [List.mem_cons, List.not_mem_nil, or_false] at hp
          rcases hp with rfl | rfl
          · injection ha with ha
            rw [← ha]
            exact digits_ne_words _
          · cases ha
        · intro p hp
          simp only [List.mem_cons, List.not_mem_nil, or_false] at hp
          rcases hp with rfl | rfl
          · exact ⟨fun _ => rfl, fun h => absurd h (by simp only; decide), fun h => absurd h (by simp only; decide)⟩
          · exact ⟨fun h => absurd h (by simp only; decide), fun h => absurd h (by simp only; decide), fun _ => rfl⟩
        · exact ⟨_, List.mem_cons_self, rfl⟩
        · exact ⟨_, by simp only [List.mem_cons]; exact Or.inr (Or.inl rfl), rfl⟩
      refine ⟨_, answer_reply (by decide) ?_, ?_, ?_⟩
      · intro i hi
        obtain ⟨m, hm, rfl⟩ := List.mem_map.mp hi
        exact ⟨⟨by simp only [NoNul]; decide, by simp only [NoNul]; decide, ⟨by simp only [NoNul]; decide, digits_noNul _,
          by simp only [NoNul]; decide, trivial, trivial⟩, trivial⟩, _, _, _, rfl⟩
      · intro l hl
        obtain ⟨i, hi, rfl⟩ := List.mem_map.mp hl
        obtain ⟨m, hm, rfl⟩ := List.mem_map.mp hi
        obtain ⟨pairs, h3, h4, -⟩ := hline m
        exact Or.inr ⟨m, (List.mem_filter.mp hm).1, pairs, h3, h4⟩
      · intro m hm hu
        exact ⟨_, List.mem_map_of_mem (List.mem_map_of_mem (List.mem_filter.mpr ⟨hm, by simpa using hu⟩)), hline m⟩
  store := by
    intro s f b h1 h2
    simp only [id] at h1 h2
    refine ⟨_, _, rfl, ?_⟩
    simp only [id, Server.run]
    rw [if_neg (by decide), if_pos (by decide), Server.doChange, current_some h1 h2]
  expunge := by
    intro s f b h1 h2
    simp only [id] at h1 h2
    refine ⟨_, _, rfl, ?_⟩
    simp only [id, Server.run]
    rw [if_pos trivial, Server.doChange, current_some h1 h2]
  copy := by
    intro s f w b u g h1 h2
    simp only [id] at h1 h2
    refine ⟨(s.doCopy u g).1, (s.doCopy u g).2, ?_, ?_, ?_⟩
    · simp only [serve, Server.run]
      rw [if_pos (by decide), decimal_digits]
    · intro d hd
      simp only [id] at hd
      simp only [Server.doCopy, current_some h1 h2, hd, id]
      exact ⟨⟨[], answer_empty _ (by decide)⟩, _, rfl, renumber_map _ _⟩
    · intro hd
      simp only [id] at hd
      simp only [Server.doCopy, current_some h1 h2, hd, id, and_true]
      exact Or.inl ⟨[], _, [], [], rfl, rfl⟩
  create := by
    intro s g
    refine ⟨_, _, rfl, ?_⟩
    intro hg
    simp only [id] at hg
    simp only [id, Server.run]
    rw [if_neg (by decide), if_neg (by decide), if_pos trivial, Server.doCreate, hg]
    exact ⟨_, rfl⟩
  append := by
    intro s g fl d
    refine ⟨(s.doAppend g (flagToks fl) d).1, (s.doAppend g (flagToks fl) d).2, ?_, ?_, ?_⟩
    · simp only [serve, Server.run]
      rw [if_pos trivial]
    · intro b hb
      simp only [id] at hb
      simp only [Server.doAppend, hb, id, flagToks_names]
      exact ⟨⟨[], answer_empty _ (by decide)⟩, _, rfl⟩
    · intro hb
      simp only [id] at hb
      simp only [Server.doAppend, hb, id, and_true]
      exact ⟨[], _, [], [], rfl, rfl⟩

end Mairix
