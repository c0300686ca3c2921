import Verif.Spec.DbFile
import Verif.Model.DbFile

/-! The stores that write the database file do not overlap and stay inside the file. -/

namespace Mairix

/-- The bytes `b` are found at `off`. -/
def At (d : Text) (off : Nat) (b : List UInt8) : Prop := ∀ i, i < b.length → d[off + i]? = b[i]?

theorem at_inside {d : Text} {off : Nat} {b : List UInt8} (h : At d off b) (hb : b ≠ []) : off + b.length ≤ d.length := by
  have hl : 0 < b.length := List.length_pos_iff.2 hb
  have := h (b.length - 1) (by omega)
  rw [List.getElem?_eq_getElem (by omega : b.length - 1 < b.length)] at this
  have := (List.getElem?_eq_some_iff.1 this).1
  omega

theorem at_drop : ∀ {b : List UInt8} {d : Text} {off : Nat}, At d off b → ∃ rest, d.drop off = b ++ rest := by
  intro b
  induction b with
  | nil => intro d off _; exact ⟨d.drop off, rfl⟩
  | cons x b ih =>
    intro d off h
    have h0 := h 0 (by simp)
    simp only [Nat.add_zero, List.getElem?_cons_zero] at h0
    obtain ⟨hlt, hx⟩ := List.getElem?_eq_some_iff.1 h0
    obtain ⟨rest, hr⟩ := ih (d := d) (off := off + 1) (by
      intro i hi
      have := h (i + 1) (by simpa using hi)
      simpa [Nat.add_assoc, Nat.add_comm 1 i] using this)
    refine ⟨rest, ?_⟩
    rw [List.drop_eq_getElem_cons hlt, hx, hr]
    rfl

theorem poke_get {d : Text} {off : Nat} {b : List UInt8} (h : off + b.length ≤ d.length) (j : Nat) :
    (d.take off ++ b ++ d.drop (off + b.length))[j]? = if off ≤ j ∧ j < off + b.length then b[j - off]? else d[j]? := by
  have h1 : (d.take off).length = off := by simp; omega
  by_cases hj : j < off
  · rw [if_neg (by omega), List.append_assoc, List.getElem?_append_left (by omega), List.getElem?_take_of_lt hj]
  · by_cases hj2 : j < off + b.length
    · rw [if_pos (by omega), List.append_assoc, List.getElem?_append_right (by omega), h1,
        List.getElem?_append_left (by omega)]
    · rw [if_neg (by omega), List.getElem?_append_right (by simp; omega), List.getElem?_drop]
      congr 1
      simp
      omega

theorem poke_spec {d : Text} {off : Nat} {b : List UInt8} (h : off + b.length ≤ d.length) :
    ∃ d', poke d off b = .ok d' ∧ d'.length = d.length ∧ At d' off b ∧
      ∀ off' b', At d off' b' → (off' + b'.length ≤ off ∨ off + b.length ≤ off') → At d' off' b' := by
  refine ⟨d.take off ++ b ++ d.drop (off + b.length), by simp only [poke, h, if_true], by simp; omega, ?_, ?_⟩
  · intro i hi
    rw [poke_get h, if_pos (by omega)]
    congr 1
    omega
  · intro off' b' ha hd i hi
    rw [poke_get h, if_neg (by omega)]
    exact ha i hi

theorem runWrites_spec : ∀ (ws : List Write) (d : Text), ws.Pairwise Apart →
    (∀ w ∈ ws, w.place.1 + w.place.2.length ≤ d.length) →
    ∃ d', runWrites ws d = .ok d' ∧ d'.length = d.length ∧ (∀ w ∈ ws, At d' w.place.1 w.place.2) ∧
      ∀ off b, At d off b → (∀ w ∈ ws, off + b.length ≤ w.place.1 ∨ w.place.1 + w.place.2.length ≤ off) → At d' off b := by
  intro ws
  induction ws with
  | nil => intro d _ _; exact ⟨d, rfl, rfl, by simp, fun _ _ h _ => h⟩
  | cons w ws ih =>
    intro d hp hin
    rw [List.pairwise_cons] at hp
    obtain ⟨d1, e1, l1, a1, k1⟩ := poke_spec (hin w (List.mem_cons_self ..))
    have e1' : w.run d = .ok d1 := by cases w <;> exact e1
    obtain ⟨d2, e2, l2, a2, k2⟩ := ih d1 hp.2 (fun w' hw' => by rw [l1]; exact hin w' (List.mem_cons_of_mem _ hw'))
    refine ⟨d2, by simp only [runWrites, e1', e2, bind, Except.bind], by omega, ?_, ?_⟩
    · intro w' hw'
      rcases List.mem_cons.1 hw' with rfl | hw'
      · exact k2 _ _ a1 (fun w'' hw'' => hp.1 w'' hw'')
      · exact a2 w' hw'
    · intro off b ha hd
      exact k2 off b (k1 off b ha (hd w (List.mem_cons_self ..))) fun w' hw' => hd w' (List.mem_cons_of_mem _ hw')

/-! ### The order of the stores -/

/-- The indices of the words written. -/
def idxs (ws : List Write) : List Nat :=
  ws.filterMap fun
    | .word k _ => some k
    | .block _ _ => none

/-- The blocks follow one another from `c` to `c'`. -/
def Chain : Nat → List Write → Nat → Prop
  | c, [], c' => c = c'
  | c, .word _ _ :: ws, c' => Chain c ws c'
  | c, .block off b :: ws, c' => off = c ∧ Chain (c + b.length) ws c'

theorem chain_append : ∀ {ws ws' : List Write} {a b c : Nat}, Chain a ws b → Chain b ws' c → Chain a (ws ++ ws') c := by
  intro ws
  induction ws with
  | nil => intro ws' a b c h h'; cases h; exact h'
  | cons w ws ih =>
    intro ws' a b c h h'
    cases w with
    | word k v => exact ih (ws' := ws') (by exact h) h'
    | block off t => exact ⟨h.1, ih h.2 h'⟩

theorem chain_le : ∀ {ws : List Write} {a b : Nat}, Chain a ws b → a ≤ b := by
  intro ws
  induction ws with
  | nil => intro a b h; cases h; exact Nat.le_refl _
  | cons w ws ih =>
    intro a b h
    cases w with
    | word k v => exact ih (by exact h)
    | block off t => have := ih h.2; omega

theorem chain_mem : ∀ {ws : List Write} {a b : Nat}, Chain a ws b → ∀ off t, .block off t ∈ ws → a ≤ off ∧ off + t.length ≤ b := by
  intro ws
  induction ws with
  | nil => intro a b _ off t h; cases h
  | cons w ws ih =>
    intro a b h off t hm
    cases w with
    | word k v =>
      rcases List.mem_cons.1 hm with h' | hm
      · cases h'
      · exact ih (by exact h) off t hm
    | block off' t' =>
      rcases List.mem_cons.1 hm with h' | hm
      · cases h'
        obtain ⟨rfl, h2⟩ := h
        exact ⟨Nat.le_refl _, chain_le h2⟩
      · have := ih h.2 off t hm
        omega

theorem idxs_mem {ws : List Write} {k : Nat} : k ∈ idxs ws ↔ ∃ v, .word k v ∈ ws := by
  simp only [idxs, List.mem_filterMap]
  constructor
  · rintro ⟨w, hw, hk⟩
    cases w with
    | word k' v => simp only [Option.some.injEq] at hk; subst hk; exact ⟨v, hw⟩
    | block => cases hk
  · rintro ⟨v, hv⟩
    exact ⟨_, hv, rfl⟩

theorem idxs_append (a b : List Write) : idxs (a ++ b) = idxs a ++ idxs b := by simp [idxs]

theorem idxs_word (k v : Nat) (ws : List Write) : idxs (.word k v :: ws) = k :: idxs ws := rfl

theorem idxs_block (o : Nat) (b : List UInt8) (ws : List Write) : idxs (.block o b :: ws) = idxs ws := rfl

theorem le32_length (v : Nat) : (le32 v).length = 4 := rfl

/-- Words below `B`, each at most once, and blocks behind them one after the other are apart. -/
theorem apart_of : ∀ {ws : List Write} {a b B : Nat}, Chain a ws b → (idxs ws).Nodup → (∀ k ∈ idxs ws, k < B) → 4 * B ≤ a →
    ws.Pairwise Apart := by
  intro ws
  induction ws with
  | nil => intro _ _ _ _ _ _ _; exact .nil
  | cons w ws ih =>
    intro a b B hc hn hlt hB
    cases w with
    | word k v =>
      rw [idxs_word, List.nodup_cons] at hn
      have hc' : Chain a ws b := hc
      rw [List.pairwise_cons]
      refine ⟨?_, ih hc' hn.2 (fun k' hk' => hlt k' (by rw [idxs_word]; exact List.mem_cons_of_mem _ hk')) hB⟩
      intro w' hw'
      have hk : k < B := hlt k (by rw [idxs_word]; exact List.mem_cons_self ..)
      cases w' with
      | word k' v' =>
        have : k ≠ k' := by
          rintro rfl
          exact hn.1 (idxs_mem.2 ⟨v', hw'⟩)
        simp only [Apart, Write.place, le32_length]
        omega
      | block off t =>
        have := chain_mem hc' off t hw'
        simp only [Apart, Write.place, le32_length]
        omega
    | block off t =>
      obtain ⟨rfl, hc'⟩ := hc
      rw [idxs_block] at hn hlt
      rw [List.pairwise_cons]
      refine ⟨?_, ih hc' hn hlt (by omega)⟩
      intro w' hw'
      cases w' with
      | word k' v' =>
        have := hlt k' (idxs_mem.2 ⟨v', hw'⟩)
        simp only [Apart, Write.place, le32_length]
        omega
      | block off' t' =>
        have := chain_mem hc' off' t' hw'
        simp only [Apart, Write.place]
        omega

/-- A part of the stores: each word in `[lo, hi)` at most once, the blocks from `c` to `c'`. -/
structure Seg (lo hi c c' : Nat) (ws : List Write) : Prop where
  chain : Chain c ws c'
  nodup : (idxs ws).Nodup
  range : ∀ k ∈ idxs ws, lo ≤ k ∧ k < hi

theorem Seg.append {a b d c c' c'' : Nat} {ws ws' : List Write} (h : Seg a b c c' ws) (h' : Seg b d c' c'' ws')
    (hab : a ≤ b) (hbd : b ≤ d) : Seg a d c c'' (ws ++ ws') := by
  refine ⟨chain_append h.chain h'.chain, ?_, ?_⟩
  · rw [idxs_append, List.nodup_append]
    refine ⟨h.nodup, h'.nodup, ?_⟩
    intro x hx y hy hxy
    subst hxy
    have := h.range x hx
    have := h'.range x hy
    omega
  · intro k hk
    rw [idxs_append, List.mem_append] at hk
    rcases hk with hk | hk
    · have := h.range k hk; omega
    · have := h'.range k hk; omega

theorem seg_nil (a c : Nat) : Seg a a c c [] := ⟨rfl, List.nodup_nil, by intro k hk; cases hk⟩

/-! ### Each part -/

theorem writeTexts_seg {tok : Nat} : ∀ (ts : List Text) (i c : Nat),
    (writeTexts tok i ts c).2 = c + (ts.map fun t => 1 + t.length).sum ∧
    Seg (tok + i) (tok + i + ts.length) c (writeTexts tok i ts c).2 (writeTexts tok i ts c).1 ∧
    ∀ (j : Nat) t, ts[j]? = some t → ∃ o, .word (tok + (i + j)) o ∈ (writeTexts tok i ts c).1 ∧
      .block o (t ++ [0]) ∈ (writeTexts tok i ts c).1 := by
  intro ts
  induction ts with
  | nil => intro i c; exact ⟨rfl, seg_nil _ _, by intro j t h; simp at h⟩
  | cons t ts ih =>
    intro i c
    obtain ⟨h1, h2, h3⟩ := ih (i + 1) (c + (1 + t.length))
    refine ⟨?_, ?_, ?_⟩
    · simp only [writeTexts, h1, List.map_cons, List.sum_cons]; omega
    · have : Seg (tok + i) (tok + (i + 1)) c (c + (1 + t.length)) [.word (tok + i) c, .block c (t ++ [0])] := by
        refine ⟨?_, ?_, ?_⟩
        · refine ⟨rfl, ?_⟩
          show _ = _
          simp; omega
        · simp [idxs]
        · intro k hk
          simp only [idxs_word, idxs_block, List.mem_cons] at hk
          simp [idxs] at hk
          omega
      have := this.append h2 (by omega) (by omega)
      simp only [writeTexts, List.length_cons]
      rw [show tok + i + (ts.length + 1) = tok + (i + 1) + ts.length by omega]
      exact this
    · intro j t' hj
      cases j with
      | zero =>
        simp only [List.getElem?_cons_zero, Option.some.injEq] at hj
        subst hj
        exact ⟨c, by simp [writeTexts], by simp [writeTexts]⟩
      | succ j =>
        simp only [List.getElem?_cons_succ] at hj
        obtain ⟨o, o1, o2⟩ := h3 j t' hj
        refine ⟨o, ?_, ?_⟩
        · simp only [writeTexts]
          rw [show i + (j + 1) = i + 1 + j by omega]
          exact List.mem_cons_of_mem _ (List.mem_cons_of_mem _ o1)
        · simp only [writeTexts]
          exact List.mem_cons_of_mem _ (List.mem_cons_of_mem _ o2)

theorem writeLists_seg {enc : Nat} : ∀ (ls : List (List UInt8)) (i c : Nat),
    (writeLists enc i ls c).2 = c + (ls.map fun l => 1 + l.length).sum ∧
    Seg (enc + i) (enc + i + ls.length) c (writeLists enc i ls c).2 (writeLists enc i ls c).1 ∧
    ∀ (j : Nat) l, ls[j]? = some l → ∃ o, .word (enc + (i + j)) o ∈ (writeLists enc i ls c).1 ∧
      .block o (l ++ [0xff]) ∈ (writeLists enc i ls c).1 := by
  intro ts
  induction ts with
  | nil => intro i c; exact ⟨rfl, seg_nil _ _, by intro j t h; simp at h⟩
  | cons t ts ih =>
    intro i c
    obtain ⟨h1, h2, h3⟩ := ih (i + 1) (c + (t.length + 1))
    refine ⟨?_, ?_, ?_⟩
    · simp only [writeLists, h1, List.map_cons, List.sum_cons]; omega
    · have : Seg (enc + i) (enc + (i + 1)) c (c + (t.length + 1)) [.word (enc + i) c, .block c (t ++ [0xff])] := by
        refine ⟨?_, ?_, ?_⟩
        · refine ⟨rfl, ?_⟩
          show _ = _
          simp
        · simp [idxs]
        · intro k hk
          simp only [idxs_word, idxs_block, List.mem_cons] at hk
          simp [idxs] at hk
          omega
      have := this.append h2 (by omega) (by omega)
      simp only [writeLists, List.length_cons]
      rw [show enc + i + (ts.length + 1) = enc + (i + 1) + ts.length by omega]
      exact this
    · intro j t' hj
      cases j with
      | zero =>
        simp only [List.getElem?_cons_zero, Option.some.injEq] at hj
        subst hj
        exact ⟨c, by simp [writeLists], by simp [writeLists]⟩
      | succ j =>
        simp only [List.getElem?_cons_succ] at hj
        obtain ⟨o, o1, o2⟩ := h3 j t' hj
        refine ⟨o, ?_, ?_⟩
        · simp only [writeLists]
          rw [show i + (j + 1) = i + 1 + j by omega]
          exact List.mem_cons_of_mem _ (List.mem_cons_of_mem _ o1)
        · simp only [writeLists]
          exact List.mem_cons_of_mem _ (List.mem_cons_of_mem _ o2)

/-- The stores hold the entries of a table, with offsets in the words from `tok` and `enc` on. -/
def TableIn (ws : List Write) (es : List (Text × List UInt8)) (tok enc : Nat) : Prop :=
  ∀ (j : Nat) e, es[j]? = some e → ∃ o o', .word (tok + j) o ∈ ws ∧ .block o (e.1 ++ [0]) ∈ ws ∧
    .word (enc + j) o' ∈ ws ∧ .block o' (e.2 ++ [0xff]) ∈ ws

def textAndList (e : Entry Matches) : Text × List UInt8 := (e.text, e.data.bytes)

theorem sum_add {α : Type} (f g : α → Nat) (l : List α) : (l.map f).sum + (l.map g).sum = (l.map fun a => f a + g a).sum := by
  induction l with
  | nil => rfl
  | cons a l ih => simp only [List.map_cons, List.sum_cons]; omega

theorem writeTable_spec {t : Table Matches} (hn : (tokensOf t).length = t.n) (total c : Nat) :
    ∃ ws, writeTable t (tokMap total t.n) c = .ok (ws, c + tableCharLength t) ∧
      Seg total (total + 2 * t.n) c (c + tableCharLength t) ws ∧
      TableIn ws ((tokensOf t).map textAndList) total (total + t.n) := by
  obtain ⟨a1, a2, a3⟩ := writeTexts_seg (tok := total) ((tokensOf t).map (·.text)) 0 c
  obtain ⟨b1, b2, b3⟩ := writeLists_seg (enc := total + t.n) ((tokensOf t).map (·.data.bytes)) 0
    (writeTexts total 0 ((tokensOf t).map (·.text)) c).2
  have hlen : (writeLists (total + t.n) 0 ((tokensOf t).map (·.data.bytes))
      (writeTexts total 0 ((tokensOf t).map (·.text)) c).2).2 = c + tableCharLength t := by
    rw [b1, a1, tableCharLength, List.map_map, List.map_map, Nat.add_assoc, sum_add]
    rfl
  refine ⟨(writeTexts total 0 ((tokensOf t).map (·.text)) c).1 ++
      (writeLists (total + t.n) 0 ((tokensOf t).map (·.data.bytes)) (writeTexts total 0 ((tokensOf t).map (·.text)) c).2).1,
    ?_, ?_, ?_⟩
  · rw [← hlen]
    simp only [writeTable, hn, if_true, tokMap]
  · rw [← hlen]
    simp only [List.length_map, hn, Nat.add_zero] at a2 b2
    have := a2.append b2 (by omega) (by omega)
    rw [show total + 2 * t.n = total + t.n + t.n by omega]
    exact this
  · intro j e he
    simp only [List.getElem?_map, Option.map_eq_some_iff] at he
    obtain ⟨x, hx, rfl⟩ := he
    obtain ⟨o, o1, o2⟩ := a3 j x.text (by simp [hx])
    obtain ⟨o', o3, o4⟩ := b3 j x.data.bytes (by simp [hx])
    rw [Nat.zero_add] at o1 o3
    exact ⟨o, o', List.mem_append_left _ o1, List.mem_append_left _ o2, List.mem_append_right _ o3, List.mem_append_right _ o4⟩

/-- The same for the table of message ids. -/
def Table2In (ws : List Write) (es : List (Text × List UInt8 × List UInt8)) (tok enc0 enc1 : Nat) : Prop :=
  ∀ (j : Nat) e, es[j]? = some e → ∃ o o' o'', .word (tok + j) o ∈ ws ∧ .block o (e.1 ++ [0]) ∈ ws ∧
    .word (enc0 + j) o' ∈ ws ∧ .block o' (e.2.1 ++ [0xff]) ∈ ws ∧
    .word (enc1 + j) o'' ∈ ws ∧ .block o'' (e.2.2 ++ [0xff]) ∈ ws

def textAndLists (e : Entry Matches2) : Text × List UInt8 × List UInt8 := (e.text, e.data.match0.bytes, e.data.match1.bytes)

theorem writeTable2_spec {t : Table Matches2} (hn : (tokensOf t).length = t.n) (total c : Nat) :
    ∃ ws, writeTable2 t total (total + t.n) (total + 2 * t.n) c = .ok (ws, c + table2CharLength t) ∧
      Seg total (total + 3 * t.n) c (c + table2CharLength t) ws ∧
      Table2In ws ((tokensOf t).map textAndLists) total (total + t.n) (total + 2 * t.n) := by
  obtain ⟨a1, a2, a3⟩ := writeTexts_seg (tok := total) ((tokensOf t).map (·.text)) 0 c
  generalize hA : writeTexts total 0 ((tokensOf t).map (·.text)) c = A at a1 a2 a3
  obtain ⟨b1, b2, b3⟩ := writeLists_seg (enc := total + t.n) ((tokensOf t).map (·.data.match0.bytes)) 0 A.2
  generalize hB : writeLists (total + t.n) 0 ((tokensOf t).map (·.data.match0.bytes)) A.2 = B at b1 b2 b3
  obtain ⟨d1, d2, d3⟩ := writeLists_seg (enc := total + 2 * t.n) ((tokensOf t).map (·.data.match1.bytes)) 0 B.2
  generalize hD : writeLists (total + 2 * t.n) 0 ((tokensOf t).map (·.data.match1.bytes)) B.2 = D at d1 d2 d3
  have hlen : D.2 = c + table2CharLength t := by
    rw [d1, b1, a1, table2CharLength, List.map_map, List.map_map, List.map_map, Nat.add_assoc, Nat.add_assoc, sum_add, sum_add]
    congr 2
    apply List.map_congr_left
    intro e _
    simp only [Function.comp_apply]
    omega
  refine ⟨A.1 ++ B.1 ++ D.1, ?_, ?_, ?_⟩
  · rw [← hlen]
    simp only [writeTable2, hn, if_true, hA, hB, hD]
  · rw [← hlen]
    simp only [List.length_map, hn, Nat.add_zero] at a2 b2 d2
    have h1 := a2.append b2 (by omega) (by omega)
    rw [show total + t.n + t.n = total + 2 * t.n by omega] at h1
    have h2 := h1.append d2 (by omega) (by omega)
    rw [show total + 3 * t.n = total + 2 * t.n + t.n by omega]
    exact h2
  · intro j e he
    simp only [List.getElem?_map, Option.map_eq_some_iff] at he
    obtain ⟨x, hx, rfl⟩ := he
    obtain ⟨o, o1, o2⟩ := a3 j x.text (by simp [hx])
    obtain ⟨o', o3, o4⟩ := b3 j x.data.match0.bytes (by simp [hx])
    obtain ⟨o'', o5, o6⟩ := d3 j x.data.match1.bytes (by simp [hx])
    rw [Nat.zero_add] at o1 o3 o5
    refine ⟨o, o', o'', ?_, ?_, ?_, ?_, ?_, ?_⟩ <;> simp only [List.mem_append, textAndLists, *, true_or, or_true]

/-- The stores hold message `i`. -/
def MessageIn (map : WriteMap) (mboxen : List Mbox) (ws : List Write) (i : Nat) (m : Msg) : Prop :=
  .word (map.tid + i) m.tid ∈ ws ∧
  match m.src with
  | .file p mtime size => ∃ o, .word (map.path + i) o ∈ ws ∧ .block o (p ++ [0]) ∈ ws ∧ .word (map.mtime + i) (u32 mtime) ∈ ws ∧
      .word (map.size + i) size ∈ ws ∧ .word (map.date + i) (u32 m.date) ∈ ws
  | .imap p => ∃ o, .word (map.path + i) o ∈ ws ∧ .block o (p ++ [0]) ∈ ws ∧ .word (map.date + i) (u32 m.date) ∈ ws
  | .mbox fi mi => ∃ o mb e start len, .word (map.path + i) o ∈ ws ∧ .block o (encodeMboxIndices fi mi) ∈ ws ∧
      mboxen[fi]? = some mb ∧ mb.msgs[mi]? = some e ∧ e.pos = some (start, len) ∧
      .word (map.mtime + i) start ∈ ws ∧ .word (map.size + i) len ∈ ws ∧ .word (map.date + i) (u32 m.date) ∈ ws
  | .dead => .word (map.path + i) 0 ∈ ws

theorem messageIn_mono {map : WriteMap} {mboxen : List Mbox} {ws ws' : List Write} {i : Nat} {m : Msg}
    (h : MessageIn map mboxen ws i m) (hs : ∀ w ∈ ws, w ∈ ws') : MessageIn map mboxen ws' i m := by
  obtain ⟨h1, h2⟩ := h
  refine ⟨hs _ h1, ?_⟩
  obtain ⟨src, date, tid, seen, replied, flagged⟩ := m
  cases src with
  | file p mt sz =>
    obtain ⟨o, a, b, c, d, e⟩ := h2
    exact ⟨o, hs _ a, hs _ b, hs _ c, hs _ d, hs _ e⟩
  | imap p =>
    obtain ⟨o, a, b, c⟩ := h2
    exact ⟨o, hs _ a, hs _ b, hs _ c⟩
  | mbox fi mi =>
    obtain ⟨o, mb, e, s, l, a, b, c, d, f, g, h, k⟩ := h2
    exact ⟨o, mb, e, s, l, hs _ a, hs _ b, c, d, f, hs _ g, hs _ h, hs _ k⟩
  | dead => exact hs _ h2

/-- The mbox messages have places. -/
def SrcOk (mboxen : List Mbox) (m : Msg) : Prop :=
  ∀ fi mi, m.src = .mbox fi mi → ∃ mb e, mboxen[fi]? = some mb ∧ mb.msgs[mi]? = some e ∧ e.pos ≠ none

/-- The tables of the messages, of `n` words each, do not overlap. -/
structure MsgTables (map : WriteMap) (n : Nat) : Prop where
  mtime : map.mtime = map.path + n
  date : map.date = map.path + 2 * n
  size : map.size = map.path + 3 * n
  tid : map.tid = map.path + 4 * n

theorem writeMessage_spec {map : WriteMap} {mboxen : List Mbox} {n i : Nat} {m : Msg} (ht : MsgTables map n) (hi : i < n)
    (hm : SrcOk mboxen m) (c : Nat) :
    ∃ ws, writeMessage map mboxen i m c = .ok (ws, msgCharLength m) ∧ Chain c ws (c + msgCharLength m) ∧ (idxs ws).Nodup ∧
      (∀ k ∈ idxs ws, k = map.path + i ∨ k = map.mtime + i ∨ k = map.date + i ∨ k = map.size + i ∨ k = map.tid + i) ∧
      MessageIn map mboxen ws i m := by
  obtain ⟨src, date, tid, seen, replied, flagged⟩ := m
  obtain ⟨t1, t2, t3, t4⟩ := ht
  cases src with
  | file p mt sz =>
    refine ⟨_, rfl, ?_, ?_, ?_, ?_⟩
    · refine ⟨rfl, ?_⟩
      show _ = _
      simp [msgCharLength]; omega
    · simp [idxs]; omega
    · simp [idxs] <;> omega
    · exact ⟨by simp, c, by simp, by simp, by simp, by simp, by simp⟩
  | imap p =>
    refine ⟨_, rfl, ?_, ?_, ?_, ?_⟩
    · refine ⟨rfl, ?_⟩
      show _ = _
      simp [msgCharLength]; omega
    · simp [idxs]; omega
    · simp [idxs]
    · exact ⟨by simp, c, by simp, by simp, by simp⟩
  | mbox fi mi =>
    obtain ⟨mb, e, h1, h2, h3⟩ := hm fi mi rfl
    cases hp : e.pos with
    | none => exact absurd hp h3
    | some sl =>
      obtain ⟨start, len⟩ := sl
      refine ⟨_, by simp only [writeMessage, h1, h2, hp]; rfl, ?_, ?_, ?_, ?_⟩
      · exact ⟨rfl, rfl⟩
      · simp [idxs]; omega
      · simp [idxs] <;> omega
      · exact ⟨by simp, c, mb, e, start, len, by simp, by simp, h1, h2, hp, by simp, by simp, by simp⟩
  | dead =>
    refine ⟨_, rfl, ?_, ?_, ?_, ?_⟩
    · rfl
    · simp [idxs]; omega
    · simp [idxs] <;> omega
    · exact ⟨by simp, by simp⟩

theorem writeMessages_spec {map : WriteMap} {mboxen : List Mbox} {n : Nat} (ht : MsgTables map n) : ∀ (ms : List Msg) (i c : Nat),
    (∀ m ∈ ms, SrcOk mboxen m) → i + ms.length ≤ n →
    ∃ ws, writeMessages map mboxen i ms c = .ok (ws, c + (ms.map msgCharLength).sum) ∧
      Chain c ws (c + (ms.map msgCharLength).sum) ∧ (idxs ws).Nodup ∧
      (∀ k ∈ idxs ws, ∃ j, i ≤ j ∧ j < i + ms.length ∧
        (k = map.path + j ∨ k = map.mtime + j ∨ k = map.date + j ∨ k = map.size + j ∨ k = map.tid + j)) ∧
      ∀ (j : Nat) m, ms[j]? = some m → MessageIn map mboxen ws (i + j) m := by
  intro ms
  induction ms with
  | nil => intro i c _ _; exact ⟨[], rfl, rfl, List.nodup_nil, (by intro k hk; cases hk), by intro j m h; simp at h⟩
  | cons m ms ih =>
    intro i c hm hl
    simp only [List.length_cons] at hl
    obtain ⟨w1, e1, c1, n1, k1, m1⟩ := writeMessage_spec ht (by omega : i < n) (hm m (List.mem_cons_self ..)) c
    obtain ⟨w2, e2, c2, n2, k2, m2⟩ := ih (i + 1) (c + msgCharLength m) (fun m hm' => hm m (List.mem_cons_of_mem _ hm')) (by omega)
    have hc : c + ((m :: ms).map msgCharLength).sum = c + msgCharLength m + (ms.map msgCharLength).sum := by
      simp; omega
    refine ⟨w1 ++ w2, ?_, ?_, ?_, ?_, ?_⟩
    · rw [hc]
      simp only [writeMessages, e1, e2, bind, Except.bind]
    · rw [hc]; exact chain_append c1 c2
    · rw [idxs_append, List.nodup_append]
      refine ⟨n1, n2, ?_⟩
      intro x hx y hy hxy
      subst hxy
      have h1 := k1 x hx
      obtain ⟨j, j1, j2, h2⟩ := k2 x hy
      obtain ⟨t1, t2, t3, t4⟩ := ht
      omega
    · intro k hk
      rw [idxs_append, List.mem_append] at hk
      rcases hk with hk | hk
      · exact ⟨i, Nat.le_refl _, by simp, k1 k hk⟩
      · obtain ⟨j, j1, j2, h2⟩ := k2 k hk
        exact ⟨j, by omega, by simp only [List.length_cons]; omega, h2⟩
    · intro j m' hj
      cases j with
      | zero =>
        simp only [List.getElem?_cons_zero, Option.some.injEq] at hj
        subst hj
        exact messageIn_mono m1 fun w hw => List.mem_append_left _ hw
      | succ j =>
        simp only [List.getElem?_cons_succ] at hj
        have := m2 j m' hj
        rw [show i + (j + 1) = i + 1 + j by omega]
        exact messageIn_mono this fun w hw => List.mem_append_right _ hw

/-! ### The mboxen -/

/-- The stores hold what the headers of the mboxen say about number `i`. -/
def MboxIn (map : WriteMap) (ws : List Write) (i : Nat) (mb : Mbox) : Prop :=
  .word (map.mboxEntries + i) mb.msgs.length ∈ ws ∧ .word (map.mboxMtime + i) (u32 mb.currentMtime) ∈ ws ∧
  .word (map.mboxSize + i) mb.currentSize ∈ ws ∧
  match mb.path with
  | some p => ∃ o, .word (map.mboxPaths + i) o ∈ ws ∧ .block o (p ++ [0]) ∈ ws
  | none => .word (map.mboxPaths + i) 0 ∈ ws

theorem mboxIn_mono {map : WriteMap} {ws ws' : List Write} {i : Nat} {mb : Mbox}
    (h : MboxIn map ws i mb) (hs : ∀ w ∈ ws, w ∈ ws') : MboxIn map ws' i mb := by
  obtain ⟨h1, h2, h3, h4⟩ := h
  refine ⟨hs _ h1, hs _ h2, hs _ h3, ?_⟩
  split at h4
  · obtain ⟨o, a, b⟩ := h4
    exact ⟨o, hs _ a, hs _ b⟩
  · exact hs _ h4

/-- The tables of the mboxen, of `k` words each, do not overlap. -/
structure BoxTables (map : WriteMap) (k : Nat) : Prop where
  entries : map.mboxEntries = map.mboxPaths + k
  mtime : map.mboxMtime = map.mboxPaths + 2 * k
  size : map.mboxSize = map.mboxPaths + 3 * k
  checksum : map.mboxChecksum = map.mboxPaths + 4 * k

def pathLength (mb : Mbox) : Nat :=
  match mb.path with
  | some p => 1 + p.length
  | none => 0

theorem writeMboxHeaders_spec {map : WriteMap} {n : Nat} (ht : BoxTables map n) : ∀ (mbs : List Mbox) (i c : Nat),
    i + mbs.length ≤ n →
    (writeMboxHeaders map i mbs c).2 = c + (mbs.map pathLength).sum ∧
    Chain c (writeMboxHeaders map i mbs c).1 (c + (mbs.map pathLength).sum) ∧ (idxs (writeMboxHeaders map i mbs c).1).Nodup ∧
      (∀ k ∈ idxs (writeMboxHeaders map i mbs c).1, ∃ j, i ≤ j ∧ j < i + mbs.length ∧
        (k = map.mboxPaths + j ∨ k = map.mboxEntries + j ∨ k = map.mboxMtime + j ∨ k = map.mboxSize + j)) ∧
      ∀ (j : Nat) mb, mbs[j]? = some mb → MboxIn map (writeMboxHeaders map i mbs c).1 (i + j) mb := by
  intro mbs
  induction mbs with
  | nil => intro i c _; exact ⟨rfl, rfl, List.nodup_nil, (by intro k hk; cases hk), by intro j m h; simp at h⟩
  | cons mb mbs ih =>
    intro i c hl
    simp only [List.length_cons] at hl
    obtain ⟨e2, c2, n2, k2, m2⟩ := ih (i + 1) (c + pathLength mb) (by omega)
    obtain ⟨t1, t2, t3, t4⟩ := ht
    have own : ∃ w1, (writeMboxHeaders map i (mb :: mbs) c).1 = w1 ++ (writeMboxHeaders map (i + 1) mbs (c + pathLength mb)).1 ∧
        (writeMboxHeaders map i (mb :: mbs) c).2 = (writeMboxHeaders map (i + 1) mbs (c + pathLength mb)).2 ∧
        Chain c w1 (c + pathLength mb) ∧ (idxs w1).Nodup ∧
        (∀ k ∈ idxs w1, k = map.mboxPaths + i ∨ k = map.mboxEntries + i ∨ k = map.mboxMtime + i ∨ k = map.mboxSize + i) ∧
        MboxIn map w1 i mb := by
      cases hp : mb.path with
      | some p =>
        have hpl : pathLength mb = 1 + p.length := by simp [pathLength, hp]
        refine ⟨_, by simp only [writeMboxHeaders, hp, hpl]; rfl, by simp only [writeMboxHeaders, hp, hpl], ?_, ?_, ?_, ?_⟩
        · refine ⟨rfl, ?_⟩
          show _ = _
          simp [hpl]; omega
        · simp [idxs]; omega
        · simp [idxs]
        · refine ⟨by simp, by simp, by simp, ?_⟩
          rw [hp]
          exact ⟨c, by simp, by simp⟩
      | none =>
        have hpl : pathLength mb = 0 := by simp [pathLength, hp]
        refine ⟨_, by simp only [writeMboxHeaders, hp, hpl, Nat.add_zero]; rfl, by simp only [writeMboxHeaders, hp, hpl, Nat.add_zero],
          ?_, ?_, ?_, ?_⟩
        · show _ = _
          omega
        · simp [idxs]; omega
        · simp [idxs]
        · refine ⟨by simp, by simp, by simp, ?_⟩
          rw [hp]
          simp
    obtain ⟨w1, e1, e1', c1, n1, k1, m1⟩ := own
    have hc : c + ((mb :: mbs).map pathLength).sum = c + pathLength mb + (mbs.map pathLength).sum := by
      simp; omega
    rw [hc, e1, e1']
    refine ⟨e2, chain_append c1 c2, ?_, ?_, ?_⟩
    · rw [idxs_append, List.nodup_append]
      refine ⟨n1, n2, ?_⟩
      intro x hx y hy hxy
      subst hxy
      have h1 := k1 x hx
      obtain ⟨j, j1, j2, h2⟩ := k2 x hy
      omega
    · intro k hk
      rw [idxs_append, List.mem_append] at hk
      rcases hk with hk | hk
      · exact ⟨i, Nat.le_refl _, by simp, k1 k hk⟩
      · obtain ⟨j, j1, j2, h2⟩ := k2 k hk
        exact ⟨j, by omega, by simp only [List.length_cons]; omega, h2⟩
    · intro j m' hj
      cases j with
      | zero =>
        simp only [List.getElem?_cons_zero, Option.some.injEq] at hj
        subst hj
        exact mboxIn_mono m1 fun w hw => List.mem_append_left _ hw
      | succ j =>
        simp only [List.getElem?_cons_succ] at hj
        have := m2 j m' hj
        rw [show i + (j + 1) = i + 1 + j by omega]
        exact mboxIn_mono this fun w hw => List.mem_append_right _ hw

theorem writeChecks_spec : ∀ (es : List MboxMsg) (c : Nat), (∀ e ∈ es, e.check.length = 16) →
    (writeChecks es c).2 = c + es.length * 16 ∧ Chain c (writeChecks es c).1 (c + es.length * 16) ∧
    idxs (writeChecks es c).1 = [] ∧
    ∀ (j : Nat) e, es[j]? = some e → .block (c + 16 * j) e.check ∈ (writeChecks es c).1 := by
  intro es
  induction es with
  | nil => intro c _; exact ⟨by simp [writeChecks], by simp [writeChecks, Chain], rfl, by intro j m h; simp at h⟩
  | cons e es ih =>
    intro c hl
    have he := hl e (List.mem_cons_self ..)
    have htk : e.check.take 16 = e.check := by rw [← he]; exact List.take_length
    obtain ⟨h1, h2, h3, h4⟩ := ih (c + 16) fun e he => hl e (List.mem_cons_of_mem _ he)
    refine ⟨by simp only [writeChecks, h1, List.length_cons]; omega, ?_, ?_, ?_⟩
    · refine ⟨rfl, ?_⟩
      rw [htk, he, List.length_cons, show c + (es.length + 1) * 16 = c + 16 + es.length * 16 by omega]
      exact h2
    · simp only [writeChecks, idxs_block, h3]
    · intro j e' hj
      cases j with
      | zero =>
        simp only [List.getElem?_cons_zero, Option.some.injEq] at hj
        subst hj
        simp [writeChecks, htk]
      | succ j =>
        simp only [List.getElem?_cons_succ] at hj
        have := h4 j e' hj
        rw [show c + 16 + 16 * j = c + 16 * (j + 1) by omega] at this
        simp only [writeChecks]
        exact List.mem_cons_of_mem _ this

def ChecksIn (map : WriteMap) (ws : List Write) (i : Nat) (mb : Mbox) : Prop :=
  ∃ o, .word (map.mboxChecksum + i) o ∈ ws ∧ ∀ (j : Nat) e, mb.msgs[j]? = some e → .block (o + 16 * j) e.check ∈ ws

theorem writeMboxChecksums_spec {map : WriteMap} : ∀ (mbs : List Mbox) (i c : Nat),
    (∀ mb ∈ mbs, ∀ e ∈ mb.msgs, e.check.length = 16) →
    (writeMboxChecksums map i mbs c).2 = c + (mbs.map fun mb => mb.msgs.length * 16).sum ∧
    Seg (map.mboxChecksum + i) (map.mboxChecksum + i + mbs.length) c (c + (mbs.map fun mb => mb.msgs.length * 16).sum)
      (writeMboxChecksums map i mbs c).1 ∧
    ∀ (j : Nat) mb, mbs[j]? = some mb → ChecksIn map (writeMboxChecksums map i mbs c).1 (i + j) mb := by
  intro mbs
  induction mbs with
  | nil => intro i c _; exact ⟨rfl, seg_nil _ _, by intro j m h; simp at h⟩
  | cons mb mbs ih =>
    intro i c hl
    obtain ⟨a1, a2, a3, a4⟩ := writeChecks_spec mb.msgs c (hl mb (List.mem_cons_self ..))
    obtain ⟨b1, b2, b3⟩ := ih (i + 1) (writeChecks mb.msgs c).2 fun mb hmb => hl mb (List.mem_cons_of_mem _ hmb)
    have hc : c + ((mb :: mbs).map fun mb => mb.msgs.length * 16).sum =
        c + mb.msgs.length * 16 + (mbs.map fun mb => mb.msgs.length * 16).sum := by
      simp; omega
    refine ⟨?_, ?_, ?_⟩
    · rw [hc]
      show (writeMboxChecksums map (i + 1) mbs (writeChecks mb.msgs c).2).2 = _
      rw [b1, a1]
    · have : Seg (map.mboxChecksum + i) (map.mboxChecksum + (i + 1)) c (c + mb.msgs.length * 16)
          (.word (map.mboxChecksum + i) c :: (writeChecks mb.msgs c).1) := by
        refine ⟨a2, ?_, ?_⟩
        · rw [idxs_word, a3]; simp
        · intro k hk
          rw [idxs_word, a3] at hk
          simp only [List.mem_cons, List.not_mem_nil, or_false] at hk
          omega
      rw [a1] at b2
      have := this.append b2 (by omega) (by omega)
      rw [hc, List.length_cons, show map.mboxChecksum + i + (mbs.length + 1) = map.mboxChecksum + (i + 1) + mbs.length by omega]
      simpa only [writeMboxChecksums, a1] using this
    · intro j m' hj
      cases j with
      | zero =>
        simp only [List.getElem?_cons_zero, Option.some.injEq] at hj
        subst hj
        refine ⟨c, by simp [writeMboxChecksums], ?_⟩
        intro j e he
        have := a4 j e he
        simp only [writeMboxChecksums]
        exact List.mem_append_left _ (List.mem_cons_of_mem _ this)
      | succ j =>
        simp only [List.getElem?_cons_succ] at hj
        obtain ⟨o, o1, o2⟩ := b3 j m' hj
        rw [show i + (j + 1) = i + 1 + j by omega]
        simp only [writeMboxChecksums]
        exact ⟨o, List.mem_append_right _ o1, fun j e he => List.mem_append_right _ (o2 j e he)⟩

end Mairix
