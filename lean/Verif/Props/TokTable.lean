import Verif.Proofs.TokHistory2

/-!
# C03, C04, C05: the word tables
-/

namespace Mairix
open Spec

/-! ## C03 -/

/-- Calls of `add_token_in_file` for each word and message number in turn. -/
def addTokens (hash : Text → Nat) : List (Text × Nat) → Table Matches → Res (Table Matches)
  | [], t => .ok t
  | (w, i) :: rest, t => do
    let t ← addToken hash t w i
    addTokens hash rest t

/-- The numbers for which `w` was added. -/
private def idxs (adds : List (Text × Nat)) (w : Text) : List Nat :=
  ((adds.filter (fun p => lower p.1 == w)).map Prod.snd).foldl addAbs []

private theorem addTokens_rep {hash : Text → Nat} : ∀ (adds done : List (Text × Nat)) (t : Table Matches),
    Rep hash Valid t (fun w => listOpt (idxs done w)) →
    (done ++ adds).Pairwise (fun a b => a.2 ≤ b.2) → (∀ p ∈ done ++ adds, p.2 < maxMsgs) →
    ∃ t', addTokens hash adds t = .ok t' ∧ Rep hash Valid t' (fun w => listOpt (idxs (done ++ adds) w)) := by
  intro adds
  induction adds with
  | nil => intro done t h _ _; exact ⟨t, rfl, by simpa using h⟩
  | cons p adds ih =>
    intro done t h hs hm
    obtain ⟨w, i⟩ := p
    have hle : ∀ x ∈ idxs done (lower w), x ≤ i := by
      intro x hx
      rw [idxs, mem_foldl_addAbs] at hx
      rcases hx with hx | hx
      · simp at hx
      · obtain ⟨q, hq, rfl⟩ := List.mem_map.mp hx
        have hq' := (List.mem_filter.mp hq).1
        rw [List.pairwise_append] at hs
        exact hs.2.2 q hq' (w, i) (by simp)
    have hi : i < maxMsgs := hm (w, i) (by simp)
    have key : ∀ d l, l = idxs done (lower w) → Valid d l →
        ∃ d', addIndex d i = .ok d' ∧ Valid d' (addAbs l i) := by
      intro d l hl hv
      subst hl
      obtain ⟨d', a, b, _⟩ := addIndex_valid hv (i := i) hle (by unfold maxMsgs at hi; omega)
      exact ⟨d', a, b⟩
    obtain ⟨t1, k, t', h3, h4, h5⟩ := Rep.add h (fresh := initMatches) (text := lower w)
      (upd := fun m => addIndex m i) (a := fun o => addAbs (o.getD []) i)
      (fun hn => key initMatches [] (listOpt_none.mp hn).symm valid_init)
      (fun d b hb hv => key d b (listOpt_some.mp hb).1.symm hv)
    have hadd : addToken hash t w i = .ok t' := by
      unfold addToken
      simp only [h3, bind, Except.bind]
      exact h4
    have hrep : Rep hash Valid t' (fun w' => listOpt (idxs (done ++ [(w, i)]) w')) := by
      refine Rep.congr h5 ?_
      intro w'
      split
      · next heq =>
        subst heq
        have e1 : idxs (done ++ [(w, i)]) (lower w) = addAbs (idxs done (lower w)) i := by
          simp [idxs, List.filter_append]
        have e2 : (listOpt (idxs done (lower w))).getD [] = idxs done (lower w) := by
          unfold listOpt; split
          · next hc => simp [hc]
          · rfl
        simp only [e1, e2]
        refine (listOpt_some.mpr ⟨rfl, ?_⟩).symm
        unfold addAbs
        split
        · next hm => intro hc; rw [hc] at hm; simp at hm
        · simp
      · next heq =>
        have e1 : idxs (done ++ [(w, i)]) w' = idxs done w' := by
          have : ¬ lower w = w' := fun hc => heq hc.symm
          simp [idxs, List.filter_append, this]
        rw [e1]
    obtain ⟨t2, h6, h7⟩ := ih (done ++ [(w, i)]) t' hrep (by simpa using hs) (by simpa using hm)
    refine ⟨t2, ?_, by simpa using h7⟩
    simp only [addTokens, hadd, bind, Except.bind]
    exact h6

private theorem idxs_increasing {adds : List (Text × Nat)} (hs : adds.Pairwise (fun a b => a.2 ≤ b.2))
    (w : Text) : (idxs adds w).Pairwise (· < ·) := by
  have key : ∀ (is l : List Nat), l.Pairwise (· < ·) → is.Pairwise (· ≤ ·) →
      (∀ x ∈ l, ∀ y ∈ is, x ≤ y) → (is.foldl addAbs l).Pairwise (· < ·) := by
    intro is
    induction is with
    | nil => intro l h _ _; exact h
    | cons i is ih =>
      intro l hl his hle
      rw [List.pairwise_cons] at his
      refine ih _ ?_ his.2 ?_
      · unfold addAbs
        split
        · exact hl
        · next hn =>
          rw [List.pairwise_append]
          refine ⟨hl, by simp, ?_⟩
          intro a ha b hb
          simp at hb; subst hb
          have := hle a ha b (by simp)
          have : a ≠ b := fun hc => hn (hc ▸ ha)
          omega
      · intro x hx y hy
        unfold addAbs at hx
        split at hx
        · exact hle x hx y (by simp [hy])
        · rcases List.mem_append.mp hx with hx | hx
          · exact hle x hx y (by simp [hy])
          · simp at hx; subst hx; exact his.1 y hy
  refine key _ _ (by simp) ?_ (by simp)
  rw [List.pairwise_map]
  exact hs.filter _

/-- **C03**. For every hash function, adding any sequence of (word, message number) pairs with
non-decreasing message numbers below 63·2²⁴ to a new table succeeds (in particular every probe
sequence ends), no word is stored twice, and the table holds exactly the added words in lower
case, each with the strictly increasing list of the messages it was added for. -/
theorem C03_word_map (hash : Text → Nat) (adds : List (Text × Nat))
    (hs : adds.Pairwise (fun a b => a.2 ≤ b.2)) (hm : ∀ p ∈ adds, p.2 < 0x3F000000) :
    ∃ t, addTokens hash adds newTable = .ok t ∧
      ((tableWords t).map Prod.fst).Nodup ∧
      (∀ w, (∃ l, (w, l) ∈ tableWords t) ↔ ∃ p ∈ adds, lower p.1 = w) ∧
      ∀ w l, (w, l) ∈ tableWords t →
        l.Pairwise (· < ·) ∧ ∀ i, i ∈ l ↔ ∃ p ∈ adds, lower p.1 = w ∧ p.2 = i := by
  obtain ⟨t, h1, h⟩ := addTokens_rep (hash := hash) adds [] newTable
    ((Rep.new hash Valid).congr (by intro w; simp [idxs, listOpt])) (by simpa using hs)
    (by simpa [maxMsgs] using hm)
  simp only [List.nil_append] at h
  have hmem : ∀ w i, i ∈ idxs adds w ↔ ∃ p ∈ adds, lower p.1 = w ∧ p.2 = i := by
    intro w i
    rw [idxs, mem_foldl_addAbs]
    simp only [List.not_mem_nil, false_or, List.mem_map, List.mem_filter, beq_iff_eq, and_assoc]
  have hword : ∀ w l, (w, l) ∈ tableWords t → l = idxs adds w ∧ l ≠ [] := by
    intro w l hw
    obtain ⟨e, he, h2⟩ := List.mem_map.mp hw
    obtain ⟨b, hb, hv⟩ := h.sound e he
    obtain ⟨e1, e2⟩ := listOpt_some.mp hb
    rw [valid_readAll hv] at h2
    cases h2
    exact ⟨e1.symm, e1 ▸ e2⟩
  refine ⟨t, h1, ?_, ?_, ?_⟩
  · unfold tableWords; rw [List.map_map]; exact h.ok.nodup
  · intro w
    constructor
    · rintro ⟨l, hl⟩
      obtain ⟨e1, e2⟩ := hword w l hl
      obtain ⟨x, hx⟩ := List.exists_mem_of_ne_nil l e2
      rw [e1, hmem] at hx
      obtain ⟨p, hp, h2, _⟩ := hx
      exact ⟨p, hp, h2⟩
    · rintro ⟨p, hp, rfl⟩
      have hx := (hmem (lower p.1) p.2).mpr ⟨p, hp, rfl, rfl⟩
      have hne : idxs adds (lower p.1) ≠ [] := fun hc => by rw [hc] at hx; simp at hx
      obtain ⟨e, he, h2⟩ := h.complete (lower p.1) _ (listOpt_some.mpr ⟨rfl, hne⟩)
      exact ⟨_, List.mem_map.mpr ⟨e, he, by rw [h2]⟩⟩
  · intro w l hl
    obtain ⟨e1, _⟩ := hword w l hl
    subst e1
    exact ⟨idxs_increasing hs w, hmem w⟩

/-- The hypotheses are met with colliding words (`hash` is constant), repetitions and both cases. -/
example : ∃ t, addTokens (fun _ => 7) [(bs "Foo", 0), (bs "bar", 0), (bs "foo", 0), (bs "FOO", 3)] newTable = .ok t ∧
    (bs "foo", [0, 3]) ∈ tableWords t := by
  obtain ⟨t, h1, _, h2, h3⟩ := C03_word_map (fun _ => 7)
    [(bs "Foo", 0), (bs "bar", 0), (bs "foo", 0), (bs "FOO", 3)] (by decide) (by decide)
  refine ⟨t, h1, ?_⟩
  obtain ⟨l, hl⟩ := (h2 (bs "foo")).mpr ⟨(bs "Foo", 0), by decide, by decide⟩
  obtain ⟨h4, h5⟩ := h3 _ _ hl
  have : l = [0, 3] := sorted_ext h4 (by decide) (fun x => by
    rw [h5]
    simp only [List.mem_cons, List.not_mem_nil, or_false, exists_eq_or_imp, exists_eq_left]
    have e1 : lower (bs "Foo") = bs "foo" := by decide
    have e2 : lower (bs "bar") ≠ bs "foo" := by decide
    have e3 : lower (bs "foo") = bs "foo" := by decide
    have e4 : lower (bs "FOO") = bs "foo" := by decide
    simp only [e1, e2, e3, e4, true_and, false_and, false_or]
    omega)
  exact this ▸ hl

/-! ## Histories of a word table -/

/-- What happens to a word table over the runs of the program. -/
inductive TableOp where
  /-- a message is added to the database (db.c:1026 etc.) -/
  | newMessage
  /-- a word of the last message is added, in any letter case -/
  | word (w : Text)
  /-- the table is written out and loaded by a later run; `tail` are the bytes of the file after
  the word's terminated list, `junk` the contents of an uninitialised variable -/
  | reload (junk : Text → Nat) (tail : Text → List UInt8)
  /-- the messages not marked are purged -/
  | purge (keep : List Bool)

/-- The operation on the program's table: number of messages and table. -/
def tableStep (hash : Text → Nat) (fuel : Nat) : TableOp → Nat × Table Matches → Res (Nat × Table Matches)
  | .newMessage, (n, t) => .ok (n + 1, t)
  | .word w, (n, t) => (addToken hash t w (n - 1)).map fun t => (n, t)
  | .reload junk tail, (n, t) => (loadTable hash n junk (fileTokens t tail)).map fun t => (n, t)
  | .purge keep, (_, t) => (purgeTable fuel keep t).map fun t => (keep.count true, t)

def tableRun (hash : Text → Nat) (fuel : Nat) : List TableOp → Nat × Table Matches → Res (Nat × Table Matches)
  | [], s => .ok s
  | op :: ops, s => do
    let s ← tableStep hash fuel op s
    tableRun hash fuel ops s

/-- The operation on the mail; `none` for operations that cannot occur: a word without a message,
marks for another number of messages, more than 63·2²⁴ messages. -/
def mailStep : TableOp → Mail → Option Mail
  | .newMessage, mail => if mail.length < 0x3F000000 then some (mail ++ [[]]) else none
  | .word w, mail => addWord (lower w) mail
  | .reload _ _, mail => some mail
  | .purge keep, mail => if keep.length = mail.length then some (keepOnly keep mail) else none

def mailRun : List TableOp → Mail → Option Mail
  | [], mail => some mail
  | op :: ops, mail => (mailStep op mail).bind (mailRun ops)

theorem history_rep {hash : Text → Nat} : ∀ (ops : List TableOp) (mail mail' : Mail) (t : Table Matches),
    RepMail hash t mail → mail.length ≤ maxMsgs → mailRun ops mail = some mail' →
    ∃ fuel0, ∀ fuel ≥ fuel0, ∃ t', tableRun hash fuel ops (mail.length, t) = .ok (mail'.length, t') ∧
      RepMail hash t' mail' ∧ mail'.length ≤ maxMsgs := by
  intro ops
  induction ops with
  | nil =>
    intro mail mail' t h hsm hr
    simp only [mailRun, Option.some.injEq] at hr
    subst hr
    exact ⟨0, fun _ _ => ⟨t, rfl, h, hsm⟩⟩
  | cons op ops ih =>
    intro mail mail' t h hsm hr
    simp only [mailRun, Option.bind_eq_some_iff] at hr
    obtain ⟨mail1, hr1, hr2⟩ := hr
    have key : ∃ fuel0, ∀ fuel ≥ fuel0, ∃ t1, tableStep hash fuel op (mail.length, t) = .ok (mail1.length, t1) ∧
        RepMail hash t1 mail1 ∧ mail1.length ≤ maxMsgs := by
      cases op with
      | newMessage =>
        simp only [mailStep] at hr1
        split at hr1
        · next hl =>
          cases hr1
          exact ⟨0, fun _ _ => ⟨t, by simp [tableStep], h.newMessage, by simp [maxMsgs]; omega⟩⟩
        · cases hr1
      | word w =>
        obtain ⟨t1, h1, h2⟩ := h.addWord hr1 hsm
        have hl : mail1.length = mail.length := by
          obtain ⟨ms, ws, e1, e2⟩ := addWord_eq hr1
          rw [e1, e2]; simp
        exact ⟨0, fun _ _ => ⟨t1, by simp [tableStep, h1, hl, Except.map], h2, by omega⟩⟩
      | reload junk tail =>
        simp only [mailStep, Option.some.injEq] at hr1
        subst hr1
        obtain ⟨t1, h1, h2⟩ := h.reload' hash junk tail _ (List.Perm.refl _)
        exact ⟨0, fun _ _ => ⟨t1, by simp [tableStep, h1, Except.map], h2, hsm⟩⟩
      | purge keep =>
        simp only [mailStep] at hr1
        split at hr1
        · next hl =>
          cases hr1
          obtain ⟨fuel0, hf⟩ := h.purge hl hsm
          refine ⟨fuel0, fun fuel hge => ?_⟩
          obtain ⟨t1, h1, h2⟩ := hf fuel hge
          refine ⟨t1, by simp [tableStep, h1, Except.map, keepOnly_length keep mail hl], h2, ?_⟩
          rw [keepOnly_length keep mail hl]
          have := List.count_le_length (a := true) (l := keep)
          omega
        · cases hr1
    obtain ⟨f1, k1⟩ := key
    -- the table after the first step may depend on the fuel only through success
    have hdet : ∀ fuel ≥ f1, ∀ fuel' ≥ f1, tableStep hash fuel op (mail.length, t) = tableStep hash fuel' op (mail.length, t) := by
      cases op with
      | purge keep =>
        intro fuel hge fuel' hge'
        obtain ⟨t1, h1, _⟩ := k1 fuel hge
        obtain ⟨t2, h2, _⟩ := k1 fuel' hge'
        have hmono2 : ∀ f g, f ≤ g → ∀ r, tableStep hash f (.purge keep) (mail.length, t) = .ok r →
            tableStep hash g (.purge keep) (mail.length, t) = .ok r := by
          intro f g hfg r hr
          simp only [tableStep] at hr ⊢
          cases hp : purgeTable f keep t with
          | error e => rw [hp] at hr; simp [Except.map] at hr
          | ok p => rw [hp] at hr; rw [show purgeTable g keep t = .ok p from recodeTable_mono hp hfg]; exact hr
        rcases Nat.le_total fuel fuel' with hff | hff
        · rw [h1, hmono2 _ _ hff _ h1]
        · rw [h2, hmono2 _ _ hff _ h2]
      | newMessage => intros; rfl
      | word w => intros; rfl
      | reload junk tail => intros; rfl
    obtain ⟨t1, h1, h2, h3⟩ := k1 f1 (Nat.le_refl _)
    obtain ⟨f2, k2⟩ := ih mail1 mail' t1 h2 h3 hr2
    refine ⟨max f1 f2, fun fuel hge => ?_⟩
    obtain ⟨t2, h4, h5⟩ := k2 fuel (by omega)
    refine ⟨t2, ?_, h5⟩
    simp only [tableRun, bind, Except.bind]
    rw [hdet fuel (by omega) f1 (Nat.le_refl _), h1]
    exact h4

/-- **C03, C04, C05 for whole histories**. For every hash function and every history of added
messages, added words, reloads and purges, the program's operations all succeed (given enough
iterations of the purge's `for (;;)` loop, i.e. it ends), the number of messages is right, no word
is stored twice, and the table holds exactly the words that occur in some remaining message, each
with the strictly increasing list of the (renumbered) messages that contain it. -/
theorem C05_history (hash : Text → Nat) (ops : List TableOp) (mail : Mail)
    (hpossible : mailRun ops [] = some mail) :
    ∃ fuel0, ∀ fuel ≥ fuel0, ∃ t, tableRun hash fuel ops (0, newTable) = .ok (mail.length, t) ∧
      ((tableWords t).map Prod.fst).Nodup ∧
      ∀ w l, (w, l) ∈ tableWords t ↔ l ≠ [] ∧ IsListing mail w l := by
  obtain ⟨f0, h⟩ := history_rep (hash := hash) ops [] mail newTable (RepMail.new hash) (by simp) hpossible
  refine ⟨f0, fun fuel hge => ?_⟩
  obtain ⟨t, h1, h2, _⟩ := h fuel hge
  exact ⟨t, by simpa using h1, h2.words⟩

/-- A history with all operations that is possible. -/
example : mailRun [.newMessage, .word (bs "a"), .word (bs "B"), .reload (fun _ => 77) (fun _ => [1]),
    .newMessage, .word (bs "b"), .purge [false, true], .reload (fun _ => 9) (fun _ => []),
    .newMessage, .word (bs "c")] [] = some [[bs "b"], [bs "c"]] := by decide

/-- **C04**. If a table is the index of `mail` in the sense of C05 after some history, then loading
what was saved of it succeeds and gives a table with exactly the same words and lists; and after
that any further history goes on as specified. -/
theorem C04_reload (hash : Text → Nat) (ops more : List TableOp) (mail mail' : Mail)
    (hpossible : mailRun ops [] = some mail) (hmore : mailRun more mail = some mail')
    (junk : Text → Nat) (tail : Text → List UInt8) :
    ∃ fuel0, ∀ fuel ≥ fuel0, ∃ t t1 t2,
      tableRun hash fuel ops (0, newTable) = .ok (mail.length, t) ∧
      loadTable hash mail.length junk (fileTokens t tail) = .ok t1 ∧
      (∀ w l, (w, l) ∈ tableWords t1 ↔ (w, l) ∈ tableWords t) ∧
      ((tableWords t1).map Prod.fst).Nodup ∧
      tableRun hash fuel more (mail.length, t1) = .ok (mail'.length, t2) ∧
      ∀ w l, (w, l) ∈ tableWords t2 ↔ l ≠ [] ∧ IsListing mail' w l := by
  obtain ⟨f0, h⟩ := history_rep (hash := hash) ops [] mail newTable (RepMail.new hash) (by simp) hpossible
  obtain ⟨t, h1, h2, h3⟩ := h f0 (Nat.le_refl _)
  obtain ⟨t1, h4, h5⟩ := h2.reload' hash junk tail _ (List.Perm.refl _)
  obtain ⟨f1, h6⟩ := history_rep (hash := hash) more mail mail' t1 h5 h3 hmore
  -- use one fuel for which everything is known
  obtain ⟨f2, h7⟩ := history_rep (hash := hash) (ops ++ .reload junk tail :: more) [] mail' newTable
    (RepMail.new hash) (by simp) (by
      have : ∀ (a : List TableOp) (m : Mail), mailRun (a ++ .reload junk tail :: more) m =
          (mailRun a m).bind (mailRun more) := by
        intro a
        induction a with
        | nil => intro m; simp [mailRun, mailStep]
        | cons o a iha =>
          intro m
          simp only [List.cons_append, mailRun]
          cases mailStep o m with
          | none => rfl
          | some m1 => simpa using iha m1
      rw [this, hpossible]
      exact hmore)
  refine ⟨max (max f0 f1) f2, fun fuel hge => ?_⟩
  obtain ⟨ta, a1, a2, a3⟩ := h fuel (by omega)
  obtain ⟨tb, b1, b2⟩ := a2.reload' hash junk tail _ (List.Perm.refl _)
  obtain ⟨tc, c1, c2, _⟩ := h7 fuel (by omega)
  have hsplit : ∀ (a : List TableOp) (s : Nat × Table Matches),
      tableRun hash fuel (a ++ .reload junk tail :: more) s =
        (do let s1 ← tableRun hash fuel a s
            let s2 ← tableStep hash fuel (.reload junk tail) s1
            tableRun hash fuel more s2) := by
    intro a
    induction a with
    | nil => intro s; simp [tableRun, bind, Except.bind]
    | cons o a iha =>
      intro s
      simp only [List.cons_append, tableRun, bind, Except.bind] at iha ⊢
      cases tableStep hash fuel o s with
      | error e => rfl
      | ok s1 => exact iha s1
  refine ⟨ta, tb, tc, by simpa using a1, b1, ?_, b2.words.1, ?_, c2.words.2⟩
  · intro w l; rw [b2.words.2, a2.words.2]
  · have a1' : tableRun hash fuel ops (0, newTable) = .ok (mail.length, ta) := by simpa using a1
    have c1' : tableRun hash fuel (ops ++ .reload junk tail :: more) (0, newTable) = .ok (mail'.length, tc) := by
      simpa using c1
    rw [hsplit, a1'] at c1'
    simp only [bind, Except.bind, tableStep, b1, Except.map] at c1'
    exact c1'

/-- **C05**. After any history, purging succeeds and gives each word the image of its list under the
renumbering of the remaining messages (message `i` becomes the number of marked messages before
it); exactly the words whose list becomes empty disappear. -/
theorem C05_purge (hash : Text → Nat) (ops : List TableOp) (mail : Mail)
    (hpossible : mailRun ops [] = some mail) (keep : List Bool) (hk : keep.length = mail.length) :
    ∃ fuel0, ∀ fuel ≥ fuel0, ∃ t t1, tableRun hash fuel ops (0, newTable) = .ok (mail.length, t) ∧
      purgeTable fuel keep t = .ok t1 ∧ ((tableWords t1).map Prod.fst).Nodup ∧
      ∀ w l1, (w, l1) ∈ tableWords t1 ↔ l1 ≠ [] ∧ ∃ l, (w, l) ∈ tableWords t ∧
        l1 = (l.filter (fun i => keep[i]? = some true)).map (fun i => (keep.take i).count true) := by
  obtain ⟨f0, h⟩ := history_rep (hash := hash) (ops ++ [.purge keep]) [] (keepOnly keep mail) newTable
    (RepMail.new hash) (by simp) (by
      have : ∀ (a : List TableOp) (m : Mail), mailRun (a ++ [.purge keep]) m =
          (mailRun a m).bind (mailStep (.purge keep)) := by
        intro a
        induction a with
        | nil => intro m; simp only [List.nil_append, mailRun, Option.bind_some]
                 cases mailStep (.purge keep) m <;> rfl
        | cons o a iha =>
          intro m
          simp only [List.cons_append, mailRun]
          cases mailStep o m with
          | none => rfl
          | some m1 => simpa using iha m1
      rw [this, hpossible]
      simp [mailStep, hk])
  obtain ⟨f1, h'⟩ := history_rep (hash := hash) ops [] mail newTable (RepMail.new hash) (by simp) hpossible
  refine ⟨max f0 f1, fun fuel hge => ?_⟩
  obtain ⟨t, a1, a2, _⟩ := h' fuel (by omega)
  obtain ⟨t1, b1, b2, _⟩ := h fuel (by omega)
  have hsplit : ∀ (a : List TableOp) (s : Nat × Table Matches),
      tableRun hash fuel (a ++ [.purge keep]) s =
        (do let s1 ← tableRun hash fuel a s
            tableStep hash fuel (.purge keep) s1) := by
    intro a
    induction a with
    | nil => intro s; simp only [List.nil_append, tableRun, bind, Except.bind]
             cases tableStep hash fuel (.purge keep) s <;> rfl
    | cons o a iha =>
      intro s
      simp only [List.cons_append, tableRun, bind, Except.bind] at iha ⊢
      cases tableStep hash fuel o s with
      | error e => rfl
      | ok s1 => exact iha s1
  have a1' : tableRun hash fuel ops (0, newTable) = .ok (mail.length, t) := by simpa using a1
  refine ⟨t, t1, a1', ?_, b2.words.1, ?_⟩
  · have b1' : tableRun hash fuel (ops ++ [.purge keep]) (0, newTable) = .ok ((keepOnly keep mail).length, t1) := by
      simpa using b1
    rw [hsplit, a1'] at b1'
    simp only [bind, Except.bind, tableStep] at b1'
    cases hp : purgeTable fuel keep t with
    | error e => rw [hp] at b1'; simp [Except.map] at b1'
    | ok t' => rw [hp] at b1'; simp only [Except.map, Except.ok.injEq, Prod.mk.injEq] at b1'; rw [b1'.2]
  · have hfm : ∀ l : List Nat, (l.filter (fun i => keep[i]? = some true)).map (fun i => (keep.take i).count true)
        = l.filterMap (newIdxOf keep) := by
      intro l
      induction l with
      | nil => rfl
      | cons x l ihl =>
        simp only [List.filterMap_cons, newIdxOf_eq, List.filter_cons]
        by_cases hx : keep[x]? = some true
        · simp [hx, ← ihl]
        · simp [hx, ← ihl]
    intro w l1
    rw [b2.words.2]
    constructor
    · rintro ⟨h1, h2⟩
      refine ⟨h1, listing mail w, ?_, ?_⟩
      · rw [a2.words.2]
        refine ⟨?_, listing_isListing _ _⟩
        intro hc
        rw [isListing_eq h2, listing_purge hk, hc] at h1
        exact h1 rfl
      · rw [hfm, ← listing_purge hk]; exact isListing_eq h2
    · rintro ⟨h1, l, h2, h3⟩
      refine ⟨h1, ?_⟩
      rw [a2.words.2] at h2
      rw [h3, hfm, isListing_eq h2.2, ← listing_purge hk]
      exact listing_isListing _ _

/-! ## The message id table -/

/-- What happens to the message id table: as for the word tables, with a mark on each id. -/
inductive IdOp where
  | newMessage
  | id (w : Text) (own : Bool)
  | reload (junk0 junk1 : Text → Nat) (tail0 tail1 : Text → List UInt8)
  | purge (keep : List Bool)

/-- The operation on the program's table. For `reload`, the values `junk1` found in the
uninitialised variable are those of the program. -/
def idStep (hash : Text → Nat) (fuel : Nat) : IdOp → Nat × Table Matches2 → Res (Nat × Table Matches2)
  | .newMessage, (n, t) => .ok (n + 1, t)
  | .id w own, (n, t) => (addToken2 hash t w (n - 1) own).map fun t => (n, t)
  | .reload j0 j1 t0 t1, (n, t) => (loadTable2 hash n j0 j1 (fileTokens2 t t0 t1)).map fun t => (n, t)
  | .purge keep, (_, t) => (purgeTable2 fuel keep t).map fun t => (keep.count true, t)

def idRun (hash : Text → Nat) (fuel : Nat) : List IdOp → Nat × Table Matches2 → Res (Nat × Table Matches2)
  | [], s => .ok s
  | op :: ops, s => do
    let s ← idStep hash fuel op s
    idRun hash fuel ops s

/-- As `mailStep`. -/
def idMailStep : IdOp → IdMail → Option IdMail
  | .newMessage, mail => if mail.length < 0x3F000000 then some (mail ++ [[]]) else none
  | .id w own, mail => addId (lower w, own) mail
  | .reload _ _ _ _, mail => some mail
  | .purge keep, mail => if keep.length = mail.length then some (keepOnly keep mail) else none

def idMailRun : List IdOp → IdMail → Option IdMail
  | [], mail => some mail
  | op :: ops, mail => (idMailStep op mail).bind (idMailRun ops)

/-- Whenever the table is reloaded with some message in it, the indeterminate values happen to be
below the number of messages. -/
def JunkOk : List IdOp → IdMail → Prop
  | [], _ => True
  | op :: ops, mail =>
    (match op with
      | .reload _ j1 _ _ => mail ≠ [] → ∀ w, j1 w < mail.length
      | _ => True) ∧ ∀ mail', idMailStep op mail = some mail' → JunkOk ops mail'

theorem idHistory_rep {hash : Text → Nat} : ∀ (ops : List IdOp) (mail mail' : IdMail) (t : Table Matches2),
    RepIds hash t mail → mail.length ≤ maxMsgs → JunkOk ops mail → idMailRun ops mail = some mail' →
    ∃ fuel0, ∀ fuel ≥ fuel0, ∃ t', idRun hash fuel ops (mail.length, t) = .ok (mail'.length, t') ∧
      RepIds hash t' mail' ∧ mail'.length ≤ maxMsgs := by
  intro ops
  induction ops with
  | nil =>
    intro mail mail' t h hsm _ hr
    simp only [idMailRun, Option.some.injEq] at hr
    subst hr
    exact ⟨0, fun _ _ => ⟨t, rfl, h, hsm⟩⟩
  | cons op ops ih =>
    intro mail mail' t h hsm hj hr
    simp only [idMailRun, Option.bind_eq_some_iff] at hr
    obtain ⟨mail1, hr1, hr2⟩ := hr
    have hj2 := hj.2 mail1 hr1
    have key : ∃ fuel0, ∃ t1, (∀ fuel ≥ fuel0, idStep hash fuel op (mail.length, t) = .ok (mail1.length, t1)) ∧
        RepIds hash t1 mail1 ∧ mail1.length ≤ maxMsgs := by
      cases op with
      | newMessage =>
        simp only [idMailStep] at hr1
        split at hr1
        · next hl =>
          cases hr1
          exact ⟨0, t, fun _ _ => by simp [idStep], h.newMessage, by simp [maxMsgs]; omega⟩
        · cases hr1
      | id w own =>
        obtain ⟨t1, h1, h2⟩ := h.addId hr1 hsm
        have hl : mail1.length = mail.length := by
          obtain ⟨ms, ws, e1, e2⟩ := addId_eq hr1
          rw [e1, e2]; simp
        exact ⟨0, t1, fun _ _ => by simp [idStep, h1, hl, Except.map], h2, by omega⟩
      | reload j0 j1 t0 t1 =>
        simp only [idMailStep, Option.some.injEq] at hr1
        subst hr1
        obtain ⟨t2, h1, h2⟩ := h.reload' hash j0 j1 hj.1 t0 t1 _ (List.Perm.refl _)
        exact ⟨0, t2, fun _ _ => by simp [idStep, h1, Except.map], h2, hsm⟩
      | purge keep =>
        simp only [idMailStep] at hr1
        split at hr1
        · next hl =>
          cases hr1
          obtain ⟨fuel0, hf⟩ := h.purge hl hsm
          obtain ⟨t1, h1, h2⟩ := hf fuel0 (Nat.le_refl _)
          refine ⟨fuel0, t1, fun fuel hge => ?_, h2, ?_⟩
          · simp only [idStep]
            rw [show purgeTable2 fuel keep t = .ok t1 from recodeTable_mono h1 hge]
            simp [Except.map, keepOnly_length keep mail hl]
          · rw [keepOnly_length keep mail hl]
            have := List.count_le_length (a := true) (l := keep)
            omega
        · cases hr1
    obtain ⟨f1, t1, h1, h2, h3⟩ := key
    obtain ⟨f2, k2⟩ := ih mail1 mail' t1 h2 h3 hj2 hr2
    refine ⟨max f1 f2, fun fuel hge => ?_⟩
    obtain ⟨t2, h4, h5⟩ := k2 fuel (by omega)
    refine ⟨t2, ?_, h5⟩
    simp only [idRun, bind, Except.bind]
    rw [h1 fuel (by omega)]
    exact h4

/-- **C03, C04, C05 for the message id table** (partial: `JunkOk` is needed because of
`C04_ids_violation`). After every history the table holds exactly the ids mentioned by some
remaining message, each once, with the list of the messages that mention it and the list of the
messages that have it as their own. -/
theorem C05_id_history_partial (hash : Text → Nat) (ops : List IdOp) (mail : IdMail)
    (hpossible : idMailRun ops [] = some mail) (hjunk : JunkOk ops []) :
    ∃ fuel0, ∀ fuel ≥ fuel0, ∃ t, idRun hash fuel ops (0, newTable) = .ok (mail.length, t) ∧
      ((tableIds t).map Prod.fst).Nodup ∧
      ∀ w l0 l1, (w, l0, l1) ∈ tableIds t ↔
        l0 ≠ [] ∧ IsListing (idsMentioned mail) w l0 ∧ IsListing (idsOwn mail) w l1 := by
  obtain ⟨f0, h⟩ := idHistory_rep (hash := hash) ops [] mail newTable (RepIds.new hash) (by simp) hjunk hpossible
  refine ⟨f0, fun fuel hge => ?_⟩
  obtain ⟨t, h1, h2, _⟩ := h fuel hge
  exact ⟨t, by simpa using h1, h2.ids⟩

/-- A history with all operations that meets the hypotheses. -/
example : idMailRun [.newMessage, .id (bs "A@b") true, .id (bs "c") false, .newMessage, .id (bs "d") true,
      .id (bs "a@b") false,
      .reload (fun _ => 77) (fun _ => 1) (fun _ => [1]) (fun _ => []), .purge [false, true]] [] =
        some [[(bs "a@b", false), (bs "d", true)]] ∧
    JunkOk [.newMessage, .id (bs "A@b") true, .id (bs "c") false, .newMessage, .id (bs "d") true,
      .id (bs "a@b") false,
      .reload (fun _ => 77) (fun _ => 1) (fun _ => [1]) (fun _ => []), .purge [false, true]] [] := by
  refine ⟨by decide, ?_⟩
  simp [JunkOk, idMailStep, addId]

/-- **The message id table of a saved database may fail to load**: a single message that refers to
another one, saved and reloaded, aborts on an assertion if the uninitialised variable of
`int_list_reader_copy` happens to hold 5. -/
theorem C04_ids_violation : idMailRun [.newMessage, .id (bs "c") false] [] = some [[(bs "c", false)]] ∧
    idRun (fun _ => 0) 0 [.newMessage, .id (bs "c") false,
      .reload (fun _ => 0) (fun _ => 5) (fun _ => []) (fun _ => [])] (0, newTable) = .error .assertion := by
  constructor
  · decide
  · decide +kernel

end Mairix
