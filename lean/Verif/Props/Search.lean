import Verif.Proofs.Results

/-!
# C15, C18, C19, C21, C22, C24, C25: searching

`Shows db info` (Proofs/Query.lean) says that the opened database `db` is an index of the messages
`info`: same number of messages, every word table lists each word under exactly the messages that
have it, dates, sizes and flags agree, and dead entries are those without a path.
-/

namespace Mairix
open Spec

/-! ## A small database that meets the hypotheses -/

/-- A test for `Lists` that can be computed. -/
def listsCheck (tt : DbTable) (info : List Info) (f : Field) : Bool :=
  (tt.all fun t => match t.1 with
    | some w => (readAll t.2).all fun i => match info[i]? with
      | some m => (m.words f).contains w
      | none => false
    | none => true) &&
  (List.range info.length).all fun i => match info[i]? with
    | some m => (m.words f).all fun w => tt.any fun t => t.1 = some w && (readAll t.2).contains i
    | none => true

theorem lists_of_check {tt info f} (h : listsCheck tt info f = true) : Lists tt info f := by
  simp only [listsCheck, Bool.and_eq_true, List.all_eq_true] at h
  obtain ⟨h1, h2⟩ := h
  constructor
  · intro w enc hm i hi
    have := h1 _ hm
    simp only [List.all_eq_true] at this
    have := this i hi
    cases hx : info[i]? with
    | none => simp [hx] at this
    | some m => simp only [hx] at this; exact ⟨m, rfl, by simpa using this⟩
  · intro i m w hx hw
    have hi : i < info.length := (List.getElem?_eq_some_iff.1 hx).1
    have := h2 i (by simpa using hi)
    simp only [hx, List.all_eq_true] at this
    have := this w hw
    rw [List.any_eq_true] at this
    obtain ⟨⟨a, b⟩, h3, h4⟩ := this
    simp at h4
    obtain ⟨rfl, h4⟩ := h4
    exact ⟨b, h3, h4⟩

/-- Message 0: a file, from ann, subject "hello"; message 1: a file, from bob to ann, subject "hello world",
body "lunch"; message 2: gone, subject "world". Messages 0 and 1 are in thread 0, message 2 in thread 1. -/
def exDb : ReadDb where
  msgs := [{ typeAndFlags := 1 ||| 8, path := bs "/m/1", mbix := 0, msgix := 0, mtime := 5, size := 700, date := 100, tid := 0 },
    { typeAndFlags := 1 ||| 32, path := bs "/m/2", mbix := 0, msgix := 0, mtime := 6, size := 30000, date := 50, tid := 0 },
    { typeAndFlags := 0, path := [], mbix := 0, msgix := 0, mtime := 0, size := 9, date := 70, tid := 1 }]
  mboxPaths := []
  to := [(some (bs "ann"), [1, 0xff, 7])]
  cc := []
  «from» := [(some (bs "ann"), [0, 0xff, 7]), (some (bs "bob"), [1, 0xff])]
  subject := [(some (bs "world"), [1, 1, 0xff]), (some (bs "hello"), [0, 1, 0xff])]
  body := [(some (bs "lunch"), [1, 0xff])]
  attachmentName := []
  msgIds := [(some (bs "a@b"), [0, 1, 0xff], [0, 0xff])]

/-- The messages indexed by `exDb`. -/
def exInfo : List Info :=
  [{ words := fun f => match f with | .sender => [bs "ann"] | .subject => [bs "hello"] | _ => []
     path := some (bs "/m/1"), ids := [bs "a@b"], date := 100, size := 700
     has := fun f => match f with | .seen => true | _ => false },
   { words := fun f => match f with
       | .to => [bs "ann"] | .sender => [bs "bob"] | .subject => [bs "hello", bs "world"] | .body => [bs "lunch"] | _ => []
     path := some (bs "/m/2"), ids := [], date := 50, size := 30000
     has := fun f => match f with | .flagged => true | _ => false },
   { words := fun f => match f with | .subject => [bs "world"] | _ => []
     path := none, ids := [], date := 70, size := 9, has := fun _ => false }]

theorem exShows : Shows exDb exInfo where
  len := rfl
  to := lists_of_check (by decide)
  cc := lists_of_check (by decide)
  sender := lists_of_check (by decide)
  subject := lists_of_check (by decide)
  body := lists_of_check (by decide)
  attachment := lists_of_check (by decide)
  ids := by
    refine ⟨by simp [exDb], ?_, ?_⟩
    · intro w e0 e1 h i hi
      simp only [exDb, List.mem_singleton, Prod.mk.injEq, Option.some.injEq] at h
      obtain ⟨rfl, _, rfl⟩ := h
      have : readAll [0, 255] = [0] := by decide
      rw [this] at hi
      simp at hi
      subst hi
      exact ⟨_, rfl, by decide⟩
    · intro i m w hm hw
      have hi : i < 3 := (List.getElem?_eq_some_iff.1 hm).1
      have h3 : i = 0 ∨ i = 1 ∨ i = 2 := by omega
      rcases h3 with rfl | rfl | rfl <;> cases hm
      · simp at hw; subst hw; exact ⟨[0, 1, 0xff], [0, 0xff], by simp [exDb], by decide⟩
      · simp at hw
      · simp at hw
  each := by
    intro i m x hm hx
    have hi : i < 3 := (List.getElem?_eq_some_iff.1 hm).1
    have h3 : i = 0 ∨ i = 1 ∨ i = 2 := by omega
    rcases h3 with rfl | rfl | rfl <;> cases hm <;> cases hx <;> constructor <;> decide

theorem exPaths : PathsKnown exDb exInfo := by
  intro i m x hm hx
  have hi : i < 3 := (List.getElem?_eq_some_iff.1 hm).1
  have h3 : i = 0 ∨ i = 1 ∨ i = 2 := by omega
  rcases h3 with rfl | rfl | rfl <;> cases hm <;> cases hx <;> decide

/-! ## C18: queries -/

/-- **C18 (partial).** For every query whose arguments are written as the manual says, the search
succeeds and returns exactly the live messages that satisfy every argument. For an argument of words
that means: some alternative (separated by `/`) has all its conditions (separated by `,`) satisfied,
a `~`condition being satisfied when the condition is not; white space is allowed before the last
condition. Missing from the full statement: white space in the last condition and an argument ending
in a separator (both handled differently by the code, see the violations below), words of more than 31
letters with `=`, sizes of 2^31 or more, errors together with an anchor (C17), and the path field
together with other fields (C19): these are excluded by `Cond.Searchable`. -/
theorem C18_query_partial {db : ReadDb} {info : List Info} (hs : Shows db info) {scan dateRange}
    (hscan : ScansDates scan dateRange) {cs : List Cond} {args : List Text} (hw : QueryWrittenAs dateRange cs args)
    (hc : ∀ c ∈ cs, Cond.Searchable db info c) (sort : List Nat → List Nat) :
    ∃ r, doSearch scan sort db args false false = .ok r ∧
      ∀ i, i ∈ r ↔ ∃ x, info[i]? = some x ∧ x.path ≠ none ∧ ∀ c ∈ cs, c.Holds x := by
  have hones : IsVec info.length (List.replicate db.msgs.length true) (fun _ => True) := by
    rw [hs.len]; exact isVec_ones _
  obtain ⟨h, e, v⟩ := allHits_ok hs hscan hw hc hones
  refine ⟨collect 0 db.msgs h, ?_, ?_⟩
  · simp only [doSearch, e, bind, Except.bind]
    simp
  · intro i
    have := (collect_ok db.msgs h 0).2.2 i
    rw [Nat.zero_add] at this
    rw [this]
    constructor
    · rintro ⟨m, h1, h2, h3⟩
      have hi : i < info.length := by rw [← hs.len]; exact (List.getElem?_eq_some_iff.1 h1).1
      obtain ⟨_, x, hx, hcs⟩ := (v.2 i hi).1 h2
      exact ⟨x, hx, fun hp => h3 ((hs.each i m x h1 hx).dead.2 hp), hcs⟩
    · rintro ⟨x, hx, hp, hcs⟩
      have hi : i < info.length := (List.getElem?_eq_some_iff.1 hx).1
      have h1 : db.msgs[i]? = some (db.msgs[i]'(by rw [hs.len]; exact hi)) := by simp [hs.len, hi]
      exact ⟨_, h1, (v.2 i hi).2 ⟨trivial, x, hx, hcs⟩, fun hd => hp ((hs.each i _ x h1 hx).dead.1 hd)⟩

/-- No dates are used in the examples. -/
def noDates : Text → Option Int → Option Int → Prop := fun _ _ _ => False

theorem noDates_scan (scan) : ScansDates scan noDates := fun _ _ _ h => h.elim

/-- The hypotheses of `C18_query_partial` are met by `mairix "s: hello,~world/lunch" z:-1k`. -/
example : QueryWrittenAs noDates
      [.words [.subject] [[⟨false, false, bs "hello", none⟩, ⟨true, false, bs "world", none⟩],
        [⟨false, false, bs "lunch", none⟩]],
       .sizes none (some (1 * 1024))]
      [bs "s: hello,~world/lunch", bs "z:-1k"] ∧
    (∀ c ∈ [Cond.words [.subject] [[⟨false, false, bs "hello", none⟩, ⟨true, false, bs "world", none⟩],
        [⟨false, false, bs "lunch", none⟩]], Cond.sizes none (some (1 * 1024))], Cond.Searchable exDb exInfo c) := by
  constructor
  · refine .cons (.words ?_) (.cons (.sizes ?_) .nil)
    · have h : ArgWrittenAs [.subject] _ (bs "s" ++ bs ":" ++ (bs " hello" ++ bs "," ++ (bs "~world" ++ bs "/" ++ bs "lunch"))) :=
        .letters (by decide) ?_ (.and (.exact false false (bs "hello")) (by unfold Spaced; decide)
          (.or (.exact true false (bs "world")) (by unfold Spaced; decide) (.last (.exact false false (bs "lunch")))))
      · exact h
      · intro f
        constructor
        · intro hf; simp at hf; subst hf; exact ⟨0x73, by decide, .s⟩
        · rintro ⟨c, hc, hm⟩
          have e : bs "s" = [0x73] := by decide
          rw [e] at hc; simp at hc; subst hc
          cases hm; simp
    · have h : SizeRangeWritten (bs "-" ++ (([] ++ [0x31]) ++ [0x6b])) none (some ((10 * 0 + (0x31 - 0x30)) * 1024)) :=
        .high (.kilo (by simp) (.snoc 0x31 .nil (by decide) (by decide)) (by decide))
      exact h
  · intro c hc
    simp only [List.mem_cons, List.not_mem_nil, or_false] at hc
    rcases hc with rfl | rfl
    · refine ⟨?_, by simp⟩
      intro alt ha t ht
      simp only [List.mem_cons, List.not_mem_nil, or_false] at ha
      rcases ha with rfl | rfl <;> simp only [List.mem_cons, List.not_mem_nil, or_false] at ht
      · rcases ht with rfl | rfl <;> refine ⟨⟨?_, ?_, ?_⟩, ?_, ?_⟩ <;> first | decide | simp [bs]
      · subst ht
        refine ⟨⟨?_, ?_, ?_⟩, ?_, ?_⟩ <;> first | decide | simp [bs]
    · exact ⟨by simp, by simp⟩

/-- ... and the answer is message 0. -/
example : doSearch (fun _ => none) id exDb [bs "s: hello,~world/lunch", bs "z:-1k"] false false = .ok [0] := by
  decide +kernel

/-- **C18 fails for a trailing `/`:** `s:world/` finds message 0, whose subject does not have the word. -/
theorem C18_trailing_separator_violation :
    doSearch (fun _ => none) id exDb [bs "s:world/"] false false = .ok [0, 1] ∧
    doSearch (fun _ => none) id exDb [bs "s:world"] false false = .ok [1] := by
  decide +kernel

/-- A trailing `,` does no harm: the (absent) last condition is not looked at. -/
theorem C18_trailing_comma :
    doSearch (fun _ => none) id exDb [bs "s:world,"] false false = .ok [1] := by
  decide +kernel

/-- **C18 fails for white space in the last condition:** `"s:hello, world"` finds nothing, although
message 1 has both words; `"s: hello,world"` finds it. -/
theorem C18_last_space_violation :
    doSearch (fun _ => none) id exDb [bs "s:hello, world"] false false = .ok [] ∧
    doSearch (fun _ => none) id exDb [bs "s: hello,world"] false false = .ok [1] := by
  decide +kernel

/-! ## C15: exact words -/

/-- Words that can be searched for as they are. -/
def PlainWord (w : Text) : Prop :=
  w ≠ [] ∧ (∀ c ∈ w, isSpace c = false ∧ c ∉ bs "/,=") ∧ (∀ c, w.head? = some c → c ∉ bs "~^")

/-- **C15.** `letters:word` (with letters other than `p`) finds exactly the live messages that have the
word, in lower case, in at least one of the fields the letters stand for. -/
theorem C15_exact_word {db : ReadDb} {info : List Info} (hs : Shows db info) (scan) (sort : List Nat → List Nat)
    (letters w : Text) (hl : ∀ c ∈ letters, c ∈ bs "tcfsbnra") (hw : PlainWord w) :
    ∃ r, doSearch scan sort db [letters ++ bs ":" ++ w] false false = .ok r ∧
      ∀ i, i ∈ r ↔ ∃ x, info[i]? = some x ∧ x.path ≠ none ∧
        ∃ c ∈ letters, ∃ f, LetterMeans c f ∧ lower w ∈ x.words f := by
  have hsub : ∀ c ∈ letters, c ∈ bs "tcfsbnpra" ∧ c ≠ 0x70 := by
    have key : ∀ c ∈ bs "tcfsbnra", c ∈ bs "tcfsbnpra" ∧ c ≠ 0x70 := by decide
    exact fun c hc => key c (hl c hc)
  -- the fields the letters stand for
  let all : List Field := [.to, .cc, .sender, .subject, .body, .attachment]
  have hdec : ∃ fields : List Field, ∀ f, f ∈ fields ↔ ∃ c ∈ letters, LetterMeans c f := by
    have := fun f => Classical.propDecidable (∃ c ∈ letters, LetterMeans c f)
    refine ⟨all.filter (fun f => decide (∃ c ∈ letters, LetterMeans c f)), ?_⟩
    intro f
    simp only [List.mem_filter, decide_eq_true_eq]
    refine ⟨fun h => h.2, fun h => ⟨?_, h⟩⟩
    obtain ⟨c, hc, hm⟩ := h
    have := (hsub c hc).2
    cases hm <;> first | exact absurd rfl this | simp [all]
  obtain ⟨fields, hf⟩ := hdec
  have hnp : Field.path ∉ fields := by
    intro h
    obtain ⟨c, hc, hm⟩ := (hf _).1 h
    have := (hsub c hc).2
    cases hm; exact this rfl
  let t : Term := ⟨false, false, w, none⟩
  have hq : QueryWrittenAs noDates [.words fields [[t]]] [letters ++ bs ":" ++ w] := by
    refine .cons (.words (.letters (fun c hc => (hsub c hc).1) hf ?_)) .nil
    have : t.WrittenAs w := by simpa using Term.WrittenAs.exact false false w
    exact .last this
  obtain ⟨r, e, h⟩ := C18_query_partial hs (noDates_scan scan) hq (by
    intro c hc
    rw [List.mem_singleton] at hc
    subst hc
    refine ⟨?_, fun h => absurd h hnp⟩
    intro alt ha t' ht'
    rw [List.mem_singleton] at ha; subst ha
    rw [List.mem_singleton] at ht'; subst ht'
    exact ⟨hw, by simp [t], fun h => absurd h hnp⟩) sort
  refine ⟨r, e, ?_⟩
  intro i
  rw [h]
  have hin : ∀ (x : Info) (f : Field), f ≠ .path → (t.HoldsIn x f ↔ lower w ∈ x.words f) := by
    intro x f hf
    cases f <;> first | exact absurd rfl hf | simp [Term.HoldsIn, t]
  constructor
  · rintro ⟨x, h1, h2, h3⟩
    have := h3 _ (List.mem_singleton.2 rfl)
    obtain ⟨alt, ha, hall⟩ := this
    rw [List.mem_singleton] at ha; subst ha
    have := hall t (by simp)
    simp only [Term.Holds, t, Bool.false_eq_true, if_false] at this
    obtain ⟨f, hff, hh⟩ := this
    obtain ⟨c, hc, hm⟩ := (hf f).1 hff
    exact ⟨x, h1, h2, c, hc, f, hm, (hin x f (fun h => hnp (h ▸ hff))).1 hh⟩
  · rintro ⟨x, h1, h2, c, hc, f, hm, hx⟩
    have hff := (hf f).2 ⟨c, hc, hm⟩
    refine ⟨x, h1, h2, ?_⟩
    intro cd hcd
    rw [List.mem_singleton] at hcd; subst hcd
    refine ⟨[t], by simp, ?_⟩
    intro t' ht'
    rw [List.mem_singleton] at ht'; subst ht'
    simp only [Term.Holds, t, Bool.false_eq_true, if_false]
    exact ⟨f, hff, (hin x f (fun h => hnp (h ▸ hff))).2 hx⟩

example : PlainWord (bs "HELLO") ∧ (∀ c ∈ bs "tas", c ∈ bs "tcfsbnra") ∧
    doSearch (fun _ => none) id exDb [bs "tas:Ann"] false false = .ok [0, 1] ∧
    doSearch (fun _ => none) id exDb [bs "t:Ann"] false false = .ok [1] := by
  refine ⟨⟨by decide, by decide, ?_⟩, by decide, by decide +kernel, by decide +kernel⟩
  intro c hc
  have : c = 0x48 := by simpa [bs] using hc.symm
  subst this; decide

/-! ## C19: several fields -/

/-- **C19 (partial).** A word (with any decorations) searched with several field letters matches exactly
the messages it matches in at least one of the fields. Missing: the letter `p` together with others, or
with IMAP messages present. -/
theorem C19_fields_partial {db : ReadDb} {info : List Info} (hs : Shows db info) (scan) (sort : List Nat → List Nat)
    {fields : List Field} {t : Term} {s : Text} (hw : ArgWrittenAs fields [[t]] s) (ht : Searchable fields t)
    (hneg : t.negated = false)
    (hp : Field.path ∈ fields → PathsKnown db info ∧ ∀ f ∈ fields, f = .path) :
    ∃ r, doSearch scan sort db [s] false false = .ok r ∧
      ∀ i, i ∈ r ↔ ∃ x, info[i]? = some x ∧ x.path ≠ none ∧ ∃ f ∈ fields, t.HoldsIn x f := by
  obtain ⟨r, e, h⟩ := C18_query_partial hs (noDates_scan scan) (.cons (.words hw) .nil) (by
    intro c hc
    rw [List.mem_singleton] at hc
    subst hc
    refine ⟨?_, hp⟩
    intro alt ha t' ht'
    rw [List.mem_singleton] at ha; subst ha
    rw [List.mem_singleton] at ht'; subst ht'
    exact ht) sort
  refine ⟨r, e, ?_⟩
  intro i
  rw [h]
  simp only [List.mem_singleton, forall_eq, Cond.Holds, Expr.Holds, exists_eq_left, Term.Holds, hneg, Bool.false_eq_true,
    if_false]

/-- `p:m/1=` is out (it has a separator), but `p:1=` finds message 0 by its path. -/
example : doSearch (fun _ => none) id exDb [bs "p:1="] false false = .ok [0] ∧ PathsKnown exDb exInfo ∧
    Searchable [.path] ⟨false, false, bs "1", some 0⟩ := by
  refine ⟨by decide +kernel, exPaths, ⟨by decide, by decide, ?_⟩, ?_, by decide⟩
  · intro c hc
    have : c = 0x31 := by simpa [bs] using hc.symm
    subst this; decide
  · intro k hk
    cases hk
    exact ⟨by decide, fun _ => rfl⟩

/-- **C19 fails with the path field:** `s:hello` finds messages 0 and 1, but `sp:hello` finds none: the
result for the path overwrites the others. -/
theorem C19_path_violation :
    doSearch (fun _ => none) id exDb [bs "s:hello"] false false = .ok [0, 1] ∧
    doSearch (fun _ => none) id exDb [bs "sp:hello"] false false = .ok [] := by
  decide +kernel

/-- The database `exDb` with message 0 replaced by an IMAP message. -/
def exImap : ReadDb := { exDb with
  msgs := exDb.msgs.set 0
    { typeAndFlags := 3, path := bs "mail:1", mbix := 0, msgix := 0, mtime := 5, size := 700, date := 100, tid := 0 } }

/-- **C19 fails with IMAP messages:** a search by path stops with a failed assertion. -/
theorem C19_imap_violation :
    doSearch (fun _ => none) id exImap [bs "p:m="] false false = .error .assertion := by
  decide +kernel

/-- An anchor without `=` (outside the path field): the anchor is ignored rather than
looked for, `s:^hello` finds the same messages as `s:hello` (this is how `C18_query_partial` reads it),
whereas `s:^hell=` finds words beginning so. -/
theorem C17_anchor_ignored :
    doSearch (fun _ => none) id exDb [bs "s:^hello"] false false = .ok [0, 1] ∧
    doSearch (fun _ => none) id exDb [bs "s:^ell="] false false = .ok [] ∧
    doSearch (fun _ => none) id exDb [bs "s:ell="] false false = .ok [0, 1] := by
  decide +kernel

/-! ## C21: dates and sizes -/

/-- **C21, sizes (partial).** `z:low-high` (either may be missing) finds exactly the live messages whose
size lies strictly between the limits, whatever their order; `k` and `M` multiply by 2^10 and 2^20.
Missing: limits of 2^31 or more, see `C21_size_overflow_violation`. -/
theorem C21_sizes_partial {db : ReadDb} {info : List Info} (hs : Shows db info) (scan) (sort : List Nat → List Nat)
    {s : Text} {a b : Option Nat} (hw : SizeRangeWritten s a b) (ha : ∀ n, a = some n → n < 2 ^ 31)
    (hb : ∀ n, b = some n → n < 2 ^ 31) :
    ∃ r, doSearch scan sort db [bs "z:" ++ s] false false = .ok r ∧
      ∀ i, i ∈ r ↔ ∃ x, info[i]? = some x ∧ x.path ≠ none ∧
        StrictlyWithin (a.map Int.ofNat) (b.map Int.ofNat) x.size := by
  obtain ⟨r, e, h⟩ := C18_query_partial hs (noDates_scan scan) (.cons (.sizes hw) .nil) (by
    intro c hc
    rw [List.mem_singleton] at hc
    subst hc
    exact ⟨ha, hb⟩) sort
  refine ⟨r, e, ?_⟩
  intro i
  rw [h]
  simp only [List.mem_singleton, forall_eq, Cond.Holds]

example : SizeRangeWritten ((([] ++ [0x31]) ++ [0x4d]) ++ bs "-" ++ ([] ++ [0x39]))
      (some ((10 * 0 + (0x31 - 0x30)) * (1024 * 1024))) (some (10 * 0 + (0x39 - 0x30))) ∧
    doSearch (fun _ => none) id exDb [bs "z:1M-9"] false false = .ok [0, 1] ∧
    doSearch (fun _ => none) id exDb [bs "z:700-"] false false = .ok [1] := by
  refine ⟨.both (.mega (by simp) (.snoc 0x31 .nil (by decide) (by decide)) (by decide))
    (.plain (by simp) (.snoc 0x39 .nil (by decide) (by decide))), by decide +kernel, by decide +kernel⟩

/-- **C21 fails for large sizes:** `z:2048M-` overflows an `int`. -/
theorem C21_size_overflow_violation :
    doSearch (fun _ => none) id exDb [bs "z:2048M-"] false false = .error .overflow := by
  decide +kernel

/-- **C21, dates.** `d:expression`, where the expression is scanned to the limits `a` and `b`, finds
exactly the live messages whose date lies strictly between the limits, whatever their order. -/
theorem C21_dates {db : ReadDb} {info : List Info} (hs : Shows db info)
    (scan : Text → Option (Option Int × Option Int)) (sort : List Nat → List Nat) {s : Text} {a b : Option Int}
    (hscan : scan s = some (a, b)) :
    ∃ r, doSearch scan sort db [bs "d:" ++ s] false false = .ok r ∧
      ∀ i, i ∈ r ↔ ∃ x, info[i]? = some x ∧ x.path ≠ none ∧ StrictlyWithin a b x.date := by
  have hsc : ScansDates scan (fun s a b => scan s = some (a, b)) := fun _ _ _ h => h
  obtain ⟨r, e, h⟩ := C18_query_partial hs hsc (.cons (.dates hscan) .nil) (by
    intro c hc
    rw [List.mem_singleton] at hc
    subst hc
    trivial) sort
  refine ⟨r, e, ?_⟩
  intro i
  rw [h]
  simp only [List.mem_singleton, forall_eq, Cond.Holds]

example : doSearch (fun _ => some (some 120, some 60)) id exDb [bs "d:x-y"] false false = .ok [0] := by
  decide +kernel

/-! ## C22: flags -/

/-- **C22.** `F:` followed by any mix of flag letters, negated or not, finds exactly the live messages that
have every requested flag and lack every negated one. -/
theorem C22_flags {db : ReadDb} {info : List Info} (hs : Shows db info) (scan) (sort : List Nat → List Nat)
    {l : List (Bool × Flag)} {s : Text} (hw : FlagsWritten l s) :
    ∃ r, doSearch scan sort db [bs "F:" ++ s] false false = .ok r ∧
      ∀ i, i ∈ r ↔ ∃ x, info[i]? = some x ∧ x.path ≠ none ∧
        (∀ f, (true, f) ∈ l → x.has f = true) ∧ (∀ f, (false, f) ∈ l → x.has f = false) := by
  obtain ⟨r, e, h⟩ := C18_query_partial hs (noDates_scan scan) (.cons (.flags hw) .nil) (by
    intro c hc
    rw [List.mem_singleton] at hc
    subst hc
    trivial) sort
  refine ⟨r, e, ?_⟩
  intro i
  rw [h]
  simp only [List.mem_singleton, forall_eq, Cond.Holds]
  constructor
  · rintro ⟨x, h1, h2, h3⟩
    exact ⟨x, h1, h2, fun f hf => h3 _ hf, fun f hf => h3 _ hf⟩
  · rintro ⟨x, h1, h2, h3, h4⟩
    refine ⟨x, h1, h2, ?_⟩
    rintro ⟨b, f⟩ hp
    cases b with
    | true => exact h3 f hp
    | false => exact h4 f hp

example : FlagsWritten [(false, .flagged), (true, .seen)] (bs "-fS") ∧
    doSearch (fun _ => none) id exDb [bs "F:-fS"] false false = .ok [0] ∧
    doSearch (fun _ => none) id exDb [bs "F:-s"] false false = .ok [1] :=
  ⟨.neg (.flagged (by decide)) (.pos (.seen (by decide)) .nil), by decide +kernel, by decide +kernel⟩

/-! ## C24: threads -/

/-- **C24 (partial).** With threading, if every thread number is below the number of messages, the search
succeeds without leaving the per-thread table and returns exactly the live messages whose thread contains
a message satisfying the query. Missing: databases that have been purged (`C24_purged_violation` in
Props/RunExamples.lean), where thread numbers may be too large. The matching message may be a dead one, see
`C24_dead_hit`. -/
theorem C24_threads_partial {db : ReadDb} {info : List Info} (hs : Shows db info) {scan dateRange}
    (hscan : ScansDates scan dateRange) {cs : List Cond} {args : List Text} (hw : QueryWrittenAs dateRange cs args)
    (hc : ∀ c ∈ cs, Cond.Searchable db info c) (sort : List Nat → List Nat)
    (ht : ∀ m ∈ db.msgs, m.tid < db.msgs.length) :
    ∃ r, doSearch scan sort db args true false = .ok r ∧
      ∀ i, i ∈ r ↔ ∃ m x, db.msgs[i]? = some m ∧ info[i]? = some x ∧ x.path ≠ none ∧
        ∃ (j : Nat) (m' : DbMsg) (x' : Info), db.msgs[j]? = some m' ∧ info[j]? = some x' ∧ m'.tid = m.tid ∧
          ∀ c ∈ cs, c.Holds x' := by
  have hones : IsVec info.length (List.replicate db.msgs.length true) (fun _ => True) := by
    rw [hs.len]; exact isVec_ones _
  obtain ⟨h, e, v⟩ := allHits_ok hs hscan hw hc hones
  obtain ⟨h', e', v'⟩ := expandThreads_ok hs.len v (by rw [← hs.len]; exact ht)
  refine ⟨collect 0 db.msgs h', ?_, ?_⟩
  · simp only [doSearch, e, bind, Except.bind]
    simp [e']
  · intro i
    have := (collect_ok db.msgs h' 0).2.2 i
    rw [Nat.zero_add] at this
    rw [this]
    constructor
    · rintro ⟨m, h1, h2, h3⟩
      have hi : i < info.length := by rw [← hs.len]; exact (List.getElem?_eq_some_iff.1 h1).1
      have hx : info[i]? = some info[i] := by simp [hi]
      obtain ⟨j, m1, m', g1, g2, ⟨_, x', g3, g4⟩, g5⟩ := (v'.2 i hi).1 h2
      rw [h1] at g1; cases g1
      exact ⟨m, _, h1, hx, fun hp => h3 ((hs.each i m _ h1 hx).dead.2 hp), j, m', x', g2, g3, g5, g4⟩
    · rintro ⟨m, x, h1, hx, hp, j, m', x', g2, g3, g5, g4⟩
      have hi : i < info.length := (List.getElem?_eq_some_iff.1 hx).1
      exact ⟨m, h1, (v'.2 i hi).2 ⟨j, m, m', h1, g2, ⟨trivial, x', g3, g4⟩, g5⟩,
        fun hd => hp ((hs.each i m x h1 hx).dead.1 hd)⟩

example : (∀ m ∈ exDb.msgs, m.tid < exDb.msgs.length) ∧
    doSearch (fun _ => none) id exDb [bs "b:lunch"] true false = .ok [0, 1] := by
  constructor
  · simp [exDb]
  · decide +kernel

/-- Thread numbers out of range lead outside the table. -/
theorem C24_out_of_range : doSearch (fun _ => none) id
    { exDb with msgs := [{ typeAndFlags := 1, path := [], mbix := 0, msgix := 0, mtime := 0, size := 0, date := 0, tid := 1 }] }
    [bs "z:-1k"] true false = .error .outOfBounds := by
  decide +kernel

/-- The database `exDb` with all three messages in one thread. -/
def exOneThread : ReadDb := { exDb with msgs := exDb.msgs.map fun m => { m with tid := 0 } }

/-- A message that is gone still brings in its thread: no live message has size 9, and yet a threaded
search for it finds messages 0 and 1. -/
theorem C24_dead_hit :
    doSearch (fun _ => none) id exOneThread [bs "z:8-10"] false false = .ok [] ∧
    doSearch (fun _ => none) id exOneThread [bs "z:8-10"] true false = .ok [0, 1] := by
  decide +kernel

/-! ## C25: the list of results -/

/-- **C25, without sorting.** Whatever the query, if the search succeeds its results are live messages, each
once, in the order of the database. -/
theorem C25_database_order (db : ReadDb) (scan) (sort : List Nat → List Nat) (args : List Text) (threads : Bool)
    {r : List Nat} (h : doSearch scan sort db args threads false = .ok r) :
    (∀ i ∈ r, ∃ m, db.msgs[i]? = some m ∧ m.type ≠ DB_MSG_DEAD) ∧ r.Pairwise (· < ·) := by
  have key : ∀ hits, (∀ i ∈ collect 0 db.msgs hits, ∃ m, db.msgs[i]? = some m ∧ m.type ≠ DB_MSG_DEAD) ∧
      (collect 0 db.msgs hits).Pairwise (· < ·) := by
    intro hits
    obtain ⟨_, h2, h3⟩ := collect_ok db.msgs hits 0
    refine ⟨?_, h2⟩
    intro i hi
    have := (h3 i).1 (by rwa [Nat.zero_add])
    obtain ⟨m, g1, _, g3⟩ := this
    exact ⟨m, g1, g3⟩
  simp only [doSearch, bind, Except.bind] at h
  cases e : allHits scan db args (List.replicate db.msgs.length true) with
  | error f => rw [e] at h; simp at h
  | ok hits =>
    rw [e] at h
    cases threads with
    | false => simp at h; rw [← h]; exact key hits
    | true =>
      simp only [if_true] at h
      cases e' : expandThreads db hits with
      | error f => rw [e'] at h; simp at h
      | ok hits' => rw [e'] at h; simp at h; rw [← h]; exact key hits'

/-- What `qsort` promises: for a consistent comparison, a sorted permutation. -/
def SortsBy (cmp : Nat → Nat → Int) (sort : List Nat → List Nat) : Prop :=
  ∀ l : List Nat, (∀ a ∈ l, ∀ b ∈ l, cmp a b ≤ 0 ∨ cmp b a ≤ 0) →
    (∀ a ∈ l, ∀ b ∈ l, ∀ c ∈ l, cmp a b ≤ 0 → cmp b c ≤ 0 → cmp a c ≤ 0) →
    (sort l).Perm l ∧ (sort l).Pairwise (fun a b => cmp a b ≤ 0)

/-- The date of message `i`. -/
def dateOf (db : ReadDb) (i : Nat) : Nat := (db.msgs[i]?.map DbMsg.date).getD 0

theorem dbDateCmp_le {db : ReadDb} {a b : Nat} (h1 : dateOf db a < dateOf db b + 2 ^ 31) (h2 : dateOf db b < dateOf db a + 2 ^ 31) :
    dbDateCmp db a b ≤ 0 ↔ dateOf db a ≤ dateOf db b := by
  unfold dateOf at *
  simp only [dbDateCmp]
  generalize (db.msgs[a]?.map DbMsg.date).getD 0 = x at *
  generalize (db.msgs[b]?.map DbMsg.date).getD 0 = y at *
  rw [BitVec.toInt_sub, BitVec.toInt_ofNat', BitVec.toInt_ofNat']
  simp only [Int.bmod]
  omega

/-- **C25, with sorting.** If any two dates of messages are less than 2^31 seconds apart, the
results of a sorted search are those of the unsorted one, and their dates do not decrease. -/
theorem C25_date_order (db : ReadDb) (scan) (sort : List Nat → List Nat) (args : List Text) (threads : Bool)
    (hsort : SortsBy (dbDateCmp db) sort)
    (hnear : ∀ m ∈ db.msgs, ∀ m' ∈ db.msgs, m.date < m'.date + 2 ^ 31)
    {r : List Nat} (h : doSearch scan sort db args threads false = .ok r) :
    ∃ r', doSearch scan sort db args threads true = .ok r' ∧ r'.Perm r ∧
      r'.Pairwise (fun a b => dateOf db a ≤ dateOf db b) := by
  obtain ⟨hlive, _⟩ := C25_database_order db scan sort args threads h
  have hd : ∀ i ∈ r, ∃ m ∈ db.msgs, dateOf db i = m.date := by
    intro i hi
    obtain ⟨m, hm, _⟩ := hlive i hi
    exact ⟨m, List.mem_of_getElem? hm, by simp [dateOf, hm]⟩
  have hcmp : ∀ a ∈ r, ∀ b ∈ r, (dbDateCmp db a b ≤ 0 ↔ dateOf db a ≤ dateOf db b) := by
    intro a ha b hb
    obtain ⟨m, hm, em⟩ := hd a ha
    obtain ⟨m', hm', em'⟩ := hd b hb
    refine dbDateCmp_le ?_ ?_
    · rw [em, em']; exact hnear m hm m' hm'
    · rw [em, em']; exact hnear m' hm' m hm
  obtain ⟨hp, hs⟩ := hsort r
    (by
      intro a ha b hb
      rw [hcmp a ha b hb, hcmp b hb a ha]
      omega)
    (by
      intro a ha b hb c hc
      rw [hcmp a ha b hb, hcmp b hb c hc, hcmp a ha c hc]
      omega)
  refine ⟨sort r, ?_, hp, ?_⟩
  · simp only [doSearch, bind, Except.bind] at h ⊢
    cases e : allHits scan db args (List.replicate db.msgs.length true) with
    | error f => rw [e] at h; simp at h
    | ok hits =>
      rw [e] at h
      simp only at h ⊢
      cases threads with
      | false => simp at h; simp [h]
      | true =>
        simp only [if_true] at h ⊢
        cases e' : expandThreads db hits with
        | error f => rw [e'] at h; simp at h
        | ok hits' => rw [e'] at h; simp at h; simp [h]
  · refine hs.imp_of_mem ?_
    intro a b ha hb hab
    exact (hcmp a (hp.mem_iff.1 ha) b (hp.mem_iff.1 hb)).1 hab

/-- Merge sort keeps the promise of `qsort` for `exDb`. -/
example : SortsBy (dbDateCmp exDb) (fun l => l.mergeSort (fun a b => decide (dbDateCmp exDb a b ≤ 0))) := by
  have hle : ∀ i, dateOf exDb i ≤ 100 := by
    intro i
    match i with
    | 0 => decide
    | 1 => decide
    | 2 => decide
    | i + 3 => simp [dateOf, exDb]
  have hcmp : ∀ a b, dbDateCmp exDb a b ≤ 0 ↔ dateOf exDb a ≤ dateOf exDb b := by
    intro a b
    have h1 := hle a; have h2 := hle b
    exact dbDateCmp_le (by omega) (by omega)
  intro l _ _
  refine ⟨List.mergeSort_perm _ _, ?_⟩
  have := List.pairwise_mergeSort (le := fun a b => decide (dbDateCmp exDb a b ≤ 0))
    (by intro a b c; simp only [decide_eq_true_eq, hcmp]; omega)
    (by intro a b; simp only [Bool.or_eq_true, decide_eq_true_eq, hcmp]; omega) l
  simpa using this

/-- **Dates further apart:** the comparison says that a message of date 0 is not before one of date 2^31+1. -/
theorem C25_far_dates_violation :
    dbDateCmp { exDb with msgs := [
      { typeAndFlags := 1, path := [], mbix := 0, msgix := 0, mtime := 0, size := 0, date := 0, tid := 0 },
      { typeAndFlags := 1, path := [], mbix := 0, msgix := 0, mtime := 0, size := 0, date := 2 ^ 31 + 1, tid := 0 }] } 0 1
      > 0 := by
  decide +kernel

end Mairix
