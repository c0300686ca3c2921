import Verif.Spec.Whole
import Verif.Proofs.CText
import Verif.Props.Run
import Verif.Props.Mime
import Verif.Props.Folders
import Verif.Props.Dates

/-!
# C57: from the configuration and the mail on the disk to the results of a search
-/

namespace Mairix
open Spec

/-- The run that belongs to it is sane. -/
theorem indexing_sane {mktime : Nat → Nat → Nat → Int} {md5 : Text → List UInt8} {x : Indexing} {r : Run} {s : Setting} {items : FolderType → List FolderItem} {N : Nat} (hmd5 : ∀ t, (md5 t).length = 16)
    (hl : LibraryOk x) (hd : DiscOk x.disc) (hm : Spec.Means x.config x.disc.fs s items) (hN : PathMax x.disc.fs N) (hf : N < x.depth) (e : x.run mktime md5 = .ok r) :
    Sane r ∧ r.world = x.disc.world mktime ∧ r.fast = x.fast ∧ r.mboxWorld = x.disc.mboxWorld mktime md5 ∧ (∀ e, e ∈ r.listed ↔ e.kind = .file ∧ MessageFile s items e.path) := by
  obtain ⟨l, e1, h1⟩ := C51_messages hm hN hf
  obtain ⟨l2, e2, h2⟩ := C51_mboxen hm hN hf
  simp only [Indexing.run, e1, e2, bind, Except.bind, Except.ok.injEq] at e
  subst e
  have hfs : s.fs = x.disc.fs := hm.fs
  refine ⟨⟨hl.sortListed, hl.sortExtant, hl.sortTexts, hl.sortTokens, ?_, ?_, ?_, ?_, hmd5, ?_⟩, rfl, rfl, rfl, h1⟩
  · intro e he
    have key : ∀ dir name, HasEntry s.fs dir name → 0 ∉ dir ∧ 0 ∉ name := by
      rintro dir name ⟨⟨names, h3, h4⟩, _⟩
      rw [hfs] at h3
      obtain ⟨h5, h6⟩ := hd.readdir _ _ h3
      exact ⟨h5, h6 _ h4⟩
    have hsl : (0 : UInt8) ∉ bs "/" ∧ (0 : UInt8) ∉ bs "/new/" ∧ (0 : UInt8) ∉ bs "/cur/" := by decide
    have h3 := ((h1 e).1 he).2
    generalize e.path = p at h3
    cases h3 with
    | new _ h4 =>
      obtain ⟨h5, h6⟩ := key _ _ h4
      simp only [List.mem_append, not_or] at h5 ⊢
      exact ⟨⟨h5.1, hsl.2.1⟩, h6⟩
    | cur _ h4 =>
      obtain ⟨h5, h6⟩ := key _ _ h4
      simp only [List.mem_append, not_or] at h5 ⊢
      exact ⟨⟨h5.1, hsl.2.2⟩, h6⟩
    | mh _ h4 _ =>
      obtain ⟨h5, h6⟩ := key _ _ h4
      simp only [List.mem_append, not_or]
      exact ⟨⟨h5, hsl.1⟩, h6⟩
  · intro e he
    obtain ⟨_, sb, h3, _⟩ := (h2 e).1 he
    exact hd.lstat _ _ h3
  · intro k p m h
    have out : ∀ t after, (outcome (parseMessage mktime t after)).1 = some m → CText m := by
      intro t after h
      unfold outcome at h
      split at h
      · rename_i r e eq
        simp only at h
        subst h
        exact parse_ctext eq
      · cases h
    cases k with
    | imap => cases h
    | file =>
      simp only [Disc.world, Disc.makeRfc822] at h
      split at h
      · exact out _ _ h
      · cases h
  · intro t m h
    simp only [Disc.mboxWorld] at h
    unfold outcome at h
    split at h
    · rename_i r e eq
      simp only at h
      subst h
      exact parse_ctext eq
    · cases h
  · intro p va h
    simp only [Disc.mboxWorld, Disc.map] at h
    split at h
    · cases h
    · split at h
      · cases h
      · split at h
        · cases h
        · split at h
          · cases h
          · rename_i va' hva
            cases h
            exact (hd.size _ _ hva).2

/-- Whole runs are runs. -/
theorem indexMails_runs {hashfn : Nat → Text → Nat} {mktime : Nat → Nat → Nat → Int} {md5 : Text → List UInt8} : ∀ {xs : List Indexing} {f f' : Option Text}, indexMails hashfn mktime md5 xs f = .ok f' →
    ∃ rs, Pairs (fun x r => x.run mktime md5 = .ok r) xs rs ∧ indexRuns hashfn rs f = .ok f'
  | [], f, f', e => ⟨[], .nil, e⟩
  | x :: xs, f, f', e => by
    simp only [indexMails, indexMail, bind, Except.bind] at e
    split at e
    · cases e
    · rename_i f1 e1
      split at e1
      · cases e1
      · rename_i r er
        obtain ⟨rs, h1, h2⟩ := indexMails_runs e
        exact ⟨r :: rs, .cons er h1, by simp only [indexRuns, bind, Except.bind, e1, h2]⟩

theorem pairs_mem {α β : Type} {R : α → β → Prop} {l : List α} {l' : List β} (h : Pairs R l l') {b : β} (hb : b ∈ l') : ∃ a ∈ l, R a b := by
  induction h with
  | nil => simp at hb
  | cons h1 _ ih =>
    rcases List.mem_cons.1 hb with rfl | hb
    · exact ⟨_, List.mem_cons_self .., h1⟩
    · obtain ⟨a, h2, h3⟩ := ih hb
      exact ⟨a, List.mem_cons_of_mem _ h2, h3⟩

theorem pairs_snoc {α β : Type} {R : α → β → Prop} : ∀ {l : List α} {a : α} {l' : List β}, Pairs R (l ++ [a]) l' → ∃ l1 b, l' = l1 ++ [b] ∧ Pairs R l l1 ∧ R a b
  | [], a, l', h => by
    cases h with
    | cons h1 h2 => cases h2; exact ⟨[], _, rfl, .nil, h1⟩
  | x :: l, a, l', h => by
    cases h with
    | cons h1 h2 =>
      obtain ⟨l1, b, rfl, h3, h4⟩ := pairs_snoc h2
      exact ⟨_ :: l1, b, rfl, .cons h1 h3, h4⟩

theorem disc_stat {mktime : Nat → Nat → Nat → Int} {d : Disc} {p : Text} {t : Int} {s : Nat} : (d.world mktime).stat p = .file t s ↔ IsFile d.fs p ∧ t = d.mtime p ∧ s = d.size p := by
  simp only [Disc.world, IsFile]
  cases h : d.fs.stat p with
  | none => simp
  | some sb =>
    simp only [Option.some.injEq, exists_eq_left']
    cases hk : sb.kind <;> simp only [StatResult.file.injEq, reduceCtorEq, false_and, true_and, iff_false, not_false_eq_true]
    constructor
    · rintro ⟨rfl, rfl⟩; exact ⟨rfl, rfl⟩
    · rintro ⟨rfl, rfl⟩; exact ⟨rfl, rfl⟩

/-- Whole files of messages are read as they are meant. -/
theorem disc_read {mktime : Nat → Nat → Nat → Int} {d : Disc} (hd : DiscOk d) {p : Text} {m : Rfc822} (h : FileMeans mktime d p m) (m' : Rfc822) : Reads (d.world mktime) ⟨.file, p⟩ m' ↔ m' = m := by
  obtain ⟨⟨sb, h1, h2⟩, h3, t, h4, h5, h6⟩ := h
  have hz : d.size p ≠ 0 := by
    rw [(hd.size _ _ h4).1]
    exact fun h => h5 (List.length_eq_zero_iff.1 h)
  have : (d.world mktime).read .file p = some m := by
    simp only [Disc.world, Disc.makeRfc822, Disc.map, h1, if_neg hz, h2, h4, ne_eq, not_true_eq_false, if_false, C47_parse_partial h6, outcome]
  simp only [Reads, this, Option.some.injEq]
  constructor
  · rintro ⟨_, h⟩; exact h.symm
  · rintro rfl; exact ⟨h3, rfl⟩

theorem disc_times {mktime : Nat → Nat → Nat → Int} {d' d : Disc} (h : Unchanged d' d) {p : Text} {t t' : Int} {s s' : Nat} (h1 : (d'.world mktime).stat p = .file t s) (h2 : (d.world mktime).stat p = .file t' s')
    (h3 : u32 t = u32 t') : s = s' ∧ (d'.world mktime).read .file p = (d.world mktime).read .file p := by
  obtain ⟨a1, rfl, rfl⟩ := disc_stat.1 h1
  obtain ⟨b1, rfl, rfl⟩ := disc_stat.1 h2
  obtain ⟨c1, c2, c3⟩ := h p a1 b1 h3
  refine ⟨c1, ?_⟩
  obtain ⟨sb, e1, e2⟩ := a1
  obtain ⟨sb', e1', e2'⟩ := b1
  simp only [Disc.world, Disc.makeRfc822, Disc.map, e1, e1', c1, e2, e2', c2]
  cases hd : d.data p with
  | none => by_cases hz : d.size p = 0 <;> simp [hz]
  | some va =>
    by_cases hz : d.size p = 0
    · simp only [hz, if_true]
    · simp only [hz, if_false, ne_eq, not_true_eq_false, c3 va hd]

/-- Whether a condition holds depends only on what there is to know. -/
theorem holds_tells {m : Rfc822} {p : Text} {n : Nat} {x x' : Info} (h : Tells m p n x) (h' : Tells m p n x') (c : Cond) : c.Holds x ↔ c.Holds x' := by
  cases c with
  | words fields e =>
    have hin : ∀ (t : Term) f, t.HoldsIn x f ↔ t.HoldsIn x' f := by
      intro t f
      have hw : ∀ f v, v ∈ x.words f ↔ v ∈ x'.words f := fun f v => by rw [h.words, h'.words]
      cases f <;> simp only [Term.HoldsIn, h.path, h'.path, hw]
    simp only [Cond.Holds, Expr.Holds, Term.Holds, hin]
  | msgid id => simp only [Cond.Holds, h.ids, h'.ids]
  | dates a b => simp only [Cond.Holds, h.date, h'.date]
  | sizes a b => simp only [Cond.Holds, h.size, h'.size]
  | flags l =>
    have hf : ∀ f, x.has f = x'.has f := by
      intro f
      have : x.has f = true ↔ x'.has f = true := by
        cases f
        · rw [h.seen, h'.seen]
        · rw [h.replied, h'.replied]
        · rw [h.flagged, h'.flagged]
      cases h1 : x.has f <;> cases h2 : x'.has f <;> simp_all
    simp only [Cond.Holds, hf]

/-- The conditions under which the code handles a condition right, if the paths are known. -/
theorem fits_searchable {view : ReadDb} {info : List Info} (hk : PathsKnown view info) {cs : List Cond} (hfit : ∀ c ∈ cs, Cond.Fits c) : ∀ c ∈ cs, Cond.Searchable view info c := by
  intro c hc
  have := hfit c hc
  cases c with
  | words fields e =>
    obtain ⟨h1, h2⟩ := this
    exact ⟨h1, fun h => ⟨hk, h2 h⟩⟩
  | sizes a b => exact this
  | msgid _ => trivial
  | dates _ _ => trivial
  | flags _ => trivial

/-- What a search after whole indexing runs sees. -/
theorem whole_view_paths {hashfn : Nat → Text → Nat} {mktime : Nat → Nat → Nat → Int} {md5 : Text → List UInt8} (hmd5 : ∀ t, (md5 t).length = 16) {xs : List Indexing} {x : Indexing} {file : Text}
    (hl : ∀ y ∈ xs ++ [x], LibraryOk y) (hd : ∀ y ∈ xs ++ [x], DiscOk y.disc)
    (hc : ∀ y ∈ xs ++ [x], ∃ s items, ∃ N < y.depth, Spec.Means y.config y.disc.fs s items ∧ PathMax y.disc.fs N)
    {s : Setting} {items : FolderType → List FolderItem} (hm : Spec.Means x.config x.disc.fs s items)
    (hu : ∀ y ∈ xs, Unchanged y.disc x.disc) (hf : x.fast = false) (e : indexMails hashfn mktime md5 (xs ++ [x]) none = .ok (some file)) :
    ∃ raw view info, openDb file = .ok raw ∧ viewDb raw = .ok view ∧ Shows view info ∧ PathsKnown view info ∧
      (∀ i j e, IsAt view i e → IsAt view j e → i = j) ∧
      (∀ i e, IsAt view i e → e.kind = .file) ∧
      (∀ p, (∃ i, IsAt view i ⟨.file, p⟩) ↔ MessageFile s items p ∧ IsFile x.disc.fs p) ∧
      ∀ i p m, IsAt view i ⟨.file, p⟩ → FileMeans mktime x.disc p m → ∃ y, info[i]? = some y ∧ Tells m p (x.disc.size p) y := by
  obtain ⟨rs', h1, h2⟩ := indexMails_runs e
  obtain ⟨rs, r, rfl, h3, h4⟩ := pairs_snoc h1
  have hsane : ∀ r' ∈ rs ++ [r], Sane r' := by
    intro r' hr'
    obtain ⟨y, hy, ey⟩ := pairs_mem h1 hr'
    obtain ⟨s', items', N, hN, g1, g2⟩ := hc y hy
    exact (indexing_sane hmd5 (hl y hy) (hd y hy) g1 g2 hN ey).1
  obtain ⟨_, _, N, hN, _, g2⟩ := hc x (by simp)
  obtain ⟨_, w1, w2, _, w4⟩ := indexing_sane hmd5 (hl x (by simp)) (hd x (by simp)) hm g2 hN h4
  have ht : TimesTell rs r := by
    constructor
    · intro r' hr' p t sz t' sz' a b c
      obtain ⟨y, hy, ey⟩ := pairs_mem h3 hr'
      obtain ⟨s', items', N, hN, g1, g2⟩ := hc y (by simp [hy])
      obtain ⟨_, v1, _⟩ := indexing_sane hmd5 (hl y (by simp [hy])) (hd y (by simp [hy])) g1 g2 hN ey
      rw [v1] at a ⊢
      rw [w1] at b ⊢
      exact disc_times (hu y hy) a b c
    · intro r' hr' p
      obtain ⟨y, hy, ey⟩ := pairs_mem h3 hr'
      obtain ⟨s', items', N, hN, g1, g2⟩ := hc y (by simp [hy])
      obtain ⟨_, v1, _⟩ := indexing_sane hmd5 (hl y (by simp [hy])) (hd y (by simp [hy])) g1 g2 hN ey
      rw [v1, w1]
      rfl
  obtain ⟨raw, view, info, a1, a2, a3, hag⟩ := C46_history hsane h2
  obtain ⟨a4, a5, a6⟩ := agrees_up_to_date hag (by rw [w2, hf]) ht
  refine ⟨raw, view, info, a1, a2, a3, agrees_paths hag a3 (fun i e hi => ((w4 e).1 (hag.listed i e hi)).1), a4, ?_, ?_, ?_⟩
  · intro i e hi
    exact ((w4 e).1 ((a5 e).1 ⟨i, hi⟩).1).1
  · intro p
    rw [a5, w4]
    simp only [true_and]
    constructor
    · rintro ⟨b1, b2⟩
      refine ⟨b1, ?_⟩
      simp only [addable, modified, w1] at b2
      split at b2
      · rename_i t sz hst
        exact (disc_stat.1 hst).1
      · cases b2
    · rintro ⟨b1, b2⟩
      refine ⟨b1, ?_⟩
      simp only [addable, modified, w1, disc_stat.2 ⟨b2, rfl, rfl⟩]
      rfl
  · intro i p m hi hp
    obtain ⟨y, b1, b2⟩ := a6 i _ hi
    have hr := disc_read (hd x (by simp)) hp
    refine ⟨y, b1, ?_, ?_, ?_, ?_, ?_, ?_, ?_, ?_⟩
    · intro f v
      rw [b2.words, w1]
      simp only [hr, exists_eq_left]
    · intro v
      rw [b2.ids, w1]
      simp only [hr, exists_eq_left]
    · exact b2.path
    · exact b2.date m (by rw [w1]; exact (hr m).2 rfl)
    · rw [b2.size _ _ rfl (by rw [w1]; exact disc_stat.2 ⟨hp.1, rfl, rfl⟩)]
      obtain ⟨_, _, t, ht, _⟩ := hp
      obtain ⟨c1, c2⟩ := (hd x (by simp)).size _ _ ht
      exact Nat.mod_eq_of_lt (show x.disc.size p < 2 ^ 32 by omega)
    · rw [b2.seen, w1]
      simp only [hr, exists_eq, true_and]
    · rw [b2.replied, w1]
      simp only [hr, exists_eq, true_and]
    · rw [b2.flagged, w1]
      simp only [hr, exists_eq, true_and]

/-- The same without the paths. -/
theorem whole_view {hashfn : Nat → Text → Nat} {mktime : Nat → Nat → Nat → Int} {md5 : Text → List UInt8} (hmd5 : ∀ t, (md5 t).length = 16) {xs : List Indexing} {x : Indexing} {file : Text}
    (hl : ∀ y ∈ xs ++ [x], LibraryOk y) (hd : ∀ y ∈ xs ++ [x], DiscOk y.disc)
    (hc : ∀ y ∈ xs ++ [x], ∃ s items, ∃ N < y.depth, Spec.Means y.config y.disc.fs s items ∧ PathMax y.disc.fs N)
    {s : Setting} {items : FolderType → List FolderItem} (hm : Spec.Means x.config x.disc.fs s items)
    (hu : ∀ y ∈ xs, Unchanged y.disc x.disc) (hf : x.fast = false) (e : indexMails hashfn mktime md5 (xs ++ [x]) none = .ok (some file)) :
    ∃ raw view info, openDb file = .ok raw ∧ viewDb raw = .ok view ∧ Shows view info ∧
      (∀ i j e, IsAt view i e → IsAt view j e → i = j) ∧
      (∀ i e, IsAt view i e → e.kind = .file) ∧
      (∀ p, (∃ i, IsAt view i ⟨.file, p⟩) ↔ MessageFile s items p ∧ IsFile x.disc.fs p) ∧
      ∀ i p m, IsAt view i ⟨.file, p⟩ → FileMeans mktime x.disc p m → ∃ y, info[i]? = some y ∧ Tells m p (x.disc.size p) y := by
  obtain ⟨raw, view, info, a1, a2, a3, -, a4⟩ := whole_view_paths hmd5 hl hd hc hm hu hf e
  exact ⟨raw, view, info, a1, a2, a3, a4⟩

/-- **C57.** After any number of whole indexing runs that completed, starting without a database: whatever the configurations and the mail were in the earlier ones, a query finds, of the messages in
files of their own, only those in the folders that are configured now, and of those whose files have a meaning as messages (in the sense of C47) exactly the ones that satisfy the query as the files are now.
(Provided that files with unchanged modification times have not changed, and the last run was not a fast one.) -/
theorem C57_found_partial {hashfn : Nat → Text → Nat} {mktime : Nat → Nat → Nat → Int} {md5 : Text → List UInt8} (hmd5 : ∀ t, (md5 t).length = 16) {xs : List Indexing} {x : Indexing} {file : Text}
    (hl : ∀ y ∈ xs ++ [x], LibraryOk y) (hd : ∀ y ∈ xs ++ [x], DiscOk y.disc)
    (hc : ∀ y ∈ xs ++ [x], ∃ s items, ∃ N < y.depth, Spec.Means y.config y.disc.fs s items ∧ PathMax y.disc.fs N)
    {s : Setting} {items : FolderType → List FolderItem} (hm : Spec.Means x.config x.disc.fs s items)
    (hu : ∀ y ∈ xs, Unchanged y.disc x.disc) (hf : x.fast = false) (e : indexMails hashfn mktime md5 (xs ++ [x]) none = .ok (some file)) :
    ∃ raw view, openDb file = .ok raw ∧ viewDb raw = .ok view ∧
      ∀ {scan dateRange}, ScansDates scan dateRange → ∀ {cs : List Cond} {args : List Text}, QueryWrittenAs dateRange cs args → (∀ c ∈ cs, Cond.Fits c) → ∀ sort : List Nat → List Nat,
        ∃ found, doSearch scan sort view args false false = .ok found ∧
          (∀ i ∈ found, ∀ p, IsAt view i ⟨.file, p⟩ → MessageFile s items p) ∧
          ∀ p m, MessageFile s items p → FileMeans mktime x.disc p m → ∀ y, Tells m p (x.disc.size p) y →
            ((∃ i ∈ found, IsAt view i ⟨.file, p⟩) ↔ ∀ c ∈ cs, c.Holds y) := by
  obtain ⟨raw, view, info, a1, a2, a3, hpk, a4, a5, a6, a7⟩ := whole_view_paths hmd5 hl hd hc hm hu hf e
  refine ⟨raw, view, a1, a2, ?_⟩
  intro scan dateRange hsc cs args hq hfit sort
  have hcs : ∀ c ∈ cs, Cond.Searchable view info c := fits_searchable hpk hfit
  obtain ⟨found, f1, f2⟩ := C18_query_partial a3 hsc hq hcs sort
  refine ⟨found, f1, ?_, ?_⟩
  · intro i _ p hp
    exact ((a6 p).1 ⟨i, hp⟩).1
  · intro p m hp hmean y hy
    constructor
    · rintro ⟨i, hi, hat⟩ c hc
      obtain ⟨z, g1, g2, g3⟩ := (f2 i).1 hi
      obtain ⟨z', g4, g5⟩ := a7 i p m hat hmean
      rw [g1] at g4
      cases g4
      exact (holds_tells g5 hy c).1 (g3 c hc)
    · intro h
      obtain ⟨i, hat⟩ := (a6 p).2 ⟨hp, hmean.1⟩
      obtain ⟨z, g4, g5⟩ := a7 i p m hat hmean
      exact ⟨i, (f2 i).2 ⟨z, g4, by rw [g5.path]; simp, fun c hc => (holds_tells g5 hy c).2 (h c hc)⟩, hat⟩

/-- **C57, for a word.** Under the same conditions, searching for a word in some of the fields finds exactly those messages that have it there, be it in a header or in a text at any depth. -/
theorem C57_word_partial {hashfn : Nat → Text → Nat} {mktime : Nat → Nat → Nat → Int} {md5 : Text → List UInt8} (hmd5 : ∀ t, (md5 t).length = 16) {xs : List Indexing} {x : Indexing} {file : Text}
    (hl : ∀ y ∈ xs ++ [x], LibraryOk y) (hd : ∀ y ∈ xs ++ [x], DiscOk y.disc)
    (hc : ∀ y ∈ xs ++ [x], ∃ s items, ∃ N < y.depth, Spec.Means y.config y.disc.fs s items ∧ PathMax y.disc.fs N)
    {s : Setting} {items : FolderType → List FolderItem} (hm : Spec.Means x.config x.disc.fs s items)
    (hu : ∀ y ∈ xs, Unchanged y.disc x.disc) (hf : x.fast = false) (e : indexMails hashfn mktime md5 (xs ++ [x]) none = .ok (some file))
    (scan) (sort : List Nat → List Nat) (letters w : Text) (hlet : ∀ c ∈ letters, c ∈ bs "tcfsbnra") (hw : PlainWord w) :
    ∃ raw view found, openDb file = .ok raw ∧ viewDb raw = .ok view ∧ doSearch scan sort view [letters ++ bs ":" ++ w] false false = .ok found ∧
      (∀ i ∈ found, ∀ p, IsAt view i ⟨.file, p⟩ → MessageFile s items p) ∧
      ∀ p m, MessageFile s items p → FileMeans mktime x.disc p m →
        ((∃ i ∈ found, IsAt view i ⟨.file, p⟩) ↔ ∃ c ∈ letters, ∃ f, LetterMeans c f ∧ HasWord m f (lower w)) := by
  obtain ⟨raw, view, info, a1, a2, a3, a4, a5, a6, a7⟩ := whole_view hmd5 hl hd hc hm hu hf e
  obtain ⟨found, f1, f2⟩ := C15_exact_word a3 scan sort letters w hlet hw
  refine ⟨raw, view, found, a1, a2, f1, fun i _ p hp => ((a6 p).1 ⟨i, hp⟩).1, ?_⟩
  intro p m hp hmean
  constructor
  · rintro ⟨i, hi, hat⟩
    obtain ⟨z, g1, g2, c, hc, f, g3, g4⟩ := (f2 i).1 hi
    obtain ⟨z', g5, g6⟩ := a7 i p m hat hmean
    rw [g1] at g5
    cases g5
    exact ⟨c, hc, f, g3, (g6.words f _).1 g4⟩
  · rintro ⟨c, hc, f, g3, g4⟩
    obtain ⟨i, hat⟩ := (a6 p).2 ⟨hp, hmean.1⟩
    obtain ⟨z, g5, g6⟩ := a7 i p m hat hmean
    exact ⟨i, (f2 i).2 ⟨z, g5, by rw [g6.path]; simp, c, hc, f, g3, (g6.words f _).2 g4⟩, hat⟩

theorem withinEdits_zero {u v : Text} (h : WithinEdits 0 u v) : u = v := by
  cases h
  rfl

/-- **C57, for a path.** Under the same conditions, `p:part` finds, of the messages in files of their own, exactly those in the folders that are configured now whose paths have the part in them, whatever is in the files. -/
theorem C57_path_partial {hashfn : Nat → Text → Nat} {mktime : Nat → Nat → Nat → Int} {md5 : Text → List UInt8} (hmd5 : ∀ t, (md5 t).length = 16) {xs : List Indexing} {x : Indexing} {file : Text}
    (hl : ∀ y ∈ xs ++ [x], LibraryOk y) (hd : ∀ y ∈ xs ++ [x], DiscOk y.disc)
    (hc : ∀ y ∈ xs ++ [x], ∃ s items, ∃ N < y.depth, Spec.Means y.config y.disc.fs s items ∧ PathMax y.disc.fs N)
    {s : Setting} {items : FolderType → List FolderItem} (hm : Spec.Means x.config x.disc.fs s items)
    (hu : ∀ y ∈ xs, Unchanged y.disc x.disc) (hf : x.fast = false) (e : indexMails hashfn mktime md5 (xs ++ [x]) none = .ok (some file))
    (scan) (sort : List Nat → List Nat) (part : Text) (hw : PlainWord part) (hlen : part.length ≤ 31) :
    ∃ raw view found, openDb file = .ok raw ∧ viewDb raw = .ok view ∧ doSearch scan sort view [bs "p:" ++ part] false false = .ok found ∧
      ∀ p, (∃ i ∈ found, IsAt view i ⟨.file, p⟩) ↔ MessageFile s items p ∧ IsFile x.disc.fs p ∧ part <:+: p := by
  obtain ⟨raw, view, info, a1, a2, a3, hpk, a4, a5, a6, a7⟩ := whole_view_paths hmd5 hl hd hc hm hu hf e
  let t : Term := ⟨false, false, part, none⟩
  have hq : QueryWrittenAs noDates [.words [.path] [[t]]] [bs "p:" ++ part] := by
    refine .cons (.words (.letters (letters := bs "p") ?_ ?_ (.last ?_))) .nil
    · decide
    · intro f
      constructor
      · intro h
        rw [List.mem_singleton] at h
        exact ⟨0x70, by decide, h ▸ .p⟩
      · rintro ⟨c, hc, h⟩
        have : c = 0x70 := List.mem_singleton.1 hc
        subst this
        cases h
        simp
    · simpa using Term.WrittenAs.exact false false part
  obtain ⟨found, f1, f2⟩ := C18_query_partial a3 (noDates_scan scan) hq (by
    intro c hc
    rw [List.mem_singleton] at hc
    subst hc
    refine ⟨?_, fun _ => ⟨hpk, by simp⟩⟩
    intro alt ha t' ht'
    rw [List.mem_singleton] at ha; subst ha
    rw [List.mem_singleton] at ht'; subst ht'
    exact ⟨hw, by simp [t], fun _ => hlen⟩) sort
  have hpath : ∀ i p, IsAt view i ⟨.file, p⟩ → ∃ z, info[i]? = some z ∧ z.path = some p := by
    rintro i p ⟨m, k1, k2, k3⟩
    have hlt : i < info.length := by rw [← a3.len]; exact (List.getElem?_eq_some_iff.1 k1).1
    have hz := List.getElem?_eq_getElem hlt
    have := hpk i m _ k1 hz
    rw [pathToken, if_pos k3] at this
    exact ⟨_, hz, by rw [← Except.ok.inj this, k2]⟩
  have hne : part ≠ [] := hw.1
  have hholds : ∀ (z : Info) p, z.path = some p → ((∀ c ∈ [Cond.words [.path] [[t]]], c.Holds z) ↔ part <:+: p) := by
    intro z p hz
    simp only [List.mem_singleton, forall_eq, Cond.Holds, Expr.Holds, Term.Holds, Term.HoldsIn, Contains, t, hz, Option.getD_none, exists_eq_left, exists_eq_left', Option.some.injEq, Bool.false_eq_true, if_false]
    constructor
    · rintro ⟨_, u, h1, h2⟩
      rw [← withinEdits_zero h2]
      exact h1
    · intro h
      refine ⟨?_, part, h, .same 0 part⟩
      rintro rfl
      exact hne (List.eq_nil_of_infix_nil h)
  refine ⟨raw, view, found, a1, a2, f1, ?_⟩
  intro p
  constructor
  · rintro ⟨i, hi, hat⟩
    obtain ⟨z, g1, g2, g3⟩ := (f2 i).1 hi
    obtain ⟨z', g4, g5⟩ := hpath i p hat
    rw [g1] at g4
    cases g4
    obtain ⟨h1, h2⟩ := (a6 p).1 ⟨i, hat⟩
    exact ⟨h1, h2, (hholds z p g5).1 g3⟩
  · rintro ⟨h1, h2, h3⟩
    obtain ⟨i, hat⟩ := (a6 p).2 ⟨h1, h2⟩
    obtain ⟨z, g4, g5⟩ := hpath i p hat
    exact ⟨i, (f2 i).2 ⟨z, g4, by rw [g5]; simp, (hholds z p g5).2 h3⟩, hat⟩

/-- The date that is kept for a day (compare `DateMeans`). -/
theorem dayTime_stored (clk : Clock) (mday mon year : Nat) : clk.dayTime mday mon year = storedDate clk ⟨1900 + year, mon + 1, mday⟩ := by
  have h1 : (1900 + (year : Int)) - 1900 = year := by omega
  have h2 : ((mon + 1 : Nat) : Int) - 1 = mon := by omega
  simp only [Clock.dayTime, storedDate, Day.tm, h1, h2]

/-- **C57, for a date.** Under the same conditions, `d:period` finds of the messages from 1970 on exactly those whose `Date` is a day in the period – except those of its first day, which are found only while clocks
show summer time (see C20). -/
theorem C57_days_partial {hashfn : Nat → Text → Nat} {clk : Clock} {md5 : Text → List UInt8} (hmd5 : ∀ t, (md5 t).length = 16) {xs : List Indexing} {x : Indexing} {file : Text}
    (hl : ∀ y ∈ xs ++ [x], LibraryOk y) (hd : ∀ y ∈ xs ++ [x], DiscOk y.disc)
    (hc : ∀ y ∈ xs ++ [x], ∃ s items, ∃ N < y.depth, Spec.Means y.config y.disc.fs s items ∧ PathMax y.disc.fs N)
    {s : Setting} {items : FolderType → List FolderItem} (hm : Spec.Means x.config x.disc.fs s items)
    (hu : ∀ y ∈ xs, Unchanged y.disc x.disc) (hf : x.fast = false) (e : indexMails hashfn clk.dayTime md5 (xs ++ [x]) none = .ok (some file))
    (sort : List Nat → List Nat) {today first last : Day} {h mi sec z : Int} {t : Text} {per : Period} (hz : Zone clk) (htoday : today.Exists) (hnow : clk.localtime clk.now = today.tm h mi sec z)
    (hp : PeriodText t per) (hcov : Covers today first last per) (hn : Reached today first per) :
    ∃ raw view found, openDb file = .ok raw ∧ viewDb raw = .ok view ∧ doSearch clk.scan sort view [bs "d:" ++ t] false false = .ok found ∧
      ∀ p m day, MessageFile s items p → FileMeans clk.dayTime x.disc p m → day.Exists → m.hdrs.date = storedDate clk day → 0 ≤ storedDate clk day → storedDate clk day < 2 ^ 32 →
        ((∃ i ∈ found, IsAt view i ⟨.file, p⟩) ↔ first.UpTo day ∧ day.UpTo last ∧ (day = first → morning clk first < storedDate clk first)) := by
  obtain ⟨raw, view, info, a1, a2, a3, a4, a5, a6, a7⟩ := whole_view hmd5 hl hd hc hm hu hf e
  have hscan := C20_period_partial htoday hnow (.period hp hcov hn) (.period hp hcov hn)
  change scanDateString clk t = .ok (some (some (morning clk first), some (evening clk last))) at hscan
  have hle : morning clk first ≤ evening clk last := by
    obtain ⟨b1, b2, b3⟩ := covers_days hp hcov
    have h1 := hz.inDay b1
    have h2 := hz.inDay b2
    by_cases e : first = last
    · subst e; omega
    · have := hz.next b1 b2 b3 e; omega
  obtain ⟨found, f1, f2⟩ := C18_query_partial (scan := clk.scan) (dateRange := fun s a b => clk.scan s = some (a, b)) a3 (fun _ _ _ h => h)
    (.cons (.dates (s := t) (a := some (morning clk first)) (b := some (evening clk last)) (by simp only [Clock.scan, hscan])) .nil)
    (by intro c hc; rw [List.mem_singleton] at hc; subst hc; trivial) sort
  refine ⟨raw, view, found, a1, a2, f1, ?_⟩
  intro p m day hpm hmean hday hdate h0 h32
  have key : ∀ y, Tells m p (x.disc.size p) y → ((Cond.dates (some (morning clk first)) (some (evening clk last))).Holds y ↔
      first.UpTo day ∧ day.UpTo last ∧ (day = first → morning clk first < storedDate clk first)) := by
    intro y hy
    have hyd : (y.date : Int) = storedDate clk day := by
      rw [hy.date, hdate]
      simp only [u32]
      omega
    obtain ⟨lim, g1, g2⟩ := C20_days_partial (m := (⟨0, [], 0, 0, 0, 0, y.date, 0⟩ : DbMsg)) hz htoday hnow hp hcov hn hday hyd
    rw [hscan] at g1
    simp only [Except.ok.injEq, Option.some.injEq] at g1
    rw [← g2, ← g1, within_iff hle]
    simp only [Cond.Holds, StrictlyWithin]
    omega
  constructor
  · rintro ⟨i, hi, hat⟩
    obtain ⟨z, g1, g2, g3⟩ := (f2 i).1 hi
    obtain ⟨z', g4, g5⟩ := a7 i p m hat hmean
    rw [g1] at g4
    cases g4
    exact (key _ g5).1 (g3 _ (List.mem_singleton.2 rfl))
  · intro hh
    obtain ⟨i, hat⟩ := (a6 p).2 ⟨hpm, hmean.1⟩
    obtain ⟨z, g4, g5⟩ := a7 i p m hat hmean
    exact ⟨i, (f2 i).2 ⟨z, g4, by rw [g5.path]; simp, fun c hc => by rw [List.mem_singleton] at hc; subst hc; exact (key _ g5).2 hh⟩, hat⟩

end Mairix
