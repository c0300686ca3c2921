import Verif.Proofs.Rc

/-!
# C54: the configuration file means what its manual says
-/

namespace Mairix
open Spec

theorem allStand_snoc {e : Env} {vs rs : List Text} {v r : Text} (h : AllStand e vs rs) (hr : StandsFor e v r) : AllStand e (vs ++ [v]) (rs ++ [r]) := by
  induction h with
  | nil => exact .cons hr .nil
  | cons h _ ih => exact .cons h ih

theorem allStand_nil {e : Env} {rs : List Text} (h : AllStand e [] rs) : rs = [] := by cases h; rfl

theorem intercalate_snoc (s r : Text) : ∀ l : List Text, l ≠ [] → List.intercalate s (l ++ [r]) = List.intercalate s l ++ s ++ r
  | [], h => absurd rfl h
  | [x], _ => by simp [List.intercalate, List.intersperse]
  | x :: y :: l, _ => by
    have := intercalate_snoc s r (y :: l) (by simp)
    simp [List.intercalate, List.intersperse] at this ⊢
    exact this

theorem colonJoined_snoc (l : List Text) (r : Text) :
    colonJoined (l ++ [r]) = some (match colonJoined l with | none => r | some o => o ++ bs ":" ++ r) := by
  unfold colonJoined
  cases l with
  | nil => simp [List.intercalate, List.intersperse]
  | cons x l =>
    rw [if_neg (by simp), if_neg (by simp), intercalate_snoc _ _ _ (by simp)]

theorem parseOutput_ok {r : Text} {f was : OutFormat} (h : lower r = formatName f) : parseOutputFolder was r = f := by
  unfold parseOutputFolder startsNoCase
  simp only [lower_take, h]
  cases f <;> rfl

theorem setValues_snoc (k : SetKey) (is : List RcItem) (i : RcItem) :
    setValues k (is ++ [i]) = setValues k is ++ (match i with | .set k' v => if k' = k then [v] else [] | _ => []) := by
  unfold setValues
  rw [List.filterMap_append]
  congr 1
  cases i <;> simp
  split <;> simp_all

theorem listValues_snoc (k : ListKey) (is : List RcItem) (i : RcItem) :
    listValues k (is ++ [i]) = listValues k is ++ (match i with | .list k' v => if k' = k then [v] else [] | _ => []) := by
  unfold listValues
  rw [List.filterMap_append]
  congr 1
  cases i <;> simp
  split <;> simp_all

theorem formatValues_snoc (is : List RcItem) (i : RcItem) :
    formatValues (is ++ [i]) = formatValues is ++ (match i with | .format v => [v] | _ => []) := by
  unfold formatValues
  rw [List.filterMap_append]
  congr 1
  cases i <;> simp

theorem standsFor_unique {e : Env} {v r r' : Text} (h : StandsFor e v r) (h' : StandsFor e v r') : r = r' := by
  obtain ⟨x, _, _, _, hx⟩ := C31_expand e v
  rw [hx r h, hx r' h']

/-- One more line. -/
theorem rcMeans_step {e : Env} {is : List RcItem} {rc : Rc} {i : RcItem} {r : Text} (h : FormatsOk e is → RcMeans e is rc) (hr : StandsFor e (itemValue i) r)
    (hf : FormatsOk e (is ++ [i])) : RcMeans e (is ++ [i]) (itemDo rc r i) := by
  have hm : RcMeans e is rc := h fun v hv => hf v (by rw [formatValues_snoc]; simp [hv])
  constructor
  · intro k
    obtain ⟨rs, h1, h2⟩ := hm.set k
    rw [setValues_snoc]
    cases i with
    | set k' v =>
      by_cases hk : k' = k
      · subst hk
        refine ⟨rs ++ [r], ?_, ?_⟩
        · simpa [itemValue] using allStand_snoc h1 hr
        · cases k' <;> simp [SetKey.of, itemDo]
      · refine ⟨rs, by simpa [hk] using h1, ?_⟩
        rw [← h2]
        cases k' <;> cases k <;> first | rfl | exact absurd rfl hk
    | list k' v => exact ⟨rs, by simpa using h1, by rw [← h2]; cases k' <;> cases k <;> rfl⟩
    | flag k' => exact ⟨rs, by simpa using h1, by rw [← h2]; cases k' <;> cases k <;> rfl⟩
    | blank => exact ⟨rs, by simpa using h1, h2⟩
    | comment t => exact ⟨rs, by simpa using h1, h2⟩
    | format v => exact ⟨rs, by simpa using h1, by rw [← h2]; cases k <;> rfl⟩
  · intro k
    obtain ⟨rs, h1, h2⟩ := hm.list k
    rw [listValues_snoc]
    cases i with
    | list k' v =>
      by_cases hk : k' = k
      · subst hk
        refine ⟨rs ++ [r], ?_, ?_⟩
        · simpa [itemValue] using allStand_snoc h1 hr
        · rw [colonJoined_snoc, ← h2]
          cases k' <;> rfl
      · refine ⟨rs, by simpa [hk] using h1, ?_⟩
        rw [← h2]
        cases k' <;> cases k <;> first | rfl | exact absurd rfl hk
    | set k' v => exact ⟨rs, by simpa using h1, by rw [← h2]; cases k' <;> cases k <;> rfl⟩
    | flag k' => exact ⟨rs, by simpa using h1, by rw [← h2]; cases k' <;> cases k <;> rfl⟩
    | blank => exact ⟨rs, by simpa using h1, h2⟩
    | comment t => exact ⟨rs, by simpa using h1, h2⟩
    | format v => exact ⟨rs, by simpa using h1, by rw [← h2]; cases k <;> rfl⟩
  · intro k
    have h1 := hm.flag k
    cases i with
    | flag k' =>
      by_cases hk : k' = k
      · subst hk
        cases k' <;> simp [FlagKey.of, itemDo]
      · have : RcItem.flag k ∈ is ++ [RcItem.flag k'] ↔ RcItem.flag k ∈ is := by
          simp only [List.mem_append, List.mem_singleton, RcItem.flag.injEq]
          exact ⟨fun h => h.elim id fun h => absurd h.symm hk, .inl⟩
        rw [this, ← h1]
        cases k' <;> cases k <;> first | rfl | exact absurd rfl hk
    | set k' v => simp; rw [← h1]; cases k' <;> cases k <;> rfl
    | list k' v => simp; rw [← h1]; cases k' <;> cases k <;> rfl
    | blank => simpa [itemDo] using h1
    | comment t => simpa [itemDo] using h1
    | format v => simp; rw [← h1]; cases k <;> rfl
  · rw [formatValues_snoc]
    cases i with
    | format v =>
      right
      refine ⟨v, r, by simp, hr, ?_⟩
      obtain ⟨f, r', hr', hl⟩ := hf v (by rw [formatValues_snoc]; simp)
      obtain rfl := standsFor_unique hr hr'
      rw [itemDo, parseOutput_ok hl]
      exact hl
    | set k' v => have := hm.format; dsimp only; rw [List.append_nil]; cases k' <;> exact this
    | list k' v => have := hm.format; dsimp only; rw [List.append_nil]; cases k' <;> exact this
    | flag k' => have := hm.format; dsimp only; rw [List.append_nil]; cases k' <;> exact this
    | blank => have := hm.format; dsimp only; rw [List.append_nil]; exact this
    | comment t => have := hm.format; dsimp only; rw [List.append_nil]; exact this

theorem rcMeans_nil (e : Env) : RcMeans e [] {} := by
  constructor
  · intro k; exact ⟨[], .nil, by cases k <;> rfl⟩
  · intro k; exact ⟨[], .nil, by cases k <;> rfl⟩
  · intro k; cases k <;> simp [FlagKey.of]
  · exact .inl ⟨rfl, rfl⟩

/-- **C54** (partial: no value has one of the characters `#`, `!`, `;`, `%`; see `C54_characters_violation`): from every file made of documented lines, in any order and number, with
names in upper or lower case, mairix takes exactly the settings that the file means: of several lines for one value the last counts, lists on several lines are joined with
colons, and home directory and environment variables are replaced. -/
theorem C54_settings_partial (e : Env) {is : List RcItem} {text : Text} (hw : WritesRc is text) (hf : FormatsOk e is) :
    ∃ rc, parseRcFile e (some text) = .ok rc ∧ RcMeans e is rc := by
  obtain ⟨rc, h1, h2⟩ := rcLoop_items e (P := fun is rc => FormatsOk e is → RcMeans e is rc) (fun is rc i r h hr hf => rcMeans_step h hr hf) hw
    [] {} (text.length + 1) (fun _ => rcMeans_nil e) (Nat.lt_succ_self _)
  exact ⟨rc, h1, h2 hf⟩

/-- The settings are determined by what the file means, so the theorem says all there is to say. -/
theorem rcMeans_unique {e : Env} {is : List RcItem} {a b : Rc} (ha : RcMeans e is a) (hb : RcMeans e is b) : a = b := by
  have hu : ∀ vs rs rs', AllStand e vs rs → AllStand e vs rs' → rs = rs' := by
    intro vs
    induction vs with
    | nil => intro rs rs' h h'; rw [allStand_nil h, allStand_nil h']
    | cons v vs ih =>
      intro rs rs' h h'
      cases h with
      | cons h1 h2 =>
        cases h' with
        | cons h1' h2' => rw [standsFor_unique h1 h1', ih _ _ h2 h2']
  have hs : ∀ k : SetKey, k.of a = k.of b := by
    intro k
    obtain ⟨rs, h1, h2⟩ := ha.set k
    obtain ⟨rs', h1', h2'⟩ := hb.set k
    rw [h2, h2', hu _ _ _ h1 h1']
  have hl : ∀ k : ListKey, k.of a = k.of b := by
    intro k
    obtain ⟨rs, h1, h2⟩ := ha.list k
    obtain ⟨rs', h1', h2'⟩ := hb.list k
    rw [h2, h2', hu _ _ _ h1 h1']
  have hfl : ∀ k : FlagKey, k.of a = k.of b := by
    intro k
    have h1 := ha.flag k
    rw [← hb.flag k] at h1
    exact Bool.eq_iff_iff.2 h1
  have hfm : a.format = b.format := by
    have hn : ∀ f g, formatName f = formatName g → f = g := by intro f g; cases f <;> cases g <;> decide
    rcases ha.format with ⟨h1, h2⟩ | ⟨v, r, h1, h2, h3⟩
    · rcases hb.format with ⟨_, h2'⟩ | ⟨v', r', h1', _⟩
      · rw [h2, h2']
      · rw [h1] at h1'; simp at h1'
    · rcases hb.format with ⟨h1', _⟩ | ⟨v', r', h1', h2', h3'⟩
      · rw [h1'] at h1; simp at h1
      · rw [h1] at h1'
        obtain rfl := Option.some.inj h1'
        obtain rfl := standsFor_unique h2 h2'
        exact hn _ _ (h3.symm.trans h3')
  have s1 := hs .base; have s2 := hs .mfolder; have s3 := hs .database; have s4 := hs .imapServer; have s5 := hs .imapPipe; have s6 := hs .imapUsername
  have s7 := hs .imapPassword; have l1 := hl .maildir; have l2 := hl .mh; have l3 := hl .mbox; have l4 := hl .imap; have l5 := hl .omit
  have f1 := hfl .nochecks; have f2 := hfl .followMboxSymlinks; have f3 := hfl .sortDate
  simp only [SetKey.of, ListKey.of, FlagKey.of] at *
  cases a; cases b
  simp_all

instance (t : Text) : Decidable (LineOk t) := by unfold LineOk; infer_instance

/-- A file with comments, blank lines, both kinds of settings, names in both cases, references, and no end of the last line. -/
def exRcItems : List RcItem :=
  [.comment (bs " example"), .set .base (bs "~/mail"), .blank, .list .maildir (bs "inbox:archive..."), .list .maildir (bs "lists..."), .set .mfolder (bs "a"),
   .flag .nochecks, .set .mfolder (bs "$M_1"), .format (bs "MBox"), .set .database (bs "/db")]

def exRcText : Text :=
  bs "# example" ++ 0x0a :: ( bs "base=~/mail" ++ 0x0a :: ( bs " " ++ 0x0a :: ( bs "Maildir=inbox:archive..." ++ 0x0a :: ( bs " maildir=lists..." ++ 0x0a :: ( bs "mfolder=a" ++ 0x0a :: ( bs "nochecks" ++ 0x0a :: ( bs "mfolder=$M_1" ++ 0x0a :: ( bs "mformat=MBox" ++ 0x0a :: (bs "DATABASE=/db")))))))))

theorem exRc_writes : WritesRc exRcItems exRcText := by
  unfold exRcItems exRcText
  refine .line (t := bs "# example") .comment (by decide +kernel) ?_
  refine .line (t := bs "base=~/mail") (.set (ind := []) (w := bs "base=") (by simp) (by decide +kernel) (by unfold PlainValue; decide +kernel)) (by decide +kernel) ?_
  refine .line (t := bs " ") (.blank (by decide +kernel)) (by decide +kernel) ?_
  refine .line (t := bs "Maildir=inbox:archive...") (.list (ind := []) (w := bs "Maildir=") (by simp) (by decide +kernel) (by unfold PlainValue; decide +kernel)) (by decide +kernel) ?_
  refine .line (t := bs " maildir=lists...") (.list (ind := bs " ") (w := bs "maildir=") (by decide +kernel) (by decide +kernel) (by unfold PlainValue; decide +kernel)) (by decide +kernel) ?_
  refine .line (t := bs "mfolder=a") (.set (ind := []) (w := bs "mfolder=") (by simp) (by decide +kernel) (by unfold PlainValue; decide +kernel)) (by decide +kernel) ?_
  refine .line (t := bs "nochecks") (.flag (ind := []) (v := []) (w := bs "nochecks") (by simp) (by decide +kernel) (by unfold PlainValue; decide +kernel)) (by decide +kernel) ?_
  refine .line (t := bs "mfolder=$M_1") (.set (ind := []) (w := bs "mfolder=") (by simp) (by decide +kernel) (by unfold PlainValue; decide +kernel)) (by decide +kernel) ?_
  refine .line (t := bs "mformat=MBox") (.format (ind := []) (w := bs "mformat=") (by simp) (by decide +kernel) (by unfold PlainValue; decide +kernel)) (by decide +kernel) ?_
  exact .last (t := bs "DATABASE=/db") (.set (ind := []) (w := bs "DATABASE=") (by simp) (by decide +kernel) (by unfold PlainValue; decide +kernel)) (by decide +kernel) (by decide +kernel)

example : ∃ rc, parseRcFile exEnv (some exRcText) = .ok rc ∧ RcMeans exEnv exRcItems rc :=
  C54_settings_partial exEnv exRc_writes (by
    intro v hv
    have : v = bs "MBox" := by revert hv; decide +kernel +revert
    subst this
    obtain ⟨r, h1, h2, _⟩ := C31_expand exEnv (bs "MBox")
    have : r = bs "MBox" := by
      have := C31_plain exEnv (p := bs "MBox") (by decide +kernel) (by decide +kernel)
      rw [h1] at this; exact Except.ok.inj this
    exact ⟨.mbox, r, h2, by rw [this]; decide +kernel⟩)

example : parseRcFile exEnv (some exRcText) = .ok { base := some (bs "/home/u/mail"), maildirs := some (bs "inbox:archive...:lists..."), mfolder := some (bs "mail"), database := some (bs "/db"), format := .mbox, skipChecks := true } := by decide +kernel

/-- **C54** fails for values with certain characters: the manual knows only comments that begin a line, but the code cuts every line at `#`, `!`, `;` and `%`. A folder is left out, and a password
cut, without a message. -/
theorem C54_characters_violation :
    parseRcFile exEnv (some (bs "maildir=inbox:50%off\nimap_password=se!cret\n")) =
      .ok { maildirs := some (bs "inbox:50"), imapPassword := some (bs "se") } := by decide +kernel

/-- **C54** fails too for trailing blanks, which become part of the value. -/
theorem C54_blanks_violation :
    parseRcFile exEnv (some (bs "base=/mail # my mail\n")) = .ok { base := some (bs "/mail ") } := by decide +kernel

end Mairix
