import Verif.Proofs.NfaLex
import Verif.Proofs.NfaParseOnly
import Verif.Proofs.NfaTextFrom
import Verif.Proofs.NfaTextDate
import Verif.Proofs.NfaTextNvp
import Verif.Props.Scanners

/-!
# C79: the input files of dfasyn

A text is laid out by `Layout`, and what its tokens say is `FileText`: both after the manual page dfasyn.5.
-/

namespace Mairix
open Spec

/-- **C79.** A text laid out in any way with these tokens is read just as the declarations that the tokens make, and the parts between `%{` and `%}` go to the output
unchanged; if the tokens make no declarations it is refused. -/
theorem C79_read_partial {t : Text} {ts : List NTok} {o : Text} (h : Layout .line t ts o) (l : List PDecl) (o' : Text) :
    parseNfa t = .ok (l, o') ↔ FileText l ts ∧ o' = o := by
  unfold parseNfa
  rw [ok_bind (lexNfa_layout h)]
  constructor
  · intro hp
    obtain ⟨l', h1, h2⟩ := res_bind_ok hp
    cases h2
    exact ⟨file_only _ h1, rfl⟩
  · rintro ⟨h1, rfl⟩
    dsimp only
    rw [ok_bind (file_read h1 _ (Nat.le_refl _))]

/-- What is refused ends the program with an error; nothing else happens. -/
theorem C79_refused {t : Text} {ts : List NTok} {o : Text} (h : Layout .line t ts o) (hn : ∀ l, ¬ FileText l ts) : ∃ e, parseNfa t = .error e := by
  cases hp : parseNfa t with
  | error e => exact ⟨e, rfl⟩
  | ok p =>
    obtain ⟨l, o'⟩ := p
    exact absurd ((C79_read_partial h l o').mp hp).1 (hn l)

/-- The same tokens never make two different lists of declarations: the operators of expressions bind in one way only. -/
theorem C79_unambiguous {ts : List NTok} {l l' : List PDecl} (h : FileText l ts) (h' : FileText l' ts) : l = l' := by
  have h1 := file_read h _ (Nat.le_refl _)
  rw [file_read h' _ (Nat.le_refl _)] at h1
  cases h1
  rfl

/-- The same text is never laid out with different tokens. -/
theorem C79_tokens {t : Text} {ts ts' : List NTok} {o o' : Text} (h : Layout .line t ts o) (h' : Layout .line t ts' o') : ts = ts' ∧ o = o' := by
  have h1 := lexNfa_layout h
  rw [lexNfa_layout h'] at h1
  cases h1
  exact ⟨rfl, rfl⟩

/-- **C79, the files of mairix.** From the text of fromcheck.nfa dfasyn generates a scanner that recognises separator lines. -/
theorem C79_from_line {sort : StateSort} (hsort : SortsStates sort) (compress : Bool) : ∃ sc, dfasynText sort compress fromcheckText = .ok sc ∧
    sc.scanner.entries = [some 0] ∧ ∀ t, ∃ b, scanFrom sc t = .ok b ∧ (b = true ↔ ∃ x y, t = x ++ y ∧ x ≠ [] ∧ Denotes From.line x) := by
  unfold dfasynText
  rw [ok_bind fromcheck_text]
  exact C69_from_line hsort compress

/-- From the text of datescan.nfa it generates one that tells the kinds of dates. -/
theorem C79_dates {sort : StateSort} (hsort : SortsStates sort) (compress : Bool) : ∃ sc, dfasynText sort compress datescanText = .ok sc ∧
    sc.scanner.entries = [some 0] ∧ ∀ t, ∃ k : DateType, scanDateType sc t = .ok k.name ∧ (∀ k', DateShape t k' → k' = k) ∧ (k ≠ .failure → DateShape t k) := by
  unfold dfasynText
  rw [ok_bind datescan_text]
  exact C70_dates hsort compress

/-- From the text of nvp.nfa it generates one that reads the parameters of headers. -/
theorem C79_params {sort : StateSort} (hsort : SortsStates sort) : ∃ sc, dfasynText sort true nvpscanText = .ok sc ∧ sc.scanner.entries = [some 0] ∧
    ∀ (pfx pfx' t : Text) (es : Nvp), lower pfx = lower pfx' → Params t [] es → scanNvp sc (pfx' ++ t) pfx = .ok (some es) := by
  unfold dfasynText
  rw [ok_bind nvpscan_text]
  exact C71_params hsort

/-- The manual page has single characters in double quotes; the program takes them for names. -/
theorem C79_quoted_violation : parseNfa (bs "abbrev A = \"a\"\n") = .ok ([.abbreviation (bs "A") [.word (bs "a")]], []) ∧
    dfasynText isort true (bs "abbrev A = \"a\"\n") = .error (.exit 1) := by decide +kernel

/-- The manual page has commas between the declarations of a group; the program accepts none. -/
theorem C79_group_violation : parseNfa (bs "group g { attr a, type short }\n") = .error (.exit 1) ∧
    parseNfa (bs "group g { attr a type short }\n") = .ok ([.group (bs "g") [.names false [bs "a"], .type (bs "short")]], []) := by decide +kernel

/-! ## Examples -/

/-- A file with a part that is passed on, a comment, a class with an escape and a range, and a reserved word with a capital. -/
example : ∃ t, Layout .line t [.tag, .str (bs "T"), .equal, .str (bs "a"), .and, .not, .str (bs "b"), .abbrev, .str (bs "C"), .equal, .lsquare, .chr 0x2d, .chr 0x61, .hyphen, .chr 0x7a, .rsquare] (bs "#x\n") ∧
    t = bs "%{ \n#x\n%}\nTag T=a&~\"b\" # n\nABBREV C=[\\-a-z]" := by
  have hr1 : Reserved (bs "Tag") .tag := .inl ⟨("tag", .tag), by decide, by decide, rfl⟩
  have hr2 : Reserved (bs "ABBREV") .abbrev := .inl ⟨("abbrev", .abbrev), by decide, by decide, rfl⟩
  have hn : ∀ w : Text, w.length = 1 → ∀ k, ¬ Reserved w k := by
    intro w hw k hk
    have := (by decide +kernel : ∀ e ∈ allReserved, e.1.length ≠ 1) (w, k) (reserved_mem.mp hk)
    exact this hw
  have he : ¬ EndMark (bs "#x") := by
    rintro ⟨b, hb, _⟩
    exact absurd (congrArg List.head? hb) (by simp [bs])
  refine ⟨_, .passed (b₁ := [0x20]) (b₂ := []) (ls := [bs "#x"]) (by simp [BlankChar]) (by simp) (by simpa using ⟨by decide, he⟩) <|
    .reserved (w := bs "Tag") (by decide) hr1 <| .blank _ (c := 0x20) (.inl rfl) <|
    .name (w := bs "T") (by decide) (by decide) (fun c hc => word_char.mpr (by revert c; decide)) (hn _ rfl) <|
    .mark _ (e := ("=", .equal)) (by decide) <|
    .name (w := bs "a") (by decide) (by decide) (fun c hc => word_char.mpr (by revert c; decide)) (hn _ rfl) <|
    .mark _ (e := ("&", .and)) (by decide) <| .mark _ (e := ("~", .not)) (by decide) <|
    .quoted _ (s := bs "b") (by decide) (by decide) <| .blank _ (c := 0x20) (.inl rfl) <|
    .comment _ (s := bs " n") (by decide) <|
    .reserved (w := bs "ABBREV") (by decide) hr2 <| .blank _ (c := 0x20) (.inl rfl) <|
    .name (w := bs "C") (by decide) (by decide) (fun c hc => word_char.mpr (by revert c; decide)) (hn _ rfl) <|
    .mark _ (e := ("=", .equal)) (by decide) <|
    .cls _ (.chr (.escaped (.inl rfl)) <| .chr (.plain (by decide) (by decide) (by decide) (by decide) (by decide)) <| .hyphen <|
      .chr (.plain (by decide) (by decide) (by decide) (by decide) (by decide)) .nil) (by decide) <| .nil _, ?_⟩
  decide +kernel

/-- An expression without parentheses, and what it means. -/
example : FileText [.tag (bs "T") (.cond (.or (.tag (bs "a")) (.and (.not (.tag (bs "b"))) (.tag (bs "c")))) (.tag (bs "d")) (.tag (bs "e")))]
    [.tag, .str (bs "T"), .equal, .str (bs "a"), .pipe, .not, .str (bs "b"), .and, .str (bs "c"), .query, .str (bs "d"), .colon, .str (bs "e")] :=
  file_only 13 (by decide +kernel)

/-- Tokens that make no declaration. -/
example : ∀ l, ¬ FileText l [.tag, .str (bs "T")] := by
  intro l h
  have h1 := file_read h 2 (by decide)
  rw [show pDecls 2 [.tag, .str (bs "T")] = .error (.exit 1) by decide +kernel] at h1
  cases h1

end Mairix
