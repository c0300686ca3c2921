import Verif.Proofs.DateShape
import Verif.Proofs.DateAuto
import Verif.Proofs.NvpScan
import Verif.Props.FromLine
import Verif.Props.Nvp
import Verif.Props.Dfasyn

/-!
# C69–C71: the scanners of mairix

`dfasyn` is run on the three input files of mairix, and the functions of mairix on the scanners that it writes.
-/

namespace Mairix
open Spec

/-- **C69.** From fromcheck.nfa dfasyn generates a scanner, and with it mairix takes a text behind `From ` for the beginning of a message just if some beginning of the text
is in the language of separator lines (`From.line`); it never reads outside the tables. -/
theorem C69_from_line {sort : StateSort} (hsort : SortsStates sort) (compress : Bool) : ∃ sc, dfasyn sort compress fromcheckFile = .ok sc ∧
    sc.scanner.entries = [some 0] ∧ ∀ t, ∃ b, scanFrom sc t = .ok b ∧ (b = true ↔ ∃ x y, t = x ++ y ∧ x ≠ [] ∧ Denotes From.line x) := by
  obtain ⟨sc, h1, h2, h3⟩ := from_scans hsort compress
  refine ⟨sc, h1, h2, fun t => ⟨fromCheck t, h3 t, ?_⟩⟩
  unfold fromCheck
  rw [RE.passes_iff]

/-- Usual lines are recognised by the generated scanner, and whatever it is, the rest of the text makes no difference. -/
theorem C69_usual {sort : StateSort} (hsort : SortsStates sort) (compress : Bool) {a weekday month : Text} {day hour min sec year : Nat} (ha : UsualAddress a)
    (hw : ThreeLetters weekday) (hm : ThreeLetters month) (hd : day < 100) (hh : hour < 100) (hmi : min < 100) (hs : sec < 100) (hy : 1000 ≤ year ∧ year < 10000) (rest : Text) :
    ∃ sc, dfasyn sort compress fromcheckFile = .ok sc ∧ scanFrom sc (a ++ bs " " ++ asctime weekday month day hour min sec year ++ rest) = .ok true := by
  obtain ⟨sc, h1, -, h3⟩ := from_scans hsort compress
  exact ⟨sc, h1, by rw [h3, C50_usual ha hw hm hd hh hmi hs hy rest]⟩

/-- There is such a function `qsort`, a text that is recognised and one that is not. -/
example : ∃ sc, dfasyn isort true fromcheckFile = .ok sc ∧ scanFrom sc (bs "jo@mail.example.org Mon Jan  1 12:34:56 1970\nSubject: x\n") = .ok true ∧
    scanFrom sc (bs "here on we know\n") = .ok false := by
  obtain ⟨sc, h1, -, h3⟩ := from_scans sorts_isort true
  refine ⟨sc, h1, ?_, ?_⟩
  · rw [h3]
    decide +kernel
  · rw [h3]
    decide +kernel

/-- **C70.** From datescan.nfa dfasyn generates a scanner, and with it mairix finds for each text the kind of date that it is, by its parts, and
failure just if it is of none of the kinds. -/
theorem C70_dates {sort : StateSort} (hsort : SortsStates sort) (compress : Bool) : ∃ sc, dfasyn sort compress datescanFile = .ok sc ∧
    sc.scanner.entries = [some 0] ∧ ∀ t, ∃ k : DateType, scanDateType sc t = .ok k.name ∧ (∀ k', DateShape t k' → k' = k) ∧ (k ≠ .failure → DateShape t k) := by
  obtain ⟨sc, h1, h2, h3⟩ := date_scans hsort compress
  refine ⟨sc, h1, h2, fun t => ⟨discoverType t, h3 t, fun k' hk => (shape_type hk).1.symm, fun hk => type_shape hk⟩⟩

/-- No date is of two kinds, and the names are different. -/
theorem C70_names : ∀ k k' : DateType, k.name = k'.name → k = k' := by
  intro k k'
  cases k <;> cases k' <;> decide +kernel

/-- Dates of some kinds. -/
example : DateShape (bs "21" ++ (bs "Oct" ++ bs "2003")) .dmy ∧ DateShape (bs "3" ++ [0x77]) .scaled ∧ DateShape (bs "20030518") .yymmdd :=
  ⟨.dmy (n := 21) (k := 2003) ⟨⟨by decide, by decide, by decide⟩, by decide, by decide, by decide⟩ ⟨by decide, by decide⟩ (.long ⟨by decide, by decide, by decide⟩ (by decide) (by decide)),
   .ago (by decide) (by decide) (by decide), .digits (by decide) (by decide)⟩

/-- A text that is no date. -/
example : ∀ k, ¬ DateShape (bs "31x12") k := by
  intro k h
  have h1 : discoverType (bs "31x12") = .failure := by decide +kernel
  exact (shape_type h).2 ((shape_type h).1 ▸ h1)

/-- **C71.** From nvp.nfa dfasyn generates a scanner, and with it mairix reads every header made of parameters (`Params`) as these parameters say. -/
theorem C71_params {sort : StateSort} (hsort : SortsStates sort) : ∃ sc, dfasyn sort true nvpscanFile = .ok sc ∧ sc.scanner.entries = [some 0] ∧
    ∀ (pfx pfx' t : Text) (es : Nvp), lower pfx = lower pfx' → Params t [] es → scanNvp sc (pfx' ++ t) pfx = .ok (some es) := by
  obtain ⟨sc, h1, h2, h3⟩ := nvp_scans hsort
  exact ⟨sc, h1, h2, fun pfx pfx' t es hp h => by rw [h3, C52_parse_partial pfx pfx' t es hp h]⟩

/-- **C71, any header.** For all headers, reading with the generated scanner ends, never reads outside the tables, and does what the sets of states of nvp.nfa say. -/
theorem C71_any {sort : StateSort} (hsort : SortsStates sort) : ∃ sc, dfasyn sort true nvpscanFile = .ok sc ∧ sc.scanner.entries = [some 0] ∧
    ∀ s pfx, ∃ o, scanNvp sc s pfx = .ok o ∧ makeNvp s pfx = .ok o := by
  obtain ⟨sc, h1, h2, h3⟩ := nvp_scans hsort
  refine ⟨sc, h1, h2, fun s pfx => ?_⟩
  obtain ⟨o, ho⟩ := C52_safe s pfx
  exact ⟨o, by rw [h3, ho], ho⟩

/-- A header that is read, with the parameters in it. -/
example : ∃ sc, dfasyn isort true nvpscanFile = .ok sc ∧
    scanNvp sc (bs "Content-Type: multipart/mixed; boundary=\"a b;c\" ; x=y; title*0*=utf-8''%41b; title*1=\" c\" ") (bs "content-type:") =
      .ok (some [.majorMinor (bs "multipart") (bs "mixed"), .nameValue (bs "boundary") (bs "a b;c"), .nameValue (bs "x") (bs "y"), .nameValue (bs "title") (bs "Ab c")]) := by
  obtain ⟨sc, h1, -, h3⟩ := C71_params sorts_isort
  exact ⟨sc, h1, h3 (bs "content-type:") (bs "Content-Type:") _ _ (by decide) nvp_example⟩

end Mairix
