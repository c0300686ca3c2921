import Verif.Props.Mime

/-!
# C47: a message with parts
-/

namespace Mairix
open Spec

theorem valueMeans_of {v x : Text} (h : decodeHeaderValue v = .ok x) : ValueMeans v x := by
  obtain ⟨d, h1, h2, -⟩ := C35_decode v
  rw [h] at h2
  exact ⟨d, h1, by simpa using h2⟩

theorem not_name {n f : Text} (hn : PlainName n) (h : hasPrefixCase n f = false) : ¬ HasName n f := by
  intro h'
  rw [(hasPrefix_iff hn).2 h'] at h
  cases h

theorem absent_field {n : Text} {fs : List Text} (hn : PlainName n) (h : fs.all (fun f => !hasPrefixCase n f) = true) : ∀ f ∈ fs, ¬ HasName n f := by
  intro f hf
  have := List.all_eq_true.1 h f hf
  exact not_name hn (by simpa using this)

theorem paramName_of {t : Text} (h : t.all (fun c => isAlnum c || c = 0x2d || c = 0x5f) = true) (hn : t ≠ []) : Of ParamChar t := by
  refine ⟨hn, fun c hc => ?_⟩
  have := List.all_eq_true.1 h c hc
  simp at this
  unfold ParamChar
  simp only [or_assoc] at this ⊢
  exact this

theorem valueChars_of {t : Text} (h : t.all (fun c => 0x21 ≤ c && c ≤ 0x7e && c ≠ 0x5c && c ≠ 0x22 && c ≠ 0x3b) = true) (hn : t ≠ []) : Of ValueChar t := by
  refine ⟨hn, fun c hc => ?_⟩
  have := List.all_eq_true.1 h c hc
  simp at this
  unfold ValueChar
  grind

theorem white_blank : White (bs " ") := by unfold White; decide
theorem white_nil : White [] := by unfold White; decide

/-- The first part: no header, one line. -/
def exPart1 : Text := headerText [] [] (bs "hello --xx\n")
/-- The second part: an attachment in base64. -/
def exPart2 : Text := headerText [bs "Content-Type: image/png", bs "Content-Disposition: attachment;", bs " FileName=f.png", bs "Content-Transfer-Encoding: BASE64"] [] (bs "aGk=\n")
/-- The body: the parts with their delimiters. -/
def exBody : Text := bs "pre\n" ++ bs "--" ++ bs "xx" ++ bs "\n" ++ (exPart1 ++ bs "--" ++ bs "xx" ++ bs "\r\n" ++ (exPart2 ++ bs "--" ++ bs "xx" ++ bs "--" ++ bs "\n"))
/-- A message with two parts. -/
def exMessage : Text := headerText [bs "To: a@b", bs "FROM: =?utf-8?q?x_y?=", bs "Date: 3 Feb 2020 12:00", bs "to: c", bs "Status: RO", bs "Content-Type: multipart/mixed; boundary=xx"] (bs "\r") exBody

/-- What is kept of it. -/
def exKept (date : Int) : Rfc822 := .mk ⟨some (bs " a@b,  c"), none, some (bs " x y"), none, none, none, none, date, true, false, false⟩ (.cons (.plain (bs "hello --xx\n")) none (.cons .other (some (bs "f.png")) .nil))

instance (b l : Text) : Decidable (NoDelimiter b l) := by unfold NoDelimiter; infer_instance

theorem enclosed_of {b p : Text} (ls : List Text) (e : p = (ls.map (· ++ bs "\n")).flatten) (h : ls.all (fun l => decide (0x0a ∉ l) && decide (NoDelimiter b l)) = true) : Enclosed b p := by
  refine ⟨ls, e, fun l hl => ?_⟩
  have := List.all_eq_true.1 h l hl
  rw [Bool.and_eq_true] at this
  exact ⟨of_decide_eq_true this.1, of_decide_eq_true this.2⟩

theorem headerOf_of {lines fields : List Text} {blank body : Text} (h1 : lines.all (fun l => decide (0x0a ∉ l ∧ 0 ∉ l) && l.any (fun c => !isSpace c)) = true)
    (h2 : blank.all (fun c => isSpace c && c != 0x0a) = true) (h3 : auditHeader true lines = true) (h4 : Unfolded lines fields) : HeaderOf (headerText lines blank body) fields body := by
  refine ⟨lines, blank, rfl, fun l hl => ?_, fun c hc => ?_, (C36_audit lines).1 h3, h4⟩
  · have := List.all_eq_true.1 h1 l hl
    simp at this
    exact ⟨this.1.1, this.1.2, by obtain ⟨c, hc⟩ := this.2; exact ⟨c, hc⟩⟩
  · have := List.all_eq_true.1 h2 c hc
    simpa using this

theorem exPart1_means (mk : Nat → Nat → Nat → Int) : MimeMeans mk (.entity exPart1 (.cons (.plain (bs "hello --xx\n")) none .nil)) :=
  .entity (fields := []) (headerOf_of (by decide +kernel) (by decide +kernel) (by decide +kernel) .nil) (.inl ⟨by simp, rfl⟩) (.inl ⟨by simp, rfl⟩) (.inl ⟨by simp, rfl⟩) (.untyped (d := bs "hello --xx\n") .none)

theorem exPart2_means (mk : Nat → Nat → Nat → Int) : MimeMeans mk (.entity exPart2 (.cons .other (some (bs "f.png")) .nil)) := by
  refine .entity (fields := [bs "Content-Type: image/png", bs "Content-Disposition: attachment;" ++ bs " FileName=f.png", bs "Content-Transfer-Encoding: BASE64"])
    (ct := some [.majorMinor (bs "image") (bs "png")]) (cte := some [.name (bs "BASE64")]) (cd := some [.name (bs "attachment"), .nameValue (bs "FileName") (bs "f.png")])
    (headerOf_of (by decide +kernel) (by decide +kernel) (by decide +kernel) ?_) (.inr ?_) (.inr ?_) (.inr ?_) ?_
  · have := @Unfolded.field (bs "Content-Type: image/png") [] [] [bs "Content-Disposition: attachment;", bs " FileName=f.png", bs "Content-Transfer-Encoding: BASE64"]
      [bs "Content-Disposition: attachment;" ++ bs " FileName=f.png", bs "Content-Transfer-Encoding: BASE64"] (by unfold Begins; decide) .nil ?_
    · simpa using this
    · refine @Unfolded.field (bs "Content-Disposition: attachment;") [bs " FileName=f.png"] (bs " FileName=f.png") [bs "Content-Transfer-Encoding: BASE64"] [bs "Content-Transfer-Encoding: BASE64"] (by unfold Begins; decide) ?_ ?_
      · have := ContinueAll.cons (l := bs " FileName=f.png") (p := bs " FileName=f.png") ⟨[], 0x20, bs "FileName=f.png", by decide +kernel, by decide +kernel, by decide +kernel, by decide +kernel, by decide +kernel⟩ .nil
        simpa using this
      · have := @Unfolded.field (bs "Content-Transfer-Encoding: BASE64") [] [] [] [] (by unfold Begins; decide) .nil .nil
        simpa using this
  · refine ⟨[], bs "Content-Type: image/png", [bs "Content-Disposition: attachment;" ++ bs " FileName=f.png", bs "Content-Transfer-Encoding: BASE64"], bs " " ++ (bs "image" ++ bs "/" ++ bs "png") ++ [], _, rfl,
      absent_field (by decide +kernel) (by decide +kernel), ⟨bs "Content-Type:", by decide +kernel, by decide +kernel⟩, ?_, rfl⟩
    exact .last white_blank (.type (paramName_of (by decide +kernel) (by decide +kernel)) ⟨by decide +kernel, fun c hc => .inl ((paramName_of (t := bs "png") (by decide +kernel) (by decide +kernel)).2 c hc)⟩) white_nil
  · refine ⟨[bs "Content-Type: image/png", bs "Content-Disposition: attachment;" ++ bs " FileName=f.png"], bs "Content-Transfer-Encoding: BASE64", [], bs " " ++ bs "BASE64" ++ [], _, rfl,
      absent_field (by decide +kernel) (by decide +kernel), ⟨bs "Content-Transfer-Encoding:", by decide +kernel, by decide +kernel⟩, ?_, rfl⟩
    exact .last white_blank (.name (.one (paramName_of (by decide +kernel) (by decide +kernel)))) white_nil
  · refine ⟨[bs "Content-Type: image/png"], bs "Content-Disposition: attachment;" ++ bs " FileName=f.png", [bs "Content-Transfer-Encoding: BASE64"],
      bs " " ++ bs "attachment" ++ [] ++ bs ";" ++ (bs " " ++ (bs "FileName" ++ bs "=" ++ [] ++ bs "f.png") ++ []), _, rfl,
      absent_field (by decide +kernel) (by decide +kernel), ⟨bs "Content-Disposition:", by decide +kernel, by decide +kernel⟩, ?_, rfl⟩
    refine .more white_blank (.name (.one (paramName_of (by decide +kernel) (by decide +kernel)))) white_nil (.last white_blank (.plain (.one (paramName_of (by decide +kernel) (by decide +kernel))) white_nil (valueChars_of (by decide +kernel) (by decide +kernel))) white_nil)
  · refine .other (d := bs "hi") (.base64 (by decide +kernel) (show List.filter _ _ = _ by decide +kernel)) ?_ ?_ ?_ ?_ ?_
    · rintro ⟨m, s, ps, e, h, -⟩; simp at e; rw [← e.1.1] at h; exact absurd h (by decide +kernel)
    · rintro ⟨m, s, ps, e, h, -⟩; simp at e; rw [← e.1.1] at h; exact absurd h (by decide +kernel)
    · rintro ⟨m, s, ps, e, h, -⟩; simp at e; rw [← e.1.1] at h; exact absurd h (by decide +kernel)
    · rintro (⟨m, s, ps, e, h⟩ | ⟨m, ps, e, h⟩)
      · simp at e; rw [← e.1.1] at h; exact absurd h (by decide +kernel)
      · simp at e
    · exact .inr ⟨bs "attachment", _, rfl, by decide +kernel, .inl ⟨bs "f.png", ⟨[], bs "FileName", [], rfl, by decide +kernel, by simp⟩, rfl⟩⟩

/-- The fields of the message. -/
def exFields : List Text := [bs "To: a@b", bs "FROM: =?utf-8?q?x_y?=", bs "Date: 3 Feb 2020 12:00", bs "to: c", bs "Status: RO", bs "Content-Type: multipart/mixed; boundary=xx"]

theorem unfolded_plain : ∀ ls : List Text, (∀ l ∈ ls, Begins l) → Unfolded ls ls
  | [], _ => .nil
  | l :: ls, h => by
    have := @Unfolded.field l [] [] ls ls (h l (by simp)) .nil (unfolded_plain ls (fun x hx => h x (by simp [hx])))
    simpa using this

theorem exFields_means (mk : Nat → Nat → Nat → Int) : HeadersMean mk exFields ⟨some (bs " a@b,  c"), none, some (bs " x y"), none, none, none, none, mk 3 1 120, true, false, false⟩ where
  to := ⟨[bs " a@b", bs " c"], .take (v := bs " a@b") ⟨bs "To:", by decide +kernel, by decide +kernel⟩ (valueMeans_of (by decide +kernel)) (.skip (not_name (by decide +kernel) (by decide +kernel)) (.skip (not_name (by decide +kernel) (by decide +kernel))
    (.take (v := bs " c") ⟨bs "to:", by decide +kernel, by decide +kernel⟩ (valueMeans_of (by decide +kernel)) (.skip (not_name (by decide +kernel) (by decide +kernel)) (.skip (not_name (by decide +kernel) (by decide +kernel)) .nil))))), rfl⟩
  cc := ⟨[], .skip (not_name (by decide +kernel) (by decide +kernel)) (.skip (not_name (by decide +kernel) (by decide +kernel)) (.skip (not_name (by decide +kernel) (by decide +kernel)) (.skip (not_name (by decide +kernel) (by decide +kernel))
    (.skip (not_name (by decide +kernel) (by decide +kernel)) (.skip (not_name (by decide +kernel) (by decide +kernel)) .nil))))), rfl⟩
  «from» := .inr ⟨[bs "To: a@b"], bs "FROM: =?utf-8?q?x_y?=", _, bs " =?utf-8?q?x_y?=", bs " x y", rfl, absent_field (by decide +kernel) (by decide +kernel), ⟨bs "FROM:", by decide +kernel, by decide +kernel⟩, valueMeans_of (by decide +kernel), rfl⟩
  subject := .inl ⟨absent_field (by decide +kernel) (by decide +kernel), rfl⟩
  messageId := .inl ⟨absent_field (by decide +kernel) (by decide +kernel), rfl⟩
  inReplyTo := .inl ⟨absent_field (by decide +kernel) (by decide +kernel), rfl⟩
  references := .inl ⟨absent_field (by decide +kernel) (by decide +kernel), rfl⟩
  date := .inr ⟨[bs "To: a@b", bs "FROM: =?utf-8?q?x_y?="], bs "Date: 3 Feb 2020 12:00", _, bs " 3 Feb 2020 12:00", bs " 3 Feb 2020 12:00", rfl, absent_field (by decide +kernel) (by decide +kernel), ⟨bs "Date:", by decide +kernel, by decide +kernel⟩,
    valueMeans_of (by decide +kernel), .inl ⟨3, 1, 2020, ⟨[], bs " ", bs "3", bs " ", bs "Feb", [], bs " ", bs "2020", bs " ", bs "12:00", by decide +kernel, .inl ⟨rfl, by decide +kernel⟩, by decide +kernel, ⟨by decide +kernel, by decide +kernel, by decide +kernel⟩, by decide +kernel,
      by decide +kernel, by decide +kernel, by decide +kernel, ⟨by decide +kernel, by decide +kernel, by decide +kernel⟩, by decide +kernel, 0x31, bs "2:00", by decide +kernel, by decide +kernel, by decide +kernel⟩, rfl⟩, .inr (absent_field (by decide +kernel) (by decide +kernel))⟩
  seen := by
    refine ⟨fun _ => ⟨bs "Status: RO", by simp [exFields], bs " RO", .inl ⟨bs "Status:", by decide +kernel, by decide +kernel⟩, by decide +kernel⟩, fun _ => rfl⟩
  replied := by
    refine ⟨fun h => by simp at h, ?_⟩
    rintro ⟨f, hf, v, hv, hc⟩
    exact absurd (exStatus hf hv) (fun e => by rw [e] at hc; exact absurd hc (by decide +kernel))
  flagged := by
    refine ⟨fun h => by simp at h, ?_⟩
    rintro ⟨f, hf, v, hv, hc⟩
    exact absurd (exStatus hf hv) (fun e => by rw [e] at hc; exact absurd hc (by decide +kernel))
where
  exStatus {f v : Text} (hf : f ∈ exFields) (hv : FieldIs (bs "status:") f v ∨ FieldIs (bs "x-status:") f v) : v = bs " RO" := by
    have a1 := absent_field (n := bs "x-status:") (fs := exFields) (by decide +kernel) (by decide +kernel) f hf
    rcases hv with hv | hv
    · simp only [exFields, List.mem_cons, List.not_mem_nil, or_false] at hf
      rcases hf with rfl | rfl | rfl | rfl | rfl | rfl
      · exact absurd ⟨v, hv⟩ (not_name (by decide +kernel) (by decide +kernel))
      · exact absurd ⟨v, hv⟩ (not_name (by decide +kernel) (by decide +kernel))
      · exact absurd ⟨v, hv⟩ (not_name (by decide +kernel) (by decide +kernel))
      · exact absurd ⟨v, hv⟩ (not_name (by decide +kernel) (by decide +kernel))
      · exact fieldIs_unique (by decide +kernel) hv ⟨bs "Status:", by decide +kernel, by decide +kernel⟩
      · exact absurd ⟨v, hv⟩ (not_name (by decide +kernel) (by decide +kernel))
    · exact absurd ⟨v, hv⟩ a1

/-- The message has a meaning. -/
theorem exMessage_means (mk : Nat → Nat → Nat → Int) : MimeMeans mk (.message exMessage (exKept (mk 3 1 120))) := by
  refine .message (fields := exFields) (ct := some [.majorMinor (bs "multipart") (bs "mixed"), .nameValue (bs "boundary") (bs "xx")]) (cte := none) (cd := none)
    (headerOf_of (by decide +kernel) (by decide +kernel) (by decide +kernel) (unfolded_plain _ (by unfold Begins; decide))) (exFields_means mk) (.inr ?_) (.inl ⟨absent_field (by decide +kernel) (by decide +kernel), rfl⟩)
    (.inl ⟨absent_field (by decide +kernel) (by decide +kernel), rfl⟩) ?_
  · refine ⟨[bs "To: a@b", bs "FROM: =?utf-8?q?x_y?=", bs "Date: 3 Feb 2020 12:00", bs "to: c", bs "Status: RO"], bs "Content-Type: multipart/mixed; boundary=xx", [],
      bs " " ++ (bs "multipart" ++ bs "/" ++ bs "mixed") ++ [] ++ bs ";" ++ (bs " " ++ (bs "boundary" ++ bs "=" ++ [] ++ bs "xx") ++ []), _, rfl, absent_field (by decide +kernel) (by decide +kernel),
      ⟨bs "Content-Type:", by decide +kernel, by decide +kernel⟩, ?_, rfl⟩
    exact .more white_blank (.type (paramName_of (by decide +kernel) (by decide +kernel)) ⟨by decide +kernel, fun c hc => .inl ((paramName_of (t := bs "mixed") (by decide +kernel) (by decide +kernel)).2 c hc)⟩) white_nil
      (.last white_blank (.plain (.one (paramName_of (by decide +kernel) (by decide +kernel))) white_nil (valueChars_of (by decide +kernel) (by decide +kernel))) white_nil)
  · refine .multi (b := bs "xx") (ps := [exPart1, exPart2]) .none (.inl ⟨_, _, _, rfl, by decide +kernel⟩) ⟨[.majorMinor (bs "multipart") (bs "mixed")], bs "boundary", [], rfl, by decide +kernel, by simp⟩ ?_ ?_
    · refine ⟨by decide +kernel, by decide +kernel, bs "pre\n", bs "\n", _, enclosed_of [bs "pre"] (by decide +kernel) (by decide +kernel), .inl rfl, ?_, rfl⟩
      exact .more (enclosed_of [[], bs "hello --xx"] (by decide +kernel) (by decide +kernel)) (.inr rfl)
        (.last (enclosed_of [bs "Content-Type: image/png", bs "Content-Disposition: attachment;", bs " FileName=f.png", bs "Content-Transfer-Encoding: BASE64", [], bs "aGk="] (by decide +kernel) (by decide +kernel)))
    · exact .cons (exPart1_means mk) (.cons (exPart2_means mk) .nil)

example (mk : Nat → Nat → Nat → Int) (after : Text) : parseMessage mk exMessage after = .ok (some (exKept (mk 3 1 120)), .ok) := C47_parse_partial (exMessage_means mk) after

end Mairix
