import Verif.Proofs.MimeParts
import Verif.Proofs.MimeScan
import Verif.Props.Decode

/-!
# C47: messages are taken apart as they are meant
-/

namespace Mairix
open Spec

theorem toLower_space : ∀ c : UInt8, isSpace (toLower c) = isSpace c := forall_byte (by decide +kernel)
theorem toLower_idem : ∀ c : UInt8, toLower (toLower c) = toLower c := forall_byte (by decide +kernel)

theorem lower_lower (t : Text) : lower (lower t) = lower t := by
  simp [lower, List.map_map, Function.comp_def, toLower_idem]

theorem dropSpace_lower : ∀ t : Text, (lower t).dropWhile isSpace = lower (t.dropWhile isSpace)
  | [] => rfl
  | c :: t => by
    have : lower (c :: t) = toLower c :: lower t := rfl
    rw [this]
    by_cases h : isSpace c = true
    · rw [List.dropWhile_cons_of_pos h, List.dropWhile_cons_of_pos (by rw [toLower_space]; exact h), dropSpace_lower t]
    · rw [List.dropWhile_cons_of_neg h, List.dropWhile_cons_of_neg (by rw [toLower_space]; exact h)]
      rfl

theorem matchCte_lower (r t : Text) : matchCte r (lower t) = matchCte r t := by
  unfold matchCte
  rw [show ((lower t).take r.length).map toLower = lower (lower (t.take r.length)) from by simp [lower, List.map_take], lower_lower]
  rfl

theorem encoding_lower (w : Text) : decodeEncodingType (some w) = decodeEncodingType (some (lower w)) := by
  unfold decodeEncodingType
  simp only [dropSpace_lower, matchCte_lower]

/-- What the body stands for is what is decoded. -/
theorem decodes_ok {cte : Option Nvp} {t d : Text} (h : Decodes cte t d) : ∃ enc, bodyEncoding cte = some enc ∧ ∀ after, unencodeData (t ++ after) t.length enc = .ok d := by
  cases h with
  | none => exact ⟨none, rfl, fun after => C32_identity (.inl rfl) t after⟩
  | same hw =>
    refine ⟨_, rfl, fun after => C32_identity ?_ t after⟩
    rw [encoding_lower]
    simp only [List.mem_cons, List.not_mem_nil, or_false] at hw
    rcases hw with hw | hw | hw <;> rw [hw] <;> decide
  | base64 hw hb =>
    refine ⟨_, rfl, fun after => C32_decode ?_ hb after⟩
    rw [encoding_lower, hw]; decide
  | quoted hw hb =>
    refine ⟨_, rfl, fun after => C33_decode_partial ?_ hb after⟩
    rw [encoding_lower, hw]; decide

theorem decodes_length {cte : Option Nvp} {t d : Text} (h : Decodes cte t d) : d.length ≤ t.length := by
  cases h with
  | none => exact Nat.le_refl _
  | same hw => exact Nat.le_refl _
  | base64 hw hb =>
    have h1 := b64Encode_length d
    rw [← hb] at h1
    exact Nat.le_trans h1 (List.length_filter_le ..)
  | quoted hw hb => exact qpForm_length hb

theorem unfolded_unique {lines f1 f2 : List Text} (h1 : Unfolded lines f1) (h2 : Unfolded lines f2) : f1 = f2 := by
  have := C36_splice h1
  rw [C36_splice h2] at this
  simpa using this.symm

theorem headerOf_ok {t body : Text} {fields : List Text} (h : HeaderOf t fields body) : splitAndSplice t = .ok (some (fields, body)) ∧ ∃ hd, t = hd ++ body ∧ hd ≠ [] := by
  obtain ⟨lines, blank, rfl, hl, hb, ho, hu⟩ := h
  refine ⟨?_, (lines.map (· ++ bs "\n")).flatten ++ blank ++ bs "\n", rfl, by simp [show bs "\n" = [0x0a] from by decide]⟩
  obtain ⟨f, hf, e⟩ := (C36_read (body := body) hl hb).1 ho
  rw [e, unfolded_unique hf hu]

theorem append_attsAppend : ∀ a b : Attachments, a.append b = attsAppend a b
  | .nil, _ => rfl
  | .cons _ _ rest, b => by simp only [Attachments.append, attsAppend, append_attsAppend rest b]

theorem typeIs_major {ct : Nvp} {a b s : Text} (h : TypeIs ct a b) : isCase (ctMajor ct) s = decide (a = lower s) ∧ isCase (nvpMinor ct) s = decide (b = lower s) := by
  obtain ⟨m, u, ps, rfl, rfl, rfl⟩ := h
  exact ⟨rfl, rfl⟩

theorem majorIs_iff (ct : Nvp) (s : Text) : isCase (ctMajor ct) s = true ↔ MajorIs ct (lower s) := by
  unfold MajorIs
  constructor
  · intro h
    cases ct with
    | nil => simp [isCase, ctMajor, nvpMajor, nvpFirst] at h
    | cons e ps =>
      cases e with
      | name l => exact .inr ⟨l, ps, rfl, by simpa [isCase, ctMajor, nvpMajor, nvpFirst] using h⟩
      | nameValue l r => simp [isCase, ctMajor, nvpMajor, nvpFirst] at h
      | majorMinor l r => exact .inl ⟨l, r, ps, rfl, by simpa [isCase, ctMajor, nvpMajor] using h⟩
  · rintro (⟨m, u, ps, rfl, h⟩ | ⟨m, ps, rfl, h⟩)
    · simp [isCase, ctMajor, nvpMajor, h]
    · simp [isCase, ctMajor, nvpMajor, nvpFirst, h]

theorem typeIs_iff (ct : Nvp) (a b : Text) : (isCase (ctMajor ct) a = true ∧ isCase (nvpMinor ct) b = true) ↔ TypeIs ct (lower a) (lower b) := by
  unfold TypeIs
  constructor
  · rintro ⟨h1, h2⟩
    cases ct with
    | nil => simp [isCase, nvpMinor] at h2
    | cons e ps =>
      cases e with
      | name l => simp [isCase, nvpMinor] at h2
      | nameValue l r => simp [isCase, nvpMinor] at h2
      | majorMinor l r => exact ⟨l, r, ps, rfl, by simpa [isCase, ctMajor, nvpMajor] using h1, by simpa [isCase, nvpMinor] using h2⟩
  · rintro ⟨m, u, ps, rfl, h1, h2⟩
    simp [isCase, ctMajor, nvpMajor, nvpMinor, h1, h2]

theorem paramIs_lookup {n : Text} {es : Nvp} {v : Text} (hn : lower n = n) (h : ParamIs n es v) : nvpLookupCase n es = some v := by
  rw [C52_lookup, hn]; exact h

theorem paramNot_lookup {n : Text} (hn : lower n = n) : ∀ {es : Nvp}, ParamNot n es → nvpLookupCase n es = none := by
  intro es
  induction es with
  | nil => intro _; rfl
  | cons e es ih =>
    intro h
    have h' : ParamNot n es := fun m v hm => h m v (by simp [hm])
    cases e with
    | nameValue l r =>
      have := h l r (by simp)
      simp only [nvpLookupCase, hn, if_neg this, ih h']
    | name l => simp only [nvpLookupCase, ih h']
    | majorMinor l r => simp only [nvpLookupCase, ih h']

theorem exact_lookup {n f : Text} {b : Nvp} : ∀ {a : Nvp}, (∀ v, .nameValue n v ∉ a) → nvpLookup n (a ++ .nameValue n f :: b) = some f := by
  intro a
  induction a with
  | nil => intro _; simp [nvpLookup]
  | cons e a ih =>
    intro h
    have h' := ih (fun v hv => h v (by simp [hv]))
    cases e with
    | nameValue l r =>
      have : l ≠ n := by rintro rfl; exact h r (by simp)
      simp only [List.cons_append, nvpLookup, if_neg this, h']
    | name l => simp only [List.cons_append, nvpLookup, h']
    | majorMinor l r => simp only [List.cons_append, nvpLookup, h']

theorem exact_lookup_none {n : Text} : ∀ {a : Nvp}, (∀ v, .nameValue n v ∉ a) → nvpLookup n a = none := by
  intro a
  induction a with
  | nil => intro _; rfl
  | cons e a ih =>
    intro h
    have h' := ih (fun v hv => h v (by simp [hv]))
    cases e with
    | nameValue l r =>
      have : l ≠ n := by rintro rfl; exact h r (by simp)
      simp only [nvpLookup, if_neg this, h']
    | name l => simp only [nvpLookup, h']
    | majorMinor l r => simp only [nvpLookup, h']

theorem fileName_ok {ct : Nvp} {cd : Option Nvp} {o : Option Text} (h : FileNameIs ct cd o) : attFilename ct cd = o := by
  unfold attFilename
  rcases h with ⟨rfl, h⟩ | ⟨w, ps, rfl, hw, h⟩
  · cases cd with
    | none => rfl
    | some cd =>
      simp only
      rw [if_neg]
      cases cd with
      | nil => simp [isCase, nvpFirst]
      | cons e ps =>
        cases e with
        | name l =>
          have := h l ps rfl
          simp [isCase, nvpFirst, this, show lower (bs "attachment") = bs "attachment" from by decide]
        | nameValue l r => simp [isCase, nvpFirst]
        | majorMinor l r => simp [isCase, nvpFirst]
  · simp only
    rw [if_pos (by simp [isCase, nvpFirst, hw, show lower (bs "attachment") = bs "attachment" from by decide])]
    have hl : ∀ es, nvpLookupCase (bs "filename") (.name w :: es) = nvpLookupCase (bs "filename") es := fun es => rfl
    rw [hl]
    rcases h with ⟨f, hf, rfl⟩ | ⟨hf, h⟩
    · rw [paramIs_lookup (by decide) hf]
    · rw [paramNot_lookup (by decide) hf]
      rcases h with ⟨a, f, b, rfl, ha, rfl⟩ | ⟨ha, rfl⟩
      · exact exact_lookup ha
      · exact exact_lookup_none ha

/-- What the functions do with a text of each kind, if the depth of nesting is enough. -/
def MimeDone (mktime : Nat → Nat → Nat → Int) : MimeText → Prop
  | .message t r => ∀ n, t.length < n → ∀ after, (mime mktime n).message (t ++ after) t.length = .ok (some r, .ok)
  | .entity t a => ∀ n, t.length < n → ∀ after, (mime mktime n).part (t ++ after) t.length = .ok a
  | .body ct cte cd t a => ∀ n, t.length < n → ∀ after, doBody (mime mktime n) (t ++ after) t.length ct cte cd = .ok (a, .ok)
  | .parts ts a => ∀ n, (∀ t ∈ ts, t.length < n) → ∀ ps, Handed ps ts → (mime mktime n).parts ps = .ok a

theorem mime_done {mktime : Nat → Nat → Nat → Int} {g : MimeText} (h : MimeMeans mktime g) : MimeDone mktime g := by
  induction h with
  | @message t fields body h ct cte cd a ho hh h1 h2 h3 _ ih =>
    intro n hn after
    obtain ⟨e, hd, rfl, hne⟩ := headerOf_ok ho
    obtain ⟨n, rfl⟩ := Nat.exists_eq_succ_of_ne_zero (by omega : n ≠ 0)
    have hpos : 0 < hd.length := by cases hd with | nil => simp at hne | cons _ _ => simp
    simp only [List.length_append] at hn
    have e2 : (hd ++ body ++ after).drop ((hd ++ body).length - body.length) = body ++ after := by
      rw [List.append_assoc, List.drop_left' (by simp)]
    simp only [mime, dataToRfc822, List.take_left, e, bind, Except.bind, scan_means hh h1 h2 h3, e2, ih n (by omega) after]
  | @entity t fields body ct cte cd a ho h1 h2 h3 _ ih =>
    intro n hn after
    obtain ⟨e, hd, rfl, hne⟩ := headerOf_ok ho
    obtain ⟨n, rfl⟩ := Nat.exists_eq_succ_of_ne_zero (by omega : n ≠ 0)
    have hpos : 0 < hd.length := by cases hd with | nil => simp at hne | cons _ _ => simp
    simp only [List.length_append] at hn
    have e2 : (hd ++ body ++ after).drop ((hd ++ body).length - body.length) = body ++ after := by
      rw [List.append_assoc, List.drop_left' (by simp)]
    simp only [mime, doAttachment, List.take_left, e, bind, Except.bind, part_means h1 h2 h3, e2, ih n (by omega) after]
  | untyped hd =>
    intro n hn after
    obtain ⟨enc, e1, e2⟩ := decodes_ok hd
    simp only [doBody, e1, e2 after, bind, Except.bind]
    rfl
  | plain hd ht hf =>
    intro n hn after
    obtain ⟨enc, e1, e2⟩ := decodes_ok hd
    have t1 := fun s => (typeIs_major (s := s) ht).1
    have t2 := fun s => (typeIs_major (s := s) ht).2
    simp only [doBody, e1, e2 after, bind, Except.bind, doUnipart, t1, t2, fileName_ok hf]
    rfl
  | html hd ht hf =>
    intro n hn after
    obtain ⟨enc, e1, e2⟩ := decodes_ok hd
    have t1 := fun s => (typeIs_major (s := s) ht).1
    have t2 := fun s => (typeIs_major (s := s) ht).2
    simp only [doBody, e1, e2 after, bind, Except.bind, doUnipart, t1, t2, fileName_ok hf]
    rfl
  | @rfc822 ct cte cd t d f r hd ht hf _ ih =>
    intro n hn after
    obtain ⟨enc, e1, e2⟩ := decodes_ok hd
    have hl := decodes_length hd
    have t1 := fun s => (typeIs_major (s := s) ht).1
    have t2 := fun s => (typeIs_major (s := s) ht).2
    have d1 : ¬ bs "message" = lower (bs "multipart") := by decide
    have d2 : ¬ bs "message" = lower (bs "text") := by decide
    have d3 : bs "message" = lower (bs "message") := by decide
    have d4 : bs "rfc822" = lower (bs "rfc822") := by decide
    simp only [doBody, e1, e2 after, bind, Except.bind, doUnipart, t1, t2, fileName_ok hf, decide_eq_false d1, decide_eq_false d2, decide_eq_true d3, decide_eq_true d4, Bool.false_eq_true, if_false, Bool.and_self,
      if_true, ih n (by omega) [0]]
  | @multi ct cte cd t d b ps a hd hm hp ht _ ih =>
    intro n hn after
    obtain ⟨enc, e1, e2⟩ := decodes_ok hd
    have hl := decodes_length hd
    have m1 : isCase (ctMajor ct) (bs "multipart") = true := (majorIs_iff ct _).2 (by rw [show lower (bs "multipart") = bs "multipart" from by decide]; exact hm)
    obtain ⟨qs, s1, s2⟩ := splitParts_text ht
    have := multiText_length ht
    have i := ih n (fun p hp => by have := this p hp; omega) qs s2
    simp only [doBody, e1, e2 after, bind, Except.bind, m1, if_true, paramIs_lookup (n := bs "boundary") (by decide) hp, doMultipart, s1, i]
  | @other ct cte cd t d f hd n1 n2 n3 n4 hf =>
    intro n hn after
    obtain ⟨enc, e1, e2⟩ := decodes_ok hd
    have m1 : isCase (ctMajor ct) (bs "multipart") = false := by
      cases h : isCase (ctMajor ct) (bs "multipart") with
      | false => rfl
      | true => exact absurd (by have := (majorIs_iff ct _).1 h; rwa [show lower (bs "multipart") = bs "multipart" from by decide] at this) n4
    have k : ∀ a b : Text, lower a = a → lower b = b → ¬ TypeIs ct a b → isCase (ctMajor ct) a = true → isCase (nvpMinor ct) b = false := by
      intro a b ha hb hn h
      cases h' : isCase (nvpMinor ct) b with
      | false => rfl
      | true => exact absurd (by have := (typeIs_iff ct a b).1 ⟨h, h'⟩; rwa [ha, hb] at this) hn
    simp only [doBody, e1, e2 after, bind, Except.bind, m1, Bool.false_eq_true, if_false, fileName_ok hf, doUnipart]
    by_cases ht : isCase (ctMajor ct) (bs "text") = true
    · rw [if_pos ht, k _ _ (by decide) (by decide) n1 ht, k _ _ (by decide) (by decide) n2 ht]
      rfl
    · rw [if_neg ht]
      by_cases hm : isCase (ctMajor ct) (bs "message") = true
      · rw [hm, k _ _ (by decide) (by decide) n3 hm]
        rfl
      · rw [Bool.not_eq_true] at hm
        rw [hm]
        rfl
  | nil =>
    intro n _ ps hp
    cases hp
    rfl
  | cons _ _ ih1 ih2 =>
    intro n hn ps hp
    cases hp with
    | @cons _ after qs _ hq =>
      simp only [Mime.parts, ih1 n (hn _ (by simp)) after, ih2 n (fun t ht => hn t (by simp [ht])) qs hq, bind, Except.bind, append_attsAppend]

/-- **C47** in part: whatever a message consists of, if all of it has a meaning, then exactly that is kept of it: the values of its headers, and its texts, file names and inner messages in order, at any depth of nesting;
nothing else in memory matters. Missing: messages that are not of that form. -/
theorem C47_parse_partial {mktime : Nat → Nat → Nat → Int} {t : Text} {r : Rfc822} (h : MimeMeans mktime (.message t r)) (after : Text) : parseMessage mktime t after = .ok (some r, .ok) :=
  mime_done h (t.length + 1) (Nat.lt_succ_self _) after

end Mairix
